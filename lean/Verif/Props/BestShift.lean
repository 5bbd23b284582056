import Verif.Props.AteParts
import Verif.Props.ConstantError
import Verif.Proofs.Pose

/-! C220: the reported bias is the shift that makes the position error smallest. -/

namespace TC

set_option linter.unusedSectionVars false

variable {K R : Type} [Field K] [LinearOrder K] [IsStrictOrderedRing K]

/-- Specification: the three biases of a comparison are the components of `b`. -/
def BiasIs (r : AteResult K R) (b : V3 K) : Prop :=
  r.posBiasX = .ok b.x ∧ r.posBiasY = .ok b.y ∧ r.posBiasZ = .ok b.z

theorem mean_shift {l : List K} (hl : l ≠ []) {m : K} (h : npMean l = .ok m) (c : K) :
    npMean (l.map (fun x => x - c)) = .ok (m - c) := by
  have hn : l.length ≠ 0 := by simpa using hl
  have hk : (l.length : K) ≠ 0 := Nat.cast_ne_zero.2 hn
  unfold npMean at h ⊢
  rw [if_neg hn, Except.ok.injEq] at h
  rw [List.length_map, if_neg hn, ← h]
  congr 1
  have : (l.map (fun x => x - c)).sum = l.sum - (l.length : K) * c := by
    clear h hk hn hl
    induction l with
    | nil => simp
    | cons x l ih => simp only [List.map_cons, List.sum_cons, ih, List.length_cons]; push_cast; ring
  rw [this]
  field_simp

theorem sum_of_mean {l : List K} (hl : l ≠ []) {m : K} (h : npMean l = .ok m) : l.sum = (l.length : K) * m := by
  have hn : l.length ≠ 0 := by simpa using hl
  have hk : (l.length : K) ≠ 0 := Nat.cast_ne_zero.2 hn
  unfold npMean at h
  rw [if_neg hn, Except.ok.injEq] at h
  rw [← h]
  field_simp

/-- the mean square of vectors that are all changed by the same vector -/
theorem sumSq_shift (ws : List (V3 K)) (v : V3 K) :
    ((ws.map (fun w => w - v)).map V3.normSq).sum = (ws.map V3.normSq).sum -
      2 * (v.x * (ws.map V3.x).sum + v.y * (ws.map V3.y).sum + v.z * (ws.map V3.z).sum) + (ws.length : K) * V3.normSq v := by
  induction ws with
  | nil => simp
  | cons w ws ih =>
    simp only [List.map_cons, List.sum_cons, ih, List.length_cons]
    push_cast
    simp only [V3.normSq, V3.sub_x, V3.sub_y, V3.sub_z]
    ring

theorem rms_sq {E : EvalLib K} (hE : IsEvalLib E) {ws : List (V3 K)} (hne : ws ≠ []) {r : K}
    (h : rms E (ws.map E.nrm) = .ok r) : 0 ≤ r ∧ (ws.length : K) * (r * r) = (ws.map V3.normSq).sum := by
  have hn : ws.length ≠ 0 := by simpa using hne
  have hk : (0 : K) < ws.length := Nat.cast_pos.2 (Nat.pos_of_ne_zero hn)
  have e : (ws.map E.nrm).map (fun x => x ^ 2) = ws.map V3.normSq := by
    rw [List.map_map]
    refine List.map_congr_left (fun w _ => ?_)
    simp only [Function.comp, pow_two, hE.nrm.sq]
  unfold rms at h
  rw [e] at h
  unfold npMean at h
  rw [List.length_map, if_neg hn] at h
  simp only [bind, Except.bind, pure, Except.pure, Except.ok.injEq] at h
  have h0 : 0 ≤ (ws.map V3.normSq).sum / (ws.length : K) := by
    refine div_nonneg (List.sum_nonneg ?_) hk.le
    intro x hx
    obtain ⟨w, -, rfl⟩ := List.mem_map.1 hx
    rw [← hE.nrm.sq]
    exact mul_self_nonneg _
  rw [← h]
  refine ⟨hE.sqrt_nonneg _ h0, ?_⟩
  rw [hE.sqrt_sq _ h0]
  field_simp

/-- **C220**: if the estimate is shifted by `v`, every deviation and the bias `b` change by `v`, and the squared root mean
square error becomes its old value minus `‖b‖²` plus `‖b - v‖²`. -/
theorem C220_shifted {E : EvalLib K} (hE : IsEvalLib E) {L : RotLib K R} {T T' U : Traj K R} (hT : Coherent T)
    (hne : T.tstamps ≠ []) (hlen : T.pos.length = U.pos.length) {A : M4 K} {v b : V3 K} (hA : poseRot A = 1) (hv : posePos A = v)
    (hm : Returns (Traj.applyTransformation L A) T () T') {a a' : AteResult K R} (ha : compareAbsolute E L T U = .ok a)
    (ha' : compareAbsolute E L T' U = .ok a') (hb : BiasIs a b) {r r' : K} (hr : a.posDevRms E = .ok r)
    (hr' : a'.posDevRms E = .ok r') :
    a'.posDev = a.posDev.map (fun d => d - v) ∧ BiasIs a' (b - v) ∧
      r' * r' = r * r - V3.normSq b + V3.normSq (b - v) := by
  have e := congrArg Prod.snd (hm.symm.trans (applyTransformation_eq L hT hne A))
  simp only at e
  have hp : T'.pos = T.pos.map (fun p => p + v) := by
    rw [e]
    simp only [hA, hv]
    refine List.map_congr_left (fun p _ => ?_)
    congr 1
    ext <;> simp [mulV]
  have h1 := (compareAbsolute_fields ha).1
  have h2 := (compareAbsolute_fields ha').1
  rw [bcast_same _ hlen.symm, Except.ok.injEq] at h1
  rw [bcast_same _ (by rw [hp]; simpa using hlen.symm), Except.ok.injEq] at h2
  have hdev : a'.posDev = a.posDev.map (fun d => d - v) := by
    rw [← h1, ← h2, hp, List.zipWith_map_right, List.map_zipWith]
    congr 1
    funext p q
    abel
  have hn : a.posDev ≠ [] := by
    intro h0
    rw [h0] at h1
    have := congrArg List.length h1
    simp only [List.length_zipWith, List.length_nil] at this
    have h3 : T.pos.length = 0 := by omega
    rw [hT.pos] at h3
    exact hne (List.length_eq_zero_iff.1 h3)
  have hx : ∀ f : V3 K → K, a.posDev.map f ≠ [] := fun f => by simpa using hn
  refine ⟨hdev, ⟨?_, ?_, ?_⟩, ?_⟩
  · unfold AteResult.posBiasX
    rw [hdev, List.map_map]
    simpa [List.map_map, Function.comp_def] using mean_shift (hx V3.x) hb.1 v.x
  · unfold AteResult.posBiasY
    rw [hdev, List.map_map]
    simpa [List.map_map, Function.comp_def] using mean_shift (hx V3.y) hb.2.1 v.y
  · unfold AteResult.posBiasZ
    rw [hdev, List.map_map]
    simpa [List.map_map, Function.comp_def] using mean_shift (hx V3.z) hb.2.2 v.z
  · have hk : (a.posDev.length : K) ≠ 0 := Nat.cast_ne_zero.2 (by simpa using hn)
    have q1 := (rms_sq hE hn hr).2
    have q2 := (rms_sq hE (ws := a'.posDev) (by rw [hdev]; simpa using hn) hr').2
    rw [hdev, sumSq_shift, List.length_map, ← q1] at q2
    have sx := sum_of_mean (hx V3.x) hb.1
    have sy := sum_of_mean (hx V3.y) hb.2.1
    have sz := sum_of_mean (hx V3.z) hb.2.2
    rw [List.length_map] at sx sy sz
    rw [sx, sy, sz] at q2
    refine mul_left_cancel₀ hk (q2.trans ?_)
    simp only [V3.normSq, V3.sub_x, V3.sub_y, V3.sub_z]
    ring

/-- **C220**: no shift of the estimate gives a smaller root mean square error than the shift by the bias, every other
shift a larger one, and after that shift the bias is zero. -/
theorem C220_best_shift {E : EvalLib K} (hE : IsEvalLib E) {L : RotLib K R} {T T₁ T₂ U : Traj K R} (hT : Coherent T)
    (hne : T.tstamps ≠ []) (hlen : T.pos.length = U.pos.length) {A₁ A₂ : M4 K} {v b : V3 K} (hA₁ : poseRot A₁ = 1)
    (hv₁ : posePos A₁ = b) (hA₂ : poseRot A₂ = 1) (hv₂ : posePos A₂ = v)
    (hm₁ : Returns (Traj.applyTransformation L A₁) T () T₁) (hm₂ : Returns (Traj.applyTransformation L A₂) T () T₂)
    {a a₁ a₂ : AteResult K R} (ha : compareAbsolute E L T U = .ok a) (ha₁ : compareAbsolute E L T₁ U = .ok a₁)
    (ha₂ : compareAbsolute E L T₂ U = .ok a₂) (hb : BiasIs a b) {r₁ r₂ : K} (hr₁ : a₁.posDevRms E = .ok r₁)
    (hr₂ : a₂.posDevRms E = .ok r₂) :
    BiasIs a₁ 0 ∧ r₁ ≤ r₂ ∧ (r₁ = r₂ ↔ v = b) := by
  have hn : ∀ {x : AteResult K R} {c d e : K}, x.posBiasX = .ok c → x.posDev ≠ [] := by
    intro x c d e h h0
    unfold AteResult.posBiasX npMean at h
    rw [h0] at h
    simp at h
  obtain ⟨r, hr⟩ : ∃ r, a.posDevRms E = .ok r := by
    have h0 : (a.posDevComb E).length ≠ 0 := by
      have := hn (d := (0 : K)) (e := (0 : K)) hb.1
      simpa [AteResult.posDevComb] using this
    unfold AteResult.posDevRms rms npMean
    rw [List.length_map, if_neg h0]
    exact ⟨_, rfl⟩
  obtain ⟨-, b1, q1⟩ := C220_shifted hE hT hne hlen hA₁ hv₁ hm₁ ha ha₁ hb hr hr₁
  obtain ⟨-, b2, q2⟩ := C220_shifted hE hT hne hlen hA₂ hv₂ hm₂ ha ha₂ hb hr hr₂
  have n1 := (rms_sq hE (hn (d := (0 : K)) (e := (0 : K)) b1.1) hr₁).1
  have n2 := (rms_sq hE (hn (d := (0 : K)) (e := (0 : K)) b2.1) hr₂).1
  rw [sub_self] at b1 q1
  have z : V3.normSq (0 : V3 K) = 0 := by simp [V3.normSq]
  rw [z, add_zero] at q1
  have hsq : 0 ≤ V3.normSq (b - v) := by
    rw [← hE.nrm.sq]
    exact mul_self_nonneg _
  refine ⟨b1, ?_, ?_⟩
  · rw [mul_self_le_mul_self_iff n1 n2]
    linarith
  · constructor
    · intro h
      subst h
      have h0 : V3.normSq (b - v) = 0 := by linarith
      rw [← hE.nrm.sq, mul_self_eq_zero] at h0
      exact (sub_eq_zero.1 (hE.nrm.eq_zero h0)).symm
    · rintro rfl
      rw [sub_self, z, add_zero] at q2
      exact (mul_self_inj n1 n2).1 (q1.trans q2.symm)

/-- **C220**: the root mean square error is at least the length of the bias. -/
theorem C220_bias_le_rms {E : EvalLib K} (hE : IsEvalLib E) {a : AteResult K R} {b : V3 K} (hb : BiasIs a b) {r : K}
    (hr : a.posDevRms E = .ok r) : E.nrm b ≤ r := by
  have hn : a.posDev ≠ [] := by
    intro h0
    have h := hb.1
    unfold AteResult.posBiasX npMean at h
    rw [h0] at h
    simp at h
  have hx : ∀ f : V3 K → K, a.posDev.map f ≠ [] := fun f => by simpa using hn
  have hk : (0 : K) < a.posDev.length := Nat.cast_pos.2 (Nat.pos_of_ne_zero (by simpa using hn))
  obtain ⟨h0, q⟩ := rms_sq hE hn hr
  have s := sumSq_shift a.posDev b
  have sx := sum_of_mean (hx V3.x) hb.1
  have sy := sum_of_mean (hx V3.y) hb.2.1
  have sz := sum_of_mean (hx V3.z) hb.2.2
  rw [List.length_map] at sx sy sz
  rw [sx, sy, sz, ← q] at s
  have nn : 0 ≤ ((a.posDev.map (fun w => w - b)).map V3.normSq).sum := by
    refine List.sum_nonneg ?_
    intro x hx
    obtain ⟨w, -, rfl⟩ := List.mem_map.1 hx
    rw [← hE.nrm.sq]
    exact mul_self_nonneg _
  rw [mul_self_le_mul_self_iff (hE.nrm.nonneg b) h0, hE.nrm.sq]
  rw [s] at nn
  have : 0 ≤ (a.posDev.length : K) * (r * r - V3.normSq b) := by
    have e : (a.posDev.length : K) * (r * r - V3.normSq b) = (a.posDev.length : K) * (r * r) -
        2 * (b.x * ((a.posDev.length : K) * b.x) + b.y * ((a.posDev.length : K) * b.y) + b.z * ((a.posDev.length : K) * b.z)) +
        (a.posDev.length : K) * V3.normSq b := by
      simp only [V3.normSq]
      ring
    rw [e]
    exact nn
  have := nonneg_of_mul_nonneg_right this hk
  linarith

/-! ### The hypotheses are met -/

/-- errors of 1, 3 and 5 upwards: the bias is -3, and after the shift by it the mean square error (the stand-in for the
square root is the identity) is 8/3 instead of 35/3 -/
example : ((compareAbsolute exTallLib headingLib (exStages [(0, 1, 0), (1, 3, 10), (2, 5, 20)])
        (exStages [(0, 0, 0), (1, 0, 0), (2, 0, 0)])).toOption.map
      fun r => (r.posBiasX.toOption, r.posBiasY.toOption, r.posBiasZ.toOption, (r.posDevRms exTallLib).toOption)) =
        some (some 0, some 0, some (-3), some (35 / 3)) ∧
    poseRot (mkPose (1 : M3 ℚ) ⟨0, 0, -3⟩) = 1 ∧ posePos (mkPose (1 : M3 ℚ) ⟨0, 0, -3⟩) = ⟨0, 0, -3⟩ ∧
    ((compareAbsolute exTallLib headingLib
        (Traj.applyTransformation headingLib (mkPose 1 ⟨0, 0, -3⟩) (exStages [(0, 1, 0), (1, 3, 10), (2, 5, 20)])).2
        (exStages [(0, 0, 0), (1, 0, 0), (2, 0, 0)])).toOption.map
      fun r => (r.posBiasZ.toOption, (r.posDevRms exTallLib).toOption)) = some (some 0, some (8 / 3)) :=
  ⟨by decide +kernel, poseRot_mkPose _ _, posePos_mkPose _ _, by decide +kernel⟩

/-- library routines that are right exist -/
example : IsEvalLib realEval := realEval_ok

end TC
