import Verif.Proofs.Eval
import Verif.Props.Transform
import Mathlib.Analysis.SpecialFunctions.Trigonometric.Inverse
/-!
# C59, C60, C61, C102, C103, C104: absolute comparison
-/
namespace TC
set_option linter.unusedSectionVars false
variable {K R : Type} [Field K] [LinearOrder K] [IsStrictOrderedRing K]

theorem zipWith_self {α β : Type} (f : α → α → β) (l : List α) :
    List.zipWith f l l = l.map (fun a => f a a) := by
  induction l with
  | nil => rfl
  | cons a l ih => simp

/-- **C59.** A trajectory compared with itself has no position deviation, no deviation in any
direction, and with orientations every rotation deviation is the identity, of angle 0. -/
theorem C59_self_comparison (E : EvalLib K) (hE : IsEvalLib E) (L : RotLib K R) (hL : IsRotLib L)
    (T : Traj K R) (hT : Coherent T) :
    ∃ a, compareAbsolute E L T T = .ok a ∧
      a.posDev = List.replicate T.tstamps.length 0 ∧
      a.directed = List.replicate T.tstamps.length 0 ∧
      (T.rot = none → a.rotDev = none) ∧
      (∀ r, T.rot = some r → ∃ d, a.rotDev = some d ∧ d.length = T.tstamps.length ∧
        ∀ q ∈ d, L.toMat q = 1 ∧ rotAngle E (L.toMat q) = 0) := by
  obtain ⟨dir, h1, h2, h3⟩ := compareAbsolute_eq E L hT hT rfl
  refine ⟨_, h3, ?_, ?_, ?_, ?_⟩
  · simp only [zipWith_self]
    rw [← hT.pos]
    simp
  · rw [List.eq_replicate_iff]
    refine ⟨h2, ?_⟩
    intro v hv
    rcases hr : T.rot with _ | r
    · rw [hr] at h1
      obtain ⟨i, hi, hd⟩ := mapE_mem h1 hv
      have hi' := List.mem_range.1 hi
      obtain ⟨a, b, hl, hb, ha⟩ := trackLine_isSome (ref := T.pos) rfl hi'
      by_cases hlast : i + 1 = T.pos.length
      · rw [devNoRot_eq E rfl hi' (hb hlast) hl] at hd
        injection hd with hd
        rw [← hd, crossTrackDev_of_nearest hE (nearestPoint_end hE a b)]
        simp only [hlast, decide_true, alongTrackDev_end hE]
        rfl
      · rw [devNoRot_eq E rfl hi' (ha hlast) hl] at hd
        injection hd with hd
        rw [← hd, crossTrackDev_of_nearest hE (by rw [nearestPoint_start])]
        simp only [hlast, decide_false, alongTrackDev_start]
        rfl
    · rw [hr] at h1
      have e := devDirectionsWithRot_eq (ref := T.pos) (test := T.pos) (rot := r.map L.toMat) rfl
        (by simp [hT.rot r hr, hT.pos])
      have h1' : devDirectionsWithRot T.pos T.pos (r.map L.toMat) = .ok dir := h1
      rw [e] at h1'
      injection h1' with h1'
      rw [← h1', zipWith_self] at hv
      obtain ⟨i, hi, rfl⟩ := List.mem_iff_getElem.1 hv
      simp
  · intro hr
    simp only [hr]
  · intro r hr
    simp only [hr, zipWith_self]
    refine ⟨_, rfl, by simp [hT.rot r hr], ?_⟩
    intro q hq
    obtain ⟨o, _, rfl⟩ := List.mem_map.1 hq
    have h : L.toMat (L.mul o (L.inv o)) = 1 := by
      rw [hL.toMat_mul, hL.toMat_inv]; exact (hL.rot o).1
    refine ⟨h, ?_⟩
    rw [h]
    unfold rotAngle
    have : (1 / 2 : K) * ((1 : M3 K) 0 0 + (1 : M3 K) 1 1 + (1 : M3 K) 2 2 - 1) = 1 := by
      simp; norm_num
    rw [this, hE.acos_one]

/-- **C60.** With orientations in one of the trajectories the directed deviations are, sample by
sample, as long as the position deviations. -/
theorem C60_directed_deviations_have_full_length (E : EvalLib K) (L : RotLib K R)
    (hL : IsRotLib L) (test ref : Traj K R) (hT : Coherent test) (hR : Coherent ref)
    (hlen : ref.tstamps.length = test.tstamps.length)
    (hrot : ref.rot ≠ none ∨ test.rot ≠ none) :
    ∃ a, compareAbsolute E L test ref = .ok a ∧ a.directed.length = test.tstamps.length ∧
      a.directed.map V3.normSq = a.posDev.map V3.normSq := by
  obtain ⟨dir, h1, h2, h3⟩ := compareAbsolute_eq E L hT hR hlen
  refine ⟨_, h3, h2, ?_⟩
  rcases h : rotEither ref.rot test.rot with _ | r
  · exfalso
    unfold rotEither at h
    rcases h4 : ref.rot with _ | r'
    · rw [h4] at h hrot; simp at hrot; exact hrot h
    · rw [h4] at h; simp at h
  · have hr : r.length = ref.pos.length := by
      unfold rotEither at h
      rcases h3 : ref.rot with _ | r'
      · rw [h3] at h; rw [hT.rot r h, hR.pos, hlen]
      · rw [h3] at h; injection h with h; subst h; rw [hR.rot _ h3, hR.pos]
    rw [h] at h1
    have h1' : devDirectionsWithRot ref.pos test.pos (r.map L.toMat) = .ok dir := h1
    rw [devDirectionsWithRot_eq (by rw [hT.pos, hR.pos, hlen]) (by simp [hr])] at h1'
    injection h1' with h1'
    simp only
    rw [← h1']
    apply List.ext_getElem
    · simp [hr, hT.pos, hR.pos, hlen]
    intro i h4 h5
    simp only [List.getElem_map, List.getElem_zipWith]
    rw [normSq_mulV (hL.rot _).transpose]
    simp only [V3.normSq, V3.sub_x, V3.sub_y, V3.sub_z]
    ring

/-- the trace does not change if a matrix is conjugated with a rotation -/
theorem trace_conj {A M : M3 K} (hA : IsRot A) :
    (A * M * A.transpose) 0 0 + (A * M * A.transpose) 1 1 + (A * M * A.transpose) 2 2
      = M 0 0 + M 1 1 + M 2 2 := by
  have h1 : Matrix.trace (A * M * A.transpose) = Matrix.trace M := by
    rw [Matrix.trace_mul_comm, ← mul_assoc, mul_eq_one_comm.1 hA.1, one_mul]
  simpa [Matrix.trace, Fin.sum_univ_three] using h1

theorem MovedBy.coherent {L : RotLib K R} {A : M4 K} {T T' : Traj K R} (h : MovedBy L A T T')
    (hT : Coherent T) : Coherent T' := by
  refine ⟨by rw [h.pos, h.tstamps, List.length_map, hT.pos], by rw [h.arc, h.tstamps, hT.arc],
    by rw [h.speed, h.tstamps, hT.speed], ?_⟩
  intro r' hr'
  have := h.rot
  rw [hr'] at this
  rcases hr : T.rot with _ | r
  · rw [hr] at this; simp at this
  · rw [hr] at this
    simp at this
    have := congrArg List.length this
    simp at this
    rw [this, h.tstamps, hT.rot r hr]

theorem MovedBy.rot_none {L : RotLib K R} {A : M4 K} {T T' : Traj K R} (h : MovedBy L A T T') :
    T'.rot = none ↔ T.rot = none := by
  have := h.rot
  rcases hr : T.rot with _ | r <;> rcases hr' : T'.rot with _ | r' <;> rw [hr, hr'] at this <;>
    simp_all

theorem MovedBy.rot_some {L : RotLib K R} {A : M4 K} {T T' : Traj K R} (h : MovedBy L A T T')
    {r : List R} (hr : T.rot = some r) : ∃ r', T'.rot = some r' ∧
      r'.map L.toMat = r.map (fun q => poseRot A * L.toMat q) := by
  have := h.rot
  rcases hr' : T'.rot with _ | r' <;> rw [hr, hr'] at this <;> simp at this
  exact ⟨r', rfl, by simpa using this⟩

/-- what `apply_transformation` with a rigid motion does to a trajectory with orientations -/
theorem applyTransformation_movedBy (L : RotLib K R) (hL : IsRotLib L) (T : Traj K R)
    (hT : Coherent T) (hne : T.tstamps ≠ []) (r : List R) (hr : T.rot = some r) (A : M4 K)
    (hA : IsRigid A) :
    ∃ T', Returns (Traj.applyTransformation L A) T () T' ∧ MovedBy L A T T' := by
  obtain ⟨T', r', h1, _, h2, h3, h4, h5, h6, h7, h8, h9, h10⟩ :=
    C17_rigid_motion_moves_every_pose L hL T hT hne r hr A hA
  exact ⟨T', h1, hA, h3, by rw [h2, hr]; simpa using h4, h5, h6, h7, h8, h9, h10⟩

/-- **C61.** Moving both trajectories by the same rigid motion changes no length of a position
deviation (so no ATE statistics of positions), no rotation angle of a rotation deviation and, if
there are orientations, no directed deviation. -/
theorem C61_common_motion_changes_nothing (E : EvalLib K) (hE : IsEvalLib E) (L : RotLib K R)
    (hL : IsRotLib L) (test ref test' ref' : Traj K R) (hT : Coherent test) (hR : Coherent ref)
    (hlen : ref.tstamps.length = test.tstamps.length) (A : M4 K)
    (hm : MovedBy L A test test') (hm' : MovedBy L A ref ref') :
    ∃ a a', compareAbsolute E L test ref = .ok a ∧ compareAbsolute E L test' ref' = .ok a' ∧
      a'.posDevComb E = a.posDevComb E ∧ a'.rotDevComb E L = a.rotDevComb E L ∧
      a'.rotDev.isSome = a.rotDev.isSome ∧ a'.rotationsUsed = a.rotationsUsed ∧
      (a.rotationsUsed = true → a'.directed = a.directed) := by
  obtain ⟨dir, h1, h2, h3⟩ := compareAbsolute_eq E L hT hR hlen
  have hT' := hm.coherent hT
  have hR' := hm'.coherent hR
  obtain ⟨dir', h1', h2', h3'⟩ := compareAbsolute_eq E L hT' hR'
    (by rw [hm.tstamps, hm'.tstamps, hlen])
  have hA := hm.rigid.rot
  have hdiff : ∀ p q : V3 K, mulV (poseRot A) p + posePos A - (mulV (poseRot A) q + posePos A)
      = mulV (poseRot A) (p - q) := by
    intro p q; rw [mulV_sub]; abel
  have hpl : ref.pos.length = test.pos.length := by rw [hT.pos, hR.pos, hlen]
  have hposdev : (List.zipWith (fun a b => a - b) ref'.pos test'.pos).map E.nrm
      = (List.zipWith (fun a b => a - b) ref.pos test.pos).map E.nrm := by
    rw [hm.pos, hm'.pos]
    apply List.ext_getElem (by simp)
    intro i h4 h5
    simp only [List.getElem_map, List.getElem_zipWith, hdiff]
    rw [hE.nrm.mulV hA]
  have hkey : ∀ (T T' : Traj K R) (r : List R), MovedBy L A T T' → T.rot = some r →
      ∃ r', T'.rot = some r' ∧ r'.map L.toMat = r.map (fun q => poseRot A * L.toMat q) :=
    fun T T' r h hr => h.rot_some hr
  refine ⟨_, _, h3, h3', hposdev, ?_, ?_, ?_, ?_⟩
  · -- rotation angles
    rcases hr : ref.rot with _ | r
    · rcases ht : test.rot with _ | t <;>
        simp [AteResult.rotDevComb, (hm'.rot_none).2 hr, hm.pos, hm'.pos]
    · obtain ⟨r', hr', er⟩ := hkey _ _ r hm' hr
      rcases ht : test.rot with _ | t
      · simp [AteResult.rotDevComb, (hm.rot_none).2 ht, hr', hm.pos, hm'.pos]
      · obtain ⟨t', ht', et⟩ := hkey _ _ t hm ht
        simp only [AteResult.rotDevComb, hr', ht', List.map_zipWith, hL.toMat_mul, hL.toMat_inv]
        have hl1 : r'.length = r.length := by
          have := congrArg List.length er; simpa using this
        have hl2 : t'.length = t.length := by
          have := congrArg List.length et; simpa using this
        apply List.ext_getElem (by simp [hl1, hl2])
        intro i h4 h5
        simp only [List.length_zipWith, lt_min_iff] at h4 h5
        simp only [List.getElem_zipWith]
        have e1 : L.toMat r'[i] = poseRot A * L.toMat r[i] := by
          have := List.getElem_of_eq er (i := i) (by simp [h4.1])
          simpa using this
        have e2 : L.toMat t'[i] = poseRot A * L.toMat t[i] := by
          have := List.getElem_of_eq et (i := i) (by simp [h4.2])
          simpa using this
        rw [e1, e2]
        unfold rotAngle
        rw [Matrix.transpose_mul]
        have e3 : poseRot A * L.toMat r[i] * ((L.toMat t[i]).transpose * (poseRot A).transpose)
            = poseRot A * (L.toMat r[i] * (L.toMat t[i]).transpose) * (poseRot A).transpose := by
          simp only [mul_assoc]
        rw [e3, trace_conj hA]
  · rcases hr : ref.rot with _ | r
    · simp [(hm'.rot_none).2 hr]
    · obtain ⟨r', hr', _⟩ := hkey _ _ r hm' hr
      rcases ht : test.rot with _ | t
      · simp [(hm.rot_none).2 ht, hr']
      · obtain ⟨t', ht', _⟩ := hkey _ _ t hm ht
        simp [hr', ht']
  · rcases hr : ref.rot with _ | r
    · rcases ht : test.rot with _ | t
      · simp [(hm'.rot_none).2 hr, (hm.rot_none).2 ht, rotEither]
      · obtain ⟨t', ht', _⟩ := hkey _ _ t hm ht
        simp [(hm'.rot_none).2 hr, ht', rotEither]
    · obtain ⟨r', hr', _⟩ := hkey _ _ r hm' hr
      simp [hr', rotEither]
  · intro hused
    simp only at hused ⊢
    have hboth : ∃ s s', rotEither ref.rot test.rot = some s ∧ rotEither ref'.rot test'.rot = some s' ∧
        s'.map L.toMat = s.map (fun q => poseRot A * L.toMat q) ∧ s.length = ref.pos.length := by
      rcases hr : ref.rot with _ | r
      · rcases ht : test.rot with _ | t
        · rw [hr, ht] at hused; simp [rotEither] at hused
        · obtain ⟨t', ht', et⟩ := hkey _ _ t hm ht
          exact ⟨t, t', by simp [rotEither], by simp [rotEither, (hm'.rot_none).2 hr, ht'],
            et, by rw [hT.rot t ht, hR.pos, hlen]⟩
      · obtain ⟨r', hr', er⟩ := hkey _ _ r hm' hr
        exact ⟨r, r', by simp [rotEither], by simp [rotEither, hr'], er, by rw [hR.rot r hr, hR.pos]⟩
    obtain ⟨s, s', es, es', em, hl⟩ := hboth
    rw [es] at h1
    rw [es'] at h1'
    have h4 : devDirectionsWithRot ref.pos test.pos (s.map L.toMat) = .ok dir := h1
    have h4' : devDirectionsWithRot ref'.pos test'.pos (s'.map L.toMat) = .ok dir' := h1'
    rw [devDirectionsWithRot_eq hpl (by simp [hl])] at h4
    rw [em, devDirectionsWithRot_eq (by simp [hm.pos, hm'.pos, hpl]) (by simp [hm'.pos, hl])] at h4'
    injection h4 with h4
    injection h4' with h4'
    rw [← h4, ← h4', hm.pos, hm'.pos]
    apply List.ext_getElem (by simp)
    intro i h5 h6
    simp only [List.getElem_map, List.getElem_zipWith, hdiff]
    rw [Matrix.transpose_mul, mulV_mulV, ← mulV_mulV (poseRot A).transpose, mul_eq_one_comm.1 hA.1,
      mulV_one]

/-! ### directions without orientations -/

/-- the reported directions of one sample, when neither trajectory has orientations -/
theorem directed_of_sample (E : EvalLib K) (L : RotLib K R) {test ref : Traj K R}
    (hT : Coherent test) (hR : Coherent ref) (hlen : ref.tstamps.length = test.tstamps.length)
    (hr : ref.rot = none) (ht : test.rot = none) :
    ∃ a, compareAbsolute E L test ref = .ok a ∧
      a.posDev = List.zipWith (fun a b => a - b) ref.pos test.pos ∧
      ∀ (i : Nat) p c d, test.pos[i]? = some p → trackLine ref.pos test.pos.length i = some (c, d) →
        a.directed[i]? = some ⟨alongTrackDev E p c d (decide (i + 1 = test.pos.length)),
          (crossTrackDev E p c d).1, (crossTrackDev E p c d).2⟩ := by
  obtain ⟨dir, h1, h2, h3⟩ := compareAbsolute_eq E L hT hR hlen
  refine ⟨_, h3, rfl, ?_⟩
  intro i p c d hp hl
  have hi : i < test.pos.length := (List.getElem?_eq_some_iff.1 hp).1
  rw [hr, ht] at h1
  have h4 : devDirectionsNoRot E ref.pos test.pos = .ok dir := h1
  obtain ⟨b, hb, hd⟩ := mapE_getElem? h4 (List.getElem?_range hi)
  rw [devNoRot_eq E (by rw [hT.pos, hR.pos, hlen]) hi hp hl] at hb
  injection hb with hb
  rw [hb]
  exact hd

theorem alongTrackDev_not_last {E : EvalLib K} (hE : IsEvalLib E) {p a b : V3 K} (hab : a ≠ b) :
    alongTrackDev E p a b false = V3.dot (p - a) (b - a) / E.nrm (b - a) := by
  have hv : b - a ≠ 0 := fun h => hab (sub_eq_zero.1 h).symm
  have hn := nrm_pos hE.nrm hv
  unfold alongTrackDev
  rw [nearestPoint_of_ne hE hab]
  simp only [if_true]
  rw [show a + (V3.dot (p - a) (b - a) / (b - a).normSq) • (b - a) - a
    = (V3.dot (p - a) (b - a) / (b - a).normSq) • (b - a) by abel, hE.nrm.smul, ← hE.nrm.sq (b - a)]
  rw [show |V3.dot (p - a) (b - a) / (E.nrm (b - a) * E.nrm (b - a))| * E.nrm (b - a)
    = |V3.dot (p - a) (b - a) / E.nrm (b - a)| by
      rw [abs_div, abs_div, abs_mul, abs_of_pos hn]; field_simp]
  rw [npSign_mul_abs]

theorem alongTrackDev_last {E : EvalLib K} (hE : IsEvalLib E) {p a b : V3 K} (hab : a ≠ b) :
    alongTrackDev E p a b true =
      if -(b - a).normSq < V3.dot (p - a) (b - a) then V3.dot (p - b) (b - a) / E.nrm (b - a)
      else -(V3.dot (p - b) (b - a) / E.nrm (b - a)) := by
  have hv : b - a ≠ 0 := fun h => hab (sub_eq_zero.1 h).symm
  have hn := nrm_pos hE.nrm hv
  have hsq := hE.nrm.sq (b - a)
  unfold alongTrackDev
  rw [nearestPoint_of_ne hE hab]
  simp only [Bool.true_eq_false, if_false]
  set s := V3.dot (p - a) (b - a) with hs
  set n := E.nrm (b - a) with hnn
  have e1 : a + (s / (b - a).normSq) • (b - a) - a = (s / (b - a).normSq) • (b - a) := by abel
  have e2 : a + (s / (b - a).normSq) • (b - a) - b = (s / (b - a).normSq - 1) • (b - a) := by
    rw [sub_smul, one_smul]; abel
  have e3 : V3.dot (p - b) (b - a) = s - (b - a).normSq := by
    simp only [hs, V3.dot, V3.normSq, V3.sub_x, V3.sub_y, V3.sub_z]; ring
  rw [e1, e2, hE.nrm.smul, hE.nrm.smul, e3, ← hnn, ← hsq]
  have h2 : 0 < n * n := mul_pos hn hn
  have habs : |s / (n * n)| * n = |s| / n := by
    rw [abs_div, abs_of_pos h2]; field_simp
  have habs2 : |s / (n * n) - 1| * n = |s - n * n| / n := by
    rw [show s / (n * n) - 1 = (s - n * n) / (n * n) by field_simp, abs_div, abs_of_pos h2]
    field_simp
  rw [habs, habs2]
  have hcmp : |s| / n < n ↔ |s| < n * n := by rw [div_lt_iff₀ hn]
  simp only [gt_iff_lt, hcmp]
  split_ifs with c1 c2 c2
  · rw [abs_of_neg (by have := (abs_lt.1 c1).2; linarith)]; ring
  · exact absurd (abs_lt.1 c1).1 c2
  · have : n * n ≤ s := by
      by_contra hc
      exact c1 (abs_lt.2 ⟨c2, not_le.1 hc⟩)
    rw [abs_of_nonneg (by linarith)]
  · have : s - n * n < 0 := by have := not_lt.1 c2; linarith
    rw [abs_of_neg this]; ring

/-- **C103**, positive part: without orientations the along-track deviation of a sample that is not
the last is the component of (test − reference) in the direction to the next reference position.
For the last sample it is the component in the direction from the previous position, unless the
test position is a whole segment length behind that previous position.
Missing for the full property: that last case, in which the sign is wrong. -/
theorem C103_along_track_is_projection_partial (E : EvalLib K) (hE : IsEvalLib E) (L : RotLib K R)
    (test ref : Traj K R) (hT : Coherent test) (hR : Coherent ref)
    (hlen : ref.tstamps.length = test.tstamps.length) (hr : ref.rot = none) (ht : test.rot = none) :
    ∃ a, compareAbsolute E L test ref = .ok a ∧
      (∀ (i : Nat) p c d v, test.pos[i]? = some p → ref.pos[i]? = some c →
        ref.pos[i + 1]? = some d → c ≠ d → a.directed[i]? = some v →
        v.x * E.nrm (d - c) = V3.dot (p - c) (d - c)) ∧
      (∀ (i : Nat) p c d v, test.pos.length = i + 2 → test.pos[i + 1]? = some p →
        ref.pos[i]? = some c → ref.pos[i + 1]? = some d → c ≠ d → a.directed[i + 1]? = some v →
        -(d - c).normSq < V3.dot (p - c) (d - c) →
        v.x * E.nrm (d - c) = V3.dot (p - d) (d - c)) := by
  obtain ⟨a, h1, h2, h3⟩ := directed_of_sample E L hT hR hlen hr ht
  have hpl : ref.pos.length = test.pos.length := by rw [hT.pos, hR.pos, hlen]
  refine ⟨a, h1, ?_, ?_⟩
  · intro i p c d v hp hc hd hcd hv
    have hi1 : i + 1 < ref.pos.length := (List.getElem?_eq_some_iff.1 hd).1
    have hl : trackLine ref.pos test.pos.length i = some (c, d) := by
      unfold trackLine; rw [if_neg (by omega), hc, hd]; rfl
    have hlast : ¬ (i + 1 = test.pos.length) := by omega
    rw [h3 i p c d hp hl] at hv
    injection hv with hv
    rw [← hv]
    simp only [hlast, decide_false, alongTrackDev_not_last hE hcd]
    have := nrm_pos hE.nrm (v := d - c) (fun h => hcd (sub_eq_zero.1 h).symm)
    field_simp
  · intro i p c d v hi hp hc hd hcd hv hb
    have hl : trackLine ref.pos test.pos.length (i + 1) = some (c, d) := by
      unfold trackLine; rw [if_pos (by omega), if_neg (by omega)]; simp [hc, hd]
    have hlast : i + 1 + 1 = test.pos.length := by omega
    rw [h3 (i + 1) p c d hp hl] at hv
    injection hv with hv
    rw [← hv]
    simp only [hlast, decide_true, alongTrackDev_last hE hcd]
    rw [if_pos hb]
    have := nrm_pos hE.nrm (v := d - c) (fun h => hcd (sub_eq_zero.1 h).symm)
    field_simp

/-- **C103 is false of the code**: a last sample far behind the reference is reported as being
ahead of it, by the same amount. -/
theorem C103_last_sample_sign_wrong (E : EvalLib K) (hE : IsEvalLib E) (L : RotLib K R)
    (test ref : Traj K R) (hT : Coherent test) (hR : Coherent ref)
    (hlen : ref.tstamps.length = test.tstamps.length) (hr : ref.rot = none) (ht : test.rot = none)
    (i : Nat) (p c d : V3 K) (hi : test.pos.length = i + 2) (hp : test.pos[i + 1]? = some p)
    (hc : ref.pos[i]? = some c) (hd : ref.pos[i + 1]? = some d) (hcd : c ≠ d)
    (hb : V3.dot (p - c) (d - c) ≤ -(d - c).normSq) :
    ∃ a v, compareAbsolute E L test ref = .ok a ∧ a.directed[i + 1]? = some v ∧
      V3.dot (p - d) (d - c) < 0 ∧ 0 < v.x ∧
      v.x * E.nrm (d - c) = -V3.dot (p - d) (d - c) := by
  obtain ⟨a, h1, h2, h3⟩ := directed_of_sample E L hT hR hlen hr ht
  have hl : trackLine ref.pos test.pos.length (i + 1) = some (c, d) := by
    unfold trackLine; rw [if_pos (by omega), if_neg (by omega)]; simp [hc, hd]
  have hlast : i + 1 + 1 = test.pos.length := by omega
  have hv : d - c ≠ 0 := fun h => hcd (sub_eq_zero.1 h).symm
  have hn := nrm_pos hE.nrm hv
  have e3 : V3.dot (p - d) (d - c) = V3.dot (p - c) (d - c) - (d - c).normSq := by
    simp only [V3.dot, V3.normSq, V3.sub_x, V3.sub_y, V3.sub_z]; ring
  have hneg : V3.dot (p - d) (d - c) < 0 := by
    rw [e3]; have := normSq_pos hv; linarith
  refine ⟨a, _, h1, h3 (i + 1) p c d hp hl, hneg, ?_, ?_⟩ <;>
    simp only [hlast, decide_true, alongTrackDev_last hE hcd] <;> rw [if_neg (not_lt.2 hb)]
  · have := div_neg_of_neg_of_pos hneg hn
    linarith
  · field_simp

/-- squared horizontal and vertical deviations add up to the squared distance from the line, if
the point is not exactly above or below a sloped line -/
theorem crossTrackDev_sq {E : EvalLib K} (hE : IsEvalLib E) {p a b : V3 K} (hab : a ≠ b)
    (h : (p.x - a.x) * (b.y - a.y) - (p.y - a.y) * (b.x - a.x) ≠ 0 ∨ a.z = b.z) :
    (crossTrackDev E p a b).1 * (crossTrackDev E p a b).1
      + (crossTrackDev E p a b).2 * (crossTrackDev E p a b).2
      = ((nearestPoint E p a b).1 - p).normSq := by
  set q := (nearestPoint E p a b).1 with hq
  unfold crossTrackDev
  simp only [← hq]
  have hnn : 0 ≤ (q - p).x ^ 2 + (q - p).y ^ 2 := by positivity
  have hs := hE.sqrt_sq _ hnn
  set S := E.sqrt ((q - p).x ^ 2 + (q - p).y ^ 2) with hS
  set side := (p.x - a.x) * (b.y - a.y) + (p.y - a.y) * -(b.x - a.x) with hside
  by_cases h0 : side = 0
  · have hz : a.z = b.z := by
      rcases h with h | h
      · exact absurd (by rw [← h0, hside]; ring) h
      · exact h
    -- the line is level and the point in its vertical plane
    have hv : b - a ≠ 0 := fun h => hab (sub_eq_zero.1 h).symm
    have hpos := normSq_pos hv
    have hxy : (q - p).x ^ 2 + (q - p).y ^ 2 = 0 := by
      have hq' : q = a + (V3.dot (p - a) (b - a) / (b - a).normSq) • (b - a) := by
        rw [hq, nearestPoint_of_ne hE hab]
      have hN : (b - a).normSq ≠ 0 := ne_of_gt hpos
      set k := V3.dot (p - a) (b - a) / (b - a).normSq with hk
      have hk' : V3.dot (p - a) (b - a) = k * (b - a).normSq := by rw [hk]; field_simp
      have e1 : (b - a).normSq * (q - p).x = 0 := by
        rw [hq']
        simp only [V3.dot, V3.normSq, V3.sub_x, V3.sub_y, V3.sub_z, V3.add_x, V3.smul_x,
          ← hz] at hk' ⊢
        simp only [hside] at h0
        linear_combination (-(b.y - a.y)) * h0 - (b.x - a.x) * hk'
      have e2 : (b - a).normSq * (q - p).y = 0 := by
        rw [hq']
        simp only [V3.dot, V3.normSq, V3.sub_x, V3.sub_y, V3.sub_z, V3.add_y, V3.smul_y,
          ← hz] at hk' ⊢
        simp only [hside] at h0
        linear_combination ((b.x - a.x)) * h0 - (b.y - a.y) * hk'
      rw [(mul_eq_zero.1 e1).resolve_left hN, (mul_eq_zero.1 e2).resolve_left hN]
      ring
    rw [h0]
    simp only [npSign, lt_self_iff_false, if_false, neg_zero, zero_mul, zero_add]
    unfold V3.normSq
    linear_combination -hxy
  · have h1 := npSign_sq h0
    unfold V3.normSq
    linear_combination (S * S) * h1 + hs

/-- the nearest point is the foot of the perpendicular -/
theorem nearestPoint_pythagoras {E : EvalLib K} (hE : IsEvalLib E) {p a b : V3 K} (hab : a ≠ b) :
    (V3.dot (p - a) (b - a)) ^ 2 / (b - a).normSq + ((nearestPoint E p a b).1 - p).normSq
      = (p - a).normSq := by
  have hv : b - a ≠ 0 := fun h => hab (sub_eq_zero.1 h).symm
  have hN : (b - a).normSq ≠ 0 := ne_of_gt (normSq_pos hv)
  rw [nearestPoint_of_ne hE hab]
  simp only
  set k := V3.dot (p - a) (b - a) / (b - a).normSq with hk
  have hk' : V3.dot (p - a) (b - a) = k * (b - a).normSq := by rw [hk]; field_simp
  rw [hk', show (k * (b - a).normSq) ^ 2 / (b - a).normSq = k ^ 2 * (b - a).normSq by field_simp]
  simp only [V3.dot, V3.normSq, V3.sub_x, V3.sub_y, V3.sub_z, V3.add_x, V3.add_y, V3.add_z,
    V3.smul_x, V3.smul_y, V3.smul_z] at hk' ⊢
  linear_combination (-2 * k) * hk'

/-- **C102**, positive part: without orientations the directed deviation of a sample is as long as
its position deviation if the reference moves on from (at the end: came from) a different position,
on the same height or with the test position not exactly in the vertical plane of the segment.
Missing for the full property: test positions in the vertical plane of a sloped segment and
repeated reference positions, for which it is false. -/
theorem C102_decomposition_without_orientations_partial (E : EvalLib K) (hE : IsEvalLib E)
    (L : RotLib K R) (test ref : Traj K R) (hT : Coherent test) (hR : Coherent ref)
    (hlen : ref.tstamps.length = test.tstamps.length) (hr : ref.rot = none) (ht : test.rot = none) :
    ∃ a, compareAbsolute E L test ref = .ok a ∧
      ∀ (i j : Nat) p c d v w, (j = i ∨ (j = i + 1 ∧ test.pos.length = i + 2)) →
        test.pos[j]? = some p → ref.pos[i]? = some c → ref.pos[i + 1]? = some d → c ≠ d →
        ((p.x - c.x) * (d.y - c.y) - (p.y - c.y) * (d.x - c.x) ≠ 0 ∨ c.z = d.z) →
        a.directed[j]? = some v → a.posDev[j]? = some w → v.normSq = w.normSq := by
  obtain ⟨a, h1, h2, h3⟩ := directed_of_sample E L hT hR hlen hr ht
  have hpl : ref.pos.length = test.pos.length := by rw [hT.pos, hR.pos, hlen]
  refine ⟨a, h1, ?_⟩
  intro i j p c d v w hj hp hc hd hcd hcond hv hw
  have hi1 : i + 1 < ref.pos.length := (List.getElem?_eq_some_iff.1 hd).1
  have hvv : d - c ≠ 0 := fun h => hcd (sub_eq_zero.1 h).symm
  have hn := nrm_pos hE.nrm hvv
  have hsq := hE.nrm.sq (d - c)
  have hN : (d - c).normSq ≠ 0 := ne_of_gt (normSq_pos hvv)
  have hcr := crossTrackDev_sq hE hcd hcond
  have hpy := nearestPoint_pythagoras hE (p := p) hcd
  rcases hj with rfl | ⟨rfl, hi2⟩
  · have hl : trackLine ref.pos test.pos.length j = some (c, d) := by
      unfold trackLine; rw [if_neg (by omega), hc, hd]; rfl
    have hlast : ¬ (j + 1 = test.pos.length) := by omega
    rw [h3 j p c d hp hl] at hv
    injection hv with hv
    rw [h2, List.getElem?_zipWith, hc, hp] at hw
    simp at hw
    rw [← hv, ← hw]
    simp only [hlast, decide_false, alongTrackDev_not_last hE hcd]
    rw [show (c - p).normSq = (p - c).normSq by
      simp only [V3.normSq, V3.sub_x, V3.sub_y, V3.sub_z]; ring, ← hpy, ← hcr]
    simp only [V3.normSq] at hsq ⊢
    rw [← hsq]
    field_simp
    ring
  · have hl : trackLine ref.pos test.pos.length (i + 1) = some (c, d) := by
      unfold trackLine; rw [if_pos (by omega), if_neg (by omega)]; simp [hc, hd]
    have hlast : i + 1 + 1 = test.pos.length := by omega
    rw [h3 (i + 1) p c d hp hl] at hv
    injection hv with hv
    rw [h2, List.getElem?_zipWith, hd, hp] at hw
    simp at hw
    rw [← hv, ← hw]
    simp only [hlast, decide_true, alongTrackDev_last hE hcd]
    have hx : (if -(d - c).normSq < V3.dot (p - c) (d - c) then V3.dot (p - d) (d - c) / E.nrm (d - c)
        else -(V3.dot (p - d) (d - c) / E.nrm (d - c))) *
        (if -(d - c).normSq < V3.dot (p - c) (d - c) then V3.dot (p - d) (d - c) / E.nrm (d - c)
        else -(V3.dot (p - d) (d - c) / E.nrm (d - c)))
        = (V3.dot (p - d) (d - c)) ^ 2 / (d - c).normSq := by
      rw [← hsq]
      split_ifs <;> field_simp
    have e3 : V3.dot (p - d) (d - c) = V3.dot (p - c) (d - c) - (d - c).normSq := by
      simp only [V3.dot, V3.normSq, V3.sub_x, V3.sub_y, V3.sub_z]; ring
    have e4 : (d - p).normSq = (p - c).normSq - 2 * V3.dot (p - c) (d - c) + (d - c).normSq := by
      simp only [V3.dot, V3.normSq, V3.sub_x, V3.sub_y, V3.sub_z]; ring
    rw [e4, ← hpy, ← hcr]
    unfold V3.normSq at hx ⊢
    simp only at hx ⊢
    rw [hx]
    rw [show (d - c).x * (d - c).x + (d - c).y * (d - c).y + (d - c).z * (d - c).z = (d - c).normSq
      from rfl, e3]
    field_simp
    ring

/-- a trajectory of two positions without orientations -/
def exPair (p q : V3 K) : Traj K R :=
  { tstamps := [0, 1], pos := [p, q], rot := none, arc := [0, 1], speed := [0, 0], sorting := .time,
    name := "pair", epsg := 0 }

theorem exPair_coherent (p q : V3 K) : Coherent (exPair p q : Traj K R) :=
  ⟨rfl, rfl, rfl, by rintro r ⟨⟩⟩

/-- **C102 is false of the code**: on a climbing reference `(0,0,0) → (1,0,1)` a test position
below it, at `(1,0,0)`, has the horizontal deviation 0 and a directed deviation shorter than its
position deviation, whatever norm and root routines are used. -/
theorem C102_decomposition_without_orientations_fails (E : EvalLib K) (hE : IsEvalLib E)
    (L : RotLib K R) :
    ∃ a v w, compareAbsolute E L (exPair ⟨1, 0, 0⟩ ⟨1, 0, 1⟩) (exPair ⟨0, 0, 0⟩ ⟨1, 0, 1⟩) = .ok a ∧
      a.directed[0]? = some v ∧ a.posDev[0]? = some w ∧ v.y = 0 ∧ v.normSq < w.normSq := by
  obtain ⟨a, h1, h2, h3⟩ := directed_of_sample E L (exPair_coherent (R := R) (⟨1, 0, 0⟩ : V3 K) ⟨1, 0, 1⟩)
    (exPair_coherent (⟨0, 0, 0⟩ : V3 K) ⟨1, 0, 1⟩) rfl rfl rfl
  have hcd : (⟨0, 0, 0⟩ : V3 K) ≠ ⟨1, 0, 1⟩ := by
    intro h; have := congrArg V3.x h; simp at this
  have h4 := h3 0 ⟨1, 0, 0⟩ ⟨0, 0, 0⟩ ⟨1, 0, 1⟩ rfl rfl
  refine ⟨a, _, ⟨-1, 0, 0⟩, h1, h4, by rw [h2]; simp [exPair]; ext <;> simp, ?_, ?_⟩
  · simp [crossTrackDev, npSign]
  · have hlast : ¬ (0 + 1 = (exPair (R := R) (⟨1, 0, 0⟩ : V3 K) ⟨1, 0, 1⟩).pos.length) := by
      simp [exPair]
    have hsq := hE.nrm.sq ((⟨1, 0, 1⟩ : V3 K) - ⟨0, 0, 0⟩)
    have hn := nrm_pos hE.nrm (v := (⟨1, 0, 1⟩ : V3 K) - ⟨0, 0, 0⟩)
      (fun h => hcd (sub_eq_zero.1 h).symm)
    have hx : alongTrackDev E ⟨1, 0, 0⟩ ⟨0, 0, 0⟩ ⟨1, 0, 1⟩ false
        * alongTrackDev E ⟨1, 0, 0⟩ ⟨0, 0, 0⟩ ⟨1, 0, 1⟩ false = 1 / 2 := by
      rw [alongTrackDev_not_last hE hcd, div_mul_div_comm, hsq]
      simp [V3.dot, V3.normSq]; norm_num
    have hy : (crossTrackDev E ⟨1, 0, 0⟩ ⟨0, 0, 0⟩ ⟨1, 0, 1⟩).1 = 0 := by
      simp [crossTrackDev, npSign]
    have hz : (crossTrackDev E ⟨1, 0, 0⟩ ⟨0, 0, 0⟩ ⟨1, 0, 1⟩).2 = 1 / 2 := by
      simp only [crossTrackDev, nearestPoint_of_ne hE hcd]
      simp [V3.dot, V3.normSq]; norm_num
    simp only [hlast, decide_false, V3.normSq, hx, hy, hz]
    norm_num

/-- directions of one sample beside a level segment, with and without orientations -/
theorem level_segment (E : EvalLib K) (hE : IsEvalLib E) (a p : V3 K) (n c s : K)
    (hn : 0 < n) (hcs : c * c + s * s = 1) :
    let b := a + n • (⟨c, s, 0⟩ : V3 K)
    let heading : M3 K := !![c, -s, 0; s, c, 0; 0, 0, 1]
    ∃ u v w, devNoRot E [a, b] [p, b] 0 = .ok ⟨u, v, w⟩ ∧
      devDirectionsWithRot [a] [p] [heading] = .ok [⟨u, v, -w⟩] ∧ -w = p.z - a.z := by
  intro b heading
  have hba : b - a = n • (⟨c, s, 0⟩ : V3 K) := by simp only [b]; abel
  have hnorm : E.nrm (b - a) = n := by
    apply hE.nrm.eq_of_sq hn.le
    rw [hba]
    simp only [V3.normSq, V3.smul_x, V3.smul_y, V3.smul_z]
    linear_combination (n * n) * hcs
  have hab : a ≠ b := by
    intro h
    have : E.nrm (b - a) = 0 := by rw [← h, sub_self]; exact hE.nrm.zero
    rw [hnorm] at this
    exact absurd this (ne_of_gt hn)
  have hN : (b - a).normSq = n * n := by rw [← hE.nrm.sq, hnorm]
  have hdev := devNoRot_eq E (ref := [a, b]) (test := [p, b]) rfl (i := 0) (by simp) rfl
    (show trackLine [a, b] 2 0 = some (a, b) from rfl)
  have hal : alongTrackDev E p a b false = c * (p.x - a.x) + s * (p.y - a.y) := by
    rw [alongTrackDev_not_last hE hab, hnorm, hba]
    simp only [V3.dot, V3.smul_x, V3.smul_y, V3.smul_z, V3.sub_x, V3.sub_y, V3.sub_z]
    field_simp
    ring
  have hq : (nearestPoint E p a b).1 = a + (c * (p.x - a.x) + s * (p.y - a.y)) • (⟨c, s, 0⟩ : V3 K) := by
    rw [nearestPoint_of_ne hE hab, hN, hba, smul_smul]
    simp only
    congr 2
    simp only [V3.dot, V3.smul_x, V3.smul_y, V3.smul_z, V3.sub_x, V3.sub_y, V3.sub_z]
    field_simp
    ring
  set lat := -s * (p.x - a.x) + c * (p.y - a.y) with hlat
  have hcr : crossTrackDev E p a b = (lat, a.z - p.z) := by
    unfold crossTrackDev
    simp only [hq]
    refine Prod.ext ?_ ?_
    · simp only
      have e1 : (p.x - a.x) * (b.y - a.y) + (p.y - a.y) * -(b.x - a.x) = -(n * lat) := by
        have hx : b.x - a.x = n * c := by have := congrArg V3.x hba; simpa using this
        have hy : b.y - a.y = n * s := by have := congrArg V3.y hba; simpa using this
        rw [hx, hy, hlat]; ring
      have e2 : ((a + (c * (p.x - a.x) + s * (p.y - a.y)) • (⟨c, s, 0⟩ : V3 K)) - p).x ^ 2
          + ((a + (c * (p.x - a.x) + s * (p.y - a.y)) • (⟨c, s, 0⟩ : V3 K)) - p).y ^ 2
          = lat * lat := by
        simp only [V3.sub_x, V3.add_x, V3.smul_x, V3.sub_y, V3.add_y, V3.smul_y, hlat]
        linear_combination ((c * (p.x - a.x) + s * (p.y - a.y)) ^ 2
          - (p.x - a.x) ^ 2 - (p.y - a.y) ^ 2) * hcs
      rw [e1, e2, hE.sqrt_abs, npSign_neg, npSign_mul_of_pos _ _ hn, neg_neg, npSign_mul_abs]
    · simp
  have hd : (decide (0 + 1 = [p, b].length)) = false := by simp
  rw [hd, hal, hcr] at hdev
  refine ⟨_, _, _, hdev, ?_, by ring⟩
  have : mulV heading.transpose (p - a)
      = ⟨c * (p.x - a.x) + s * (p.y - a.y), lat, -(a.z - p.z)⟩ := by
    ext <;> simp [mulV, heading, hlat]
  simp only [devDirectionsWithRot, this, List.map_nil]
  rfl

/-- **C104 is false of the code**: on a level reference segment of any heading, with orientations
`o` that look along it, the directed deviations derived from orientations and those derived from
positions agree along and across the track, but have opposite signs in the vertical direction. -/
theorem C104_vertical_sign_differs (E : EvalLib K) (hE : IsEvalLib E) (L : RotLib K R)
    (a p q : V3 K) (n c s : K) (hn : 0 < n) (hcs : c * c + s * s = 1) (o : R)
    (ho : L.toMat o = !![c, -s, 0; s, c, 0; 0, 0, 1]) :
    let ref : Traj K R := exPair a (a + n • (⟨c, s, 0⟩ : V3 K))
    ∃ r₁ r₂ u v w, compareAbsolute E L (exPair p q) ref = .ok r₁ ∧
      compareAbsolute E L (exPair p q) { ref with rot := some [o, o] } = .ok r₂ ∧
      r₁.directed[0]? = some ⟨u, v, w⟩ ∧ r₂.directed[0]? = some ⟨u, v, -w⟩ ∧ w = a.z - p.z := by
  intro ref
  obtain ⟨u, v, w, h1, h2, h3⟩ := level_segment E hE a p n c s hn hcs
  obtain ⟨r₁, e1, _, e2⟩ := directed_of_sample E L (exPair_coherent (R := R) p q)
    (exPair_coherent a (a + n • (⟨c, s, 0⟩ : V3 K))) rfl rfl rfl
  have hr2 : Coherent ({ ref with rot := some [o, o] } : Traj K R) :=
    ⟨rfl, rfl, rfl, by rintro r ⟨⟩; rfl⟩
  obtain ⟨dir, g1, _, g3⟩ := compareAbsolute_eq E L (exPair_coherent (R := R) p q) hr2 rfl
  have e3 := e2 0 p a _ rfl rfl
  have hdev := devNoRot_eq E (ref := [a, a + n • (⟨c, s, 0⟩ : V3 K)])
    (test := [p, a + n • (⟨c, s, 0⟩ : V3 K)]) rfl (i := 0) (by simp) rfl
    (show trackLine [a, a + n • (⟨c, s, 0⟩ : V3 K)] 2 0 = some (a, _) from rfl)
  rw [h1] at hdev
  injection hdev with hdev
  refine ⟨r₁, _, u, v, w, e1, g3, ?_, ?_, by linear_combination -h3⟩
  · rw [e3]; exact congrArg some hdev.symm
  · have g4 : devDirectionsWithRot [a, a + n • (⟨c, s, 0⟩ : V3 K)] [p, q] [L.toMat o, L.toMat o]
        = .ok dir := g1
    rw [ho] at g4
    rw [devDirectionsWithRot_eq (by simp) (by simp)] at h2 g4
    injection h2 with h2
    injection g4 with g4
    simp only [List.zipWith_cons_cons, List.zipWith_nil_right] at h2 g4
    injection h2 with h2
    rw [← g4, ← h2]
    rfl

/-! ### concrete cases -/

/-- the real routines -/
noncomputable def realEval : EvalLib ℝ := ⟨realNorm, Real.sqrt, Real.arccos⟩

theorem realEval_ok : IsEvalLib realEval :=
  ⟨realNorm_isNorm, fun x _ => Real.sqrt_nonneg x, fun _ h => Real.mul_self_sqrt h, Real.arccos_one⟩

/-- the hypotheses of C59, C60 and C61 can be met with real routines and rotation matrices, by
trajectories with and without orientations -/
example : ∃ (L : RotLib ℝ (RotM ℝ)) (T U : Traj ℝ (RotM ℝ)), IsEvalLib realEval ∧ IsRotLib L ∧
    Coherent T ∧ Coherent U ∧ T.rot ≠ none ∧ U.rot = none ∧ T.tstamps.length = U.tstamps.length ∧
    T.tstamps ≠ [] :=
  ⟨matLib (fun a _ _ => a),
    { tstamps := [0, 1], pos := [⟨1, 2, 3⟩, ⟨4, 5, 6⟩],
      rot := some [⟨1, isRot_one⟩, ⟨1, isRot_one⟩], arc := [0, 1], speed := [0, 0],
      sorting := .time, name := "a", epsg := 0 }, exPair ⟨0, 0, 0⟩ ⟨1, 0, 1⟩, realEval_ok,
    matLib_isRotLib _, ⟨rfl, rfl, rfl, by rintro r ⟨⟩; rfl⟩, exPair_coherent _ _, by simp, rfl, rfl,
    by simp⟩

/-- a common motion as in C61: a quarter turn and a shift -/
example : ∃ T T' : Traj ℚ (RotM ℚ), T.rot ≠ none ∧ T' ≠ T ∧
    MovedBy (matLib (fun a _ _ => a)) (mkPose quarter.1 ⟨1, 2, 3⟩) T T' := by
  obtain ⟨T', h1, h2⟩ := applyTransformation_movedBy (matLib (fun a _ _ => a)) (matLib_isRotLib _)
    exOne exOne_coherent (by simp [exOne]) [quarter] rfl (mkPose quarter.1 ⟨1, 2, 3⟩)
    (mkPose_isRigid quarter.2 _)
  refine ⟨exOne, T', by simp [exOne], ?_, h2⟩
  intro h
  have := h2.pos
  rw [h] at this
  revert this
  decide +kernel

/-- the hypotheses of C103 (the wrong sign): the test ends at `-2` on the x axis while the reference
moves from `0` to `1` -/
example : V3.dot ((⟨-2, 0, 0⟩ : V3 ℝ) - ⟨0, 0, 0⟩) (⟨1, 0, 0⟩ - ⟨0, 0, 0⟩)
    ≤ -((⟨1, 0, 0⟩ : V3 ℝ) - ⟨0, 0, 0⟩).normSq ∧ (⟨0, 0, 0⟩ : V3 ℝ) ≠ ⟨1, 0, 0⟩ := by
  constructor
  · simp [V3.dot, V3.normSq]
  · intro h; have := congrArg V3.x h; simp at this

/-- and of the positive part: a test position beside a level segment -/
example : ((⟨1, 1, 1⟩ : V3 ℝ).x - 0) * (0 - 0) - ((⟨1, 1, 1⟩ : V3 ℝ).y - 0) * (1 - 0) ≠ 0 ∧
    -((⟨1, 0, 0⟩ : V3 ℝ) - ⟨0, 0, 0⟩).normSq
      < V3.dot ((⟨1, 1, 1⟩ : V3 ℝ) - ⟨0, 0, 0⟩) (⟨1, 0, 0⟩ - ⟨0, 0, 0⟩) := by
  constructor
  · norm_num
  · simp [V3.dot, V3.normSq]

end TC
