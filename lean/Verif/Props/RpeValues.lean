import Verif.Spec.RpeValues
import Verif.Props.Rpe
import Verif.Proofs.Intersect
/-!
# C158: the values of relative errors
-/
namespace TC
set_option linter.unusedSectionVars false
variable {K R : Type} [Field K] [LinearOrder K] [IsStrictOrderedRing K]

theorem npGet_of_getElem? {α : Type} {l : List α} {i : Nat} {a : α} (h : l[i]? = some a) :
    npGet l (i : Int) = .ok a := by
  obtain ⟨h1, h2⟩ := List.getElem?_eq_some_iff.1 h
  rw [npGet_nat h1, h2]

theorem sample_pos {T : Traj K R} (hT : Coherent T) {i : Nat} {s : Sample K R} (h : (samples T)[i]? = some s) :
    T.pos[i]? = some s.p := by
  rw [← samples_map_p hT, List.getElem?_map, h]; rfl

theorem sample_rot {T : Traj K R} (hT : Coherent T) {i : Nat} {s : Sample K R} (h : (samples T)[i]? = some s) :
    (rotColumn T.tstamps.length T.rot)[i]? = some s.r := by
  rw [← samples_map_r hT, List.getElem?_map, h]; rfl

/-- the pose of a sample -/
theorem sample_pose {L : RotLib K R} {T : Traj K R} (hT : Coherent T) {i : Nat} {s : Sample K R} {q : R}
    (h : (samples T)[i]? = some s) (hq : s.r = some q) : (T.se3 L)[i]? = some (mkPose (L.toMat q) s.p) := by
  have h1 := sample_pos hT h
  have h2 := sample_rot hT h
  unfold Traj.se3
  rcases hr : T.rot with _ | r
  · rw [hr, hq] at h2
    simp [rotColumn, List.getElem?_replicate] at h2
  · rw [hr, hq] at h2
    simp only [rotColumn, List.getElem?_map, Option.map_eq_some_iff, Option.some.injEq] at h2
    obtain ⟨q', h3, rfl⟩ := h2
    simp [List.getElem?_zipWith, h1, h3]

/-- the relative pose between two poses -/
theorem relative_pose_eq {A B : M3 K} (a b : V3 K) :
    se3Inv (mkPose A a) * mkPose B b = mkPose (A.transpose * B) (mulV A.transpose (b - a)) := by
  unfold se3Inv
  rw [poseRot_mkPose, posePos_mkPose]
  ext i j
  fin_cases i <;> fin_cases j <;>
    simp [mkPose, Matrix.mul_apply, Fin.sum_univ_four, Fin.sum_univ_three, mulV] <;> ring

theorem translationError_eq {E : EvalLib K} (hE : IsEvalLib E) (M : M3 K) (t : V3 K) :
    translationError E (mkPose M t) = E.nrm t := by
  unfold translationError
  apply hE.sqrt_unique (hE.nrm.nonneg t)
  rw [hE.nrm.sq]
  simp [mkPose, V3.normSq]

theorem rotationError_eq (E : EvalLib K) {M : M3 K} (hM : IsRot M) (t : V3 K) :
    rotationError E (mkPose M t) = E.acos (cosAngle M) := by
  obtain ⟨h1, h2, -⟩ := hM.trace_bounds
  rw [rotationError_trace, min_eq_left (by linarith), max_eq_left (by linarith)]
  unfold cosAngle
  congr 1
  ring

theorem pairDev_errors {E : EvalLib K} (hE : IsEvalLib E) {L : RotLib K R} (hL : IsRotLib L) {test ref : Traj K R}
    (ht : Coherent test) (hr : Coherent ref) {D : List K} {i j : Nat} {s s' u u' : Sample K R} {a b : K}
    (h1 : (samples test)[i]? = some s) (h2 : (samples test)[j]? = some s')
    (h3 : (samples ref)[i]? = some u) (h4 : (samples ref)[j]? = some u') (ha : D[i]? = some a) (hb : D[j]? = some b)
    {v : PairDev K} (h : pairDev E L test ref D (i, j) = .ok v) :
    v.pos = perDistance (posError E.nrm L s s' u u') (b - a) ∧
      ∀ q q' o o', s.r = some q → s'.r = some q' → u.r = some o → u'.r = some o' →
        v.rot = some (perDistance (E.acos (cosAngle ((turnFrom L o o').transpose * turnFrom L q q'))) (b - a)) := by
  have hlen : ∀ {T : Traj K R} (_ : Coherent T) {k : Nat} {x : Sample K R}, (samples T)[k]? = some x →
      0 < T.tstamps.length := by
    intro T hT k x hk
    have := (List.getElem?_eq_some_iff.1 hk).1
    rw [samples_length hT] at this
    omega
  have hsome : ∀ {T : Traj K R} (_ : Coherent T) {k : Nat} {x : Sample K R}, (samples T)[k]? = some x →
      (T.hasOrientation = true ↔ x.r ≠ none) := by
    intro T hT k x hk
    rw [hasOrientation_iff_rot hT (hlen hT hk)]
    have := sample_rot hT hk
    rcases hrr : T.rot with _ | r
    · rw [hrr] at this
      simp only [rotColumn, List.getElem?_replicate] at this
      split at this
      · simp at this; simp [← this]
      · simp at this
    · rw [hrr] at this
      simp only [rotColumn, List.getElem?_map, Option.map_eq_some_iff] at this
      obtain ⟨q, -, hq⟩ := this
      simp [← hq]
  have hdiv : ∀ x y : K, npDiv x y = perDistance x y := fun _ _ => rfl
  unfold pairDev at h
  rw [npGet_of_getElem? hb, npGet_of_getElem? ha] at h
  simp only [bind, Except.bind] at h
  by_cases ho : (ref.hasOrientation && test.hasOrientation) = true
  · rw [if_pos ho] at h
    rw [Bool.and_eq_true, hsome hr h3, hsome ht h1] at ho
    have h4' : u'.r ≠ none := (hsome hr h4).1 ((hsome hr h3).2 ho.1)
    have h2' : s'.r ≠ none := (hsome ht h2).1 ((hsome ht h1).2 ho.2)
    obtain ⟨o, hro⟩ := Option.ne_none_iff_exists'.1 ho.1
    obtain ⟨q, hrq⟩ := Option.ne_none_iff_exists'.1 ho.2
    obtain ⟨o', hro'⟩ := Option.ne_none_iff_exists'.1 h4'
    obtain ⟨q', hrq'⟩ := Option.ne_none_iff_exists'.1 h2'
    rw [npGet_of_getElem? (sample_pose hr h3 hro), npGet_of_getElem? (sample_pose hr h4 hro'),
      npGet_of_getElem? (sample_pose ht h1 hrq), npGet_of_getElem? (sample_pose ht h2 hrq')] at h
    simp only [relative_pose_eq, pure, Except.pure] at h
    injection h with h
    subst h
    have hrot : IsRot ((L.toMat o).transpose * L.toMat o') := (hL.rot o).transpose.mul (hL.rot o')
    have hrot' : IsRot ((L.toMat q).transpose * L.toMat q') := (hL.rot q).transpose.mul (hL.rot q')
    constructor
    · simp only
      rw [translationError_eq hE, hdiv, hE.nrm.mulV hrot.transpose]
      simp only [posError, hrq, hro, wayFrom]
    · intro p p' w w' e1 e2 e3 e4
      rw [hrq] at e1
      rw [hrq'] at e2
      rw [hro] at e3
      rw [hro'] at e4
      injection e1 with e1
      injection e2 with e2
      injection e3 with e3
      injection e4 with e4
      subst e1 e2 e3 e4
      simp only
      rw [rotationError_eq E (hrot.transpose.mul hrot'), hdiv]
      rfl
  · rw [if_neg ho] at h
    rw [npGet_of_getElem? (sample_pos hr h4), npGet_of_getElem? (sample_pos hr h3),
      npGet_of_getElem? (sample_pos ht h2), npGet_of_getElem? (sample_pos ht h1)] at h
    simp only [pure, Except.pure] at h
    injection h with h
    subst h
    rw [Bool.and_eq_true, hsome hr h3, hsome ht h1] at ho
    constructor
    · simp only
      rw [hdiv]
      unfold posError
      rcases hq : s.r with _ | q <;> rcases hu : u.r with _ | o
      · rfl
      · rfl
      · rfl
      · rw [hq, hu] at ho
        simp at ho
    · intro q q' o o' e1 e2 e3 e4
      rw [e1, e3] at ho
      simp at ho

theorem errorsOf_devs {E : EvalLib K} (hE : IsEvalLib E) {L : RotLib K R} (hL : IsRotLib L) {test ref : Traj K R}
    (ht : Coherent test) (hr : Coherent ref) {D : List K} {ps : List (Nat × Nat)} {devs : List (PairDev K)}
    (h : mapE (pairDev E L test ref D) ps = .ok devs) {g : RpeGroup K}
    (h1 : g.posDev = devs.map PairDev.pos) (h2 : g.rotDev = devs.filterMap PairDev.rot) :
    ErrorsOf E L D test ref ps g := by
  refine ⟨?_, ?_⟩
  · intro k i j s s' u u' a b hk e1 e2 e3 e4 ha hb
    obtain ⟨v, hv, hk'⟩ := mapE_getElem? h hk
    rw [h1, List.getElem?_map, hk', Option.map_some, (pairDev_errors hE hL ht hr e1 e2 e3 e4 ha hb hv).1]
  · intro k i j s s' u u' a b q q' o o' hk e1 e2 e3 e4 ha hb f1 f2 f3 f4
    obtain ⟨v, hv, hk'⟩ := mapE_getElem? h hk
    have hv2 := (pairDev_errors hE hL ht hr e1 e2 e3 e4 ha hb hv).2 q q' o o' f1 f2 f3 f4
    have hall : ∀ w ∈ devs, w.rot.isSome = true := by
      intro w hw
      obtain ⟨c, _, hc⟩ := mapE_mem h hw
      obtain ⟨_, _, _, _, _, hb1, _⟩ := pairDev_dist hc
      obtain ⟨_, _, _, _, _, hb2, _⟩ := pairDev_dist hv
      rw [hb1, ← hb2, hv2]
      rfl
    have hfm : ∀ (l : List (PairDev K)) (k : Nat) (v : PairDev K), (∀ w ∈ l, w.rot.isSome = true) → l[k]? = some v →
        (l.filterMap PairDev.rot)[k]? = v.rot := by
      intro l
      induction l with
      | nil => intro k v _ h; simp at h
      | cons w l ih =>
        intro k v hw hk
        obtain ⟨y, hy⟩ := Option.isSome_iff_exists.1 (hw w (by simp))
        rw [List.filterMap_cons_some hy]
        cases k with
        | zero =>
          simp only [List.getElem?_cons_zero, Option.some.injEq] at hk ⊢
          rw [← hk, hy]
        | succ k =>
          simp only [List.getElem?_cons_succ] at hk ⊢
          exact ih k v (fun w h => hw w (by simp [h])) hk
    rw [h2, hfm devs k v hall hk', hv2]

section
variable [FloorRing K]

/-- **C158 (all pose pairs).** The entries for the distance `d` are the errors of the pairs `(i, j)` in which `j` is the
first sample at least `d` further than `i`, in the order of the samples, each divided by the distance of its pair. -/
theorem C158_errors_of_all_pairs (E : EvalLib K) (hE : IsEvalLib E) (L : RotLib K R) (hL : IsRotLib L)
    (test ref : Traj K R) (ht : Coherent test) (hr : Coherent ref) (hlen : test.tstamps.length = ref.tstamps.length)
    (s : RpeSettings K) (hall : s.allPairs = true) (hmin : 0 < s.minDist) (hstep : 0 < s.step)
    (D : List K) (hD : pairScale s.unit ref = some D) (hasc : D.Pairwise (· ≤ ·))
    (last : K) (hlast : D.getLast? = some last)
    (r : RpeResult K) (h : compareRelative E L test ref s = .ok r) (g : RpeGroup K) (hg : g ∈ r.groups) :
    ∃ ps, EntriesOf D test ref ps g ∧ ErrorsOf E L D test ref ps g ∧ (ps.map Prod.fst).Pairwise (· < ·) ∧
      ∀ i j, (i, j) ∈ ps ↔ FirstAtLeast D g.key i j ∧ ∃ a, D[i]? = some a ∧ a + g.key < last := by
  obtain ⟨h1, D', ps, devs, e1, e2, e3, e4, e5, e6⟩ := groups_of_result ht hr hlen h hg
  rw [hD] at e1
  injection e1 with e1
  subst e1
  rw [hall] at e2
  have hd : 0 < g.key := lt_of_lt_of_le hmin (marks_ge hstep h1)
  refine ⟨ps, e6, errorsOf_devs hE hL ht hr e3 e4 e5, ?_, ?_⟩
  · rw [pairIndices_all hlast] at e2
    injection e2 with e2
    rw [← e2, List.map_map]
    rw [show (Prod.fst ∘ fun c : K × Nat => (c.2, searchLeft D (c.1 + g.key))) = Prod.snd from rfl]
    have : (D.zipIdx.map Prod.snd).Pairwise (· < ·) := by
      rw [List.zipIdx_map_snd]
      exact List.pairwise_lt_range'
    exact this.sublist (List.filter_sublist.map _)
  · intro i j
    rw [pairIndices_all_mem hlast e2]
    constructor
    · rintro ⟨a, ha, hlt, hj⟩
      exact ⟨(firstAtLeast_searchLeft hasc hlast hd ha hlt.le j).2 hj, a, ha, hlt⟩
    · rintro ⟨hf, a, ha, hlt⟩
      exact ⟨a, ha, hlt, (firstAtLeast_searchLeft hasc hlast hd ha hlt.le j).1 hf⟩

/-- **C158 (consecutive pairs).** The `k`-th entry for the distance `d` is the error of the pair of the first samples at
or beyond the marks `k d` and `(k + 1) d`, divided by the distance of the pair. -/
theorem C158_errors_of_consecutive_pairs (E : EvalLib K) (hE : IsEvalLib E) (L : RotLib K R) (hL : IsRotLib L)
    (test ref : Traj K R) (ht : Coherent test) (hr : Coherent ref) (hlen : test.tstamps.length = ref.tstamps.length)
    (s : RpeSettings K) (hall : s.allPairs = false) (hmin : 0 < s.minDist) (hstep : 0 < s.step)
    (D : List K) (hD : pairScale s.unit ref = some D) (hasc : D.Pairwise (· ≤ ·))
    (first last : K) (hfirst : D.head? = some first) (hlast : D.getLast? = some last)
    (r : RpeResult K) (h : compareRelative E L test ref s = .ok r) (g : RpeGroup K) (hg : g ∈ r.groups) :
    ∃ ps, EntriesOf D test ref ps g ∧ ErrorsOf E L D test ref ps g ∧
      ∀ k i j : Nat, ps[k]? = some (i, j) ↔ first + ((k : K) + 1) * g.key < last ∧
        FirstReached D (first + (k : K) * g.key) i ∧ FirstReached D (first + ((k : K) + 1) * g.key) j := by
  obtain ⟨h1, D', ps, devs, e1, e2, e3, e4, e5, e6⟩ := groups_of_result ht hr hlen h hg
  rw [hD] at e1
  injection e1 with e1
  subst e1
  rw [hall] at e2
  have hd : 0 < g.key := lt_of_lt_of_le hmin (marks_ge hstep h1)
  refine ⟨ps, e6, errorsOf_devs hE hL ht hr e3 e4 e5, ?_⟩
  intro k i j
  rw [pairIndices_steps_get hfirst hlast hd e2]
  constructor
  · rintro ⟨a1, a2⟩
    injection a2 with a2 a3
    exact ⟨a1, (firstReached_searchLeft hasc hlast (by nlinarith) _).2 a2,
      (firstReached_searchLeft hasc hlast a1.le _).2 a3⟩
  · rintro ⟨a1, a2, a3⟩
    rw [(firstReached_searchLeft hasc hlast (by nlinarith) _).1 a2,
      (firstReached_searchLeft hasc hlast a1.le _).1 a3]
    exact ⟨a1, rfl⟩

end

/-- the specification tells different errors apart: a test that walks twice as far -/
example : posError (K := ℚ) (R := Unit) (fun v => |v.x|) ⟨(), fun _ _ => (), fun _ => (), fun _ => 1, fun _ => (), fun _ _ _ => ()⟩
    ⟨0, ⟨0, 0, 0⟩, some (), 0, 0⟩ ⟨1, ⟨2, 0, 0⟩, some (), 2, 0⟩ ⟨0, ⟨0, 0, 0⟩, some (), 0, 0⟩ ⟨1, ⟨1, 0, 0⟩, some (), 1, 0⟩ = 1 := by
  simp [posError, wayFrom, mulV]
  norm_num

/-- the hypotheses are those of C63 (whose examples meet them), with numeric routines and rotations that are right -/
example : IsEvalLib realEval ∧ IsRotLib (matLib (K := ℝ) (fun a _ _ => a)) ∧
    Coherent (exPair (R := RotM ℝ) (⟨0, 0, 0⟩ : V3 ℝ) ⟨3, 0, 0⟩) := ⟨realEval_ok, matLib_isRotLib _, exPair_coherent _ _⟩

end TC
