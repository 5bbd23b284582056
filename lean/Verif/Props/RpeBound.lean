import Verif.Props.KnownDrift
import Verif.Props.Swap
import Verif.Props.Stable
import Verif.Proofs.RotAngle

/-! C221: a small absolute error means small relative errors. -/

namespace TC

set_option linter.unusedSectionVars false

variable {K R : Type} [Field K] [LinearOrder K] [IsStrictOrderedRing K]

/-- the deviation of a pair of samples is at most the largest deviation reported -/
theorem le_posDevMax {E : EvalLib K} {L : RotLib K R} {test ref : Traj K R} (ht : Coherent test) (hr : Coherent ref)
    (hlen : test.tstamps.length = ref.tstamps.length) {a : AteResult K R} (h : compareAbsolute E L test ref = .ok a) {M : K}
    (hM : a.posDevMax E = .ok M) {i : Nat} {x u : Sample K R} (hx : (samples test)[i]? = some x)
    (hu : (samples ref)[i]? = some u) : E.nrm (u.p - x.p) ≤ M := by
  have h1 := (compareAbsolute_fields h).1
  have hl : ref.pos.length = test.pos.length := by rw [hr.pos, ht.pos, hlen]
  rw [bcast_eq hl, Except.ok.injEq] at h1
  have h2 : u.p - x.p ∈ a.posDev := by
    rw [← h1]
    refine List.mem_of_getElem? (i := i) ?_
    rw [List.getElem?_zipWith, sample_pos ht hx, sample_pos hr hu]
  have h3 : E.nrm (u.p - x.p) ∈ a.posDevComb E := List.mem_map_of_mem h2
  obtain ⟨m, e1, -, e3⟩ := pyMax_spec (List.ne_nil_of_mem h3)
  have : m = M := by
    have h4 : pyMax (a.posDevComb E) = .ok M := hM
    rw [e1] at h4
    exact Except.ok.inj h4
  exact this ▸ e3 _ h3

/-- the position error of a pair is at most the sum of the deviations at its ends -/
theorem posError_le {nrm : V3 K → K} (hn : IsNorm nrm) {L : RotLib K R} (hL : IsRotLib L) {x x' u u' : Sample K R}
    (h : x.r = none ∨ u.r = none ∨ x.r = u.r) :
    0 ≤ posError nrm L x x' u u' ∧ posError nrm L x x' u u' ≤ nrm (u.p - x.p) + nrm (u'.p - x'.p) := by
  have key : |nrm (u'.p - u.p) - nrm (x'.p - x.p)| ≤ nrm (u.p - x.p) + nrm (u'.p - x'.p) := by
    have t1 := hn.triangle (u'.p - x'.p) (x'.p - x.p - (u.p - x.p))
    have t2 := hn.triangle (x'.p - x.p) (-(u.p - x.p))
    have t3 := hn.triangle (-(u'.p - x'.p)) (u'.p - u.p + (u.p - x.p))
    have t4 := hn.triangle (u'.p - u.p) (u.p - x.p)
    rw [hn.neg] at t2 t3
    rw [show u'.p - x'.p + (x'.p - x.p - (u.p - x.p)) = u'.p - u.p by ext <;> simp] at t1
    rw [show x'.p - x.p + -(u.p - x.p) = x'.p - x.p - (u.p - x.p) from (sub_eq_add_neg _ _).symm] at t2
    rw [show -(u'.p - x'.p) + (u'.p - u.p + (u.p - x.p)) = x'.p - x.p by ext <;> simp] at t3
    rw [abs_le]
    constructor <;> linarith
  unfold posError
  rcases hq : x.r with _ | q
  · exact ⟨abs_nonneg _, key⟩
  rcases ho : u.r with _ | o
  · exact ⟨abs_nonneg _, key⟩
  rw [hq, ho] at h
  simp only [reduceCtorEq, Option.some.injEq, false_or] at h
  subst h
  refine ⟨hn.nonneg _, ?_⟩
  dsimp only [wayFrom]
  rw [← mulV_sub, hn.mulV (hL.rot q).transpose]
  have t := hn.triangle (-(u'.p - x'.p)) (u.p - x.p)
  rw [hn.neg] at t
  rw [show x'.p - x.p - (u'.p - u.p) = -(u'.p - x'.p) + (u.p - x.p) by ext <;> simp <;> ring]
  linarith

variable [FloorRing K]

/-- **C221**: if the estimate has the orientations of the reference, or one of the two has none, a position error times the distance
of its pair is at most twice the largest absolute position error. -/
theorem C221_bounded_by_absolute {E : EvalLib K} (hE : IsEvalLib E) {L : RotLib K R} (hL : IsRotLib L) {test ref : Traj K R}
    (ht : Coherent test) (hr : Coherent ref) (hlen : test.tstamps.length = ref.tstamps.length)
    (hrot : test.rot = none ∨ ref.rot = none ∨ test.rot = ref.rot) {a : AteResult K R} (ha : compareAbsolute E L test ref = .ok a) {M : K}
    (hM : a.posDevMax E = .ok M) {s : RpeSettings K} {r : RpeResult K} (h : compareRelative E L test ref s = .ok r) :
    ∀ g ∈ r.groups, ∀ (k : Nat) e d, g.posDev[k]? = some (some e) → g.pairDist[k]? = some d → |e| * |d| ≤ 2 * M := by
  intro g hg k e d he hd
  obtain ⟨-, D, ps, devs, e1, -, e3, e4, e5, e6⟩ := groups_of_result ht hr hlen h hg
  have her := errorsOf_devs hE hL ht hr e3 e4 e5
  have hDl := pairScale_length hr e1
  have hk' : k < ps.length := e6.numPos ▸ (List.getElem?_eq_some_iff.1 he).1
  rcases hp : ps[k] with ⟨i, j⟩
  have hpk : ps[k]? = some (i, j) := by rw [List.getElem?_eq_getElem hk', hp]
  obtain ⟨b, c, hb, hc, hbc⟩ := e6.dist k i j hpk
  rw [hd, Option.some.injEq] at hbc
  have hi := (List.getElem?_eq_some_iff.1 hb).1
  have hj := (List.getElem?_eq_some_iff.1 hc).1
  obtain ⟨x, hx⟩ := exists_sample ht (i := i) (by omega)
  obtain ⟨x', hx'⟩ := exists_sample ht (i := j) (by omega)
  obtain ⟨u, hu⟩ := exists_sample hr (i := i) (by omega)
  obtain ⟨u', hu'⟩ := exists_sample hr (i := j) (by omega)
  have hpe := her.pos k i j x x' u u' b c hpk hx hx' hu hu' hb hc
  rw [he, Option.some.injEq, ← hbc] at hpe
  unfold perDistance at hpe
  split at hpe
  · cases hpe
  rename_i hne
  have hv := Option.some.inj hpe
  have hor : x.r = none ∨ u.r = none ∨ x.r = u.r := by
    have h1 := sample_rot ht hx
    have h2 := sample_rot hr hu
    rcases hrot with h0 | h0 | h0
    · left
      rw [h0] at h1
      simp only [rotColumn, List.getElem?_replicate, Option.ite_none_right_eq_some, Option.some.injEq] at h1
      exact h1.2.symm
    · right; left
      rw [h0] at h2
      simp only [rotColumn, List.getElem?_replicate, Option.ite_none_right_eq_some, Option.some.injEq] at h2
      exact h2.2.symm
    · exact Or.inr (Or.inr (same_turn ht hr hlen h0 hx hu))
  obtain ⟨p1, p2⟩ := posError_le hE.nrm hL (x' := x') (u' := u') hor
  have m1 := le_posDevMax ht hr hlen ha hM hx hu
  have m2 := le_posDevMax ht hr hlen ha hM hx' hu'
  rw [hv, abs_div, div_mul_cancel₀ _ (abs_pos.2 hne).ne', abs_of_nonneg p1]
  linarith

/-- **C221**, all pairs of poses: no position error of pairs at the distance `g.key` is larger than twice the largest absolute
position error over that distance. -/
theorem C221_all_pairs {E : EvalLib K} (hE : IsEvalLib E) {L : RotLib K R} (hL : IsRotLib L) {test ref : Traj K R}
    (ht : Coherent test) (hr : Coherent ref) (hlen : test.tstamps.length = ref.tstamps.length)
    (hrot : test.rot = none ∨ ref.rot = none ∨ test.rot = ref.rot) {a : AteResult K R} (ha : compareAbsolute E L test ref = .ok a) {M : K}
    (hM : a.posDevMax E = .ok M) {s : RpeSettings K} (hall : s.allPairs = true) (hmin : 0 < s.minDist) (hstep : 0 < s.step)
    {D : List K} (hD : pairScale s.unit ref = some D) (hasc : D.Pairwise (· ≤ ·))
    {r : RpeResult K} (h : compareRelative E L test ref s = .ok r) :
    ∀ g ∈ r.groups, ∀ e, some e ∈ g.posDev → 0 < g.key ∧ |e| ≤ 2 * M / g.key := by
  intro g hg e he
  have hkey : 0 < g.key := lt_of_lt_of_le hmin (marks_ge hstep (groups_of_result ht hr hlen h hg).1)
  refine ⟨hkey, ?_⟩
  obtain ⟨k, hk⟩ := List.mem_iff_getElem?.1 he
  have hne : D ≠ [] := by
    rintro rfl
    obtain ⟨-, D', ps, devs, e1, -, -, -, -, e6⟩ := groups_of_result ht hr hlen h hg
    rw [hD, Option.some.injEq] at e1
    subst e1
    have hk' : k < ps.length := e6.numPos ▸ (List.getElem?_eq_some_iff.1 hk).1
    obtain ⟨b, c, hb, -⟩ := e6.dist k _ _ (List.getElem?_eq_getElem hk')
    simp at hb
  obtain ⟨ps, e1, -, e3⟩ := C63_pairs_span_distance_partial E L test ref ht hr hlen s hall hmin hstep D hD hasc _
    (List.getLast?_eq_some_getLast hne) r h g hg
  have hk' : k < ps.length := e1.numPos ▸ (List.getElem?_eq_some_iff.1 hk).1
  rcases hp : ps[k] with ⟨i, j⟩
  have hpk : ps[k]? = some (i, j) := by rw [List.getElem?_eq_getElem hk', hp]
  obtain ⟨b, c, hb, hc, hbc⟩ := e1.dist k i j hpk
  obtain ⟨b', c', hb', hc', hle⟩ := ((e3 i j).1 (List.mem_of_getElem? hpk)).1.reached
  rw [hb, Option.some.injEq] at hb'
  rw [hc, Option.some.injEq] at hc'
  subst hb' hc'
  have := C221_bounded_by_absolute hE hL ht hr hlen hrot ha hM h g hg k e _ hk hbc
  rw [le_div_iff₀ hkey]
  rw [abs_of_pos (lt_of_lt_of_le hkey hle)] at this
  exact (mul_le_mul_of_nonneg_left hle (abs_nonneg e)).trans this

theorem sample_turn {T : Traj K R} (hT : Coherent T) (hr : T.rot ≠ none) {i : Nat} {x : Sample K R} (hx : (samples T)[i]? = some x) :
    ∃ l q, T.rot = some l ∧ l[i]? = some q ∧ x.r = some q := by
  have := sample_rot hT hx
  obtain ⟨l, hl⟩ := Option.ne_none_iff_exists'.1 hr
  rw [hl] at this
  simp only [rotColumn, List.getElem?_map, Option.map_eq_some_iff] at this
  obtain ⟨q, h1, h2⟩ := this
  exact ⟨l, q, hl, h1, h2.symm⟩

/-- the angle between two orientations is at most the largest one reported -/
theorem le_rotDevMax {L : RotLib ℝ R} (hL : IsRotLib L) {test ref : Traj ℝ R} (ht : Coherent test) (hr : Coherent ref)
    (hlen : test.tstamps.length = ref.tstamps.length) {a : AteResult ℝ R} (h : compareAbsolute realEval L test ref = .ok a) {M : ℝ}
    (hM : a.rotDevMax realEval L = .ok M) {i : Nat} {q o : R} {lt lr : List R} (h1 : test.rot = some lt) (h2 : ref.rot = some lr)
    (hq : lt[i]? = some q) (ho : lr[i]? = some o) : matAngle (L.toMat o * (L.toMat q).transpose) ≤ M := by
  obtain ⟨d, e1, e2⟩ := (compareAbsolute_fields h).2.1 lr lt h2 h1
  rw [bcast_eq (by rw [hr.rot lr h2, ht.rot lt h1, hlen]), Except.ok.injEq] at e1
  have hm : L.mul o (L.inv q) ∈ d := by
    rw [← e1]
    refine List.mem_of_getElem? (i := i) ?_
    rw [List.getElem?_zipWith, ho, hq]
  have h3 : matAngle (L.toMat o * (L.toMat q).transpose) ∈ a.rotDevComb realEval L := by
    unfold AteResult.rotDevComb
    rw [e2]
    refine List.mem_map.2 ⟨_, hm, ?_⟩
    rw [hL.toMat_mul, hL.toMat_inv]
    rfl
  obtain ⟨m, f1, -, f3⟩ := pyMax_spec (List.ne_nil_of_mem h3)
  have : m = M := by
    have h4 : pyMax (a.rotDevComb realEval L) = .ok M := hM
    rw [f1] at h4
    exact Except.ok.inj h4
  exact this ▸ f3 _ h3

/-- the angle between the turns of a pair is at most the sum of the angles at its ends -/
theorem turns_angle_le {O O' Q Q' : M3 ℝ} (hO : IsRot O) (hO' : IsRot O') (hQ : IsRot Q) (hQ' : IsRot Q') :
    matAngle ((O.transpose * O').transpose * (Q.transpose * Q')) ≤ matAngle (O * Q.transpose) + matAngle (O' * Q'.transpose) := by
  have e : (O.transpose * O').transpose * (Q.transpose * Q') =
      O'.transpose * ((O * Q.transpose) * (O' * Q'.transpose).transpose) * O'.transpose.transpose := by
    rw [Matrix.transpose_mul, Matrix.transpose_mul, Matrix.transpose_transpose, Matrix.transpose_transpose, Matrix.transpose_transpose]
    simp only [Matrix.mul_assoc]
    rw [mul_eq_one_comm.1 hO'.1, Matrix.mul_one]
  rw [e, matAngle_conj hO'.transpose, ← matAngle_transpose (O' * Q'.transpose)]
  exact matAngle_mul_le (hO.mul hQ.transpose) (hO'.mul hQ'.transpose).transpose

/-- **C221**, rotations: a rotation error times the distance of its pair is at most twice the largest absolute rotation error. -/
theorem C221_rotations {L : RotLib ℝ R} (hL : IsRotLib L) {test ref : Traj ℝ R}
    (ht : Coherent test) (hr : Coherent ref) (hlen : test.tstamps.length = ref.tstamps.length)
    {a : AteResult ℝ R} (ha : compareAbsolute realEval L test ref = .ok a) {M : ℝ} (hM : a.rotDevMax realEval L = .ok M)
    {s : RpeSettings ℝ} {r : RpeResult ℝ} (h : compareRelative realEval L test ref s = .ok r) :
    ∀ g ∈ r.groups, ∀ (k : Nat) e d, g.rotDev[k]? = some (some e) → g.pairDist[k]? = some d → |e| * |d| ≤ 2 * M := by
  intro g hg k e d he hd
  obtain ⟨-, D, ps, devs, e1, -, e3, e4, e5, e6⟩ := groups_of_result ht hr hlen h hg
  have her := errorsOf_devs realEval_ok hL ht hr e3 e4 e5
  have hDl := pairScale_length hr e1
  have hkl := (List.getElem?_eq_some_iff.1 he).1
  have hor : test.rot ≠ none ∧ ref.rot ≠ none := by
    by_contra hc
    have := e6.numRot
    rw [if_neg hc] at this
    omega
  have hk' : k < ps.length := by
    have := e6.numRot
    rw [if_pos hor] at this
    omega
  rcases hp : ps[k] with ⟨i, j⟩
  have hpk : ps[k]? = some (i, j) := by rw [List.getElem?_eq_getElem hk', hp]
  obtain ⟨b, c, hb, hc, hbc⟩ := e6.dist k i j hpk
  rw [hd, Option.some.injEq] at hbc
  have hi := (List.getElem?_eq_some_iff.1 hb).1
  have hj := (List.getElem?_eq_some_iff.1 hc).1
  obtain ⟨x, hx⟩ := exists_sample ht (i := i) (by omega)
  obtain ⟨x', hx'⟩ := exists_sample ht (i := j) (by omega)
  obtain ⟨u, hu⟩ := exists_sample hr (i := i) (by omega)
  obtain ⟨u', hu'⟩ := exists_sample hr (i := j) (by omega)
  obtain ⟨lt, q, t1, t2, t3⟩ := sample_turn ht hor.1 hx
  obtain ⟨lt', q', t1', t2', t3'⟩ := sample_turn ht hor.1 hx'
  obtain ⟨lr, o, u1, u2, u3⟩ := sample_turn hr hor.2 hu
  obtain ⟨lr', o', u1', u2', u3'⟩ := sample_turn hr hor.2 hu'
  have hpe := her.rot k i j x x' u u' b c q q' o o' hpk hx hx' hu hu' hb hc t3 t3' u3 u3'
  rw [he, Option.some.injEq, ← hbc] at hpe
  unfold perDistance at hpe
  split at hpe
  · cases hpe
  rename_i hne
  have hv := Option.some.inj hpe
  have hang : realEval.acos (cosAngle ((turnFrom L o o').transpose * turnFrom L q q')) =
      matAngle ((turnFrom L o o').transpose * turnFrom L q q') := by
    show Real.arccos _ = Real.arccos _
    unfold cosAngle
    congr 1
    ring
  have m1 := le_rotDevMax hL ht hr hlen ha hM t1 u1 t2 u2
  have m2 := le_rotDevMax hL ht hr hlen ha hM t1' u1' t2' u2'
  have m3 := turns_angle_le (hL.rot o) (hL.rot o') (hL.rot q) (hL.rot q')
  rw [hv, hang, abs_div, div_mul_cancel₀ _ (abs_pos.2 hne).ne', abs_of_nonneg (matAngle_nonneg _)]
  unfold turnFrom
  linarith

/-! ### The hypotheses are met, and the orientations are needed -/

theorem exPosed_result (p q p' q' : V3 ℝ) (a b a' b' : RotM ℝ) :
    ∃ r, compareRelative realEval (matLib (fun a _ _ => a)) (exPosed p q a b) (exPosed p' q' a' b') exPerSecond = .ok r := by
  have h := C65_relative_comparison_errors realEval (matLib (fun a _ _ => a))
    (exPosed p q a b) (exPosed p' q' a' b') (exPosed_coherent _ _ _ _)
    (exPosed_coherent _ _ _ _) rfl (by simp [exPosed, exPair]) exPerSecond (by norm_num [exPerSecond])
    (by norm_num [exPerSecond]) (by
      intro D hD
      injection hD with hD
      subst hD
      simp [exPosed, exPair])
  rcases h.2 with ⟨r, h2⟩ | h2
  · exact ⟨r, h2⟩
  · rcases h.1.1 h2 with h3 | h3 | h3
    · norm_num [exPerSecond] at h3
    · simp [exPerSecond] at h3
    · have := h3 [0, 1] rfl 0 (by simp) 1 (by simp)
      norm_num [exPerSecond] at this

/-- the same orientations, one position off by two metres: both comparisons have a result, and there is an error of a pair -/
example : ∃ a r, compareAbsolute realEval (matLib (fun a _ _ => a)) (exPosed ⟨0, 0, 0⟩ ⟨1, 2, 0⟩ exUpright exUpside)
      (exPosed ⟨0, 0, 0⟩ ⟨1, 0, 0⟩ exUpright exUpside) = .ok a ∧
    compareRelative realEval (matLib (fun a _ _ => a)) (exPosed ⟨0, 0, 0⟩ ⟨1, 2, 0⟩ exUpright exUpside)
      (exPosed ⟨0, 0, 0⟩ ⟨1, 0, 0⟩ exUpright exUpside) exPerSecond = .ok r ∧
    (exPosed ⟨0, 0, 0⟩ ⟨1, 2, 0⟩ exUpright exUpside).rot = (exPosed ⟨0, 0, 0⟩ ⟨1, 0, 0⟩ exUpright exUpside).rot := by
  obtain ⟨a, -, h1, -⟩ := C177_both_directions realEval (matLib fun a _ _ => a) (exPosed ⟨0, 0, 0⟩ ⟨1, 2, 0⟩ exUpright exUpside)
    (exPosed ⟨0, 0, 0⟩ ⟨1, 0, 0⟩ exUpright exUpside) (exPosed_coherent _ _ _ _) (exPosed_coherent _ _ _ _) rfl
  obtain ⟨r, h2⟩ := exPosed_result ⟨0, 0, 0⟩ ⟨1, 2, 0⟩ ⟨0, 0, 0⟩ ⟨1, 0, 0⟩ exUpright exUpside exUpright exUpside
  exact ⟨a, r, h1, h2, rfl⟩

/-- **C221** needs the right orientations: an estimate that is at the right place all the time but faces backwards has the absolute
position error zero and a relative position error of two metres per second. -/
theorem C221_orientations_needed :
    ∃ a r, compareAbsolute realEval (matLib (fun a _ _ => a)) (exPosed ⟨0, 0, 0⟩ ⟨1, 0, 0⟩ exUpside exUpside)
      (exPosed ⟨0, 0, 0⟩ ⟨1, 0, 0⟩ exUpright exUpright) = .ok a ∧ a.posDevMax realEval = .ok 0 ∧
    compareRelative realEval (matLib (fun a _ _ => a)) (exPosed ⟨0, 0, 0⟩ ⟨1, 0, 0⟩ exUpside exUpside)
      (exPosed ⟨0, 0, 0⟩ ⟨1, 0, 0⟩ exUpright exUpright) exPerSecond = .ok r ∧ ∃ g ∈ r.groups, some 2 ∈ g.posDev := by
  obtain ⟨a, -, h1, -⟩ := C177_both_directions realEval (matLib fun a _ _ => a) (exPosed ⟨0, 0, 0⟩ ⟨1, 0, 0⟩ exUpside exUpside)
    (exPosed ⟨0, 0, 0⟩ ⟨1, 0, 0⟩ exUpright exUpright) (exPosed_coherent _ _ _ _) (exPosed_coherent _ _ _ _) rfl
  obtain ⟨r, h2⟩ := exPosed_result ⟨0, 0, 0⟩ ⟨1, 0, 0⟩ ⟨0, 0, 0⟩ ⟨1, 0, 0⟩ exUpside exUpside exUpright exUpright
  refine ⟨a, r, h1, ?_, h2, ?_⟩
  · have e := (compareAbsolute_fields h1).1
    rw [bcast_eq (by simp [exPosed, exPair]), Except.ok.injEq] at e
    have e' : a.posDevComb realEval = [0, 0] := by
      unfold AteResult.posDevComb
      rw [← e]
      simp [exPosed, exPair, realEval, realNorm, V3.normSq]
    show pyMax (a.posDevComb realEval) = .ok 0
    rw [e']
    simp [pyMax]
  · have hst : 0 < exPerSecond.step := by norm_num [exPerSecond]
    have hmi : 0 < exPerSecond.minDist := by norm_num [exPerSecond]
    have hk := ((C64_pair_distances_partial realEval (matLib (fun a _ _ => a)) _ _ exPerSecond hst r h2).1
      0 (1 / 2)).2 (by norm_num [exPerSecond])
    obtain ⟨g, hg, hgk⟩ := List.mem_map.1 (List.mem_of_getElem? hk)
    refine ⟨g, hg, ?_⟩
    obtain ⟨ps, -, e2, -, e4⟩ := C158_errors_of_all_pairs realEval realEval_ok (matLib (fun a _ _ => a)) (matLib_isRotLib _)
      (exPosed ⟨0, 0, 0⟩ ⟨1, 0, 0⟩ exUpside exUpside) (exPosed ⟨0, 0, 0⟩ ⟨1, 0, 0⟩ exUpright exUpright)
      (exPosed_coherent _ _ _ _) (exPosed_coherent _ _ _ _) rfl exPerSecond rfl hmi
      hst [0, 1] rfl (by simp) 1 (by simp) r h2 g hg
    have d0 : ([0, 1] : List ℝ)[0]? = some 0 := by simp
    have d1 : ([0, 1] : List ℝ)[1]? = some 1 := by simp
    have hm : (0, 1) ∈ ps := by
      refine (e4 0 1).2 ⟨⟨Nat.zero_lt_one, ⟨0, 1, d0, d1, ?_⟩, ?_⟩, 0, d0, ?_⟩
      · rw [hgk]; norm_num
      · intro x y k hk hx hy
        obtain rfl : k = 0 := by omega
        rw [d0, Option.some.injEq] at hx hy
        rw [hgk, ← hx, ← hy]
        norm_num
      · rw [hgk]; norm_num
    obtain ⟨k, hk⟩ := List.mem_iff_getElem?.1 hm
    have := e2.pos k 0 1 _ _ _ _ 0 1 hk rfl rfl rfl rfl d0 d1
    refine List.mem_of_getElem? (this.trans ?_)
    congr 1
    have h4 : realNorm (⟨-1 - 1, 0, 0⟩ : V3 ℝ) = 2 := by
      rw [realNorm, V3.normSq, show (-1 - 1 : ℝ) * (-1 - 1) + 0 * 0 + 0 * 0 = 2 ^ 2 by norm_num]
      exact Real.sqrt_sq (by norm_num)
    have h5 : wayFrom (matLib (fun a _ _ => a)) exUpside (⟨0, 0, 0⟩ : V3 ℝ) ⟨1, 0, 0⟩ -
        wayFrom (matLib (fun a _ _ => a)) exUpright (⟨0, 0, 0⟩ : V3 ℝ) ⟨1, 0, 0⟩ = ⟨-1 - 1, 0, 0⟩ := by
      ext <;> simp [wayFrom, mulV, matLib, exUpside, exUpright]
    unfold perDistance posError
    dsimp only
    rw [h5, if_neg (by norm_num)]
    show some (realNorm _ / _) = _
    rw [h4]
    norm_num

end TC
