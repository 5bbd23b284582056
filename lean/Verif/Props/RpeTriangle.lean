import Verif.Props.RpeBound

/-! C222: relative errors by way of a third trajectory. -/

namespace TC

set_option linter.unusedSectionVars false

variable {K R : Type} [Field K] [LinearOrder K] [IsStrictOrderedRing K]

/-- the ways differ at least as much as their lengths -/
theorem lengths_le {nrm : V3 K → K} (hn : IsNorm nrm) (v w : V3 K) : |nrm v - nrm w| ≤ nrm (w - v) := by
  have t1 := hn.triangle v (w - v)
  have t2 := hn.triangle w (v - w)
  rw [add_sub_cancel] at t1 t2
  have e : nrm (v - w) = nrm (w - v) := by rw [← hn.neg, neg_sub]
  rw [e] at t2
  rw [abs_le]
  constructor <;> linarith

theorem lengths_le_posError {nrm : V3 K → K} (hn : IsNorm nrm) {L : RotLib K R} (hL : IsRotLib L) (x x' u u' : Sample K R) :
    |nrm (u'.p - u.p) - nrm (x'.p - x.p)| ≤ posError nrm L x x' u u' := by
  unfold posError
  rcases x.r with _ | q
  · exact le_rfl
  rcases u.r with _ | o
  · exact le_rfl
  have h := lengths_le hn (wayFrom L o u.p u'.p) (wayFrom L q x.p x'.p)
  rwa [show nrm (wayFrom L o u.p u'.p) = nrm (u'.p - u.p) from hn.mulV (hL.rot o).transpose _,
    show nrm (wayFrom L q x.p x'.p) = nrm (x'.p - x.p) from hn.mulV (hL.rot q).transpose _] at h

/-- the position error of a pair by way of a third one -/
theorem posError_via {nrm : V3 K → K} (hn : IsNorm nrm) {L : RotLib K R} (hL : IsRotLib L) {x x' u u' w w' : Sample K R}
    (h : u.r ≠ none ∨ x.r = none ∨ w.r = none) :
    posError nrm L x x' w w' ≤ posError nrm L x x' u u' + posError nrm L u u' w w' := by
  have h1 := lengths_le_posError hn hL x x' u u'
  have h2 := lengths_le_posError hn hL u u' w w'
  have h3 : |nrm (w'.p - w.p) - nrm (x'.p - x.p)| ≤ |nrm (u'.p - u.p) - nrm (x'.p - x.p)| + |nrm (w'.p - w.p) - nrm (u'.p - u.p)| := by
    rw [add_comm]
    exact abs_sub_le _ _ _
  rcases hx : x.r with _ | q
  · have : posError nrm L x x' w w' = |nrm (w'.p - w.p) - nrm (x'.p - x.p)| := by unfold posError; rw [hx]
    linarith
  rcases hw : w.r with _ | p
  · have : posError nrm L x x' w w' = |nrm (w'.p - w.p) - nrm (x'.p - x.p)| := by unfold posError; rw [hw, hx]
    linarith
  rw [hx, hw] at h
  simp only [reduceCtorEq, or_false] at h
  obtain ⟨o, ho⟩ := Option.ne_none_iff_exists'.1 h
  unfold posError
  rw [hx, hw, ho]
  dsimp only
  have := hn.triangle (wayFrom L q x.p x'.p - wayFrom L o u.p u'.p) (wayFrom L o u.p u'.p - wayFrom L p w.p w'.p)
  rwa [sub_add_sub_cancel] at this

theorem posError_nonneg {nrm : V3 K → K} (hn : IsNorm nrm) {L : RotLib K R} (hL : IsRotLib L) (x x' u u' : Sample K R) :
    0 ≤ posError nrm L x x' u u' := (abs_nonneg _).trans (lengths_le_posError hn hL x x' u u')

variable [FloorRing K]

/-- the pairs and errors of the `n`-th bin -/
theorem nth_group {E : EvalLib K} (hE : IsEvalLib E) {L : RotLib K R} (hL : IsRotLib L) {test ref : Traj K R}
    (ht : Coherent test) (hr : Coherent ref) (hlen : test.tstamps.length = ref.tstamps.length) {s : RpeSettings K} {r : RpeResult K}
    (h : compareRelative E L test ref s = .ok r) {n : Nat} {g : RpeGroup K} (hg : r.groups[n]? = some g) :
    ∃ D ps key, (marks s.minDist (s.maxDist + s.step) s.step)[n]? = some key ∧ pairScale s.unit ref = some D ∧
      pairIndices D s.allPairs key = .ok ps ∧ EntriesOf D test ref ps g ∧ ErrorsOf E L D test ref ps g ∧
      D.length = ref.tstamps.length := by
  obtain ⟨-, D, ps, devs, e1, e2, e3, e4, e5, e6⟩ := groups_of_result ht hr hlen h (List.mem_of_getElem? hg)
  refine ⟨D, ps, g.key, ?_, e1, e2, e6, errorsOf_devs hE hL ht hr e3 e4 e5, pairScale_length hr e1⟩
  rw [← keys_of_result h, List.getElem?_map, hg]
  rfl

/-- **C222**, positions: if the pairs are the same, a relative position error is at most the sum of those by way of a third
trajectory. -/
theorem C222_positions {E : EvalLib K} (hE : IsEvalLib E) {L : RotLib K R} (hL : IsRotLib L) {T U W : Traj K R}
    (hT : Coherent T) (hU : Coherent U) (hW : Coherent W) (hTU : T.tstamps.length = U.tstamps.length)
    (hUW : U.tstamps.length = W.tstamps.length) (hrot : U.rot ≠ none ∨ T.rot = none ∨ W.rot = none) {s : RpeSettings K}
    (hD : pairScale s.unit U = pairScale s.unit W) {tu uw tw : RpeResult K} (h1 : compareRelative E L T U s = .ok tu)
    (h2 : compareRelative E L U W s = .ok uw) (h3 : compareRelative E L T W s = .ok tw) {n : Nat} {g1 g2 g3 : RpeGroup K}
    (hg1 : tu.groups[n]? = some g1) (hg2 : uw.groups[n]? = some g2) (hg3 : tw.groups[n]? = some g3) {k : Nat} {e : K}
    (he : g3.posDev[k]? = some (some e)) :
    ∃ e1 e2, g1.posDev[k]? = some (some e1) ∧ g2.posDev[k]? = some (some e2) ∧ |e| ≤ |e1| + |e2| := by
  obtain ⟨D, ps, key, k1, k2, k3, k4, k5, k6⟩ := nth_group hE hL hT hU hTU h1 hg1
  obtain ⟨D', ps', key', k1', k2', k3', -, k5', -⟩ := nth_group hE hL hU hW hUW h2 hg2
  obtain ⟨D'', ps'', key'', k1'', k2'', k3'', k4'', k5'', -⟩ := nth_group hE hL hT hW (hTU.trans hUW) h3 hg3
  rw [k1, Option.some.injEq] at k1' k1''
  rw [← hD, k2, Option.some.injEq] at k2' k2''
  subst k1' k1'' k2' k2''
  rw [k3, Except.ok.injEq] at k3' k3''
  subst k3' k3''
  have hk' : k < ps.length := k4''.numPos ▸ (List.getElem?_eq_some_iff.1 he).1
  rcases hp : ps[k] with ⟨i, j⟩
  have hpk : ps[k]? = some (i, j) := by rw [List.getElem?_eq_getElem hk', hp]
  obtain ⟨a, b, ha, hb, -⟩ := k4.dist k i j hpk
  have hi := (List.getElem?_eq_some_iff.1 ha).1
  have hj := (List.getElem?_eq_some_iff.1 hb).1
  obtain ⟨x, hx⟩ := exists_sample hT (i := i) (by omega)
  obtain ⟨x', hx'⟩ := exists_sample hT (i := j) (by omega)
  obtain ⟨u, hu⟩ := exists_sample hU (i := i) (by omega)
  obtain ⟨u', hu'⟩ := exists_sample hU (i := j) (by omega)
  obtain ⟨w, hw⟩ := exists_sample hW (i := i) (by omega)
  obtain ⟨w', hw'⟩ := exists_sample hW (i := j) (by omega)
  have p1 := k5.pos k i j x x' u u' a b hpk hx hx' hu hu' ha hb
  have p2 := k5'.pos k i j u u' w w' a b hpk hu hu' hw hw' ha hb
  have p3 := k5''.pos k i j x x' w w' a b hpk hx hx' hw hw' ha hb
  rw [he, Option.some.injEq] at p3
  unfold perDistance at p1 p2 p3
  split at p3
  · cases p3
  rename_i hne
  rw [if_neg hne] at p1 p2
  refine ⟨_, _, p1, p2, ?_⟩
  have hor : u.r ≠ none ∨ x.r = none ∨ w.r = none := by
    rcases hrot with h0 | h0 | h0
    · obtain ⟨-, q, -, -, hq⟩ := sample_turn hU h0 hu
      exact Or.inl (by rw [hq]; simp)
    · have := sample_rot hT hx
      rw [h0] at this
      simp only [rotColumn, List.getElem?_replicate, Option.ite_none_right_eq_some, Option.some.injEq] at this
      exact Or.inr (Or.inl this.2.symm)
    · have := sample_rot hW hw
      rw [h0] at this
      simp only [rotColumn, List.getElem?_replicate, Option.ite_none_right_eq_some, Option.some.injEq] at this
      exact Or.inr (Or.inr this.2.symm)
  rw [Option.some.inj p3, abs_div, abs_div, abs_div, abs_of_nonneg (posError_nonneg hE.nrm hL _ _ _ _),
    abs_of_nonneg (posError_nonneg hE.nrm hL _ _ _ _), abs_of_nonneg (posError_nonneg hE.nrm hL _ _ _ _), ← add_div]
  exact div_le_div_of_nonneg_right (posError_via hE.nrm hL hor) (abs_nonneg _)

/-- **C222**, rotations. -/
theorem C222_rotations {L : RotLib ℝ R} (hL : IsRotLib L) {T U W : Traj ℝ R}
    (hT : Coherent T) (hU : Coherent U) (hW : Coherent W) (hTU : T.tstamps.length = U.tstamps.length)
    (hUW : U.tstamps.length = W.tstamps.length) (hrot : U.rot ≠ none) {s : RpeSettings ℝ}
    (hD : pairScale s.unit U = pairScale s.unit W) {tu uw tw : RpeResult ℝ} (h1 : compareRelative realEval L T U s = .ok tu)
    (h2 : compareRelative realEval L U W s = .ok uw) (h3 : compareRelative realEval L T W s = .ok tw) {n : Nat} {g1 g2 g3 : RpeGroup ℝ}
    (hg1 : tu.groups[n]? = some g1) (hg2 : uw.groups[n]? = some g2) (hg3 : tw.groups[n]? = some g3) {k : Nat} {e : ℝ}
    (he : g3.rotDev[k]? = some (some e)) :
    ∃ e1 e2, g1.rotDev[k]? = some (some e1) ∧ g2.rotDev[k]? = some (some e2) ∧ |e| ≤ |e1| + |e2| := by
  obtain ⟨D, ps, key, k1, k2, k3, k4, k5, k6⟩ := nth_group realEval_ok hL hT hU hTU h1 hg1
  obtain ⟨D', ps', key', k1', k2', k3', -, k5', -⟩ := nth_group realEval_ok hL hU hW hUW h2 hg2
  obtain ⟨D'', ps'', key'', k1'', k2'', k3'', k4'', k5'', -⟩ := nth_group realEval_ok hL hT hW (hTU.trans hUW) h3 hg3
  rw [k1, Option.some.injEq] at k1' k1''
  rw [← hD, k2, Option.some.injEq] at k2' k2''
  subst k1' k1'' k2' k2''
  rw [k3, Except.ok.injEq] at k3' k3''
  subst k3' k3''
  have hkl := (List.getElem?_eq_some_iff.1 he).1
  have hor : T.rot ≠ none ∧ W.rot ≠ none := by
    by_contra hc
    have := k4''.numRot
    rw [if_neg hc] at this
    omega
  have hk' : k < ps.length := by
    have := k4''.numRot
    rw [if_pos hor] at this
    omega
  rcases hp : ps[k] with ⟨i, j⟩
  have hpk : ps[k]? = some (i, j) := by rw [List.getElem?_eq_getElem hk', hp]
  obtain ⟨a, b, ha, hb, -⟩ := k4.dist k i j hpk
  have hi := (List.getElem?_eq_some_iff.1 ha).1
  have hj := (List.getElem?_eq_some_iff.1 hb).1
  obtain ⟨x, hx⟩ := exists_sample hT (i := i) (by omega)
  obtain ⟨x', hx'⟩ := exists_sample hT (i := j) (by omega)
  obtain ⟨u, hu⟩ := exists_sample hU (i := i) (by omega)
  obtain ⟨u', hu'⟩ := exists_sample hU (i := j) (by omega)
  obtain ⟨w, hw⟩ := exists_sample hW (i := i) (by omega)
  obtain ⟨w', hw'⟩ := exists_sample hW (i := j) (by omega)
  obtain ⟨-, q, -, -, hq⟩ := sample_turn hT hor.1 hx
  obtain ⟨-, q', -, -, hq'⟩ := sample_turn hT hor.1 hx'
  obtain ⟨-, o, -, -, ho⟩ := sample_turn hU hrot hu
  obtain ⟨-, o', -, -, ho'⟩ := sample_turn hU hrot hu'
  obtain ⟨-, v, -, -, hv⟩ := sample_turn hW hor.2 hw
  obtain ⟨-, v', -, -, hv'⟩ := sample_turn hW hor.2 hw'
  have p1 := k5.rot k i j x x' u u' a b q q' o o' hpk hx hx' hu hu' ha hb hq hq' ho ho'
  have p2 := k5'.rot k i j u u' w w' a b o o' v v' hpk hu hu' hw hw' ha hb ho ho' hv hv'
  have p3 := k5''.rot k i j x x' w w' a b q q' v v' hpk hx hx' hw hw' ha hb hq hq' hv hv'
  rw [he, Option.some.injEq] at p3
  unfold perDistance at p1 p2 p3
  split at p3
  · cases p3
  rename_i hne
  rw [if_neg hne] at p1 p2
  refine ⟨_, _, p1, p2, ?_⟩
  have hang : ∀ A : M3 ℝ, realEval.acos (cosAngle A) = matAngle A := by
    intro A
    show Real.arccos _ = Real.arccos _
    unfold cosAngle
    congr 1
    ring
  have hturn : ∀ c d : R, IsRot (turnFrom L c d) := fun c d => (hL.rot c).transpose.mul (hL.rot d)
  rw [Option.some.inj p3, abs_div, abs_div, abs_div, hang, hang, hang, abs_of_nonneg (matAngle_nonneg _),
    abs_of_nonneg (matAngle_nonneg _), abs_of_nonneg (matAngle_nonneg _), ← add_div]
  refine div_le_div_of_nonneg_right ?_ (abs_nonneg _)
  have hm := matAngle_mul_le ((hturn v v').transpose.mul (hturn o o')) ((hturn o o').transpose.mul (hturn q q'))
  have e : (turnFrom L v v').transpose * turnFrom L o o' * ((turnFrom L o o').transpose * turnFrom L q q') =
      (turnFrom L v v').transpose * turnFrom L q q' := by
    rw [Matrix.mul_assoc, ← Matrix.mul_assoc (turnFrom L o o'), (hturn o o').1, Matrix.one_mul]
  rw [e, add_comm] at hm
  exact hm

/-- without orientations on one side, the same positions have no relative error -/
theorem no_error_of_same_positions {E : EvalLib K} (hE : IsEvalLib E) {L : RotLib K R} (hL : IsRotLib L) {test ref : Traj K R}
    (ht : Coherent test) (hr : Coherent ref) (hlen : test.tstamps.length = ref.tstamps.length) (hpos : test.pos = ref.pos)
    (hrot : test.rot = none ∨ ref.rot = none) {s : RpeSettings K} {r : RpeResult K} (h : compareRelative E L test ref s = .ok r) :
    ∀ g ∈ r.groups, ∀ e, some e ∈ g.posDev → e = 0 := by
  intro g hg e he
  obtain ⟨D, i, j, x, x', u, u', a, b, -, hx, hx', hu, hu', -, -, -, rfl⟩ := pos_entry hE hL ht hr hlen h hg he
  have e1 := sample_pos ht hx
  have e2 := sample_pos ht hx'
  rw [hpos, sample_pos hr hu, Option.some.injEq] at e1
  rw [hpos, sample_pos hr hu', Option.some.injEq] at e2
  have hp : posError E.nrm L x x' u u' = |E.nrm (u'.p - u.p) - E.nrm (x'.p - x.p)| := by
    unfold posError
    rcases hrot with h0 | h0
    · have := sample_rot ht hx
      rw [h0] at this
      simp only [rotColumn, List.getElem?_replicate, Option.ite_none_right_eq_some, Option.some.injEq] at this
      rw [← this.2]
    · have := sample_rot hr hu
      rw [h0] at this
      simp only [rotColumn, List.getElem?_replicate, Option.ite_none_right_eq_some, Option.some.injEq] at this
      rw [← this.2]
      rcases x.r with _ | q <;> rfl
  rw [hp, e1, e2, sub_self, abs_zero, zero_div]

/-! ### The hypotheses are met, and orientations in the middle are needed -/

example : ∃ tu uw tw,
    compareRelative realEval (matLib (fun a _ _ => a)) (exPosed ⟨0, 0, 0⟩ ⟨1, 2, 0⟩ exUpright exUpside)
      (exPosed ⟨0, 5, 0⟩ ⟨1, 0, 0⟩ exUpside exUpside) exPerSecond = .ok tu ∧
    compareRelative realEval (matLib (fun a _ _ => a)) (exPosed ⟨0, 5, 0⟩ ⟨1, 0, 0⟩ exUpside exUpside)
      (exPosed ⟨0, 0, 0⟩ ⟨0, 0, 1⟩ exUpright exUpright) exPerSecond = .ok uw ∧
    compareRelative realEval (matLib (fun a _ _ => a)) (exPosed ⟨0, 0, 0⟩ ⟨1, 2, 0⟩ exUpright exUpside)
      (exPosed ⟨0, 0, 0⟩ ⟨0, 0, 1⟩ exUpright exUpright) exPerSecond = .ok tw ∧
    pairScale exPerSecond.unit (exPosed ⟨0, 5, 0⟩ ⟨1, 0, 0⟩ exUpside exUpside) =
      pairScale exPerSecond.unit (exPosed ⟨0, 0, 0⟩ ⟨0, 0, 1⟩ exUpright exUpright) := by
  obtain ⟨a, h1⟩ := exPosed_result ⟨0, 0, 0⟩ ⟨1, 2, 0⟩ ⟨0, 5, 0⟩ ⟨1, 0, 0⟩ exUpright exUpside exUpside exUpside
  obtain ⟨b, h2⟩ := exPosed_result ⟨0, 5, 0⟩ ⟨1, 0, 0⟩ ⟨0, 0, 0⟩ ⟨0, 0, 1⟩ exUpside exUpside exUpright exUpright
  obtain ⟨c, h3⟩ := exPosed_result ⟨0, 0, 0⟩ ⟨1, 2, 0⟩ ⟨0, 0, 0⟩ ⟨0, 0, 1⟩ exUpright exUpside exUpright exUpright
  exact ⟨a, b, c, h1, h2, h3, rfl⟩

theorem exPerSecond_result {T U : Traj ℝ R} (L : RotLib ℝ R) (hT : Coherent T) (hU : Coherent U) (h1 : T.tstamps = [0, 1])
    (h2 : U.tstamps = [0, 1]) : ∃ r, compareRelative realEval L T U exPerSecond = .ok r := by
  have h := C65_relative_comparison_errors realEval L T U hT hU (by rw [h1, h2]) (by rw [h2]; simp) exPerSecond
    (by norm_num [exPerSecond]) (by norm_num [exPerSecond]) (by
      intro D hD
      injection hD with hD
      rw [← hD, h2]
      simp)
  rcases h.2 with ⟨r, h3⟩ | h3
  · exact ⟨r, h3⟩
  · rcases h.1.1 h3 with h4 | h4 | h4
    · norm_num [exPerSecond] at h4
    · simp [exPerSecond] at h4
    · have := h4 U.tstamps rfl 0 (by simp [h2]) 1 (by simp [h2])
      norm_num [exPerSecond] at this

/-- **C222** needs orientations in the middle: a trajectory without orientations has no relative error to one at the same places,
whatever the orientations there are, so two that face in opposite directions have no error to it but one to each other. -/
theorem C222_middle_needs_orientations :
    ∃ tu uw tw,
      compareRelative realEval (matLib (fun a _ _ => a)) (exPosed ⟨0, 0, 0⟩ ⟨1, 0, 0⟩ exUpside exUpside)
        (exPair ⟨0, 0, 0⟩ ⟨1, 0, 0⟩) exPerSecond = .ok tu ∧
      compareRelative realEval (matLib (fun a _ _ => a)) (exPair ⟨0, 0, 0⟩ ⟨1, 0, 0⟩)
        (exPosed ⟨0, 0, 0⟩ ⟨1, 0, 0⟩ exUpright exUpright) exPerSecond = .ok uw ∧
      compareRelative realEval (matLib (fun a _ _ => a)) (exPosed ⟨0, 0, 0⟩ ⟨1, 0, 0⟩ exUpside exUpside)
        (exPosed ⟨0, 0, 0⟩ ⟨1, 0, 0⟩ exUpright exUpright) exPerSecond = .ok tw ∧
      (∀ g ∈ tu.groups, ∀ e, some e ∈ g.posDev → e = 0) ∧ (∀ g ∈ uw.groups, ∀ e, some e ∈ g.posDev → e = 0) ∧
      ∃ g ∈ tw.groups, some 2 ∈ g.posDev := by
  obtain ⟨a, h1⟩ := exPerSecond_result (matLib (fun a _ _ => a)) (exPosed_coherent ⟨0, 0, 0⟩ ⟨1, 0, 0⟩ exUpside exUpside)
    (exPair_coherent (K := ℝ) ⟨0, 0, 0⟩ ⟨1, 0, 0⟩) rfl rfl
  obtain ⟨b, h2⟩ := exPerSecond_result (matLib (fun a _ _ => a)) (exPair_coherent (K := ℝ) ⟨0, 0, 0⟩ ⟨1, 0, 0⟩)
    (exPosed_coherent ⟨0, 0, 0⟩ ⟨1, 0, 0⟩ exUpright exUpright) rfl rfl
  obtain ⟨-, c, -, -, h3, h4⟩ := C221_orientations_needed
  exact ⟨a, b, c, h1, h2, h3,
    no_error_of_same_positions realEval_ok (matLib_isRotLib _) (exPosed_coherent _ _ _ _) (exPair_coherent _ _) rfl rfl (Or.inr rfl) h1,
    no_error_of_same_positions realEval_ok (matLib_isRotLib _) (exPair_coherent _ _) (exPosed_coherent _ _ _ _) rfl rfl (Or.inl rfl) h2, h4⟩

end TC
