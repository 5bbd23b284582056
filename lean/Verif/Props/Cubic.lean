import Verif.Proofs.Cubic
import Mathlib.LinearAlgebra.Matrix.Rank
import Mathlib.Analysis.Calculus.ContDiff.Basic
import Mathlib.Analysis.Calculus.ContDiff.Deriv
import Mathlib.Analysis.Calculus.Deriv.Polynomial
import Mathlib.Tactic.FieldSimp
/-!
# C57, C58, C100: piecewise cubic approximation
-/
namespace TC
set_option linter.unusedSectionVars false
section field
variable {K : Type} [Field K] [LinearOrder K] [IsStrictOrderedRing K] [FloorRing K]

/-! ### C57 -/

/-- **C57**, sample count: one approximated value and one residual for every sample. -/
theorem C57_sample_count (solve : Solver K) (functionOf values : List K) (intSize : K) (minObs : Nat)
    (r : Cubic K) (h : cubicApprox solve functionOf values intSize minObs = .ok r) :
    r.estObs.length = functionOf.length ∧ r.residuals.length = functionOf.length ∧
      values.length = functionOf.length := by
  obtain ⟨st, f0, last, x, l, v, hr⟩ := cubicApprox_inv h
  rw [hr.eq]
  exact ⟨by simp [hr.rowsLen], by simp [hr.rowsLen], hr.valuesLen⟩

/-- **C57**, constants: a constant signal is returned unchanged, for every partition into
intervals. -/
theorem C57_constant_reproduced (solve : Solver K) (hs : IsSolver solve) (functionOf values : List K)
    (intSize : K) (minObs : Nat) (c : K) (hc : ∀ y ∈ values, y = c) (r : Cubic K)
    (h : cubicApprox solve functionOf values intSize minObs = .ok r) : r.estObs = values := by
  obtain ⟨st, f0, last, x, l, v, hr⟩ := cubicApprox_inv h
  refine cubic_exact hs hr (fun j => if Even j then c else 0) ?_
  intro i row val hrow hval
  obtain ⟨e1, _, e3⟩ := designRows_mem hr.inv.rows 0 (by decide) (List.mem_of_getElem? hrow)
  rw [hc val (List.mem_of_getElem? hval)]
  have o1 : ¬ Even (row.1 + 1) := by
    rw [Nat.even_add_one]; exact fun hcon => hcon e1
  have o2 : Even (row.1 + 2) := e1.add (by decide)
  have o3 : ¬ Even (row.1 + 3) := by
    rw [show row.1 + 3 = (row.1 + 2) + 1 by omega, Nat.even_add_one]; exact fun hcon => hcon o2
  simp only [if_pos e1, if_neg o1, if_pos o2, if_neg o3]
  linear_combination c * e3

/-- **C57** for positions: as many positions as samples, and a trajectory that stays at one place
is returned unchanged. -/
theorem C57_positions (solve : Solver K) (functionOf : List K) (values : List (V3 K)) (intSize : K)
    (minObs : Nat) (r : List (V3 K))
    (h : piecewiseCubic solve functionOf values intSize minObs = .ok r) :
    r.length = functionOf.length ∧ values.length = functionOf.length ∧
      (IsSolver solve → ∀ p, (∀ q ∈ values, q = p) → r = values) := by
  unfold piecewiseCubic at h
  cases hx : cubicApprox solve functionOf (values.map V3.x) intSize minObs with
  | error e => rw [hx] at h; cases h
  | ok X =>
    cases hy : cubicApprox solve functionOf (values.map V3.y) intSize minObs with
    | error e => rw [hx, hy] at h; cases h
    | ok Y =>
      cases hz : cubicApprox solve functionOf (values.map V3.z) intSize minObs with
      | error e => rw [hx, hy, hz] at h; cases h
      | ok Z =>
        rw [hx, hy, hz] at h
        obtain rfl := Except.ok.inj h
        obtain ⟨a1, _, a3⟩ := C57_sample_count _ _ _ _ _ _ hx
        obtain ⟨b1, _, _⟩ := C57_sample_count _ _ _ _ _ _ hy
        obtain ⟨c1, _, _⟩ := C57_sample_count _ _ _ _ _ _ hz
        rw [List.length_map] at a3
        refine ⟨by simp [a1, b1, c1], a3, fun hs p hp => ?_⟩
        have ex : X.estObs = values.map V3.x :=
          C57_constant_reproduced solve hs _ _ _ _ p.x (by simpa using fun q hq => by rw [hp q hq]) X hx
        have ey : Y.estObs = values.map V3.y :=
          C57_constant_reproduced solve hs _ _ _ _ p.y (by simpa using fun q hq => by rw [hp q hq]) Y hy
        have ez : Z.estObs = values.map V3.z :=
          C57_constant_reproduced solve hs _ _ _ _ p.z (by simpa using fun q hq => by rw [hp q hq]) Z hz
        rw [ex, ey, ez]
        clear * -
        induction values with
        | nil => rfl
        | cons q l ih => simpa using ih

/-- **C57**, too few samples: `IndexError`. -/
theorem C57_too_few_samples (solve : Solver K) (functionOf values : List K) (intSize : K)
    (hi : intSize ≠ 0) (minObs : Nat) (h : functionOf.length < minObs) :
    cubicApprox solve functionOf values intSize minObs = .error .indexError := by
  unfold cubicApprox
  by_cases hne : functionOf = []
  · subst hne; rfl
  · have hne' : functionOf.map (fun x => x - functionOf.head hne) ≠ [] := by simpa using hne
    rw [pyFirst_ne hne]
    simp only [bind, Except.bind]
    rw [pyLast_ne hne']
    simp only
    rw [arange, if_neg hi]
    simp only
    cases hpl : pyLast ((List.range (arangeLen 0
        ((functionOf.map (fun x => x - functionOf.head hne)).getLast hne') intSize)).map
        (fun i : Nat => (0 : K) + (i : K) * intSize)) with
    | error e =>
      simp only
      have : ∀ (l : List K) e, pyLast l = .error e → e = .indexError := by
        intro l e hl
        by_cases hln : l = []
        · subst hln; cases hl; rfl
        · rw [pyLast_ne hln] at hl; cases hl
      rw [this _ _ hpl]
    | ok s =>
      simp only
      rw [cubicLoop_few (by rw [List.length_map]; exact h) 0 _ _ (by simp) hne' (CubicInv.init _ _) rfl]

omit [FloorRing K] in
open Matrix in
/-- normal equations always have a solution -/
theorem normal_equations_solvable {m n : Nat} (A : Matrix (Fin m) (Fin n) K) (l : Fin m → K) :
    ∃ x, (Aᵀ * A) *ᵥ x = Aᵀ *ᵥ l := by
  have hle : LinearMap.range (Aᵀ * A).mulVecLin ≤ LinearMap.range Aᵀ.mulVecLin := by
    rintro _ ⟨x, rfl⟩
    exact ⟨A *ᵥ x, by simp⟩
  have heq : LinearMap.range (Aᵀ * A).mulVecLin = LinearMap.range Aᵀ.mulVecLin := by
    refine Submodule.eq_of_le_of_finrank_eq hle ?_
    have h1 := Matrix.rank_transpose_mul_self A
    have h2 := Matrix.rank_transpose A
    unfold Matrix.rank at h1 h2
    rw [h1, h2]
  have : Aᵀ *ᵥ l ∈ LinearMap.range Aᵀ.mulVecLin := ⟨l, rfl⟩
  rw [← heq] at this
  obtain ⟨x, hx⟩ := this
  exact ⟨x, hx⟩

open Classical in
/-- a solver that finds a solution whenever there is one -/
noncomputable def exactSolver : Solver K := fun _ N b =>
  if h : ∃ x, N.mulVec x = b then .ok h.choose else .error .valueError

theorem exactSolver_isSolver : IsSolver (exactSolver (K := K)) := by
  intro n N b x h
  unfold exactSolver at h
  split_ifs at h with hx
  obtain rfl := Except.ok.inj h
  exact hx.choose_spec

/-- **C57**, availability: with at least `min_obs` strictly ascending samples, at least two, and a
positive interval size the approximation does return, if the normal equations are solved. -/
theorem C57_returns (functionOf values : List K) (intSize : K) (minObs : Nat) (hi : 0 < intSize)
    (hasc : StrictAsc functionOf) (h2 : 2 ≤ functionOf.length) (hm : minObs ≤ functionOf.length)
    (hv : values.length = functionOf.length) :
    ∃ r, cubicApprox exactSolver functionOf values intSize minObs = .ok r := by
  have hne : functionOf ≠ [] := List.ne_nil_of_length_pos (by omega)
  have hne' : functionOf.map (fun x => x - functionOf.head hne) ≠ [] := by simpa using hne
  obtain ⟨st, hst⟩ := cubicLoop_ok (intSize := intSize) (minObs := minObs)
    (varRed := functionOf.map (fun x => x - functionOf.head hne)) (by rw [List.length_map]; exact hm)
    0 _ ⟨[], [], [], [], 0⟩ List.drop_zero (CubicInv.init _ _)
  obtain ⟨a, b⟩ := cubicLoop_inv 0 _ _ List.drop_zero (by simp) (CubicInv.init _ _) hst
  have hlen : (designRows 0 st.coeffs).length = functionOf.length := by
    have := a.flat
    rw [b hne', List.append_nil, List.take_length] at this
    rw [designRows_length, rows_flatten_length a.rows, this, List.length_map]
  unfold cubicApprox
  rw [pyFirst_ne hne]
  simp only [bind, Except.bind]
  rw [pyLast_ne hne']
  simp only
  rw [arange, if_neg hi.ne']
  simp only
  have hpos : 0 < (functionOf.map (fun x => x - functionOf.head hne)).getLast hne' := by
    have h0 : functionOf.head hne = functionOf[0] := List.head_eq_getElem hne
    have h1 := List.pairwise_iff_getElem.1 hasc 0 (functionOf.length - 1) (by omega) (by omega)
      (by omega)
    rw [← h0] at h1
    rw [List.getLast_map, sub_pos, List.getLast_eq_getElem]
    exact h1
  rw [pyLast_ne (by
    intro hc
    have := congrArg List.length hc
    rw [List.length_map, List.length_range, List.length_nil, arangeLen, Int.toNat_eq_zero, Int.ceil_le,
      sub_zero, Int.cast_zero] at this
    exact absurd this (not_le.2 (div_pos hpos hi)))]
  simp only
  rw [hst]
  simp only
  rw [if_neg (by simpa using hlen), if_neg (by simpa using hv)]
  simp only [pure, Except.pure]
  unfold sparseLeastSquares exactSolver
  rw [dif_pos (normal_equations_solvable _ _)]
  exact ⟨_, rfl⟩

/-! ### C100 -/

/-- **C100**, positive part: if the whole signal is one interval, every cubic polynomial (in
particular every straight line) is reproduced at the samples.
Missing for the full property: two or more intervals, for which it is false
(`C100_cubic_reproduced_fails`). -/
theorem C100_cubic_reproduced_partial (solve : Solver K) (hs : IsSolver solve) (functionOf : List K)
    (hasc : StrictAsc functionOf) (intSize : K) (minObs : Nat) (hm : 2 ≤ minObs) (b0 b1 b2 b3 : K)
    (r : Cubic K)
    (h : cubicApprox solve functionOf
      (functionOf.map (fun x => b0 + b1 * x + b2 * x ^ 2 + b3 * x ^ 3)) intSize minObs = .ok r)
    (hone : r.intervalSteps.length = 2) :
    r.estObs = functionOf.map (fun x => b0 + b1 * x + b2 * x ^ 2 + b3 * x ^ 3) := by
  obtain ⟨st, f0, last, x, l, v, hr⟩ := cubicApprox_inv h
  have hk : st.intervals.length = 1 := by
    rw [hr.eq] at hone
    simp only [List.length_map, List.length_append, List.length_singleton, hr.inv.knots] at hone
    omega
  obtain ⟨iv, hiv⟩ := List.length_eq_one_iff.1 hk
  have hco : st.coeffs.length = 1 := by rw [← hr.inv.rows.length_eq, hk]
  obtain ⟨c, hc⟩ := List.length_eq_one_iff.1 hco
  have hrows := hr.inv.rows
  rw [hiv, hc] at hrows
  obtain ⟨_, a, e, rfl, hae⟩ := (List.forall₂_cons.1 hrows).1
  have hsa : StrictAsc (functionOf.map (fun x => x - f0)) := by
    unfold StrictAsc
    rw [List.pairwise_map]
    exact hasc.imp (fun h => sub_lt_sub_right h _)
  have hlt := hae hm hsa
  have hflat := hr.inv.flat
  rw [hiv, hr.done, List.append_nil, List.flatten_cons, List.flatten_nil, List.append_nil,
    List.take_of_length_le (by simp)] at hflat
  let q : K → K := fun u => b0 + b1 * (u + f0) + b2 * (u + f0) ^ 2 + b3 * (u + f0) ^ 3
  let q' : K → K := fun u => b1 + 2 * b2 * (u + f0) + 3 * b3 * (u + f0) ^ 2
  refine cubic_exact hs hr
    (fun j => if j = 0 then q a else if j = 1 then q' a else if j = 2 then q e else q' e) ?_
  intro i row val hrow hval
  rw [hc, hflat] at hrow
  simp only [designRows, List.append_nil, List.getElem?_map, Option.map_eq_some_iff] at hrow hval
  obtain ⟨_, ⟨_, ⟨w, hw, rfl⟩, rfl⟩, rfl⟩ := hrow
  obtain ⟨w', hw', rfl⟩ := hval
  obtain rfl : w = w' := Option.some.inj (hw.symm.trans hw')
  have hd : e - a ≠ 0 := (sub_pos.2 hlt).ne'
  simp only [computeC, q, q']
  norm_num
  field_simp
  ring

end field

/-! ### Witnesses -/

theorem exCubic_aux (solve : Solver ℚ) (hs : IsSolver solve) (r : Cubic ℚ) (values : List ℚ)
    (h : cubicApprox solve [0, 1, 2, 3, 4, 5, 6, 7] values 3 4 = .ok r) :
    r.estObs[3]? = r.estObs[4]? := by
  obtain ⟨st, f0, last, x, l, v, hr⟩ := cubicApprox_inv h
  have hf : f0 = 0 := (Option.some.inj hr.first).symm
  subst hf
  have hst : st = ⟨[0, 4], [[0, 1, 2, 3], [4, 5, 6, 7]], [[0, 1, 2, 3].map (fun x => computeC x 0 3),
      [4, 5, 6, 7].map (fun x => computeC x 4 7)], [], 8⟩ := by
    have h1 := hr.loop
    have h2 : cubicLoop (([0, 1, 2, 3, 4, 5, 6, 7] : List ℚ).map (fun x => x - 0)) 3 4 0
        (([0, 1, 2, 3, 4, 5, 6, 7] : List ℚ).map (fun x => x - 0)) ⟨[], [], [], [], 0⟩ =
        .ok ⟨[0, 4], [[0, 1, 2, 3], [4, 5, 6, 7]], [[0, 1, 2, 3].map (fun x => computeC x 0 3),
      [4, 5, 6, 7].map (fun x => computeC x 4 7)], [], 8⟩ := by decide +kernel
    exact Except.ok.inj (h1.symm.trans h2)
  have r3 : (designRows 0 st.coeffs)[3]? = some (0, ⟨0, 0, 1, 0⟩) := by
    rw [hst]; decide +kernel
  have r4 : (designRows 0 st.coeffs)[4]? = some (2, ⟨1, 0, 0, 0⟩) := by
    rw [hst]; decide +kernel
  rw [cubic_est hs hr r3, cubic_est hs hr r4]
  simp

/-- **C100 fails**: eight samples of the straight line `y = x`, intervals of length 3.  Whatever
(correct) solver is used, the call returns or raises, and if it returns the approximated values are
not the given ones: the last sample of an interval and the first of the next one get the same value.
A correct solver for which the call returns exists. -/
theorem C100_cubic_reproduced_fails :
    (∀ solve : Solver ℚ, IsSolver solve → ∀ r,
      cubicApprox solve [0, 1, 2, 3, 4, 5, 6, 7] [0, 1, 2, 3, 4, 5, 6, 7] 3 4 = .ok r →
      r.estObs ≠ [0, 1, 2, 3, 4, 5, 6, 7]) ∧
    (∃ solve : Solver ℚ, IsSolver solve ∧ ∃ r,
      cubicApprox solve [0, 1, 2, 3, 4, 5, 6, 7] [0, 1, 2, 3, 4, 5, 6, 7] 3 4 = .ok r) := by
  refine ⟨fun solve hs r h hc => ?_, exactSolver, exactSolver_isSolver, ?_⟩
  · have := exCubic_aux solve hs r _ h
    rw [hc] at this
    simp at this
  · exact C57_returns _ _ _ _ (by norm_num) (by decide +kernel) (by simp) (by simp) (by simp)

/-- the hypotheses of the C57 theorems: a constant signal, two intervals -/
example : ∃ r, cubicApprox exactSolver ([0, 1, 2, 3, 4, 5, 6, 7] : List ℚ) (List.replicate 8 5) 3 4
      = .ok r ∧ r.estObs = List.replicate 8 5 := by
  obtain ⟨r, hr⟩ := C57_returns ([0, 1, 2, 3, 4, 5, 6, 7] : List ℚ) (List.replicate 8 5) 3 4
    (by norm_num) (by decide +kernel) (by simp) (by simp) (by simp)
  exact ⟨r, hr, C57_constant_reproduced _ exactSolver_isSolver _ _ _ _ 5 (by simp) r hr⟩

/-- too few samples -/
example : cubicApprox exactSolver ([0, 1, 2] : List ℚ) [0, 1, 2] 3 4 = .error .indexError :=
  C57_too_few_samples _ _ _ _ (by norm_num) _ (by simp)

end TC
