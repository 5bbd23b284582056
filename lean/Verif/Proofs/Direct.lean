import Verif.Spec.Direct
import Verif.Proofs.Pose
import Mathlib.Tactic.Linarith
import Mathlib.Tactic.LinearCombination
import Mathlib.LinearAlgebra.Matrix.Trace
import Mathlib.LinearAlgebra.Matrix.NonsingularInverse
import Mathlib.Algebra.BigOperators.Group.List.Basic
/-!
The similarity with the smallest weighted sum of squared distances.
-/
namespace TC
set_option linter.unusedSectionVars false
variable {K : Type} [Field K] [LinearOrder K] [IsStrictOrderedRing K]
open Direct

theorem orth_comm {Q : M3 K} (h : Q * Q.transpose = 1) : Q.transpose * Q = 1 := mul_eq_one_comm.1 h

theorem normSq_mulV_orth {Q : M3 K} (h : Q * Q.transpose = 1) (v : V3 K) :
    V3.normSq (mulV Q v) = V3.normSq v := by
  have h2 := orth_comm h
  have e : ∀ i j, (Q.transpose * Q) i j = (1 : M3 K) i j := fun i j => by rw [h2]
  have e00 := e 0 0
  have e11 := e 1 1
  have e22 := e 2 2
  have e01 := e 0 1
  have e02 := e 0 2
  have e12 := e 1 2
  simp [Matrix.mul_apply, Fin.sum_univ_three] at e00 e11 e22 e01 e02 e12
  simp only [V3.normSq, mulV]
  linear_combination v.x * v.x * e00 + v.y * v.y * e11 + v.z * v.z * e22 + 2 * v.x * v.y * e01
    + 2 * v.x * v.z * e02 + 2 * v.y * v.z * e12

theorem trace_moment (Q : M3 K) : ∀ c : Pts K,
    (Q * moment c).trace = (c.map (fun x => x.1 * V3.dot x.2.2 (mulV Q x.2.1))).sum := by
  intro c
  induction c with
  | nil => simp [moment]
  | cons x c ih =>
    have : moment (x :: c) = x.1 • outerV x.2.1 x.2.2 + moment c := by simp [moment]
    rw [this, mul_add, Matrix.trace_add, ih, List.map_cons, List.sum_cons]
    congr 1
    simp [Matrix.trace, Matrix.mul_apply, Fin.sum_univ_three, outerV, V3.dot, mulV]
    ring

/-- entries of an orthogonal matrix -/
theorem orth_diag_le {X : M3 K} (h : X * X.transpose = 1) (i : Fin 3) : X i i ≤ 1 ∧ -1 ≤ X i i := by
  have e : (X * X.transpose) i i = (1 : M3 K) i i := by rw [h]
  simp only [Matrix.mul_apply, Matrix.transpose_apply, Matrix.one_apply_eq] at e
  have hle : X i i * X i i ≤ 1 := by
    rw [← e]
    exact Finset.single_le_sum (f := fun j => X i j * X i j) (fun j _ => mul_self_nonneg _) (Finset.mem_univ i)
  constructor
  · nlinarith
  · nlinarith

theorem orth_mul {A B : M3 K} (hA : A * A.transpose = 1) (hB : B * B.transpose = 1) :
    (A * B) * (A * B).transpose = 1 := by
  rw [Matrix.transpose_mul, Matrix.mul_assoc, ← Matrix.mul_assoc B, hB, Matrix.one_mul, hA]

theorem orth_transpose {A : M3 K} (hA : A * A.transpose = 1) : A.transpose * A.transpose.transpose = 1 := by
  rw [Matrix.transpose_transpose]
  exact orth_comm hA

theorem trace_svd {M u v : M3 K} {s : Fin 3 → K} (h : IsSvd M u s v) {Q : M3 K} (hQ : Q * Q.transpose = 1) :
    (Q * M).trace ≤ ∑ i, s i ∧ -(∑ i, s i) ≤ (Q * M).trace := by
  have e : (Q * M).trace = ∑ i, (v * Q * u) i i * s i := by
    rw [h.eq, ← Matrix.mul_assoc, ← Matrix.mul_assoc, Matrix.trace_mul_comm, ← Matrix.mul_assoc, ← Matrix.mul_assoc]
    simp only [Matrix.trace, Matrix.diag, Matrix.mul_diagonal]
  have hX : (v * Q * u) * (v * Q * u).transpose = 1 := orth_mul (orth_mul h.right hQ) h.left
  rw [e]
  constructor
  · refine Finset.sum_le_sum fun i _ => ?_
    have := (orth_diag_le hX i).1
    nlinarith [h.nonneg i]
  · rw [← Finset.sum_neg_distrib]
    refine Finset.sum_le_sum fun i _ => ?_
    have := (orth_diag_le hX i).2
    nlinarith [h.nonneg i]

theorem trace_svd_best {M u v : M3 K} {s : Fin 3 → K} (h : IsSvd M u s v) :
    (v.transpose * u.transpose * M).trace = ∑ i, s i := by
  rw [h.eq, ← Matrix.mul_assoc, ← Matrix.mul_assoc, Matrix.trace_mul_comm, ← Matrix.mul_assoc, ← Matrix.mul_assoc,
    ← Matrix.mul_assoc, h.right, Matrix.one_mul, orth_comm h.left, Matrix.one_mul]
  simp [Matrix.trace]

/-- the square expanded -/
theorem sum_expand (Q : M3 K) (k : K) (e : V3 K) : ∀ c : Pts K,
    (c.map (fun x => x.1 * V3.normSq (x.2.2 - k • mulV Q x.2.1 + e))).sum =
      (c.map (fun x => x.1 * V3.normSq x.2.2)).sum
      - 2 * k * (c.map (fun x => x.1 * V3.dot x.2.2 (mulV Q x.2.1))).sum
      + k * k * (c.map (fun x => x.1 * V3.normSq (mulV Q x.2.1))).sum
      + 2 * V3.dot e (c.map (fun x => x.1 • x.2.2)).sum
      - 2 * k * V3.dot e (mulV Q (c.map (fun x => x.1 • x.2.1)).sum)
      + (c.map (fun x => x.1)).sum * V3.normSq e := by
  intro c
  induction c with
  | nil => simp [V3.dot, mulV]
  | cons x c ih =>
    simp only [List.map_cons, List.sum_cons, ih, mulV_add, mulV_smul]
    simp only [V3.normSq, V3.dot, V3.add_x, V3.add_y, V3.add_z, V3.sub_x, V3.sub_y, V3.sub_z, V3.smul_x, V3.smul_y,
      V3.smul_z]
    ring

theorem smul_sum_sub (c : V3 K) : ∀ l : List (K × V3 K),
    (l.map (fun x => x.1 • (x.2 - c))).sum = (l.map (fun x => x.1 • x.2)).sum - (l.map (fun x => x.1)).sum • c := by
  intro l
  induction l with
  | nil => simp
  | cons x l ih =>
    rw [List.map_cons, List.sum_cons, ih, List.map_cons, List.sum_cons, List.map_cons, List.sum_cons, smul_sub, add_smul]
    abel

theorem centered_from_sum (d : Pts K) (h : sumWeights d ≠ 0) :
    ((centered d).map (fun x => x.1 • x.2.1)).sum = 0 := by
  have := smul_sum_sub (centroidFrom d) (d.map (fun x => (x.1, x.2.1)))
  simp only [List.map_map] at this
  unfold centered
  rw [List.map_map]
  refine Eq.trans this ?_
  change _ - sumWeights d • centroidFrom d = 0
  unfold centroidFrom
  rw [smul_smul, mul_inv_cancel₀ h, one_smul]
  exact sub_self _

theorem centered_to_sum (d : Pts K) (h : sumWeights d ≠ 0) :
    ((centered d).map (fun x => x.1 • x.2.2)).sum = 0 := by
  have := smul_sum_sub (centroidTo d) (d.map (fun x => (x.1, x.2.2)))
  simp only [List.map_map] at this
  unfold centered
  rw [List.map_map]
  refine Eq.trans this ?_
  change _ - sumWeights d • centroidTo d = 0
  unfold centroidTo
  rw [smul_smul, mul_inv_cancel₀ h, one_smul]
  exact sub_self _

theorem centered_weights (d : Pts K) : (centered d).map (fun x => x.1) = d.map (fun x => x.1) := by
  simp [centered]

/-- the error of any similarity, split at the centroids -/
theorem sqErr_split (d : Pts K) (h : sumWeights d ≠ 0) {Q : M3 K} (hQ : Q * Q.transpose = 1) (k : K) (b : V3 K) :
    sqErr d Q k b = ((centered d).map (fun x => x.1 * V3.normSq x.2.2)).sum
      - 2 * k * (Q * moment (centered d)).trace
      + k * k * ((centered d).map (fun x => x.1 * V3.normSq x.2.1)).sum
      + sumWeights d * V3.normSq (centroidTo d - b - k • mulV Q (centroidFrom d)) := by
  have h1 : sqErr d Q k b = ((centered d).map (fun x => x.1 *
      V3.normSq (x.2.2 - k • mulV Q x.2.1 + (centroidTo d - b - k • mulV Q (centroidFrom d))))).sum := by
    unfold sqErr centered
    rw [List.map_map]
    congr 1
    refine List.map_congr_left fun x _ => ?_
    simp only [Function.comp_apply]
    congr 2
    rw [mulV_sub, smul_sub]
    abel
  rw [h1, sum_expand, centered_from_sum d h, centered_to_sum d h, trace_moment, centered_weights]
  simp only [normSq_mulV_orth hQ, mulV_zero]
  simp [V3.dot, sumWeights]

end TC
