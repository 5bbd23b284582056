import Mathlib.LinearAlgebra.Matrix.ToLinearEquiv
import Mathlib.Algebra.Order.BigOperators.Ring.Finset
import Mathlib.Tactic.Linarith
import Mathlib.Tactic.FieldSimp
/-!
The linear algebra of one pass of the adjustment.
-/
namespace TC
set_option linter.unusedSectionVars false
open Matrix
variable {K : Type} [Field K] [LinearOrder K] [IsStrictOrderedRing K]

theorem dot_bbt {m n : Nat} (B : Matrix (Fin m) (Fin n) K) (σ : Fin n → K) (x : Fin m → K) :
    x ⬝ᵥ ((B * diagonal σ * Bᵀ) *ᵥ x) = ∑ j, σ j * ((Bᵀ *ᵥ x) j * (Bᵀ *ᵥ x) j) := by
  rw [← mulVec_mulVec, ← mulVec_mulVec, dotProduct_mulVec, ← mulVec_transpose]
  unfold dotProduct
  refine Finset.sum_congr rfl fun j _ => ?_
  rw [mulVec_diagonal]
  ring

/-- each equation has an observation of its own -/
def OwnColumn {m n : Nat} (B : Matrix (Fin m) (Fin n) K) : Prop :=
  ∀ i, ∃ j, B i j ≠ 0 ∧ ∀ i', i' ≠ i → B i' j = 0

theorem bbt_pos {m n : Nat} {B : Matrix (Fin m) (Fin n) K} {σ : Fin n → K} (hB : OwnColumn B) (hσ : ∀ j, 0 < σ j)
    {x : Fin m → K} (hx : x ⬝ᵥ ((B * diagonal σ * Bᵀ) *ᵥ x) = 0) : x = 0 := by
  rw [dot_bbt] at hx
  have h0 : ∀ j ∈ Finset.univ, σ j * ((Bᵀ *ᵥ x) j * (Bᵀ *ᵥ x) j) = 0 := by
    rw [← Finset.sum_eq_zero_iff_of_nonneg]
    · exact hx
    · intro j _
      exact mul_nonneg (hσ j).le (mul_self_nonneg _)
  funext i
  obtain ⟨j, h1, h2⟩ := hB i
  have h3 : (Bᵀ *ᵥ x) j = B i j * x i := by
    unfold mulVec dotProduct
    refine Finset.sum_eq_single i (fun i' _ hne => ?_) (fun h => absurd (Finset.mem_univ _) h)
    change B i' j * x i' = 0
    rw [h2 i' hne, zero_mul]
  have h4 := h0 j (Finset.mem_univ _)
  rw [h3] at h4
  rcases mul_eq_zero.1 h4 with h5 | h5
  · exact absurd h5 (hσ j).ne'
  · have h6 := mul_self_eq_zero.1 h5
    rcases mul_eq_zero.1 h6 with h7 | h7
    · exact absurd h7 h1
    · exact h7

theorem bbt_det {m n : Nat} {B : Matrix (Fin m) (Fin n) K} {σ : Fin n → K} (hB : OwnColumn B) (hσ : ∀ j, 0 < σ j) :
    (B * diagonal σ * Bᵀ).det ≠ 0 := by
  intro hd
  obtain ⟨x, hx, h⟩ := (Matrix.exists_mulVec_eq_zero_iff).2 hd
  exact hx (bbt_pos hB hσ (by rw [h, dotProduct_zero]))

theorem bbt_inj {m n : Nat} {B : Matrix (Fin m) (Fin n) K} {σ : Fin n → K} (hB : OwnColumn B) (hσ : ∀ j, 0 < σ j)
    {x y : Fin m → K} (h : (B * diagonal σ * Bᵀ) *ᵥ x = (B * diagonal σ * Bᵀ) *ᵥ y) : x = y := by
  have : x - y = 0 := bbt_pos hB hσ (by rw [mulVec_sub, h, sub_self, dotProduct_zero])
  exact sub_eq_zero.1 this

theorem bbt_symm {m n : Nat} (B : Matrix (Fin m) (Fin n) K) (σ : Fin n → K) (x y : Fin m → K) :
    x ⬝ᵥ ((B * diagonal σ * Bᵀ) *ᵥ y) = y ⬝ᵥ ((B * diagonal σ * Bᵀ) *ᵥ x) := by
  have h : (B * diagonal σ * Bᵀ)ᵀ = B * diagonal σ * Bᵀ := by
    rw [transpose_mul, transpose_mul, transpose_transpose, diagonal_transpose, Matrix.mul_assoc]
  rw [dotProduct_mulVec, ← mulVec_transpose, h, dotProduct_comm]

variable {m n u : Nat} {A : Matrix (Fin m) (Fin u) K} {B : Matrix (Fin m) (Fin n) K} {σ : Fin n → K}
  {X : Matrix (Fin m) (Fin u) K}

/-- the normal equations are singular exactly if some change of the parameters has no effect -/
theorem normal_singular (hB : OwnColumn B) (hσ : ∀ j, 0 < σ j) (hX : B * diagonal σ * Bᵀ * X = A) :
    (Aᵀ * X).det = 0 ↔ ∃ δ, δ ≠ 0 ∧ A *ᵥ δ = 0 := by
  rw [← Matrix.exists_mulVec_eq_zero_iff]
  constructor
  · rintro ⟨δ, h1, h2⟩
    refine ⟨δ, h1, ?_⟩
    have h3 : (X *ᵥ δ) ⬝ᵥ ((B * diagonal σ * Bᵀ) *ᵥ (X *ᵥ δ)) = 0 := by
      rw [mulVec_mulVec, hX, dotProduct_comm, ← mulVec_transpose_dot, mulVec_mulVec, h2, dotProduct_zero]
    have h4 := bbt_pos hB hσ h3
    rw [← hX, ← mulVec_mulVec, h4, mulVec_zero]
  · rintro ⟨δ, h1, h2⟩
    refine ⟨δ, h1, ?_⟩
    have h3 : X *ᵥ δ = 0 := by
      refine bbt_inj hB hσ ?_
      rw [mulVec_mulVec, hX, h2, mulVec_zero]
    rw [← mulVec_mulVec, h3, mulVec_zero]
where
  mulVec_transpose_dot {x : Fin u → K} {y : Fin m → K} : x ⬝ᵥ (Aᵀ *ᵥ y) = (A *ᵥ x) ⬝ᵥ y := by
    rw [dotProduct_mulVec, vecMul_transpose]

/-- the residuals of a pass solve the linear equations with the least weighted sum of squares -/
theorem pass_optimal (hB : OwnColumn B) (hσ : ∀ j, 0 < σ j) (hX : B * diagonal σ * Bᵀ * X = A)
    {w y k : Fin m → K} {δ : Fin u → K} (hy : (B * diagonal σ * Bᵀ) *ᵥ y = w)
    (hδ : (Aᵀ * X) *ᵥ δ = -(Aᵀ *ᵥ y)) (hk : (B * diagonal σ * Bᵀ) *ᵥ k = A *ᵥ δ + w) :
    w + A *ᵥ δ + B *ᵥ (diagonal σ *ᵥ (Bᵀ *ᵥ (-k))) = 0 ∧
    ∀ (δ' : Fin u → K) (v' : Fin n → K), w + A *ᵥ δ' + B *ᵥ v' = 0 →
      ∑ j, (diagonal σ *ᵥ (Bᵀ *ᵥ (-k))) j ^ 2 / σ j ≤ ∑ j, v' j ^ 2 / σ j := by
  set v := diagonal σ *ᵥ (Bᵀ *ᵥ (-k)) with hv
  have h1 : B *ᵥ v = -(A *ᵥ δ + w) := by
    rw [hv, mulVec_mulVec, mulVec_mulVec, mulVec_neg, hk]
  have h2 : k = X *ᵥ δ + y := by
    refine bbt_inj hB hσ ?_
    rw [hk, mulVec_add, mulVec_mulVec, hX, hy]
  have h3 : Aᵀ *ᵥ k = 0 := by
    rw [h2, mulVec_add, mulVec_mulVec, hδ, neg_add_cancel]
  refine ⟨by rw [h1]; abel, fun δ' v' hv' => ?_⟩
  have h4 : B *ᵥ (v' - v) = -(A *ᵥ (δ' - δ)) := by
    have : B *ᵥ v' = -(w + A *ᵥ δ') := by rw [← add_eq_zero_iff_eq_neg', ← hv']
    rw [mulVec_sub, this, h1, mulVec_sub]
    abel
  have h5 : ∑ j, v j * (v' j - v j) / σ j = 0 := by
    have h6 : ∀ j, v j * (v' j - v j) / σ j = (Bᵀ *ᵥ (-k)) j * (v' - v) j := by
      intro j
      rw [hv, mulVec_diagonal, Pi.sub_apply, mulVec_diagonal]
      have := (hσ j).ne'
      field_simp
    rw [Finset.sum_congr rfl fun j _ => h6 j]
    change (Bᵀ *ᵥ (-k)) ⬝ᵥ (v' - v) = 0
    rw [mulVec_transpose, ← dotProduct_mulVec, h4, neg_dotProduct_neg, dotProduct_mulVec, ← mulVec_transpose, h3,
      zero_dotProduct]
  have h7 : ∀ j, v' j ^ 2 / σ j = v j ^ 2 / σ j + 2 * (v j * (v' j - v j) / σ j) + (v' j - v j) ^ 2 / σ j := by
    intro j
    have := (hσ j).ne'
    field_simp
    ring
  rw [Finset.sum_congr rfl fun j _ => h7 j, Finset.sum_add_distrib, Finset.sum_add_distrib, ← Finset.mul_sum, h5]
  have h8 : 0 ≤ ∑ j, (v' j - v j) ^ 2 / σ j :=
    Finset.sum_nonneg fun j _ => div_nonneg (sq_nonneg _) (hσ j).le
  linarith

end TC
