import Verif.Spec.Direct
import Mathlib.Analysis.Matrix.PosDef
import Mathlib.Analysis.InnerProductSpace.PiL2
import Mathlib.Algebra.Order.Star.Real
/-!
# Every real matrix has a singular value decomposition
-/
namespace TC
open Matrix

theorem exists_svd (M : M3 ℝ) : ∃ u s v, IsSvd M u s v := by
  have hA : (Mᴴ * M).PosSemidef := posSemidef_conjTranspose_mul_self M
  have hH := hA.isHermitian
  set d := hH.eigenvalues with hd
  have hd0 : ∀ i, 0 ≤ d i := hA.eigenvalues_nonneg
  set V : M3 ℝ := (hH.eigenvectorUnitary : Matrix (Fin 3) (Fin 3) ℝ) with hV
  have hVV : V * Vᵀ = 1 := by
    have := Unitary.mul_star_self_of_mem hH.eigenvectorUnitary.2
    rw [← conjTranspose_eq_transpose_of_trivial V]
    exact this
  have hVV' : Vᵀ * V = 1 := mul_eq_one_comm.1 hVV
  have hspec : Mᵀ * M = V * diagonal d * Vᵀ := by
    have := hH.spectral_theorem
    rw [Unitary.conjStarAlgAut_apply, star_eq_conjTranspose] at this
    rw [← conjTranspose_eq_transpose_of_trivial M, ← conjTranspose_eq_transpose_of_trivial V]
    exact this
  set N := M * V with hN
  have hNN : Nᵀ * N = diagonal d := by
    rw [hN, transpose_mul, Matrix.mul_assoc, ← Matrix.mul_assoc Mᵀ, hspec]
    calc Vᵀ * (V * diagonal d * Vᵀ * V) = (Vᵀ * V) * diagonal d * (Vᵀ * V) := by simp only [Matrix.mul_assoc]
      _ = diagonal d := by rw [hVV']; simp
  have hent : ∀ i j, ∑ k, N k i * N k j = if i = j then d i else 0 := by
    intro i j
    have := congrFun (congrFun hNN i) j
    rw [mul_apply, diagonal_apply] at this
    simpa [transpose_apply] using this
  let w : Fin 3 → EuclideanSpace ℝ (Fin 3) := fun j => WithLp.toLp 2 (fun i => N i j / Real.sqrt (d j))
  have hw : Orthonormal ℝ ({j | d j ≠ 0}.domRestrict w) := by
    rw [orthonormal_iff_ite]
    rintro ⟨i, hi⟩ ⟨j, hj⟩
    have h1 : (inner ℝ (w i) (w j) : ℝ) = (∑ k, N k i * N k j) / (Real.sqrt (d i) * Real.sqrt (d j)) := by
      rw [PiLp.inner_apply, Finset.sum_div]
      refine Finset.sum_congr rfl fun k _ => ?_
      simp [w]
      ring
    change inner ℝ (w i) (w j) = _
    rw [h1, hent]
    simp only [Subtype.mk.injEq]
    split_ifs with h
    · subst h
      rw [Real.mul_self_sqrt (hd0 i), div_self hi]
    · simp
  obtain ⟨b, hb⟩ := hw.exists_orthonormalBasis_extension_of_card_eq (by simp)
  refine ⟨Matrix.of fun i j => (b j i : ℝ), fun j => Real.sqrt (d j), Vᵀ, ?_, ?_, fun j => Real.sqrt_nonneg _, ?_⟩
  · rw [mul_eq_one_comm]
    ext i j
    rw [mul_apply, one_apply]
    have := orthonormal_iff_ite.1 b.orthonormal i j
    rw [PiLp.inner_apply] at this
    rw [← this]
    refine Finset.sum_congr rfl fun k _ => ?_
    simp [transpose_apply]
    ring
  · rw [transpose_transpose]
    exact hVV'
  · have : N = (Matrix.of fun i j => (b j i : ℝ)) * diagonal (fun j => Real.sqrt (d j)) := by
      ext i j
      rw [mul_diagonal]
      by_cases hj : d j = 0
      · rw [hj, Real.sqrt_zero, mul_zero]
        have := hent j j
        rw [if_pos rfl, hj, Finset.sum_eq_zero_iff_of_nonneg (fun _ _ => mul_self_nonneg _)] at this
        simpa using this i (Finset.mem_univ _)
      · rw [Matrix.of_apply, hb j hj]
        have : Real.sqrt (d j) ≠ 0 := (Real.sqrt_pos.2 (lt_of_le_of_ne (hd0 j) (Ne.symm hj))).ne'
        simp [w]
        field_simp
    rw [← this, hN, Matrix.mul_assoc, hVV, Matrix.mul_one]

end TC
