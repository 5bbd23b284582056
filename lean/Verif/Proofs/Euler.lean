import Verif.Proofs.Equations
import Mathlib.Analysis.SpecialFunctions.Complex.Arg
/-!
Every rotation matrix over the reals has Euler angles.
-/
namespace TC

/-- cosine and sine over the reals -/
noncomputable def realTrig : Trig ℝ := ⟨Real.cos, Real.sin⟩

theorem realTrig_isTrig : IsTrig realTrig :=
  ⟨fun a => by
    have := Real.cos_sq_add_sin_sq a
    simp only [realTrig]
    linarith [sq (Real.cos a), sq (Real.sin a)],
   Real.cos_zero, Real.sin_zero⟩

theorem exists_angle (c s : ℝ) (h : c * c + s * s = 1) : ∃ t, Real.cos t = c ∧ Real.sin t = s := by
  have hn : ‖(⟨c, s⟩ : ℂ)‖ = 1 := by
    rw [Complex.norm_def, Complex.normSq_mk, h, Real.sqrt_one]
  have h0 : (⟨c, s⟩ : ℂ) ≠ 0 := by
    intro h0; rw [h0] at hn; simp at hn
  refine ⟨Complex.arg ⟨c, s⟩, ?_, ?_⟩
  · rw [Complex.cos_arg h0, hn, div_one]
  · rw [Complex.sin_arg, hn, div_one]

theorem eulerMat_entries (τ : Trig ℝ) (e : V3 ℝ) : eulerMat τ e =
    !![τ.cos e.z * τ.cos e.y,
        τ.cos e.z * τ.sin e.y * τ.sin e.x - τ.sin e.z * τ.cos e.x,
        τ.cos e.z * τ.sin e.y * τ.cos e.x + τ.sin e.z * τ.sin e.x;
       τ.sin e.z * τ.cos e.y,
        τ.sin e.z * τ.sin e.y * τ.sin e.x + τ.cos e.z * τ.cos e.x,
        τ.sin e.z * τ.sin e.y * τ.cos e.x - τ.cos e.z * τ.sin e.x;
       -τ.sin e.y, τ.cos e.y * τ.sin e.x, τ.cos e.y * τ.cos e.x] := by
  ext i j
  fin_cases i <;> fin_cases j <;>
    simp [eulerMat, rotX, rotY, rotZ, Matrix.mul_apply, Fin.sum_univ_three] <;> ring

theorem mat3_eta (A : M3 ℝ) : A = !![A 0 0, A 0 1, A 0 2; A 1 0, A 1 1, A 1 2; A 2 0, A 2 1, A 2 2] := by
  ext i j
  fin_cases i <;> fin_cases j <;> rfl

theorem exists_euler (A : M3 ℝ) (hA : IsRot A) : ∃ e, eulerMat realTrig e = A := by
  have E := hA.eqs
  have hnn : 0 ≤ 1 - A 2 0 * A 2 0 := by
    linarith [E.c00, mul_self_nonneg (A 0 0), mul_self_nonneg (A 1 0)]
  obtain ⟨c, hc⟩ : ∃ c : ℝ, c * c = 1 - A 2 0 * A 2 0 := ⟨_, Real.mul_self_sqrt hnn⟩
  obtain ⟨y, hy1, hy2⟩ := exists_angle c (-A 2 0) (by linarith)
  by_cases h0 : c = 0
  · have h00 : 1 - A 2 0 * A 2 0 = 0 := by rw [← hc, h0, mul_zero]
    have hz : ∀ a b : ℝ, a * a + b * b = 0 → a = 0 ∧ b = 0 := fun a b h =>
      ⟨mul_self_eq_zero.1 (by linarith [mul_self_nonneg a, mul_self_nonneg b]),
       mul_self_eq_zero.1 (by linarith [mul_self_nonneg a, mul_self_nonneg b])⟩
    obtain ⟨hA00, hA10⟩ := hz (A 0 0) (A 1 0) (by linarith [E.c00])
    obtain ⟨hA21, hA22⟩ := hz (A 2 1) (A 2 2) (by linarith [E.r22])
    obtain ⟨x, hx1, hx2⟩ := exists_angle (A 1 1) (-A 1 2) (by
      have := E.r11
      rw [hA10] at this
      linarith)
    refine ⟨⟨x, y, 0⟩, ?_⟩
    rw [eulerMat_entries]
    conv_rhs => rw [mat3_eta A]
    have h01 := E.k01
    have h02 := E.k02
    rw [hA10] at h01 h02
    simp only [realTrig, hx1, hx2, hy1, hy2, Real.cos_zero, Real.sin_zero, h0, hA00, hA10, hA21, hA22]
    rw [← h01, ← h02]
    congr! 3 <;> ring_nf
  · obtain ⟨x, hx1, hx2⟩ := exists_angle (A 2 2 / c) (A 2 1 / c) (by
      field_simp; linear_combination E.r22 - hc)
    obtain ⟨z, hz1, hz2⟩ := exists_angle (A 0 0 / c) (A 1 0 / c) (by
      field_simp; linear_combination E.c00 - hc)
    refine ⟨⟨x, y, z⟩, ?_⟩
    rw [eulerMat_entries]
    conv_rhs => rw [mat3_eta A]
    simp only [realTrig, hx1, hx2, hy1, hy2, hz1, hz2]
    have e01 : A 0 0 / c * -A 2 0 * (A 2 1 / c) - A 1 0 / c * (A 2 2 / c) = A 0 1 := by
      field_simp
      linear_combination -A 0 0 * E.c01 + A 1 0 * E.k22 + A 0 1 * E.c00 - A 0 1 * hc
    have e02 : A 0 0 / c * -A 2 0 * (A 2 2 / c) + A 1 0 / c * (A 2 1 / c) = A 0 2 := by
      field_simp
      linear_combination -A 0 0 * E.c02 - A 1 0 * E.k21 + A 0 2 * E.c00 - A 0 2 * hc
    have e11 : A 1 0 / c * -A 2 0 * (A 2 1 / c) + A 0 0 / c * (A 2 2 / c) = A 1 1 := by
      field_simp
      linear_combination -A 1 0 * E.c01 - A 0 0 * E.k22 + A 1 1 * E.c00 - A 1 1 * hc
    have e12 : A 1 0 / c * -A 2 0 * (A 2 2 / c) - A 0 0 / c * (A 2 1 / c) = A 1 2 := by
      field_simp
      linear_combination -A 1 0 * E.c02 + A 0 0 * E.k21 + A 1 2 * E.c00 - A 1 2 * hc
    rw [e01, e02, e11, e12, neg_neg, div_mul_cancel₀ _ h0, div_mul_cancel₀ _ h0,
      mul_div_cancel₀ _ h0, mul_div_cancel₀ _ h0]

end TC
