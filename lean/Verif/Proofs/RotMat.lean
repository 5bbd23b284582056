import Verif.Model.RotMat
import Mathlib.Tactic.LinearCombination
import Mathlib.Tactic.FieldSimp
import Mathlib.Tactic.Linarith
/-!
Rotation matrices and `from_matrix`.
-/
namespace TC
set_option linter.unusedSectionVars false
variable {K : Type} [Field K] [LinearOrder K]

/-- the scalar equations of a rotation matrix -/
structure RotEqs (A : M3 K) : Prop where
  r00 : A 0 0 * A 0 0 + A 0 1 * A 0 1 + A 0 2 * A 0 2 = 1
  r11 : A 1 0 * A 1 0 + A 1 1 * A 1 1 + A 1 2 * A 1 2 = 1
  r22 : A 2 0 * A 2 0 + A 2 1 * A 2 1 + A 2 2 * A 2 2 = 1
  r01 : A 0 0 * A 1 0 + A 0 1 * A 1 1 + A 0 2 * A 1 2 = 0
  r02 : A 0 0 * A 2 0 + A 0 1 * A 2 1 + A 0 2 * A 2 2 = 0
  r12 : A 1 0 * A 2 0 + A 1 1 * A 2 1 + A 1 2 * A 2 2 = 0
  c00 : A 0 0 * A 0 0 + A 1 0 * A 1 0 + A 2 0 * A 2 0 = 1
  c11 : A 0 1 * A 0 1 + A 1 1 * A 1 1 + A 2 1 * A 2 1 = 1
  c22 : A 0 2 * A 0 2 + A 1 2 * A 1 2 + A 2 2 * A 2 2 = 1
  c01 : A 0 0 * A 0 1 + A 1 0 * A 1 1 + A 2 0 * A 2 1 = 0
  c02 : A 0 0 * A 0 2 + A 1 0 * A 1 2 + A 2 0 * A 2 2 = 0
  c12 : A 0 1 * A 0 2 + A 1 1 * A 1 2 + A 2 1 * A 2 2 = 0
  k00 : A 1 1 * A 2 2 - A 1 2 * A 2 1 = A 0 0
  k01 : A 1 2 * A 2 0 - A 1 0 * A 2 2 = A 0 1
  k02 : A 1 0 * A 2 1 - A 1 1 * A 2 0 = A 0 2
  k10 : A 0 2 * A 2 1 - A 0 1 * A 2 2 = A 1 0
  k11 : A 0 0 * A 2 2 - A 0 2 * A 2 0 = A 1 1
  k12 : A 0 1 * A 2 0 - A 0 0 * A 2 1 = A 1 2
  k20 : A 0 1 * A 1 2 - A 0 2 * A 1 1 = A 2 0
  k21 : A 0 2 * A 1 0 - A 0 0 * A 1 2 = A 2 1
  k22 : A 0 0 * A 1 1 - A 0 1 * A 1 0 = A 2 2

theorem IsRot.eqs {A : M3 K} (h : IsRot A) : RotEqs A := by
  have h1 := h.1
  have h2 : A.transpose * A = 1 := mul_eq_one_comm.1 h1
  have h3 : A.adjugate = A.transpose := by
    have := A.mul_adjugate
    rw [h.2, one_smul] at this
    calc A.adjugate = (A.transpose * A) * A.adjugate := by rw [h2, one_mul]
      _ = A.transpose := by rw [mul_assoc, this, mul_one]
  have e1 : ∀ i j, (A * A.transpose) i j = (1 : M3 K) i j := fun i j => by rw [h1]
  have e2 : ∀ i j, (A.transpose * A) i j = (1 : M3 K) i j := fun i j => by rw [h2]
  have e3 : ∀ i j, A.adjugate i j = A.transpose i j := fun i j => by rw [h3]
  simp only [Matrix.mul_apply, Fin.sum_univ_three, Matrix.transpose_apply] at e1 e2
  simp only [Matrix.adjugate_fin_three, Matrix.transpose_apply] at e3
  constructor
  · simpa using e1 0 0
  · simpa using e1 1 1
  · simpa using e1 2 2
  · simpa using e1 0 1
  · simpa using e1 0 2
  · simpa using e1 1 2
  · simpa using e2 0 0
  · simpa using e2 1 1
  · simpa using e2 2 2
  · simpa using e2 0 1
  · simpa using e2 0 2
  · simpa using e2 1 2
  · have := e3 0 0; simp at this; linear_combination this
  · have := e3 1 0; simp at this; linear_combination this
  · have := e3 2 0; simp at this; linear_combination this
  · have := e3 0 1; simp at this; linear_combination this
  · have := e3 1 1; simp at this; linear_combination this
  · have := e3 2 1; simp at this; linear_combination this
  · have := e3 0 2; simp at this; linear_combination this
  · have := e3 1 2; simp at this; linear_combination this
  · have := e3 2 2; simp at this; linear_combination this

theorem isRot_one : IsRot (1 : M3 K) := by simp [IsRot]

theorem IsRot.mul {A B : M3 K} (ha : IsRot A) (hb : IsRot B) : IsRot (A * B) := by
  constructor
  · rw [Matrix.transpose_mul, mul_assoc, ← mul_assoc B, hb.1, one_mul, ha.1]
  · rw [Matrix.det_mul, ha.2, hb.2, one_mul]

theorem IsRot.transpose {A : M3 K} (ha : IsRot A) : IsRot A.transpose := by
  constructor
  · rw [Matrix.transpose_transpose]; exact mul_eq_one_comm.1 ha.1
  · rw [Matrix.det_transpose, ha.2]

section ordered
variable [IsStrictOrderedRing K]

theorem quatMat_isRot {q : Q4 K} (hq : q.normSq ≠ 0) : IsRot (quatMat q) := by
  obtain ⟨n, hn⟩ : ∃ n, q.normSq = n := ⟨_, rfl⟩
  have hn0 : n ≠ 0 := hn ▸ hq
  have hn' : q.x * q.x + q.y * q.y + q.z * q.z + q.w * q.w = n := hn
  constructor
  · ext i j
    fin_cases i <;> fin_cases j <;>
      simp [quatMat, Matrix.mul_apply, Fin.sum_univ_three, hn] <;> field_simp <;>
      (try rw [← hn']) <;> ring
  · simp [quatMat, Matrix.det_fin_three, hn]
    field_simp
    rw [← hn']
    ring

theorem markley_normSq_pos (m : M3 K) : 0 < (markley m).normSq := by
  unfold markley
  simp only
  split_ifs with h1 h2 h3
  · have : 0 < 1 - (m 0 0 + m 1 1 + m 2 2) + 2 * m 0 0 := by
      rcases h1 with ⟨a, b, c⟩
      by_contra hneg
      push Not at hneg
      linarith
    simp only [Q4.normSq]
    have := mul_pos this this
    nlinarith [mul_self_nonneg (m 1 0 + m 0 1), mul_self_nonneg (m 2 0 + m 0 2), mul_self_nonneg (m 2 1 - m 1 2)]
  · have : 0 < 1 - (m 0 0 + m 1 1 + m 2 2) + 2 * m 1 1 := by
      rcases h2 with ⟨b, c⟩
      by_contra hneg
      push Not at hneg
      have : m 0 0 ≤ m 1 1 := by
        by_contra hc
        push Not at hc
        exact h1 ⟨hc.le, by linarith, by linarith⟩
      linarith
    simp only [Q4.normSq]
    have := mul_pos this this
    nlinarith [mul_self_nonneg (m 0 1 + m 1 0), mul_self_nonneg (m 2 1 + m 1 2), mul_self_nonneg (m 0 2 - m 2 0)]
  · have : 0 < 1 - (m 0 0 + m 1 1 + m 2 2) + 2 * m 2 2 := by
      by_contra hneg
      push Not at hneg
      have h0 : m 0 0 ≤ m 2 2 ∧ m 1 1 ≤ m 2 2 := by
        rcases le_total (m 0 0) (m 1 1) with hl | hl
        · have : m 1 1 ≤ m 2 2 := by
            by_contra hc
            push Not at hc
            exact h2 ⟨hc.le, by linarith⟩
          exact ⟨by linarith, this⟩
        · have : m 0 0 ≤ m 2 2 := by
            by_contra hc
            push Not at hc
            exact h1 ⟨hl, hc.le, by linarith⟩
          exact ⟨this, by linarith⟩
      linarith [h0.1, h0.2]
    simp only [Q4.normSq]
    have := mul_pos this this
    nlinarith [mul_self_nonneg (m 0 2 + m 2 0), mul_self_nonneg (m 1 2 + m 2 1), mul_self_nonneg (m 1 0 - m 0 1)]
  · have : 0 < 1 + (m 0 0 + m 1 1 + m 2 2) := by
      by_contra hneg
      push Not at hneg
      push Not at h3
      have h0 : m 0 0 < m 0 0 + m 1 1 + m 2 2 := by
        by_contra hc
        push Not at hc
        by_cases ha : m 1 1 ≤ m 0 0 ∧ m 2 2 ≤ m 0 0
        · exact h1 ⟨ha.1, ha.2, hc⟩
        · by_cases hb : m 2 2 ≤ m 1 1
          · refine h2 ⟨hb, ?_⟩
            have : m 0 0 < m 1 1 := by
              by_contra hd; push Not at hd; exact ha ⟨hd, hb.trans hd⟩
            linarith
          · push Not at hb
            have : m 0 0 < m 2 2 := by
              by_contra hd; push Not at hd; exact ha ⟨by linarith, hd⟩
            linarith
      have h4 : m 1 1 < m 0 0 + m 1 1 + m 2 2 := by
        by_contra hc
        push Not at hc
        by_cases hb : m 2 2 ≤ m 1 1
        · exact h2 ⟨hb, hc⟩
        · push Not at hb; linarith
      linarith
    simp only [Q4.normSq]
    have := mul_pos this this
    nlinarith [mul_self_nonneg (m 2 1 - m 1 2), mul_self_nonneg (m 0 2 - m 2 0), mul_self_nonneg (m 1 0 - m 0 1)]

/-- `from_matrix` returns the rotation whose matrix it is given. -/
theorem quatMat_markley {A : M3 K} (hA : IsRot A) : quatMat (markley A) = A := by
  have E := hA.eqs
  have hpos := markley_normSq_pos A
  obtain ⟨r00, r11, r22, r01, r02, r12, c00, c11, c22, c01, c02, c12, k00, k01, k02, k10, k11, k12,
    k20, k21, k22⟩ := E
  obtain ⟨n, hn⟩ : ∃ n, (markley A).normSq = n := ⟨_, rfl⟩
  rw [hn] at hpos
  have hn0 : n ≠ 0 := ne_of_gt hpos
  have hn' := hn
  unfold markley at hn'
  simp only at hn'
  ext i j
  fin_cases i <;> fin_cases j <;> simp [quatMat, hn] <;> rw [div_eq_iff hn0] <;> unfold markley <;> simp only <;>
   split_ifs at hn' ⊢ <;> simp only [Q4.normSq] at hn' <;> rw [← hn'] <;> grind

end ordered
end TC
