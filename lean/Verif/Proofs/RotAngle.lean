import Verif.Proofs.RotMat
import Mathlib.Analysis.SpecialFunctions.Trigonometric.Inverse
/-!
# The angle of a product of rotations
-/
namespace TC

/-- the angle of a rotation matrix -/
noncomputable def matAngle (A : M3 ℝ) : ℝ := Real.arccos ((1 / 2) * (A 0 0 + A 1 1 + A 2 2 - 1))

theorem exists_unitQuat {A : M3 ℝ} (hA : IsRot A) : ∃ q : Q4 ℝ, q.normSq = 1 ∧ quatMat q = A := by
  have hpos : 0 < (markley A).normSq := markley_normSq_pos A
  set m := markley A with hm
  have hs : 0 < Real.sqrt m.normSq := Real.sqrt_pos.2 hpos
  have hss : Real.sqrt m.normSq * Real.sqrt m.normSq = m.normSq := Real.mul_self_sqrt hpos.le
  set s := Real.sqrt m.normSq
  have hs0 : s ≠ 0 := hs.ne'
  refine ⟨⟨m.x / s, m.y / s, m.z / s, m.w / s⟩, ?_, ?_⟩
  · have : m.x * m.x + m.y * m.y + m.z * m.z + m.w * m.w = s * s := hss.symm
    unfold Q4.normSq
    field_simp
    nlinarith [this]
  · have hn : Q4.normSq ⟨m.x / s, m.y / s, m.z / s, m.w / s⟩ = m.normSq / (s * s) := by
      unfold Q4.normSq
      field_simp
    rw [← quatMat_markley hA, ← hm]
    have hn1 : m.normSq / (s * s) = 1 := by rw [hss]; exact div_self hpos.ne'
    ext i j
    fin_cases i <;> fin_cases j <;> simp [quatMat, hn, hn1, ← hss] <;> field_simp

theorem trace_unit {q : Q4 ℝ} (hq : q.normSq = 1) :
    (1 / 2) * (quatMat q 0 0 + quatMat q 1 1 + quatMat q 2 2 - 1) = 2 * |q.w| ^ 2 - 1 := by
  rw [sq_abs]
  simp [quatMat, hq]
  unfold Q4.normSq at hq
  linarith

theorem trace_mul {p q : Q4 ℝ} (hp : p.normSq = 1) (hq : q.normSq = 1) :
    (1 / 2) * ((quatMat p * quatMat q) 0 0 + (quatMat p * quatMat q) 1 1 + (quatMat p * quatMat q) 2 2 - 1) =
      2 * |p.w * q.w - (p.x * q.x + p.y * q.y + p.z * q.z)| ^ 2 - 1 := by
  rw [sq_abs]
  simp [quatMat, hp, hq, Matrix.mul_apply, Fin.sum_univ_three]
  unfold Q4.normSq at hp hq
  have h : (p.x * p.x + p.y * p.y + p.z * p.z + p.w * p.w) * (q.x * q.x + q.y * q.y + q.z * q.z + q.w * q.w) = 1 := by
    rw [hp, hq, one_mul]
  linear_combination (-1/2 : ℝ) * h

theorem arccos_double {c : ℝ} (h0 : 0 ≤ c) (h1 : c ≤ 1) : Real.arccos (2 * c ^ 2 - 1) = 2 * Real.arccos c := by
  have hc : Real.cos (Real.arccos c) = c := Real.cos_arccos (by linarith) h1
  have h2 : Real.cos (2 * Real.arccos c) = 2 * c ^ 2 - 1 := by rw [Real.cos_two_mul, hc]
  rw [← h2, Real.arccos_cos]
  · have := Real.arccos_nonneg c; linarith
  · have := (Real.arccos_le_pi_div_two (x := c)).2 h0; linarith

theorem abs_w_le {q : Q4 ℝ} (hq : q.normSq = 1) : |q.w| ≤ 1 := by
  unfold Q4.normSq at hq
  rw [abs_le]
  constructor <;> nlinarith [mul_self_nonneg q.x, mul_self_nonneg q.y, mul_self_nonneg q.z]

/-- the angle of a product is at most the sum of the angles -/
theorem matAngle_mul_le {A B : M3 ℝ} (hA : IsRot A) (hB : IsRot B) : matAngle (A * B) ≤ matAngle A + matAngle B := by
  obtain ⟨p, hp, rfl⟩ := exists_unitQuat hA
  obtain ⟨q, hq, rfl⟩ := exists_unitQuat hB
  set w := p.w * q.w - (p.x * q.x + p.y * q.y + p.z * q.z) with hw
  have hp' : p.x ^ 2 + p.y ^ 2 + p.z ^ 2 = 1 - |p.w| ^ 2 := by
    rw [sq_abs]; unfold Q4.normSq at hp; linarith
  have hq' : q.x ^ 2 + q.y ^ 2 + q.z ^ 2 = 1 - |q.w| ^ 2 := by
    rw [sq_abs]; unfold Q4.normSq at hq; linarith
  have hcs : (p.x * q.x + p.y * q.y + p.z * q.z) ^ 2 ≤ (1 - |p.w| ^ 2) * (1 - |q.w| ^ 2) := by
    rw [← hp', ← hq']
    nlinarith [sq_nonneg (p.x * q.y - p.y * q.x), sq_nonneg (p.x * q.z - p.z * q.x), sq_nonneg (p.y * q.z - p.z * q.y)]
  have hpw := abs_w_le hp
  have hqw := abs_w_le hq
  have h1p : 0 ≤ 1 - |p.w| ^ 2 := by nlinarith [abs_nonneg p.w]
  have h1q : 0 ≤ 1 - |q.w| ^ 2 := by nlinarith [abs_nonneg q.w]
  have hdot : |p.x * q.x + p.y * q.y + p.z * q.z| ≤ Real.sqrt (1 - |p.w| ^ 2) * Real.sqrt (1 - |q.w| ^ 2) := by
    rw [← Real.sqrt_mul h1p]
    exact Real.abs_le_sqrt hcs
  have hw1 : |w| ≤ 1 := by
    have hs : w ^ 2 ≤ 1 := by
      have h : (p.x * p.x + p.y * p.y + p.z * p.z + p.w * p.w) * (q.x * q.x + q.y * q.y + q.z * q.z + q.w * q.w) = 1 := by
        unfold Q4.normSq at hp hq
        rw [hp, hq, one_mul]
      have e : w ^ 2 + (p.w * q.x + p.x * q.w + p.y * q.z - p.z * q.y) ^ 2 + (p.w * q.y - p.x * q.z + p.y * q.w + p.z * q.x) ^ 2
          + (p.w * q.z + p.x * q.y - p.y * q.x + p.z * q.w) ^ 2 = 1 := by
        rw [← h, hw]; ring
      nlinarith [sq_nonneg (p.w * q.x + p.x * q.w + p.y * q.z - p.z * q.y),
        sq_nonneg (p.w * q.y - p.x * q.z + p.y * q.w + p.z * q.x), sq_nonneg (p.w * q.z + p.x * q.y - p.y * q.x + p.z * q.w)]
    exact abs_le_one_iff_mul_self_le_one.2 (by nlinarith)
  unfold matAngle
  rw [trace_unit hp, trace_unit hq, trace_mul hp hq, arccos_double (abs_nonneg _) hpw, arccos_double (abs_nonneg _) hqw,
    arccos_double (abs_nonneg _) hw1]
  set α := Real.arccos |p.w| with hα
  set β := Real.arccos |q.w| with hβ
  have hα2 : α ≤ Real.pi / 2 := (Real.arccos_le_pi_div_two).2 (abs_nonneg _)
  have hβ2 : β ≤ Real.pi / 2 := (Real.arccos_le_pi_div_two).2 (abs_nonneg _)
  have hα0 : 0 ≤ α := Real.arccos_nonneg _
  have hβ0 : 0 ≤ β := Real.arccos_nonneg _
  have hcos : Real.cos (α + β) ≤ |w| := by
    rw [Real.cos_add, hα, hβ, Real.cos_arccos (by linarith [abs_nonneg p.w]) hpw, Real.cos_arccos (by linarith [abs_nonneg q.w]) hqw,
      Real.sin_arccos, Real.sin_arccos]
    have : |p.w| * |q.w| ≤ |w| + |p.x * q.x + p.y * q.y + p.z * q.z| := by
      rw [← abs_mul]
      calc |p.w * q.w| = |w + (p.x * q.x + p.y * q.y + p.z * q.z)| := by rw [hw]; ring_nf
        _ ≤ _ := abs_add_le _ _
    linarith
  have : Real.arccos |w| ≤ α + β := by
    rw [← Real.arccos_cos (by linarith : 0 ≤ α + β) (by linarith)]
    exact Real.arccos_le_arccos hcos
  linarith

theorem matAngle_nonneg (A : M3 ℝ) : 0 ≤ matAngle A := Real.arccos_nonneg _

theorem matAngle_le_pi (A : M3 ℝ) : matAngle A ≤ Real.pi := Real.arccos_le_pi _

/-- no angle means no rotation -/
theorem matAngle_eq_zero {A : M3 ℝ} (hA : IsRot A) : matAngle A = 0 ↔ A = 1 := by
  unfold matAngle
  rw [Real.arccos_eq_zero]
  constructor
  · intro h
    have e : ∀ i j, (A * A.transpose) i j = (1 : M3 ℝ) i j := fun i j => by rw [hA.1]
    have e0 := e 0 0
    have e1 := e 1 1
    have e2 := e 2 2
    simp only [Matrix.mul_apply, Matrix.transpose_apply, Fin.sum_univ_three, Matrix.one_apply_eq] at e0 e1 e2
    have b0 : A 0 0 ≤ 1 := by nlinarith [sq_nonneg (A 0 1), sq_nonneg (A 0 2), sq_nonneg (A 0 0 - 1)]
    have b1 : A 1 1 ≤ 1 := by nlinarith [sq_nonneg (A 1 0), sq_nonneg (A 1 2), sq_nonneg (A 1 1 - 1)]
    have b2 : A 2 2 ≤ 1 := by nlinarith [sq_nonneg (A 2 0), sq_nonneg (A 2 1), sq_nonneg (A 2 2 - 1)]
    have c0 : A 0 0 = 1 := by linarith
    have c1 : A 1 1 = 1 := by linarith
    have c2 : A 2 2 = 1 := by linarith
    rw [c0] at e0
    rw [c1] at e1
    rw [c2] at e2
    have z : ∀ a b : ℝ, a * a + b * b = 0 → a = 0 ∧ b = 0 := fun a b h =>
      ⟨by nlinarith [mul_self_nonneg a, mul_self_nonneg b], by nlinarith [mul_self_nonneg a, mul_self_nonneg b]⟩
    obtain ⟨f1, f2⟩ := z (A 0 1) (A 0 2) (by linarith)
    obtain ⟨f3, f4⟩ := z (A 1 0) (A 1 2) (by linarith)
    obtain ⟨f5, f6⟩ := z (A 2 0) (A 2 1) (by linarith)
    ext i j
    fin_cases i <;> fin_cases j <;> simp [*]
  · rintro rfl
    simp
    norm_num

theorem matAngle_transpose (A : M3 ℝ) : matAngle A.transpose = matAngle A := rfl

/-- the angle does not depend on the frame -/
theorem matAngle_conj {A C : M3 ℝ} (hC : IsRot C) : matAngle (C * A * C.transpose) = matAngle A := by
  have h : ∀ M : M3 ℝ, M 0 0 + M 1 1 + M 2 2 = M.trace := fun M => by simp [Matrix.trace, Fin.sum_univ_three]
  unfold matAngle
  rw [h, h, Matrix.trace_mul_comm, ← Matrix.mul_assoc, mul_eq_one_comm.1 hC.1, Matrix.one_mul]

end TC
