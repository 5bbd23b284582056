import Verif.Props.Transform
/-!
# C98: exactly which orientations survive a transformation with scale
-/
namespace TC
set_option linter.unusedSectionVars false
variable {K R : Type} [Field K] [LinearOrder K] [IsStrictOrderedRing K]

/-- two quaternions with the same matrix are parallel: the products of their components agree up to the lengths -/
theorem quatMat_products {q q' : Q4 K} (h : 0 < q.normSq) (h' : 0 < q'.normSq) (e : quatMat q = quatMat q') :
    (q.x * q.x * q'.normSq = q'.x * q'.x * q.normSq ∧ q.y * q.y * q'.normSq = q'.y * q'.y * q.normSq ∧
      q.z * q.z * q'.normSq = q'.z * q'.z * q.normSq ∧ q.w * q.w * q'.normSq = q'.w * q'.w * q.normSq) ∧
    (q.x * q.y * q'.normSq = q'.x * q'.y * q.normSq ∧ q.x * q.z * q'.normSq = q'.x * q'.z * q.normSq ∧
      q.x * q.w * q'.normSq = q'.x * q'.w * q.normSq) ∧
    (q.y * q.z * q'.normSq = q'.y * q'.z * q.normSq ∧ q.y * q.w * q'.normSq = q'.y * q'.w * q.normSq ∧
      q.z * q.w * q'.normSq = q'.z * q'.w * q.normSq) := by
  have hn := ne_of_gt h
  have hn' := ne_of_gt h'
  have E : ∀ i j, quatMat q i j = quatMat q' i j := fun i j => by rw [e]
  have e00 := E 0 0
  have e01 := E 0 1
  have e02 := E 0 2
  have e10 := E 1 0
  have e11 := E 1 1
  have e12 := E 1 2
  have e20 := E 2 0
  have e21 := E 2 1
  have e22 := E 2 2
  simp [quatMat, div_eq_div_iff hn hn'] at e00 e01 e02 e10 e11 e12 e20 e21 e22
  have hq : q.normSq = q.x * q.x + q.y * q.y + q.z * q.z + q.w * q.w := rfl
  have hq' : q'.normSq = q'.x * q'.x + q'.y * q'.y + q'.z * q'.z + q'.w * q'.w := rfl
  have hnn : (q.x * q.x + q.y * q.y + q.z * q.z + q.w * q.w) * q'.normSq
      = (q'.x * q'.x + q'.y * q'.y + q'.z * q'.z + q'.w * q'.w) * q.normSq := by rw [← hq, ← hq', mul_comm]
  clear hq hq'
  generalize q.normSq = n at *
  generalize q'.normSq = n' at *
  refine ⟨⟨?_, ?_, ?_, ?_⟩, ⟨?_, ?_, ?_⟩, ?_, ?_, ?_⟩
  · linear_combination (e00 - e11 - e22 + hnn) / 4
  · linear_combination (e11 - e00 - e22 + hnn) / 4
  · linear_combination (e22 - e00 - e11 + hnn) / 4
  · linear_combination (e00 + e11 + e22 + hnn) / 4
  · linear_combination (e01 + e10) / 4
  · linear_combination (e02 + e20) / 4
  · linear_combination (e21 - e12) / 4
  · linear_combination (e12 + e21) / 4
  · linear_combination (e02 - e20) / 4
  · linear_combination (e10 - e01) / 4

/-- one component `a` is not scaled like the other component `b` -/
theorem zero_of_parallel {a b s n n' : K} (hs : 0 < s) (hs1 : s ≠ 1) (hn : 0 < n)
    (h1 : b * b * n' = (s * b) * (s * b) * n) (h2 : a * b * n' = (s * a + (1 - s)) * (s * b) * n) : b = 0 := by
  by_contra hb
  have e1 : n' = s * s * n := by
    have : b * b * n' = b * b * (s * s * n) := by rw [h1]; ring
    exact mul_left_cancel₀ (mul_ne_zero hb hb) this
  rw [e1] at h2
  have : (b * s * n) * (a * s) = (b * s * n) * (s * a + (1 - s)) := by linear_combination h2
  have := mul_left_cancel₀ (mul_ne_zero (mul_ne_zero hb (ne_of_gt hs)) (ne_of_gt hn)) this
  apply hs1
  linarith

/-- a diagonal matrix -/
def IsDiag3 (A : M3 K) : Prop := ∀ i j, i ≠ j → A i j = 0

theorem markley_smul_cases {A : M3 K} {s : K} (hs : 0 < s) :
    (markley (s • A)).x = s * (markley A).x + (1 - s) ∧ (markley (s • A)).y = s * (markley A).y ∧
      (markley (s • A)).z = s * (markley A).z ∧ (markley (s • A)).w = s * (markley A).w ∨
    (markley (s • A)).x = s * (markley A).x ∧ (markley (s • A)).y = s * (markley A).y + (1 - s) ∧
      (markley (s • A)).z = s * (markley A).z ∧ (markley (s • A)).w = s * (markley A).w ∨
    (markley (s • A)).x = s * (markley A).x ∧ (markley (s • A)).y = s * (markley A).y ∧
      (markley (s • A)).z = s * (markley A).z + (1 - s) ∧ (markley (s • A)).w = s * (markley A).w ∨
    (markley (s • A)).x = s * (markley A).x ∧ (markley (s • A)).y = s * (markley A).y ∧
      (markley (s • A)).z = s * (markley A).z ∧ (markley (s • A)).w = s * (markley A).w + (1 - s) := by
  have e1 : (s • A) 1 1 ≤ (s • A) 0 0 ∧ (s • A) 2 2 ≤ (s • A) 0 0 ∧ (s • A) 0 0 + (s • A) 1 1 + (s • A) 2 2 ≤ (s • A) 0 0
      ↔ A 1 1 ≤ A 0 0 ∧ A 2 2 ≤ A 0 0 ∧ A 0 0 + A 1 1 + A 2 2 ≤ A 0 0 := by
    simp only [Matrix.smul_apply, smul_eq_mul, ← mul_add, mul_le_mul_iff_right₀ hs]
  have e2 : (s • A) 2 2 ≤ (s • A) 1 1 ∧ (s • A) 0 0 + (s • A) 1 1 + (s • A) 2 2 ≤ (s • A) 1 1
      ↔ A 2 2 ≤ A 1 1 ∧ A 0 0 + A 1 1 + A 2 2 ≤ A 1 1 := by
    simp only [Matrix.smul_apply, smul_eq_mul, ← mul_add, mul_le_mul_iff_right₀ hs]
  have e3 : (s • A) 0 0 + (s • A) 1 1 + (s • A) 2 2 ≤ (s • A) 2 2 ↔ A 0 0 + A 1 1 + A 2 2 ≤ A 2 2 := by
    simp only [Matrix.smul_apply, smul_eq_mul, ← mul_add, mul_le_mul_iff_right₀ hs]
  by_cases h1 : A 1 1 ≤ A 0 0 ∧ A 2 2 ≤ A 0 0 ∧ A 0 0 + A 1 1 + A 2 2 ≤ A 0 0
  · left
    have := e1.2 h1
    simp only [markley, if_pos this, if_pos h1]
    simp only [Matrix.smul_apply, smul_eq_mul]
    refine ⟨?_, ?_, ?_, ?_⟩ <;> ring
  · right
    have n1 := mt e1.1 h1
    by_cases h2 : A 2 2 ≤ A 1 1 ∧ A 0 0 + A 1 1 + A 2 2 ≤ A 1 1
    · left
      have := e2.2 h2
      simp only [markley, if_neg n1, if_neg h1, if_pos this, if_pos h2]
      simp only [Matrix.smul_apply, smul_eq_mul]
      refine ⟨?_, ?_, ?_, ?_⟩ <;> ring
    · right
      have n2 := mt e2.1 h2
      by_cases h3 : A 0 0 + A 1 1 + A 2 2 ≤ A 2 2
      · left
        have := e3.2 h3
        simp only [markley, if_neg n1, if_neg h1, if_neg n2, if_neg h2, if_pos this, if_pos h3]
        simp only [Matrix.smul_apply, smul_eq_mul]
        refine ⟨?_, ?_, ?_, ?_⟩ <;> ring
      · right
        have n3 := mt e3.1 h3
        simp only [markley, if_neg n1, if_neg h1, if_neg n2, if_neg h2, if_neg n3, if_neg h3]
        simp only [Matrix.smul_apply, smul_eq_mul]
        refine ⟨?_, ?_, ?_, ?_⟩ <;> ring

/-- a quaternion along one axis has a diagonal matrix -/
theorem quatMat_diag {q : Q4 K} (h : q.y = 0 ∧ q.z = 0 ∧ q.w = 0 ∨ q.x = 0 ∧ q.z = 0 ∧ q.w = 0 ∨
    q.x = 0 ∧ q.y = 0 ∧ q.w = 0 ∨ q.x = 0 ∧ q.y = 0 ∧ q.z = 0) : IsDiag3 (quatMat q) := by
  intro i j hij
  rcases h with ⟨a, b, c⟩ | ⟨a, b, c⟩ | ⟨a, b, c⟩ | ⟨a, b, c⟩ <;>
    fin_cases i <;> fin_cases j <;> simp [quatMat, a, b, c] at hij ⊢

theorem markley_scaled_diag {A : M3 K} (hA : IsRot A) (hd : IsDiag3 A) {s : K} (hs : 0 < s) :
    quatMat (markley (s • A)) = A := by
  obtain ⟨r00, r11, r22, -⟩ := hA.eqs
  have hdet := hA.2
  have z01 := hd 0 1 (by decide)
  have z02 := hd 0 2 (by decide)
  have z10 := hd 1 0 (by decide)
  have z12 := hd 1 2 (by decide)
  have z20 := hd 2 0 (by decide)
  have z21 := hd 2 1 (by decide)
  rw [Matrix.det_fin_three] at hdet
  simp only [z01, z02, z10, z12, z20, z21, mul_zero, zero_mul, add_zero, sub_zero, zero_add] at hdet r00 r11 r22
  have sq : ∀ x : K, x * x = 1 → x = 1 ∨ x = -1 := fun x hx => mul_self_eq_one_iff.1 hx
  have hn : ∀ n : K, 0 < n → n * n ≠ 0 := fun n h => mul_ne_zero (ne_of_gt h) (ne_of_gt h)
  have p3 : (0 : K) < 1 + (s + s + s) := by linarith
  have p1 : (0 : K) < 1 - (s + -s + -s) + 2 * s := by linarith
  have p2 : (0 : K) < 1 - (-s + s + -s) + 2 * s := by linarith
  have p4 : (0 : K) < 1 - (-s + -s + s) + 2 * s := by linarith
  rcases sq _ r00 with a | a <;> rcases sq _ r11 with b | b <;> rcases sq _ r22 with c | c <;>
    rw [a, b, c] at hdet <;> (try (exfalso; norm_num at hdet; done))
  · have hm : markley (s • A) = ⟨0, 0, 0, 1 + (s + s + s)⟩ := by
      simp only [markley, Matrix.smul_apply, smul_eq_mul, a, b, c, z01, z02, z10, z12, z20, z21, mul_zero, mul_one]
      rw [if_neg (by rintro ⟨-, -, h⟩; linarith), if_neg (by rintro ⟨-, h⟩; linarith), if_neg (by intro h; linarith)]
      simp
    rw [hm]
    have := hn _ p3
    generalize 1 + (s + s + s) = n at *
    ext i j
    fin_cases i <;> fin_cases j <;> simp [quatMat, Q4.normSq, a, b, c, z01, z02, z10, z12, z20, z21, div_self this]
  · have hm : markley (s • A) = ⟨1 - (s + -s + -s) + 2 * s, 0, 0, 0⟩ := by
      simp only [markley, Matrix.smul_apply, smul_eq_mul, a, b, c, z01, z02, z10, z12, z20, z21, mul_zero, mul_one, mul_neg]
      rw [if_pos ⟨by linarith, by linarith, by linarith⟩]
      simp
    rw [hm]
    have := hn _ p1
    generalize 1 - (s + -s + -s) + 2 * s = n at *
    ext i j
    fin_cases i <;> fin_cases j <;> simp [quatMat, Q4.normSq, a, b, c, z01, z02, z10, z12, z20, z21, div_self this, neg_div]
  · have hm : markley (s • A) = ⟨0, 1 - (-s + s + -s) + 2 * s, 0, 0⟩ := by
      simp only [markley, Matrix.smul_apply, smul_eq_mul, a, b, c, z01, z02, z10, z12, z20, z21, mul_zero, mul_one, mul_neg]
      rw [if_neg (by rintro ⟨h, -⟩; linarith), if_pos ⟨by linarith, by linarith⟩]
      simp
    rw [hm]
    have := hn _ p2
    generalize 1 - (-s + s + -s) + 2 * s = n at *
    ext i j
    fin_cases i <;> fin_cases j <;> simp [quatMat, Q4.normSq, a, b, c, z01, z02, z10, z12, z20, z21, div_self this, neg_div]
  · have hm : markley (s • A) = ⟨0, 0, 1 - (-s + -s + s) + 2 * s, 0⟩ := by
      simp only [markley, Matrix.smul_apply, smul_eq_mul, a, b, c, z01, z02, z10, z12, z20, z21, mul_zero, mul_one, mul_neg]
      rw [if_neg (by rintro ⟨-, h, -⟩; linarith), if_neg (by rintro ⟨h, -⟩; linarith), if_pos (by linarith)]
      simp
    rw [hm]
    have := hn _ p4
    generalize 1 - (-s + -s + s) + 2 * s = n at *
    ext i j
    fin_cases i <;> fin_cases j <;> simp [quatMat, Q4.normSq, a, b, c, z01, z02, z10, z12, z20, z21, div_self this, neg_div]

/-- the rotation read from a scaled rotation matrix is the right one exactly if the matrix is diagonal -/
theorem markley_scaled {A : M3 K} (hA : IsRot A) {s : K} (hs : 0 < s) (hs1 : s ≠ 1) :
    quatMat (markley (s • A)) = A ↔ IsDiag3 A := by
  have hp := markley_normSq_pos A
  have hp' := markley_normSq_pos (s • A)
  constructor
  · intro h
    have e : quatMat (markley A) = quatMat (markley (s • A)) := by rw [h, quatMat_markley hA]
    obtain ⟨⟨xx, yy, zz, ww⟩, ⟨xy, xz, xw⟩, yz, yw, zw⟩ := quatMat_products hp hp' e
    rw [← quatMat_markley hA]
    apply quatMat_diag
    rcases markley_smul_cases (A := A) hs with ⟨a, b, c, d⟩ | ⟨a, b, c, d⟩ | ⟨a, b, c, d⟩ | ⟨a, b, c, d⟩
    · left
      rw [a, b] at xy; rw [a, c] at xz; rw [a, d] at xw; rw [b] at yy; rw [c] at zz; rw [d] at ww
      exact ⟨zero_of_parallel hs hs1 hp yy xy, zero_of_parallel hs hs1 hp zz xz, zero_of_parallel hs hs1 hp ww xw⟩
    · right; left
      rw [a, b] at xy; rw [b, c] at yz; rw [b, d] at yw; rw [a] at xx; rw [c] at zz; rw [d] at ww
      refine ⟨zero_of_parallel (a := (markley A).y) hs hs1 hp xx (by linear_combination xy),
        zero_of_parallel hs hs1 hp zz yz, zero_of_parallel hs hs1 hp ww yw⟩
    · right; right; left
      rw [a, c] at xz; rw [b, c] at yz; rw [c, d] at zw; rw [a] at xx; rw [b] at yy; rw [d] at ww
      refine ⟨zero_of_parallel (a := (markley A).z) hs hs1 hp xx (by linear_combination xz),
        zero_of_parallel (a := (markley A).z) hs hs1 hp yy (by linear_combination yz), zero_of_parallel hs hs1 hp ww zw⟩
    · right; right; right
      rw [a, d] at xw; rw [b, d] at yw; rw [c, d] at zw; rw [a] at xx; rw [b] at yy; rw [c] at zz
      refine ⟨zero_of_parallel (a := (markley A).w) hs hs1 hp xx (by linear_combination xw),
        zero_of_parallel (a := (markley A).w) hs hs1 hp yy (by linear_combination yw),
        zero_of_parallel (a := (markley A).w) hs hs1 hp zz (by linear_combination zw)⟩
  · intro hd
    exact markley_scaled_diag hA hd hs

/-- a rotation with a diagonal matrix is the identity or a half turn about a coordinate axis -/
theorem isDiag3_iff {A : M3 K} (hA : IsRot A) : IsDiag3 A ↔
    A = !![1, 0, 0; 0, 1, 0; 0, 0, 1] ∨ A = !![1, 0, 0; 0, -1, 0; 0, 0, -1] ∨
    A = !![-1, 0, 0; 0, 1, 0; 0, 0, -1] ∨ A = !![-1, 0, 0; 0, -1, 0; 0, 0, 1] := by
  constructor
  · intro hd
    obtain ⟨r00, r11, r22, -⟩ := hA.eqs
    have hdet := hA.2
    have z01 := hd 0 1 (by decide)
    have z02 := hd 0 2 (by decide)
    have z10 := hd 1 0 (by decide)
    have z12 := hd 1 2 (by decide)
    have z20 := hd 2 0 (by decide)
    have z21 := hd 2 1 (by decide)
    rw [Matrix.det_fin_three] at hdet
    simp only [z01, z02, z10, z12, z20, z21, mul_zero, zero_mul, add_zero, sub_zero, zero_add] at hdet r00 r11 r22
    have sq : ∀ x : K, x * x = 1 → x = 1 ∨ x = -1 := fun x hx => mul_self_eq_one_iff.1 hx
    rcases sq _ r00 with a | a <;> rcases sq _ r11 with b | b <;> rcases sq _ r22 with c | c <;>
      rw [a, b, c] at hdet <;> (try (exfalso; norm_num at hdet; done))
    · left; ext i j; fin_cases i <;> fin_cases j <;> simp [a, b, c, z01, z02, z10, z12, z20, z21]
    · right; left; ext i j; fin_cases i <;> fin_cases j <;> simp [a, b, c, z01, z02, z10, z12, z20, z21]
    · right; right; left; ext i j; fin_cases i <;> fin_cases j <;> simp [a, b, c, z01, z02, z10, z12, z20, z21]
    · right; right; right; ext i j; fin_cases i <;> fin_cases j <;> simp [a, b, c, z01, z02, z10, z12, z20, z21]
  · rintro (h | h | h | h) i j hij <;> rw [h] <;> fin_cases i <;> fin_cases j <;> simp at hij ⊢

/-- **C98 is false of the code** for every scale other than 1: an orientation comes out as the rotation times the
orientation only if this is the identity or a half turn about a coordinate axis; all other orientations come out wrong.
(`hM`: scipy turns the scaled matrix into a quaternion without looking at its scale.) -/
theorem C98_exactly_these_orientations_survive (L : RotLib K R) (hL : IsRotLib L)
    (hM : ∀ M, L.toMat (L.fromMat M) = quatMat (markley M)) (T : Traj K R) (hT : Coherent T) (hne : T.tstamps ≠ [])
    (r : List R) (hr : T.rot = some r) (A : M3 K) (hA : IsRot A) (t : V3 K) (s : K) (hs : 0 < s) (hs1 : s ≠ 1) :
    ∃ T' r', Returns (Traj.applyTransformation L (mkPose (s • A) t)) T () T' ∧ T'.rot = some r' ∧ r'.length = r.length ∧
      ∀ (k : Nat) q q', r[k]? = some q → r'[k]? = some q' →
        (L.toMat q' = A * L.toMat q ↔
          A * L.toMat q ∈ [!![1, 0, 0; 0, 1, 0; 0, 0, 1], !![1, 0, 0; 0, -1, 0; 0, 0, -1],
            !![-1, 0, 0; 0, 1, 0; 0, 0, -1], (!![-1, 0, 0; 0, -1, 0; 0, 0, 1] : M3 K)]) := by
  refine ⟨_, _, applyTransformation_eq L hT hne _, rfl, ?_, ?_⟩
  · simp [rotOr, hr]
  · intro k q q' hq hq'
    simp only [hr, rotOr, List.getElem?_map, hq, Option.map_some, Option.some.injEq] at hq'
    subst hq'
    have e : poseRot (mkPose (s • A) t) * L.toMat q = s • (A * L.toMat q) := by simp
    have hrot : IsRot (A * L.toMat q) := hA.mul (hL.rot q)
    rw [hM, e, markley_scaled hrot hs hs1, isDiag3_iff hrot]
    simp

-- scipy's conversion does what `hM` says, and there is a rotation, not the identity, to be applied
example : (∀ M, exMatLib.toMat (exMatLib.fromMat M) = quatMat (markley M)) ∧ IsRotLib exMatLib ∧ Coherent exOne ∧
    exOne.tstamps ≠ [] ∧ exOne.rot = some [quarter] ∧ IsRot quarter.1 ∧ (0 : ℚ) < 2 ∧ (2 : ℚ) ≠ 1 :=
  ⟨fun _ => rfl, matLib_isRotLib _, exOne_coherent, by decide, rfl, quarter.2, by norm_num, by norm_num⟩

end TC
