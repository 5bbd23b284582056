import Verif.Props.MatchCostTurn

/-! C228: interpolating the record of a motion. -/

namespace TC

set_option linter.unusedSectionVars false

section positions

variable {K R : Type} [Field K] [LinearOrder K] [IsStrictOrderedRing K] [FloorRing K]

theorem interpolated_coherent (L : RotLib K R) {T T' : Traj K R} (hT : Coherent T) (hne : T.tstamps ≠ []) {ts : List K}
    (hret : Returns (Traj.interpolate L ts) T () T') {a : Sample K R} (ha : a ∈ samples T') : Coherent T' ∧ T'.tstamps ≠ [] := by
  obtain ⟨-, h1, h2⟩ := interpolate_returns L hT hne hret
  have h3 : T'.tstamps ≠ [] := by
    intro h0
    unfold samples at ha
    rw [h0] at ha
    simp at ha
  exact ⟨h2 fun h0 => h3 (List.eq_nil_of_length_eq_zero (by rw [← h1, h0]; rfl)), h3⟩

/-- **C228**, positions: interpolation between samples that are off a motion by at most `e` gives samples that are off it by at most
`e` and half the way that can be driven between two samples. -/
theorem C228_positions (L : RotLib K R) {nrm : V3 K → K} (hn : IsNorm nrm) {v e : K} {x : K → V3 K} (hx : TopSpeed nrm v x)
    (hv : 0 ≤ v) {T T' : Traj K R} (hT : Coherent T) (hne : T.tstamps ≠ []) (hs : StrictAsc T.tstamps) (hr : Records nrm x e T)
    {g : K} (hg0 : 0 ≤ g) (hg : GapFree g T.tstamps) (ts : List K) (hret : Returns (Traj.interpolate L ts) T () T') :
    Records nrm x (e + v * (g / 2)) T' := by
  obtain ⟨q1, q2⟩ := C06_interpolate_positions L T T' hT hne hs ts hret
  intro a ha
  obtain ⟨i, hi⟩ := List.getElem?_of_mem ha
  have hT' := (interpolated_coherent L hT hne hret ha).1
  refine records_between hn hx hv hT hs hr hg0 hg (q2 i _ _ ?_ (sample_pos hT' hi))
  rw [← samples_map_t hT', List.getElem?_map, hi]
  rfl

end positions

variable {R : Type}

/-- A law of spherical interpolation: it divides the turn between two orientations. -/
structure SlerpDivides (L : RotLib ℝ R) : Prop where
  part : ∀ a b α, 0 ≤ α → α ≤ 1 →
    matAngle (L.toMat (L.slerp a b α) * (L.toMat a).transpose) ≤ α * matAngle (L.toMat b * (L.toMat a).transpose)
  rest : ∀ a b α, 0 ≤ α → α ≤ 1 →
    matAngle (L.toMat (L.slerp a b α) * (L.toMat b).transpose) ≤ (1 - α) * matAngle (L.toMat b * (L.toMat a).transpose)

/-- an orientation and two others -/
theorem turn_via {A B C : M3 ℝ} (hA : IsRot A) (hB : IsRot B) (hC : IsRot C) :
    matAngle (A * C.transpose) ≤ matAngle (A * B.transpose) + matAngle (B * C.transpose) := by
  have e : A * C.transpose = A * B.transpose * (B * C.transpose) := by
    calc A * C.transpose = A * (B.transpose * B) * C.transpose := by rw [mul_eq_one_comm.1 hB.1, Matrix.mul_one]
      _ = _ := by simp only [Matrix.mul_assoc]
  rw [e]
  exact matAngle_mul_le (hA.mul hB.transpose) (hB.mul hC.transpose)

theorem turn_swap (A B : M3 ℝ) : matAngle (A * B.transpose) = matAngle (B * A.transpose) := by
  rw [← matAngle_transpose, Matrix.transpose_mul, Matrix.transpose_transpose]

/-- **C228**, orientations: twice the error, and the angle that can be turned between two samples. -/
theorem C228_orientations {L : RotLib ℝ R} (hL : IsRotLib L) (hE : SlerpEnds L) (hD : SlerpDivides L) {w e : ℝ} {A : ℝ → M3 ℝ}
    (hA : TopTurn w A) (hw : 0 ≤ w) {T T' : Traj ℝ R} (hT : Coherent T) (h2 : 2 ≤ T.tstamps.length) (hs : StrictAsc T.tstamps)
    (hrot : T.rot ≠ none) (hr : RecordsTurn L A e T) {g : ℝ} (hg0 : 0 ≤ g) (hg : GapFree g T.tstamps) (ts : List ℝ)
    (hret : Returns (Traj.interpolate L ts) T () T') : RecordsTurn L A (2 * e + w * g) T' := by
  obtain ⟨l, hl⟩ := Option.ne_none_iff_exists'.1 hrot
  have key : ∀ {i : Nat} {t : ℝ} {q : R}, T.tstamps[i]? = some t → l[i]? = some q → matAngle (L.toMat q * (A t).transpose) ≤ e := by
    intro i t q ht hq
    obtain ⟨a, ha⟩ := exists_sample hT (i := i) (List.getElem?_eq_some_iff.1 ht).1
    obtain ⟨l', q', k1, k2, k3⟩ := sample_turn hT hrot ha
    rw [hl, Option.some.injEq] at k1
    subst k1
    rw [hq, Option.some.injEq] at k2
    subst k2
    rw [← samples_map_t hT, List.getElem?_map, ha] at ht
    cases ht
    exact hr a (List.mem_of_getElem? ha) q k3
  intro a ha q hq
  obtain ⟨i, hi⟩ := List.getElem?_of_mem ha
  obtain ⟨hT', hne⟩ := interpolated_coherent L hT (by rintro h0; rw [h0] at h2; simp at h2) hret ha
  obtain ⟨r', e1, e2, e3⟩ := C06_interpolate_orientations L hE T T' hT h2 hs l hl ts hret hne
  have h1 : T'.tstamps[i]? = some a.t ∧ r'[i]? = some q := by
    constructor
    · rw [← samples_map_t hT', List.getElem?_map, hi]
      rfl
    · obtain ⟨l', q', k1, k2, k3⟩ := sample_turn hT' (by rw [e1]; simp) hi
      rw [e1, Option.some.injEq] at k1
      subst k1
      rw [hq, Option.some.injEq] at k3
      rw [k3, k2]
  have hwg : 0 ≤ w * g := mul_nonneg hw hg0
  rcases e3 i _ _ h1.1 h1.2 with ⟨j, k1, k2⟩ | ⟨j, t0, t1, a0, a1, k1, k2, k3, k4, k5, k6, rfl⟩
  · have h3 := key k1 k2
    have h4 := (matAngle_nonneg _).trans h3
    linarith
  · have hgap : t1 - t0 ≤ g := hg t0 t1 ⟨List.mem_of_getElem? k1, List.mem_of_getElem? k2, k5.trans k6, fun c hc hcc => by
      obtain ⟨j', hj⟩ := List.getElem?_of_mem hc
      have := hs.index_lt k1 hj hcc.1
      have := hs.index_lt hj k2 hcc.2
      omega⟩
    have hG : 0 < t1 - t0 := by linarith
    obtain ⟨c, hc⟩ : ∃ c, c = (a.t - t0) / (t1 - t0) := ⟨_, rfl⟩
    rw [← hc]
    have c0 : 0 ≤ c := hc ▸ div_nonneg (by linarith) hG.le
    have c1 : c ≤ 1 := hc ▸ (div_le_one hG).2 (by linarith)
    have e0 : a.t - t0 = c * (t1 - t0) := by rw [hc]; field_simp
    have m0 := key k1 k3
    have m1 := key k2 k4
    have he0 := (matAngle_nonneg _).trans m0
    obtain ⟨θ, hθ⟩ : ∃ θ, θ = matAngle (L.toMat a1 * (L.toMat a0).transpose) := ⟨_, rfl⟩
    have p0 := hD.part a0 a1 c c0 c1
    have p1 := hD.rest a0 a1 c c0 c1
    rw [← hθ] at p0 p1
    have hθ' : θ ≤ 2 * e + w * (t1 - t0) := by
      have s1 := turn_via (hL.rot a1) (hA.rot t1) (hL.rot a0)
      have s2 := turn_via (hA.rot t1) (hA.rot t0) (hL.rot a0)
      have s3 := hA.rate t0 t1
      rw [abs_of_pos hG] at s3
      rw [turn_swap (A t0) (L.toMat a0)] at s2
      linarith
    have r0 : matAngle (A t0 * (A a.t).transpose) ≤ w * (c * (t1 - t0)) := by
      have := hA.rate a.t t0
      rwa [abs_sub_comm, e0, abs_of_nonneg (mul_nonneg c0 hG.le)] at this
    have r1 : matAngle (A t1 * (A a.t).transpose) ≤ w * ((1 - c) * (t1 - t0)) := by
      have := hA.rate a.t t1
      rwa [show t1 - a.t = (1 - c) * (t1 - t0) by linarith, abs_of_nonneg (mul_nonneg (by linarith) hG.le)] at this
    have u0 := turn_via (hL.rot (L.slerp a0 a1 c)) (hL.rot a0) (hA.rot a.t)
    have u1 := turn_via (hL.rot a0) (hA.rot t0) (hA.rot a.t)
    have v0 := turn_via (hL.rot (L.slerp a0 a1 c)) (hL.rot a1) (hA.rot a.t)
    have v1 := turn_via (hL.rot a1) (hA.rot t1) (hA.rot a.t)
    have x0 := mul_le_mul_of_nonneg_left hθ' c0
    have x1 := mul_le_mul_of_nonneg_left hθ' (by linarith : (0 : ℝ) ≤ 1 - c)
    have y : w * (t1 - t0) ≤ w * g := mul_le_mul_of_nonneg_left hgap hw
    have z : 0 ≤ w * (t1 - t0) := mul_nonneg hw hG.le
    rcases le_total c (1 / 2) with hh | hh
    · nlinarith [mul_le_mul_of_nonneg_right hh he0, mul_le_mul_of_nonneg_right hh z]
    · nlinarith [mul_le_mul_of_nonneg_right hh he0, mul_le_mul_of_nonneg_right hh z]

/-! ### The law of spherical interpolation can be met -/

theorem quat_neg (q : Q4 ℝ) : quatMat (⟨-q.x, -q.y, -q.z, -q.w⟩ : Q4 ℝ) = quatMat q := by
  ext i j; fin_cases i <;> fin_cases j <;> simp [quatMat, Q4.normSq]

theorem quat_transpose (q : Q4 ℝ) : quatMat (⟨-q.x, -q.y, -q.z, q.w⟩ : Q4 ℝ) = (quatMat q).transpose := by
  ext i j; fin_cases i <;> fin_cases j <;> simp [quatMat, Q4.normSq] <;> ring

theorem angle_quat {q : Q4 ℝ} (hq : q.normSq = 1) : matAngle (quatMat q) = 2 * Real.arccos |q.w| := by
  unfold matAngle
  rw [trace_unit hq, arccos_double (abs_nonneg _) (abs_w_le hq)]

theorem angle_quat_mul {p q : Q4 ℝ} (hp : p.normSq = 1) (hq : q.normSq = 1) {φ : ℝ} (h0 : 0 ≤ φ) (h1 : φ ≤ Real.pi / 2)
    (h : p.w * q.w - (p.x * q.x + p.y * q.y + p.z * q.z) = Real.cos φ) : matAngle (quatMat p * quatMat q) = 2 * φ := by
  unfold matAngle
  have hc : 0 ≤ Real.cos φ := Real.cos_nonneg_of_neg_pi_div_two_le_of_le (by linarith) h1
  rw [trace_mul hp hq, h, abs_of_nonneg hc, arccos_double hc (Real.cos_le_one _), Real.arccos_cos h0 (by linarith [Real.pi_pos])]

/-- a part of a rotation -/
theorem exists_part {A : M3 ℝ} (hA : IsRot A) {α : ℝ} (h0 : 0 ≤ α) (h1 : α ≤ 1) :
    ∃ B, IsRot B ∧ matAngle B ≤ α * matAngle A ∧ matAngle (B * A.transpose) ≤ (1 - α) * matAngle A := by
  obtain ⟨q, hq, hw, rfl⟩ : ∃ q : Q4 ℝ, q.normSq = 1 ∧ 0 ≤ q.w ∧ quatMat q = A := by
    obtain ⟨q, hq, rfl⟩ := exists_unitQuat hA
    rcases le_total 0 q.w with h | h
    · exact ⟨q, hq, h, rfl⟩
    · refine ⟨⟨-q.x, -q.y, -q.z, -q.w⟩, ?_, by simpa using h, quat_neg q⟩
      rw [← hq]
      simp [Q4.normSq]
  obtain ⟨φ, hφ⟩ : ∃ φ, φ = Real.arccos q.w := ⟨_, rfl⟩
  have hw1 : q.w ≤ 1 := (le_abs_self _).trans (abs_w_le hq)
  have hcos : Real.cos φ = q.w := by rw [hφ]; exact Real.cos_arccos (by linarith) hw1
  have f0 : 0 ≤ φ := hφ ▸ Real.arccos_nonneg _
  have f1 : φ ≤ Real.pi / 2 := hφ ▸ Real.arccos_le_pi_div_two.2 hw
  have hang : matAngle (quatMat q) = 2 * φ := by rw [angle_quat hq, abs_of_nonneg hw, hφ]
  have hs2 : q.x * q.x + q.y * q.y + q.z * q.z = Real.sin φ * Real.sin φ := by
    have := Real.sin_sq_add_cos_sq φ
    unfold Q4.normSq at hq
    rw [hcos] at this
    nlinarith
  rcases eq_or_ne (Real.sin φ) 0 with hs | hs
  · have hφ0 : φ = 0 := by
      by_contra hne
      have : 0 < Real.sin φ := Real.sin_pos_of_pos_of_lt_pi (lt_of_le_of_ne f0 (Ne.symm hne)) (by linarith [Real.pi_pos])
      exact this.ne' hs
    refine ⟨1, isRot_one, ?_, ?_⟩
    · rw [(matAngle_eq_zero isRot_one).2 rfl, hang, hφ0]
      simp
    · rw [Matrix.one_mul, matAngle_transpose, hang, hφ0]
      simp
  · obtain ⟨k, hk⟩ : ∃ k, k = Real.sin (α * φ) / Real.sin φ := ⟨_, rfl⟩
    have hks : k * Real.sin φ = Real.sin (α * φ) := by rw [hk]; field_simp
    obtain ⟨p, hp⟩ : ∃ p : Q4 ℝ, p = ⟨k * q.x, k * q.y, k * q.z, Real.cos (α * φ)⟩ := ⟨_, rfl⟩
    have hpn : p.normSq = 1 := by
      have h3 := Real.sin_sq_add_cos_sq (α * φ)
      rw [hp]
      simp only [Q4.normSq]
      have : k * q.x * (k * q.x) + k * q.y * (k * q.y) + k * q.z * (k * q.z) = (k * Real.sin φ) ^ 2 := by
        linear_combination k ^ 2 * hs2
      rw [this, hks]
      linarith
    have g0 : 0 ≤ α * φ := mul_nonneg h0 f0
    have g1 : α * φ ≤ φ := by nlinarith
    refine ⟨quatMat p, quatMat_isRot (by rw [hpn]; exact one_ne_zero), ?_, ?_⟩
    · have hc : 0 ≤ Real.cos (α * φ) := Real.cos_nonneg_of_neg_pi_div_two_le_of_le (by linarith) (by linarith)
      rw [angle_quat hpn, hang, hp]
      simp only
      rw [abs_of_nonneg hc, Real.arccos_cos g0 (by linarith [Real.pi_pos])]
      linarith
    · rw [← quat_transpose, angle_quat_mul (φ := φ - α * φ) hpn (by rw [← hq]; simp [Q4.normSq]) (by linarith) (by linarith), hang]
      · linarith
      · rw [Real.cos_sub, hcos, ← hks, hp]
        simp only
        linear_combination k * hs2

open Classical in
/-- spherical interpolation of rotation matrices -/
noncomputable def dividing (a b : RotM ℝ) (α : ℝ) : RotM ℝ :=
  if h : 0 ≤ α ∧ α ≤ 1 then
    ⟨(exists_part (b.2.mul a.2.transpose) h.1 h.2).choose * a.1, (exists_part (b.2.mul a.2.transpose) h.1 h.2).choose_spec.1.mul a.2⟩
  else a

theorem dividing_part (a b : RotM ℝ) {α : ℝ} (h0 : 0 ≤ α) (h1 : α ≤ 1) :
    matAngle ((dividing a b α).1 * a.1.transpose) ≤ α * matAngle (b.1 * a.1.transpose) ∧
    matAngle ((dividing a b α).1 * b.1.transpose) ≤ (1 - α) * matAngle (b.1 * a.1.transpose) := by
  obtain ⟨-, k2, k3⟩ := (exists_part (b.2.mul a.2.transpose) h0 h1).choose_spec
  unfold dividing
  rw [dif_pos ⟨h0, h1⟩]
  constructor
  · simp only [Matrix.mul_assoc, a.2.1, Matrix.mul_one]
    exact k2
  · have e : ∀ B : M3 ℝ, B * a.1 * b.1.transpose = B * (b.1 * a.1.transpose).transpose := fun B => by
      rw [Matrix.transpose_mul, Matrix.transpose_transpose, Matrix.mul_assoc]
    exact (congrArg matAngle (e _)).trans_le k3

/-- the hypotheses of C228 on the library, for rotation matrices -/
example : IsRotLib (matLib dividing) ∧ SlerpDivides (matLib dividing) ∧ SlerpEnds (matLib dividing) := by
  refine ⟨matLib_isRotLib _, ⟨fun a b α h0 h1 => (dividing_part a b h0 h1).1, fun a b α h0 h1 => (dividing_part a b h0 h1).2⟩,
    fun a b => ?_, fun a b => ?_⟩
  · have h := (dividing_part a b le_rfl zero_le_one).1
    rw [zero_mul] at h
    have h1 := (matAngle_eq_zero ((dividing a b 0).2.mul a.2.transpose)).1 (le_antisymm h (matAngle_nonneg _))
    refine Subtype.ext ?_
    calc (dividing a b 0).1 = (dividing a b 0).1 * (a.1.transpose * a.1) := by rw [mul_eq_one_comm.1 a.2.1, Matrix.mul_one]
      _ = a.1 := by rw [← Matrix.mul_assoc, h1, Matrix.one_mul]
  · have h := (dividing_part a b zero_le_one le_rfl).2
    rw [sub_self, zero_mul] at h
    have h1 := (matAngle_eq_zero ((dividing a b 1).2.mul b.2.transpose)).1 (le_antisymm h (matAngle_nonneg _))
    refine Subtype.ext ?_
    calc (dividing a b 1).1 = (dividing a b 1).1 * (b.1.transpose * b.1) := by rw [mul_eq_one_comm.1 b.2.1, Matrix.mul_one]
      _ = b.1 := by rw [← Matrix.mul_assoc, h1, Matrix.one_mul]

/-- a vehicle that turns about its vertical axis by `w` per second -/
noncomputable def spinning (w t : ℝ) : M3 ℝ := quatMat ⟨0, 0, Real.sin (w * t / 2), Real.cos (w * t / 2)⟩

theorem spinning_topTurn {w : ℝ} (hw : 0 ≤ w) : TopTurn w (spinning w) := by
  have hq : ∀ u : ℝ, (⟨0, 0, Real.sin u, Real.cos u⟩ : Q4 ℝ).normSq = 1 := fun u => by
    have := Real.sin_sq_add_cos_sq u
    simp only [Q4.normSq]
    linarith
  refine ⟨fun t => quatMat_isRot (by rw [hq]; exact one_ne_zero), fun s t => ?_⟩
  have e : (1 / 2) * ((spinning w t * (spinning w s).transpose) 0 0 + (spinning w t * (spinning w s).transpose) 1 1 +
      (spinning w t * (spinning w s).transpose) 2 2 - 1) = Real.cos |w * (t - s)| := by
    unfold spinning
    rw [← quat_transpose, trace_mul (hq _) (by
      have := Real.sin_sq_add_cos_sq (w * s / 2)
      simp only [Q4.normSq]
      linarith), sq_abs, Real.cos_abs]
    have h1 : Real.cos (w * (t - s)) = 2 * Real.cos (w * t / 2 - w * s / 2) ^ 2 - 1 := by
      rw [← Real.cos_two_mul]
      congr 1
      ring
    rw [h1, Real.cos_sub]
    ring
  unfold matAngle
  rw [e, abs_mul, abs_of_nonneg hw]
  have hpos : 0 ≤ w * |t - s| := mul_nonneg hw (abs_nonneg _)
  rcases le_total (w * |t - s|) Real.pi with h | h
  · rw [Real.arccos_cos hpos h]
  · exact (Real.arccos_le_pi _).trans h

end TC
