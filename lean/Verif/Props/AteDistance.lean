import Verif.Props.Swap
import Verif.Props.RotationSet
import Verif.Proofs.Voxel
/-!
# C212: the absolute error is a distance of trajectories
-/
namespace TC
set_option linter.unusedSectionVars false

/-- three numbers, the first not negative, the last not larger than the sum of the others -/
def Detour (x y z : Except Err ℝ) : Prop := ∃ a b c, x = .ok a ∧ y = .ok b ∧ z = .ok c ∧ 0 ≤ a ∧ c ≤ a + b

/-- `z` holds numbers that are not negative and not larger than the sums of the numbers of `x` and `y` -/
inductive Shorter : List ℝ → List ℝ → List ℝ → Prop
  | nil : Shorter [] [] []
  | cons {a b c : ℝ} {x y z : List ℝ} : 0 ≤ a → 0 ≤ b → 0 ≤ c → c ≤ a + b → Shorter x y z → Shorter (a :: x) (b :: y) (c :: z)

theorem Shorter.lengths {x y z : List ℝ} (h : Shorter x y z) : y.length = x.length ∧ z.length = x.length := by
  induction h with
  | nil => exact ⟨rfl, rfl⟩
  | cons _ _ _ _ _ ih => exact ⟨by simp [ih.1], by simp [ih.2]⟩

theorem Shorter.nonneg {x y z : List ℝ} (h : Shorter x y z) : ∀ a ∈ x, 0 ≤ a := by
  induction h with
  | nil => simp
  | cons h _ _ _ _ ih =>
    intro a ha
    rcases List.mem_cons.1 ha with rfl | ha
    · exact h
    · exact ih a ha

theorem Shorter.sum {x y z : List ℝ} (h : Shorter x y z) : 0 ≤ x.sum ∧ z.sum ≤ x.sum + y.sum := by
  induction h with
  | nil => simp
  | cons h1 h2 h3 h4 _ ih =>
    simp only [List.sum_cons]
    exact ⟨by linarith [ih.1], by linarith [ih.2]⟩

theorem sumSq_nonneg (x : List ℝ) : 0 ≤ (x.map (fun a => a ^ 2)).sum :=
  List.sum_nonneg (by
    intro a ha
    obtain ⟨b, -, rfl⟩ := List.mem_map.1 ha
    exact sq_nonneg b)

theorem plane_triangle (p q r s : ℝ) :
    Real.sqrt ((p + q) ^ 2 + (r + s) ^ 2) ≤ Real.sqrt (p ^ 2 + r ^ 2) + Real.sqrt (q ^ 2 + s ^ 2) := by
  have h0 : 0 ≤ p ^ 2 + r ^ 2 := by positivity
  have h1 : 0 ≤ q ^ 2 + s ^ 2 := by positivity
  refine Real.sqrt_le_iff.2 ⟨by positivity, ?_⟩
  have h : p * q + r * s ≤ Real.sqrt (p ^ 2 + r ^ 2) * Real.sqrt (q ^ 2 + s ^ 2) := by
    rw [← Real.sqrt_mul h0]
    exact Real.le_sqrt_of_sq_le (by nlinarith [sq_nonneg (p * s - q * r)])
  nlinarith [Real.sq_sqrt h0, Real.sq_sqrt h1]

theorem Shorter.root {x y z : List ℝ} (h : Shorter x y z) :
    Real.sqrt (z.map (fun a => a ^ 2)).sum ≤ Real.sqrt (x.map (fun a => a ^ 2)).sum + Real.sqrt (y.map (fun a => a ^ 2)).sum := by
  induction h with
  | nil => simp
  | @cons a b c x y z h1 h2 h3 h4 _ ih =>
    simp only [List.map_cons, List.sum_cons]
    have e := plane_triangle a b (Real.sqrt (x.map (fun a => a ^ 2)).sum) (Real.sqrt (y.map (fun a => a ^ 2)).sum)
    rw [Real.sq_sqrt (sumSq_nonneg x), Real.sq_sqrt (sumSq_nonneg y)] at e
    refine le_trans (Real.sqrt_le_sqrt ?_) e
    have k1 : c ^ 2 ≤ (a + b) ^ 2 := pow_le_pow_left₀ h3 h4 2
    have k2 : (z.map (fun a => a ^ 2)).sum ≤
        (Real.sqrt (x.map (fun a => a ^ 2)).sum + Real.sqrt (y.map (fun a => a ^ 2)).sum) ^ 2 := by
      rw [← Real.sq_sqrt (sumSq_nonneg z)]
      exact pow_le_pow_left₀ (Real.sqrt_nonneg _) ih 2
    linarith

theorem Shorter.detours {x y z : List ℝ} (h : Shorter x y z) (hne : x ≠ []) :
    Detour (npMean x) (npMean y) (npMean z) ∧ Detour (rms realEval x) (rms realEval y) (rms realEval z) := by
  obtain ⟨hy, hz⟩ := h.lengths
  have hn : x.length ≠ 0 := by simpa using hne
  have hpos : (0 : ℝ) < x.length := by exact_mod_cast Nat.pos_of_ne_zero hn
  constructor
  · refine ⟨_, _, _, by rw [npMean, if_neg hn], by rw [npMean, hy, if_neg hn], by rw [npMean, hz, if_neg hn],
      div_nonneg h.sum.1 hpos.le, ?_⟩
    rw [← add_div]
    exact div_le_div_of_nonneg_right h.sum.2 hpos.le
  · have e : ∀ l : List ℝ, l.length = x.length → rms realEval l =
        .ok (Real.sqrt (l.map (fun a => a ^ 2)).sum / Real.sqrt x.length) := by
      intro l hl
      unfold rms npMean
      rw [if_neg (by simpa [hl] using hn)]
      simp only [bind, Except.bind, pure, Except.pure, realEval, List.length_map, hl]
      rw [Real.sqrt_div (sumSq_nonneg l)]
    refine ⟨_, _, _, e x rfl, e y hy, e z hz, div_nonneg (Real.sqrt_nonneg _) (Real.sqrt_nonneg _), ?_⟩
    rw [← add_div]
    exact div_le_div_of_nonneg_right h.root (Real.sqrt_nonneg _)

theorem Shorter.entries {x y z : List ℝ} (h : Shorter x y z) : ∀ c ∈ z, ∃ a ∈ x, ∃ b ∈ y, c ≤ a + b := by
  induction h with
  | nil => simp
  | cons h1 h2 h3 h4 _ ih =>
    intro c hc
    rcases List.mem_cons.1 hc with rfl | hc
    · exact ⟨_, List.mem_cons_self, _, List.mem_cons_self, h4⟩
    · obtain ⟨a, ha, b, hb, hh⟩ := ih c hc
      exact ⟨a, List.mem_cons_of_mem _ ha, b, List.mem_cons_of_mem _ hb, hh⟩

theorem Shorter.largest {x y z : List ℝ} (h : Shorter x y z) (hne : x ≠ []) : Detour (pyMax x) (pyMax y) (pyMax z) := by
  obtain ⟨hy, hz⟩ := h.lengths
  have hn : x.length ≠ 0 := by simpa using hne
  obtain ⟨a, a1, a2, a3⟩ := pyMax_spec hne
  obtain ⟨b, b1, b2, b3⟩ := pyMax_spec (l := y) (by rintro rfl; exact hn hy.symm)
  obtain ⟨c, c1, c2, c3⟩ := pyMax_spec (l := z) (by rintro rfl; exact hn hz.symm)
  refine ⟨a, b, c, a1, b1, c1, h.nonneg a a2, ?_⟩
  obtain ⟨p, hp, q, hq, hpq⟩ := h.entries c c2
  linarith [a3 p hp, b3 q hq]

theorem sum_zero {x : List ℝ} (h : ∀ a ∈ x, 0 ≤ a) : x.sum = 0 ↔ ∀ a ∈ x, a = 0 := by
  induction x with
  | nil => simp
  | cons a x ih =>
    have h1 := h a List.mem_cons_self
    have h2 : ∀ b ∈ x, 0 ≤ b := fun b hb => h b (List.mem_cons_of_mem _ hb)
    have h3 := List.sum_nonneg h2
    simp only [List.sum_cons, List.mem_cons, forall_eq_or_imp, ← ih h2]
    constructor
    · intro h
      exact ⟨by linarith, by linarith⟩
    · rintro ⟨h, h'⟩
      rw [h, h', add_zero]

/-- mean, root mean square and maximum of numbers that are not negative are zero exactly if all numbers are -/
theorem zero_iff {x : List ℝ} (hne : x ≠ []) (h : ∀ a ∈ x, 0 ≤ a) :
    (npMean x = .ok 0 ↔ ∀ a ∈ x, a = 0) ∧ (rms realEval x = .ok 0 ↔ ∀ a ∈ x, a = 0) ∧ (pyMax x = .ok 0 ↔ ∀ a ∈ x, a = 0) := by
  have hn : x.length ≠ 0 := by simpa using hne
  have hpos : (0 : ℝ) < x.length := by exact_mod_cast Nat.pos_of_ne_zero hn
  refine ⟨?_, ?_, ?_⟩
  · rw [npMean, if_neg hn, Except.ok.injEq, div_eq_zero_iff, or_iff_left hpos.ne', sum_zero h]
  · unfold rms npMean
    rw [if_neg (by simpa using hn)]
    simp only [bind, Except.bind, pure, Except.pure, realEval, List.length_map, Except.ok.injEq]
    rw [Real.sqrt_eq_zero (div_nonneg (sumSq_nonneg x) hpos.le), div_eq_zero_iff, or_iff_left hpos.ne', sum_zero (by
      intro a ha
      obtain ⟨b, -, rfl⟩ := List.mem_map.1 ha
      exact sq_nonneg b)]
    simp
  · obtain ⟨a, a1, a2, a3⟩ := pyMax_spec hne
    rw [a1, Except.ok.injEq]
    constructor
    · rintro rfl b hb
      exact le_antisymm (a3 b hb) (h b hb)
    · intro hz
      exact hz a a2

theorem shorter_of {α : Type} {d : α → α → ℝ} (h0 : ∀ p q, 0 ≤ d p q) (ht : ∀ p q r, d r p ≤ d q p + d r q) :
    ∀ {T U W : List α}, T.length = U.length → U.length = W.length →
      Shorter (List.zipWith d U T) (List.zipWith d W U) (List.zipWith d W T)
  | [], [], [], _, _ => .nil
  | t :: T, u :: U, w :: W, h1, h2 => .cons (h0 _ _) (h0 _ _) (h0 _ _) (ht t u w)
      (shorter_of h0 ht (by simpa using h1) (by simpa using h2))

theorem zipWith_zero {α : Type} {d : α → α → ℝ} (hz : ∀ p q, d p q = 0 ↔ p = q) : ∀ {U T : List α}, T.length = U.length →
    ((∀ a ∈ List.zipWith d U T, a = 0) ↔ T = U)
  | [], [], _ => by simp
  | u :: U, t :: T, h => by
    simp only [List.zipWith_cons_cons, List.mem_cons, forall_eq_or_imp, hz, zipWith_zero hz (U := U) (T := T) (by simpa using h),
      List.cons.injEq]
    exact and_congr_left fun _ => eq_comm

/-- **C212**: for matched trajectories the position error (as mean, root mean square and maximum) is a distance: it is
zero exactly if all positions agree, and the error between two trajectories is not larger than the sum of their
errors against a third one.  That it is the same in both directions is `C177_statistics`. -/
theorem C212_positions {R : Type} {L : RotLib ℝ R} {T U W : Traj ℝ R} {tu uw tw : AteResult ℝ R}
    (h1 : compareAbsolute realEval L T U = .ok tu) (h2 : compareAbsolute realEval L U W = .ok uw)
    (h3 : compareAbsolute realEval L T W = .ok tw) (hne : T.pos ≠ []) (hTU : T.pos.length = U.pos.length)
    (hUW : U.pos.length = W.pos.length) :
    (Detour (tu.posAte realEval) (uw.posAte realEval) (tw.posAte realEval) ∧
      Detour (tu.posDevRms realEval) (uw.posDevRms realEval) (tw.posDevRms realEval) ∧
      Detour (tu.posDevMax realEval) (uw.posDevMax realEval) (tw.posDevMax realEval)) ∧
    (tu.posAte realEval = .ok 0 ↔ T.pos = U.pos) ∧ (tu.posDevRms realEval = .ok 0 ↔ T.pos = U.pos) ∧
    (tu.posDevMax realEval = .ok 0 ↔ T.pos = U.pos) := by
  have hlist : ∀ {A B : Traj ℝ R} {r : AteResult ℝ R}, compareAbsolute realEval L A B = .ok r → A.pos.length = B.pos.length →
      r.posDevComb realEval = List.zipWith (fun p q => realNorm (p - q)) B.pos A.pos := by
    intro A B r h hl
    have := (compareAbsolute_fields h).1
    rw [bcast_same _ hl.symm, Except.ok.injEq] at this
    unfold AteResult.posDevComb
    rw [← this, List.map_zipWith]
    rfl
  have hn := realNorm_isNorm
  have hz : ∀ p q : V3 ℝ, realNorm (p - q) = 0 ↔ p = q := by
    intro p q
    rw [← mul_self_eq_zero, hn.sq]
    constructor
    · intro h
      simp only [V3.normSq, V3.sub_x, V3.sub_y, V3.sub_z] at h
      ext
      · nlinarith [mul_self_nonneg (p.x - q.x), mul_self_nonneg (p.y - q.y), mul_self_nonneg (p.z - q.z)]
      · nlinarith [mul_self_nonneg (p.x - q.x), mul_self_nonneg (p.y - q.y), mul_self_nonneg (p.z - q.z)]
      · nlinarith [mul_self_nonneg (p.x - q.x), mul_self_nonneg (p.y - q.y), mul_self_nonneg (p.z - q.z)]
    · rintro rfl
      simp [V3.normSq]
  have ht : ∀ p q r : V3 ℝ, realNorm (r - p) ≤ realNorm (q - p) + realNorm (r - q) := by
    intro p q r
    have e1 := hn.sq (r - p)
    have e2 := hn.sq (q - p)
    have e3 := hn.sq (r - q)
    have n1 := hn.nonneg (r - p)
    have n2 := hn.nonneg (q - p)
    have n3 := hn.nonneg (r - q)
    simp only [V3.normSq, V3.sub_x, V3.sub_y, V3.sub_z] at e1 e2 e3
    have hc : (q.x - p.x) * (r.x - q.x) + (q.y - p.y) * (r.y - q.y) + (q.z - p.z) * (r.z - q.z) ≤ realNorm (q - p) * realNorm (r - q) := by
      refine abs_le_of_sq_le_sq' ?_ (mul_nonneg n2 n3) |>.2
      rw [mul_pow, sq (realNorm (q - p)), sq (realNorm (r - q)), e2, e3]
      nlinarith [sq_nonneg ((q.x - p.x) * (r.y - q.y) - (q.y - p.y) * (r.x - q.x)),
        sq_nonneg ((q.x - p.x) * (r.z - q.z) - (q.z - p.z) * (r.x - q.x)),
        sq_nonneg ((q.y - p.y) * (r.z - q.z) - (q.z - p.z) * (r.y - q.y))]
    refine abs_le_of_sq_le_sq' ?_ (add_nonneg n2 n3) |>.2
    nlinarith
  have hs := shorter_of (d := fun p q => realNorm (p - q)) (fun p q => hn.nonneg _) ht hTU hUW
  have hx : List.zipWith (fun p q => realNorm (p - q)) U.pos T.pos ≠ [] := by
    intro h
    have := congrArg List.length h
    simp [← hTU] at this
    exact hne this
  obtain ⟨z1, z2, z3⟩ := zero_iff hx hs.nonneg
  obtain ⟨d1, d2⟩ := hs.detours hx
  have hzz := zipWith_zero (d := fun p q => realNorm (p - q)) hz hTU
  unfold AteResult.posAte AteResult.posDevRms AteResult.posDevMax
  rw [hlist h1 hTU, hlist h2 hUW, hlist h3 (hTU.trans hUW)]
  exact ⟨⟨d1, d2, hs.largest hx⟩, z1.trans hzz, z2.trans hzz, z3.trans hzz⟩

/-- **C212**: the same for the rotation error of trajectories with orientations. -/
theorem C212_orientations {R : Type} {L : RotLib ℝ R} (hL : IsRotLib L) {T U W : Traj ℝ R} {tu uw tw : AteResult ℝ R}
    (h1 : compareAbsolute realEval L T U = .ok tu) (h2 : compareAbsolute realEval L U W = .ok uw)
    (h3 : compareAbsolute realEval L T W = .ok tw) {t u w : List R} (ht : T.rot = some t) (hu : U.rot = some u)
    (hw : W.rot = some w) (hne : t ≠ []) (hTU : t.length = u.length) (hUW : u.length = w.length) :
    (Detour (tu.rotAte realEval L) (uw.rotAte realEval L) (tw.rotAte realEval L) ∧
      Detour (tu.rotDevRms realEval L) (uw.rotDevRms realEval L) (tw.rotDevRms realEval L) ∧
      Detour (tu.rotDevMax realEval L) (uw.rotDevMax realEval L) (tw.rotDevMax realEval L)) ∧
    (tu.rotAte realEval L = .ok 0 ↔ t = u) ∧ (tu.rotDevRms realEval L = .ok 0 ↔ t = u) ∧
    (tu.rotDevMax realEval L = .ok 0 ↔ t = u) := by
  have hlist : ∀ {A B : Traj ℝ R} {r : AteResult ℝ R} {a b : List R}, compareAbsolute realEval L A B = .ok r →
      A.rot = some a → B.rot = some b → a.length = b.length → r.rotDev.isSome = true ∧
      r.rotDevComb realEval L = List.zipWith (fun p q => matAngle (L.toMat p * (L.toMat q).transpose)) b a := by
    intro A B r a b h hA hB hl
    obtain ⟨d, e1, e2⟩ := (compareAbsolute_fields h).2.1 b a hB hA
    rw [bcast_same _ hl.symm, Except.ok.injEq] at e1
    refine ⟨by rw [e2]; rfl, ?_⟩
    unfold AteResult.rotDevComb
    rw [e2]
    dsimp only
    rw [← e1, List.map_zipWith]
    congr 1
    funext p q
    rw [hL.toMat_mul, hL.toMat_inv]
    rfl
  have hz : ∀ p q : R, matAngle (L.toMat p * (L.toMat q).transpose) = 0 ↔ p = q := by
    intro p q
    rw [matAngle_eq_zero ((hL.rot p).mul (hL.rot q).transpose)]
    constructor
    · intro h
      refine toMat_inj hL ?_
      have := congrArg (· * L.toMat q) h
      simpa [Matrix.mul_assoc, mul_eq_one_comm.1 (hL.rot q).1] using this
    · rintro rfl
      exact (hL.rot p).1
  have htri : ∀ p q r : R, matAngle (L.toMat r * (L.toMat p).transpose) ≤ matAngle (L.toMat q * (L.toMat p).transpose) +
      matAngle (L.toMat r * (L.toMat q).transpose) := by
    intro p q r
    have h := matAngle_mul_le ((hL.rot r).mul (hL.rot q).transpose) ((hL.rot q).mul (hL.rot p).transpose)
    rw [Matrix.mul_assoc, ← Matrix.mul_assoc (L.toMat q).transpose, mul_eq_one_comm.1 (hL.rot q).1, Matrix.one_mul] at h
    linarith
  have hs := shorter_of (d := fun p q => matAngle (L.toMat p * (L.toMat q).transpose)) (fun p q => matAngle_nonneg _) htri hTU hUW
  have hx : List.zipWith (fun p q => matAngle (L.toMat p * (L.toMat q).transpose)) u t ≠ [] := by
    intro h
    have := congrArg List.length h
    simp [← hTU] at this
    exact hne this
  obtain ⟨z1, z2, z3⟩ := zero_iff hx hs.nonneg
  obtain ⟨d1, d2⟩ := hs.detours hx
  have hzz := zipWith_zero (d := fun p q => matAngle (L.toMat p * (L.toMat q).transpose)) hz hTU
  obtain ⟨s1, l1⟩ := hlist h1 ht hu hTU
  obtain ⟨s2, l2⟩ := hlist h2 hu hw hUW
  obtain ⟨s3, l3⟩ := hlist h3 ht hw (hTU.trans hUW)
  unfold AteResult.rotAte AteResult.rotDevRms AteResult.rotDevMax
  rw [if_pos s1, if_pos s2, if_pos s3, l1, l2, l3]
  exact ⟨⟨d1, d2, hs.largest hx⟩, z1.trans hzz, z2.trans hzz, z3.trans hzz⟩

/-! ### The hypotheses are met -/

/-- a trajectory of two poses -/
noncomputable def exPosed (p q : V3 ℝ) (r s : RotM ℝ) : Traj ℝ (RotM ℝ) := { (exPair p q : Traj ℝ (RotM ℝ)) with rot := some [r, s] }

noncomputable def exUpside : RotM ℝ := ⟨!![-1, 0, 0; 0, -1, 0; 0, 0, 1], by
  constructor
  · ext i j
    fin_cases i <;> fin_cases j <;> simp [Matrix.mul_apply, Fin.sum_univ_three]
  · simp [Matrix.det_fin_three]⟩

noncomputable def exUpright : RotM ℝ := ⟨1, isRot_one⟩

theorem exPosed_coherent (p q : V3 ℝ) (r s : RotM ℝ) : Coherent (exPosed p q r s) :=
  ⟨rfl, rfl, rfl, by rintro l h; cases h; rfl⟩

example : ∃ tu uw tw, compareAbsolute realEval (matLib fun a _ _ => a) (exPosed ⟨0, 0, 0⟩ ⟨3, 0, 0⟩ exUpright exUpright)
      (exPosed ⟨1, 0, 0⟩ ⟨3, 2, 0⟩ exUpside exUpright) = .ok tu ∧
    compareAbsolute realEval (matLib fun a _ _ => a) (exPosed ⟨1, 0, 0⟩ ⟨3, 2, 0⟩ exUpside exUpright)
      (exPosed ⟨5, 0, 0⟩ ⟨3, 2, 7⟩ exUpside exUpside) = .ok uw ∧
    compareAbsolute realEval (matLib fun a _ _ => a) (exPosed ⟨0, 0, 0⟩ ⟨3, 0, 0⟩ exUpright exUpright)
      (exPosed ⟨5, 0, 0⟩ ⟨3, 2, 7⟩ exUpside exUpside) = .ok tw := by
  obtain ⟨a, -, h1, -⟩ := C177_both_directions realEval (matLib fun a _ _ => a) (exPosed ⟨0, 0, 0⟩ ⟨3, 0, 0⟩ exUpright exUpright)
    (exPosed ⟨1, 0, 0⟩ ⟨3, 2, 0⟩ exUpside exUpright) (exPosed_coherent _ _ _ _) (exPosed_coherent _ _ _ _) rfl
  obtain ⟨b, -, h2, -⟩ := C177_both_directions realEval (matLib fun a _ _ => a) (exPosed ⟨1, 0, 0⟩ ⟨3, 2, 0⟩ exUpside exUpright)
    (exPosed ⟨5, 0, 0⟩ ⟨3, 2, 7⟩ exUpside exUpside) (exPosed_coherent _ _ _ _) (exPosed_coherent _ _ _ _) rfl
  obtain ⟨c, -, h3, -⟩ := C177_both_directions realEval (matLib fun a _ _ => a) (exPosed ⟨0, 0, 0⟩ ⟨3, 0, 0⟩ exUpright exUpright)
    (exPosed ⟨5, 0, 0⟩ ⟨3, 2, 7⟩ exUpside exUpside) (exPosed_coherent _ _ _ _) (exPosed_coherent _ _ _ _) rfl
  exact ⟨a, b, c, h1, h2, h3⟩

end TC
