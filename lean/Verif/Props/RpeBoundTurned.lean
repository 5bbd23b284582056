import Verif.Props.RpeBound
import Mathlib.Analysis.SpecialFunctions.Trigonometric.Bounds

/-! C221, any orientations: the absolute errors of position and orientation together bound the relative position errors. -/

namespace TC

set_option linter.unusedSectionVars false

variable {R : Type}

/-- how far a rotation with a unit quaternion moves a point -/
theorem quat_moves {q : Q4 ℝ} (hq : q.normSq = 1) (v : V3 ℝ) :
    V3.normSq (mulV (quatMat q) v - v) ≤ 4 * (1 - q.w ^ 2) * V3.normSq v := by
  have hn : q.x ^ 2 + q.y ^ 2 + q.z ^ 2 + q.w ^ 2 = 1 := by unfold Q4.normSq at hq; linarith
  have e : mulV (quatMat q) v - v =
      ⟨2 * (q.w * (q.y * v.z - q.z * v.y) + (q.y * (q.x * v.y - q.y * v.x) - q.z * (q.z * v.x - q.x * v.z))),
       2 * (q.w * (q.z * v.x - q.x * v.z) + (q.z * (q.y * v.z - q.z * v.y) - q.x * (q.x * v.y - q.y * v.x))),
       2 * (q.w * (q.x * v.y - q.y * v.x) + (q.x * (q.z * v.x - q.x * v.z) - q.y * (q.y * v.z - q.z * v.y)))⟩ := by
    ext <;> simp [mulV, quatMat, hq]
    · linear_combination v.x * hn
    · linear_combination v.y * hn
    · linear_combination v.z * hn
  have e2 : V3.normSq (mulV (quatMat q) v - v) = 4 * ((q.y * v.z - q.z * v.y) ^ 2 + (q.z * v.x - q.x * v.z) ^ 2 +
      (q.x * v.y - q.y * v.x) ^ 2) * (q.x ^ 2 + q.y ^ 2 + q.z ^ 2 + q.w ^ 2) := by
    rw [e]
    simp only [V3.normSq]
    ring
  rw [e2, hn, mul_one, show 1 - q.w ^ 2 = q.x ^ 2 + q.y ^ 2 + q.z ^ 2 by linarith]
  simp only [V3.normSq]
  nlinarith [sq_nonneg (q.x * v.x + q.y * v.y + q.z * v.z)]

/-- a rotation moves a point by at most its angle times the distance of the point from the origin -/
theorem rot_moves {A : M3 ℝ} (hA : IsRot A) (v : V3 ℝ) : realNorm (mulV A v - v) ≤ matAngle A * realNorm v := by
  obtain ⟨q, hq, rfl⟩ := exists_unitQuat hA
  have hw := abs_w_le hq
  have ha : matAngle (quatMat q) = 2 * Real.arccos |q.w| := by
    unfold matAngle
    rw [trace_unit hq, arccos_double (abs_nonneg _) hw]
  have h0 : 0 ≤ Real.arccos |q.w| := Real.arccos_nonneg _
  have hs : Real.sin (Real.arccos |q.w|) ^ 2 = 1 - q.w ^ 2 := by
    rw [Real.sin_sq, Real.cos_arccos (by linarith [abs_nonneg q.w]) hw, sq_abs]
  have hle : Real.sin (Real.arccos |q.w|) ≤ Real.arccos |q.w| := Real.sin_le h0
  have hs0 : 0 ≤ Real.sin (Real.arccos |q.w|) := Real.sin_nonneg_of_nonneg_of_le_pi h0 (Real.arccos_le_pi _)
  have hn := realNorm_isNorm
  rw [mul_self_le_mul_self_iff (hn.nonneg _) (mul_nonneg (matAngle_nonneg _) (hn.nonneg _)), hn.sq, ha]
  have h1 := quat_moves hq v
  rw [← hs, ← hn.sq v] at h1
  have h2 : Real.sin (Real.arccos |q.w|) ^ 2 ≤ Real.arccos |q.w| ^ 2 := pow_le_pow_left₀ hs0 hle 2
  have h3 : 0 ≤ realNorm v * realNorm v := mul_self_nonneg _
  nlinarith [mul_le_mul_of_nonneg_right h2 h3]

theorem posError_turned_le {L : RotLib ℝ R} (hL : IsRotLib L) {x x' u u' : Sample ℝ R} {q o : R} (hq : x.r = some q)
    (ho : u.r = some o) :
    0 ≤ posError realNorm L x x' u u' ∧ posError realNorm L x x' u u' ≤ realNorm (u.p - x.p) + realNorm (u'.p - x'.p) +
      matAngle (L.toMat o * (L.toMat q).transpose) * realNorm (u'.p - u.p) := by
  have hn := realNorm_isNorm
  unfold posError
  rw [hq, ho]
  refine ⟨hn.nonneg _, ?_⟩
  dsimp only [wayFrom]
  have t := hn.triangle (-(u'.p - x'.p)) (u.p - x.p)
  rw [hn.neg] at t
  have e1 : mulV (L.toMat q).transpose (x'.p - x.p) - mulV (L.toMat o).transpose (u'.p - u.p) =
      mulV (L.toMat q).transpose (-(u'.p - x'.p) + (u.p - x.p)) +
        (mulV (L.toMat q).transpose (u'.p - u.p) - mulV (L.toMat o).transpose (u'.p - u.p)) := by
    rw [show -(u'.p - x'.p) + (u.p - x.p) = (x'.p - x.p) - (u'.p - u.p) by ext <;> simp <;> ring,
      mulV_sub _ (x'.p - x.p) (u'.p - u.p), sub_add_sub_cancel]
  have e2 : realNorm (mulV (L.toMat q).transpose (u'.p - u.p) - mulV (L.toMat o).transpose (u'.p - u.p)) =
      realNorm (mulV (L.toMat o * (L.toMat q).transpose) (u'.p - u.p) - (u'.p - u.p)) := by
    rw [← hn.mulV (hL.rot o), mulV_sub, ← mulV_mulV, ← mulV_mulV, (hL.rot o).1, mulV_one]
  have t2 := hn.triangle (mulV (L.toMat q).transpose (-(u'.p - x'.p) + (u.p - x.p)))
    (mulV (L.toMat q).transpose (u'.p - u.p) - mulV (L.toMat o).transpose (u'.p - u.p))
  have t3 := rot_moves ((hL.rot o).mul (hL.rot q).transpose) (u'.p - u.p)
  rw [e2, hn.mulV (hL.rot q).transpose] at t2
  rw [e1]
  linarith

/-- the way between two samples of a path is at least the straight line -/
theorem way_of_arc {ref : Traj ℝ R} (hr : Coherent ref) (harc : ref.arc = lengthsFromXyz realNorm ref.pos) :
    ∀ a ∈ samples ref, ∀ b ∈ samples ref, realNorm (b.p - a.p) ≤ |b.l - a.l| := by
  intro a ha b hb
  obtain ⟨i, hi⟩ := List.getElem?_of_mem ha
  obtain ⟨j, hj⟩ := List.getElem?_of_mem hb
  have p1 := sample_pos hr hi
  have p2 := sample_pos hr hj
  have l1 : ref.arc[i]? = some a.l := by rw [← samples_map_l hr, List.getElem?_map, hi]; rfl
  have l2 : ref.arc[j]? = some b.l := by rw [← samples_map_l hr, List.getElem?_map, hj]; rfl
  rw [harc] at l1 l2
  have hn := realNorm_isNorm
  rcases le_total i j with hij | hij
  · exact (C13_arc_length_at_least_straight_line realNorm hn ref.pos i j hij _ _ _ _ p1 p2 l1 l2).trans (le_abs_self _)
  · have := C13_arc_length_at_least_straight_line realNorm hn ref.pos j i hij _ _ _ _ p2 p1 l2 l1
    rw [← hn.neg, neg_sub, abs_sub_comm]
    exact this.trans (le_abs_self _)

/-- the bound for a reference whose arc lengths are at least the straight lines -/
theorem turned_bound {L : RotLib ℝ R} (hL : IsRotLib L) {test ref : Traj ℝ R}
    (ht : Coherent test) (hr : Coherent ref) (hlen : test.tstamps.length = ref.tstamps.length)
    (h1 : test.rot ≠ none) (h2 : ref.rot ≠ none) (hway : ∀ a ∈ samples ref, ∀ b ∈ samples ref, realNorm (b.p - a.p) ≤ |b.l - a.l|)
    {a : AteResult ℝ R} (ha : compareAbsolute realEval L test ref = .ok a) {M Θ : ℝ} (hM : a.posDevMax realEval = .ok M)
    (hΘ : a.rotDevMax realEval L = .ok Θ) {s : RpeSettings ℝ} (hs : s.unit = .meter) {r : RpeResult ℝ}
    (h : compareRelative realEval L test ref s = .ok r) :
    ∀ g ∈ r.groups, ∀ (k : Nat) e d, g.posDev[k]? = some (some e) → g.pairDist[k]? = some d → |e| * |d| ≤ 2 * M + Θ * |d| := by
  intro g hg k e d he hd
  obtain ⟨-, D, ps, devs, e1, -, e3, e4, e5, e6⟩ := groups_of_result ht hr hlen h hg
  have her := errorsOf_devs realEval_ok hL ht hr e3 e4 e5
  have hDl := pairScale_length hr e1
  rw [hs] at e1
  cases e1
  have hk' : k < ps.length := e6.numPos ▸ (List.getElem?_eq_some_iff.1 he).1
  rcases hp : ps[k] with ⟨i, j⟩
  have hpk : ps[k]? = some (i, j) := by rw [List.getElem?_eq_getElem hk', hp]
  obtain ⟨b, c, hb, hc, hbc⟩ := e6.dist k i j hpk
  rw [hd, Option.some.injEq] at hbc
  have hi := (List.getElem?_eq_some_iff.1 hb).1
  have hj := (List.getElem?_eq_some_iff.1 hc).1
  obtain ⟨x, hx⟩ := exists_sample ht (i := i) (by omega)
  obtain ⟨x', hx'⟩ := exists_sample ht (i := j) (by omega)
  obtain ⟨u, hu⟩ := exists_sample hr (i := i) (by omega)
  obtain ⟨u', hu'⟩ := exists_sample hr (i := j) (by omega)
  have hpe := her.pos k i j x x' u u' b c hpk hx hx' hu hu' hb hc
  rw [he, Option.some.injEq, ← hbc] at hpe
  unfold perDistance at hpe
  split at hpe
  · cases hpe
  rename_i hne
  have hv := Option.some.inj hpe
  obtain ⟨lt, q, t1, t2, t3⟩ := sample_turn ht h1 hx
  obtain ⟨lr, o, u1, u2, u3⟩ := sample_turn hr h2 hu
  obtain ⟨p1, p2⟩ := posError_turned_le hL (x' := x') (u' := u') t3 u3
  have m1 : realNorm (u.p - x.p) ≤ M := le_posDevMax ht hr hlen ha hM hx hu
  have m2 : realNorm (u'.p - x'.p) ≤ M := le_posDevMax ht hr hlen ha hM hx' hu'
  have m3 := le_rotDevMax hL ht hr hlen ha hΘ t1 u1 t2 u2
  have hn := realNorm_isNorm
  have hle : realNorm (u'.p - u.p) ≤ |d| := by
    have l1 : ref.arc[i]? = some u.l := by rw [← samples_map_l hr, List.getElem?_map, hu]; rfl
    have l2 : ref.arc[j]? = some u'.l := by rw [← samples_map_l hr, List.getElem?_map, hu']; rfl
    rw [hb, Option.some.injEq] at l1
    rw [hc, Option.some.injEq] at l2
    rw [hbc, l1, l2]
    exact hway u (List.mem_of_getElem? hu) u' (List.mem_of_getElem? hu')
  have hv' : e = posError realNorm L x x' u u' / d := hv
  rw [hv', abs_div, div_mul_cancel₀ _ (abs_pos.2 hne).ne', abs_of_nonneg p1]
  have hm := mul_le_mul m3 hle (hn.nonneg _) ((matAngle_nonneg _).trans m3)
  linarith

/-- **C221**, any orientations, in metres: a position error times the distance of its pair is at most twice the largest absolute
position error plus the distance times the largest absolute rotation error. -/
theorem C221_any_orientations {L : RotLib ℝ R} (hL : IsRotLib L) {test ref : Traj ℝ R}
    (ht : Coherent test) (hr : Coherent ref) (hlen : test.tstamps.length = ref.tstamps.length)
    (h1 : test.rot ≠ none) (h2 : ref.rot ≠ none) (harc : ref.arc = lengthsFromXyz realNorm ref.pos)
    {a : AteResult ℝ R} (ha : compareAbsolute realEval L test ref = .ok a) {M Θ : ℝ} (hM : a.posDevMax realEval = .ok M)
    (hΘ : a.rotDevMax realEval L = .ok Θ) {s : RpeSettings ℝ} (hs : s.unit = .meter) {r : RpeResult ℝ}
    (h : compareRelative realEval L test ref s = .ok r) :
    ∀ g ∈ r.groups, ∀ (k : Nat) e d, g.posDev[k]? = some (some e) → g.pairDist[k]? = some d → |e| * |d| ≤ 2 * M + Θ * |d| := by
  exact turned_bound hL ht hr hlen h1 h2 (way_of_arc hr harc) ha hM hΘ hs h

/-- a library and two trajectories with different orientations that meet the hypotheses -/
example : IsRotLib (matLib (K := ℝ) (fun a _ _ => a)) ∧ (exPosed ⟨0, 0, 0⟩ ⟨1, 0, 0⟩ exUpright exUpright).rot ≠ none ∧
    (exPosed ⟨0, 0, 0⟩ ⟨1, 0, 0⟩ exUpright exUpright).arc =
      lengthsFromXyz realNorm (exPosed ⟨0, 0, 0⟩ ⟨1, 0, 0⟩ exUpright exUpright).pos ∧
    (∃ a Θ, compareAbsolute realEval (matLib fun a _ _ => a) (exPosed ⟨0, 0, 0⟩ ⟨1, 2, 0⟩ exUpright exUpside)
      (exPosed ⟨0, 0, 0⟩ ⟨1, 0, 0⟩ exUpright exUpright) = .ok a ∧ a.rotDevMax realEval (matLib fun a _ _ => a) = .ok Θ) ∧
    ∃ r, compareRelative realEval (matLib (fun a _ _ => a)) (exPosed ⟨0, 0, 0⟩ ⟨1, 2, 0⟩ exUpright exUpside)
      (exPosed ⟨0, 0, 0⟩ ⟨1, 0, 0⟩ exUpright exUpright) { exPerSecond with unit := .meter } = .ok r := by
  refine ⟨matLib_isRotLib _, by simp [exPosed], ?_, ?_, ?_⟩
  · simp [exPosed, exPair, lengthsFromXyz, diffs, cumFrom, realNorm, V3.normSq]
  · obtain ⟨a, -, h1, -⟩ := C177_both_directions realEval (matLib fun a _ _ => a) (exPosed ⟨0, 0, 0⟩ ⟨1, 2, 0⟩ exUpright exUpside)
      (exPosed ⟨0, 0, 0⟩ ⟨1, 0, 0⟩ exUpright exUpright) (exPosed_coherent _ _ _ _) (exPosed_coherent _ _ _ _) rfl
    obtain ⟨d, e1, e2⟩ := (compareAbsolute_fields h1).2.1 [exUpright, exUpright] [exUpright, exUpside] rfl rfl
    rw [bcast_eq (by simp), Except.ok.injEq] at e1
    have hne : a.rotDevComb realEval (matLib fun a _ _ => a) ≠ [] := by
      unfold AteResult.rotDevComb
      rw [e2, ← e1]
      simp
    obtain ⟨m, hm, -⟩ := pyMax_spec hne
    exact ⟨a, m, h1, hm⟩
  · have h := C65_relative_comparison_errors realEval (matLib (fun a _ _ => a)) (exPosed ⟨0, 0, 0⟩ ⟨1, 2, 0⟩ exUpright exUpside)
      (exPosed ⟨0, 0, 0⟩ ⟨1, 0, 0⟩ exUpright exUpright) (exPosed_coherent _ _ _ _)
      (exPosed_coherent _ _ _ _) rfl (by simp [exPosed, exPair]) { exPerSecond with unit := .meter } (by norm_num [exPerSecond])
      (by norm_num [exPerSecond]) (by
        intro D hD
        injection hD with hD
        subst hD
        simp [exPosed, exPair])
    rcases h.2 with ⟨r, h2⟩ | h2
    · exact ⟨r, h2⟩
    · rcases h.1.1 h2 with h3 | h3 | h3
      · norm_num [exPerSecond] at h3
      · simp at h3
      · have := h3 [0, 1] rfl 0 (by simp) 1 (by simp)
        norm_num [exPerSecond] at this

end TC
