import Verif.Props.RpeValues
import Verif.Props.Arc
import Verif.Props.AteDistance
/-!
# C215: a scale error and a drift come out as relative errors
-/
namespace TC
set_option linter.unusedSectionVars false
variable {K R : Type} [Field K] [LinearOrder K] [IsStrictOrderedRing K]

theorem exists_sample {T : Traj K R} (hT : Coherent T) {i : Nat} (hi : i < T.tstamps.length) : ∃ s, (samples T)[i]? = some s :=
  ⟨_, List.getElem?_eq_getElem (by rw [samples_length hT]; exact hi)⟩

section
variable [FloorRing K]

/-- a position error of a result belongs to a pair of poses -/
theorem pos_entry {E : EvalLib K} (hE : IsEvalLib E) {L : RotLib K R} (hL : IsRotLib L) {test ref : Traj K R} (ht : Coherent test)
    (hr : Coherent ref) (hlen : test.tstamps.length = ref.tstamps.length) {s : RpeSettings K} {r : RpeResult K}
    (h : compareRelative E L test ref s = .ok r) {g : RpeGroup K} (hg : g ∈ r.groups) {e : K} (he : some e ∈ g.posDev) :
    ∃ (D : List K) (i j : Nat) (x x' u u' : Sample K R) (a b : K), pairScale s.unit ref = some D ∧ (samples test)[i]? = some x ∧ (samples test)[j]? = some x' ∧
      (samples ref)[i]? = some u ∧ (samples ref)[j]? = some u' ∧ D[i]? = some a ∧ D[j]? = some b ∧ b - a ≠ 0 ∧
      e = posError E.nrm L x x' u u' / (b - a) := by
  obtain ⟨-, D, ps, devs, e1, -, e3, e4, e5, e6⟩ := groups_of_result ht hr hlen h hg
  have her := errorsOf_devs hE hL ht hr e3 e4 e5
  have hDl := pairScale_length hr e1
  obtain ⟨k, hk⟩ := List.mem_iff_getElem?.1 he
  have hk' : k < ps.length := e6.numPos ▸ (List.getElem?_eq_some_iff.1 hk).1
  rcases hp : ps[k] with ⟨i, j⟩
  have hpk : ps[k]? = some (i, j) := by rw [List.getElem?_eq_getElem hk', hp]
  obtain ⟨a, b, ha, hb, -⟩ := e6.dist k i j hpk
  have hi := (List.getElem?_eq_some_iff.1 ha).1
  have hj := (List.getElem?_eq_some_iff.1 hb).1
  obtain ⟨x, hx⟩ := exists_sample ht (i := i) (by omega)
  obtain ⟨x', hx'⟩ := exists_sample ht (i := j) (by omega)
  obtain ⟨u, hu⟩ := exists_sample hr (i := i) (by omega)
  obtain ⟨u', hu'⟩ := exists_sample hr (i := j) (by omega)
  have := her.pos k i j x x' u u' a b hpk hx hx' hu hu' ha hb
  rw [hk, Option.some.injEq] at this
  unfold perDistance at this
  split at this
  · cases this
  · rename_i hne
    exact ⟨D, i, j, x, x', u, u', a, b, e1, hx, hx', hu, hu', ha, hb, hne, Option.some.inj this⟩

/-- a rotation error of a result belongs to a pair of poses -/
theorem rot_entry {E : EvalLib K} (hE : IsEvalLib E) {L : RotLib K R} (hL : IsRotLib L) {test ref : Traj K R} (ht : Coherent test)
    (hr : Coherent ref) (hlen : test.tstamps.length = ref.tstamps.length) {s : RpeSettings K} {r : RpeResult K}
    (h : compareRelative E L test ref s = .ok r) {g : RpeGroup K} (hg : g ∈ r.groups) {e : K} (he : some e ∈ g.rotDev) :
    ∃ (i j : Nat) (x x' u u' : Sample K R) (q q' o o' : R) (d : K), (samples test)[i]? = some x ∧ (samples test)[j]? = some x' ∧
      (samples ref)[i]? = some u ∧ (samples ref)[j]? = some u' ∧ x.r = some q ∧ x'.r = some q' ∧ u.r = some o ∧ u'.r = some o' ∧
      e = E.acos (cosAngle ((turnFrom L o o').transpose * turnFrom L q q')) / d := by
  obtain ⟨-, D, ps, devs, e1, -, e3, e4, e5, e6⟩ := groups_of_result ht hr hlen h hg
  have her := errorsOf_devs hE hL ht hr e3 e4 e5
  have hDl := pairScale_length hr e1
  obtain ⟨k, hk⟩ := List.mem_iff_getElem?.1 he
  have hkl := (List.getElem?_eq_some_iff.1 hk).1
  have hor : test.rot ≠ none ∧ ref.rot ≠ none := by
    by_contra hc
    have := e6.numRot
    rw [if_neg hc] at this
    omega
  have hk' : k < ps.length := by
    have := e6.numRot
    rw [if_pos hor] at this
    omega
  rcases hp : ps[k] with ⟨i, j⟩
  have hpk : ps[k]? = some (i, j) := by rw [List.getElem?_eq_getElem hk', hp]
  obtain ⟨a, b, ha, hb, -⟩ := e6.dist k i j hpk
  have hi := (List.getElem?_eq_some_iff.1 ha).1
  have hj := (List.getElem?_eq_some_iff.1 hb).1
  obtain ⟨x, hx⟩ := exists_sample ht (i := i) (by omega)
  obtain ⟨x', hx'⟩ := exists_sample ht (i := j) (by omega)
  obtain ⟨u, hu⟩ := exists_sample hr (i := i) (by omega)
  obtain ⟨u', hu'⟩ := exists_sample hr (i := j) (by omega)
  have hsome : ∀ {T : Traj K R} (_ : Coherent T) {n : Nat} {y : Sample K R}, T.rot ≠ none → (samples T)[n]? = some y → ∃ q, y.r = some q := by
    intro T hT n y hT' hy
    have := sample_rot hT hy
    obtain ⟨l, hl⟩ := Option.ne_none_iff_exists'.1 hT'
    rw [hl] at this
    simp only [rotColumn, List.getElem?_map, Option.map_eq_some_iff] at this
    obtain ⟨q, -, hq⟩ := this
    exact ⟨q, hq.symm⟩
  obtain ⟨q, hq⟩ := hsome ht hor.1 hx
  obtain ⟨q', hq'⟩ := hsome ht hor.1 hx'
  obtain ⟨o, ho⟩ := hsome hr hor.2 hu
  obtain ⟨o', ho'⟩ := hsome hr hor.2 hu'
  have := her.rot k i j x x' u u' a b q q' o o' hpk hx hx' hu hu' ha hb hq hq' ho ho'
  rw [hk, Option.some.injEq] at this
  unfold perDistance at this
  split at this
  · cases this
  · exact ⟨i, j, x, x', u, u', q, q', o, o', b - a, hx, hx', hu, hu', hq, hq', ho, ho', Option.some.inj this⟩

theorem same_turn {test ref : Traj K R} (ht : Coherent test) (hr : Coherent ref) (hlen : test.tstamps.length = ref.tstamps.length)
    (hrot : test.rot = ref.rot) {i : Nat} {x u : Sample K R} (hx : (samples test)[i]? = some x) (hu : (samples ref)[i]? = some u) :
    x.r = u.r := by
  have h1 := sample_rot ht hx
  have h2 := sample_rot hr hu
  rw [hrot, hlen] at h1
  exact Option.some.inj (h1.symm.trans h2)

/-- **C215**, rotations: if the orientations agree, all rotation errors are zero, whatever the positions are. -/
theorem C215_rotations {E : EvalLib K} (hE : IsEvalLib E) {L : RotLib K R} (hL : IsRotLib L) {test ref : Traj K R} (ht : Coherent test)
    (hr : Coherent ref) (hlen : test.tstamps.length = ref.tstamps.length) (hrot : test.rot = ref.rot) {s : RpeSettings K}
    {r : RpeResult K} (h : compareRelative E L test ref s = .ok r) : ∀ g ∈ r.groups, ∀ e, some e ∈ g.rotDev → e = 0 := by
  intro g hg e he
  obtain ⟨i, j, x, x', u, u', q, q', o, o', d, hx, hx', hu, hu', hq, hq', ho, ho', rfl⟩ := rot_entry hE hL ht hr hlen h hg he
  have e1 := same_turn ht hr hlen hrot hx hu
  have e2 := same_turn ht hr hlen hrot hx' hu'
  rw [hq, ho, Option.some.injEq] at e1
  rw [hq', ho', Option.some.injEq] at e2
  subst e1 e2
  have hM : IsRot (turnFrom L q q') := (hL.rot q).transpose.mul (hL.rot q')
  have : (turnFrom L q q').transpose * turnFrom L q q' = 1 := mul_eq_one_comm.1 hM.1
  have hc : cosAngle (1 : M3 K) = 1 := by
    simp [cosAngle]
  rw [this, hc, hE.acos_one, zero_div]

/-- **C215**, scale: if the estimate is the reference enlarged by the factor `c` (and moved), no position error per metre of
travelled distance is larger than `|c - 1|`; on a straight path all are exactly that. -/
theorem C215_scale {E : EvalLib K} (hE : IsEvalLib E) {L : RotLib K R} (hL : IsRotLib L) {test ref : Traj K R} (ht : Coherent test)
    (hr : Coherent ref) (hlen : test.tstamps.length = ref.tstamps.length) (hrot : test.rot = ref.rot) {c : K} (hc : 0 ≤ c) (w : V3 K)
    (hpos : test.pos = ref.pos.map (fun p => c • p + w)) (harc : ref.arc = lengthsFromXyz E.nrm ref.pos) {s : RpeSettings K}
    (hu : s.unit = .meter) {r : RpeResult K} (h : compareRelative E L test ref s = .ok r) :
    ∀ g ∈ r.groups, ∀ e, some e ∈ g.posDev → |e| ≤ |c - 1| ∧
      ∀ n : V3 K, E.nrm n = 1 → (∀ (i j : Nat) p q a b, ref.pos[i]? = some p → ref.pos[j]? = some q → ref.arc[i]? = some a →
        ref.arc[j]? = some b → q - p = (b - a) • n) → |e| = |c - 1| := by
  intro g hg e he
  obtain ⟨D, i, j, x, x', u, u', a, b, hD, hx, hx', hu1, hu2, ha, hb, hne, rfl⟩ := pos_entry hE hL ht hr hlen h hg he
  rw [hu] at hD
  cases hD
  have hp1 := sample_pos ht hx
  have hp2 := sample_pos ht hx'
  have hq1 := sample_pos hr hu1
  have hq2 := sample_pos hr hu2
  rw [hpos, List.getElem?_map, hq1, Option.map_some, Option.some.injEq] at hp1
  rw [hpos, List.getElem?_map, hq2, Option.map_some, Option.some.injEq] at hp2
  have hn := hE.nrm
  have hd : x'.p - x.p = c • (u'.p - u.p) := by
    rw [← hp1, ← hp2]
    ext <;> simp <;> ring
  have hval : posError E.nrm L x x' u u' = |c - 1| * E.nrm (u'.p - u.p) := by
    have h1 := same_turn ht hr hlen hrot hx hu1
    unfold posError
    rcases hq : u.r with _ | q
    · rw [hq] at h1
      rw [h1]
      dsimp only
      rw [hd, hn.smul, abs_of_nonneg hc, show E.nrm (u'.p - u.p) - c * E.nrm (u'.p - u.p) = (1 - c) * E.nrm (u'.p - u.p) by ring,
        abs_mul, abs_of_nonneg (hn.nonneg _), abs_sub_comm]
    · rw [hq] at h1
      rw [h1]
      dsimp only [wayFrom]
      rw [hd, ← mulV_sub, hn.mulV (hL.rot q).transpose, ← hn.smul]
      congr 1
      ext <;> simp <;> ring
  rw [hval, abs_div, abs_mul, abs_abs, abs_of_nonneg (hn.nonneg _)]
  have hpos' : 0 < |b - a| := abs_pos.2 hne
  have hle : E.nrm (u'.p - u.p) ≤ |b - a| := by
    rw [harc] at ha hb
    rcases le_total i j with hij | hij
    · exact (C13_arc_length_at_least_straight_line E.nrm hn ref.pos i j hij _ _ a b hq1 hq2 ha hb).trans (le_abs_self _)
    · have := C13_arc_length_at_least_straight_line E.nrm hn ref.pos j i hij _ _ b a hq2 hq1 hb ha
      rw [← hn.neg, neg_sub, abs_sub_comm]
      exact this.trans (le_abs_self _)
  refine ⟨?_, ?_⟩
  · rw [div_le_iff₀ hpos']
    exact mul_le_mul_of_nonneg_left hle (abs_nonneg _)
  · intro n hn1 hline
    rw [hline i j _ _ a b hq1 hq2 ha hb, hn.smul, hn1, mul_one, mul_div_assoc, div_self hpos'.ne', mul_one]

/-- **C215**, drift: if the estimate drifts away from the reference by `w` per second, with right orientations, all position errors
per second are the length of `w`. -/
theorem C215_drift {E : EvalLib K} (hE : IsEvalLib E) {L : RotLib K R} (hL : IsRotLib L) {test ref : Traj K R} (ht : Coherent test)
    (hr : Coherent ref) (hlen : test.tstamps.length = ref.tstamps.length) (hrot : test.rot = ref.rot) (ho : ref.rot ≠ none) (w : V3 K)
    (hpos : test.pos = List.zipWith (fun p t => p + t • w) ref.pos ref.tstamps) {s : RpeSettings K} (hu : s.unit = .second)
    {r : RpeResult K} (h : compareRelative E L test ref s = .ok r) : ∀ g ∈ r.groups, ∀ e, some e ∈ g.posDev → |e| = E.nrm w := by
  intro g hg e he
  obtain ⟨D, i, j, x, x', u, u', a, b, hD, hx, hx', hu1, hu2, ha, hb, hne, rfl⟩ := pos_entry hE hL ht hr hlen h hg he
  rw [hu] at hD
  cases hD
  have hp1 := sample_pos ht hx
  have hp2 := sample_pos ht hx'
  have hq1 := sample_pos hr hu1
  have hq2 := sample_pos hr hu2
  rw [hpos, List.getElem?_zipWith, hq1, ha] at hp1
  rw [hpos, List.getElem?_zipWith, hq2, hb] at hp2
  have hp1' : u.p + a • w = x.p := by simpa using hp1
  have hp2' : u'.p + b • w = x'.p := by simpa using hp2
  have hn := hE.nrm
  obtain ⟨l, hl⟩ := Option.ne_none_iff_exists'.1 ho
  have hr1 := sample_rot hr hu1
  rw [hl] at hr1
  simp only [rotColumn, List.getElem?_map, Option.map_eq_some_iff] at hr1
  obtain ⟨q, -, hq⟩ := hr1
  have hq' := same_turn ht hr hlen hrot hx hu1
  rw [← hq] at hq'
  have hval : posError E.nrm L x x' u u' = |b - a| * E.nrm w := by
    unfold posError
    rw [hq', ← hq]
    dsimp only [wayFrom]
    rw [← mulV_sub, hn.mulV (hL.rot q).transpose, ← hn.smul, ← hp1', ← hp2']
    congr 1
    ext <;> simp <;> ring
  rw [hval, abs_div, abs_mul, abs_abs, abs_of_nonneg (hn.nonneg _), mul_comm, mul_div_assoc, div_self (abs_pos.2 hne).ne', mul_one]

end

/-! ### The hypotheses are met -/

/-- three times as long, on a straight path; a result exists by the example of C65 -/
example : (exPair ⟨0, 0, 0⟩ ⟨3, 0, 0⟩ : Traj ℝ (RotM ℝ)).pos =
      (exPair ⟨0, 0, 0⟩ ⟨1, 0, 0⟩ : Traj ℝ (RotM ℝ)).pos.map (fun p => (3 : ℝ) • p + 0) ∧
    (exPair ⟨0, 0, 0⟩ ⟨1, 0, 0⟩ : Traj ℝ (RotM ℝ)).arc =
      lengthsFromXyz realEval.nrm (exPair ⟨0, 0, 0⟩ ⟨1, 0, 0⟩ : Traj ℝ (RotM ℝ)).pos := by
  constructor
  · simp only [exPair, List.map_cons, List.map_nil, List.cons.injEq, and_true]
    constructor <;> ext <;> norm_num
  · simp [exPair, lengthsFromXyz, diffs, cumFrom, realEval, realNorm, V3.normSq]

/-- pairs of poses half a second apart -/
noncomputable def exPerSecond : RpeSettings ℝ := { minDist := 1 / 2, maxDist := 1, step := 1 / 4, unit := .second, allPairs := true }

/-- two metres per second of drift to the side -/
example : ∃ r, compareRelative realEval (matLib (fun a _ _ => a)) (exPosed ⟨0, 0, 0⟩ ⟨1, 2, 0⟩ exUpright exUpside)
      (exPosed ⟨0, 0, 0⟩ ⟨1, 0, 0⟩ exUpright exUpside) exPerSecond = .ok r ∧
    (exPosed ⟨0, 0, 0⟩ ⟨1, 2, 0⟩ exUpright exUpside).pos = List.zipWith (fun p t => p + t • (⟨0, 2, 0⟩ : V3 ℝ))
      (exPosed ⟨0, 0, 0⟩ ⟨1, 0, 0⟩ exUpright exUpside).pos (exPosed ⟨0, 0, 0⟩ ⟨1, 0, 0⟩ exUpright exUpside).tstamps := by
  have h := C65_relative_comparison_errors realEval (matLib (fun a _ _ => a))
    (exPosed ⟨0, 0, 0⟩ ⟨1, 2, 0⟩ exUpright exUpside) (exPosed ⟨0, 0, 0⟩ ⟨1, 0, 0⟩ exUpright exUpside) (exPosed_coherent _ _ _ _)
    (exPosed_coherent _ _ _ _) rfl (by simp [exPosed, exPair]) exPerSecond (by norm_num [exPerSecond])
    (by norm_num [exPerSecond]) (by
      intro D hD
      injection hD with hD
      subst hD
      simp [exPosed, exPair])
  have hp : (exPosed ⟨0, 0, 0⟩ ⟨1, 2, 0⟩ exUpright exUpside).pos = List.zipWith (fun p t => p + t • (⟨0, 2, 0⟩ : V3 ℝ))
      (exPosed ⟨0, 0, 0⟩ ⟨1, 0, 0⟩ exUpright exUpside).pos (exPosed ⟨0, 0, 0⟩ ⟨1, 0, 0⟩ exUpright exUpside).tstamps := by
    simp only [exPosed, exPair, List.zipWith_cons_cons, List.zipWith_nil_left, List.cons.injEq, and_true]
    constructor <;> ext <;> norm_num
  rcases h.2 with ⟨r, h2⟩ | h2
  · exact ⟨r, h2, hp⟩
  · rcases h.1.1 h2 with h3 | h3 | h3
    · norm_num [exPerSecond] at h3
    · simp [exPerSecond] at h3
    · have := h3 [0, 1] rfl 0 (by simp) 1 (by simp)
      norm_num [exPerSecond] at this

end TC
