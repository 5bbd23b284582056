import Verif.Props.TimeOffset
import Verif.Props.MatchLine

/-! C225: what matching costs in the absolute error. -/

namespace TC

set_option linter.unusedSectionVars false

open H

variable {K R : Type} [Field K] [LinearOrder K] [IsStrictOrderedRing K] [FloorRing K]

/-- Specification: a motion that covers at most `v` per second. -/
def TopSpeed (nrm : V3 K → K) (v : K) (x : K → V3 K) : Prop := ∀ s t, nrm (x t - x s) ≤ v * |t - s|

/-- Specification: a trajectory whose samples are off the motion by at most `e`. -/
def Records (nrm : V3 K → K) (x : K → V3 K) (e : K) (T : Traj K R) : Prop := ∀ a ∈ samples T, nrm (a.p - x a.t) ≤ e

/-- what a returning call for the nearest samples delivers -/
theorem paired_of_returns {P : Type} {dist : P → P → K} {m : K} {g : Sample K R → P} {T U : Traj K R} {f t : Nat} {h : Heap K R}
    {inplace : Bool} {call : SE (Heap K R) (Nat × Nat)} (hp : MatchPromise dist m g T U f t h inplace call) {f' t' : Nat}
    {h' : Heap K R} (hret : Returns call h (f', t') h') :
    ∃ T' U', h'[f']? = some T' ∧ h'[t']? = some U' ∧ Paired dist m g T U T' U' := by
  by_cases hex : ∃ a ∈ samples T, ∃ b ∈ samples U, Within dist m (g a) (g b)
  · obtain ⟨f1, t1, h1, T', U', hr, e1, e2, hpair, -, -⟩ := hp.1 hex
    unfold Returns at hret hr
    rw [hret] at hr
    simp only [Prod.mk.injEq, Except.ok.injEq] at hr
    obtain ⟨⟨rfl, rfl⟩, rfl⟩ := hr
    exact ⟨T', U', e1, e2, hpair⟩
  · push Not at hex
    obtain ⟨h1, hr, -⟩ := hp.2 (fun a ha b hb => hex a ha b hb)
    unfold Returns at hret
    unfold Raises at hr
    rw [hret] at hr
    cases hr

/-- a position error after matching belongs to a pair of samples -/
theorem paired_error {P : Type} {dist : P → P → K} {m : K} {g : Sample K R → P} {T U T' U' : Traj K R}
    (hp : Paired dist m g T U T' U') {E : EvalLib K} {L : RotLib K R} {a : AteResult K R} (ha : compareAbsolute E L T' U' = .ok a)
    {e : K} (he : e ∈ a.posDevComb E) :
    ∃ x ∈ samples T, ∃ y ∈ samples U, Nearest dist ((samples U).map g) (g x) (g y) ∧ Within dist m (g x) (g y) ∧
      e = E.nrm (y.p - x.p) := by
  have hl : U'.pos.length = T'.pos.length := by
    have := hp.length
    rw [← List.length_map (f := Sample.p), ← List.length_map (as := samples U') (f := Sample.p),
      samples_map_p hp.testCoherent, samples_map_p hp.refCoherent] at this
    exact this.symm
  obtain ⟨i, p, q, h1, h2, rfl⟩ := posDevComb_pair hl ha he
  rw [← samples_map_p hp.refCoherent, List.getElem?_map] at h1
  rw [← samples_map_p hp.testCoherent, List.getElem?_map] at h2
  obtain ⟨y, hy, rfl⟩ := Option.map_eq_some_iff.1 h1
  obtain ⟨x, hx, rfl⟩ := Option.map_eq_some_iff.1 h2
  obtain ⟨n1, n2⟩ := hp.pairs i x y hx hy
  exact ⟨x, hp.test.subset (List.mem_of_getElem? hx), y, hp.ref.subset (List.mem_of_getElem? hy), n1, n2, rfl⟩

/-- two records of the same motion at different times -/
theorem records_apart {nrm : V3 K → K} (hn : IsNorm nrm) {v : K} {x : K → V3 K} (hx : TopSpeed nrm v x) (hv : 0 ≤ v) {e e' : K}
    {T U : Traj K R} (hT : Records nrm x e T) (hU : Records nrm x e' U) {a b : Sample K R} (ha : a ∈ samples T)
    (hb : b ∈ samples U) {w : K} (hw : |a.t - b.t| ≤ w) : nrm (b.p - a.p) ≤ e + e' + v * w := by
  have h1 := hT a ha
  have h2 := hU b hb
  have h3 := hx b.t a.t
  have h4 := mul_le_mul_of_nonneg_left hw hv
  have t1 := hn.triangle (b.p - x b.t) (x b.t - a.p)
  have t2 := hn.triangle (-(x a.t - x b.t)) (-(a.p - x a.t))
  rw [sub_add_sub_cancel] at t1
  rw [hn.neg, hn.neg, neg_sub, neg_sub, sub_add_sub_cancel] at t2
  linarith

/-- **C225**, nearest in time: if two trajectories record the same motion, up to errors, no absolute position error after matching
is larger than these errors and the way that can be driven within the allowed time difference. -/
theorem C225_time_limit (lib : MatchLib K R) (hq : IsNearestQuery (fun a b => |a - b|) lib.queryT) {E : EvalLib K}
    (hE : IsEvalLib E) (L : RotLib K R) (counter : Nat) (s : MatchingSettings K) (hs : s.method = .nearestTemporal)
    (hm : 0 < s.maxTimeDiff) {v e e' : K} {x : K → V3 K} (hx : TopSpeed E.nrm v x) (hv : 0 ≤ v) {T U : Traj K R} (hT : Coherent T)
    (hU : Coherent U) (hne : T.tstamps ≠ []) (hTx : Records E.nrm x e T) (hUx : Records E.nrm x e' U)
    {h h' : Heap K R} {f t f' t' : Nat} (hf : h[f]? = some T) (ht : h[t]? = some U) (inplace : Bool)
    (hft : inplace = true → f ≠ t) (hret : Returns (matchTrajectories lib counter f t s inplace) h (f', t') h') :
    ∃ T' U', h'[f']? = some T' ∧ h'[t']? = some U' ∧
      ∀ a, compareAbsolute E L T' U' = .ok a → ∀ d ∈ a.posDevComb E, d ≤ e + e' + v * s.maxTimeDiff := by
  obtain ⟨T', U', h1, h2, hp⟩ := paired_of_returns
    (C38_temporal_matching lib hq counter s hs hm.le hT hU hne hf ht inplace hft) hret
  refine ⟨T', U', h1, h2, fun a ha d hd => ?_⟩
  obtain ⟨y, hy, z, hz, -, hw, rfl⟩ := paired_error hp ha hd
  rcases hw with hw | hw
  · exact absurd hw hm.ne'
  · exact records_apart hE.nrm hx hv hTx hUx hy hz hw.le

/-- inside the span of a reference that is sampled at least every `g` seconds the nearest sample is at most half of that away -/
theorem nearest_half {ts : List K} {g t u : K} (hg : GapFree g ts) (hg0 : 0 ≤ g) (ht : InSpan ts t)
    (hu : Nearest (fun a b => |a - b|) ts t u) : |t - u| ≤ g / 2 := by
  have hu : ∀ q ∈ ts, |t - u| ≤ |t - q| := hu.2
  rcases covered_of_gapFree hg ht with h | ⟨a, b, hab, h1, h2, h3⟩
  · have := hu t h
    rw [sub_self, abs_zero] at this
    linarith
  · have ha := hu a hab.1
    have hb := hu b hab.2.1
    rw [abs_of_pos (by linarith : 0 < t - a)] at ha
    rw [abs_of_neg (by linarith : t - b < 0)] at hb
    linarith

/-- **C225**, nearest in time without a limit that matters: half the sampling interval of the reference takes the place of the
allowed time difference, for an estimate within the time span of the reference. -/
theorem C225_sampling (lib : MatchLib K R) (hq : IsNearestQuery (fun a b => |a - b|) lib.queryT) {E : EvalLib K}
    (hE : IsEvalLib E) (L : RotLib K R) (counter : Nat) (s : MatchingSettings K) (hs : s.method = .nearestTemporal)
    (hm : 0 ≤ s.maxTimeDiff) {v e e' : K} {x : K → V3 K} (hx : TopSpeed E.nrm v x) (hv : 0 ≤ v) {T U : Traj K R} (hT : Coherent T)
    (hU : Coherent U) (hne : T.tstamps ≠ []) (hTx : Records E.nrm x e T) (hUx : Records E.nrm x e' U) {g : K} (hg0 : 0 ≤ g)
    (hg : GapFree g U.tstamps) (hspan : ∀ t ∈ T.tstamps, InSpan U.tstamps t)
    {h h' : Heap K R} {f t f' t' : Nat} (hf : h[f]? = some T) (ht : h[t]? = some U) (inplace : Bool)
    (hft : inplace = true → f ≠ t) (hret : Returns (matchTrajectories lib counter f t s inplace) h (f', t') h') :
    ∃ T' U', h'[f']? = some T' ∧ h'[t']? = some U' ∧
      ∀ a, compareAbsolute E L T' U' = .ok a → ∀ d ∈ a.posDevComb E, d ≤ e + e' + v * (g / 2) := by
  obtain ⟨T', U', h1, h2, hp⟩ := paired_of_returns
    (C38_temporal_matching lib hq counter s hs hm hT hU hne hf ht inplace hft) hret
  refine ⟨T', U', h1, h2, fun a ha d hd => ?_⟩
  obtain ⟨y, hy, z, hz, hn, -, rfl⟩ := paired_error hp ha hd
  rw [samples_map_t hU] at hn
  refine records_apart hE.nrm hx hv hTx hUx hy hz (nearest_half hg hg0 (hspan _ ?_) hn)
  rw [← samples_map_t hT]
  exact List.mem_map_of_mem hy

/-- a position error after matching by interpolation belongs to a sample of the reference and a point between samples of the
estimate, if the reference has no gaps -/
theorem interpolated_error (lib : MatchLib K R) (counter : Nat) (s : MatchingSettings K) (hs : s.method = .interpolation)
    {T U : Traj K R} (hT : Coherent T) (hU : Coherent U) (hTs : StrictAsc T.tstamps) (hUs : StrictAsc U.tstamps)
    (hg : GapFree 2 U.tstamps) {h h' : Heap K R} {f t f' t' : Nat} (hf : h[f]? = some T) (ht : h[t]? = some U) (inplace : Bool)
    (hft : inplace = true → f ≠ t) (hret : Returns (matchTrajectories lib counter f t s inplace) h (f', t') h') :
    ∃ T' U', h'[f']? = some T' ∧ h'[t']? = some U' ∧ ∀ (E : EvalLib K) (L : RotLib K R) a, compareAbsolute E L T' U' = .ok a →
      ∀ d ∈ a.posDevComb E, ∃ y ∈ samples U, ∃ q, OnPolygon T.tstamps T.pos y.t q ∧ d = E.nrm (y.p - q) := by
  classical
  obtain ⟨W, V, h1, h2, hV, h4, -, h5, h6, h7⟩ := C40_interpolation_matching lib counter s hs hT hU hTs hUs hf ht inplace hft hret
  refine ⟨W, V, h1, h2, fun E L a ha e he => ?_⟩
  obtain ⟨i, p, q, hp, hq, rfl⟩ := posDevComb_pair (by rw [hV.pos, h5, h4]) ha he
  obtain ⟨hi, -⟩ := List.getElem?_eq_some_iff.1 hq
  obtain ⟨τ, hτ⟩ : ∃ τ, W.tstamps[i]? = some τ := ⟨_, List.getElem?_eq_getElem (h5 ▸ hi)⟩
  have hQ : OnPolygon T.tstamps T.pos τ q := by
    have := h7 i τ q hτ hq
    rw [← samples_map_t hT, ← samples_map_p hT]
    refine polygon_of_kept (C := fun t => decide (Covered U.tstamps 2 t)) ?_ ?_ this
    · rw [samples_map_t hT]
      exact hTs
    · intro a b c ha hc hab hbc
      simp only [decide_eq_true_eq] at ha hc ⊢
      obtain ⟨⟨x, hx, hx'⟩, -⟩ := ha.inSpan
      obtain ⟨-, y, hy, hy'⟩ := hc.inSpan
      exact covered_of_gapFree hg ⟨⟨x, hx, by linarith⟩, y, hy, by linarith⟩
  rw [h4, ← samples_map_t hV, List.getElem?_map] at hτ
  rw [← samples_map_p hV, List.getElem?_map] at hp
  obtain ⟨y, hy, rfl⟩ := Option.map_eq_some_iff.1 hτ
  rw [hy] at hp
  cases hp
  have hym := List.mem_of_getElem? hy
  rw [h6] at hym
  exact ⟨y, (List.mem_filter.1 hym).1, q, hQ, rfl⟩

/-- a point between two samples that record a motion is off this motion by their errors and half the way between them -/
theorem records_between {nrm : V3 K → K} (hn : IsNorm nrm) {v : K} {x : K → V3 K} (hx : TopSpeed nrm v x) (hv : 0 ≤ v) {e : K}
    {T : Traj K R} (hT : Coherent T) (hs : StrictAsc T.tstamps) (hr : Records nrm x e T) {g : K} (hg0 : 0 ≤ g)
    (hg : GapFree g T.tstamps) {τ : K} {q : V3 K} (hq : OnPolygon T.tstamps T.pos τ q) : nrm (q - x τ) ≤ e + v * (g / 2) := by
  have key : ∀ {i : Nat} {t : K} {y : V3 K}, T.tstamps[i]? = some t → T.pos[i]? = some y → nrm (y - x t) ≤ e := by
    intro i t y ht hy
    rw [← samples_map_t hT, List.getElem?_map] at ht
    rw [← samples_map_p hT, List.getElem?_map] at hy
    obtain ⟨a, ha, rfl⟩ := Option.map_eq_some_iff.1 ht
    rw [ha] at hy
    cases hy
    exact hr a (List.mem_of_getElem? ha)
  rcases hq with ⟨i, hi, hq⟩ | ⟨i, t0, t1, p0, p1, h0, h1, hp0, hp1, k0, k1, rfl⟩
  · have := key hi hq
    have := mul_nonneg hv (by linarith : (0 : K) ≤ g / 2)
    linarith
  · have hgap : t1 - t0 ≤ g := hg t0 t1 ⟨List.mem_of_getElem? h0, List.mem_of_getElem? h1, k0.trans k1, fun c hc hcc => by
      obtain ⟨j, hj⟩ := List.getElem?_of_mem hc
      have := hs.index_lt h0 hj hcc.1
      have := hs.index_lt hj h1 hcc.2
      omega⟩
    have hG : 0 < t1 - t0 := by linarith
    obtain ⟨c, hc⟩ : ∃ c, c = (τ - t0) / (t1 - t0) := ⟨_, rfl⟩
    have c0 : 0 ≤ c := hc ▸ div_nonneg (by linarith) hG.le
    have c1 : 0 ≤ 1 - c := by
      have : c ≤ 1 := hc ▸ (div_le_one hG).2 (by linarith)
      linarith
    have e0 : τ - t0 = c * (t1 - t0) := by rw [hc]; field_simp
    have s0 : nrm (p0 - x τ) ≤ e + v * (c * (t1 - t0)) := by
      have a1 := key h0 hp0
      have a2 := hx τ t0
      rw [abs_of_neg (by linarith), neg_sub, e0] at a2
      have a3 := hn.triangle (p0 - x t0) (x t0 - x τ)
      rw [sub_add_sub_cancel] at a3
      linarith
    have s1 : nrm (p1 - x τ) ≤ e + v * ((1 - c) * (t1 - t0)) := by
      have a1 := key h1 hp1
      have a2 := hx τ t1
      rw [abs_of_pos (by linarith), show t1 - τ = (1 - c) * (t1 - t0) by linarith] at a2
      have a3 := hn.triangle (p1 - x t1) (x t1 - x τ)
      rw [sub_add_sub_cancel] at a3
      linarith
    have n0 := part_norm hn s0 c1
    have n1 := part_norm hn s1 c0
    have n2 := hn.triangle ((1 - c) • (p0 - x τ)) (c • (p1 - x τ))
    rw [← hc, show p0 + c • (p1 - p0) - x τ = (1 - c) • (p0 - x τ) + c • (p1 - x τ) by ext <;> simp <;> ring]
    have b1 : v * (t1 - t0) ≤ v * g := mul_le_mul_of_nonneg_left hgap hv
    have b2 : 2 * (c * (1 - c)) ≤ 1 / 2 := by nlinarith [sq_nonneg (2 * c - 1)]
    have b3 : 2 * (c * (1 - c)) * (v * (t1 - t0)) ≤ 1 / 2 * (v * (t1 - t0)) :=
      mul_le_mul_of_nonneg_right b2 (mul_nonneg hv hG.le)
    have b4 : (1 - c) * (e + v * (c * (t1 - t0))) + c * (e + v * ((1 - c) * (t1 - t0))) =
        e + 2 * (c * (1 - c)) * (v * (t1 - t0)) := by ring
    linarith

/-- **C225**, matched by interpolation: the errors of the two records, and half the way that can be driven between two samples of
the estimate. -/
theorem C225_interpolation (lib : MatchLib K R) {E : EvalLib K} (hE : IsEvalLib E) (L : RotLib K R) (counter : Nat)
    (s : MatchingSettings K) (hs : s.method = .interpolation) {v e e' : K} {x : K → V3 K} (hx : TopSpeed E.nrm v x) (hv : 0 ≤ v)
    {T U : Traj K R} (hT : Coherent T) (hU : Coherent U) (hTs : StrictAsc T.tstamps) (hUs : StrictAsc U.tstamps)
    (hTx : Records E.nrm x e T) (hUx : Records E.nrm x e' U) {g : K} (hg0 : 0 ≤ g) (hg : GapFree g T.tstamps)
    (hgU : GapFree 2 U.tstamps) {h h' : Heap K R} {f t f' t' : Nat} (hf : h[f]? = some T) (ht : h[t]? = some U) (inplace : Bool)
    (hft : inplace = true → f ≠ t) (hret : Returns (matchTrajectories lib counter f t s inplace) h (f', t') h') :
    ∃ T' U', h'[f']? = some T' ∧ h'[t']? = some U' ∧
      ∀ a, compareAbsolute E L T' U' = .ok a → ∀ d ∈ a.posDevComb E, d ≤ e + e' + v * (g / 2) := by
  obtain ⟨T', U', h1, h2, h3⟩ := interpolated_error lib counter s hs hT hU hTs hUs hgU hf ht inplace hft hret
  refine ⟨T', U', h1, h2, fun a ha d hd => ?_⟩
  obtain ⟨y, hy, q, hq, rfl⟩ := h3 E L a ha d hd
  have a1 := records_between hE.nrm hx hv hT hTs hTx hg0 hg hq
  have a2 := hUx y hy
  have a3 := hE.nrm.triangle (y.p - x y.t) (-(q - x y.t))
  rw [hE.nrm.neg, neg_sub, sub_add_sub_cancel] at a3
  linarith

/-- **C225**, nearest in space: no absolute position error is larger than the allowed distance, however wrong the estimate is, and
none is larger than the distance to any other sample of the reference. -/
theorem C225_distance_limit (lib : MatchLib K R) (hq : IsNearestQuery (fun a b => lib.nrm (a - b)) lib.queryP) {E : EvalLib K}
    (hE : IsEvalLib E) (hEl : lib.nrm = E.nrm) (L : RotLib K R) (counter : Nat) (s : MatchingSettings K)
    (hs : s.method = .nearestSpatial) (hm : 0 < s.maxDistance) {T U : Traj K R} (hT : Coherent T) (hU : Coherent U)
    (hne : T.tstamps ≠ []) {h h' : Heap K R} {f t f' t' : Nat} (hf : h[f]? = some T) (ht : h[t]? = some U) (inplace : Bool)
    (hft : inplace = true → f ≠ t) (hret : Returns (matchTrajectories lib counter f t s inplace) h (f', t') h') :
    ∃ T' U', h'[f']? = some T' ∧ h'[t']? = some U' ∧
      ∀ a, compareAbsolute E L T' U' = .ok a → ∀ d ∈ a.posDevComb E, d < s.maxDistance ∧
        ∃ p ∈ T.pos, ∀ q ∈ U.pos, d ≤ E.nrm (q - p) := by
  obtain ⟨T', U', h1, h2, hp⟩ := paired_of_returns
    (C39_spatial_matching lib hq counter s hs hm.le hT hU hne hf ht inplace hft) hret
  refine ⟨T', U', h1, h2, fun a ha d hd => ?_⟩
  obtain ⟨y, hy, z, hz, hn, hw, rfl⟩ := paired_error hp ha hd
  have sw : ∀ a b : V3 K, E.nrm (b - a) = E.nrm (a - b) := fun a b => by rw [← hE.nrm.neg, neg_sub]
  rw [hEl] at hn hw
  refine ⟨?_, y.p, ?_, fun q hq => ?_⟩
  · rcases hw with hw | hw
    · exact absurd hw hm.ne'
    · rw [sw]
      exact hw
  · rw [← samples_map_p hT]
    exact List.mem_map_of_mem hy
  · rw [sw y.p z.p, sw y.p q]
    rw [samples_map_p hU] at hn
    exact hn.2 q hq

/-- a sum of short vectors -/
theorem sum_short {nrm : V3 K → K} (hn : IsNorm nrm) (p : V3 K) {m : K} (l : List (V3 K)) (h : ∀ a ∈ l, nrm (p - a) ≤ m) :
    nrm ((l.length : K) • p - l.sum) ≤ (l.length : K) * m := by
  induction l with
  | nil => simp [hn.zero]
  | cons a l ih =>
    have h1 := ih (fun b hb => h b (List.mem_cons_of_mem _ hb))
    have h2 := h a List.mem_cons_self
    have h3 := hn.triangle (p - a) ((l.length : K) • p - l.sum)
    rw [show (((a :: l).length : Nat) : K) • p - (a :: l).sum = p - a + ((l.length : K) • p - l.sum) by
      rw [List.length_cons, Nat.cast_succ, add_smul, one_smul, List.sum_cons]; abel]
    rw [List.length_cons, Nat.cast_succ, add_mul, one_mul]
    linarith

/-- the mean of points within a distance is within it -/
theorem mean_near {nrm : V3 K → K} (hn : IsNorm nrm) (p : V3 K) {m : K} {l : List (V3 K)} (hl : l ≠ [])
    (h : ∀ a ∈ l, nrm (p - a) ≤ m) : nrm (p - meanPoint l) ≤ m := by
  have hpos : (0 : K) < l.length := by
    have := List.length_pos_of_ne_nil hl
    exact_mod_cast this
  have h1 := sum_short hn p l h
  rw [show (l.length : K) • p - l.sum = (l.length : K) • (p - meanPoint l) by
    rw [meanPoint, smul_sub, smul_smul, mul_inv_cancel₀ hpos.ne', one_smul], hn.smul, abs_of_pos hpos] at h1
  exact le_of_mul_le_mul_left h1 hpos

/-- **C225**, nearest in space with a line through neighbouring positions: no absolute position error is larger than the allowed
distance. -/
theorem C225_line_limit (lib : MatchLib K R) (hq : IsKNearestQuery (fun a b => lib.nrm (a - b)) lib.queryPK)
    (hdir : ∀ nb, (lib.lineDir nb).normSq = 1) {E : EvalLib K} (hE : IsEvalLib E) (hEl : lib.nrm = E.nrm) (L : RotLib K R)
    (counter : Nat) (s : MatchingSettings K) (hs : s.method = .nearestSpatialInterpolated) (hm : 0 < s.maxDistance)
    (hk : 2 ≤ s.kNearest) {T U : Traj K R} {h h' : Heap K R} {f t f' t' : Nat} (hf : h[f]? = some T) (ht : h[t]? = some U)
    (inplace : Bool) (hft : inplace = true → f ≠ t)
    (hret : Returns (matchTrajectories lib counter f t s inplace) h (f', t') h') :
    ∃ T' U', h'[f']? = some T' ∧ h'[t']? = some U' ∧
      ∀ a, compareAbsolute E L T' U' = .ok a → ∀ d ∈ a.posDevComb E, d ≤ s.maxDistance := by
  classical
  obtain ⟨c1, c2⟩ := C42_line_interpolated_matching lib hq hdir counter s hs hm.le hk hf ht inplace hft
  rcases eq_or_ne (T.pos.filter (fun p => decide (s.kNearest ≤ U.pos.countP
      (fun q => decide (Within (fun a b => lib.nrm (a - b)) s.maxDistance p q))))) [] with hu | hu
  · obtain ⟨e, h1, hr, -⟩ := c2 hu
    unfold Returns at hret
    unfold Raises at hr
    rw [hret] at hr
    cases hr
  obtain ⟨f1, t1, h1, A, B, hr, e1, e2, -, -, -, hA, hB, -, -, e3, e4, e5⟩ := c1 hu
  unfold Returns at hret hr
  rw [hret] at hr
  simp only [Prod.mk.injEq, Except.ok.injEq] at hr
  obtain ⟨⟨rfl, rfl⟩, rfl⟩ := hr
  refine ⟨A, B, e1, e2, fun a ha d hd => ?_⟩
  obtain ⟨i, q, p, h2, h3, rfl⟩ := posDevComb_pair (by rw [e4, e3]) ha hd
  obtain ⟨idx, i1, -, i3, -, i5⟩ := e5 i p q h3 h2
  have hin : InRange U.pos.length idx := fun r hr => by
    obtain ⟨a, ha, -⟩ := i3 r hr
    exact (List.getElem?_eq_some_iff.1 ha).1
  have hne : sel U.pos idx ≠ [] := by
    intro h0
    have := sel_length hin
    rw [h0, i1] at this
    simp at this
    omega
  have hnear : ∀ a ∈ sel U.pos idx, E.nrm (p - a) ≤ s.maxDistance := by
    intro a ha
    obtain ⟨r, hr, hra⟩ := List.mem_filterMap.1 ha
    obtain ⟨b, hb, hw, -⟩ := i3 r hr
    rw [hra] at hb
    cases hb
    rcases hw with hw | hw
    · exact absurd hw hm.ne'
    · rw [← hEl]
      exact hw.le
  have hmean := mean_near hE.nrm p hne hnear
  have h0 := i5 0
  rw [zero_smul, add_zero, ← hE.nrm.sq, ← hE.nrm.sq] at h0
  have := (mul_self_le_mul_self_iff (hE.nrm.nonneg _) (hE.nrm.nonneg _)).2 h0
  rw [← hE.nrm.neg, neg_sub]
  exact this.trans hmean

/-! ### The hypotheses are met -/

/-- a uniform motion and a trajectory that records it -/
theorem topSpeed_uniform {nrm : V3 K → K} (hn : IsNorm nrm) (p w : V3 K) : TopSpeed nrm (nrm w) (fun t => p + t • w) := by
  intro s t
  rw [add_sub_add_left_eq_sub, ← sub_smul, hn.smul, mul_comm]

theorem records_uniform {nrm : V3 K → K} (hn : IsNorm nrm) {p w : V3 K} {T : Traj K R} (h : Uniform p w T) :
    Records nrm (fun t => p + t • w) 0 T := by
  intro a ha
  rw [h a ha, sub_self, hn.zero]

/-- the reference, sampled every second -/
def exEverySecond : Traj ℚ Nat :=
  { tstamps := [0, 1, 2, 3], pos := [⟨0, 0, 0⟩, ⟨2, 0, 0⟩, ⟨4, 0, 0⟩, ⟨6, 0, 0⟩], rot := none, arc := [0, 2, 4, 6]
    speed := [⟨2, 0, 0⟩, ⟨2, 0, 0⟩, ⟨2, 0, 0⟩, ⟨0, 0, 0⟩], sorting := .time, name := "ref", epsg := 0 }

/-- the estimate of the same motion at other times -/
def exInBetween : Traj ℚ Nat :=
  { tstamps := [1 / 4, 3 / 2, 17 / 6], pos := [⟨1 / 2, 0, 0⟩, ⟨3, 0, 0⟩, ⟨17 / 3, 0, 0⟩], rot := none, arc := [0, 5 / 2, 31 / 6]
    speed := [⟨2, 0, 0⟩, ⟨2, 0, 0⟩, ⟨0, 0, 0⟩], sorting := .time, name := "est", epsg := 0 }

example : (matchTrajectories exMatchLib 0 0 1 ⟨.nearestTemporal, 3 / 4, 2, 1⟩ true [exInBetween, exEverySecond]).1 = .ok (0, 1) ∧
    (matchTrajectories exMatchLib 0 0 1 ⟨.nearestTemporal, 3 / 4, 2, 1⟩ true [exInBetween, exEverySecond]).2.map (fun T => T.tstamps) =
      [[1 / 4, 3 / 2, 17 / 6], [0, 1, 3]] ∧
    (∀ a ∈ samples exEverySecond, a.p = (⟨0, 0, 0⟩ : V3 ℚ) + a.t • ⟨2, 0, 0⟩) ∧
    (∀ a ∈ samples exInBetween, a.p = (⟨0, 0, 0⟩ : V3 ℚ) + a.t • ⟨2, 0, 0⟩) := by decide +kernel
example : (matchTrajectories exMatchLib 0 0 1 ⟨.nearestSpatial, 1, 3 / 2, 1⟩ true [exInBetween, exEverySecond]).1 = .ok (0, 1) := by
  decide +kernel
example : (matchTrajectories exMatchLib 0 0 1 ⟨.interpolation, 1, 3 / 2, 1⟩ true [exInBetween, exEverySecond]).1 = .ok (0, 1) ∧
    (matchTrajectories exMatchLib 0 0 1 ⟨.interpolation, 1, 3 / 2, 1⟩ true [exInBetween, exEverySecond]).2.map (fun T => T.tstamps) =
      [[1, 2], [1, 2]] := by decide +kernel
example : let r := matchTrajectories exMatchLib 0 0 1 ⟨.nearestSpatialInterpolated, 1, 4, 2⟩ true [exInBetween, exEverySecond]
    r.1 = .ok (2, 3) ∧ r.2.map (fun T => T.tstamps.length) = [3, 4, 3, 3] := by decide +kernel
example : GapFree 1 exEverySecond.tstamps ∧ ∀ t ∈ exInBetween.tstamps, InSpan exEverySecond.tstamps t := by
  constructor
  · rintro a b ⟨ha, hb, hab, hc⟩
    simp only [exEverySecond, List.mem_cons, List.not_mem_nil, or_false] at ha hb
    have h1 := hc 1 (by simp [exEverySecond])
    have h2 := hc 2 (by simp [exEverySecond])
    rcases ha with rfl | rfl | rfl | rfl <;> rcases hb with rfl | rfl | rfl | rfl <;> norm_num at *
  · intro t ht
    refine ⟨⟨0, by simp [exEverySecond], ?_⟩, 3, by simp [exEverySecond], ?_⟩ <;>
      simp only [exInBetween, List.mem_cons, List.not_mem_nil, or_false] at ht <;> rcases ht with rfl | rfl | rfl <;> norm_num

end TC
