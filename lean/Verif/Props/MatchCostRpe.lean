import Verif.Props.MatchCostTurn
import Verif.Props.Metrics
import Verif.Props.ExactAte
import Verif.Props.RpeCall

/-! C226: what matching costs in the relative error. -/

namespace TC

set_option linter.unusedSectionVars false

open H

variable {K R : Type} [Field K] [LinearOrder K] [IsStrictOrderedRing K] [FloorRing K]

/-- what `rpe` compares, if it returns -/
theorem rpe_compares {P : Type} {dist : P → P → K} {m : K} {g : Sample K R → P} {T U : Traj K R} (lib : MetricLib K R) (c : Nat)
    (s : ProcSettings K) {h h' : Heap K R} {gt est : Nat}
    (hp : MatchPromise dist m g T U est gt h true (matchTrajectories lib.mat c est gt s.matching true)) {r : RpeResult K}
    (hret : Returns (H.rpe lib c s gt est) h r h') :
    ∃ T' U', Paired dist m g T U T' U' ∧ compareRelative lib.eval lib.mat.rot T' U' s.relative = .ok r := by
  unfold H.rpe at hret
  obtain ⟨x, h1, hx, hret⟩ := returns_bind hret
  by_cases hex : ∃ a ∈ samples T, ∃ b ∈ samples U, Within dist m (g a) (g b)
  · obtain ⟨f1, t1, h2, T', U', hr, e1, e2, hpair, hin, -⟩ := hp.1 hex
    unfold Returns at hr
    rw [hr] at hx
    obtain ⟨rfl, rfl⟩ := hin rfl
    simp only [Prod.mk.injEq, Except.ok.injEq] at hx
    obtain ⟨-, rfl⟩ := hx
    rw [SE.run_bind_ok (rd_run e1), SE.run_bind_ok (rd_run e2)] at hret
    refine ⟨T', U', hpair, ?_⟩
    have := (Prod.mk.inj hret).1
    simpa [SE.lift] using this
  · push Not at hex
    obtain ⟨h2, hr, -⟩ := hp.2 (fun a ha b hb => hex a ha b hb)
    unfold Raises at hr
    rw [hr] at hx
    cases hx

/-- relative errors, from a bound for the absolute ones -/
theorem relative_of_absolute {T' U' : Traj K R} (hT : Coherent T') (hU : Coherent U') (hlen : T'.tstamps.length = U'.tstamps.length)
    (hne : U'.tstamps ≠ []) {E : EvalLib K} (hE : IsEvalLib E) {L : RotLib K R} (hL : IsRotLib L)
    (hrot : T'.rot = none ∨ U'.rot = none) {B : K} (hB : ∀ a, compareAbsolute E L T' U' = .ok a → ∀ d ∈ a.posDevComb E, d ≤ B)
    {s : RpeSettings K} {r : RpeResult K} (h : compareRelative E L T' U' s = .ok r) :
    ∀ gr ∈ r.groups, ∀ (k : Nat) e d, gr.posDev[k]? = some (some e) → gr.pairDist[k]? = some d → |e| * |d| ≤ 2 * B := by
  obtain ⟨a, ha, hlena⟩ : ∃ a, compareAbsolute E L T' U' = .ok a ∧ a.posDev.length = U'.tstamps.length := by
    obtain ⟨dir, -, -, ha⟩ := compareAbsolute_eq E L hT hU hlen.symm
    exact ⟨_, ha, by simp only [List.length_zipWith, hU.pos, hT.pos, hlen, min_self]⟩
  obtain ⟨M, hM, hMm⟩ : ∃ M, AteResult.posDevMax E a = .ok M ∧ M ≤ B := by
    have hne : AteResult.posDevComb E a ≠ [] := by
      intro h0
      have h1 := congrArg List.length h0
      simp only [AteResult.posDevComb, List.length_map, List.length_nil, hlena] at h1
      exact hne (List.eq_nil_of_length_eq_zero h1)
    obtain ⟨M, h1, h2, -⟩ := pyMax_spec hne
    exact ⟨M, h1, hB a ha M h2⟩
  intro gr hgr k e d he hd
  have := C221_bounded_by_absolute hE hL hT hU hlen (hrot.imp_right .inl) ha hM h gr hgr k e d he hd
  linarith

/-- relative errors after matching, from a bound for the pairs -/
theorem relative_of_pairs {P : Type} {dist : P → P → K} {m : K} {g : Sample K R → P} {T U T' U' : Traj K R}
    (hp : Paired dist m g T U T' U') {E : EvalLib K} (hE : IsEvalLib E) {L : RotLib K R} (hL : IsRotLib L)
    (hrot : T.rot = none ∨ U.rot = none) {B : K}
    (hB : ∀ x ∈ samples T, ∀ y ∈ samples U, Nearest dist ((samples U).map g) (g x) (g y) → Within dist m (g x) (g y) →
      E.nrm (y.p - x.p) ≤ B) {s : RpeSettings K} {r : RpeResult K} (h : compareRelative E L T' U' s = .ok r) :
    ∀ gr ∈ r.groups, ∀ (k : Nat) e d, gr.posDev[k]? = some (some e) → gr.pairDist[k]? = some d → |e| * |d| ≤ 2 * B := by
  have hlen : T'.tstamps.length = U'.tstamps.length := by
    have := hp.length
    rwa [← List.length_map (f := Sample.t), ← List.length_map (as := samples U') (f := Sample.t),
      samples_map_t hp.testCoherent, samples_map_t hp.refCoherent] at this
  refine relative_of_absolute hp.testCoherent hp.refCoherent hlen (fun h0 => hp.nonempty (List.eq_nil_of_length_eq_zero ?_)) hE hL ?_
    (fun a ha d hd => ?_) h
  · rw [← List.length_map (f := Sample.t), samples_map_t hp.testCoherent, hlen, h0]
    rfl
  · rcases hrot with h0 | h0
    · have := hp.testMeta.rot
      rw [h0] at this
      exact Or.inl (by simpa using this)
    · have := hp.refMeta.rot
      rw [h0] at this
      exact Or.inr (by simpa using this)
  · obtain ⟨x, hx, y, hy, n1, n2, rfl⟩ := paired_error hp ha hd
    exact hB x hx y hy n1 n2

/-- **C226**, nearest in time: if two trajectories record the same motion, up to errors, and one of them has no orientations, a
relative position error times the distance of its pair is at most twice the errors and the way that can be driven within the allowed
time difference. -/
theorem C226_time_limit (lib : MetricLib K R) (hq : IsNearestQuery (fun a b => |a - b|) lib.mat.queryT) (hE : IsEvalLib lib.eval)
    (hL : IsRotLib lib.mat.rot) (c : Nat) (s : ProcSettings K) (hs : s.matching.method = .nearestTemporal)
    (hm : 0 < s.matching.maxTimeDiff) {v e e' : K} {x : K → V3 K} (hx : TopSpeed lib.eval.nrm v x) (hv : 0 ≤ v) {T U : Traj K R}
    (hT : Coherent T) (hU : Coherent U) (hne : T.tstamps ≠ []) (hrot : T.rot = none ∨ U.rot = none)
    (hTx : Records lib.eval.nrm x e T) (hUx : Records lib.eval.nrm x e' U) {h h' : Heap K R} {gt est : Nat}
    (hest : h[est]? = some T) (hgt : h[gt]? = some U) (hge : est ≠ gt) {r : RpeResult K}
    (hret : Returns (H.rpe lib c s gt est) h r h') :
    ∀ g ∈ r.groups, ∀ (k : Nat) y d, g.posDev[k]? = some (some y) → g.pairDist[k]? = some d →
      |y| * |d| ≤ 2 * (e + e' + v * s.matching.maxTimeDiff) := by
  obtain ⟨T', U', hp, h1⟩ := rpe_compares lib c s
    (C38_temporal_matching lib.mat hq c s.matching hs hm.le hT hU hne hest hgt true (fun _ => hge)) hret
  refine relative_of_pairs hp hE hL hrot (fun y hy z hz _ hw => ?_) h1
  rcases hw with hw | hw
  · exact absurd hw hm.ne'
  · exact records_apart hE.nrm hx hv hTx hUx hy hz hw.le

/-- **C226**, nearest in time, for an estimate inside the span of the reference: half the sampling interval of the reference. -/
theorem C226_sampling (lib : MetricLib K R) (hq : IsNearestQuery (fun a b => |a - b|) lib.mat.queryT) (hE : IsEvalLib lib.eval)
    (hL : IsRotLib lib.mat.rot) (c : Nat) (s : ProcSettings K) (hs : s.matching.method = .nearestTemporal)
    (hm : 0 ≤ s.matching.maxTimeDiff) {v e e' : K} {x : K → V3 K} (hx : TopSpeed lib.eval.nrm v x) (hv : 0 ≤ v) {T U : Traj K R}
    (hT : Coherent T) (hU : Coherent U) (hne : T.tstamps ≠ []) (hrot : T.rot = none ∨ U.rot = none)
    (hTx : Records lib.eval.nrm x e T) (hUx : Records lib.eval.nrm x e' U) {w : K} (hw0 : 0 ≤ w) (hw : GapFree w U.tstamps)
    (hspan : ∀ t ∈ T.tstamps, InSpan U.tstamps t) {h h' : Heap K R} {gt est : Nat}
    (hest : h[est]? = some T) (hgt : h[gt]? = some U) (hge : est ≠ gt) {r : RpeResult K}
    (hret : Returns (H.rpe lib c s gt est) h r h') :
    ∀ g ∈ r.groups, ∀ (k : Nat) y d, g.posDev[k]? = some (some y) → g.pairDist[k]? = some d →
      |y| * |d| ≤ 2 * (e + e' + v * (w / 2)) := by
  obtain ⟨T', U', hp, h1⟩ := rpe_compares lib c s
    (C38_temporal_matching lib.mat hq c s.matching hs hm hT hU hne hest hgt true (fun _ => hge)) hret
  refine relative_of_pairs hp hE hL hrot (fun y hy z hz hn _ => ?_) h1
  rw [samples_map_t hU] at hn
  refine records_apart hE.nrm hx hv hTx hUx hy hz (nearest_half hw hw0 (hspan _ ?_) hn)
  rw [← samples_map_t hT]
  exact List.mem_map_of_mem hy

/-- **C226**, nearest in space: at most twice the allowed distance, however wrong the estimate is. -/
theorem C226_distance_limit (lib : MetricLib K R) (hq : IsNearestQuery (fun a b => lib.mat.nrm (a - b)) lib.mat.queryP)
    (hE : IsEvalLib lib.eval) (hEl : lib.mat.nrm = lib.eval.nrm) (hL : IsRotLib lib.mat.rot) (c : Nat) (s : ProcSettings K)
    (hs : s.matching.method = .nearestSpatial) (hm : 0 < s.matching.maxDistance) {T U : Traj K R} (hT : Coherent T)
    (hU : Coherent U) (hne : T.tstamps ≠ []) (hrot : T.rot = none ∨ U.rot = none) {h h' : Heap K R} {gt est : Nat}
    (hest : h[est]? = some T) (hgt : h[gt]? = some U) (hge : est ≠ gt) {r : RpeResult K}
    (hret : Returns (H.rpe lib c s gt est) h r h') :
    ∀ g ∈ r.groups, ∀ (k : Nat) y d, g.posDev[k]? = some (some y) → g.pairDist[k]? = some d →
      |y| * |d| ≤ 2 * s.matching.maxDistance := by
  obtain ⟨T', U', hp, h1⟩ := rpe_compares lib c s
    (C39_spatial_matching lib.mat hq c s.matching hs hm.le hT hU hne hest hgt true (fun _ => hge)) hret
  refine relative_of_pairs hp hE hL hrot (fun y hy z hz _ hw => ?_) h1
  rcases hw with hw | hw
  · exact absurd hw hm.ne'
  · rw [hEl] at hw
    rw [← hE.nrm.neg, neg_sub]
    exact hw.le

/-- **C226**, matched by interpolation: the errors of the two records, and half the way that can be driven between two samples of
the estimate. -/
theorem C226_interpolation (lib : MetricLib K R) (hE : IsEvalLib lib.eval) (hL : IsRotLib lib.mat.rot) (c : Nat)
    (s : ProcSettings K) (hs : s.matching.method = .interpolation) {v e e' : K} {x : K → V3 K} (hx : TopSpeed lib.eval.nrm v x)
    (hv : 0 ≤ v) {T U : Traj K R} (hT : Coherent T) (hU : Coherent U) (hTs : StrictAsc T.tstamps) (hUs : StrictAsc U.tstamps)
    (hrot : T.rot = none ∨ U.rot = none) (hTx : Records lib.eval.nrm x e T) (hUx : Records lib.eval.nrm x e' U) {w : K} (hw0 : 0 ≤ w)
    (hw : GapFree w T.tstamps) (hgU : GapFree 2 U.tstamps) {h h' : Heap K R} {gt est : Nat}
    (hest : h[est]? = some T) (hgt : h[gt]? = some U) (hge : est ≠ gt) {r : RpeResult K}
    (hret : Returns (H.rpe lib c s gt est) h r h') :
    ∀ g ∈ r.groups, ∀ (k : Nat) y d, g.posDev[k]? = some (some y) → g.pairDist[k]? = some d →
      |y| * |d| ≤ 2 * (e + e' + v * (w / 2)) := by
  have hle := (List.getElem?_eq_some_iff.1 hest).1
  have hlt := (List.getElem?_eq_some_iff.1 hgt).1
  obtain ⟨T', U', h1, rfl, hp, hc⟩ := rpe_call lib c s (by rw [hs]; decide) hT hU (fun _ => ⟨hTs, hUs⟩) hest hgt hge hret
  obtain ⟨T₁, U₁, q1, q2, hB⟩ := C225_interpolation lib.mat hE lib.mat.rot c s.matching hs hx hv hT hU hTs hUs hTx hUx hw0 hw hgU
    hest hgt true (fun _ => hge) h1
  rw [List.getElem?_set_ne (Ne.symm hge), List.getElem?_set_self hle, Option.some.injEq] at q1
  rw [List.getElem?_set_self (by rwa [List.length_set]), Option.some.injEq] at q2
  subst q1 q2
  have hne : U'.tstamps ≠ [] := by
    intro h0
    refine (compareRelative_ok hc).2.2.2.2.2 (List.sum_eq_zero_iff.2 fun n hn => ?_)
    obtain ⟨g, hg, rfl⟩ := List.mem_map.1 hn
    obtain ⟨d, -, hgd⟩ := mapE_mem (compareRelative_ok hc).2.2.1 hg
    obtain ⟨D, ps, devs, e1, e2, e3, -, -, -, e7⟩ := rpeGroup_ok hgd
    have hD : D = [] := List.length_eq_zero_iff.1 (by rw [pairScale_length hp.ref e1, h0]; rfl)
    subst hD
    cases hall : s.relative.allPairs with
    | true =>
      rw [hall] at e2
      cases e2
      cases e3
      rw [e7]
      rfl
    | false =>
      rw [hall] at e2
      cases e2
  have hTc : Coherent T' := hp.test (by
    intro h0
    have := hp.length
    rw [h0, hp.ref.pos] at this
    exact hne (List.length_eq_zero_iff.1 this.symm))
  refine relative_of_absolute hTc hp.ref (by rw [← hTc.pos, ← hp.ref.pos, hp.length]) hne hE hL ?_ hB hc
  rcases hrot with h0 | h0
  · have := hp.testMeta.rot
    rw [h0] at this
    exact Or.inl (by simpa using this)
  · have := hp.refMeta.rot
    rw [h0] at this
    exact Or.inr (by simpa using this)

/-- relative rotation errors after matching, from a bound for the pairs -/
theorem relative_of_turns {P : Type} {dist : P → P → ℝ} {m : ℝ} {g : Sample ℝ R → P} {T U T' U' : Traj ℝ R}
    (hp : Paired dist m g T U T' U') {L : RotLib ℝ R} (hL : IsRotLib L) (hT : T.rot ≠ none) (hU : U.rot ≠ none) {B : ℝ}
    (hB : ∀ x ∈ samples T, ∀ y ∈ samples U, ∀ q o, Nearest dist ((samples U).map g) (g x) (g y) → Within dist m (g x) (g y) →
      x.r = some q → y.r = some o → matAngle (L.toMat o * (L.toMat q).transpose) ≤ B)
    {s : RpeSettings ℝ} {r : RpeResult ℝ} (h : compareRelative realEval L T' U' s = .ok r) :
    ∀ gr ∈ r.groups, ∀ (k : Nat) e d, gr.rotDev[k]? = some (some e) → gr.pairDist[k]? = some d → |e| * |d| ≤ 2 * B := by
  have hlen : T'.tstamps.length = U'.tstamps.length := by
    have := hp.length
    rwa [← List.length_map (f := Sample.t), ← List.length_map (as := samples U') (f := Sample.t),
      samples_map_t hp.testCoherent, samples_map_t hp.refCoherent] at this
  obtain ⟨lt, h1⟩ : ∃ lt, T'.rot = some lt := by
    have := hp.testMeta.rot
    rw [Option.isSome_iff_ne_none.2 hT] at this
    exact Option.isSome_iff_exists.1 this
  obtain ⟨lr, h2⟩ : ∃ lr, U'.rot = some lr := by
    have := hp.refMeta.rot
    rw [Option.isSome_iff_ne_none.2 hU] at this
    exact Option.isSome_iff_exists.1 this
  obtain ⟨dir, -, -, ha⟩ := compareAbsolute_eq realEval L hp.testCoherent hp.refCoherent hlen.symm
  obtain ⟨a, ha, hlena⟩ : ∃ a, compareAbsolute realEval L T' U' = .ok a ∧ a.rotDevComb realEval L ≠ [] := by
    refine ⟨_, ha, fun h0 => ?_⟩
    have h3 := congrArg List.length h0
    simp only [AteResult.rotDevComb, h1, h2, List.length_map, List.length_zipWith, List.length_nil,
      hp.refCoherent.rot lr h2, hp.testCoherent.rot lt h1, hlen, min_self] at h3
    refine hp.nonempty (List.eq_nil_of_length_eq_zero ?_)
    rw [← List.length_map (f := Sample.t), samples_map_t hp.testCoherent, hlen]
    exact h3
  obtain ⟨M, h3, h4, -⟩ := pyMax_spec hlena
  obtain ⟨x, hx, y, hy, q, o, n1, n2, hq, ho, hM⟩ := paired_turn hp hL hT hU ha h4
  have hMB : M ≤ B := hM ▸ hB x hx y hy q o n1 n2 hq ho
  intro gr hgr k e d he hd
  have := C221_rotations hL hp.testCoherent hp.refCoherent hlen ha (M := M) h3 h gr hgr k e d he hd
  linarith

/-- **C226**, orientations: nearest in time, a relative rotation error times the distance of its pair is at most twice the errors of
the two records and the angle that can be turned within the allowed time difference. -/
theorem C226_turn_limit (lib : MetricLib ℝ R) (hq : IsNearestQuery (fun a b => |a - b|) lib.mat.queryT) (hE : lib.eval = realEval)
    (hL : IsRotLib lib.mat.rot) (c : Nat) (s : ProcSettings ℝ) (hs : s.matching.method = .nearestTemporal)
    (hm : 0 < s.matching.maxTimeDiff) {w e e' : ℝ} {A : ℝ → M3 ℝ} (hA : TopTurn w A) (hw : 0 ≤ w) {T U : Traj ℝ R}
    (hT : Coherent T) (hU : Coherent U) (hne : T.tstamps ≠ []) (hTr : T.rot ≠ none) (hUr : U.rot ≠ none)
    (hTx : RecordsTurn lib.mat.rot A e T) (hUx : RecordsTurn lib.mat.rot A e' U) {h h' : Heap ℝ R} {gt est : Nat}
    (hest : h[est]? = some T) (hgt : h[gt]? = some U) (hge : est ≠ gt) {r : RpeResult ℝ}
    (hret : Returns (H.rpe lib c s gt est) h r h') :
    ∀ g ∈ r.groups, ∀ (k : Nat) y d, g.rotDev[k]? = some (some y) → g.pairDist[k]? = some d →
      |y| * |d| ≤ 2 * (e + e' + w * s.matching.maxTimeDiff) := by
  obtain ⟨T', U', hp, h1⟩ := rpe_compares lib c s
    (C38_temporal_matching lib.mat hq c s.matching hs hm.le hT hU hne hest hgt true (fun _ => hge)) hret
  rw [hE] at h1
  refine relative_of_turns hp hL hTr hUr (fun y hy z hz q o _ hwi hyq hzo => ?_) h1
  rcases hwi with hwi | hwi
  · exact absurd hwi hm.ne'
  · exact turns_apart hL hA hw hTx hUx hy hz hyq hzo hwi.le

/-- **C226**, orientations: half the sampling interval of the reference in place of the allowed time difference. -/
theorem C226_turn_sampling (lib : MetricLib ℝ R) (hq : IsNearestQuery (fun a b => |a - b|) lib.mat.queryT) (hE : lib.eval = realEval)
    (hL : IsRotLib lib.mat.rot) (c : Nat) (s : ProcSettings ℝ) (hs : s.matching.method = .nearestTemporal)
    (hm : 0 ≤ s.matching.maxTimeDiff) {w e e' : ℝ} {A : ℝ → M3 ℝ} (hA : TopTurn w A) (hw : 0 ≤ w) {T U : Traj ℝ R}
    (hT : Coherent T) (hU : Coherent U) (hne : T.tstamps ≠ []) (hTr : T.rot ≠ none) (hUr : U.rot ≠ none)
    (hTx : RecordsTurn lib.mat.rot A e T) (hUx : RecordsTurn lib.mat.rot A e' U) {v : ℝ} (hv0 : 0 ≤ v) (hv : GapFree v U.tstamps)
    (hspan : ∀ t ∈ T.tstamps, InSpan U.tstamps t) {h h' : Heap ℝ R} {gt est : Nat}
    (hest : h[est]? = some T) (hgt : h[gt]? = some U) (hge : est ≠ gt) {r : RpeResult ℝ}
    (hret : Returns (H.rpe lib c s gt est) h r h') :
    ∀ g ∈ r.groups, ∀ (k : Nat) y d, g.rotDev[k]? = some (some y) → g.pairDist[k]? = some d →
      |y| * |d| ≤ 2 * (e + e' + w * (v / 2)) := by
  obtain ⟨T', U', hp, h1⟩ := rpe_compares lib c s
    (C38_temporal_matching lib.mat hq c s.matching hs hm hT hU hne hest hgt true (fun _ => hge)) hret
  rw [hE] at h1
  refine relative_of_turns hp hL hTr hUr (fun y hy z hz q o hn _ hyq hzo => ?_) h1
  rw [samples_map_t hU] at hn
  refine turns_apart hL hA hw hTx hUx hy hz hyq hzo (nearest_half hv hv0 (hspan _ ?_) hn)
  rw [← samples_map_t hT]
  exact List.mem_map_of_mem hy

/-! ### cases to compute -/

/-- a reference at every second, two metres apart, and an estimate of the same motion at other times -/
def exSeconds : Traj ℚ (Fin 4) :=
  { tstamps := [0, 1, 2, 3], pos := [⟨0, 0, 0⟩, ⟨2, 0, 0⟩, ⟨4, 0, 0⟩, ⟨6, 0, 0⟩], rot := none, arc := [0, 2, 4, 6]
    speed := [⟨2, 0, 0⟩, ⟨2, 0, 0⟩, ⟨2, 0, 0⟩, ⟨0, 0, 0⟩], sorting := .time, name := "ref", epsg := 0 }
def exOffSeconds : Traj ℚ (Fin 4) :=
  { tstamps := [1 / 4, 3 / 2, 17 / 6], pos := [⟨1 / 2, 0, 0⟩, ⟨3, 0, 0⟩, ⟨17 / 3, 0, 0⟩], rot := none, arc := [0, 5 / 2, 31 / 6]
    speed := [⟨2, 0, 0⟩, ⟨2, 0, 0⟩, ⟨0, 0, 0⟩], sorting := .time, name := "est", epsg := 0 }

def exSampling : ProcSettings ℚ :=
  { exProc .nearestTemporal with matching := ⟨.nearestTemporal, 3 / 4, 4, 2⟩, relative := ⟨2, 4, 2, .meter, true⟩ }

/-- a perfect estimate at other times has relative errors after matching; they are within the bound, here 2 (2 * 3/4) over the distance -/
example : (H.rpe exMetric 0 exSampling 1 0 [exOffSeconds, exSeconds]).1.toOption.map
      (fun r => r.groups.map (fun g => (g.posDev, g.pairDist))) =
    some [([some (1 / 4), some (1 / 3)], [2, 4]), ([some (5 / 36)], [6])] ∧
    (∀ a ∈ samples exSeconds, a.p = (⟨0, 0, 0⟩ : V3 ℚ) + a.t • ⟨2, 0, 0⟩) ∧
    (∀ a ∈ samples exOffSeconds, a.p = (⟨0, 0, 0⟩ : V3 ℚ) + a.t • ⟨2, 0, 0⟩) := by decide +kernel

example : (H.rpe exMetric 0 { exProc .interpolation with relative := ⟨1, 2, 1, .meter, true⟩ } 1 0 [exOffSeconds, exSeconds]).1.toOption.map
      (fun r => r.groups.map (fun g => (g.posDev, g.pairDist))) = some [([some 0], [2]), ([], [])] := by decide +kernel

/-- a library with the laws that are assumed, and a call with orientations that returns -/
example : IsNearestQuery (fun a b => |a - b|) exStepLib.mat.queryT ∧ exStepLib.eval = realEval ∧ IsRotLib exStepLib.mat.rot ∧
    ∃ T U : Traj ℝ RotMat, Coherent T ∧ Coherent U ∧ T.rot ≠ none ∧ U.rot ≠ none ∧ ∃ r h',
      Returns (H.rpe exStepLib 0 { exDefaults .nearestTemporal with relative := exOneMetre } 0 1) [U, T] r h' := by
  obtain ⟨T, A, hT, ho, hr, hp, -⟩ := exPoses_other
  have hasc : StrictAsc T.tstamps := by rw [ho.times]; simp [exPoses, StrictAsc]
  have h2 : 2 ≤ T.tstamps.length := by rw [ho.times]; simp [exPoses]
  refine ⟨bruteQuery_isNearest _, rfl, matLib_isRotLib _, T, exPoses, hT, exPoses_coherent, Option.isSome_iff_ne_none.1 hr,
    by simp [exPoses], ?_⟩
  exact (C160_returns exStepLib 0 { exDefaults .nearestTemporal with relative := exOneMetre }
    (.inr ⟨rfl, by simp [exDefaults], bruteQuery_isNearest _⟩) hT exPoses_coherent ho.times.symm hasc h2
    (h := [exPoses, T]) (est := 1) (gt := 0) rfl rfl (by decide) one_pos one_pos (by
      intro D hD
      injection hD with hD
      subst hD
      simp [exPoses])).2 ⟨le_refl _, [0, 1, 3], rfl, 0, by simp, 3, by simp, by norm_num [exOneMetre]⟩

end TC
