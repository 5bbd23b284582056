import Verif.Props.MatchCostRpe

/-! C227: `rpe` and matching (evaluation/metrics.py:49-55). -/

namespace TC

set_option linter.unusedSectionVars false

open H

variable {K R : Type} [Field K] [LinearOrder K] [IsStrictOrderedRing K] [FloorRing K]

/-- Specification: what `rpe` reports is what the relative comparison returns for these two trajectories. -/
def ReportsRelative (lib : MetricLib K R) (s : ProcSettings K) (T U : Traj K R) (r : RpeResult K) : Prop :=
  compareRelative lib.eval lib.mat.rot T U s.relative = .ok r

/-- **C227**, positive part, nearest in time: the errors are those of the nearest samples within the allowed time difference. -/
theorem C227_temporal_partial (lib : MetricLib K R) (hq : IsNearestQuery (fun a b => |a - b|) lib.mat.queryT) (c : Nat)
    (s : ProcSettings K) (hs : s.matching.method = .nearestTemporal) (hm : 0 ≤ s.matching.maxTimeDiff) {T U : Traj K R}
    (hT : Coherent T) (hU : Coherent U) (hne : T.tstamps ≠ []) {h h' : Heap K R} {gt est : Nat}
    (hest : h[est]? = some T) (hgt : h[gt]? = some U) (hge : est ≠ gt) {r : RpeResult K}
    (hret : Returns (H.rpe lib c s gt est) h r h') :
    ∃ T' U', Paired (fun a b => |a - b|) s.matching.maxTimeDiff Sample.t T U T' U' ∧ ReportsRelative lib s T' U' r :=
  rpe_compares lib c s (C38_temporal_matching lib.mat hq c s.matching hs hm hT hU hne hest hgt true (fun _ => hge)) hret

/-- **C227**, positive part, nearest in space. -/
theorem C227_spatial_partial (lib : MetricLib K R) (hq : IsNearestQuery (fun a b => lib.mat.nrm (a - b)) lib.mat.queryP) (c : Nat)
    (s : ProcSettings K) (hs : s.matching.method = .nearestSpatial) (hm : 0 ≤ s.matching.maxDistance) {T U : Traj K R}
    (hT : Coherent T) (hU : Coherent U) (hne : T.tstamps ≠ []) {h h' : Heap K R} {gt est : Nat}
    (hest : h[est]? = some T) (hgt : h[gt]? = some U) (hge : est ≠ gt) {r : RpeResult K}
    (hret : Returns (H.rpe lib c s gt est) h r h') :
    ∃ T' U', Paired (fun a b => lib.mat.nrm (a - b)) s.matching.maxDistance Sample.p T U T' U' ∧ ReportsRelative lib s T' U' r :=
  rpe_compares lib c s (C39_spatial_matching lib.mat hq c s.matching hs hm hT hU hne hest hgt true (fun _ => hge)) hret

open Classical in
/-- **C227**, positive part, interpolation: the samples of the reference covered by the estimate, and points on the polygon of the
estimate at the same times. -/
theorem C227_interpolation_partial (lib : MetricLib K R) (c : Nat) (s : ProcSettings K) (hs : s.matching.method = .interpolation)
    {T U : Traj K R} (hT : Coherent T) (hU : Coherent U) (hTs : StrictAsc T.tstamps) (hUs : StrictAsc U.tstamps) {h h' : Heap K R}
    {gt est : Nat} (hest : h[est]? = some T) (hgt : h[gt]? = some U) (hge : est ≠ gt) {r : RpeResult K}
    (hret : Returns (H.rpe lib c s gt est) h r h') :
    ∃ T' U', ReportsRelative lib s T' U' r ∧ T'.tstamps = U'.tstamps ∧
      (let kept := (samples T).filter (fun x => decide (Covered U.tstamps 2 x.t))
       samples U' = (samples U).filter (fun y => decide (Covered (kept.map Sample.t) 2 y.t)) ∧
       ∀ (i : Nat) (τ : K) (p : V3 K), T'.tstamps[i]? = some τ → T'.pos[i]? = some p →
         OnPolygon (kept.map Sample.t) (kept.map Sample.p) τ p) := by
  have hle := (List.getElem?_eq_some_iff.1 hest).1
  have hlt := (List.getElem?_eq_some_iff.1 hgt).1
  obtain ⟨T', U', h1, rfl, -, hc⟩ := rpe_call lib c s (by rw [hs]; decide) hT hU (fun _ => ⟨hTs, hUs⟩) hest hgt hge hret
  obtain ⟨T₁, U₁, q1, q2, -, e4, -, -, e5⟩ := C40_interpolation_matching lib.mat c s.matching hs hT hU hTs hUs hest hgt
    true (fun _ => hge) h1
  rw [List.getElem?_set_ne (Ne.symm hge), List.getElem?_set_self hle, Option.some.injEq] at q1
  rw [List.getElem?_set_self (by rwa [List.length_set]), Option.some.injEq] at q2
  subst q1 q2
  exact ⟨T', U', hc, e4, e5⟩

/-- **C227 is false of the code** for `NEAREST_SPATIAL_INTERPOLATED`: the matched trajectories are computed and thrown away.  Whatever
`rpe` reports is what the comparison returns for the unmatched trajectories. -/
theorem C227_line_matching_ignored (lib : MetricLib K R) (c : Nat) (s : ProcSettings K)
    (hs : s.matching.method = .nearestSpatialInterpolated) {T U : Traj K R} {h h' : Heap K R} {gt est : Nat}
    (hest : h[est]? = some T) (hgt : h[gt]? = some U) {r : RpeResult K} (hret : Returns (H.rpe lib c s gt est) h r h') :
    ReportsRelative lib s T U r := by
  unfold Returns H.rpe at hret
  obtain ⟨m, h1, hm, h3⟩ := returns_bind hret
  have hk := match_line lib.mat c s.matching hs h est gt
  rw [hm] at hk
  simp only at hk
  have get1 : ∀ (k : Nat) (X : Traj K R), h[k]? = some X → h1[k]? = some X := by
    intro k X hX
    have := (List.getElem?_eq_some_iff.1 hX).1
    rw [← hk, List.getElem?_take, if_pos this] at hX
    exact hX
  rw [SE.run_bind_ok (rd_run (get1 _ _ hest)), SE.run_bind_ok (rd_run (get1 _ _ hgt)), SE.run_lift] at h3
  injection h3

/-! ### cases to compute -/

/-- the places of the reference in another order -/
def exShuffled : Traj ℚ (Fin 4) :=
  { exSeconds with pos := [⟨4, 0, 0⟩, ⟨0, 0, 0⟩, ⟨2, 0, 0⟩, ⟨6, 0, 0⟩], name := "est" }

/-- the matched trajectories are at the same places, sample by sample ... -/
example : (matchTrajectories exMetric.mat 0 0 1 (exProc .nearestSpatialInterpolated).matching true [exShuffled, exSeconds]).1 = .ok (2, 3) ∧
    (matchTrajectories exMetric.mat 0 0 1 (exProc .nearestSpatialInterpolated).matching true [exShuffled, exSeconds]).2.map
      (fun T => T.pos.map V3.x) = [[4, 0, 2, 6], [0, 2, 4, 6], [4, 0, 2, 6], [4, 0, 2, 6]] := by decide +kernel

/-- ... but `rpe` reports errors, those of the unmatched trajectories -/
example : (H.rpe exMetric 0 { exProc .nearestSpatialInterpolated with relative := ⟨2, 2, 2, .meter, true⟩ } 1 0
      [exShuffled, exSeconds]).1.toOption.map (fun r => r.groups.map (fun g => (g.posDev, g.pairDist))) =
    some [([some 1, some 0], [2, 2])] := by decide +kernel

end TC
