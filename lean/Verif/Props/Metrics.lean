import Verif.Proofs.Ate
import Verif.Props.Adjust
import Verif.Props.MatchLine
/-!
# C69, C70, C118, C119: `estimate_alignment`, `ate` and `rpe` on whole trajectories
-/
namespace TC
set_option linter.unusedSectionVars false
open H
variable {K R : Type} [Field K] [LinearOrder K]

/-! ### C118, C119: which trajectories are changed -/

/-- **C118.** Estimating an alignment leaves every existing trajectory as it is, for all settings, whether the call
returns or raises. -/
theorem C118_estimation_leaves_trajectories (lib : MetricLib K R) (c : Nat) (s : AlignSettings K)
    (ms : MatchingSettings K) (f t : Nat) (h : Heap K R) :
    (estimateAlignment lib c s ms f t h).2.take h.length = h := by
  have h2 := (Frame.estimateAlignment (n := h.length) (f := f) (t := t) lib c s ms h (le_refl _)).2
  rwa [List.take_length] at h2

/-- **C119**, positive part: `ate` leaves all other trajectories as they are, whatever its outcome.
Missing for the full property: the two trajectories themselves, see `C119_ate_replaces_its_inputs`. -/
theorem C119_ate_leaves_others_partial (lib : MetricLib K R) (c : Nat) (s : ProcSettings K) (gt est : Nat)
    (h : Heap K R) (k : Nat) (hk : k < h.length) (h1 : k ≠ est) (h2 : k ≠ gt) :
    (H.ate lib c s gt est h).2[k]? = h[k]? :=
  (Touches.ate lib c s gt est h).2 k hk h1 h2

/-- **C119**, positive part for `rpe`. -/
theorem C119_rpe_leaves_others_partial [FloorRing K] (lib : MetricLib K R) (c : Nat) (s : ProcSettings K) (gt est : Nat)
    (h : Heap K R) (k : Nat) (hk : k < h.length) (h1 : k ≠ est) (h2 : k ≠ gt) :
    (H.rpe lib c s gt est h).2[k]? = h[k]? :=
  (Touches.rpe lib c s gt est h).2 k hk h1 h2

variable [IsStrictOrderedRing K]

/-- **C119 is false of the code**: whenever `ate` reports a result, with any method that works in place, the two
trajectories passed by the caller have been replaced by their matched versions, exactly those that
`match_trajectories` produces in place. -/
theorem C119_ate_replaces_its_inputs (lib : MetricLib K R)
    (heul : ∀ o, eulerMat lib.trig (lib.toEuler o) = lib.mat.rot.toMat o) (c : Nat) (s : ProcSettings K)
    (hs : s.matching.method ≠ .nearestSpatialInterpolated) {T U : Traj K R} (hT : Coherent T) (hU : Coherent U)
    (hasc : s.matching.method = .interpolation → StrictAsc T.tstamps ∧ StrictAsc U.tstamps)
    {h h' : Heap K R} {gt est : Nat} (hest : h[est]? = some T) (hgt : h[gt]? = some U) (hne : est ≠ gt)
    {r : AteResult K R} {a : AlignResult K} (hret : Returns (H.ate lib c s gt est) h (some (r, a)) h') :
    ∃ T' U', Returns (matchTrajectories lib.mat c est gt s.matching true) h (est, gt) ((h.set est T').set gt U') ∧
      h'[est]? = some T' ∧ h'[gt]? = some U' ∧ Reports lib a T' U' r := by
  obtain ⟨T', U', h1, h2, h3, -, h4⟩ := ate_reports lib heul c s hs hT hU hasc hest hgt hne hret
  exact ⟨T', U', h1, h2, h3, h4⟩

/-! ### C69: the deviations are those of matched samples -/

/-- **C69**, positive part, nearest in time: whenever `ate` reports a result, the deviations are those between the
samples paired as C38 says, the estimated ones after the alignment.
Missing for the full property: `NEAREST_SPATIAL_INTERPOLATED`, see `C69_line_matching_ignored`. -/
theorem C69_ate_temporal_partial (lib : MetricLib K R)
    (heul : ∀ o, eulerMat lib.trig (lib.toEuler o) = lib.mat.rot.toMat o)
    (hq : IsNearestQuery (fun a b => |a - b|) lib.mat.queryT) (c : Nat) (s : ProcSettings K)
    (hs : s.matching.method = .nearestTemporal) (hm : 0 ≤ s.matching.maxTimeDiff) {T U : Traj K R} (hT : Coherent T)
    (hU : Coherent U) (hne : T.tstamps ≠ []) {h h' : Heap K R} {gt est : Nat} (hest : h[est]? = some T)
    (hgt : h[gt]? = some U) (hge : est ≠ gt) {r : AteResult K R} {a : AlignResult K}
    (hret : Returns (H.ate lib c s gt est) h (some (r, a)) h') :
    ∃ T' U', Paired (fun a b => |a - b|) s.matching.maxTimeDiff Sample.t T U T' U' ∧ Reports lib a T' U' r := by
  obtain ⟨T', U', h1, -, -, -, h4⟩ := ate_reports lib heul c s (by simp [hs]) hT hU (fun h => by simp [hs] at h)
    hest hgt hge hret
  refine ⟨T', U', ?_, h4⟩
  obtain ⟨p1, p2⟩ := C38_temporal_matching lib.mat hq c s.matching hs hm hT hU hne hest hgt true (fun _ => hge)
  by_cases hex : ∃ a ∈ samples T, ∃ b ∈ samples U, Within (fun a b => |a - b|) s.matching.maxTimeDiff a.t b.t
  · obtain ⟨f', t', h3, T1, U1, e1, e2, e3, hp, e4, -⟩ := p1 hex
    obtain ⟨rfl, rfl⟩ := e4 rfl
    unfold Returns at e1 h1
    rw [h1] at e1
    obtain ⟨-, rfl⟩ := Prod.mk.inj e1
    have l1 := (List.getElem?_eq_some_iff.1 hest).1
    have l2 := (List.getElem?_eq_some_iff.1 hgt).1
    rw [List.getElem?_set_ne (Ne.symm hge)] at e2
    simp only [List.getElem?_set_self, l1, Option.some.injEq] at e2
    simp only [List.getElem?_set_self, List.length_set, l2, Option.some.injEq] at e3
    subst e2 e3
    exact hp
  · push Not at hex
    obtain ⟨h3, e1, -⟩ := p2 hex
    unfold Returns Raises at *
    rw [h1] at e1
    simp at e1

/-- **C69**, positive part, nearest in space (C39). -/
theorem C69_ate_spatial_partial (lib : MetricLib K R)
    (heul : ∀ o, eulerMat lib.trig (lib.toEuler o) = lib.mat.rot.toMat o)
    (hq : IsNearestQuery (fun a b => lib.mat.nrm (a - b)) lib.mat.queryP) (c : Nat) (s : ProcSettings K)
    (hs : s.matching.method = .nearestSpatial) (hm : 0 ≤ s.matching.maxDistance) {T U : Traj K R} (hT : Coherent T)
    (hU : Coherent U) (hne : T.tstamps ≠ []) {h h' : Heap K R} {gt est : Nat} (hest : h[est]? = some T)
    (hgt : h[gt]? = some U) (hge : est ≠ gt) {r : AteResult K R} {a : AlignResult K}
    (hret : Returns (H.ate lib c s gt est) h (some (r, a)) h') :
    ∃ T' U', Paired (fun a b => lib.mat.nrm (a - b)) s.matching.maxDistance Sample.p T U T' U' ∧
      Reports lib a T' U' r := by
  obtain ⟨T', U', h1, -, -, -, h4⟩ := ate_reports lib heul c s (by simp [hs]) hT hU (fun h => by simp [hs] at h)
    hest hgt hge hret
  refine ⟨T', U', ?_, h4⟩
  obtain ⟨p1, p2⟩ := C39_spatial_matching lib.mat hq c s.matching hs hm hT hU hne hest hgt true (fun _ => hge)
  by_cases hex : ∃ a ∈ samples T, ∃ b ∈ samples U, Within (fun a b => lib.mat.nrm (a - b)) s.matching.maxDistance a.p b.p
  · obtain ⟨f', t', h3, T1, U1, e1, e2, e3, hp, e4, -⟩ := p1 hex
    obtain ⟨rfl, rfl⟩ := e4 rfl
    unfold Returns at e1 h1
    rw [h1] at e1
    obtain ⟨-, rfl⟩ := Prod.mk.inj e1
    have l1 := (List.getElem?_eq_some_iff.1 hest).1
    have l2 := (List.getElem?_eq_some_iff.1 hgt).1
    rw [List.getElem?_set_ne (Ne.symm hge)] at e2
    simp only [List.getElem?_set_self, l1, Option.some.injEq] at e2
    simp only [List.getElem?_set_self, List.length_set, l2, Option.some.injEq] at e3
    subst e2 e3
    exact hp
  · push Not at hex
    obtain ⟨h3, e1, -⟩ := p2 hex
    unfold Returns Raises at *
    rw [h1] at e1
    simp at e1

open Classical in
/-- **C69**, positive part, interpolation (C40): the reference samples are those covered by the estimated trajectory,
and the estimated ones lie on its polygon at the same times. -/
theorem C69_ate_interpolation_partial (lib : MetricLib K R)
    (heul : ∀ o, eulerMat lib.trig (lib.toEuler o) = lib.mat.rot.toMat o) (c : Nat) (s : ProcSettings K)
    (hs : s.matching.method = .interpolation) {T U : Traj K R} (hT : Coherent T) (hU : Coherent U)
    (hTs : StrictAsc T.tstamps) (hUs : StrictAsc U.tstamps) {h h' : Heap K R} {gt est : Nat} (hest : h[est]? = some T)
    (hgt : h[gt]? = some U) (hge : est ≠ gt) {r : AteResult K R} {a : AlignResult K}
    (hret : Returns (H.ate lib c s gt est) h (some (r, a)) h') :
    ∃ T' U', Reports lib a T' U' r ∧ T'.tstamps = U'.tstamps ∧
      (let kept := (samples T).filter (fun x => decide (Covered U.tstamps 2 x.t))
       samples U' = (samples U).filter (fun y => decide (Covered (kept.map Sample.t) 2 y.t)) ∧
       ∀ (i : Nat) (τ : K) (p : V3 K), T'.tstamps[i]? = some τ → T'.pos[i]? = some p →
         OnPolygon (kept.map Sample.t) (kept.map Sample.p) τ p) := by
  obtain ⟨T', U', h1, -, -, -, h4⟩ := ate_reports lib heul c s (by simp [hs]) hT hU (fun _ => ⟨hTs, hUs⟩)
    hest hgt hge hret
  obtain ⟨T1, U1, e2, e3, -, e4, -, -, e5⟩ := C40_interpolation_matching lib.mat c s.matching hs hT hU hTs hUs hest hgt
    true (fun _ => hge) h1
  have l1 := (List.getElem?_eq_some_iff.1 hest).1
  have l2 := (List.getElem?_eq_some_iff.1 hgt).1
  rw [List.getElem?_set_ne (Ne.symm hge)] at e2
  simp only [List.getElem?_set_self, l1, Option.some.injEq] at e2
  simp only [List.getElem?_set_self, List.length_set, l2, Option.some.injEq] at e3
  subst e2 e3
  exact ⟨T', U', h4, e4, e5⟩

/-- **C69 is false of the code** for `NEAREST_SPATIAL_INTERPOLATED`: the matched trajectories are computed and thrown
away.  Whenever `ate` reports a result, the trajectories had the same number of samples, and the deviations are
those between the samples that happened to be at the same places in the two inputs. -/
theorem C69_line_matching_ignored (lib : MetricLib K R)
    (heul : ∀ o, eulerMat lib.trig (lib.toEuler o) = lib.mat.rot.toMat o) (hn : ∀ v, 0 ≤ lib.mat.nrm v) (c : Nat)
    (s : ProcSettings K) (hs : s.matching.method = .nearestSpatialInterpolated) (hd : NoFilter s.align)
    {T U : Traj K R} (hT : Coherent T) (hU : Coherent U) {h h' : Heap K R} {gt est : Nat} (hest : h[est]? = some T)
    (hgt : h[gt]? = some U) {r : AteResult K R} {a : AlignResult K}
    (hret : Returns (H.ate lib c s gt est) h (some (r, a)) h') : Reports lib a T U r := by
  have hlt := (List.getElem?_eq_some_iff.1 hgt).1
  have hle := (List.getElem?_eq_some_iff.1 hest).1
  obtain ⟨m, h1, h2, T', U', A, hm, hal, htk, h2T, h2U, hA, hr, -⟩ := ate_inv lib c s gt est hlt hret
  have hk := match_line lib.mat c s.matching hs h est gt
  rw [hm] at hk
  simp only at hk
  have get1 : ∀ (k : Nat) (X : Traj K R), h[k]? = some X → h1[k]? = some X := by
    intro k X hX
    have := (List.getElem?_eq_some_iff.1 hX).1
    rw [← hk, List.getElem?_take, if_pos this] at hX
    exact hX
  have get2 : ∀ (k : Nat) (X : Traj K R), h1[k]? = some X → h2[k]? = some X := by
    intro k X hX
    have := (List.getElem?_eq_some_iff.1 hX).1
    rw [← htk, List.getElem?_take, if_pos this] at hX
    exact hX
  obtain rfl := Option.some.inj (h2T.symm.trans (get2 _ _ (get1 _ _ hest)))
  obtain rfl := Option.some.inj (h2U.symm.trans (get2 _ _ (get1 _ _ hgt)))
  exact reports_of lib heul hT hU (alignBody_nonempty _ _ _ _ _ hA)
    (estimate_line_length lib hn c hd hs hT hU (get1 _ _ hest) (get1 _ _ hgt) hal) hA hr

/-! ### C70: rotation deviations -/

/-- **C70**, positive part: without orientations in the reference no rotation deviations are reported, and if both
trajectories have orientations there are some, each between an orientation of the reference and an aligned
orientation of the estimated trajectory (`Reports.rotDev`).
Missing for the full property: an estimated trajectory without orientations, see `C70_rotation_deviations_invented`. -/
theorem C70_rotation_deviations_partial (lib : MetricLib K R)
    (heul : ∀ o, eulerMat lib.trig (lib.toEuler o) = lib.mat.rot.toMat o) (c : Nat) (s : ProcSettings K)
    (hs : s.matching.method ≠ .nearestSpatialInterpolated) {T U : Traj K R} (hT : Coherent T) (hU : Coherent U)
    (hasc : s.matching.method = .interpolation → StrictAsc T.tstamps ∧ StrictAsc U.tstamps)
    {h h' : Heap K R} {gt est : Nat} (hest : h[est]? = some T) (hgt : h[gt]? = some U) (hne : est ≠ gt)
    {r : AteResult K R} {a : AlignResult K} (hret : Returns (H.ate lib c s gt est) h (some (r, a)) h') :
    (U.rot = none → r.rotDev = none) ∧ (U.rot.isSome → T.rot.isSome → r.rotDev.isSome ∧
      ∃ T' U', h'[est]? = some T' ∧ h'[gt]? = some U' ∧ T'.rot.isSome ∧ U'.rot.isSome ∧ Reports lib a T' U' r) := by
  obtain ⟨T', U', -, h2, h3, hp, h4⟩ := ate_reports lib heul c s hs hT hU hasc hest hgt hne hret
  have hm := hp.refMeta.rot
  have hm' := hp.testMeta.rot
  refine ⟨fun hn => ?_, fun hu ht => ⟨?_, T', U', h2, h3, ?_, ?_, h4⟩⟩
  · rw [hn] at hm
    have hn' : U'.rot = none := Option.isNone_iff_eq_none.1 (by simpa using hm)
    rw [h4.rotDev, hn']
    rfl
  · rw [h4.rotDev, Option.isSome_map, hm, hu]
  · rw [hm', ht]
  · rw [hm, hu]

/-- **C70 is false of the code**: if the reference has orientations and the estimated trajectory has none, rotation
deviations are reported all the same, one per sample.  They say nothing about the estimated trajectory: they are
the differences between the orientations of the reference and one single rotation. -/
theorem C70_rotation_deviations_invented (lib : MetricLib K R)
    (heul : ∀ o, eulerMat lib.trig (lib.toEuler o) = lib.mat.rot.toMat o) (c : Nat) (s : ProcSettings K)
    (hs : s.matching.method ≠ .nearestSpatialInterpolated) {T U : Traj K R} (hT : Coherent T) (hU : Coherent U)
    (hasc : s.matching.method = .interpolation → StrictAsc T.tstamps ∧ StrictAsc U.tstamps)
    {h h' : Heap K R} {gt est : Nat} (hest : h[est]? = some T) (hgt : h[gt]? = some U) (hne : est ≠ gt)
    (hnone : T.rot = none) (hsome : U.rot.isSome)
    {r : AteResult K R} {a : AlignResult K} (hret : Returns (H.ate lib c s gt est) h (some (r, a)) h') :
    ∃ T' U' ro q, h'[est]? = some T' ∧ h'[gt]? = some U' ∧ U'.rot = some ro ∧ T'.rot = none ∧ ro ≠ [] ∧
      r.rotDev = some (ro.map (fun u => lib.mat.rot.mul u (lib.mat.rot.inv q))) := by
  obtain ⟨T', U', -, h2, h3, hp, h4⟩ := ate_reports lib heul c s hs hT hU hasc hest hgt hne hret
  have hm := hp.refMeta.rot
  rw [hsome] at hm
  obtain ⟨ro, hro⟩ := Option.isSome_iff_exists.1 hm
  have hm' := hp.testMeta.rot
  rw [hnone] at hm'
  have hT'n : T'.rot = none := Option.isNone_iff_eq_none.1 (by simpa using hm')
  have hl : ro.length = (samples T').length := by
    rw [h4.ref.rot ro hro, h4.length, samples_length h4.ref]
  refine ⟨T', U', ro, lib.mat.rot.mul (sensorTurn lib a) (lib.mat.rot.fromMat
    (((Adjust.paramsOf a.position.values).scale • eulerMat lib.trig (Adjust.paramsOf a.position.values).rot) * 1)),
    h2, h3, hro, hT'n, ?_, ?_⟩
  · rintro rfl
    exact h4.nonempty (List.length_eq_zero_iff.1 hl.symm)
  · rw [h4.rotDev, hro]
    simp only [Option.map_some]
    congr 1
    have hrs : ∀ s ∈ samples T', s.r = none := by
      intro s hs
      have : s.r ∈ (samples T').map Sample.r := List.mem_map_of_mem hs
      rw [samples_map_r h4.test, hT'n] at this
      exact (List.mem_replicate.1 this).2
    apply List.ext_getElem (by simp [hl])
    intro i h5 h6
    simp only [List.getElem_zipWith, List.getElem_map, alignedRot, hrs _ (List.getElem_mem _)]

/-! ### a case to compute -/

/-- quarter turns: four angles with rational cosine and sine -/
def fourTrig : Trig ℚ where
  cos := fun a => if a = 1 then 0 else if a = 2 then -1 else if a = 3 then 0 else 1
  sin := fun a => if a = 1 then 1 else if a = 2 then 0 else if a = 3 then -1 else 0

/-- the quarter turns about z -/
def fourLib : RotLib ℚ (Fin 4) where
  one := 0
  mul := (· + ·)
  inv := (- ·)
  toMat := fun k => eulerMat fourTrig ⟨0, 0, (k.val : ℚ)⟩
  fromMat := fun A => if 0 < A 0 0 then 0 else if 0 < A 1 0 then 1 else if A 0 0 < 0 then 2 else 3
  slerp := fun a _ _ => a

/-- routines that find every system solved by zero, so that the initial parameters are kept; good enough to run -/
def zeroAdj : AdjLib ℚ where
  solve := fun _ _ _ => some 0
  solveMany := fun _ _ _ _ => .ok 0
  pinv := fun _ M => M

def exMetric : MetricLib ℚ (Fin 4) where
  mat := { rot := fourLib, nrm := fun v => max (|v.x|) (max |v.y| |v.z|)
           queryT := bruteQuery (fun a b => |a - b|)
           queryP := bruteQuery (fun a b => max (|a.x - b.x|) (max |a.y - b.y| |a.z - b.z|))
           queryPK := bruteQueryK (fun a b => max (|a.x - b.x|) (max |a.y - b.y| |a.z - b.z|))
           lineDir := fun _ => ⟨1, 0, 0⟩ }
  trig := fourTrig
  toEuler := fun k => ⟨0, 0, (k.val : ℚ)⟩
  fromEuler := fun _ => 0
  mean := fun _ => .ok 0
  grad := fun _ _ _ => 0
  adj := zeroAdj
  init := ratInit
  eval := { nrm := fun v => max (|v.x|) (max |v.y| |v.z|), sqrt := fun x => x, acos := fun _ => 0 }

theorem exMetric_euler (o : Fin 4) : eulerMat exMetric.trig (exMetric.toEuler o) = exMetric.mat.rot.toMat o := rfl

/-- the estimated trajectory: no orientations -/
def exEst : Traj ℚ (Fin 4) :=
  { tstamps := [0, 1, 2], pos := [⟨0, 0, 0⟩, ⟨1, 0, 0⟩, ⟨2, 1, 0⟩], rot := none, arc := [0, 1, 2]
    speed := [⟨1, 0, 0⟩, ⟨1, 1, 0⟩, ⟨0, 0, 0⟩], sorting := .time, name := "est", epsg := 0 }

/-- the reference: one sample is too late for a time difference of 1/4 -/
def exGt : Traj ℚ (Fin 4) :=
  { tstamps := [0, 1, 3], pos := [⟨1, 0, 0⟩, ⟨2, 1, 0⟩, ⟨5, 5, 5⟩], rot := some [0, 1, 2], arc := [0, 1, 2]
    speed := [⟨1, 0, 0⟩, ⟨1, 1, 0⟩, ⟨0, 0, 0⟩], sorting := .time, name := "gt", epsg := 0 }

theorem exEst_coherent : Coherent exEst := ⟨rfl, rfl, rfl, by rintro r ⟨⟩⟩
theorem exGt_coherent : Coherent exGt := ⟨rfl, rfl, rfl, by rintro r ⟨⟩; rfl⟩

/-- only the translation is estimated -/
def exProc (m : MatchingMethod) : ProcSettings ℚ where
  align := { minSpeed := 0, timeStart := 0, timeEnd := 0, est := { rotX := false, rotY := false, rotZ := false }
             stoch := ⟨1, 1, 1, 1, 1, 1, 1, false⟩, metricThreshold := 1 / 10000, timeThreshold := 1 / 10000 }
  matching := ⟨m, 1 / 4, 4, 2⟩
  relative := ⟨1, 2, 1, .meter, true⟩

/-- what a call of `ate` shows: position deviations, rotation deviations, parameters, and the two trajectories afterwards -/
structure AteView where
  posDev : List (V3 ℚ)
  rotDev : Option (List (Fin 4))
  params : List ℚ
  est : List (V3 ℚ)
  gt : List (V3 ℚ)
  deriving DecidableEq

def viewAte (m : MatchingMethod) : Option AteView :=
  let x := H.ate exMetric 0 (exProc m) 1 0 [exEst, exGt]
  match x.1, x.2 with
  | .ok (some (r, a)), e :: g :: _ => some ⟨r.posDev, r.rotDev, a.position.values, e.pos, g.pos⟩
  | _, _ => none

/-- nearest in time: the third samples are dropped from both trajectories, the rest deviates by half a metre; there are
rotation deviations although the estimated trajectory has no orientations -/
example : viewAte .nearestTemporal = some {
      posDev := [⟨0, -1/2, 0⟩, ⟨0, 1/2, 0⟩], rotDev := some [0, 1],
      params := [1, 1/2, 0, 0, 0, 0, 1, 0, 0, 0, 0],
      est := [⟨0, 0, 0⟩, ⟨1, 0, 0⟩], gt := [⟨1, 0, 0⟩, ⟨2, 1, 0⟩] } := by decide +kernel

/-- interpolation: the common epochs are the same ones -/
example : viewAte .interpolation = viewAte .nearestTemporal := by decide +kernel

/-- nearest in space: other samples of the estimated trajectory are paired -/
example : viewAte .nearestSpatial = some {
      posDev := [⟨-1/6, -1/3, 0⟩, ⟨-7/6, -1/3, 0⟩], rotDev := some [0, 1],
      params := [7/6, 1/3, 0, 0, 0, 0, 1, 0, 0, 0, 0],
      est := [⟨0, 0, 0⟩, ⟨2, 1, 0⟩], gt := [⟨1, 0, 0⟩, ⟨2, 1, 0⟩] } := by decide +kernel

/-- nearest point on the line: nothing is matched, the three deviations are those of unmatched samples -/
example : viewAte .nearestSpatialInterpolated = some {
      posDev := [⟨-1/6, -3/2, -5/3⟩, ⟨-1/6, -1/2, -5/3⟩, ⟨11/6, 5/2, 10/3⟩], rotDev := some [0, 1, 2],
      params := [7/6, 3/2, 5/3, 0, 0, 0, 1, 0, 0, 0, 0],
      est := [⟨0, 0, 0⟩, ⟨1, 0, 0⟩, ⟨2, 1, 0⟩], gt := [⟨1, 0, 0⟩, ⟨2, 1, 0⟩, ⟨5, 5, 5⟩] } := by decide +kernel

/-- the hypotheses of the theorems above hold in these examples -/
example : (∀ o, eulerMat exMetric.trig (exMetric.toEuler o) = exMetric.mat.rot.toMat o) ∧ Coherent exEst ∧
    Coherent exGt ∧ StrictAsc exEst.tstamps ∧ StrictAsc exGt.tstamps ∧ exEst.rot = none ∧ exGt.rot.isSome :=
  ⟨exMetric_euler, exEst_coherent, exGt_coherent, by unfold StrictAsc; decide +kernel, by unfold StrictAsc; decide +kernel, rfl, rfl⟩

end TC
