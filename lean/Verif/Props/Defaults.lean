import Verif.Model.SettingsRead
import Verif.Props.RpeCall
import Verif.Props.Metrics
import Verif.Props.MatchInterp
import Verif.Props.Adjust
import Verif.Props.ApplyAlign
/-!
# C194: what `ate` and `rpe` do if no settings are given (evaluation/metrics.py:16, 50)
-/
namespace TC
open H Settings
set_option linter.unusedSectionVars false
variable {K R : Type} [Field K] [LinearOrder K] [IsStrictOrderedRing K]

/-- what is read from the default settings -/
theorem procOf_standard (deg : K) : procOf (standard deg) = .ok
    { align := { minSpeed := 0, timeStart := 0, timeEnd := 0
                 est := { transX := true, transY := true, transZ := true, rotX := true, rotY := true, rotZ := true
                          scale := false, timeShift := false, useXSpeed := true, useYSpeed := true, useZSpeed := true
                          leverX := false, leverY := false, leverZ := false, sensorRotation := false, autoUpdate := false }
                 stoch := { stdXyFrom := 1, stdZFrom := 1, stdXyTo := 1, stdZTo := 1, stdRollPitch := deg, stdYaw := deg
                            stdSpeed := 1, varianceEstimation := false }
                 metricThreshold := 1 / 10000, timeThreshold := 1 / 10000 }
      matching := { method := .interpolation, maxTimeDiff := 1 / 100, maxDistance := 0, kNearest := 10 }
      relative := { minDist := 100, maxDist := 800, step := 100, unit := .meter, allPairs := true } } := rfl

/-- in an alignment that `estimate_alignment` gives, everything the settings do not name is neutral -/
theorem estimated_neutral (lib : MetricLib K R) (c : Nat) (s : AlignSettings K) (ms : MatchingSettings K) {f t : Nat}
    {h h' : Heap K R} {a : AlignResult K} (hret : estimateAlignment lib c s ms f t h = (.ok (some a), h')) :
    ∀ j, s.est.flags[j]? = some false → a.position.values[j]? = some (if j = 6 then 1 else 0) := by
  unfold estimateAlignment at hret
  obtain ⟨d, h1, -, hret⟩ := returns_bind hret
  obtain ⟨e, h2, he, hret⟩ := returns_bind hret
  rw [SE.run_lift] at he
  have he' : runEstimation lib s d = .ok e := congrArg Prod.fst he
  rcases hp : e.params with _ | p
  · rw [hp] at hret
    cases hret
  · rw [hp] at hret
    obtain ⟨q, h3, -, hret⟩ := returns_bind hret
    obtain ⟨o, h4, -, hret⟩ := returns_bind hret
    obtain ⟨u, h5, -, hret⟩ := returns_bind hret
    have : a.position = p := by cases hret; rfl
    rw [this]
    unfold runEstimation at he'
    obtain ⟨ths, -, he'⟩ := except_bind_ok he'
    exact (C83_disabled_neutral _ _ _ _ e p he' hp).2

open Classical in
/-- **C194**, `ate(gt, est)`: whenever there is a result, the estimated trajectory has been interpolated at those times of
the ground truth which both trajectories cover, and has been moved as a rigid body: neither scaled nor shifted in time nor
moved along its velocities or orientations.  The deviations are those to the ground truth at the same time. -/
theorem C194_ate_moves_rigidly (deg : K) (lib : MetricLib K R) (hτ : IsTrig lib.trig)
    (heul : ∀ o, eulerMat lib.trig (lib.toEuler o) = lib.mat.rot.toMat o) (c : Nat) {s : ProcSettings K}
    (hs : procOf (standard deg) = .ok s) {T U : Traj K R} (hT : Coherent T) (hU : Coherent U)
    (hTs : StrictAsc T.tstamps) (hUs : StrictAsc U.tstamps) {h h' : Heap K R} {gt est : Nat} (hest : h[est]? = some T)
    (hgt : h[gt]? = some U) (hge : est ≠ gt) {r : AteResult K R} {a : AlignResult K}
    (hret : Returns (H.ate lib c s gt est) h (some (r, a)) h') :
    ∃ (T' U' : Traj K R) (M : M3 K) (t : V3 K), IsRot M ∧ h'[est]? = some T' ∧ h'[gt]? = some U' ∧
      T'.tstamps = U'.tstamps ∧ (samples T').length = (samples U').length ∧ samples T' ≠ [] ∧
      r.posDev = List.zipWith (fun u x => u.p - (mulV M x.p + t)) (samples U') (samples T') ∧
      (let kept := (samples T).filter (fun x => decide (Covered U.tstamps 2 x.t))
       samples U' = (samples U).filter (fun y => decide (Covered (kept.map Sample.t) 2 y.t)) ∧
       ∀ (i : Nat) (τ : K) (p : V3 K), T'.tstamps[i]? = some τ → T'.pos[i]? = some p →
         OnPolygon (kept.map Sample.t) (kept.map Sample.p) τ p) := by
  rw [procOf_standard] at hs
  cases hs
  have hlt := (List.getElem?_eq_some_iff.1 hgt).1
  have hle := (List.getElem?_eq_some_iff.1 hest).1
  obtain ⟨m, h1, h2, T0, U0, A, hm, hal, htk, -⟩ := ate_inv lib c _ gt est hlt hret
  have hn := estimated_neutral lib c _ _ hal
  obtain ⟨T', U', e1, e2, e3, -, e4⟩ := ate_reports lib heul c _ (by simp) hT hU (fun _ => ⟨hTs, hUs⟩) hest hgt hge hret
  obtain ⟨T1, U1, q2, q3, -, q4, -, -, q5⟩ := C40_interpolation_matching lib.mat c _ rfl hT hU hTs hUs hest hgt
    true (fun _ => hge) e1
  rw [List.getElem?_set_ne (Ne.symm hge)] at q2
  simp only [List.getElem?_set_self, hle, Option.some.injEq] at q2
  simp only [List.getElem?_set_self, List.length_set, hlt, Option.some.injEq] at q3
  subst q2 q3
  have h6 := hn 6 rfl
  have h7 := hn 7 rfl
  have h8 := hn 8 rfl
  have h9 := hn 9 rfl
  have h10 := hn 10 rfl
  refine ⟨T', U', eulerMat lib.trig (Adjust.paramsOf a.position.values).rot, (Adjust.paramsOf a.position.values).trans,
    eulerMat_isRot hτ _, e2, e3, q4, e4.length, e4.nonempty, ?_, q5⟩
  · rw [e4.posDev]
    congr 1
    funext u x
    have es : (Adjust.paramsOf a.position.values).scale = 1 := by
      simp [Adjust.paramsOf, List.getD_eq_getElem?_getD, h6]
    have et : (Adjust.paramsOf a.position.values).time = 0 := by
      simp [Adjust.paramsOf, List.getD_eq_getElem?_getD, h7]
    have el : (Adjust.paramsOf a.position.values).lever = 0 := by
      simp only [Adjust.paramsOf, List.getD_eq_getElem?_getD, h8, h9, h10]
      rfl
    unfold alignedPoint
    rw [es, et, el]
    cases x.r <;> simp only [mulV_zero, one_smul, zero_smul, add_zero] <;> rw [add_comm]

/-- **C194**: the sensor rotation of the alignment that `ate(gt, est)` gives is none. -/
theorem C194_ate_no_sensor_rotation (deg : K) (lib : MetricLib K R) (c : Nat) {s : ProcSettings K}
    (hs : procOf (standard deg) = .ok s) {h h' : Heap K R} {gt est : Nat} (hgt : gt < h.length) {r : AteResult K R}
    {a : AlignResult K} (hret : Returns (H.ate lib c s gt est) h (some (r, a)) h') :
    a.rotation.values = [0, 0, 0] ∧ sensorOf lib a = lib.fromEuler ⟨0, 0, 0⟩ := by
  rw [procOf_standard] at hs
  cases hs
  obtain ⟨m, h1, h2, T0, U0, A, hm, hal, -⟩ := ate_inv lib c _ gt est hgt hret
  suffices h : a.rotation = { (SensorParams.new : PSet K) with enabled := false } by
    have e : a.rotation.values = [0, 0, 0] := by rw [h]; rfl
    refine ⟨e, ?_⟩
    unfold sensorOf
    rw [e]
    rfl
  unfold estimateAlignment at hal
  obtain ⟨d, g1, -, hal⟩ := returns_bind hal
  obtain ⟨e, g2, -, hal⟩ := returns_bind hal
  rcases hp : e.params with _ | p
  · rw [hp] at hal
    cases hal
  · rw [hp] at hal
    obtain ⟨q, g3, hq, hal⟩ := returns_bind hal
    obtain ⟨o, g4, -, hal⟩ := returns_bind hal
    obtain ⟨u, g5, -, hal⟩ := returns_bind hal
    have : a.rotation = q := by cases hal; rfl
    rw [this]
    unfold sensorRotation at hq
    obtain ⟨o', g6, -, hq⟩ := returns_bind hq
    obtain ⟨u', g7, -, hq⟩ := returns_bind hq
    cases hr : o'.rot <;> cases hr' : u'.rot <;> rw [hr, hr'] at hq <;> cases hq <;> rfl

variable [FloorRing K]

/-- **C194**, `rpe(gt, est)`: if no two samples of the ground truth are more than 100 m of path apart, there is no result.
If there is one, its distances are 100 m, 200 m, …, 800 m. -/
theorem C194_rpe_needs_100_m (deg : K) (lib : MetricLib K R) (c : Nat) {s : ProcSettings K}
    (hs : procOf (standard deg) = .ok s) {T U : Traj K R} (hT : Coherent T) (hU : Coherent U)
    (hTs : StrictAsc T.tstamps) (hUs : StrictAsc U.tstamps) (hasc : U.arc.Pairwise (· ≤ ·)) {h h' : Heap K R} {gt est : Nat}
    (hest : h[est]? = some T) (hgt : h[gt]? = some U) (hge : est ≠ gt) {r : RpeResult K}
    (hret : Returns (H.rpe lib c s gt est) h r h') :
    (∃ x ∈ U.arc, ∃ y ∈ U.arc, 100 < y - x) ∧ r.unit = .meter ∧
      r.groups.map RpeGroup.key = [100, 200, 300, 400, 500, 600, 700, 800] := by
  rw [procOf_standard] at hs
  cases hs
  have hlt := (List.getElem?_eq_some_iff.1 hgt).1
  have hle := (List.getElem?_eq_some_iff.1 hest).1
  obtain ⟨T', U', e1, rfl, hp, e3⟩ := rpe_call lib c _ (by simp) hT hU (fun _ => ⟨hTs, hUs⟩) hest hgt hge hret
  obtain ⟨T1, U1, q2, q3, -, q4, qa, ql, q5⟩ := C40_interpolation_matching lib.mat c _ rfl hT hU hTs hUs hest hgt
    true (fun _ => hge) e1
  rw [List.getElem?_set_ne (Ne.symm hge)] at q2
  simp only [List.getElem?_set_self, hle, Option.some.injEq] at q2
  simp only [List.getElem?_set_self, List.length_set, hlt, Option.some.injEq] at q3
  subst q2 q3
  have hsub : U'.arc.Sublist U.arc := by
    have h1 := congrArg (List.map Sample.l) q5.1
    rw [samples_map_l hp.ref] at h1
    rw [h1, ← samples_map_l hU]
    exact (List.filter_sublist).map _
  refine ⟨?_, ?_, ?_⟩
  · by_contra hno
    push Not at hno
    have hne : U'.tstamps ≠ [] := by
      intro h0
      have : U'.arc = [] := List.length_eq_zero_iff.1 (by rw [hp.ref.arc, h0]; rfl)
      refine (compareRelative_ok e3).2.2.2.2.2 (List.sum_eq_zero_iff.2 fun n hn => ?_)
      obtain ⟨g, hg, rfl⟩ := List.mem_map.1 hn
      obtain ⟨d, -, hgd⟩ := mapE_mem (compareRelative_ok e3).2.2.1 hg
      rw [rpeGroup_eq lib.eval lib.mat.rot T' U' _ (D := U'.arc) rfl, this] at hgd
      cases hgd
      rfl
    have hTc : Coherent T' := hp.test (by
      intro h0
      have := hp.length
      rw [h0, hp.ref.pos] at this
      exact hne (List.length_eq_zero_iff.1 this.symm))
    have := (C65_relative_comparison_errors lib.eval lib.mat.rot T' U' hTc hp.ref (by rw [q4]) hne
      { minDist := 100, maxDist := 800, step := 100, unit := .meter, allPairs := true } (by norm_num) (by norm_num)
      (fun D hD => by cases hD; exact hasc.sublist hsub)).1.2 (.inr (.inr (fun D hD a ha b hb => by
        cases hD
        exact hno a (hsub.subset ha) b (hsub.subset hb))))
    rw [e3] at this
    cases this
  · exact (compareRelative_ok e3).2.2.2.1
  · have := (C64_pair_distances_partial lib.eval lib.mat.rot T' U' _ (by simp) r e3).2 7 (by norm_num)
    rw [this.1]
    simp only [List.range_succ, List.range_zero]
    norm_num

/-! ### cases to compute -/

/-- a straight way of 250 m -/
def exLongWay : Traj ℚ (Fin 4) :=
  { tstamps := [0, 1, 2], pos := [⟨0, 0, 0⟩, ⟨120, 0, 0⟩, ⟨250, 0, 0⟩], rot := none, arc := [0, 120, 250]
    speed := [⟨120, 0, 0⟩, ⟨130, 0, 0⟩, ⟨0, 0, 0⟩], sorting := .time, name := "long", epsg := 0 }

/-- there are results with the default settings ... -/
example : ∃ s, procOf (standard (1 / 57 : ℚ)) = .ok s ∧
    (H.ate exMetric 0 s 1 0 [exEst, exGt]).1.toOption.bind (·.map (·.1.posDev)) = some [⟨0, -1/2, 0⟩, ⟨0, 1/2, 0⟩] :=
  ⟨_, procOf_standard _, by decide +kernel⟩

example : ∃ s, procOf (standard (1 / 57 : ℚ)) = .ok s ∧
    (H.rpe exMetric 0 s 1 0 [exLongWay, exLongWay]).1.toOption.map (fun r => r.groups.map (fun g => g.pairDist)) =
      some [[120, 130], [250], [], [], [], [], [], []] :=
  ⟨_, procOf_standard _, by decide +kernel⟩

/-- ... and none for the relative error of a short way -/
example : ∃ s, procOf (standard (1 / 57 : ℚ)) = .ok s ∧
    (H.rpe exMetric 0 s 1 0 [exEst, exGt]).1.toOption = none :=
  ⟨_, procOf_standard _, by decide +kernel⟩

/-- the other hypotheses hold in these examples -/
example : IsTrig exMetric.trig ∧ StrictAsc exLongWay.tstamps ∧ exLongWay.arc.Pairwise (· ≤ ·) :=
  ⟨⟨fun a => by show fourTrig.cos a * fourTrig.cos a + fourTrig.sin a * fourTrig.sin a = 1; unfold fourTrig; dsimp only; split_ifs <;> norm_num,
    by decide +kernel, by decide +kernel⟩, by unfold StrictAsc; decide +kernel, by decide +kernel⟩

end TC
