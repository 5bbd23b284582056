import Verif.Model.Params
import Verif.Spec.Params
import Mathlib.Data.Rat.Defs
import Mathlib.Tactic.Basic
/-!
# Which parameters the settings select
-/
namespace TC
set_option linter.unusedSectionVars false
variable {K : Type} [Field K] [LinearOrder K]

/-- the eleven flags of the parameters of the adjustment, a time shift without any speed component
being no parameter -/
def EstSettings.flags (e : EstSettings) : List Bool :=
  [e.transX, e.transY, e.transZ, e.rotX, e.rotY, e.rotZ, e.scale,
   e.timeShift && (e.useXSpeed || e.useYSpeed || e.useZSpeed), e.leverX, e.leverY, e.leverZ]

private theorem any_id (l : List Bool) : l.any id = true ↔ true ∈ l := by
  simp [List.any_eq_true]

/-- **C86**: the filter of the parameters is the list of their flags, for all settings -/
theorem C86_filter (e : EstSettings) : e.lqParameterFilter = e.flags := by
  obtain ⟨a, b, c, d, f, g, h, i, j, k, l, m, n, o, p, q⟩ := e
  unfold EstSettings.lqParameterFilter EstSettings.flags EstSettings.helmertFilter EstSettings.leverarmFilter
    EstSettings.timeShiftEnabled EstSettings.timeShiftFilter EstSettings.helmertEnabled EstSettings.leverarmEnabled
  have h1 : (if (!([a, b, c, d, f, g, h].any id)) = true then List.replicate 7 false else [a, b, c, d, f, g, h])
      = [a, b, c, d, f, g, h] := by
    split
    · rename_i hh
      simp only [Bool.not_eq_true', List.any_cons, List.any_nil, id, Bool.or_eq_false_iff] at hh
      obtain ⟨rfl, rfl, rfl, rfl, rfl, rfl, rfl, -⟩ := hh
      rfl
    · rfl
  have h2 : (if (!([m, n, o].any id)) = true then List.replicate 3 false else [m, n, o]) = [m, n, o] := by
    split
    · rename_i hh
      simp only [Bool.not_eq_true', List.any_cons, List.any_nil, id, Bool.or_eq_false_iff] at hh
      obtain ⟨rfl, rfl, rfl, -⟩ := hh
      rfl
    · rfl
  simp only [h1, h2]
  cases i <;> simp [List.any_cons, List.any_nil, Bool.or_assoc]

/-- **C86**: `all_lq_disabled` says that no parameter of the adjustment is enabled, the truth value of
the settings that there is one -/
theorem C86_all_disabled (e : EstSettings) :
    (e.allLqDisabled = true ↔ ∀ b ∈ e.flags, b = false) ∧ (e.truth = true ↔ true ∈ e.flags) ∧
    (e.allDisabled = true ↔ (∀ b ∈ e.flags, b = false) ∧ e.sensorRotation = false) := by
  obtain ⟨a, b, c, d, f, g, h, i, j, k, l, m, n, o, p, q⟩ := e
  unfold EstSettings.truth EstSettings.allDisabled EstSettings.allLqDisabled EstSettings.flags
    EstSettings.timeShiftEnabled EstSettings.timeShiftFilter EstSettings.helmertEnabled EstSettings.leverarmEnabled
  cases i <;> simp [List.any_cons, List.any_nil] <;> tauto

/-- **C86**: the shorter filter without the groups that are switched off selects as many parameters -/
theorem C86_enabled_filter (e : EstSettings) :
    e.enabledLqParameterFilter.filter id = e.lqParameterFilter.filter id := by
  unfold EstSettings.enabledLqParameterFilter EstSettings.lqParameterFilter
  rw [List.filter_append, List.filter_append, List.filter_append, List.filter_append]
  congr 1
  · congr 1
    · by_cases h : e.helmertEnabled = true
      · rw [if_pos h]
      · rw [if_neg h]
        unfold EstSettings.helmertFilter
        simp [h]
    · by_cases h : e.timeShiftEnabled = true
      · rw [if_pos h, h]
        have : e.timeShift = true := by
          by_contra hc
          unfold EstSettings.timeShiftEnabled EstSettings.timeShiftFilter at h
          rw [Bool.not_eq_true] at hc
          rw [hc] at h
          simp at h
        rw [this]
      · rw [if_neg h]
        simp [h]
  · by_cases h : e.leverarmEnabled = true
    · rw [if_pos h]
    · rw [if_neg h]
      unfold EstSettings.leverarmFilter
      simp [h]

/-- the flags that `from_bool_list` can express -/
def EstSettings.Listed (e : EstSettings) : Prop :=
  e.useXSpeed = true ∧ e.useYSpeed = true ∧ e.useZSpeed = true ∧ e.autoUpdate = false

/-- **C86** (partial): `from_bool_list` of the filter and three flags for the sensor rotation gives the
settings back if all speed components are used and `auto_update` is off.  Missing: other settings,
whose further flags are not in the list (`C86_speed_flags_lost`). -/
theorem C86_from_bool_list_partial (e : EstSettings) (h : e.Listed) :
    EstSettings.fromBoolList (e.lqParameterFilter ++ List.replicate 3 e.sensorRotation) = .ok e := by
  rw [C86_filter]
  obtain ⟨a, b, c, d, f, g, h', i, j, k, l, m, n, o, p, q⟩ := e
  obtain ⟨rfl, rfl, rfl, rfl⟩ := h
  unfold EstSettings.fromBoolList EstSettings.flags
  simp

/-- **C86**: `from_bool_list` of any fourteen flags: the first eleven are the flags of the parameters, the sensor rotation
is estimated if one of the last three is set -/
theorem C86_from_bool_list_flags (l m : List Bool) (hl : l.length = 11) (hm : m.length = 3) :
    ∃ e, EstSettings.fromBoolList (l ++ m) = .ok e ∧
      [e.transX, e.transY, e.transZ, e.rotX, e.rotY, e.rotZ, e.scale, e.timeShift, e.leverX, e.leverY, e.leverZ] = l ∧
      (e.sensorRotation = true ↔ true ∈ m) := by
  match l, hl, m, hm with
  | [a, b, c, d, e, f, g, h, i, j, k], _, [x, y, z], _ =>
    refine ⟨_, rfl, rfl, ?_⟩
    show ([x, y, z].any id = true ↔ true ∈ [x, y, z])
    cases x <;> cases y <;> cases z <;> decide

/-- **C86**: a list of another length is rejected -/
theorem C86_from_bool_list_rejected (l : List Bool) (h : l.length ≠ 14) :
    EstSettings.fromBoolList l = .error .valueError := by
  unfold EstSettings.fromBoolList
  rw [if_pos h]

/-- **C86** (negation of the inverse): whatever settings come back, the speed components that were
switched off are on -/
theorem C86_speed_flags_lost (l : List Bool) (e : EstSettings) (h : EstSettings.fromBoolList l = .ok e) :
    e.Listed := by
  unfold EstSettings.fromBoolList at h
  split at h
  · cases h
  · cases h
    exact ⟨rfl, rfl, rfl, rfl⟩

example : EstSettings.fromBoolList
    (({ timeShift := true, useXSpeed := false } : EstSettings).lqParameterFilter ++ [false, false, false])
    ≠ .ok ({ timeShift := true, useXSpeed := false } : EstSettings) := by decide

/-! ### the parameters of an alignment -/

/-- **C75** for `apply_settings`: exactly the parameters that the settings name are enabled, their
values, defaults and names stay -/
theorem C75_apply_settings (s : PSet K) (e : EstSettings) (h : s.params.length = 11) :
    (AlignParams.applySettings s e).enabledBoolList = e.flags ∧
    (AlignParams.applySettings s e).params.map (fun p => (p.raw, p.rawVar, p.default, p.name)) =
      s.params.map (fun p => (p.raw, p.rawVar, p.default, p.name)) ∧
    (AlignParams.applySettings s e).cov = s.cov ∧
    (AlignParams.applySettings s e).numEnabled = (e.enabledLqParameterFilter.filter id).length := by
  have key : (AlignParams.applySettings s e).enabledBoolList = e.flags := by
    rw [← C86_filter]
    obtain ⟨en, cov, ps⟩ := s
    match ps, h with
    | [p0, p1, p2, p3, p4, p5, p6, p7, p8, p9, p10], _ =>
      unfold AlignParams.applySettings PSet.setEnabledBoolList PSet.enabledBoolList EstSettings.lqParameterFilter
        EstSettings.helmertFilter EstSettings.leverarmFilter
      cases e.helmertEnabled <;> cases e.leverarmEnabled <;> simp [List.replicate_succ]
  refine ⟨key, ?_, rfl, ?_⟩
  · obtain ⟨en, cov, ps⟩ := s
    match ps, h with
    | [p0, p1, p2, p3, p4, p5, p6, p7, p8, p9, p10], _ =>
      unfold AlignParams.applySettings PSet.setEnabledBoolList
      simp
  · rw [C86_enabled_filter, C86_filter, ← key]
    unfold PSet.numEnabled PSet.valuesEnabled PSet.enabledBoolList
    rw [List.filter_map]
    simp

/-- **C75**: the settings made from parameters name exactly the enabled parameters; with
`apply_settings` they are a round trip -/
theorem C75_to_settings (s : PSet K) (e : EstSettings) (h : s.params.length = 11) :
    (AlignParams.toEstimationSettings s).flags = s.enabledBoolList ∧
    (AlignParams.toEstimationSettings (AlignParams.applySettings s e)).flags = e.flags := by
  have key : ∀ t : PSet K, t.params.length = 11 → (AlignParams.toEstimationSettings t).flags = t.enabledBoolList := by
    intro t ht
    obtain ⟨en, cov, ps⟩ := t
    match ps, ht with
    | [p0, p1, p2, p3, p4, p5, p6, p7, p8, p9, p10], _ =>
      simp [AlignParams.toEstimationSettings, EstSettings.flags, PSet.enabledBoolList]
  refine ⟨key s h, ?_⟩
  rw [key, (C75_apply_settings s e h).1]
  have := congrArg List.length (C75_apply_settings s e h).1
  simpa [PSet.enabledBoolList, EstSettings.flags] using this

/-- **C75** (partial) for `from_settings`: the named parameters are enabled if the three translation
flags are equal and a time shift has a speed component.  Missing: other settings, for which it is
false (`C75_from_settings_wrong`). -/
theorem C75_from_settings_partial (e : EstSettings) (hy : e.transY = e.transX) (hz : e.transZ = e.transX)
    (ht : e.timeShift = true → e.useXSpeed = true ∨ e.useYSpeed = true ∨ e.useZSpeed = true) :
    (AlignParams.fromSettings e : PSet K).enabledBoolList = e.flags ∧
    (AlignParams.fromSettings e : PSet K).values = alignDefaults := by
  constructor
  · unfold AlignParams.fromSettings PSet.enabledBoolList EstSettings.flags
    have : (e.timeShift && (e.useXSpeed || e.useYSpeed || e.useZSpeed)) = e.timeShift := by
      cases h : e.timeShift
      · rfl
      · rcases ht h with h | h | h <;> simp [h]
    rw [this, hy, hz]
    simp [alignDefaults]
  · unfold AlignParams.fromSettings PSet.values
    simp [alignDefaults, Param.value]

/-- **C75** (negation): for all settings whose translation flags differ, `from_settings` does not
enable the named parameters -/
theorem C75_from_settings_wrong (e : EstSettings) (h : e.transY ≠ e.transX ∨ e.transZ ≠ e.transX) :
    (AlignParams.fromSettings e : PSet K).enabledBoolList ≠ e.flags := by
  unfold AlignParams.fromSettings PSet.enabledBoolList EstSettings.flags
  intro hc
  simp [alignDefaults] at hc
  obtain ⟨h1, h2, -⟩ := hc
  rcases h with h | h
  · exact h h1.symm
  · exact h h2.symm

example : (AlignParams.fromSettings { transX := false } : PSet ℚ).enabledBoolList.take 3 = [false, false, false] ∧
    ({ transX := false } : EstSettings).flags.take 3 = [false, true, true] := by decide +kernel
example : (AlignParams.applySettings (AlignParams.new : PSet ℚ) { transX := false, leverY := true }).enabledBoolList
    = [false, true, true, true, true, true, false, false, false, true, false] := by decide +kernel
example : (AlignParams.new : PSet ℚ).params.length = 11 := by decide +kernel

end TC
