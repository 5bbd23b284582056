import Verif.Model.AlignSettings
import Verif.Model.Text
import Verif.Proofs.Text
/-!
# C86: shortcuts and description of the settings of an estimation
-/
namespace TC

/-- **C86**, the shortcut `from_components`: exactly the groups asked for are estimated; with a time shift all components of the
speed are used. -/
theorem C86_components (similarity timeShift leverarm sensorRotation autoUpdate : Bool) :
    let e := EstSettings.fromComponents similarity timeShift leverarm sensorRotation autoUpdate
    (∀ b ∈ [e.transX, e.transY, e.transZ, e.rotX, e.rotY, e.rotZ, e.scale, e.helmertEnabled], b = similarity) ∧
    (∀ b ∈ [e.timeShift, e.useXSpeed, e.useYSpeed, e.useZSpeed, e.timeShiftEnabled], b = timeShift) ∧
    (∀ b ∈ [e.leverX, e.leverY, e.leverZ, e.leverarmEnabled], b = leverarm) ∧
    e.sensorRotation = sensorRotation ∧ e.autoUpdate = autoUpdate ∧
    (e.truth = true ↔ similarity = true ∨ timeShift = true ∨ leverarm = true) := by
  revert similarity timeShift leverarm sensorRotation autoUpdate
  decide

/-- **C86**, the shortcut `all`: all groups -/
theorem C86_all (sensorRotation autoUpdate : Bool) :
    EstSettings.all sensorRotation autoUpdate = EstSettings.fromComponents true true true sensorRotation autoUpdate ∧
    (EstSettings.all sensorRotation autoUpdate).lqParameterFilter = List.replicate 11 true := by
  revert sensorRotation autoUpdate
  decide

/-- **C86**, the description: its words are the names of the groups that are estimated, and no others -/
theorem C86_description (e : EstSettings) :
    pySplit e.shortModeStr.toList =
      (if e.transX ∨ e.transY ∨ e.transZ ∨ e.rotX ∨ e.rotY ∨ e.rotZ ∨ e.scale then ["Helmert".toList] else []) ++
      (if e.timeShift ∧ (e.useXSpeed ∨ e.useYSpeed ∨ e.useZSpeed) then ["Time-Shift".toList] else []) ++
      (if e.leverX ∨ e.leverY ∨ e.leverZ then ["Leverarm".toList] else []) ++
      (if e.sensorRotation then ["Sensor-Rotation".toList] else []) := by
  have h1 : (e.transX ∨ e.transY ∨ e.transZ ∨ e.rotX ∨ e.rotY ∨ e.rotZ ∨ e.scale) ↔ e.helmertEnabled = true := by
    unfold EstSettings.helmertEnabled
    simp [List.any_cons, List.any_nil]
  have h2 : (e.timeShift ∧ (e.useXSpeed ∨ e.useYSpeed ∨ e.useZSpeed)) ↔ e.timeShiftEnabled = true := by
    unfold EstSettings.timeShiftEnabled EstSettings.timeShiftFilter
    cases e.timeShift <;> simp [List.any_cons, List.any_nil]
  have h3 : (e.leverX ∨ e.leverY ∨ e.leverZ) ↔ e.leverarmEnabled = true := by
    unfold EstSettings.leverarmEnabled
    simp [List.any_cons, List.any_nil]
  simp only [h1, h2, h3]
  unfold EstSettings.shortModeStr
  generalize e.helmertEnabled = a
  generalize e.timeShiftEnabled = b
  generalize e.leverarmEnabled = c
  generalize e.sensorRotation = d
  revert a b c d
  decide

end TC
