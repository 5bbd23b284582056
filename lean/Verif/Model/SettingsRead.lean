import Verif.Model.SettingsDict
import Verif.Model.Metrics
/-!
# What `ate` and `rpe` read from a `ProcessingSettings` object

The evaluation uses `ProcSettings`; here it is taken from the attributes of a settings object.  A flag that is not a `bool`
and a number that is neither `int` nor `float` are outside the model (`TypeError`).
-/
namespace TC.Settings
variable {K : Type} [Field K]

/-- `v.name` for a settings object `v` (evaluation/metrics.py:31-36, 52-54) -/
def attr (v : PyVal K) (name : String) : Except Err (PyVal K) :=
  match v with
  | .obj _ a => match lookup a name with
    | some x => .ok x
    | none => .error .attributeError
  | _ => .error .attributeError

/-- an attribute used as a number (settings/alignment.py:23-25, 223-229, 286-287; matching.py:26-27; comparison.py:46-48) -/
def numAttr (v : PyVal K) (name : String) : Except Err K := do
  match ← attr v name with
  | .float x => .ok x
  | .int n => .ok (n : K)
  | _ => .error .typeError

/-- an attribute used as a truth value (settings/alignment.py:35-54, 231; comparison.py:50) -/
def boolAttr (v : PyVal K) (name : String) : Except Err Bool := do
  match ← attr v name with
  | .bool b => .ok b
  | _ => .error .typeError

/-- `settings.estimation_settings` (settings/alignment.py:30-56) -/
def estOf (v : PyVal K) : Except Err EstSettings := do
  return { transX := ← boolAttr v "trans_x", transY := ← boolAttr v "trans_y", transZ := ← boolAttr v "trans_z"
           rotX := ← boolAttr v "rot_x", rotY := ← boolAttr v "rot_y", rotZ := ← boolAttr v "rot_z"
           scale := ← boolAttr v "scale", timeShift := ← boolAttr v "time_shift"
           useXSpeed := ← boolAttr v "use_x_speed", useYSpeed := ← boolAttr v "use_y_speed"
           useZSpeed := ← boolAttr v "use_z_speed"
           leverX := ← boolAttr v "lever_x", leverY := ← boolAttr v "lever_y", leverZ := ← boolAttr v "lever_z"
           sensorRotation := ← boolAttr v "sensor_rotation", autoUpdate := ← boolAttr v "auto_update" }

/-- `settings.stochastics` (settings/alignment.py:208-260) -/
def stochOf (v : PyVal K) : Except Err (Stochastics K) := do
  return { stdXyFrom := ← numAttr v "std_xy_from", stdZFrom := ← numAttr v "std_z_from"
           stdXyTo := ← numAttr v "std_xy_to", stdZTo := ← numAttr v "std_z_to"
           stdRollPitch := ← numAttr v "std_roll_pitch", stdYaw := ← numAttr v "std_yaw"
           stdSpeed := ← numAttr v "std_speed", varianceEstimation := ← boolAttr v "variance_estimation" }

/-- `settings.alignment` (settings/alignment.py:262-290) -/
def alignOf (v : PyVal K) : Except Err (AlignSettings K) := do
  let p ← attr v "preprocessing"
  return { minSpeed := ← numAttr p "min_speed", timeStart := ← numAttr p "time_start", timeEnd := ← numAttr p "time_end"
           est := ← estOf (← attr v "estimation_settings"), stoch := ← stochOf (← attr v "stochastics")
           metricThreshold := ← numAttr v "metric_threshold", timeThreshold := ← numAttr v "time_threshold" }

/-- `settings.matching` (settings/matching.py:24-29) -/
def matchOf (v : PyVal K) : Except Err (MatchingSettings K) := do
  match ← attr v "method", ← attr v "k_nearest" with
  | .method m, .int (.ofNat k) =>
    return { method := m, maxTimeDiff := ← numAttr v "max_time_diff", maxDistance := ← numAttr v "max_distance", kNearest := k }
  | _, _ => .error .typeError

/-- `settings.relative_comparison` (settings/comparison.py:33-50) -/
def relOf (v : PyVal K) : Except Err (RpeSettings K) := do
  match ← attr v "pair_distance_unit" with
  | .unit u =>
    return { minDist := ← numAttr v "pair_min_distance", maxDist := ← numAttr v "pair_max_distance"
             step := ← numAttr v "pair_distance_step", unit := u, allPairs := ← boolAttr v "use_all_pose_pairs" }
  | _ => .error .typeError

/-- what `ate` and `rpe` use of a `ProcessingSettings` object (settings/processing.py:18-26, evaluation/metrics.py:31-36,
52-54) -/
def procOf (v : PyVal K) : Except Err (ProcSettings K) := do
  return { align := ← alignOf (← attr v "alignment"), matching := ← matchOf (← attr v "matching")
           relative := ← relOf (← attr v "relative_comparison") }

/-- `ProcessingSettings()`, the default argument of `ate` and `rpe` (evaluation/metrics.py:16, 50); `deg` is
`np.deg2rad(1.0)` -/
def standard (deg : K) : PyVal K := .obj .processing (defaults deg .processing)

end TC.Settings
