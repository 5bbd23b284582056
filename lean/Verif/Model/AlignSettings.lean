import Verif.Model.Py
/-!
# `AlignmentEstimationSettings` (settings/alignment.py)
-/
namespace TC

/-- `AlignmentEstimationSettings` (settings/alignment.py:30-56) with its default values -/
structure EstSettings where
  transX : Bool := true
  transY : Bool := true
  transZ : Bool := true
  rotX : Bool := true
  rotY : Bool := true
  rotZ : Bool := true
  scale : Bool := false
  timeShift : Bool := false
  useXSpeed : Bool := true
  useYSpeed : Bool := true
  useZSpeed : Bool := true
  leverX : Bool := false
  leverY : Bool := false
  leverZ : Bool := false
  sensorRotation : Bool := false
  autoUpdate : Bool := false
  deriving DecidableEq, Repr

namespace EstSettings

/-- `from_components` (settings/alignment.py:59-85) -/
def fromComponents (similarity timeShift leverarm sensorRotation autoUpdate : Bool) : EstSettings :=
  { transX := similarity, transY := similarity, transZ := similarity
    rotX := similarity, rotY := similarity, rotZ := similarity
    scale := similarity
    timeShift := timeShift
    useXSpeed := timeShift, useYSpeed := timeShift, useZSpeed := timeShift
    leverX := leverarm, leverY := leverarm, leverZ := leverarm
    sensorRotation := sensorRotation
    autoUpdate := autoUpdate }

/-- `all` (settings/alignment.py:87-106) -/
def all (sensorRotation autoUpdate : Bool) : EstSettings :=
  { transX := true, transY := true, transZ := true
    rotX := true, rotY := true, rotZ := true
    scale := true
    timeShift := true
    useXSpeed := true, useYSpeed := true, useZSpeed := true
    leverX := true, leverY := true, leverZ := true
    sensorRotation := sensorRotation
    autoUpdate := autoUpdate }

/-- `from_bool_list` (settings/alignment.py:108-128) -/
def fromBoolList (l : List Bool) : Except Err EstSettings :=
  if l.length ≠ 14 then .error .valueError
  else .ok
    { transX := l.getD 0 false, transY := l.getD 1 false, transZ := l.getD 2 false
      rotX := l.getD 3 false, rotY := l.getD 4 false, rotZ := l.getD 5 false
      scale := l.getD 6 false
      timeShift := l.getD 7 false
      leverX := l.getD 8 false, leverY := l.getD 9 false, leverZ := l.getD 10 false
      sensorRotation := (l.drop 11).any id }

/-- `helmert_enabled` (settings/alignment.py:146-148) -/
def helmertEnabled (s : EstSettings) : Bool :=
  [s.transX, s.transY, s.transZ, s.rotX, s.rotY, s.rotZ, s.scale].any id

/-- `leverarm_enabled` (settings/alignment.py:150-152) -/
def leverarmEnabled (s : EstSettings) : Bool := [s.leverX, s.leverY, s.leverZ].any id

/-- `time_shift_filter` (settings/alignment.py:177-182) -/
def timeShiftFilter (s : EstSettings) : List Bool :=
  if !s.timeShift then List.replicate 3 false else [s.useXSpeed, s.useYSpeed, s.useZSpeed]

/-- `time_shift_enabled` (settings/alignment.py:154-156) -/
def timeShiftEnabled (s : EstSettings) : Bool := s.timeShiftFilter.any id

/-- `all_disabled` (settings/alignment.py:130-139) -/
def allDisabled (s : EstSettings) : Bool :=
  !([s.helmertEnabled, s.timeShiftEnabled, s.leverarmEnabled, s.sensorRotation].any id)

/-- `all_lq_disabled` (settings/alignment.py:141-144) -/
def allLqDisabled (s : EstSettings) : Bool :=
  !([s.helmertEnabled, s.timeShiftEnabled, s.leverarmEnabled].any id)

/-- `__bool__` (settings/alignment.py:56-57) -/
def truth (s : EstSettings) : Bool := !s.allLqDisabled

/-- `helmert_filter` (settings/alignment.py:184-189) -/
def helmertFilter (s : EstSettings) : List Bool :=
  if !s.helmertEnabled then List.replicate 7 false
  else [s.transX, s.transY, s.transZ, s.rotX, s.rotY, s.rotZ, s.scale]

/-- `leverarm_filter` (settings/alignment.py:191-196) -/
def leverarmFilter (s : EstSettings) : List Bool :=
  if !s.leverarmEnabled then List.replicate 3 false else [s.leverX, s.leverY, s.leverZ]

/-- `enabled_lq_parameter_filter` (settings/alignment.py:198-212) -/
def enabledLqParameterFilter (s : EstSettings) : List Bool :=
  (if s.helmertEnabled then s.helmertFilter else []) ++ (if s.timeShiftEnabled then [s.timeShift] else []) ++
  (if s.leverarmEnabled then s.leverarmFilter else [])

/-- `lq_parameter_filter` (settings/alignment.py:214-216) -/
def lqParameterFilter (s : EstSettings) : List Bool :=
  s.helmertFilter ++ [s.timeShiftEnabled] ++ s.leverarmFilter

/-- `short_mode_str` (settings/alignment.py:158-175) -/
def shortModeStr (s : EstSettings) : String :=
  (if s.helmertEnabled then "Helmert " else "") ++ (if s.timeShiftEnabled then "Time-Shift " else "") ++
  (if s.leverarmEnabled then "Leverarm " else "") ++ (if s.sensorRotation then "Sensor-Rotation" else "")

end EstSettings

end TC
