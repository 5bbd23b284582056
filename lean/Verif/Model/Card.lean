import Verif.Model.Traj
import Verif.Model.AlignReport
/-!
# The text that describes a trajectory (trajectory.py:83-99)
-/
namespace TC
variable {K R : Type} [Field K] [LinearOrder K]

/-- `function_of_label` (trajectory.py:216-221) -/
def Traj.functionOfLabel (T : Traj K R) : Str :=
  match T.sorting with
  | .time => "time [s]".toList
  | .arcLength => "arc length [m]".toList

/-- the lines of `Trajectory.__str__` (trajectory.py:83-99).  `data_rate` of fewer than two timestamps is `nan` in the code, which
is printed; here no text is returned. -/
def Traj.cardLines [FloorRing K] (T : Traj K R) : Except Err (List Str) := do
  let length ← T.totalLength
  let rate ← T.dataRate
  return [
    " _______________________________________________________".toList,
    "| ------------------ Trajectory Info ------------------ |".toList,
    "| Name:                         ".toList ++ pyLjust 24 T.name.toList ++ ['|'],
    "| Number of poses:              ".toList ++ pyLjust 24 (natStr T.len) ++ ['|'],
    "| Orientation available:        ".toList ++ pyLjust 24 (if T.hasOrientation then "yes".toList else "no".toList) ++ ['|'],
    "| EPSG:                         ".toList ++ pyLjust 24 (intStr T.epsg) ++ ['|'],
    "| Length [m]:                   ".toList ++ pyLjust 24 (fmtFixed 3 length) ++ ['|'],
    "| Data rate [Hz]:               ".toList ++ pyLjust 24 (fmtFixed 3 rate) ++ ['|'],
    "| Function of:                  ".toList ++ pyLjust 24 T.functionOfLabel ++ ['|'],
    "|_______________________________________________________|".toList]

/-- `__str__` and `__repr__` (trajectory.py:83-99, 108-109): a line break before the first line and after every line -/
def Traj.card [FloorRing K] (T : Traj K R) : Except Err Str := do
  let lines ← T.cardLines
  return '\n' :: (lines.map (fun l => l ++ ['\n'])).flatten

end TC
