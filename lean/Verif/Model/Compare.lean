import Verif.Model.TrajIO
import Verif.Model.ParamsIO
import Verif.Model.Stats
/-!
# Comparing objects, and a trajectory as a table (trajectory.py, alignment/result.py, evaluation/rpe_result.py)
-/
namespace TC
variable {K R : Type} [Field K] [LinearOrder K]

/-! ### `np.allclose` -/

/-- `np.isclose(a, b)` with numpy's tolerances (`np.allclose` in trajectory.py:119-130, result.py:29-34) -/
def npClose (a b : K) : Bool := decide (|a - b| ≤ 1 / 100000000 + 1 / 100000 * |b|)

/-- the same for the three numbers of a row (trajectory.py:126) -/
def npClose3 (a b : V3 K) : Bool := npClose a.x b.x && npClose a.y b.y && npClose a.z b.z

/-- the same for the four numbers of a quaternion (trajectory.py:119) -/
def npClose4 (a b : Q4 K) : Bool := npClose a.x b.x && npClose a.y b.y && npClose a.z b.z && npClose a.w b.w

/-- `np.allclose` of two arrays along their first axis (trajectory.py:119-130): one row is compared with all rows of the other
array (broadcasting), other different lengths raise `ValueError` -/
def npAllclose {α : Type} (close : α → α → Bool) (l m : List α) : Except Err Bool :=
  if l.length = m.length then .ok ((l.zip m).all (fun p => close p.1 p.2))
  else match l, m with
    | [a], m => .ok (m.all (fun b => close a b))
    | l, [b] => .ok (l.all (fun a => close a b))
    | _, _ => .error .valueError

/-- `a and b`: `b` is only evaluated if `a` is true (trajectory.py:125-132) -/
def andE (a b : Except Err Bool) : Except Err Bool :=
  match a with
  | .ok true => b
  | r => r

/-- the orientations in `Trajectory.__eq__` (trajectory.py:118-123) -/
def Traj.rotEqual (io : IoLib K R) (T U : Traj K R) : Except Err Bool :=
  match T.rot, U.rot with
  | some r, some s => npAllclose npClose4 (r.map io.asQuat) (s.map io.asQuat)
  | none, none => .ok true
  | _, _ => .ok false

/-- `Trajectory.__eq__` (trajectory.py:117-132) -/
def Traj.eq (io : IoLib K R) (T U : Traj K R) : Except Err Bool := do
  let rotEqual ← T.rotEqual io U
  andE (npAllclose npClose3 T.pos U.pos)
    (andE (.ok rotEqual)
      (andE (npAllclose npClose T.tstamps U.tstamps)
        (andE (npAllclose npClose T.arc U.arc)
          (andE (npAllclose npClose3 T.speed U.speed) (.ok (decide (T.name = U.name)))))))

/-! ### tables -/

/-- a table: the names of the columns, the rows -/
structure Table (K : Type) where
  columns : List Str
  rows : List (List K)
  deriving DecidableEq

/-- the value of a `Sorting` (sorting.py:24-26) -/
def Sorting.text : Sorting → Str
  | .time => "time".toList
  | .arcLength => "arc_length".toList

/-- the names of the columns (trajectory.py:276-289, 294) -/
def frameColumns (hasRot : Bool) : List Str :=
  ["time".toList, "arc_length".toList, "pos_x".toList, "pos_y".toList, "pos_z".toList] ++
  (if hasRot then ["rot_x".toList, "rot_y".toList, "rot_z".toList, "rot_w".toList] else []) ++
  ["speed_x".toList, "speed_y".toList, "speed_z".toList]

/-- `to_dataframe` (trajectory.py:256-296): the array is the one that `to_file` writes; `argsort` is the sorting of
`sort_values` -/
def Traj.toDataframe (io : IoLib K R) (argsort : List K → List Nat) (T : Traj K R) (sortBy : Str) : Except Err (Table K) := do
  let by_ := if sortBy = [] then T.sorting.text else sortBy
  let rows ← T.fileRows io
  let columns := frameColumns T.rot.isSome
  match columns.findIdx? (fun c => decide (c = by_)) with
  | none => .error .keyError
  | some i => do
    let rows ← Traj.take rows (argsort (rows.map (fun r => r.getD i 0)))
    return { columns := columns, rows := rows }

/-- `rpy` (trajectory.py:246-254) with `as_euler(seq="xyz")` as a parameter: without orientations `quat` consists of zeros,
which `from_quat` refuses; so it does no rows at all -/
def Traj.rpy (euler : R → V3 K) (argsort : List K → List Nat) (T : Traj K R) : Except Err (List (V3 K)) := do
  match ← T.quat argsort with
  | none => .error .valueError
  | some q => if q.length = 0 then .error .valueError else .ok (q.map euler)

/-- `from_numpy` (trajectory.py:330-337) -/
def Traj.fromNumpy (io : IoLib K R) (counter : Nat) (xyz : List (V3 K)) (quat : List (Q4 K)) (tstamps : List K) (epsg : Int) :
    Except Err (Traj K R) := do
  if quat.length = 0 then throw Err.valueError
  let rot ← mapE io.fromQuat quat
  Traj.new io.nrm counter { pos := xyz, epsg := epsg, rot := some rot, tstamps := some tstamps }

/-! ### results -/

/-- an `assert` (result.py:29-35, rpe_result.py:38) -/
def pyAssert (b : Bool) : Except Err Unit := if b then .ok () else .error .assertion

/-- `np.allclose` of two matrices (result.py:30-33).  Simplified: matrices of different shape raise, they are not repeated. -/
def npAllcloseM (l m : List (List K)) : Except Err Bool :=
  if l.map List.length = m.map List.length then
    .ok ((l.zip m).all (fun rows => (rows.1.zip rows.2).all (fun p => npClose p.1 p.2)))
  else .error .valueError

/-- `AlignmentResult.__eq__` (result.py:25-37) for another `AlignmentResult` -/
def AlignResult.eq (r s : AlignResult K) : Except Err Bool := do
  let a ← npAllclose npClose r.position.values s.position.values
  pyAssert a
  let b ← npAllcloseM r.position.cov s.position.cov
  pyAssert b
  let c ← npAllclose npClose r.rotation.values s.rotation.values
  pyAssert c
  pyAssert (decide (r.estimationOf = s.estimationOf))
  return true

/-- `dict[key] = value` for texts: a key keeps its place -/
def strSet (d : List (Str × Str)) (k v : Str) : List (Str × Str) :=
  if d.any (fun e => decide (e.1 = k)) then d.map (fun e => if e.1 = k then (k, v) else e)
  else d ++ [(k, v)]

/-- `dict.update` (rpe_result.py:206-207, 219-220), and a dictionary comprehension -/
def strUpdate (d l : List (Str × Str)) : List (Str × Str) := l.foldl (fun d e => strSet d e.1 e.2) d

namespace RpeResult

/-- `pair_distance_unit` (rpe_result.py:53-55) -/
def distUnit (r : RpeResult K) : Str := if r.unit = .meter then "m".toList else "s".toList
/-- `pos_drift_unit` (rpe_result.py:57-59) -/
def posUnit (r : RpeResult K) : Str := if r.unit = .meter then "%".toList else "m/s".toList
/-- `rot_drift_unit` (rpe_result.py:61-63) -/
def rotUnit (r : RpeResult K) : Str := if r.unit = .meter then "deg/100m".toList else "deg/s".toList

/-- `rot_dev_min` (rpe_result.py:123-128) -/
def rotDevMin (r : RpeResult K) : Except Err (List K) :=
  if r.hasRotDev then r.computeMetric RpeGroup.rotDev pyMin r.driftFactor else .ok []
/-- `rot_dev_max` (rpe_result.py:130-135) -/
def rotDevMax (r : RpeResult K) : Except Err (List K) :=
  if r.hasRotDev then r.computeMetric RpeGroup.rotDev pyMax r.driftFactor else .ok []
/-- `rot_dev_median` (rpe_result.py:137-142) -/
def rotDevMedian (r : RpeResult K) : Except Err (List K) :=
  if r.hasRotDev then r.computeMetric RpeGroup.rotDev npMedian r.driftFactor else .ok []

/-- a number with three decimals and its unit (rpe_result.py:171, 181, 200-203, 214-217) -/
def withUnit [FloorRing K] (unit : Str) (x : K) : Str := fmtFixed 3 x ++ [' '] ++ unit

/-- the lines of the bins (rpe_result.py:168-183), before they are put into a dictionary -/
def driftLines [FloorRing K] (what : String) (unit distUnit : Str) (dists devs : List K) : List (Str × Str) :=
  (dists.zip devs).map (fun x =>
    (("Average " ++ what ++ " drift at ").toList ++ fmtFixed 3 x.1 ++ " (avg) ".toList ++ distUnit,
      withUnit unit x.2))

/-- the properties of the positions (rpe_result.py:192-207) -/
def positionDict [FloorRing K] (r : RpeResult K) : Except Err (List (Str × Str)) := do
  let dists ← r.meanPairDistances
  let means ← r.posDevMean
  let maxs ← r.posDevMax
  let max ← pyMax maxs
  let mins ← r.posDevMin
  let min ← pyMin mins
  let avg ← r.posRpe
  let meds ← r.posDevMedian
  let med ← npMedian meds
  let basic := [("Name".toList, r.name.toList), ("Type".toList, "RPEResult".toList),
    ("Number of pose pairs".toList, natStr r.len)]
  return strUpdate (strUpdate basic (strUpdate [] (driftLines "position" r.posUnit r.distUnit dists means)))
    [("Maximum Position Drift".toList, withUnit r.posUnit max), ("Minimum Position Drift".toList, withUnit r.posUnit min),
     ("Average Position Drift".toList, withUnit r.posUnit avg), ("Median Position Drift".toList, withUnit r.posUnit med)]

/-- `property_dict` (rpe_result.py:185-221); `deg` is `np.rad2deg` -/
def propertyDict [FloorRing K] (deg : K → K) (r : RpeResult K) : Except Err (List (Str × Str)) := do
  let pos ← r.positionDict
  if r.hasRotDev = false then return pos
  let dists ← r.meanPairDistances
  let rmeans ← r.rotDevMean
  let rmaxs ← r.rotDevMax
  let rmax ← pyMax rmaxs
  let rmins ← r.rotDevMin
  let rmin ← pyMin rmins
  let ravg ← r.rotRpe
  let rmeds ← r.rotDevMedian
  let rmed ← npMedian rmeds
  return strUpdate (strUpdate pos (strUpdate [] (driftLines "rotation" r.rotUnit r.distUnit dists (rmeans.map deg))))
    [("Maximum Rotation Drift".toList, withUnit r.rotUnit (deg rmax)), ("Minimum Rotation Drift".toList, withUnit r.rotUnit (deg rmin)),
     ("Average Rotation Drift".toList, withUnit r.rotUnit (deg ravg)), ("Median Rotation Drift".toList, withUnit r.rotUnit (deg rmed))]

/-- `__eq__` (rpe_result.py:36-40); `zip` stops at the shorter list -/
def eq [FloorRing K] (deg : K → K) (r s : RpeResult K) : Except Err Bool := do
  let a ← r.propertyDict deg
  let b ← s.propertyDict deg
  pyAssert ((a.zip b).all (fun p => decide (p.1.2 = p.2.2)))
  return true

end RpeResult

/-! ### arithmetic of parameters -/

namespace Param

/-- `__add__` (parameters.py:79-83); `counter` is the class variable `_cnt`, the rest has the values of the constructor -/
def add (sqrt : K → K) (counter : Nat) (p q : Param K) : Param K :=
  { raw := p.value + q.value, rawVar := sqrt (p.variance ^ 2 + q.variance ^ 2), default := 0, enabled := true,
    name := "Parameter " ++ toString counter, unit := .none }

/-- `__sub__` (parameters.py:73-77) -/
def sub (sqrt : K → K) (counter : Nat) (p q : Param K) : Param K :=
  { raw := p.value - q.value, rawVar := sqrt (p.variance ^ 2 + q.variance ^ 2), default := 0, enabled := true,
    name := "Parameter " ++ toString counter, unit := .none }

end Param

end TC
