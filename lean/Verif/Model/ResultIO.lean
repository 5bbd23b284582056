import Verif.Model.TrajIO
import Verif.Model.Stats
/-!
# Files of results: `RPEResult.to_file` / `from_file`, `ATEResult.to_file` / `from_file`

Both `to_file` methods write the header lines and close the file before the table is built and
appended; here only the content after a call that returns is described.
-/
namespace TC
variable {K R : Type} [Field K] [LinearOrder K]

namespace RpeResult

/-- `columns` (rpe_result.py:223-228) -/
def columns (r : RpeResult K) : List Str :=
  if r.hasRotDev then ["pair_distance", "pos_dev", "rot_dev"].map String.toList
  else ["pair_distance", "pos_dev"].map String.toList

/-- `get_all` (rpe_result.py:144-154) -/
def getAll (r : RpeResult K) (sel : RpeGroup K → List (Option K)) : List (Option K) :=
  (r.groups.map sel).flatten

/-- `to_dataframe` (rpe_result.py:230-236): `np.c_` raises `ValueError` for columns of different
length -/
def frameRows (r : RpeResult K) : Except Err (List (List (Option K))) :=
  let d := r.getAll (fun g => g.pairDist.map some)
  let p := r.getAll RpeGroup.posDev
  let q := r.getAll RpeGroup.rotDev
  if r.hasRotDev then
    if p.length = d.length ∧ q.length = d.length then
      .ok ((d.zip (p.zip q)).map (fun s => [s.1, s.2.1, s.2.2]))
    else .error .valueError
  else if p.length = d.length then .ok ((d.zip p).map (fun s => [s.1, s.2]))
  else .error .valueError

/-- the lines before the table (rpe_result.py:240-245); `csv.writer` ends its row with `\r\n` -/
def fileHeader (r : RpeResult K) : Str :=
  "#relative_dist_unit ".toList ++ r.unit.name ++ ['\n'] ++ ("#name ".toList ++ r.name.toList ++ ['\n']) ++
  ("#num_pairs ".toList ++ pyJoin [','] (r.numPairs.map natStr) ++ ['\r', '\n'])

/-- `to_file` (rpe_result.py:238-246), `append = (mode == "a")` -/
def toFile [FloorRing K] (r : RpeResult K) (append : Bool) (old : Str) : Except Err Str := do
  let rows ← r.frameRows
  return openMode append old ++ r.fileHeader ++ csvRows (r.columns :: rows.map (fun c => c.map (fmtCell 12)))

end RpeResult

/-- `d[key] = value` for the three dictionaries of `from_file` (rpe_result.py:248-279): an existing
key keeps its place -/
def setGroup (g : RpeGroup K) : List (RpeGroup K) → List (RpeGroup K)
  | [] => [g]
  | h :: t => if h.key = g.key then g :: t else h :: setGroup g t

/-- one pass of the loop in `from_file` (rpe_result.py:248-279).  The mean of an empty block, or of
one with a missing distance, is `nan` in numpy; such keys are left out, the model raises. -/
def readGroup (f : List Str × List (List Str)) (start count : Nat) : Except Err (RpeGroup K) := do
  let block := (f.1, (f.2.drop start).take count)
  let dists ← column block "pair_distance".toList
  let pos ← column block "pos_dev".toList
  let rot ← if "rot_dev".toList ∈ f.1 then column block "rot_dev".toList else .ok []
  let ds ← numbers dists
  let m ← npMean ds
  return { key := m, posDev := pos, rotDev := rot, pairDist := ds }

/-- the loop in `from_file` (rpe_result.py:248-279).  Negative counts are left out, they raise
here. -/
def readGroups (f : List Str × List (List Str)) : Nat → List Int → List (RpeGroup K) →
    Except Err (List (RpeGroup K))
  | _, [], acc => .ok acc
  | start, n :: ns, acc =>
    if n < 0 then .error .valueError
    else do
      let g ← readGroup f start n.toNat
      readGroups f (start + n.toNat) ns (setGroup g acc)

/-- `from_file` (rpe_result.py:248-279) -/
def RpeResult.fromFile (content : Str) : Except Err (RpeResult K) := do
  let h : HMeta K ← headerFromFile content
  let f ← readFrame content
  let ns ← h.numPairs
  let groups ← readGroups f 0 ns []
  let u ← h.relativeDistUnit
  return { name := String.ofList h.name, groups := groups, unit := u }

namespace AteResult

/-- the names of quaternion columns -/
def quatNames (pre : String) : List Str :=
  ["x", "y", "z", "w"].map (fun s => pre.toList ++ s.toList)

/-- the quaternions written for the trajectory (ate_result.py:445-446): `has_orientation` asks for
at least one rotation -/
def trajRot (r : AteResult K R) : Option (List R) :=
  if r.trajectory.hasOrientation then r.trajectory.rot else none

/-- `columns` (ate_result.py:370-397) -/
def columns (r : AteResult K R) : List Str :=
  ["time", "arc_lengths", "pos_x", "pos_y", "pos_z"].map String.toList ++
  (match r.trajRot with
    | some _ => quatNames "rot_"
    | none => []) ++
  ["pos_dev_x", "pos_dev_y", "pos_dev_z", "pos_dev_along", "pos_dev_cross_h", "pos_dev_cross_v"].map
    String.toList ++
  (match r.rotDev with
    | some _ => quatNames "rot_dev_"
    | none => [])

/-- `to_dataframe` (ate_result.py:435-455): `np.c_` raises `ValueError` for columns of different
length -/
def frameRows (io : IoLib K R) (r : AteResult K R) : Except Err (List (List K)) :=
  let T := r.trajectory
  let n := T.tstamps.length
  let q := quatColumn io n r.trajRot
  let d := quatColumn io n r.rotDev
  if T.arc.length = n ∧ T.pos.length = n ∧ q.length = n ∧ r.posDev.length = n ∧ r.directed.length = n ∧
      d.length = n then
    .ok ((T.tstamps.zip (T.arc.zip (T.pos.zip (q.zip (r.posDev.zip (r.directed.zip d)))))).map
      (fun s => s.1 :: s.2.1 :: (s.2.2.1.cells ++ s.2.2.2.1 ++ (s.2.2.2.2.1.cells ++ s.2.2.2.2.2.1.cells) ++
        s.2.2.2.2.2.2)))
  else .error .valueError

/-- `to_file` (ate_result.py:457-464), `append = (mode == "a")` -/
def toFile [FloorRing K] (io : IoLib K R) (r : AteResult K R) (append : Bool) (old : Str) : Except Err Str := do
  let rows ← r.frameRows io
  return openMode append old ++ ("#name ".toList ++ r.name.toList ++ ['\n']) ++
    ("#epsg ".toList ++ intStr r.trajectory.epsg ++ ['\n']) ++
    csvRows (r.columns :: rows.map (fun c => c.map (fmtFixed 12)))

end AteResult

/-- a column of numbers (ate_result.py:404-405); missing values are left out, they raise here -/
def numColumn (f : List Str × List (List Str)) (name : Str) : Except Err (List K) := do
  let c ← column f name
  numbers c

/-- three columns (ate_result.py:406, 414-417) -/
def numColumn3 (f : List Str × List (List Str)) (a b c : Str) : Except Err (List (V3 K)) := do
  let xs ← numColumn f a
  let ys ← numColumn f b
  let zs ← numColumn f c
  return (xs.zip (ys.zip zs)).map (fun s => ⟨s.1, s.2.1, s.2.2⟩)

/-- rotations from four columns if they are all there (ate_result.py:408-412, 419-423); `from_quat`
refuses an empty array -/
def quatColumns (io : IoLib K R) (f : List Str × List (List Str)) (pre : String) :
    Except Err (Option (List R)) :=
  if (AteResult.quatNames pre).all (fun c => decide (c ∈ f.1)) then do
    let xyz ← numColumn3 f (pre.toList ++ ['x']) (pre.toList ++ ['y']) (pre.toList ++ ['z'])
    let ws ← numColumn f (pre.toList ++ ['w'])
    if f.2 = [] then throw Err.valueError
    let r ← mapE io.fromQuat ((xyz.zip ws).map (fun s => ⟨s.1.x, s.1.y, s.1.z, s.2⟩))
    return some r
  else .ok none

/-- `from_file` (ate_result.py:399-433): the result takes its name from the trajectory, the
trajectory its speeds from the constructor -/
def AteResult.fromFile (io : IoLib K R) (counter : Nat) (content : Str) : Except Err (AteResult K R) := do
  let h : HMeta K ← headerFromFile content
  let f ← readFrame content
  let ts ← numColumn f "time".toList
  let arc ← numColumn f "arc_lengths".toList
  let pos ← numColumn3 f "pos_x".toList "pos_y".toList "pos_z".toList
  let rot ← quatColumns io f "rot_"
  let posDev ← numColumn3 f "pos_dev_x".toList "pos_dev_y".toList "pos_dev_z".toList
  let directed ← numColumn3 f "pos_dev_along".toList "pos_dev_cross_h".toList "pos_dev_cross_v".toList
  let rotDev ← quatColumns io f "rot_dev_"
  let T ← Traj.new io.nrm counter
    { pos := pos
      epsg := h.epsg
      rot := rot
      tstamps := some ts
      name := String.ofList h.name
      arc := some arc }
  return { name := T.name, trajectory := T, posDev := posDev, directed := directed, rotDev := rotDev,
           rotationsUsed := false }

end TC
