import Verif.Model.Header
import Verif.Model.RotMat
import Mathlib.Algebra.Order.Field.Rat
/-!
# Trajectory files: `input_output/trajectory_io.py`, `Trajectory.to_file` and `from_file`
-/
namespace TC
variable {K R : Type} [Field K] [LinearOrder K]

/-- what reading and writing files needs from libraries and surroundings: scipy's quaternions and
Euler angles, `pd.to_datetime` with `tz_localize` and `timestamp` for a format, a time zone and a
string (trajectory_io.py:211-225), `GPS_WEEK_ZERO.timestamp()` (trajectory_io.py:243; depends on the
local time zone), the current GPS week (header.py:127) and the arc length norm of the
constructor -/
structure IoLib (K R : Type) where
  rot : RotLib K R
  asQuat : R → Q4 K
  fromQuat : Q4 K → Except Err R
  fromEuler : Bool → V3 K → R
  datetime : Str → Str → Str → Except Err K
  gpsEpoch : K
  gpsWeekNow : Int
  nrm : V3 K → K

/-! ### writing -/

/-- the four numbers of a quaternion -/
def Q4.cells (q : Q4 K) : List K := [q.x, q.y, q.z, q.w]
/-- the three numbers of a row -/
def V3.cells (v : V3 K) : List K := [v.x, v.y, v.z]

/-- the columns of the quaternions (trajectory.py:318-324): none without orientations -/
def quatColumn (io : IoLib K R) (n : Nat) : Option (List R) → List (List K)
  | none => List.replicate n []
  | some r => r.map (fun q => (io.asQuat q).cells)

/-- the array written by `to_file` (trajectory.py:298-328); `np.c_` raises `ValueError` for columns
of different length -/
def Traj.fileRows (io : IoLib K R) (T : Traj K R) : Except Err (List (List K)) :=
  let n := T.tstamps.length
  let quats := quatColumn io n T.rot
  if T.arc.length ≠ n ∨ T.pos.length ≠ n ∨ quats.length ≠ n ∨ T.speed.length ≠ n then .error .valueError
  else .ok ((T.tstamps.zip (T.arc.zip (T.pos.zip (quats.zip T.speed)))).map
    (fun s => s.1 :: s.2.1 :: (s.2.2.1.cells ++ s.2.2.2.1 ++ s.2.2.2.2.cells)))

/-- the lines of `write_header` (trajectory.py:308-314) -/
def Traj.fileHeader (T : Traj K R) : Str :=
  "#epsg ".toList ++ intStr T.epsg ++ ['\n'] ++
  ("#name ".toList ++ T.name.toList ++ ['\n']) ++
  "#nframe enu\n".toList ++
  ("#fields ".toList ++ (match T.rot with
    | none => "t,l,px,py,pz,vx,vy,vz".toList
    | some _ => "t,l,px,py,pz,qx,qy,qz,qw,vx,vy,vz".toList) ++ ['\n'])

/-- `open(filename, mode)` for writing: what the file contains before the first write;
`append = (mode == "a")` -/
def openMode (append : Bool) (old : Str) : Str := if append then old else []

/-- `to_file` (trajectory.py:298-328): the content of the file afterwards; `old` is its content
before.  The rows are built before the file is opened. -/
def Traj.toFile [FloorRing K] (io : IoLib K R) (T : Traj K R) (append : Bool) (old : Str) :
    Except Err Str := do
  let rows ← T.fileRows io
  return openMode append old ++ T.fileHeader ++ csvRows (rows.map (fun r => r.map (fmtFixed 9)))

/-! ### reading -/

/-- the number of columns: `data.shape[1]` (trajectory_io.py:40) -/
def tableWidth : List (List Str) → Nat
  | [] => 0
  | r :: _ => r.length

/-- `np.loadtxt(filename, comments="#")` (trajectory_io.py:48): an empty array for an empty file -/
def loadtxt (s : Str) : Except Err (List (List Str)) :=
  let rows := (dataLines s).map pySplit
  if rows.all (fun r => r.length == tableWidth rows) ∧
      rows.all (fun r => r.all (fun c => (parseNum c : Option ℚ).isSome)) then .ok rows
  else .error .valueError

/-- `a` or, if it raises, `b` (`try` ... `except Exception`, trajectory_io.py:37-48) -/
def orElse {α : Type} (a b : Except Err α) : Except Err α :=
  match a with
  | .ok x => .ok x
  | .error _ => b

/-- `read_data` (trajectory_io.py:24-49) with `dtype=object`: the cells are not converted -/
def readData (content : Str) : Except Err (HMeta K × List (List Str)) := do
  let h ← headerFromFile content
  let first : Except Err (List (List Str)) := do
    let rows ← readCsv h.delimiter content
    if tableWidth rows = 1 then readCsvSpace content else return rows
  let data ← orElse first (orElse (readCsvSpace content) (loadtxt content))
  return (h, data)

/-- `read_string` (trajectory_io.py:52-78) with `dtype=object`.  All attempts read from the same
`StringIO`; the first one leaves it at its end, so the others see an empty text. -/
def readString (input : Str) : Except Err (HMeta K × List (List Str)) := do
  let h ← headerFromString input
  let first : Except Err (List (List Str)) := do
    let rows ← readCsv h.delimiter input
    if tableWidth rows = 1 then readCsvSpace [] else return rows
  let data ← orElse first (orElse (readCsvSpace []) (loadtxt []))
  return (h, data)

/-- `header_data.fields.index(name)` (trajectory_io.py:121) -/
def fieldIndex (fields : List Str) (name : String) : Except Err Nat :=
  match fields.findIdx? (fun f => decide (f = name.toList)) with
  | some i => .ok i
  | none => .error .valueError

/-- `trajectory_data[:, i]` as strings: `IndexError` if there is no such column -/
def cellsAt (data : List (List Str)) (i : Nat) : Except Err (List Str) :=
  if data = [] then .error .indexError
  else mapE (fun row : List Str => match row[i]? with
    | some c => .ok c
    | none => .error .indexError) data

/-- a cell that has to be a number: trajectories with `nan` entries are outside the model, they
are reported as `valueError` -/
def cellVal (c : Str) : Except Err K := do
  let v ← cellNum c
  match v with
  | some x => .ok x
  | none => .error .valueError

/-- `trajectory_data[:, fields.index(name)].astype(float)` -/
def numCol (h : HMeta K) (data : List (List Str)) (name : String) : Except Err (List K) := do
  let i ← fieldIndex h.fields name
  let cs ← cellsAt data i
  mapE cellVal cs

/-- three columns (trajectory_io.py:259-266, 297-304) -/
def numCol3 (h : HMeta K) (data : List (List Str)) (a b c : String) : Except Err (List (V3 K)) := do
  let xs ← numCol h data a
  let ys ← numCol h data b
  let zs ← numCol h data c
  return (xs.zip (ys.zip zs)).map (fun s => ⟨s.1, s.2.1, s.2.2⟩)

/-- `extract_quaternions` (trajectory_io.py:109-129); `from_quat` rejects an empty array and
quaternions of length zero -/
def extractQuaternions (io : IoLib K R) (h : HMeta K) (data : List (List Str)) : Except Err (List R) := do
  let xyz ← numCol3 h data "qx" "qy" "qz"
  let ws ← numCol h data "qw"
  mapE io.fromQuat ((xyz.zip ws).map (fun s => ⟨s.1.x, s.1.y, s.1.z, s.2⟩))

/-- `extract_euler_angles` (trajectory_io.py:132-153) -/
def extractEuler (io : IoLib K R) (h : HMeta K) (data : List (List Str)) : Except Err (List R) := do
  let es ← numCol3 h data "ex" "ey" "ez"
  return es.map (io.fromEuler (decide (h.rotUnit = "deg".toList)))

/-- all names occur among the fields -/
def hasFields (h : HMeta K) (names : List String) : Bool :=
  names.all (fun n => decide (n.toList ∈ h.fields))

/-- `extract_trajectory_rotations` (trajectory_io.py:81-106) -/
def extractRotations (io : IoLib K R) (h : HMeta K) (data : List (List Str)) :
    Except Err (Option (List R)) := do
  let rot ← if hasFields h ["qx", "qy", "qz", "qw"] then do
      let r ← extractQuaternions io h data
      pure (some r)
    else if hasFields h ["ex", "ey", "ez"] then do
      let r ← extractEuler io h data
      pure (some r)
    else pure none
  match rot with
  | none => return none
  | some r => do
    let M ← getRotMatrix h.nframe
    return some (r.map (io.rot.mul (io.rot.fromMat M)))

/-- the positions of the fields called `t` (trajectory_io.py:167) -/
def timeColumns (h : HMeta K) : List Nat :=
  (h.fields.zipIdx.filter (fun f => decide (f.1 = "t".toList))).map (fun f => f.2)

/-- `trajectory_data[:, columns]`, row by row -/
def cellsRows (data : List (List Str)) (cols : List Nat) : Except Err (List (List Str)) :=
  if data = [] then .error .indexError
  else mapE (fun row : List Str => mapE (fun i => match row[i]? with
    | some c => .ok c
    | none => .error .indexError) cols) data

/-- `parse_datetime` (trajectory_io.py:196-225).  (A date column that pandas reads as numbers makes
`" ".join` raise; that is left out.) -/
def parseDatetime (io : IoLib K R) (h : HMeta K) (data : List (List Str)) : Except Err (List K) := do
  let rows ← cellsRows data (timeColumns h)
  let gps := decide ((h.datetimeTimezone.map Char.toUpper) = "GPS".toList)
  let tz := if gps then "UTC".toList else h.datetimeTimezone
  let ts ← mapE (fun r => io.datetime h.datetimeFormat tz (pyJoin [' '] r)) rows
  return if gps then ts.map (fun t => t - 18) else ts

/-- `parse_gps_sow` (trajectory_io.py:228-244) -/
def parseGpsSow (io : IoLib K R) (h : HMeta K) (data : List (List Str)) : Except Err (List K) := do
  let rows ← cellsRows data (timeColumns h)
  let nums ← mapE (mapE cellVal) rows
  return nums.flatten.map (fun s => s + (h.gpsWeek io.gpsWeekNow : K) * 604800 - 18 + io.gpsEpoch)

/-- `extract_trajectory_timestamps` (trajectory_io.py:156-193) -/
def extractTimestamps (io : IoLib K R) (h : HMeta K) (data : List (List Str)) : Except Err (List K) := do
  let fmt ← h.timeFormat
  let cols := timeColumns h
  if fmt = .unix ∧ cols.length = 1 then do
    let ts ← numCol h data "t"
    return ts.map (fun t => t + h.timeOffset)
  else if fmt = .datetime ∧ cols ≠ [] then do
    let ts ← parseDatetime io h data
    return ts.map (fun t => t + h.timeOffset)
  else if fmt = .gpsSow ∧ cols ≠ [] then do
    let ts ← parseGpsSow io h data
    return ts.map (fun t => t + h.timeOffset)
  else return (List.range data.length).map (fun i : Nat => (i : K))

/-- `extract_trajectory_speed` (trajectory_io.py:247-268) -/
def extractSpeed (h : HMeta K) (data : List (List Str)) : Except Err (Option (List (V3 K))) :=
  if hasFields h ["vx", "vy", "vz"] then do
    let v ← numCol3 h data "vx" "vy" "vz"
    return some v
  else .ok none

/-- `extract_trajectory_arc_lengths` (trajectory_io.py:271-281) -/
def extractArc (h : HMeta K) (data : List (List Str)) : Except Err (Option (List K)) :=
  if hasFields h ["l"] then do
    let l ← numCol h data "l"
    return some l
  else .ok none

/-- `extract_trajectory_pointset` (trajectory_io.py:284-307), positions only -/
def extractPositions (h : HMeta K) (data : List (List Str)) : Except Err (List (V3 K)) :=
  numCol3 h data "px" "py" "pz"

/-- the constructor call of `from_file` (trajectory.py:143-184) -/
def Traj.fromTable (io : IoLib K R) (counter : Nat) (h : HMeta K) (data : List (List Str)) :
    Except Err (Traj K R) := do
  let ts ← extractTimestamps io h data
  let pos ← extractPositions h data
  let arc ← extractArc h data
  let speed ← extractSpeed h data
  let rot ← extractRotations io h data
  Traj.new io.nrm counter
    { pos := pos
      epsg := h.epsg
      rot := rot
      tstamps := some ts
      name := String.ofList h.name
      arc := arc
      speed := speed }

/-- `Trajectory.from_file(filename)` (trajectory.py:144-184); `content` is the file -/
def Traj.fromFile (io : IoLib K R) (counter : Nat) (content : Str) : Except Err (Traj K R) := do
  let (h, data) ← readData content
  Traj.fromTable io counter h data

/-- `Trajectory.from_file(text, io_stream=True)` (trajectory.py:144-184) -/
def Traj.fromStream (io : IoLib K R) (counter : Nat) (input : Str) : Except Err (Traj K R) := do
  let (h, data) ← readString input
  Traj.fromTable io counter h data

end TC
