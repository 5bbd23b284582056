import Verif.Model.Params
import Verif.Model.ResultIO
/-!
# Files of alignment parameters and results (alignment/parameters.py, alignment/result.py)

`repr` is Python's shortest decimal representation of a float, used by `to_csv` without
`float_format` and by f-strings.
-/
namespace TC
variable {K : Type} [Field K] [LinearOrder K]

namespace AlignParams

/-- `to_file` (parameters.py:505-531): the rows of `np.c_[values, covariance_matrix]`; the columns
must have equal length -/
def toFile (repr : K → Str) (s : PSet K) : Except Err Str :=
  if s.cov.length = s.values.length then
    .ok (csvRows ((s.values.zip s.cov).map (fun x => (x.1 :: x.2).map repr)))
  else .error .valueError

/-- the rows of `to_dataframe` (parameters.py:533-534); `True` becomes `1.0`, `False` `0.0` -/
def frameRows (s : PSet K) : Except Err (List (List K)) :=
  if s.cov.length = s.values.length then
    .ok ((s.values.zip (s.enabledBoolList.zip s.cov)).map
      (fun x => x.1 :: (if x.2.1 then 1 else 0) :: x.2.2))
  else .error .valueError

/-- `frame.iloc[:, i]` (parameters.py:547-548, 621, 623): a table that is too narrow raises.  Missing
values are `none`. -/
def tableCol (i : Nat) (rows : List (List Str)) : Except Err (List (Option K)) :=
  mapE (fun row : List Str => match row[i]? with
    | some c => cellNum c
    | none => .error .indexError) rows

/-- `from_file` after reading the table (parameters.py:546-551).  Missing values among the values or in
the matrix are left out, they raise here. -/
def fromRows (rows : List (List Str)) : Except Err (PSet K) := do
  let top := rows.take 11
  let c0 ← tableCol (K := K) 0 top
  let vs ← numbers c0
  let s ← (new : PSet K).setValues vs
  let c1 ← tableCol (K := K) 1 top
  let t := s.setEnabledBoolList (c1.map (fun x => decide (x ≠ some 0)))
  let cov ← mapE (fun row : List Str => do
    let cs ← mapE cellNum (row.drop 2)
    numbers cs) top
  t.setCovariance cov

/-- `from_file` (parameters.py:536-551) -/
def fromFile (content : Str) : Except Err (PSet K) := do
  let rows ← readCsv ',' content
  fromRows rows

end AlignParams

namespace SensorParams

/-- the rows written by `to_file` (parameters.py:627-631) -/
def fileRows (repr : K → Str) (s : PSet K) : List (List Str) :=
  s.params.map (fun p => [repr p.value, natStr (if p.enabled then 1 else 0)])

/-- `from_file` after reading the table (parameters.py:618-625).  Missing values are left out, they
raise here. -/
def fromRows (rows : List (List Str)) : Except Err (PSet K) := do
  if rows.length ≠ 14 then throw Err.valueError
  let rest := rows.drop 11
  let c1 ← AlignParams.tableCol (K := K) 1 rest
  let c0 ← AlignParams.tableCol (K := K) 0 rest
  let vs ← numbers c0
  let s ← (new : PSet K).setValues vs
  return s.setEnabledBoolList (c1.map (fun x => decide (x ≠ some 0)))

/-- `from_file` (parameters.py:615-625) -/
def fromFile (content : Str) : Except Err (PSet K) := do
  let rows ← readCsv ',' content
  fromRows rows

end SensorParams

/-- `AlignmentResult` (result.py:17-23) -/
structure AlignResult (K : Type) where
  name : String := "Alignment Result"
  position : PSet K
  rotation : PSet K
  estimationOf : EstSettings
  converged : Bool := true
  deriving DecidableEq

namespace AlignResult

/-- `to_file` (result.py:39-55): always appends; `old` is the content of the file before.  The header
line is written before the table is built; only the content after a call that returns is described. -/
def toFile [FloorRing K] (repr : K → Str) (r : AlignResult K) (old : Str) : Except Err Str := do
  let rows ← AlignParams.frameRows r.position
  return old ++ ("#name ".toList ++ r.name.toList ++ ['\n']) ++
    csvRows (rows.map (fun c => c.map (fmtFixed 15))) ++ csvRows (SensorParams.fileRows repr r.rotation)

/-- `from_file` (result.py:57-79): `converged` keeps its default value -/
def fromFile (content : Str) : Except Err (AlignResult K) := do
  let h : HMeta K ← headerFromFile content
  let p ← AlignParams.fromFile content
  let s ← SensorParams.fromFile content
  let e ← EstSettings.fromBoolList (p.enabledBoolList ++ s.enabledBoolList)
  return { name := String.ofList (h.strOr "name" "Alignment"), position := p, rotation := s, estimationOf := e }

end AlignResult

end TC
