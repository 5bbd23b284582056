import Verif.Model.Text
/-!
# File headers: `trajectopy_core/input_output/header.py`, `input_output/utils.py`
-/
namespace TC
variable {K : Type} [Field K] [LinearOrder K]

/-- `HEADER_KEYS` (header.py:20-39) -/
def headerKeys : List Str :=
  ["epsg", "name", "sorting", "state", "fields", "delimiter", "nframe", "type", "comparison_method",
   "relative_dist_unit", "num_pairs", "rot_unit", "time_format", "datetime_format",
   "datetime_timezone", "id", "gps_week", "time_offset"].map String.toList

/-- a value of the metadata dictionary (header.py:76) -/
inductive HVal (K : Type)
  | str (s : Str)
  | int (i : Int)
  | flt (x : K)
  deriving DecidableEq

/-- `default_line_handler` (header.py:42-43) -/
def defaultLineHandler (line : Str) : Str := pyJoin [' '] (pySplit line).tail

/-- `line.split()[1]` (header.py:47, 51) -/
def secondToken (line : Str) : Except Err Str :=
  match (pySplit line)[1]? with
  | some t => .ok t
  | none => .error .indexError

/-- `integer_line_handler` (header.py:46-47) -/
def integerLineHandler (line : Str) : Except Err Int := do
  let t ← secondToken line
  pyInt t

/-- `float_line_handler` (header.py:50-51) -/
def floatLineHandler (line : Str) : Except Err K := do
  let t ← secondToken line
  match (parseNum t : Option K) with
  | some v => .ok v
  | none => .error .valueError

/-- a quotation mark -/
def isQuote (c : Char) : Bool := c == '\'' || c == '"'

/-- the regular expression of `delimiter_line_handler` at the beginning of `s` (header.py:56) -/
def delimiterAt (s : Str) : Option Char :=
  let pre := "#delimiter ".toList
  if s.take pre.length = pre then
    match s.drop pre.length with
    | a :: c :: b :: _ => if isQuote a && isQuote b then some c else none
    | _ => none
  else none

/-- `re.search` (header.py:56): the first match -/
def searchDelimiter : Str → Option Char
  | [] => none
  | c :: cs => match delimiterAt (c :: cs) with
    | some d => some d
    | none => searchDelimiter cs

/-- `delimiter_line_handler` (header.py:54-61) -/
def delimiterLineHandler (line : Str) : Str :=
  match searchDelimiter line with
  | some d => [d]
  | none => [',']

/-- `HANDLER_MAPPING.get(keyword, HANDLER_MAPPING["default"])(line)` (header.py:64-70, 151) -/
def lineHandler (keyword line : Str) : Except Err (HVal K) :=
  if keyword = "epsg".toList ∨ keyword = "gps_week".toList then do
    let i ← integerLineHandler line
    return .int i
  else if keyword = "time_offset".toList then do
    let x ← floatLineHandler line
    return .flt x
  else if keyword = "delimiter".toList then .ok (.str (delimiterLineHandler line))
  else .ok (.str (defaultLineHandler line))

/-- the metadata dictionary; the front entry is the one assigned last -/
abbrev HMeta (K : Type) := List (Str × HVal K)

/-- `data.get(key)` (header.py:80-139) -/
def HMeta.get (m : HMeta K) (key : Str) : Option (HVal K) :=
  (m.find? (fun e => decide (e.1 = key))).map (fun e => e.2)

/-- the keyword of a header line: `line.split()[0][1:]`, for a line that starts with `#`
(header.py:144-148) -/
def lineKeyword (line : Str) : Option Str :=
  match line with
  | '#' :: _ => match pySplit line with
    | t :: _ => some t.tail
    | [] => none
  | _ => none

/-- `handle_line` (header.py:143-152) -/
def handleLine (m : HMeta K) (line : Str) : Except Err (HMeta K) :=
  match lineKeyword line with
  | none => .ok m
  | some keyword =>
    if keyword ∈ headerKeys then do
      let v ← lineHandler keyword line
      return (keyword, v) :: m
    else .ok m

/-- the loop over lines (header.py:167-168, 182-183) -/
def handleLines : HMeta K → List Str → Except Err (HMeta K)
  | m, [] => .ok m
  | m, l :: ls => do
    let m' ← handleLine m l
    handleLines m' ls

/-- `HeaderData.from_file` (header.py:153-170) -/
def headerFromFile (content : Str) : Except Err (HMeta K) := handleLines [] (fileLines content)

/-- `HeaderData.from_string` (header.py:172-186) -/
def headerFromString (s : Str) : Except Err (HMeta K) := handleLines [] (splitLines s)

namespace HMeta

/-- `str(self.data.get(key, default))` for a key whose handler gives strings (header.py:79-139) -/
def strOr (m : HMeta K) (key default : String) : Str :=
  match m.get key.toList with
  | some (.str s) => s
  | _ => default.toList

/-- `int(self.data.get(key, default))` for a key with the integer handler (header.py:83-84, 126-127) -/
def intOr (m : HMeta K) (key : String) (default : Int) : Int :=
  match m.get key.toList with
  | some (.int i) => i
  | _ => default

/-- `epsg` (header.py:83-85) -/
def epsg (m : HMeta K) : Int := m.intOr "epsg" 0
/-- `name` (header.py:87-89) -/
def name (m : HMeta K) : Str := m.strOr "name" "Trajectory"
/-- `rot_unit` (header.py:91-93) -/
def rotUnit (m : HMeta K) : Str := m.strOr "rot_unit" "rad"
/-- `fields` (header.py:95-97) -/
def fields (m : HMeta K) : List Str := pySplitOn ',' (m.strOr "fields" "t,px,py,pz,qx,qy,qz,qw")
/-- `delimiter` (header.py:99-101), one character -/
def delimiter (m : HMeta K) : Char :=
  match m.strOr "delimiter" "," with
  | c :: _ => c
  | [] => ','
/-- `nframe` (header.py:103-105) -/
def nframe (m : HMeta K) : Str := pyLower (m.strOr "nframe" "enu")
/-- `gps_week` (header.py:127-129); `now` is the week computed from the current date -/
def gpsWeek (m : HMeta K) (now : Int) : Int := m.intOr "gps_week" now
/-- `time_offset` (header.py:131-133) -/
def timeOffset (m : HMeta K) : K :=
  match m.get "time_offset".toList with
  | some (.flt x) => x
  | _ => 0
/-- `datetime_format` (header.py:135-137) -/
def datetimeFormat (m : HMeta K) : Str := m.strOr "datetime_format" "%Y-%m-%d %H:%M:%S.%f"
/-- `datetime_timezone` (header.py:139-141) -/
def datetimeTimezone (m : HMeta K) : Str := m.strOr "datetime_timezone" "UTC"
/-- `num_pairs` (header.py:119-121) -/
def numPairs (m : HMeta K) : Except Err (List Int) := mapE pyInt (pySplitOn ',' (m.strOr "num_pairs" "0"))

end HMeta

/-- `TimeFormat` (definitions.py:69-72) -/
inductive TimeFormat
  | unix
  | datetime
  | gpsSow
  deriving DecidableEq

/-- `time_format` (header.py:121-123, definitions.py:75-79) -/
def HMeta.timeFormat (m : HMeta K) : Except Err TimeFormat :=
  let s := pyLower (m.strOr "time_format" "unix")
  if s = "unix".toList then .ok .unix
  else if s = "datetime".toList then .ok .datetime
  else if s = "gps_sow".toList then .ok .gpsSow
  else .error .keyError

/-- `Unit.from_str` (definitions.py:27-51) -/
def unitFromStr (s : Str) : Except Err MUnit :=
  let l := pyLower s
  if l ∈ ["°", "deg", "degree"].map String.toList then .ok .degree
  else if l ∈ ["rad", "radian"].map String.toList then .ok .radian
  else if l ∈ ["m", "meter"].map String.toList then .ok .meter
  else if l ∈ ["s", "sec", "second"].map String.toList then .ok .second
  else if l ∈ ["-", "ppm", "scale"].map String.toList then .ok .scale
  else if s = [] then .ok .none
  else .error .valueError

/-- `Unit.name` (definitions.py:20-25) -/
def MUnit.name : MUnit → Str
  | .degree => "DEGREE".toList
  | .radian => "RADIAN".toList
  | .meter => "METER".toList
  | .second => "SECOND".toList
  | .scale => "SCALE".toList
  | .none => "NONE".toList

/-- `relative_dist_unit` (header.py:115-117) -/
def HMeta.relativeDistUnit (m : HMeta K) : Except Err MUnit :=
  unitFromStr (m.strOr "relative_dist_unit" "meter")

/-- one assignment of the loop in `get_rot_matrix` (utils.py:15-40): row `i`, the column of the
character; `find` gives `-1`, the last column, for other characters; there are three rows -/
def rotMatrixSet (flip : Bool) (M : M3 K) (i : Nat) (c : Char) : Except Err (M3 K) :=
  let col : Fin 3 := if c = 'e' then 0 else if c = 'n' then 1 else 2
  let value : K := if c = 'u' ∧ flip = true then -1 else 1
  if h : i < 3 then .ok (fun a b => if a = ⟨i, h⟩ ∧ b = col then value else M a b)
  else .error .indexError

/-- the loop of `get_rot_matrix` (utils.py:15-40) -/
def rotMatrixLoop (flip : Bool) : M3 K → Nat → Str → Except Err (M3 K)
  | M, _, [] => .ok M
  | M, i, c :: cs => do
    let M' ← rotMatrixSet flip M i c
    rotMatrixLoop flip M' (i + 1) cs

/-- `get_rot_matrix` (utils.py:15-40) -/
def getRotMatrix (nframe : Str) : Except Err (M3 K) :=
  let f := pyLower nframe
  if 'e' ∉ f ∨ 'n' ∉ f ∨ ('u' ∉ f ∧ 'd' ∉ f) then .error .valueError
  else rotMatrixLoop (decide ('d' ∈ f)) 0 0 (f.map (fun c => if c = 'd' then 'u' else c))

end TC
