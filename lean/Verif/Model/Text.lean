import Verif.Model.Eval
import Mathlib.Algebra.Order.Floor.Defs
import Mathlib.Algebra.Order.Floor.Ring
/-!
# Text files

A text file is its decoded content, a list of characters.  UTF-8 decoding, the operating system and
I/O errors are left out.  What Python's `str` methods, `print`-style number formatting, `open` and
`pandas.read_csv` / `DataFrame.to_csv` do to the characters is spelled out here, restricted to
what the code uses.
-/
namespace TC

/-- the characters of a string or file -/
abbrev Str := List Char

/-! ### `str` methods -/

/-- the characters at which `str.split()` splits (call site header.py:43): Unicode white space -/
def pySpace (c : Char) : Bool :=
  let n := c.toNat
  (9 ≤ n && n ≤ 13) || (28 ≤ n && n ≤ 32) || n == 133 || n == 160 || n == 5760 ||
  (8192 ≤ n && n ≤ 8202) || n == 8232 || n == 8233 || n == 8239 || n == 8287 || n == 12288

/-- `s.split()` (header.py:43): the maximal pieces without white space; `acc` is the piece being
read -/
def pySplitAux : Str → Str → List Str
  | [], acc => if acc = [] then [] else [acc]
  | c :: cs, acc =>
    if pySpace c then (if acc = [] then pySplitAux cs [] else acc :: pySplitAux cs [])
    else pySplitAux cs (acc ++ [c])

/-- `s.split()` (header.py:43, 47, 51, 147) -/
def pySplit (s : Str) : List Str := pySplitAux s []

/-- `s.split(sep)` for one character (header.py:95, 119): the piece before the first separator is
the accumulator -/
def pySplitOnAux (sep : Char) : Str → Str → List Str
  | [], acc => [acc]
  | c :: cs, acc => if c = sep then acc :: pySplitOnAux sep cs [] else pySplitOnAux sep cs (acc ++ [c])

/-- `s.split(sep)` (header.py:95, 119) -/
def pySplitOn (sep : Char) (s : Str) : List Str := pySplitOnAux sep s []

/-- `sep.join(parts)` (header.py:43) -/
def pyJoin (sep : Str) : List Str → Str
  | [] => []
  | [p] => p
  | p :: q :: ps => p ++ sep ++ pyJoin sep (q :: ps)

/-- `s.lower()` (header.py:103, 107, 123) for ASCII letters; other characters are left as they are
(simplification) -/
def pyLower (s : Str) : Str := s.map Char.toLower

/-- `s.strip()`, done by `int(s)` and `float(s)` -/
def pyStrip (s : Str) : Str :=
  ((s.dropWhile pySpace).reverse.dropWhile pySpace).reverse

/-! ### Lines -/

/-- universal newlines: `\r\n` and `\r` become `\n`; the flag says that the last character was
`\r` -/
def newlines : Bool → Str → Str
  | _, [] => []
  | cr, c :: cs =>
    if c = '\r' then '\n' :: newlines true cs
    else if c = '\n' ∧ cr = true then newlines false cs
    else c :: newlines false cs

/-- the pieces ended by `brk`, a last piece without end counts if it is not empty; `acc` is the
piece being read -/
def linesAux (brk : Char → Bool) : Str → Str → List Str
  | [], acc => if acc = [] then [] else [acc]
  | c :: cs, acc => if brk c then acc :: linesAux brk cs [] else linesAux brk cs (acc ++ [c])

/-- the lines of a file opened as text (header.py:166-168; pandas ends rows at the same places),
without their ends -/
def fileLines (s : Str) : List Str := linesAux (fun c => c == '\n') (newlines false s) []

/-- the characters at which `str.splitlines` ends a line (call site header.py:182), apart from the
two-character end `\r\n` -/
def lineBreak (c : Char) : Bool :=
  let n := c.toNat
  (10 ≤ n && n ≤ 13) || (28 ≤ n && n ≤ 30) || n == 133 || n == 8232 || n == 8233

/-- `s.splitlines()` (header.py:182) -/
def splitLines (s : Str) : List Str := linesAux lineBreak (newlines false s) []

/-! ### Numbers -/

/-- a decimal digit character -/
def isDig (c : Char) : Bool := 48 ≤ c.toNat && c.toNat ≤ 57

/-- the character of a digit -/
def digitChar (d : Nat) : Char := Char.ofNat (48 + d)

/-- the digits of `n`, with fuel -/
def natStrAux : Nat → Nat → Str
  | 0, n => [digitChar (n % 10)]
  | k + 1, n => if n < 10 then [digitChar n] else natStrAux k (n / 10) ++ [digitChar (n % 10)]

/-- `str(n)` for a natural number (f-strings trajectory.py:311, ate_result.py:463; csv.writer
rpe_result.py:245) -/
def natStr (n : Nat) : Str := natStrAux n n

/-- `str(i)` for an integer (trajectory.py:311, ate_result.py:463) -/
def intStr (i : Int) : Str := if i < 0 then '-' :: natStr i.natAbs else natStr i.natAbs

/-- exactly `d` digits, leading zeros included -/
def fixStr : Nat → Nat → Str
  | 0, _ => []
  | d + 1, n => fixStr d (n / 10) ++ [digitChar (n % 10)]

/-- the value of a string of digits -/
def digitsVal (s : Str) : Nat := s.foldl (fun a c => 10 * a + (c.toNat - 48)) 0

/-- `int(s)` (header.py:47, 119): surrounding white space, a sign and decimal digits.  Underscores
between digits and non-ASCII digits are left out (simplification: they raise here). -/
def pyInt (s : Str) : Except Err Int :=
  match pyStrip s with
  | '-' :: r => if r ≠ [] ∧ r.all isDig then .ok (-(digitsVal r : Int)) else .error .valueError
  | '+' :: r => if r ≠ [] ∧ r.all isDig then .ok (digitsVal r) else .error .valueError
  | r => if r ≠ [] ∧ r.all isDig then .ok (digitsVal r) else .error .valueError

variable {K : Type} [Field K] [LinearOrder K]

/-- round a number `≥ 0` to the nearest natural number, ties to even -/
def roundEven [FloorRing K] (x : K) : Nat :=
  let f := ⌊x⌋.toNat
  if 2 * (x - (f : K)) < 1 then f
  else if 1 < 2 * (x - (f : K)) then f + 1
  else if f % 2 = 0 then f else f + 1

/-- `'%.df' % x` (`float_format` in trajectory.py:328, ate_result.py:464, rpe_result.py:246) -/
def fmtFixed [FloorRing K] (d : Nat) (x : K) : Str :=
  let n := roundEven (|x| * 10 ^ d)
  (if x < 0 then ['-'] else []) ++ natStr (n / 10 ^ d) ++ '.' :: fixStr d (n % 10 ^ d)

/-- digits with an optional decimal point -/
def parseDec (s : Str) : Option K :=
  let ip := s.takeWhile isDig
  match s.dropWhile isDig with
  | [] => if ip = [] then none else some (digitsVal ip : K)
  | '.' :: fp =>
    if fp.all isDig ∧ ¬(ip = [] ∧ fp = []) then
      some ((digitsVal ip : K) + (digitsVal fp : K) / 10 ^ fp.length)
    else none
  | _ => none

/-- the exponent marker -/
def isExp (c : Char) : Bool := c == 'e' || c == 'E'

/-- digits with an optional decimal point and an optional exponent -/
def parseExp (s : Str) : Option K :=
  match s.dropWhile (fun c => !isExp c) with
  | [] => parseDec s
  | _ :: ex =>
    match (parseDec (s.takeWhile (fun c => !isExp c)) : Option K), pyInt ex with
    | some v, .ok k => some (v * 10 ^ k)
    | _, _ => none

/-- a number in a file (pandas and `float(s)`, header.py:51): optional sign, digits, optional
decimal point, optional exponent; `inf` and thousands separators are left out.  The value is exact;
pandas' default converter may be off in the last binary digit. -/
def parseNum (s : Str) : Option K :=
  match s with
  | '-' :: r => (parseExp r).map (fun v => -v)
  | '+' :: r => parseExp r
  | r => parseExp r

/-- the strings pandas reads as missing values (`nan`), a selection -/
def naStrings : List Str :=
  ["", "nan", "NaN", "-nan", "-NaN", "NA", "N/A", "n/a", "<NA>", "NULL", "null", "None"].map String.toList

/-- one cell of a numeric column: `none` is `nan`; a cell that is not a number makes the
conversion `to_numpy(dtype=float)` / `astype(float)` raise `ValueError` -/
def cellNum (s : Str) : Except Err (Option K) :=
  if pyStrip s ∈ naStrings then .ok none
  else match (parseNum (pyStrip s) : Option K) with
    | some v => .ok (some v)
    | none => .error .valueError

/-- a cell as written by `to_csv`: `nan` becomes an empty cell.  `inf`, also `none` in this model,
would be written as `inf` and read back as such. -/
def fmtCell [FloorRing K] (d : Nat) : Option K → Str
  | some x => fmtFixed d x
  | none => []

/-! ### csv -/

/-- one row as written by `to_csv` (trajectory.py:328, ate_result.py:464, rpe_result.py:246).
Numbers and the column names used need no quotes. -/
def csvRow (cells : List Str) : Str := pyJoin [','] cells ++ ['\n']

/-- the rows written by `to_csv` -/
def csvRows (rows : List (List Str)) : Str := (rows.map csvRow).flatten

/-- the part of a line before a comment (`comment="#"`, trajectory_io.py:38) -/
def stripComment (l : Str) : Str := l.takeWhile (fun c => c != '#')

/-- the lines that contain data: comments removed, blank lines skipped -/
def dataLines (s : Str) : List Str :=
  ((fileLines s).map stripComment).filter (fun l => !l.all pySpace)

/-- rows as wide as the first one: shorter rows are filled with empty cells, a longer one raises
(pandas' `ParserError`, here `valueError`); no rows at all raise (`EmptyDataError`) -/
def rectangular : List (List Str) → Except Err (List (List Str))
  | [] => .error .valueError
  | r :: rs =>
    if rs.all (fun q => q.length ≤ r.length) then
      .ok (r :: rs.map (fun q => q ++ List.replicate (r.length - q.length) []))
    else .error .valueError

/-- `pd.read_csv(..., comment="#", header=None, sep=delimiter)` (trajectory_io.py:38): the cells as
strings.  Quoted cells are left out (simplification: quotes are ordinary characters). -/
def readCsv (sep : Char) (s : Str) : Except Err (List (List Str)) :=
  rectangular ((dataLines s).map (pySplitOn sep))

/-- `pd.read_csv(..., comment="#", header=None, delim_whitespace=True)` (trajectory_io.py:42, 45) -/
def readCsvSpace (s : Str) : Except Err (List (List Str)) :=
  rectangular ((dataLines s).map pySplit)

/-- `pd.read_csv(filename, comment="#")` (ate_result.py:402, rpe_result.py:252): the first row
holds the column names -/
def readFrame (s : Str) : Except Err (List Str × List (List Str)) := do
  let rows ← readCsv ',' s
  match rows with
  | [] => throw Err.valueError
  | h :: rs => return (h, rs)

/-- `frame[name].to_numpy(dtype=float)` (ate_result.py:404, rpe_result.py:261): `KeyError` if there
is no such column -/
def column (f : List Str × List (List Str)) (name : Str) : Except Err (List (Option K)) :=
  match f.1.findIdx? (fun c => decide (c = name)) with
  | none => .error .keyError
  | some i => mapE (fun row : List Str => match row[i]? with
    | some c => cellNum c
    | none => .error .indexError) f.2

end TC
