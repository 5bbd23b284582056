import Verif.Model.SettingsDict
import Verif.Model.Text
/-!
# The text of a settings file

`json.dumps(d, indent=4)` and `json.load(f)` (settings/base.py:38-43, 60-65), character by character, as
Python's `json` module does it.

Simplified: floats are finite (`NaN` and `Infinity` are refused when reading, Python accepts them); the
text of a float (`float.__repr__`) and its value (`float(text)`) are given by a library; a `\u` escape of
one half of a surrogate pair alone is refused (Python makes a string that cannot be encoded of it); the
limits of Python for nesting and for the digits of integers are left out.
-/
namespace TC
namespace Settings
variable {K : Type}

/-- `float.__repr__(x)` and `float(text)` (call sites settings/base.py:39, 63) -/
structure FloatText (K : Type) where
  repr : K → Str
  read : Str → K

/-! ### Writing -/

/-- a hexadecimal digit, lower case (settings/base.py:39) -/
def hexChar (d : Nat) : Char := if d < 10 then Char.ofNat (48 + d) else Char.ofNat (87 + d)

/-- `'\\u{0:04x}'.format(n)` (settings/base.py:39) -/
def uEscape (n : Nat) : Str :=
  ['\\', 'u', hexChar (n / 4096 % 16), hexChar (n / 256 % 16), hexChar (n / 16 % 16), hexChar (n % 16)]

/-- one character of a string in JSON with `ensure_ascii=True` (settings/base.py:39): characters other than
those from space to tilde, the quotation mark and the backslash are escaped, those beyond the sixteen bits
as two surrogates -/
def escChar (c : Char) : Str :=
  if c = '\\' then ['\\', '\\']
  else if c = '"' then ['\\', '"']
  else if c = '\n' then ['\\', 'n']
  else if c = '\r' then ['\\', 'r']
  else if c = '\t' then ['\\', 't']
  else if c.toNat = 8 then ['\\', 'b']
  else if c.toNat = 12 then ['\\', 'f']
  else if 32 ≤ c.toNat ∧ c.toNat ≤ 126 then [c]
  else if c.toNat < 65536 then uEscape c.toNat
  else uEscape (55296 + (c.toNat - 65536) / 1024) ++ uEscape (56320 + (c.toNat - 65536) % 1024)

/-- a string in JSON (settings/base.py:39) -/
def quote (s : Str) : Str := '"' :: (s.flatMap escChar ++ ['"'])

/-- the line break before an entry at the given level, `indent=4` (settings/base.py:39) -/
def newLine (level : Nat) : Str := '\n' :: List.replicate (4 * level) ' '

mutual
/-- `json.dumps(v, indent=4)` at the given level (settings/base.py:39); enumeration members and settings
objects raise `TypeError` -/
def dumpVal (F : FloatText K) (level : Nat) : PyVal K → Except Err Str
  | .none => .ok "null".toList
  | .bool b => .ok (if b then "true".toList else "false".toList)
  | .int n => .ok (intStr n)
  | .float x => .ok (F.repr x)
  | .str s => .ok (quote s.toList)
  | .list [] => .ok "[]".toList
  | .list (v :: l) => do
    let t ← dumpItems F (level + 1) (v :: l)
    return '[' :: (t ++ newLine level ++ [']'])
  | .dict [] => .ok "{}".toList
  | .dict (e :: d) => do
    let t ← dumpMembers F (level + 1) (e :: d)
    return '{' :: (t ++ newLine level ++ ['}'])
  | .method _ => .error .typeError
  | .unit _ => .error .typeError
  | .obj _ _ => .error .typeError
/-- the entries of a list, separated by commas (settings/base.py:39) -/
def dumpItems (F : FloatText K) (level : Nat) : List (PyVal K) → Except Err Str
  | [] => .ok []
  | v :: l => do
    let t ← dumpVal F level v
    let rest ← dumpItems F level l
    return newLine level ++ t ++ (if l.isEmpty then [] else ',' :: rest)
/-- the entries of a dictionary, separated by commas (settings/base.py:39) -/
def dumpMembers (F : FloatText K) (level : Nat) : List (String × PyVal K) → Except Err Str
  | [] => .ok []
  | (k, v) :: d => do
    let t ← dumpVal F level v
    let rest ← dumpMembers F level d
    return newLine level ++ quote k.toList ++ [':', ' '] ++ t ++ (if d.isEmpty then [] else ',' :: rest)
end

/-! ### Reading -/

/-- white space between the parts of a JSON text (settings/base.py:63) -/
def jsonSpace (c : Char) : Bool := c == ' ' || c == '\t' || c == '\n' || c == '\r'

/-- what follows the white space (settings/base.py:63) -/
def skipWs (s : Str) : Str := s.dropWhile jsonSpace

/-- the value of a hexadecimal digit of either case (settings/base.py:63) -/
def hexVal (c : Char) : Option Nat :=
  if 48 ≤ c.toNat ∧ c.toNat ≤ 57 then some (c.toNat - 48)
  else if 97 ≤ c.toNat ∧ c.toNat ≤ 102 then some (c.toNat - 87)
  else if 65 ≤ c.toNat ∧ c.toNat ≤ 70 then some (c.toNat - 55)
  else Option.none

/-- four hexadecimal digits (settings/base.py:63) -/
def hex4 : Str → Except Err (Nat × Str)
  | a :: b :: c :: d :: r =>
    match hexVal a, hexVal b, hexVal c, hexVal d with
    | some a, some b, some c, some d => .ok (((a * 16 + b) * 16 + c) * 16 + d, r)
    | _, _, _, _ => .error .valueError
  | _ => .error .valueError

/-- the second half of a surrogate pair (settings/base.py:63) -/
def lowHalf (n : Nat) : Str → Except Err (Option Char × Str)
  | a :: b :: r =>
    if a = '\\' ∧ b = 'u' then do
      let (m, r) ← hex4 r
      if 56320 ≤ m ∧ m ≤ 57343 then .ok (some (Char.ofNat (65536 + (n - 55296) * 1024 + (m - 56320))), r)
      else .error .valueError
    else .error .valueError
  | _ => .error .valueError

/-- the one-letter escapes (settings/base.py:63) -/
def shortEscape (c : Char) : Option Char :=
  if c = '"' then some '"' else if c = '\\' then some '\\' else if c = '/' then some '/'
  else if c = 'b' then some (Char.ofNat 8) else if c = 'f' then some (Char.ofNat 12)
  else if c = 'n' then some '\n' else if c = 'r' then some '\r' else if c = 't' then some '\t'
  else Option.none

/-- what follows a backslash (settings/base.py:63) -/
def scanEscape : Str → Except Err (Option Char × Str)
  | [] => .error .valueError
  | c :: r =>
    if c = 'u' then do
      let (n, r) ← hex4 r
      if 55296 ≤ n ∧ n ≤ 56319 then lowHalf n r
      else if 56320 ≤ n ∧ n ≤ 57343 then .error .valueError
      else .ok (some (Char.ofNat n), r)
    else
      match shortEscape c with
      | some d => .ok (some d, r)
      | Option.none => .error .valueError

/-- one character within a string, or its end (settings/base.py:63); control characters are refused -/
def scanChar : Str → Except Err (Option Char × Str)
  | [] => .error .valueError
  | c :: r =>
    if c = '"' then .ok (Option.none, r)
    else if c = '\\' then scanEscape r
    else if c.toNat < 32 then .error .valueError
    else .ok (some c, r)

/-- the characters of a string after the opening quotation mark (settings/base.py:63); the number bounds
the recursion -/
def scanString : Nat → Str → Except Err (Str × Str)
  | 0, _ => .error .valueError
  | n + 1, s => do
    let (c, r) ← scanChar s
    match c with
    | Option.none => .ok ([], r)
    | some c => do
      let (cs, r) ← scanString n r
      return (c :: cs, r)

/-- the digits before the point: a single zero or digits that do not begin with zero (settings/base.py:63) -/
def numInt : Str → Option (Str × Str)
  | [] => Option.none
  | c :: r =>
    if c = '0' then some (['0'], r)
    else if isDig c then some (c :: r.takeWhile isDig, r.dropWhile isDig)
    else Option.none

/-- the point and at least one digit, if they are there (settings/base.py:63) -/
def numFrac : Str → Str × Str
  | [] => ([], [])
  | c :: r =>
    if c = '.' ∧ r.takeWhile isDig ≠ [] then (c :: r.takeWhile isDig, r.dropWhile isDig) else ([], c :: r)

/-- an optional sign (settings/base.py:63) -/
def numSign (minusOnly : Bool) : Str → Str × Str
  | [] => ([], [])
  | c :: r => if c = '-' ∨ (c = '+' ∧ minusOnly = false) then ([c], r) else ([], c :: r)

/-- the exponent, if it is there (settings/base.py:63) -/
def numExp : Str → Str × Str
  | [] => ([], [])
  | c :: r =>
    if (c = 'e' ∨ c = 'E') ∧ (numSign false r).2.takeWhile isDig ≠ [] then
      (c :: ((numSign false r).1 ++ (numSign false r).2.takeWhile isDig), (numSign false r).2.dropWhile isDig)
    else ([], c :: r)

/-- a number (settings/base.py:63): an integer without point and exponent, a float otherwise -/
def scanNumber (F : FloatText K) (s : Str) : Except Err (PyVal K × Str) :=
  match numInt (numSign true s).2 with
  | Option.none => .error .valueError
  | some (ip, r1) =>
    if (numFrac r1).1 = [] ∧ (numExp (numFrac r1).2).1 = [] then
      .ok (.int (if (numSign true s).1 = [] then (digitsVal ip : Int) else -(digitsVal ip : Int)), r1)
    else
      .ok (.float (F.read ((numSign true s).1 ++ ip ++ (numFrac r1).1 ++ (numExp (numFrac r1).2).1)),
        (numExp (numFrac r1).2).2)

/-- `s` after the beginning `w`, if it begins so (settings/base.py:63) -/
def afterWord : Str → Str → Option Str
  | [], s => some s
  | _ :: _, [] => Option.none
  | a :: w, c :: s => if a = c then afterWord w s else Option.none

/-- the values that are words, and numbers (settings/base.py:63) -/
def scanPlain (F : FloatText K) (s : Str) : Except Err (PyVal K × Str) :=
  match afterWord "null".toList s with
  | some r => .ok (.none, r)
  | Option.none =>
    match afterWord "true".toList s with
    | some r => .ok (.bool true, r)
    | Option.none =>
      match afterWord "false".toList s with
      | some r => .ok (.bool false, r)
      | Option.none => scanNumber F s

mutual
/-- one value (settings/base.py:63); the number bounds the recursion -/
def readVal (F : FloatText K) : Nat → Str → Except Err (PyVal K × Str)
  | 0, _ => .error .valueError
  | _ + 1, [] => .error .valueError
  | n + 1, c :: r =>
    if c = '"' then do
      let (s, r) ← scanString n r
      return (.str (String.ofList s), r)
    else if c = '{' then
      match skipWs r with
      | [] => .error .valueError
      | d :: r => if d = '}' then .ok (.dict [], r) else readMembers F n [] (d :: r)
    else if c = '[' then
      match skipWs r with
      | [] => .error .valueError
      | d :: r => if d = ']' then .ok (.list [], r) else readItems F n [] (d :: r)
    else scanPlain F (c :: r)
/-- the entries of a dictionary from a key on (settings/base.py:63); the last value of a key counts -/
def readMembers (F : FloatText K) : Nat → List (String × PyVal K) → Str → Except Err (PyVal K × Str)
  | 0, _, _ => .error .valueError
  | _ + 1, _, [] => .error .valueError
  | n + 1, acc, c :: r =>
    if c = '"' then do
      let (k, r) ← scanString n r
      match skipWs r with
      | [] => .error .valueError
      | d :: r =>
        if d = ':' then do
          let (v, r) ← readVal F n (skipWs r)
          match skipWs r with
          | [] => .error .valueError
          | d :: r =>
            if d = '}' then .ok (.dict (store acc (String.ofList k) v), r)
            else if d = ',' then readMembers F n (store acc (String.ofList k) v) (skipWs r)
            else .error .valueError
        else .error .valueError
    else .error .valueError
/-- the entries of a list from one entry on (settings/base.py:63) -/
def readItems (F : FloatText K) : Nat → List (PyVal K) → Str → Except Err (PyVal K × Str)
  | 0, _, _ => .error .valueError
  | n + 1, acc, s => do
    let (v, r) ← readVal F n s
    match skipWs r with
    | [] => .error .valueError
    | d :: r =>
      if d = ']' then .ok (.list (acc ++ [v]), r)
      else if d = ',' then readItems F n (acc ++ [v]) (skipWs r)
      else .error .valueError
end

/-- `json.loads(text)` (settings/base.py:63): nothing but white space may follow the value.  Every step
reads a character at the latest in the next one, so that the bound is never reached. -/
def loads (F : FloatText K) (s : Str) : Except Err (PyVal K) := do
  let (v, r) ← readVal F (2 * s.length + 2) (skipWs s)
  if skipWs r = [] then return v else throw Err.valueError

/-- `json.dumps(…, indent=4)` and `json.load` of a file opened as text (settings/base.py:39, 61-63) -/
def jsonText (F : FloatText K) : JsonLib K Str where
  dumps v := dumpVal F 0 v
  loads s := loads F (newlines false s)

/-- What the file may contain if the program is stopped during `to_file` (settings/base.py:41-43): it is
opened, which empties it, before the text is made.  Simplification: characters reach the file in the order
in which they are written. -/
inductive Interrupted (F : FloatText K) (v : PyVal K) (old : Str) : Str → Prop
  | before : Interrupted F v old old
  | opened : Interrupted F v old []
  | during {t p : Str} : toFile (jsonText F) v = .ok t → p <+: t → Interrupted F v old p

end Settings
end TC
