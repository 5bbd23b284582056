import Verif.Spec.Text
import Mathlib.Data.Nat.Digits.Defs
/-!
# What a header says

Vocabulary for the values of header settings, independent of how the code finds and parses them.
-/
namespace TC

/-- the last line for `key` is `#key` followed by `rest` (nothing, or white space and then anything) -/
def LastHeader (content key rest : Str) : Prop :=
  (∀ c r, rest = c :: r → pySpace c = true) ∧
  ∃ pre post, fileLines content = pre ++ ('#' :: key ++ rest) :: post ∧ ∀ x ∈ post, ¬ HeaderLine key x

/-- there is no line for `key` -/
def NoHeader (content key : Str) : Prop := ∀ l ∈ fileLines content, ¬ HeaderLine key l

/-- the settings whose value is text -/
def textSettings : List Str :=
  ["name", "sorting", "state", "fields", "nframe", "type", "comparison_method", "relative_dist_unit",
   "num_pairs", "rot_unit", "time_format", "datetime_format", "datetime_timezone", "id"].map String.toList

/-- all settings -/
def allSettings : List Str :=
  textSettings ++ ["epsg", "gps_week", "time_offset", "delimiter"].map String.toList

/-- the number denoted by decimal digits -/
def decimal (ds : Str) : Nat := Nat.ofDigits 10 (ds.reverse.map (fun c => c.toNat - '0'.toNat))

/-- a non-empty string of the digits 0 to 9 -/
def Digits (ds : Str) : Prop := ds ≠ [] ∧ ∀ c ∈ ds, '0'.toNat ≤ c.toNat ∧ c.toNat ≤ '9'.toNat

/-- an integer in decimal notation -/
inductive IntText : Str → Int → Prop
  | plain {ds : Str} : Digits ds → IntText ds (decimal ds)
  | plus {ds : Str} : Digits ds → IntText ('+' :: ds) (decimal ds)
  | minus {ds : Str} : Digits ds → IntText ('-' :: ds) (-(decimal ds : Int))

variable {K : Type} [Field K]

/-- a number without sign and exponent: digits, possibly with a decimal point -/
inductive DecText : Str → K → Prop
  | int {ds : Str} : Digits ds → DecText ds (decimal ds : K)
  | dot {ds : Str} : Digits ds → DecText (ds ++ ['.']) (decimal ds : K)
  | frac {ds fs : Str} : (ds = [] ∨ Digits ds) → Digits fs →
      DecText (ds ++ '.' :: fs) ((decimal ds : K) + (decimal fs : K) / 10 ^ fs.length)

/-- the same, possibly with an exponent -/
inductive ExpText : Str → K → Prop
  | plain {s : Str} {x : K} : DecText s x → ExpText s x
  | exp {s e : Str} {x : K} {k : Int} {c : Char} : DecText s x → (c = 'e' ∨ c = 'E') → IntText e k →
      ExpText (s ++ c :: e) (x * 10 ^ k)

/-- a number in decimal notation -/
inductive NumText : Str → K → Prop
  | plain {s : Str} {x : K} : ExpText s x → NumText s x
  | plus {s : Str} {x : K} : ExpText s x → NumText ('+' :: s) x
  | minus {s : Str} {x : K} : ExpText s x → NumText ('-' :: s) (-x)

end TC
