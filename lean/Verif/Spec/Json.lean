import Verif.Model.Json
import Verif.Spec.SettingsDict
/-!
# Values that can be written to a settings file
-/
namespace TC
namespace Settings
variable {K : Type}

/-- at least one decimal digit, nothing else -/
def SomeDigits (s : Str) : Prop := s ≠ [] ∧ ∀ c ∈ s, '0' ≤ c ∧ c ≤ '9'

/-- Texts such as `0.1`, `-12.5`, `1e-05`, `1.5e+20`: what Python prints for a finite float. -/
def IsFloatText (s : Str) : Prop :=
  ∃ sign ip frac ex : Str, s = sign ++ ip ++ frac ++ ex ∧ (sign = [] ∨ sign = ['-']) ∧
    SomeDigits ip ∧ (ip = ['0'] ∨ ip.head? ≠ some '0') ∧
    (frac = [] ∨ ∃ ds, frac = '.' :: ds ∧ SomeDigits ds) ∧
    (ex = [] ∨ ∃ sg ds, ex = 'e' :: (sg ++ ds) ∧ (sg = ['+'] ∨ sg = ['-']) ∧ SomeDigits ds) ∧
    ¬ (frac = [] ∧ ex = [])

/-- `v` consists of nothing but null, truth values, integers, strings, floats, lists and dictionaries with
different keys, and Python reads the text of each of its floats as that float -/
inductive Writable (F : FloatText K) : PyVal K → Prop
  | none : Writable F .none
  | bool (b : Bool) : Writable F (.bool b)
  | int (n : Int) : Writable F (.int n)
  | float (x : K) (text : IsFloatText (F.repr x)) (value : F.read (F.repr x) = x) : Writable F (.float x)
  | str (s : String) : Writable F (.str s)
  | list (l : List (PyVal K)) (h : ∀ v ∈ l, Writable F v) : Writable F (.list l)
  | dict (d : List (String × PyVal K)) (keys : (d.map Prod.fst).Nodup) (h : ∀ k v, (k, v) ∈ d → Writable F v) :
      Writable F (.dict d)

/-- settings whose values, apart from nested settings and enumeration members, can be written -/
inductive WritableSettings (F : FloatText K) : Cls → PyVal K → Prop
  | mk (c : Cls) (attrs : List (String × PyVal K))
      (nested : ∀ name c' v, (name, some c') ∈ annotations c → (name, v) ∈ attrs → WritableSettings F c' v)
      (plain : ∀ name v, (name, Option.none) ∈ annotations c → (name, v) ∈ attrs →
        (c = .matching ∧ name = "method") ∨ (c = .comparison ∧ name = "pair_distance_unit") ∨ Writable F v) :
      WritableSettings F c (.obj c attrs)

end Settings
end TC
