import Verif.Model.SettingsDict
/-!
# Well-formed settings objects and dictionaries
-/
namespace TC
namespace Settings
variable {K : Type}

/-- the name and the kind of the two attributes that hold enumeration members -/
def FitsEnum (c : Cls) (name : String) (v : PyVal K) : Prop :=
  (c = .matching → name = "method" → ∃ m, v = .method m) ∧
  (c = .comparison → name = "pair_distance_unit" → ∃ u, v = .unit u)

/-- `v` is a settings object of class `c`: it has exactly the annotated attributes; those annotated with a settings class
are settings objects of that class, enumeration attributes hold members, and the others hold no settings object. -/
inductive IsSettings : Cls → PyVal K → Prop
  | mk (c : Cls) (attrs : List (String × PyVal K))
      (names : attrs.map Prod.fst = (annotations c).map Prod.fst)
      (nested : ∀ name c' v, (name, some c') ∈ annotations c → (name, v) ∈ attrs → IsSettings c' v)
      (plain : ∀ name v, (name, Option.none) ∈ annotations c → (name, v) ∈ attrs →
        FitsEnum c name v ∧ ∀ c' a, v ≠ .obj c' a) : IsSettings c (.obj c attrs)

/-- `d` has a dictionary wherever class `c` has nested settings, and holds no settings objects -/
inductive IsTree : Cls → List (String × PyVal K) → Prop
  | mk (c : Cls) (d : List (String × PyVal K))
      (dicts : ∀ name c' v, (name, some c') ∈ annotations c → lookup d name = some v → ∃ d', v = .dict d')
      (nested : ∀ name c' d', (name, some c') ∈ annotations c → lookup d name = some (.dict d') → IsTree c' d')
      (plain : ∀ name v, (name, Option.none) ∈ annotations c → lookup d name = some v → ∀ c' a, v ≠ .obj c' a) :
      IsTree c d

/-- every attribute of `c`, and of its nested settings where `d` has a dictionary, is in `d` -/
inductive IsComplete : Cls → List (String × PyVal K) → Prop
  | mk (c : Cls) (d : List (String × PyVal K))
      (here : ∀ a ∈ annotations c, (lookup d a.1).isSome)
      (nested : ∀ name c' d', (name, some c') ∈ annotations c → lookup d name = some (.dict d') → IsComplete c' d') :
      IsComplete c d

/-- values that JSON can hold -/
inductive IsJson : PyVal K → Prop
  | none : IsJson .none
  | bool (b : Bool) : IsJson (.bool b)
  | int (n : Int) : IsJson (.int n)
  | float (x : K) : IsJson (.float x)
  | str (s : String) : IsJson (.str s)
  | list (l : List (PyVal K)) (h : ∀ v ∈ l, IsJson v) : IsJson (.list l)
  | dict (d : List (String × PyVal K)) (h : ∀ k v, (k, v) ∈ d → IsJson v) : IsJson (.dict d)

/-- JSON text is read back as it was written -/
def IsJsonLib {T : Type} (J : JsonLib K T) : Prop := ∀ v, IsJson v → ∃ t, J.dumps v = .ok t ∧ J.loads t = .ok v

/-- settings whose attributes, apart from nested settings and enumeration members, are JSON values -/
inductive JsonSettings : Cls → PyVal K → Prop
  | mk (c : Cls) (attrs : List (String × PyVal K))
      (nested : ∀ name c' v, (name, some c') ∈ annotations c → (name, v) ∈ attrs → JsonSettings c' v)
      (plain : ∀ name v, (name, Option.none) ∈ annotations c → (name, v) ∈ attrs →
        (c = .matching ∧ name = "method") ∨ (c = .comparison ∧ name = "pair_distance_unit") ∨ IsJson v) : JsonSettings c (.obj c attrs)

end Settings
end TC
