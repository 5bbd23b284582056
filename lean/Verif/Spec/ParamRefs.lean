import Verif.Model.ParamRefs
/-!
# Specification: sets of parameters with shared parts
-/
namespace TC.Shared
variable {K : Type} [Field K] [LinearOrder K]

/-- the set refers to existing parameters, to no parameter twice, and to an existing array -/
structure WellFormed (x : St K) : Prop where
  nodup : x.1.refs.Nodup
  inMem : ∀ r ∈ x.1.refs, r < x.2.params.length
  cov : x.1.cov < x.2.mats.length

/-- all other parameters are as before -/
def OthersSame (refs : List Nat) (m m' : Mem K) : Prop :=
  m'.params.length = m.params.length ∧ ∀ r, r ∉ refs → m'.params[r]? = m.params[r]?

/-- The method `op` on a set in a memory does to the set what `f` does to a set that owns its parameters, and it raises
the same exception.  It changes no other parameter, keeps referring to the same parameters, and keeps all arrays but the
own one. -/
def Refines (op : SE (St K) Unit) (f : PSet K → Except Err (PSet K)) : Prop :=
  ∀ x : St K, WellFormed x →
    (∀ t, f (view x) = .ok t → ∃ x', op x = (.ok (), x') ∧ WellFormed x' ∧ view x' = t ∧ x'.1.refs = x.1.refs ∧
      OthersSame x.1.refs x.2 x'.2 ∧
      ∀ c, c < x.2.mats.length → c ≠ x.1.cov → x'.2.mats[c]? = x.2.mats[c]?) ∧
    (∀ e, f (view x) = .error e → (op x).1 = .error e)

/-- The parameter at place `i` of the alignment `a` has the value `v` afterwards if it is enabled; otherwise it still
reads as its default. -/
def Assigned (s t : PSet K) (i : Nat) (v : K) : Prop :=
  ∀ p, s.params[i]? = some p → t.values[i]? = some (if p.enabled then v else p.default)

/-- The parameter at place `i` is the same object with the same content. -/
def Untouched (s t : PSet K) (i : Nat) : Prop := t.params[i]? = s.params[i]?

/-- the eleven parameters of an alignment -/
structure IsAlignment (a : RSet) (m : Mem K) : Prop where
  wf : WellFormed (a, m)
  eleven : a.refs.length = 11

end TC.Shared
