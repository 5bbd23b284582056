import Verif.Model.Params
/-!
# Square matrices and sets of parameters
-/
namespace TC
variable {K : Type} [Field K] [LinearOrder K]

/-- a list of rows is an `n × n` matrix -/
structure IsSquare (n : Nat) (m : List (List K)) : Prop where
  rows : m.length = n
  cols : ∀ row ∈ m, row.length = n

/-- two sets of parameters have the same parameters up to values and variances -/
def SameParams (s t : PSet K) : Prop :=
  s.params.map (fun p => (p.default, p.enabled, p.name, p.unit)) =
    t.params.map (fun p => (p.default, p.enabled, p.name, p.unit))

end TC
