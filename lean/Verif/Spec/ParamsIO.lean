import Verif.Model.ParamsIO
import Verif.Spec.Params
import Verif.Spec.ResultIO
/-!
# Closeness of alignment results, representations of numbers
-/
namespace TC
variable {K : Type} [Field K] [LinearOrder K]

/-- what is assumed of Python's representation of the numbers in `F` (the floats): the string contains
no white space, comma or `#`, and is read as the same number -/
structure IsRepr (F : K → Prop) (repr : K → Str) : Prop where
  space : ∀ x, F x → NoSpace (repr x)
  comma : ∀ x, F x → ',' ∉ repr x
  hash : ∀ x, F x → '#' ∉ repr x
  read : ∀ x, F x → cellNum (repr x) = .ok (some x)

/-- a set of alignment parameters as all methods of the code leave it: eleven parameters with their
neutral values as defaults and an `11 × 11` covariance matrix -/
structure AlignSet (s : PSet K) : Prop where
  defaults : s.params.map Param.default = [0, 0, 0, 0, 0, 0, 1, 0, 0, 0, 0]
  cov : IsSquare 11 s.cov

/-- two alignment results agree: name, flags and the sensor rotation exactly, the parameters and their
covariance matrix up to `ε` -/
structure CloseAlign (ε : K) (r r' : AlignResult K) : Prop where
  name : r'.name = r.name
  values : List.Forall₂ (fun a b => Close ε b a) r.position.values r'.position.values
  flags : r'.position.enabledBoolList = r.position.enabledBoolList
  cov : List.Forall₂ (List.Forall₂ (fun a b => Close ε b a)) r.position.cov r'.position.cov
  rotValues : r'.rotation.values = r.rotation.values
  rotFlags : r'.rotation.enabledBoolList = r.rotation.enabledBoolList

end TC
