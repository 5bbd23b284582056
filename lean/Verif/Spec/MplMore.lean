import Verif.Model.MplMore
import Verif.Spec.Mpl
import Verif.Spec.AlignReport
/-!
# What more of the matplotlib plots should show
-/
namespace TC
namespace Plot
variable {K R : Type} [Field K] [LinearOrder K]

/-- the limits `m` of an axis have the same middle as the limits `l` and include them -/
structure Widened (l m : K × K) : Prop where
  centre : m.1 + m.2 = l.1 + l.2
  lower : m.1 ≤ min l.1 l.2
  upper : max l.1 l.2 ≤ m.2

/-- the length of an axis -/
def axisLength (l : K × K) : K := l.2 - l.1

end Plot

variable {K : Type} [Field K] [LinearOrder K]

/-- the row of the parameter number `a` in a matrix of the estimated parameters: the number of estimated parameters before it -/
def rowOf (s : PSet K) (a : Nat) : Nat := (estimatedParams { s with params := s.params.take a }).length

end TC
