import Verif.Spec.Traj
/-!
# The length of a path (C185)
-/
namespace TC
variable {K R : Type} [Field K]

/-- the length of the path that visits the positions one after the other -/
def pathLength (nrm : V3 K → K) : List (V3 K) → K
  | p :: q :: l => nrm (q - p) + pathLength nrm (q :: l)
  | _ => 0

end TC
