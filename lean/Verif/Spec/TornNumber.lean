import Verif.Spec.Traj
import Verif.Model.Eval

/-!
# Specification: a trajectory whose last number is another one
-/

namespace TC

variable {K R : Type} [Field K] [LinearOrder K]

/-- the same trajectory, but the last entry of the vertical speeds is `x` -/
def Traj.lastVz (x : K) (T : Traj K R) : Traj K R :=
  { T with speed := T.speed.dropLast ++ T.speed.getLast?.toList.map (fun v => { v with z := x }) }

/-- the same result, but the last entry of the deviations across the path, upwards, is `x` -/
def AteResult.lastUp (x : K) (r : AteResult K R) : AteResult K R :=
  { r with directed := r.directed.dropLast ++ r.directed.getLast?.toList.map (fun v => { v with z := x }) }

end TC
