import Verif.Spec.Traj
import Verif.Spec.ResultIO

/-!
# Specification: beginnings of trajectories and results
-/

namespace TC

variable {K R : Type} [Field K] [LinearOrder K]

/-- the first `k` samples of a trajectory -/
def Traj.first (k : Nat) (T : Traj K R) : Traj K R :=
  { T with
    tstamps := T.tstamps.take k
    pos := T.pos.take k
    rot := T.rot.map (List.take k)
    arc := T.arc.take k
    speed := T.speed.take k }

/-- the first `k` samples of a result -/
def AteResult.first (k : Nat) (r : AteResult K R) : AteResult K R :=
  { r with
    trajectory := r.trajectory.first k
    posDev := r.posDev.take k
    directed := r.directed.take k
    rotDev := r.rotDev.map (List.take k) }

end TC
