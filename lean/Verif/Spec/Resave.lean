import Verif.Spec.IO
import Verif.Spec.ResultIO
/-!
# Saving and loading a trajectory several times (C180)
-/
namespace TC
variable {K R : Type} [Field K] [LinearOrder K] [FloorRing K]

/-- `T'` results from `T` by saving it to a file and loading it from there, `n` times; the file may have existed before -/
inductive SavedTimes (io : IoLib K R) : Nat → Traj K R → Traj K R → Prop
  | never (T : Traj K R) : SavedTimes io 0 T T
  | again {n counter : Nat} {T T' T'' : Traj K R} {old content : Str} : SavedTimes io n T T' →
      T'.toFile io false old = .ok content → Traj.fromFile io counter content = .ok T'' → SavedTimes io (n + 1) T T''

/-- two trajectories agree in everything but the orientations -/
structure SameButRotations (T T' : Traj K R) : Prop where
  tstamps : T'.tstamps = T.tstamps
  pos : T'.pos = T.pos
  arc : T'.arc = T.arc
  speed : T'.speed = T.speed
  sorting : T'.sorting = T.sorting
  name : T'.name = T.name
  epsg : T'.epsg = T.epsg

end TC
