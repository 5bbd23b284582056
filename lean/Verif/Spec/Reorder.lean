import Verif.Spec.Traj
/-!
# Specification: the same samples in another order
-/
namespace TC
variable {K R : Type}

/-- Two trajectories consist of the same samples, stored in different orders. -/
structure Reordered (T T' : Traj K R) : Prop where
  left : Coherent T
  right : Coherent T'
  same : SameMeta T T'
  perm : (samples T').Perm (samples T)

/-- the number by which the samples are sorted -/
def sortNumber (s : Sorting) (u : Sample K R) : K :=
  match s with
  | .time => u.t
  | .arcLength => u.l

/-- No two samples have the same number by which they are sorted. -/
def NoTies (T : Traj K R) : Prop := ((samples T).map (sortNumber T.sorting)).Nodup

end TC
