import Verif.Spec.Traj
/-!
# Specification vocabulary for merging
-/
namespace TC
variable {K R : Type}

/-- time, position and orientation (if any) of every sample, in stored order -/
def poses (T : Traj K R) : List (K × V3 K × Option R) := (samples T).map (fun s => (s.t, s.p, s.r))

/-- Some trajectory has orientations. -/
def AnyRot (Ts : List (Traj K R)) : Prop := ∃ T ∈ Ts, T.rot.isSome = true

/-- the orientation a sample has after merging: if some input has orientations, those of the other
inputs are the identity -/
def filled (one : R) : K × V3 K × Option R → K × V3 K × Option R :=
  fun s => (s.1, s.2.1, some (s.2.2.getD one))

end TC
