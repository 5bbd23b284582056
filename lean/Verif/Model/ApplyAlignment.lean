import Verif.Model.Traj
import Verif.Model.Equations
/-!
# `Trajectory.apply_alignment` (trajectory.py:621-692)
-/
namespace TC
variable {K R : Type} [Field K] [LinearOrder K]

/-- `AlignmentParameters.sim3_matrix` (alignment/parameters.py:446-455) -/
def sim3Matrix (τ : Trig K) (q : Equations.Params K) : M4 K :=
  mkPose (q.scale • eulerMat τ q.rot) q.trans

/-- `HelmertTransformation.apply_to` (alignment/parameters.py:358-359) for one row -/
def helmertApply (τ : Trig K) (q : Equations.Params K) (p : V3 K) : V3 K :=
  q.trans + q.scale • mulV (eulerMat τ q.rot) p

/-- The statements of `apply_alignment` after the choice of the receiver (trajectory.py:655-692).
`toEuler` is `as_euler("xyz")`, `sensor` the rotation of the sensor parameters, `q` the parameter
values (a disabled parameter has its default value, see `Model/Params.lean`).
Simplification: numpy's broadcasting of length-1 arrays is not modelled; a length mismatch raises. -/
def Traj.applyAlignmentBody (L : RotLib K R) (τ : Trig K) (toEuler : R → V3 K)
    (q : Equations.Params K) (sensor : R) : SE (Traj K R) Unit := do
  let s ← SE.get
  let eulers : List (V3 K) := match s.rot with
    | some r => r.map toEuler
    | none => List.replicate s.speed.length 0
  let lever : V3 K := match s.rot with
    | some _ => q.lever
    | none => 0
  if eulers.length ≠ s.speed.length then SE.raise Err.valueError
  let comps := List.zipWith (fun e v => Equations.leverTime τ e v q.time lever) eulers s.speed
  if comps.length ≠ s.pos.length then SE.raise Err.valueError
  SE.modify (fun s => { s with pos := List.zipWith (fun p c => p + c) s.pos comps })
  Traj.applyTransformation L (sim3Matrix τ q)
  let s ← SE.get
  match s.rot with
  | some r => SE.modify (fun s => { s with rot := some (r.map (L.mul sensor)) })
  | none => pure ()

end TC
