import Verif.Model.Metrics
import Verif.Spec.Traj
/-!
# What the whole evaluation should report
-/
namespace TC
variable {K R : Type} [Field K] [LinearOrder K]

/-- Where the alignment `q` puts a sample: the lever arm (turned by the orientation of the platform, if it is known) and
the way travelled during the time shift are added, then the similarity is applied. -/
def alignedPoint (τ : Trig K) (L : RotLib K R) (q : Equations.Params K) (s : Sample K R) : V3 K :=
  q.trans + q.scale • mulV (eulerMat τ q.rot)
    (s.p + (match s.r with | some o => mulV (L.toMat o) q.lever | none => 0) + q.time • s.v)

/-- The orientation the alignment `q` with sensor rotation `sensor` gives to a sample. -/
def alignedRot (τ : Trig K) (L : RotLib K R) (q : Equations.Params K) (sensor : R) (s : Sample K R) : R :=
  L.mul sensor (L.fromMat ((q.scale • eulerMat τ q.rot) * (match s.r with | some o => L.toMat o | none => 1)))

/-- The rotation between platform and sensor an alignment reports: roll, pitch and yaw are its first three
rotation parameters. -/
def sensorTurn (lib : MetricLib K R) (a : AlignResult K) : R :=
  let v := a.rotation.values
  lib.fromEuler ⟨v[0]?.getD 0, v[1]?.getD 0, v[2]?.getD 0⟩

/-- `r` reports the deviations of the samples of `T`, aligned with `a`, from the samples of `U` at the same places. -/
structure Reports (lib : MetricLib K R) (a : AlignResult K) (T U : Traj K R) (r : AteResult K R) : Prop where
  test : Coherent T
  ref : Coherent U
  nonempty : samples T ≠ []
  length : (samples T).length = (samples U).length
  posDev : r.posDev = List.zipWith
    (fun u s => u.p - alignedPoint lib.trig lib.mat.rot (Adjust.paramsOf a.position.values) s) (samples U) (samples T)
  rotDev : r.rotDev = U.rot.map (fun ro => List.zipWith (fun u s => lib.mat.rot.mul u
    (lib.mat.rot.inv (alignedRot lib.trig lib.mat.rot (Adjust.paramsOf a.position.values) (sensorTurn lib a) s)))
    ro (samples T))

end TC
