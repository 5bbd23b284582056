import Verif.Model.Metrics
/-!
# What the origin of the reference's coordinates changes in an alignment (C184)
-/
namespace TC
variable {K R : Type} [Field K] [LinearOrder K]
open Adjust Equations

/-- the trajectory with coordinates from another origin -/
def Traj.off (d : V3 K) (T : Traj K R) : Traj K R := { T with pos := T.pos.map (fun p => p + d) }

/-- a coordinate may have another origin if its translation is estimated -/
structure Free (e : EstSettings) (d : V3 K) : Prop where
  x : e.transX = false → d.x = 0
  y : e.transY = false → d.y = 0
  z : e.transZ = false → d.z = 0

/-- derivatives with regard to the arguments do not notice if the target (argument 3) and the translation (argument 10) are
moved together -/
def MovesTogether (D : Grad K) (τ : Trig K) : Prop :=
  ∀ (ax : Axis3) (i : Nat) (a : List K) (t : K), 18 ≤ a.length → i < a.length →
    D (rel τ ax) i ((a.set 3 (a.getD 3 0 + t)).set 10 (a.getD 10 0 + t)) = D (rel τ ax) i a

/-- the observations of all epochs with a reference (numbers 3, 4 and 5 of each epoch) from another origin -/
def offObs (e : EstSettings) (d : V3 K) (v : List K) : List K :=
  v.mapIdx (fun i x => x + [0, 0, 0, d.x, d.y, d.z].getD (i % Obs.perEpoch e) 0)

/-- the same parameters with the same variances and covariances; the values of the first three, the translations, differ by
`d`, all others are the same -/
structure Translated (d : V3 K) (p p' : PSet K) : Prop where
  values : ∃ (t : V3 K) (r : List K), p.values = [t.x, t.y, t.z] ++ r ∧ p'.values = [t.x + d.x, t.y + d.y, t.z + d.z] ++ r
  variances : p'.variances = p.variances
  cov : p'.cov = p.cov
  enabled : p'.enabledBoolList = p.enabledBoolList
  names : p'.params.map (fun a => (a.name, a.unit)) = p.params.map (fun a => (a.name, a.unit))

/-- two alignments that differ in the translation only -/
structure SameButTranslation (d : V3 K) (a a' : AlignResult K) : Prop where
  name : a'.name = a.name
  rotation : a'.rotation = a.rotation
  estimationOf : a'.estimationOf = a.estimationOf
  converged : a'.converged = a.converged
  position : Translated d a.position a'.position

end TC
