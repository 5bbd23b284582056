import Verif.Model.Trig
import Verif.Model.Rot
/-!
What a lever arm and a time shift fitted to points should be.
-/
namespace TC
variable {K : Type} [Field K] [LinearOrder K]

/-- one matched pair of positions with the platform angles and the speed: source, target, angles, speed -/
abbrev LeverObs (K : Type) := V3 K × V3 K × V3 K × V3 K

/-- sum of squared distances between the target points and the source points, moved by the lever arm `l` in the
platform frame (turned by the angles) and by the speed times `dt` -/
def leverErr (τ : Trig K) (obs : List (LeverObs K)) (l : V3 K) (dt : K) : K :=
  (obs.map (fun o => V3.normSq (o.2.1 - (o.1 + mulV (eulerMat τ o.2.2.1) l + dt • o.2.2.2)))).sum

end TC
