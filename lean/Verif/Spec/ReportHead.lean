import Verif.Model.ReportHead
import Verif.Spec.Summary
import Verif.Spec.RpeStats
/-!
# What the head of a report says (C179)
-/
namespace TC
namespace Report
variable {K R : Type} [Field K] [LinearOrder K]

/-- the text is a number with three decimals that is at most half a unit of the last one away from `x` -/
def TextOf (text : Str) (x : K) : Prop :=
  ∃ (y : K) (n : ℤ), parseNum text = some y ∧ y = n / 1000 ∧ |y - x| ≤ 1 / 2000

/-- the mean of the position deviations, in metres or millimetres -/
def IsPositionAte (nrm : V3 K → K) (r : AteResult K R) (mm : Bool) (x : K) : Prop :=
  ∃ m, IsMean (r.posDev.map nrm) m ∧ x = if mm then 1000 * m else m

/-- the mean angle of the rotation deviations, in degrees -/
def IsRotationAte (angle : R → K) (deg : K → K) (q : List R) (x : K) : Prop :=
  ∃ m, IsMean (q.map angle) m ∧ x = deg m

/-- the mean of the mean errors at the distances at which there are errors, in the unit of the drift -/
def IsDriftMean (sel : RpeGroup K → List (Option K)) (r : RpeResult K) (x : K) : Prop :=
  ∃ means : List K, OneEach (withErrors sel r) means (fun g y => ∃ xs : List K, sel g = xs.map some ∧
    y * (xs.length : K) = xs.sum * driftScale r.unit) ∧ IsMean means x

/-- the rows of the relative error: position errors in per cent or metres per second, rotation errors in degrees -/
def RelativeRows (deg : K → K) (r : RpeResult K) (rows : List (Str × Str)) : Prop :=
  ∃ p q, rows = [(if r.unit = .meter then "RPE Position [%]:".toList else "RPE Position [m/s]:".toList, p),
      (if r.unit = .meter then "RPE Rotation [deg/100m]:".toList else "RPE Rotation [deg/s]:".toList, q)] ∧
    (∃ x, IsDriftMean RpeGroup.posDev r x ∧ TextOf p x) ∧ ∃ x, IsDriftMean RpeGroup.rotDev r x ∧ TextOf q (deg x)

/-- a relative error that consists of numbers -/
structure AllNumbers (r : RpeResult K) : Prop where
  pos : ∀ g ∈ r.groups, ∃ xs : List K, g.posDev = xs.map some
  rot : ∀ g ∈ r.groups, ∃ xs : List K, g.rotDev = xs.map some

end Report
end TC
