import Verif.Model.RpePlots
import Verif.Spec.ResultIO
/-!
# What the plots of the relative error should show
-/
namespace TC
namespace Plot
variable {K R : Type} [Field K] [LinearOrder K]

/-- the mean -/
def meanOf (xs : List K) : K := xs.sum / (xs.length : K)

/-- the standard deviation -/
def stdOf (E : EvalLib K) (xs : List K) : K := E.sqrt (meanOf (xs.map (fun x => (x - meanOf xs) ^ 2)))

/-- deviations for each metre are shown in per cent (or for 100 m), those for each second as they are -/
def perUnit (r : RpeResult K) : K := if r.unit = .meter then 100 else 1

/-- a curve over the bins of a result: over the mean distance of each bin that has pairs the characteristic `f` of the
deviations of this bin -/
def BinCurve (r : RpeResult K) (dev : RpeGroup K → List (Option K)) (f : List K → K) (x y : List K) : Prop :=
  x = r.filled.map RpeGroup.mean ∧
    List.Forall₂ (fun g v => ∃ xs : List K, dev g = xs.map some ∧ v = f xs) r.filled y

/-- the result has rotations -/
def HasRotations (r : RpeResult K) : Prop := ∃ g ∈ r.groups, g.rotDev ≠ []

/-- the curve of the positions of a result with its error bars -/
structure PosBins (E : EvalLib K) (r : RpeResult K) (name : Str) (t : BarTrace K) : Prop where
  row : t.row = 1
  name : t.name = name
  mean : BinCurve r RpeGroup.posDev (fun xs => meanOf xs * perUnit r) t.x t.y
  std : BinCurve r RpeGroup.posDev (fun xs => stdOf E xs * perUnit r) t.x t.err

/-- the curve of the rotations of a result, in degrees, with its error bars -/
structure RotBins (P : PlotLib K R) (r : RpeResult K) (name : Str) (t : BarTrace K) : Prop where
  row : t.row = 2
  name : t.name = name
  mean : BinCurve r RpeGroup.rotDev (fun xs => P.deg (meanOf xs * perUnit r)) t.x t.y
  std : BinCurve r RpeGroup.rotDev (fun xs => P.deg (stdOf P.eval xs * perUnit r)) t.x t.err

/-- the curves of one result: positions, and rotations if there are some -/
def OwnBins (P : PlotLib K R) (posName rotName : Str) (r : RpeResult K) (ts : List (BarTrace K)) : Prop :=
  (HasRotations r ∧ ∃ p q, ts = [p, q] ∧ PosBins P.eval r posName p ∧ RotBins P r rotName q) ∨
  (¬ HasRotations r ∧ ∃ p, ts = [p] ∧ PosBins P.eval r posName p)

/-- the texts at the axes are right for a result: the unit of its distances and of its deviations -/
structure RightUnits (r : RpeResult K) (xLabel : Str) (yLabels : List Str) : Prop where
  distance : xLabel = (if r.unit = .meter then "Pose Distance [m]" else "Pose Distance [s]").toList
  pos : yLabels[0]? = some (if r.unit = .meter then "[%]" else "[m/s]").toList
  rot : HasRotations r → yLabels[1]? = some (if r.unit = .meter then "[deg/100m]" else "[deg/s]").toList

/-- a curve of matplotlib shows a result; the distributions are shown if no two of the results have the same unit -/
structure ShowsResult (units : List MUnit) (dev : RpeGroup K → List (Option K)) (curve value : K → K) (r : RpeResult K)
    (l : RpeLine K) : Prop where
  name : l.name = r.name.toList
  mean : BinCurve r dev (fun xs => curve (meanOf xs * perUnit r)) l.x l.y
  many : ¬ units.Nodup → l.violins = []
  single : units.Nodup → List.Forall₂ (fun g (v : Violin K) => v.position = g.mean ∧ ∃ xs : List K, dev g = xs.map some ∧
    v.values = xs.map (fun d => value d * perUnit r)) r.filled l.violins

end Plot
end TC
