import Verif.Model.Line
import Verif.Model.Direct
/-!
# The direction of a fitted line (utils.py:35-54, 204-215)
-/
namespace TC
variable {K : Type} [Field K] [LinearOrder K]

/-- `np.cov(points, rowvar=False)` (utils.py:49, 214): the mean product of the deviations from the mean point, divided by
the number of points minus one.  For a single point numpy divides by zero and returns NaN; this is outside the
model. -/
def covariance (points : List (V3 K)) : M3 K :=
  ((points.length : K) - 1)⁻¹ • (points.map (fun p => outerV (p - meanPoint points) (p - meanPoint points))).sum

/-- `fit_line_3d` (utils.py:204-215) and the direction of `Line3D.from_points` (utils.py:49-50): the last column of the
matrix of eigenvectors.  `eigh` is `np.linalg.eigh`. -/
def fitLine3d (eigh : M3 K → (Fin 3 → K) × M3 K) (points : List (V3 K)) : V3 K :=
  let v := (eigh (covariance points)).2
  ⟨v 0 2, v 1 2, v 2 2⟩

end TC
