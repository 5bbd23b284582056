import Verif.Model.V3
/-!
# `Line3D` (utils.py:21-74)
-/
namespace TC
variable {K : Type} [Field K]

/-- `Line3D` (utils.py:21-33) -/
structure Line3D (K : Type) where
  mean : V3 K
  direction : V3 K
  deriving DecidableEq

/-- `np.mean(points, axis=0)` (utils.py:53) -/
def meanPoint (points : List (V3 K)) : V3 K := ((points.length : K)⁻¹) • points.sum

/-- `Line3D.from_points` (utils.py:35-54).  `direction` stands for the last eigenvector that
`np.linalg.eigh` returns for the covariance matrix of the points. -/
def Line3D.fromPoints (direction : List (V3 K) → V3 K) (points : List (V3 K)) : Line3D K :=
  ⟨meanPoint points, direction points⟩

/-- `Line3D.evaluate_at` (utils.py:56-74) -/
def Line3D.evaluateAt (l : Line3D K) (p : V3 K) : V3 K :=
  let tr := ((p.x - l.mean.x) * l.direction.x + (p.y - l.mean.y) * l.direction.y
    + (p.z - l.mean.z) * l.direction.z) • l.direction
  ⟨l.mean.x + tr.x, l.mean.y + tr.y, l.mean.z + tr.z⟩

end TC
