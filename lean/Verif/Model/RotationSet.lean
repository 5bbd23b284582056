import Verif.Model.Stats
/-!
# `RotationSet` (rotationset.py) and `skew_symmetric_matrix` (utils.py)
-/
namespace TC
variable {K R : Type} [Field K]

/-- `RotationSet.__add__` (rotationset.py:36-37).  scipy composes two stacks row by row; a stack with one rotation is
repeated, other different lengths raise `ValueError`.  A stack is never empty. -/
def rotAdd (L : RotLib K R) (a b : List R) : Except Err (List R) := bcast L.mul a b

/-- `RotationSet.__sub__` (rotationset.py:33-34) -/
def rotSub (L : RotLib K R) (a b : List R) : Except Err (List R) := bcast L.mul a (b.map L.inv)

/-- `RotationSet.rotangle` of a stack (rotationset.py:42-50) -/
def rotAngles (E : EvalLib K) (L : RotLib K R) (a : List R) : List K := a.map (fun q => rotAngle E (L.toMat q))

/-- `skew_symmetric_matrix` (utils.py:307-323) -/
def skewMatrix (v : V3 K) : M3 K :=
  !![0, -v.z, v.y;
     v.z, 0, -v.x;
     -v.y, v.x, 0]

end TC
