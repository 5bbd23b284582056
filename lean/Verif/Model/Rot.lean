import Verif.Model.V3
import Mathlib.LinearAlgebra.Matrix.Notation
import Mathlib.Data.Matrix.Mul
/-!
# Rotations and poses

`scipy.spatial.transform.Rotation` / `RotationSet` (trajectopy_core/rotationset.py) elements are an
abstract type `R` with the operations the code uses.
-/
namespace TC

/-- 3×3 matrices -/
abbrev M3 (K : Type) := Matrix (Fin 3) (Fin 3) K
/-- 4×4 matrices -/
abbrev M4 (K : Type) := Matrix (Fin 4) (Fin 4) K

/-- The scipy rotation operations used by the code, on single rotations:
`one` = identity (merging.py:47), `mul` = `a * b` (trajectory.py:689), `inv`,
`toMat` = `as_matrix` (trajectory.py:350), `fromMat` = `from_matrix` (trajectory.py:371, returns the
closest rotation), `slerp a b α` = `a * exp(α log(a⁻¹ b))` (trajectory.py:484-485). -/
structure RotLib (K R : Type) where
  one : R
  mul : R → R → R
  inv : R → R
  toMat : R → M3 K
  fromMat : M3 K → R
  slerp : R → R → K → R

variable {K : Type} [Field K]

/-- matrix times coordinate row -/
def mulV (A : M3 K) (v : V3 K) : V3 K :=
  ⟨A 0 0 * v.x + A 0 1 * v.y + A 0 2 * v.z,
   A 1 0 * v.x + A 1 1 * v.y + A 1 2 * v.z,
   A 2 0 * v.x + A 2 1 * v.y + A 2 2 * v.z⟩

/-- the 4×4 pose built in trajectory.py:352-354 -/
def mkPose (A : M3 K) (t : V3 K) : M4 K :=
  !![A 0 0, A 0 1, A 0 2, t.x;
     A 1 0, A 1 1, A 1 2, t.y;
     A 2 0, A 2 1, A 2 2, t.z;
     0, 0, 0, 1]

/-- `pose[:3, 3]` (trajectory.py:367) -/
def posePos (P : M4 K) : V3 K := ⟨P 0 3, P 1 3, P 2 3⟩

/-- `pose[:3, :3]` (trajectory.py:368) -/
def poseRot (P : M4 K) : M3 K :=
  !![P 0 0, P 0 1, P 0 2;
     P 1 0, P 1 1, P 1 2;
     P 2 0, P 2 1, P 2 2]

end TC
