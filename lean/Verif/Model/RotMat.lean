import Verif.Model.Rot
import Mathlib.LinearAlgebra.Matrix.NonsingularInverse
import Mathlib.LinearAlgebra.Matrix.Determinant.Basic
/-!
# scipy's rotations as matrices

`scipy.spatial.transform.Rotation` (version 1.13, see poetry.lock) stores unit quaternions.
Normalisation needs square roots, but the matrix of a quaternion only depends on the quaternion
up to a factor, so a rotation is modelled by its matrix and `from_matrix` by the (unnormalised)
quaternion it computes, turned into a matrix.
-/
namespace TC
variable {K : Type} [Field K] [LinearOrder K]

/-- a quaternion in scipy's order `x, y, z, w` -/
@[ext] structure Q4 (K : Type) where
  x : K
  y : K
  z : K
  w : K
  deriving DecidableEq

/-- squared length -/
def Q4.normSq (q : Q4 K) : K := q.x * q.x + q.y * q.y + q.z * q.z + q.w * q.w

/-- `Rotation.as_matrix` of the normalised quaternion (call site trajectory.py:350) -/
def quatMat (q : Q4 K) : M3 K :=
  let n := q.normSq
  !![(q.x*q.x - q.y*q.y - q.z*q.z + q.w*q.w) / n, 2*(q.x*q.y - q.z*q.w) / n, 2*(q.x*q.z + q.y*q.w) / n;
     2*(q.x*q.y + q.z*q.w) / n, (-q.x*q.x + q.y*q.y - q.z*q.z + q.w*q.w) / n, 2*(q.y*q.z - q.x*q.w) / n;
     2*(q.x*q.z - q.y*q.w) / n, 2*(q.y*q.z + q.x*q.w) / n, (-q.x*q.x - q.y*q.y + q.z*q.z + q.w*q.w) / n]

/-- the quaternion computed by `Rotation.from_matrix` before normalisation (call site
trajectory.py:371): the branch is the position of the first maximum among `m00, m11, m22, trace`.
The code does not check that the matrix is a rotation. -/
def markley (m : M3 K) : Q4 K :=
  let t := m 0 0 + m 1 1 + m 2 2
  if m 1 1 ≤ m 0 0 ∧ m 2 2 ≤ m 0 0 ∧ t ≤ m 0 0 then
    ⟨1 - t + 2 * m 0 0, m 1 0 + m 0 1, m 2 0 + m 0 2, m 2 1 - m 1 2⟩
  else if m 2 2 ≤ m 1 1 ∧ t ≤ m 1 1 then
    ⟨m 0 1 + m 1 0, 1 - t + 2 * m 1 1, m 2 1 + m 1 2, m 0 2 - m 2 0⟩
  else if t ≤ m 2 2 then
    ⟨m 0 2 + m 2 0, m 1 2 + m 2 1, 1 - t + 2 * m 2 2, m 1 0 - m 0 1⟩
  else
    ⟨m 2 1 - m 1 2, m 0 2 - m 2 0, m 1 0 - m 0 1, 1 + t⟩

/-- a rotation matrix: orthogonal with determinant 1 -/
def IsRot (A : M3 K) : Prop := A * A.transpose = 1 ∧ A.det = 1

instance (A : M3 K) : Decidable (IsRot A) := inferInstanceAs (Decidable (_ ∧ _))

/-- rotations, represented by their matrices -/
abbrev RotM (K : Type) [Field K] [LinearOrder K] := { A : M3 K // IsRot A }

end TC
