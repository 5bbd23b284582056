import Verif.Proofs.RotMat
/-!
# A rotation library made of rotation matrices

The scipy operations of `RotLib`, with `from_matrix` as in `Model/RotMat.lean`.  Spherical
interpolation needs trigonometric functions and stays a parameter.
-/
namespace TC
variable {K : Type} [Field K] [LinearOrder K] [IsStrictOrderedRing K]

/-- rotations as matrices: `one`, `mul`, `inv`, `as_matrix` are the matrix operations,
`from_matrix` is scipy's algorithm (call sites trajectory.py:350, 371, 689, merging.py:47) -/
def matLib (slerp : RotM K → RotM K → K → RotM K) : RotLib K (RotM K) where
  one := ⟨1, isRot_one⟩
  mul a b := ⟨a.1 * b.1, a.2.mul b.2⟩
  inv a := ⟨a.1.transpose, a.2.transpose⟩
  toMat a := a.1
  fromMat A := ⟨quatMat (markley A), quatMat_isRot (ne_of_gt (markley_normSq_pos A))⟩
  slerp := slerp

end TC
