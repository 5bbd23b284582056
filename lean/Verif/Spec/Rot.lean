import Verif.Model.MatLib
/-!
# What is assumed of rotations

`IsRotLib` says that the rotation type is (isomorphic to) the group of rotation matrices.  It
says nothing about `from_matrix` of a matrix that is not a rotation.  `matLib`, the model of scipy's
algorithm, satisfies it (`matLib_isRotLib`).
-/
namespace TC
variable {K R : Type} [Field K] [LinearOrder K]

/-- the rotations are the rotation matrices -/
structure IsRotLib (L : RotLib K R) : Prop where
  rot : ∀ r, IsRot (L.toMat r)
  fromMat_toMat : ∀ r, L.fromMat (L.toMat r) = r
  toMat_fromMat : ∀ A, IsRot A → L.toMat (L.fromMat A) = A
  toMat_one : L.toMat L.one = 1
  toMat_mul : ∀ a b, L.toMat (L.mul a b) = L.toMat a * L.toMat b
  toMat_inv : ∀ a, L.toMat (L.inv a) = (L.toMat a).transpose

theorem matLib_isRotLib [IsStrictOrderedRing K] (slerp : RotM K → RotM K → K → RotM K) :
    IsRotLib (matLib slerp) where
  rot r := r.2
  fromMat_toMat r := Subtype.ext (quatMat_markley r.2)
  toMat_fromMat _ hA := quatMat_markley hA
  toMat_one := rfl
  toMat_mul _ _ := rfl
  toMat_inv _ := rfl

/-- A rigid motion as a 4×4 matrix: rotation matrix, translation, last row `0 0 0 1`. -/
structure IsRigid (A : M4 K) : Prop where
  rot : IsRot (poseRot A)
  l0 : A 3 0 = 0
  l1 : A 3 1 = 0
  l2 : A 3 2 = 0
  l3 : A 3 3 = 1

end TC
