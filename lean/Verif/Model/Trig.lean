import Verif.Model.Rot
/-!
# Cosine and sine

The alignment code uses `np.cos`/`np.sin`.  They are parameters of the model, so that the model
can also be evaluated over `ℚ`; over `ℝ` they are `Real.cos`/`Real.sin`.
-/
namespace TC

/-- `np.cos`, `np.sin` (alignment/equations.py:10) -/
structure Trig (K : Type) where
  cos : K → K
  sin : K → K

/-- What is used of cosine and sine. -/
structure IsTrig {K : Type} [Field K] (τ : Trig K) : Prop where
  pyth : ∀ a, τ.cos a * τ.cos a + τ.sin a * τ.sin a = 1
  cos_zero : τ.cos 0 = 1
  sin_zero : τ.sin 0 = 0

variable {K : Type} [Field K]

/-- rotation about the x axis -/
def rotX (τ : Trig K) (a : K) : M3 K :=
  !![1, 0, 0; 0, τ.cos a, -τ.sin a; 0, τ.sin a, τ.cos a]
/-- rotation about the y axis -/
def rotY (τ : Trig K) (a : K) : M3 K :=
  !![τ.cos a, 0, τ.sin a; 0, 1, 0; -τ.sin a, 0, τ.cos a]
/-- rotation about the z axis -/
def rotZ (τ : Trig K) (a : K) : M3 K :=
  !![τ.cos a, -τ.sin a, 0; τ.sin a, τ.cos a, 0; 0, 0, 1]

/-- the matrix of scipy's `Rotation.from_euler("xyz", angles)` (extrinsic x, then y, then z;
alignment/parameters.py:351-356, 614-620) -/
def eulerMat (τ : Trig K) (e : V3 K) : M3 K := rotZ τ e.z * rotY τ e.y * rotX τ e.x

end TC
