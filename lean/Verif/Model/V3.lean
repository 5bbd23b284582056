import Mathlib.Algebra.Order.Field.Basic
import Mathlib.Algebra.Module.Basic
import Mathlib.Tactic.Ring
/-!
# Points and vectors in space

A row of an `n × 3` coordinate array.
-/
namespace TC

/-- one row `x, y, z` of a coordinate array (`PointSet.xyz`, trajectory.py:63) -/
@[ext] structure V3 (K : Type) where
  x : K
  y : K
  z : K
  deriving DecidableEq, Repr

namespace V3
variable {K : Type} [Field K]

instance : Zero (V3 K) := ⟨⟨0, 0, 0⟩⟩
instance : Add (V3 K) := ⟨fun a b => ⟨a.x + b.x, a.y + b.y, a.z + b.z⟩⟩
instance : Neg (V3 K) := ⟨fun a => ⟨-a.x, -a.y, -a.z⟩⟩
instance : Sub (V3 K) := ⟨fun a b => ⟨a.x - b.x, a.y - b.y, a.z - b.z⟩⟩
instance : SMul K (V3 K) := ⟨fun s a => ⟨s * a.x, s * a.y, s * a.z⟩⟩

@[simp] theorem zero_x : (0 : V3 K).x = 0 := rfl
@[simp] theorem zero_y : (0 : V3 K).y = 0 := rfl
@[simp] theorem zero_z : (0 : V3 K).z = 0 := rfl
@[simp] theorem add_x (a b : V3 K) : (a + b).x = a.x + b.x := rfl
@[simp] theorem add_y (a b : V3 K) : (a + b).y = a.y + b.y := rfl
@[simp] theorem add_z (a b : V3 K) : (a + b).z = a.z + b.z := rfl
@[simp] theorem neg_x (a : V3 K) : (-a).x = -a.x := rfl
@[simp] theorem neg_y (a : V3 K) : (-a).y = -a.y := rfl
@[simp] theorem neg_z (a : V3 K) : (-a).z = -a.z := rfl
@[simp] theorem sub_x (a b : V3 K) : (a - b).x = a.x - b.x := rfl
@[simp] theorem sub_y (a b : V3 K) : (a - b).y = a.y - b.y := rfl
@[simp] theorem sub_z (a b : V3 K) : (a - b).z = a.z - b.z := rfl
@[simp] theorem smul_x (s : K) (a : V3 K) : (s • a).x = s * a.x := rfl
@[simp] theorem smul_y (s : K) (a : V3 K) : (s • a).y = s * a.y := rfl
@[simp] theorem smul_z (s : K) (a : V3 K) : (s • a).z = s * a.z := rfl

instance : AddCommGroup (V3 K) where
  add_assoc a b c := by ext <;> simp [add_assoc]
  zero_add a := by ext <;> simp
  add_zero a := by ext <;> simp
  add_comm a b := by ext <;> simp [add_comm]
  neg_add_cancel a := by ext <;> simp
  sub_eq_add_neg a b := by ext <;> simp [sub_eq_add_neg]
  nsmul := nsmulRec
  zsmul := zsmulRec

instance : Module K (V3 K) where
  one_smul a := by ext <;> simp
  mul_smul a b c := by ext <;> simp [mul_assoc]
  smul_zero a := by ext <;> simp
  smul_add a b c := by ext <;> simp [mul_add]
  add_smul a b c := by ext <;> simp [add_mul]
  zero_smul a := by ext <;> simp

/-- scalar product -/
def dot (a b : V3 K) : K := a.x * b.x + a.y * b.y + a.z * b.z

/-- squared Euclidean length -/
def normSq (a : V3 K) : K := a.x * a.x + a.y * a.y + a.z * a.z

end V3

/-- A Euclidean norm: what `np.linalg.norm(v)` returns for a row `v`
(call sites utils.py:99, sorting.py:104, trajectory.py:406).  It is a parameter of the model so
that the model stays executable over `ℚ`; over `ℝ` it is `√(x²+y²+z²)`. -/
structure IsNorm {K : Type} [Field K] [LinearOrder K] (nrm : V3 K → K) : Prop where
  nonneg : ∀ v, 0 ≤ nrm v
  sq : ∀ v, nrm v * nrm v = V3.normSq v

end TC
