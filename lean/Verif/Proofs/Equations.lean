import Verif.Model.ApplyAlignment
import Verif.Proofs.Pose
/-!
The alignment equations in matrix form.
-/
namespace TC
set_option linter.unusedSectionVars false
variable {K R : Type} [Field K] [LinearOrder K]
open Equations

theorem eulerMat_apply (τ : Trig K) (e v : V3 K) : mulV (eulerMat τ e) v =
    ⟨τ.cos e.y * τ.cos e.z * v.x + (τ.sin e.x * τ.sin e.y * τ.cos e.z - τ.cos e.x * τ.sin e.z) * v.y
      + (τ.cos e.x * τ.sin e.y * τ.cos e.z + τ.sin e.x * τ.sin e.z) * v.z,
     τ.cos e.y * τ.sin e.z * v.x + (τ.sin e.x * τ.sin e.y * τ.sin e.z + τ.cos e.x * τ.cos e.z) * v.y
      + (τ.cos e.x * τ.sin e.y * τ.sin e.z - τ.sin e.x * τ.cos e.z) * v.z,
     -τ.sin e.y * v.x + τ.sin e.x * τ.cos e.y * v.y + τ.cos e.x * τ.cos e.y * v.z⟩ := by
  ext <;> simp [mulV, eulerMat, rotX, rotY, rotZ, Matrix.mul_apply, Fin.sum_univ_three] <;> ring

theorem rotX_isRot {τ : Trig K} (h : IsTrig τ) (a : K) : IsRot (rotX τ a) := by
  have := h.pyth a
  constructor
  · ext i j
    fin_cases i <;> fin_cases j <;> simp [rotX, Matrix.mul_apply, Fin.sum_univ_three] <;>
      first | ring1 | linear_combination this
  · simp [rotX, Matrix.det_fin_three]; linear_combination this

theorem rotY_isRot {τ : Trig K} (h : IsTrig τ) (a : K) : IsRot (rotY τ a) := by
  have := h.pyth a
  constructor
  · ext i j
    fin_cases i <;> fin_cases j <;> simp [rotY, Matrix.mul_apply, Fin.sum_univ_three] <;>
      first | ring1 | linear_combination this
  · simp [rotY, Matrix.det_fin_three]; linear_combination this

theorem rotZ_isRot {τ : Trig K} (h : IsTrig τ) (a : K) : IsRot (rotZ τ a) := by
  have := h.pyth a
  constructor
  · ext i j
    fin_cases i <;> fin_cases j <;> simp [rotZ, Matrix.mul_apply, Fin.sum_univ_three] <;>
      first | ring1 | linear_combination this
  · simp [rotZ, Matrix.det_fin_three]; linear_combination this

theorem eulerMat_isRot {τ : Trig K} (h : IsTrig τ) (e : V3 K) : IsRot (eulerMat τ e) :=
  ((rotZ_isRot h _).mul (rotY_isRot h _)).mul (rotX_isRot h _)

theorem eulerMat_zero {τ : Trig K} (h : IsTrig τ) : eulerMat τ 0 = 1 := by
  ext i j
  fin_cases i <;> fin_cases j <;>
    simp [eulerMat, rotX, rotY, rotZ, Matrix.mul_apply, Fin.sum_univ_three, h.cos_zero, h.sin_zero]

theorem leverTime_eq (τ : Trig K) (e v : V3 K) (dt : K) (l : V3 K) :
    leverTime τ e v dt l = mulV (eulerMat τ e) l + dt • v := by
  rw [eulerMat_apply]
  ext <;> simp [leverTime, leverTimeX, leverTimeY, leverTimeZ]

theorem contradiction_eq (τ : Trig K) (p target e v : V3 K) (q : Params K) :
    contradiction τ p target e v q
      = (q.trans + q.scale • mulV (eulerMat τ q.rot) (p + (mulV (eulerMat τ e) q.lever + q.time • v)))
        - target := by
  rw [← leverTime_eq, eulerMat_apply]
  ext <;> simp [contradiction, funX, funY, funZ, transformedX, transformedY, transformedZ,
    helmertX, helmertY, helmertZ] <;> ring

end TC
