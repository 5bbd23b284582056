import Verif.Spec.Rot
import Verif.Spec.Traj
import Mathlib.Tactic.FinCases
/-!
Poses as homogeneous matrices.
-/
namespace TC
set_option linter.unusedSectionVars false
variable {K R : Type} [Field K] [LinearOrder K]

@[simp] theorem posePos_mkPose (A : M3 K) (t : V3 K) : posePos (mkPose A t) = t := by
  ext <;> simp [posePos, mkPose]

@[simp] theorem poseRot_mkPose (A : M3 K) (t : V3 K) : poseRot (mkPose A t) = A := by
  ext i j
  fin_cases i <;> fin_cases j <;> simp [poseRot, mkPose]

theorem posePos_mul (P : M4 K) (A : M3 K) (t : V3 K) :
    posePos (P * mkPose A t) = mulV (poseRot P) t + posePos P := by
  ext <;> simp [posePos, mkPose, mulV, poseRot, Matrix.mul_apply, Fin.sum_univ_four]

theorem poseRot_mul (P : M4 K) (A : M3 K) (t : V3 K) :
    poseRot (P * mkPose A t) = poseRot P * A := by
  ext i j
  fin_cases i <;> fin_cases j <;>
    simp [poseRot, mkPose, Matrix.mul_apply, Fin.sum_univ_four, Fin.sum_univ_three]

theorem IsRigid.eq_mkPose {A : M4 K} (h : IsRigid A) : A = mkPose (poseRot A) (posePos A) := by
  ext i j
  fin_cases i <;> fin_cases j <;> simp [poseRot, mkPose, posePos, h.l0, h.l1, h.l2, h.l3]

theorem mkPose_isRigid {A : M3 K} (hA : IsRot A) (t : V3 K) : IsRigid (mkPose A t) :=
  ⟨by rw [poseRot_mkPose]; exact hA, by simp [mkPose], by simp [mkPose], by simp [mkPose],
    by simp [mkPose]⟩

theorem IsRigid.mul {A B : M4 K} (hA : IsRigid A) (hB : IsRigid B) : IsRigid (A * B) := by
  have h1 : poseRot (A * B) = poseRot A * poseRot B := by
    conv_lhs => rw [hB.eq_mkPose]
    rw [poseRot_mul]
  refine ⟨by rw [h1]; exact hA.rot.mul hB.rot, ?_, ?_, ?_, ?_⟩ <;>
    simp [Matrix.mul_apply, Fin.sum_univ_four, hA.l0, hA.l1, hA.l2, hA.l3, hB.l0, hB.l1, hB.l2,
      hB.l3]

theorem isRigid_one : IsRigid (1 : M4 K) := by
  have : poseRot (1 : M4 K) = 1 := by
    ext i j
    fin_cases i <;> fin_cases j <;> simp [poseRot]
  exact ⟨by rw [this]; exact isRot_one, by simp, by simp, by simp, by simp⟩

@[simp] theorem poseRot_one : poseRot (1 : M4 K) = 1 := by
  ext i j
  fin_cases i <;> fin_cases j <;> simp [poseRot]

@[simp] theorem posePos_one : posePos (1 : M4 K) = 0 := by
  ext <;> simp [posePos]

@[simp] theorem mulV_one (v : V3 K) : mulV (1 : M3 K) v = v := by
  ext <;> simp [mulV]

theorem mulV_add (A : M3 K) (v w : V3 K) : mulV A (v + w) = mulV A v + mulV A w := by
  ext <;> simp [mulV] <;> ring

theorem mulV_sub (A : M3 K) (v w : V3 K) : mulV A (v - w) = mulV A v - mulV A w := by
  ext <;> simp [mulV] <;> ring

theorem mulV_smul (A : M3 K) (s : K) (v : V3 K) : mulV A (s • v) = s • mulV A v := by
  ext <;> simp [mulV] <;> ring

theorem smul_mulV (A : M3 K) (s : K) (v : V3 K) : mulV (s • A) v = s • mulV A v := by
  ext <;> simp [mulV] <;> ring

@[simp] theorem mulV_zero (A : M3 K) : mulV A (0 : V3 K) = 0 := by
  ext <;> simp [mulV]

theorem mulV_mulV (A B : M3 K) (v : V3 K) : mulV (A * B) v = mulV A (mulV B v) := by
  ext <;> simp [mulV, Matrix.mul_apply, Fin.sum_univ_three] <;> ring

theorem normSq_mulV {A : M3 K} (hA : IsRot A) (v : V3 K) : (mulV A v).normSq = v.normSq := by
  obtain ⟨_, _, _, _, _, _, c00, c11, c22, c01, c02, c12, _, _, _, _, _, _, _, _, _⟩ := hA.eqs
  simp only [V3.normSq, mulV]
  linear_combination (v.x * v.x) * c00 + (v.y * v.y) * c11 + (v.z * v.z) * c22
    + (2 * v.x * v.y) * c01 + (2 * v.x * v.z) * c02 + (2 * v.y * v.z) * c12

/-! ### `apply_transformation` in closed form -/

/-- the orientations the getter of `se3` works with -/
def rotOr (n : Nat) : Option (List R) → (R → M3 K) → List (M3 K)
  | none, _ => List.replicate n 1
  | some r, f => r.map f

theorem applyTransformation_eq (L : RotLib K R) {T : Traj K R} (hT : Coherent T)
    (hne : T.tstamps ≠ []) (A : M4 K) :
    Traj.applyTransformation L A T = (.ok (),
      { T with
        pos := T.pos.map (fun p => mulV (poseRot A) p + posePos A)
        rot := some ((rotOr T.pos.length T.rot L.toMat).map
          (fun m => L.fromMat (poseRot A * m))) }) := by
  have hp : T.pos.length ≠ 0 := by
    rw [hT.pos]; intro h; exact hne (List.length_eq_zero_iff.1 h)
  unfold Traj.applyTransformation Traj.setSe3
  simp only [SE.run_bind, SE.run_get, SE.run_modify]
  rcases hr : T.rot with _ | r
  · rw [if_neg (by simpa [Traj.se3, hr] using hp)]
    simp only [SE.run_modify, Traj.se3, hr, rotOr, Prod.mk.injEq, true_and, Traj.mk.injEq,
      Option.some.injEq, List.map_map, and_true]
    refine ⟨?_, ?_⟩
    · apply List.map_congr_left
      intro p _
      simp [posePos_mul]
    · rw [List.map_replicate, List.eq_replicate_iff]
      refine ⟨by simp, ?_⟩
      intro x hx
      obtain ⟨p, _, rfl⟩ := List.mem_map.1 hx
      simp [poseRot_mul]
  · have hl := hT.rot r hr
    rw [if_neg (by simp [Traj.se3, hr, hl, hT.pos]; exact hne)]
    simp only [SE.run_modify, Traj.se3, hr, rotOr, Prod.mk.injEq, true_and, Traj.mk.injEq,
      Option.some.injEq, List.map_map, and_true]
    refine ⟨?_, ?_⟩
    · rw [List.map_zipWith]
      apply List.ext_getElem (by simp [hl, hT.pos])
      intro i h1 h2
      simp [posePos_mul]
    · rw [List.map_zipWith]
      apply List.ext_getElem (by simp [hl, hT.pos])
      intro i h1 h2
      simp [poseRot_mul]

end TC
