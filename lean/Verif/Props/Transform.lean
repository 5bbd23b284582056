import Verif.Props.Arc
/-!
# C17, C18, C19, C25, C98: `apply_transformation` and the SE3 view
-/
namespace TC
set_option linter.unusedSectionVars false
variable {K R : Type} [Field K] [LinearOrder K] [IsStrictOrderedRing K]

/-- **C17**, the effect: a rigid motion moves every position and turns every orientation, and
nothing else changes. -/
theorem C17_rigid_motion_moves_every_pose (L : RotLib K R) (hL : IsRotLib L) (T : Traj K R)
    (hT : Coherent T) (hne : T.tstamps ≠ []) (r : List R) (hr : T.rot = some r) (A : M4 K)
    (hA : IsRigid A) :
    ∃ T' r', Returns (Traj.applyTransformation L A) T () T' ∧ Coherent T' ∧ T'.rot = some r' ∧
      T'.pos = T.pos.map (fun p => mulV (poseRot A) p + posePos A) ∧
      r'.map L.toMat = r.map (fun q => poseRot A * L.toMat q) ∧
      T'.tstamps = T.tstamps ∧ T'.arc = T.arc ∧ T'.speed = T.speed ∧ T'.sorting = T.sorting ∧
      T'.name = T.name ∧ T'.epsg = T.epsg := by
  refine ⟨_, _, applyTransformation_eq L hT hne A, ?_, rfl, rfl, ?_, rfl, rfl, rfl, rfl, rfl, rfl⟩
  · refine ⟨by simp [hT.pos], hT.arc, hT.speed, ?_⟩
    rintro q ⟨⟩
    simp [rotOr, hr, hT.rot r hr]
  · simp only [hr, rotOr, List.map_map]
    apply List.map_congr_left
    intro q _
    simp [hL.toMat_fromMat _ (hA.rot.mul (hL.rot q))]

/-- **C17**, composition: the trajectory after two transformations is the trajectory after their
product, with or without orientations. -/
theorem C17_transformations_compose (L : RotLib K R) (hL : IsRotLib L) (T : Traj K R)
    (hT : Coherent T) (hne : T.tstamps ≠ []) (A B : M4 K) (hA : IsRigid A) (hB : IsRigid B) :
    ∃ T₁ T₂, Returns (Traj.applyTransformation L A) T () T₁ ∧
      Returns (Traj.applyTransformation L B) T₁ () T₂ ∧
      Returns (Traj.applyTransformation L (B * A)) T () T₂ := by
  have e1 := applyTransformation_eq L hT hne A
  have hrl : (rotOr T.pos.length T.rot L.toMat).length = T.tstamps.length := by
    rcases hr : T.rot with _ | r
    · simp [rotOr, hT.pos]
    · simp [rotOr, hT.rot r hr]
  have hc : Coherent ({ T with
        pos := T.pos.map (fun p => mulV (poseRot A) p + posePos A)
        rot := some ((rotOr T.pos.length T.rot L.toMat).map
          (fun m => L.fromMat (poseRot A * m))) } : Traj K R) := by
    refine ⟨by simp [hT.pos], hT.arc, hT.speed, ?_⟩
    rintro q ⟨⟩
    simp [hrl]
  refine ⟨_, _, e1, applyTransformation_eq L hc hne B, ?_⟩
  unfold Returns
  rw [applyTransformation_eq L hT hne (B * A)]
  have hBA : B * A = mkPose (poseRot B * poseRot A) (mulV (poseRot B) (posePos A) + posePos B) := by
    rw [(hB.mul hA).eq_mkPose]
    conv_lhs => rw [hA.eq_mkPose, poseRot_mul, posePos_mul]
  have hrot : ∀ m ∈ rotOr T.pos.length T.rot L.toMat, IsRot m := by
    intro m hm
    rcases hr : T.rot with _ | r
    · rw [hr] at hm
      rw [List.eq_of_mem_replicate hm]; exact isRot_one
    · rw [hr] at hm
      obtain ⟨q, _, rfl⟩ := List.mem_map.1 hm
      exact hL.rot q
  simp only [Prod.mk.injEq, true_and, Traj.mk.injEq, Option.some.injEq, and_true]
  constructor
  · rw [List.map_map]
    apply List.map_congr_left
    intro p _
    simp only [hBA, posePos_mkPose, poseRot_mkPose, mulV_mulV, Function.comp, mulV_add]
    abel
  · rw [show rotOr (List.map (fun p => mulV (poseRot A) p + posePos A) T.pos).length
      (some ((rotOr T.pos.length T.rot L.toMat).map (fun m => L.fromMat (poseRot A * m)))) L.toMat
      = ((rotOr T.pos.length T.rot L.toMat).map (fun m => L.fromMat (poseRot A * m))).map L.toMat
      from rfl, List.map_map, List.map_map]
    apply List.map_congr_left
    intro m hm
    simp only [Function.comp]
    rw [hL.toMat_fromMat _ (hA.rot.mul (hrot m hm)), hBA, poseRot_mkPose, mul_assoc]

/-- **C17**, the identity changes nothing. -/
theorem C17_identity_changes_nothing (L : RotLib K R) (hL : IsRotLib L) (T : Traj K R)
    (hT : Coherent T) (hne : T.tstamps ≠ []) (r : List R) (hr : T.rot = some r) :
    Returns (Traj.applyTransformation L 1) T () T := by
  unfold Returns
  rw [applyTransformation_eq L hT hne 1]
  have h1 : T.pos.map (fun p => mulV (poseRot (1 : M4 K)) p + posePos (1 : M4 K)) = T.pos := by
    conv_rhs => rw [← List.map_id T.pos]
    apply List.map_congr_left
    intro p _
    simp
  have h2 : (rotOr T.pos.length T.rot L.toMat).map (fun m => L.fromMat (poseRot (1 : M4 K) * m))
      = r := by
    simp only [hr, rotOr, List.map_map]
    conv_rhs => rw [← List.map_id r]
    apply List.map_congr_left
    intro q _
    simp [hL.fromMat_toMat]
  rw [h1, h2, ← hr]

/-- **C17**, a rigid motion followed by its inverse restores the trajectory exactly. -/
theorem C17_inverse_cancels (L : RotLib K R) (hL : IsRotLib L) (T : Traj K R)
    (hT : Coherent T) (hne : T.tstamps ≠ []) (r : List R) (hr : T.rot = some r) (A B : M4 K)
    (hA : IsRigid A) (hB : IsRigid B) (hBA : B * A = 1) :
    ∃ T₁, Returns (Traj.applyTransformation L A) T () T₁ ∧
      Returns (Traj.applyTransformation L B) T₁ () T := by
  obtain ⟨T₁, T₂, h1, h2, h3⟩ := C17_transformations_compose L hL T hT hne A B hA hB
  rw [hBA] at h3
  have h4 := C17_identity_changes_nothing L hL T hT hne r hr
  unfold Returns at h3 h4
  rw [h3] at h4
  exact ⟨T₁, h1, by rw [← (Prod.mk.inj h4).2]; exact h2⟩

/-- **C18 is false of the code**: every non-empty trajectory without orientations has orientations
after `apply_transformation`. -/
theorem C18_transformation_invents_orientations (L : RotLib K R) (T : Traj K R) (hT : Coherent T)
    (hne : T.tstamps ≠ []) (hr : T.rot = none) (A : M4 K) :
    ∃ T', Returns (Traj.applyTransformation L A) T () T' ∧ T.hasOrientation = false ∧
      T'.hasOrientation = true := by
  refine ⟨_, applyTransformation_eq L hT hne A, by simp [Traj.hasOrientation, hr], ?_⟩
  simp only [Traj.hasOrientation, hr, rotOr, List.length_map, List.length_replicate]
  rw [decide_eq_true_iff, hT.pos]
  exact List.length_pos_of_ne_nil hne

/-- **C18**, positive part: the presence of orientations is unchanged if there are some before.
Missing for the full property: trajectories without orientations, for which it is false. -/
theorem C18_transformation_keeps_orientations_partial (L : RotLib K R) (T : Traj K R)
    (hT : Coherent T) (hne : T.tstamps ≠ []) (hr : T.hasOrientation = true) (A : M4 K) :
    ∃ T', Returns (Traj.applyTransformation L A) T () T' ∧ T'.hasOrientation = true := by
  refine ⟨_, applyTransformation_eq L hT hne A, ?_⟩
  unfold Traj.hasOrientation at hr ⊢
  rcases h : T.rot with _ | r
  · rw [h] at hr; simp at hr
  · rw [h] at hr
    simpa [rotOr] using hr

/-- **C19**, rigid motions: the arc lengths are still the travelled distance.
Missing for the full property: transformations with a scale, for which it is false. -/
theorem C19_arc_lengths_after_rigid_motion_partial (L : RotLib K R) (nrm : V3 K → K)
    (hn : IsNorm nrm) (T : Traj K R) (hT : Coherent T) (hne : T.tstamps ≠ [])
    (harc : IsTravelled nrm T.pos T.arc) (A : M4 K) (hA : IsRigid A) :
    ∃ T', Returns (Traj.applyTransformation L A) T () T' ∧ IsTravelled nrm T'.pos T'.arc := by
  refine ⟨_, applyTransformation_eq L hT hne A, ?_⟩
  have hp : T.pos ≠ [] := by
    intro h; apply hne; apply List.length_eq_zero_iff.1; rw [← hT.pos, h]; rfl
  have h1 := C13_arc_lengths_are_travelled_distance nrm T.pos hp
  have h2 := C13_arc_lengths_are_travelled_distance nrm
    (T.pos.map (fun p => mulV (poseRot A) p + posePos A)) (by simpa using hp)
  rw [C14_arc_lengths_rigid_motion nrm hn _ hA.rot] at h2
  rw [harc.unique h1]
  exact h2

/-- **C19 is false of the code**: after a transformation with scale `s ≠ 1` (`s ≥ 0`) of a
trajectory that moves at all, the arc lengths are not the travelled distance. -/
theorem C19_arc_lengths_after_scaling_wrong (L : RotLib K R) (nrm : V3 K → K)
    (hn : IsNorm nrm) (T : Traj K R) (hT : Coherent T) (p q : V3 K) (hp : T.pos[0]? = some p)
    (hq : T.pos[1]? = some q) (hpq : p ≠ q)
    (harc : IsTravelled nrm T.pos T.arc) (s : K) (hs : 0 ≤ s) (hs1 : s ≠ 1) (t : V3 K) :
    ∃ T', Returns (Traj.applyTransformation L (mkPose (s • 1) t)) T () T' ∧
      ¬ IsTravelled nrm T'.pos T'.arc := by
  have hlen := (List.getElem?_eq_some_iff.1 hq).1
  have hne : T.tstamps ≠ [] := by
    intro h; have := hT.pos; rw [h] at this; simp at this; rw [this] at hlen; simp at hlen
  refine ⟨_, applyTransformation_eq L hT hne _, ?_⟩
  intro h
  simp only [poseRot_mkPose, posePos_mkPose] at h
  have ha : T.arc.length = T.pos.length := harc.length
  have e0 := List.getElem?_eq_getElem (l := T.arc) (i := 0) (by omega)
  have e1 := List.getElem?_eq_getElem (l := T.arc) (i := 1) (by omega)
  have h1 := harc.step 0 p q _ _ hp hq e0 e1
  have h2 := h.step 0 (mulV (s • 1) p + t) (mulV (s • 1) q + t) _ _
    (by rw [List.getElem?_map, hp]; rfl) (by rw [List.getElem?_map, hq]; rfl) e0 e1
  have h3 : mulV (s • (1 : M3 K)) q + t - (mulV (s • (1 : M3 K)) p + t) = s • (q - p) := by
    rw [smul_mulV, smul_mulV, mulV_one, mulV_one, smul_sub]; abel
  rw [h3, hn.smul, abs_of_nonneg hs] at h2
  have h4 : nrm (q - p) ≠ 0 := fun h => hpq (sub_eq_zero.1 (hn.eq_zero h)).symm
  have h5 : (s - 1) * nrm (q - p) = 0 := by linear_combination h1 - h2
  rcases mul_eq_zero.1 h5 with h6 | h6
  · exact hs1 (by linear_combination h6)
  · exact h4 h6

/-- **C25.** Writing the poses back changes nothing. -/
theorem C25_se3_round_trip (L : RotLib K R) (hL : IsRotLib L) (T : Traj K R) (hT : Coherent T)
    (hne : T.tstamps ≠ []) (r : List R) (hr : T.rot = some r) :
    Returns (Traj.setSe3 L (T.se3 L)) T () T := by
  have h := C17_identity_changes_nothing L hL T hT hne r hr
  unfold Returns at h ⊢
  rw [← h]
  unfold Traj.applyTransformation
  rw [SE.run_bind_ok (SE.run_get T)]
  have : (T.se3 L).map (fun p => (1 : M4 K) * p) = T.se3 L := by
    conv_rhs => rw [← List.map_id (T.se3 L)]
    exact List.map_congr_left (fun p _ => one_mul p)
  rw [this]

/-- **C25** for rotation matrices and scipy's `from_matrix` as modelled in `markley`, with nothing
assumed about rotations. -/
theorem C25_se3_round_trip_matrices
    (slerp : RotM K → RotM K → K → RotM K) (T : Traj K (RotM K)) (hT : Coherent T)
    (hne : T.tstamps ≠ []) (r : List (RotM K)) (hr : T.rot = some r) :
    Returns (Traj.setSe3 (matLib slerp) (T.se3 (matLib slerp))) T () T :=
  C25_se3_round_trip _ (matLib_isRotLib slerp) T hT hne r hr

/-- **C98**, positive part: with scale 1 the orientations are turned by the rotation.
Missing for the full property: scales different from 1, for which it is false. -/
theorem C98_orientations_after_scale_one_partial (L : RotLib K R) (hL : IsRotLib L) (T : Traj K R)
    (hT : Coherent T) (hne : T.tstamps ≠ []) (r : List R) (hr : T.rot = some r) (A : M3 K)
    (hA : IsRot A) (t : V3 K) :
    ∃ T' r', Returns (Traj.applyTransformation L (mkPose ((1 : K) • A) t)) T () T' ∧
      T'.rot = some r' ∧ r'.map L.toMat = r.map (fun q => A * L.toMat q) := by
  rw [one_smul]
  obtain ⟨T', r', h1, _, h2, _, h3, _⟩ := C17_rigid_motion_moves_every_pose L hL T hT hne r hr
    (mkPose A t) (mkPose_isRigid hA t)
  exact ⟨T', r', h1, h2, by simpa using h3⟩

/-- rotation by 90° about the z axis -/
def quarter : RotM ℚ := ⟨!![0, -1, 0; 1, 0, 0; 0, 0, 1], quarterTurn_isRot⟩

/-- one sample with an orientation -/
def exOne : Traj ℚ (RotM ℚ) :=
  { tstamps := [0], pos := [⟨1, 2, 3⟩], rot := some [quarter], arc := [0], speed := [0],
    sorting := .time, name := "one", epsg := 0 }

theorem exOne_coherent : Coherent exOne := ⟨rfl, rfl, rfl, by rintro r ⟨⟩; rfl⟩

/-- scipy's rotations with a constant interpolation (not used here) -/
def exMatLib : RotLib ℚ (RotM ℚ) := matLib (fun a _ _ => a)

/-- **C98 is false of the code**: scaling by 2 (identity rotation) turns an orientation of 90°
about z into one of about 73.7°: its matrix is
`(7/25, -24/25; 24/25, 7/25)` in the x-y plane. -/
theorem C98_scaling_corrupts_orientations :
    ∃ T' r', Returns (Traj.applyTransformation exMatLib (mkPose ((2 : ℚ) • 1) 0)) exOne () T' ∧
      T'.rot = some [r'] ∧ r'.1 = !![7/25, -24/25, 0; 24/25, 7/25, 0; 0, 0, 1] ∧
      r'.1 ≠ quarter.1 := by
  have hval : quatMat (markley ((2 : ℚ) • (1 : M3 ℚ) * quarter.1))
      = !![7/25, -24/25, 0; 24/25, 7/25, 0; 0, 0, 1] := by
    ext i j
    fin_cases i <;> fin_cases j <;> decide +kernel
  refine ⟨_, _, applyTransformation_eq exMatLib exOne_coherent (by decide) _, rfl, ?_, ?_⟩
  · simpa [exMatLib, matLib] using hval
  · have : (!![7/25, -24/25, 0; 24/25, 7/25, 0; 0, 0, 1] : M3 ℚ) ≠ quarter.1 := by
      intro h
      have := congrFun (congrFun h 0) 0
      simp [quarter] at this
    rw [← hval] at this
    simpa [exMatLib, matLib] using this

/-! ### The hypotheses are met -/

example : IsRotLib exMatLib ∧ Coherent exOne ∧ exOne.tstamps ≠ [] ∧ exOne.rot = some [quarter] ∧
    IsRigid (mkPose quarter.1 (⟨1, 2, 3⟩ : V3 ℚ)) :=
  ⟨matLib_isRotLib _, exOne_coherent, by decide, rfl, mkPose_isRigid quarter.2 _⟩

example : ∃ B : M4 ℚ, IsRigid B ∧ B * mkPose quarter.1 (⟨1, 2, 3⟩ : V3 ℚ) = 1 :=
  ⟨mkPose quarter.1.transpose ⟨-2, 1, -3⟩, mkPose_isRigid quarter.2.transpose _, by
    ext i j
    fin_cases i <;> fin_cases j <;> decide +kernel⟩

/-- two samples one metre apart, over the reals -/
noncomputable def exMove : Traj ℝ Nat :=
  { tstamps := [0, 1], pos := [⟨0, 0, 0⟩, ⟨1, 0, 0⟩], rot := none, arc := [0, 1],
    speed := [⟨1, 0, 0⟩, 0], sorting := .time, name := "move", epsg := 0 }

example : Coherent exMove ∧ exMove.rot = none ∧ IsTravelled realNorm exMove.pos exMove.arc ∧
    exMove.pos[0]? ≠ exMove.pos[1]? := by
  refine ⟨⟨rfl, rfl, rfl, by rintro r ⟨⟩⟩, rfl, ⟨rfl, rfl, ?_⟩, by simp [exMove]⟩
  intro i p q s t hp hq hs ht
  rcases i with _ | i
  · simp only [exMove, List.getElem?_cons_zero, List.getElem?_cons_succ, Option.some.injEq, zero_add] at *
    subst hp hq hs ht
    have : realNorm (⟨1, 0, 0⟩ - ⟨0, 0, 0⟩) = 1 :=
      realNorm_isNorm.eq_of_sq (by norm_num) (by simp [V3.normSq])
    rw [this]; norm_num
  · simp [exMove] at hq

end TC
