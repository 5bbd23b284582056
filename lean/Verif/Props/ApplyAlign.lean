import Verif.Proofs.Equations
import Verif.Props.Heap
import Verif.Props.Transform
import Verif.Proofs.Euler
/-!
# C20, C21: `apply_alignment`; C72, C73: the alignment equations
-/
namespace TC
set_option linter.unusedSectionVars false
open H Equations
variable {K R : Type} [Field K] [LinearOrder K] [IsStrictOrderedRing K]

/-- the closed form, with orientations -/
theorem applyAlignmentBody_eq (L : RotLib K R) (τ : Trig K) (toEuler : R → V3 K) (q : Params K)
    (sensor : R) {T : Traj K R} (hT : Coherent T) (hne : T.tstamps ≠ []) (r : List R)
    (hr : T.rot = some r) :
    Traj.applyAlignmentBody L τ toEuler q sensor T = (.ok (),
      { T with
        pos := (List.zipWith (fun p c => p + c) T.pos
          (List.zipWith (fun e v => leverTime τ e v q.time q.lever) (r.map toEuler) T.speed)).map
          (fun p => mulV (q.scale • eulerMat τ q.rot) p + q.trans)
        rot := some (r.map (fun o => L.mul sensor
          (L.fromMat ((q.scale • eulerMat τ q.rot) * L.toMat o)))) }) := by
  have hl := hT.rot r hr
  unfold Traj.applyAlignmentBody
  rw [SE.run_bind_ok (SE.run_get T)]
  simp only [hr, List.length_map, hl, hT.speed, ne_eq, not_true_eq_false, if_false]
  rw [if_neg (by simp [hl, hT.speed, hT.pos]), SE.run_bind_ok (SE.run_modify _ _)]
  have hc : Coherent ({ T with
        pos := List.zipWith (fun p c => p + c) T.pos
          (List.zipWith (fun e v => leverTime τ e v q.time q.lever) (r.map toEuler) T.speed) } :
          Traj K R) := by
    refine ⟨by simp [hl, hT.speed, hT.pos], hT.arc, hT.speed, hT.rot⟩
  rw [SE.run_bind_ok (applyTransformation_eq L hc hne (sim3Matrix τ q)), SE.run_bind_ok (SE.run_get _)]
  simp only [SE.run_modify, hr, rotOr, sim3Matrix, poseRot_mkPose, posePos_mkPose, List.map_map]
  rfl

/-- the closed form, without orientations: the lever arm is not used -/
theorem applyAlignmentBody_eq_noRot (L : RotLib K R) (τ : Trig K) (toEuler : R → V3 K)
    (q : Params K) (sensor : R) {T : Traj K R} (hT : Coherent T) (hne : T.tstamps ≠ [])
    (hr : T.rot = none) :
    Traj.applyAlignmentBody L τ toEuler q sensor T = (.ok (),
      { T with
        pos := (List.zipWith (fun p c => p + c) T.pos
          (List.zipWith (fun e v => leverTime τ e v q.time 0)
            (List.replicate T.speed.length 0) T.speed)).map
          (fun p => mulV (q.scale • eulerMat τ q.rot) p + q.trans)
        rot := some ((List.replicate T.pos.length (L.mul sensor
          (L.fromMat (q.scale • eulerMat τ q.rot))))) }) := by
  unfold Traj.applyAlignmentBody
  rw [SE.run_bind_ok (SE.run_get T)]
  simp only [hr, List.length_replicate, ne_eq, not_true_eq_false, if_false]
  rw [if_neg (by simp [hT.speed, hT.pos]), SE.run_bind_ok (SE.run_modify _ _)]
  have hc : Coherent ({ T with
        pos := List.zipWith (fun p c => p + c) T.pos
          (List.zipWith (fun e v => leverTime τ e v q.time 0)
            (List.replicate T.speed.length 0) T.speed) } :
          Traj K R) := by
    refine ⟨by simp [hT.speed, hT.pos], hT.arc, hT.speed, hT.rot⟩
  rw [SE.run_bind_ok (applyTransformation_eq L hc hne (sim3Matrix τ q)), SE.run_bind_ok (SE.run_get _)]
  simp [SE.run_modify, hr, rotOr, sim3Matrix, poseRot_mkPose, posePos_mkPose, hT.speed, hT.pos]

/-- **C20**, positive part: with `inplace=False` the call returns a new trajectory for every
non-empty trajectory with one entry per sample in each channel.
Missing for the full property: the default `inplace=True`. -/
theorem C20_apply_alignment_not_inplace_returns_partial (lib : Lib K R) (q : Params K)
    (sensor : R) (h : Heap K R) (r : Nat) (T : Traj K R) (hr : h[r]? = some T) (hT : Coherent T)
    (hne : T.tstamps ≠ []) :
    ∃ T', Returns (H.run lib (.applyAlignment q sensor) r false) h h.length (h ++ [T']) ∧
      T'.tstamps = T.tstamps ∧ Coherent T' := by
  have key : ∃ T', bodyOf lib (.applyAlignment q sensor) T = (.ok (), T') ∧
      T'.tstamps = T.tstamps ∧ Coherent T' := by
    rcases hrot : T.rot with _ | ro
    · refine ⟨_, applyAlignmentBody_eq_noRot lib.rot lib.trig lib.toEuler q sensor hT hne hrot, rfl,
        by simp [hT.speed, hT.pos], hT.arc, hT.speed, ?_⟩
      rintro x ⟨⟩
      simp [hT.pos]
    · have hl := hT.rot ro hrot
      refine ⟨_, applyAlignmentBody_eq lib.rot lib.trig lib.toEuler q sensor hT hne ro hrot, rfl,
        by simp [hT.speed, hT.pos, hl], hT.arc, hT.speed, ?_⟩
      rintro x ⟨⟩
      simp [hl]
  obtain ⟨T', h1, h2, h3⟩ := key
  refine ⟨T', ?_, h2, h3⟩
  unfold Returns
  rcases run_copy lib (.applyAlignment q sensor) h r T hr with he | ⟨e, hb, _⟩
  · rw [he, h1]; rfl
  · rw [h1] at hb; simp at hb

/-- **C21**, positions with orientations: lever arm (turned by the platform's own orientation) and
time shift are applied first, then the similarity. `heul` says that the Euler angles of an
orientation describe that orientation. -/
theorem C21_aligned_positions (lib : Lib K R)
    (heul : ∀ o, eulerMat lib.trig (lib.toEuler o) = lib.rot.toMat o) (q : Params K)
    (sensor : R) (h h' : Heap K R) (r s : Nat) (T T' : Traj K R) (hr : h[r]? = some T)
    (hT : Coherent T) (hne : T.tstamps ≠ []) (ro : List R) (hro : T.rot = some ro)
    (hret : Returns (H.run lib (.applyAlignment q sensor) r false) h s h') (hs : h'[s]? = some T')
    (i : Nat) (p v : V3 K) (o : R) (hp : T.pos[i]? = some p) (hv : T.speed[i]? = some v)
    (ho : ro[i]? = some o) :
    T'.pos[i]? = some (q.trans + q.scale • mulV (eulerMat lib.trig q.rot)
      (p + mulV (lib.rot.toMat o) q.lever + q.time • v)) := by
  have hb := applyAlignmentBody_eq lib.rot lib.trig lib.toEuler q sensor hT hne ro hro
  have hT' : T' = (Traj.applyAlignmentBody lib.rot lib.trig lib.toEuler q sensor T).2 := by
    unfold Returns at hret
    rcases run_copy lib (.applyAlignment q sensor) h r T hr with he | ⟨e, hb', _⟩
    · rw [he] at hret
      simp only [bodyOf, hb, Except.map, Prod.mk.injEq, Except.ok.injEq] at hret
      obtain ⟨h1, h2⟩ := hret
      subst h1 h2
      simp only [List.getElem?_concat_length, Option.some.injEq] at hs
      rw [hb]
      exact hs.symm
    · rw [show bodyOf lib (.applyAlignment q sensor) T = _ from hb] at hb'; simp at hb'
  rw [hT', hb]
  simp only [List.getElem?_map, List.getElem?_zipWith, hp, hv, ho, Option.map_some, leverTime_eq,
    heul, smul_mulV]
  rw [add_comm q.trans, add_assoc]

/-- **C21**, positions without orientations: the lever arm has no effect. -/
theorem C21_aligned_positions_without_orientations (lib : Lib K R) (q : Params K)
    (sensor : R) (h h' : Heap K R) (r s : Nat) (T T' : Traj K R) (hr : h[r]? = some T)
    (hT : Coherent T) (hne : T.tstamps ≠ []) (hro : T.rot = none)
    (hret : Returns (H.run lib (.applyAlignment q sensor) r false) h s h') (hs : h'[s]? = some T')
    (i : Nat) (p v : V3 K) (hp : T.pos[i]? = some p) (hv : T.speed[i]? = some v) :
    T'.pos[i]? = some (q.trans + q.scale • mulV (eulerMat lib.trig q.rot) (p + q.time • v)) := by
  have hb := applyAlignmentBody_eq_noRot lib.rot lib.trig lib.toEuler q sensor hT hne hro
  have hT' : T' = (Traj.applyAlignmentBody lib.rot lib.trig lib.toEuler q sensor T).2 := by
    unfold Returns at hret
    rcases run_copy lib (.applyAlignment q sensor) h r T hr with he | ⟨e, hb', _⟩
    · rw [he] at hret
      simp only [bodyOf, hb, Except.map, Prod.mk.injEq, Except.ok.injEq] at hret
      obtain ⟨h1, h2⟩ := hret
      subst h1 h2
      simp only [List.getElem?_concat_length, Option.some.injEq] at hs
      rw [hb]
      exact hs.symm
    · rw [show bodyOf lib (.applyAlignment q sensor) T = _ from hb] at hb'; simp at hb'
  have hi := (List.getElem?_eq_some_iff.1 hv).1
  rw [hT', hb]
  simp only [List.getElem?_map, List.getElem?_zipWith, hp, hv, Option.map_some, leverTime_eq,
    smul_mulV, List.getElem?_replicate, hi, if_true, mulV_zero, zero_add]
  rw [add_comm q.trans]

/-- **C21**, orientations, for scale 1 (see C98 for other scales): sensor rotation times alignment
rotation times orientation. -/
theorem C21_aligned_orientations_scale_one (lib : Lib K R) (hL : IsRotLib lib.rot)
    (hτ : IsTrig lib.trig) (q : Params K) (hq : q.scale = 1)
    (sensor : R) (T : Traj K R)
    (hT : Coherent T) (hne : T.tstamps ≠ []) (ro : List R) (hro : T.rot = some ro) :
    ∃ T' ro', Returns (Traj.applyAlignmentBody lib.rot lib.trig lib.toEuler q sensor) T () T' ∧
      T'.rot = some ro' ∧ ro'.map lib.rot.toMat = ro.map (fun o =>
        lib.rot.toMat sensor * eulerMat lib.trig q.rot * lib.rot.toMat o) := by
  refine ⟨_, _, applyAlignmentBody_eq lib.rot lib.trig lib.toEuler q sensor hT hne ro hro, rfl, ?_⟩
  rw [List.map_map, hq, one_smul]
  apply List.map_congr_left
  intro o _
  simp only [Function.comp, hL.toMat_mul]
  rw [hL.toMat_fromMat _ ((eulerMat_isRot hτ _).mul (hL.rot o)), mul_assoc]

/-- **C21**, neutral parameters change nothing. -/
theorem C21_neutral_alignment_changes_nothing (lib : Lib K R) (hL : IsRotLib lib.rot)
    (hτ : IsTrig lib.trig) (T : Traj K R)
    (hT : Coherent T) (hne : T.tstamps ≠ []) (ro : List R) (hro : T.rot = some ro) :
    Returns (Traj.applyAlignmentBody lib.rot lib.trig lib.toEuler
      { trans := 0, rot := 0, scale := 1, time := 0, lever := 0 } lib.rot.one) T () T := by
  have hone : ∀ a, lib.rot.mul lib.rot.one a = a := by
    intro a
    rw [← hL.fromMat_toMat (lib.rot.mul _ a), hL.toMat_mul, hL.toMat_one, one_mul, hL.fromMat_toMat]
  unfold Returns
  rw [applyAlignmentBody_eq lib.rot lib.trig lib.toEuler _ _ hT hne ro hro]
  have hl := hT.rot ro hro
  have h1 : (List.zipWith (fun p c => p + c) T.pos
          (List.zipWith (fun e v => leverTime lib.trig e v 0 0) (ro.map lib.toEuler) T.speed)).map
          (fun p => mulV ((1 : K) • eulerMat lib.trig 0) p + 0) = T.pos := by
    apply List.ext_getElem (by simp [hl, hT.pos, hT.speed])
    intro i h1 h2
    simp [leverTime_eq, eulerMat_zero hτ]
  have h2 : ro.map (fun o => lib.rot.mul lib.rot.one
          (lib.rot.fromMat (((1 : K) • eulerMat lib.trig 0) * lib.rot.toMat o))) = ro := by
    conv_rhs => rw [← List.map_id ro]
    apply List.map_congr_left
    intro o _
    simp [eulerMat_zero hτ, hL.fromMat_toMat, hone]
  simp only [h1, h2]
  rw [← hro]

/-! ### C72, C73 -/

/-- **C72.** The three observation equations of an epoch vanish exactly if the target position is
the transformed source position. -/
theorem C72_equations_vanish_iff (τ : Trig K) (p target e v : V3 K) (q : Params K) :
    contradiction τ p target e v q = 0 ↔
      target = q.trans + q.scale • mulV (eulerMat τ q.rot)
        (p + mulV (eulerMat τ e) q.lever + q.time • v) := by
  rw [contradiction_eq, sub_eq_zero, ← add_assoc]
  exact eq_comm

/-- **C72**, the rotation part is a proper rotation for all angles. -/
theorem C72_rotation_is_proper (τ : Trig K) (hτ : IsTrig τ) (e : V3 K) :
    eulerMat τ e * (eulerMat τ e).transpose = 1 ∧ (eulerMat τ e).det = 1 :=
  eulerMat_isRot hτ e

/-- **C73.** Applying `sim3_matrix` or `HelmertTransformation.apply_to` to a position gives the
position for which the equations (without lever arm and time shift) vanish. -/
theorem C73_transformed_position_solves_equations (τ : Trig K) (p target e v : V3 K) (q : Params K)
    (hl : q.lever = 0) (ht : q.time = 0) :
    (contradiction τ p target e v q = 0 ↔ target = helmertApply τ q p) ∧
    (contradiction τ p target e v q = 0 ↔
      target = posePos (sim3Matrix τ q * mkPose 1 p)) := by
  rw [C72_equations_vanish_iff, hl, ht]
  simp only [mulV_zero, zero_smul, add_zero, helmertApply, sim3Matrix, posePos_mul, poseRot_mkPose,
    posePos_mkPose, smul_mulV, add_comm q.trans]
  simp

/-- **C73**, with lever arm and time shift: what `apply_alignment` makes of a sample solves the
equations for that sample. -/
theorem C73_aligned_sample_solves_equations (lib : Lib K R) (q : Params K) (sensor : R)
    (T T' : Traj K R) (hT : Coherent T) (hne : T.tstamps ≠ []) (ro : List R) (hro : T.rot = some ro)
    (hret : Returns (Traj.applyAlignmentBody lib.rot lib.trig lib.toEuler q sensor) T () T')
    (i : Nat) (p v p' : V3 K) (o : R) (hp : T.pos[i]? = some p) (hv : T.speed[i]? = some v)
    (ho : ro[i]? = some o) (hp' : T'.pos[i]? = some p') :
    contradiction lib.trig p p' (lib.toEuler o) v q = 0 := by
  unfold Returns at hret
  rw [applyAlignmentBody_eq lib.rot lib.trig lib.toEuler q sensor hT hne ro hro] at hret
  rw [← (Prod.mk.inj hret).2] at hp'
  simp only [List.getElem?_map, List.getElem?_zipWith, hp, hv, ho, Option.map_some,
    Option.some.injEq, leverTime_eq, smul_mulV] at hp'
  rw [C72_equations_vanish_iff, ← hp', add_comm q.trans, add_assoc]

/-! ### The hypotheses are met -/

/-- exact quarter turns over the rationals: the angle is counted in quarter turns, only the angles
0 and 1 are meaningful -/
def quarterTrig : Trig ℚ := ⟨fun a => if a = 0 then 1 else 0, fun a => if a = 0 then 0 else 1⟩

theorem quarterTrig_isTrig : IsTrig quarterTrig :=
  ⟨fun a => by by_cases h : a = 0 <;> simp [quarterTrig, h], by simp [quarterTrig], by simp [quarterTrig]⟩

/-- rotations over the reals with true Euler angles (they exist for every rotation) -/
noncomputable def realLib : Lib ℝ (RotM ℝ) :=
  { rot := matLib (fun a _ _ => a), trig := realTrig
    toEuler := fun o => (exists_euler o.1 o.2).choose
    fromEuler := fun e => ⟨eulerMat realTrig e, eulerMat_isRot realTrig_isTrig e⟩
    argsort := stableArgsort, argsortN := stableArgsort
    sortMls := fun p => .ok (List.range p.length, p.map V3.x)
    cubic := fun _ x => .ok x, rotAvg := fun _ r => .ok r }

/-- a sample with an orientation, over the reals -/
noncomputable def realOne : Traj ℝ (RotM ℝ) :=
  { tstamps := [0], pos := [⟨1, 2, 3⟩], arc := [0], speed := [⟨0, 1, 0⟩]
    rot := some [⟨eulerMat realTrig ⟨1, 2, 3⟩, eulerMat_isRot realTrig_isTrig _⟩]
    sorting := .time, name := "one", epsg := 0 }

example : (∀ o, eulerMat realLib.trig (realLib.toEuler o) = realLib.rot.toMat o) ∧
    IsRotLib realLib.rot ∧ IsTrig realLib.trig ∧ Coherent realOne ∧ realOne.tstamps ≠ [] ∧
    realOne.rot.isSome ∧ ([realOne] : Heap ℝ (RotM ℝ))[0]? = some realOne :=
  ⟨fun o => (exists_euler o.1 o.2).choose_spec, matLib_isRotLib _, realTrig_isTrig,
    ⟨rfl, rfl, rfl, by rintro r ⟨⟩; rfl⟩, by simp [realOne], rfl, rfl⟩

/-- the call of `C21` returns for this trajectory -/
example (q : Params ℝ) (sensor : RotM ℝ) :
    ∃ h' s, Returns (H.run realLib (.applyAlignment q sensor) 0 false) [realOne] s h' :=
  let ⟨_, h, _⟩ := C20_apply_alignment_not_inplace_returns_partial realLib q sensor [realOne] 0 realOne
    rfl ⟨rfl, rfl, rfl, by rintro r ⟨⟩; rfl⟩ (by simp [realOne])
  ⟨_, _, h⟩

end TC
