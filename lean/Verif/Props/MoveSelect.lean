import Verif.Props.RpeFrames
import Verif.Props.Reorder
/-!
# C192: moving a trajectory and then selecting from it, or the other way round
-/
namespace TC
variable {K R : Type} [Field K] [LinearOrder K] [IsStrictOrderedRing K]
set_option linter.unusedSectionVars false

/-- **C192**, any selection of samples: for every matrix, selecting and then transforming gives the same trajectory as
transforming and then selecting. -/
theorem C192_select (L : RotLib K R) (A : M4 K) (i : Index) {T C : Traj K R} (hT : Coherent T)
    (hC : Returns (Traj.applyIndex i) T () C) (hne : C.tstamps ≠ []) :
    ∃ M D, Returns (Traj.applyTransformation L A) T () M ∧ Returns (Traj.applyIndex i) M () D ∧
      Returns (Traj.applyTransformation L A) C () D ∧ Coherent M ∧ M.tstamps = T.tstamps := by
  obtain ⟨hv, rfl, hCc, hm⟩ := applyIndex_returns hT hC
  have hne' : T.tstamps ≠ [] := by
    intro hc
    apply hne
    have := pick_length (index := i) (l := T.tstamps) (l' := ([] : List K)) (by rw [hc])
    show pick i T.tstamps = []
    rw [hc]
    cases i with
    | ints is => simp [pick]
    | mask m => cases m <;> rfl
  have hrl : (rotOr T.pos.length T.rot L.toMat).length = T.tstamps.length := by
    rcases hr : T.rot with _ | r
    · simp [rotOr, hT.pos]
    · simp [rotOr, hT.rot r hr]
  have hMc : Coherent ({ T with
        pos := T.pos.map (fun p => mulV (poseRot A) p + posePos A)
        rot := some ((rotOr T.pos.length T.rot L.toMat).map
          (fun m => L.fromMat (poseRot A * m))) } : Traj K R) := by
    refine ⟨by simp [hT.pos], hT.arc, hT.speed, ?_⟩
    rintro q ⟨⟩
    simp [hrl]
  refine ⟨_, _, applyTransformation_eq L hT hne' A, applyIndex_eq hMc hv (.inr hne), ?_, hMc, rfl⟩
  unfold Returns
  rw [applyTransformation_eq L hCc hne A]
  simp only [Prod.mk.injEq, true_and, Traj.mk.injEq, pickTraj, and_true, Option.map_some, Option.some.injEq, pick_map]
  congr 1
  rcases hr : T.rot with _ | r
  · show List.replicate (pick i T.pos).length 1 = pick i (List.replicate T.pos.length 1)
    rw [pick_replicate, pick_length (l := List.replicate T.pos.length (1 : M3 K)) (l' := T.pos) (by simp)]
  · show (pick i r).map L.toMat = pick i (r.map L.toMat)
    rw [pick_map]

/-- **C192**, `crop`, in both directions -/
theorem C192_crop (L : RotLib K R) (A : M4 K) (a b : K) (inverse : Bool) {T C : Traj K R} (hT : Coherent T)
    (hC : Returns (Traj.crop a b inverse) T () C) (hne : C.tstamps ≠ []) :
    ∃ M D, Returns (Traj.applyTransformation L A) T () M ∧ Returns (Traj.crop a b inverse) M () D ∧
      Returns (Traj.applyTransformation L A) C () D := by
  obtain ⟨M, D, h1, h2, h3, _, h5⟩ := C192_select L A _ hT hC hne
  refine ⟨M, D, h1, ?_, h3⟩
  unfold Returns Traj.crop
  rw [SE.run_bind_ok (SE.run_get _), h5]
  exact h2

/-- **C192**, `match_timestamps` -/
theorem C192_match_timestamps (L : RotLib K R) (A : M4 K) (ts : List K) {T C : Traj K R} (hT : Coherent T)
    (hC : Returns (Traj.matchTimestamps ts) T () C) (hne : C.tstamps ≠ []) :
    ∃ M D, Returns (Traj.applyTransformation L A) T () M ∧ Returns (Traj.matchTimestamps ts) M () D ∧
      Returns (Traj.applyTransformation L A) C () D := by
  obtain ⟨M, D, h1, h2, h3, _, h5⟩ := C192_select L A _ hT hC hne
  refine ⟨M, D, h1, ?_, h3⟩
  unfold Returns Traj.matchTimestamps
  rw [SE.run_bind_ok (SE.run_get _), h5]
  exact h2

/-- **C192**, `intersect` -/
theorem C192_intersect (L : RotLib K R) (A : M4 K) (ts : List K) (g : K) {T C : Traj K R} (hT : Coherent T)
    (hC : Returns (Traj.intersect ts g) T () C) (hne : C.tstamps ≠ []) :
    ∃ M D, Returns (Traj.applyTransformation L A) T () M ∧ Returns (Traj.intersect ts g) M () D ∧
      Returns (Traj.applyTransformation L A) C () D := by
  unfold Returns Traj.intersect at hC
  rw [SE.run_bind_ok (SE.run_get _)] at hC
  rcases hs : commonTimeSpan ts T.tstamps with e | span
  · rw [SE.run_bind, SE.run_lift, hs] at hC; simp at hC
  rw [SE.run_bind, SE.run_lift, hs] at hC
  rcases span with _ | ⟨t0, t1⟩
  · simp [SE.raise] at hC
  simp only at hC
  rw [SE.run_bind] at hC
  rcases hcr : Traj.crop t0 t1 false T with ⟨o, C1⟩
  rw [hcr] at hC
  rcases o with e | _
  · simp at hC
  simp only at hC
  rw [SE.run_bind_ok (SE.run_get _), SE.run_bind, SE.run_lift] at hC
  rcases hg : Traj.gapFilter (npSort ts) g C1.tstamps 0 with e | idx
  · rw [hg] at hC; simp at hC
  rw [hg] at hC
  simp only at hC
  have hcr' : Returns (Traj.applyIndex (.mask (T.tstamps.map (fun t => decide (t0 ≤ t ∧ t ≤ t1))))) T () C1 := by
    unfold Traj.crop at hcr
    rw [SE.run_bind_ok (SE.run_get _)] at hcr
    exact hcr
  obtain ⟨-, -, hC1, -⟩ := applyIndex_returns hT hcr'
  have hne1 : C1.tstamps ≠ [] := by
    intro hc
    obtain ⟨-, rfl, -, -⟩ := applyIndex_returns hC1 hC
    apply hne
    simp [pickTraj, hc, pick]
  obtain ⟨M, D1, h1, h2, h3, h4, h5⟩ := C192_select L A _ hT hcr' hne1
  obtain ⟨M', D, k1, k2, k3, k4, k5⟩ := C192_select L A _ hC1 hC hne
  have : M' = D1 := by
    have := h3.symm.trans k1
    exact ((Prod.mk.inj this).2).symm
  subst this
  refine ⟨M, D, h1, ?_, k3⟩
  unfold Returns Traj.intersect
  rw [SE.run_bind_ok (SE.run_get _), SE.run_bind, SE.run_lift, h5, hs]
  simp only
  rw [SE.run_bind_ok (a := ()) (s' := M'), SE.run_bind_ok (SE.run_get _), SE.run_bind, SE.run_lift, k5, hg]
  · exact k2
  · unfold Traj.crop
    rw [SE.run_bind_ok (SE.run_get _), h5]
    exact h2

/-- the interpolated positions of a moved trajectory are the moved interpolated positions -/
theorem interpPos_moved (A : M4 K) {T M : Traj K R} (hT : Coherent T) (h0 : 0 < T.tstamps.length) (ht : M.tstamps = T.tstamps)
    (hp : M.pos = T.pos.map (moveBy A)) (c : List K) : interpPos M c = (interpPos T c).map (moveBy A) := by
  have e1 := interpolatePositions_eq (T := T) hT.pos h0 c
  have e2 := interpolatePositions_eq (T := M) (by rw [ht, hp, List.length_map, hT.pos]) (by rw [ht]; exact h0) c
  rw [interpolatePositions_lerp, if_neg (by rw [hT.pos]; omega)] at e1
  rw [interpolatePositions_lerp, if_neg (by rw [ht, hp, List.length_map, hT.pos]; omega)] at e2
  obtain ⟨ps, l1, l2⟩ := lerpAll_moved h0 A hT.pos c
  rw [l1] at e1
  rw [ht, hp, l2] at e2
  have f1 := congrArg Traj.pos (Prod.mk.inj e1).2
  have f2 := congrArg Traj.pos (Prod.mk.inj e2).2
  simp only at f1 f2
  rw [← f2, f1]

/-- the speeds of a moved path are the turned speeds -/
theorem speeds_moved (A : M4 K) (ps : List (V3 K)) (c : List K) :
    List.zipWith (fun v s => s⁻¹ • v) (diffs (ps.map (moveBy A))) (diffs c) ++ [0] =
      (List.zipWith (fun (v : V3 K) (s : K) => s⁻¹ • v) (diffs ps) (diffs c) ++ [0]).map (mulV (poseRot A)) := by
  have hd : diffs (ps.map (moveBy A)) = (diffs ps).map (mulV (poseRot A)) := by
    unfold diffs
    rw [← List.map_tail, ← List.map_dropLast, List.zipWith_map, List.map_zipWith]
    congr 1
    funext p q
    ext <;> simp [moveBy, mulV] <;> ring
  rw [hd, List.map_append, List.zipWith_map_left, List.map_zipWith]
  congr 1
  · congr 1
    funext v s
    rw [mulV_smul]
  · simp

/-- **C192**, interpolation of a trajectory with orientations and a rigid motion: everything but the speeds is the same in both orders.
Interpolating first leaves the speeds in the directions before the motion. -/
theorem C192_interpolate_partial (L : RotLib K R) (hL : IsRotLib L) (hs : SlerpByTurn L) {A : M4 K} (hA : IsRigid A) (ts : List K)
    {T C : Traj K R} (hT : Coherent T) (hT0 : T.tstamps ≠ []) (hr : T.rot ≠ none)
    (hC : Returns (Traj.interpolate L ts) T () C) (hne : C.tstamps ≠ []) :
    ∃ M D E, Returns (Traj.applyTransformation L A) T () M ∧ Returns (Traj.interpolate L ts) M () D ∧
      Returns (Traj.applyTransformation L A) C () E ∧
      D = { E with speed := E.speed.map (mulV (poseRot A)) } ∧ E.speed = C.speed ∧
      (D = E ↔ ∀ v ∈ C.speed, mulV (poseRot A) v = v) := by
  have h0 : 0 < T.tstamps.length := List.length_pos_of_ne_nil hT0
  obtain ⟨r, hr⟩ := Option.ne_none_iff_exists'.1 hr
  have e1 := applyTransformation_eq L hT hT0 A
  obtain ⟨M, hM⟩ : ∃ M : Traj K R, M = { T with
        pos := T.pos.map (fun p => mulV (poseRot A) p + posePos A)
        rot := some ((rotOr T.pos.length T.rot L.toMat).map
          (fun m => L.fromMat (poseRot A * m))) } := ⟨_, rfl⟩
  rw [← hM] at e1
  have hMt : M.tstamps = T.tstamps := by rw [hM]
  have hMp : M.pos = T.pos.map (moveBy A) := by rw [hM]; rfl
  have hMr : M.rot = some (r.map (turnBy L A)) := by
    rw [hM]
    simp only [hr, rotOr, List.map_map]
    rfl
  have hMc : Coherent M := by
    refine ⟨by rw [hMp, hMt]; simp [hT.pos], by rw [hM]; exact hT.arc, by rw [hM]; exact hT.speed, ?_⟩
    rintro q hq
    rw [hMr] at hq
    cases hq
    rw [hMt, List.length_map, hT.rot r hr]
  have h0M : 0 < M.tstamps.length := by rw [hMt]; exact h0
  have hcr : cropReq M.tstamps h0M ts = cropReq T.tstamps h0 ts := by
    unfold cropReq
    simp only [hMt]
  have hpos := interpPos_moved (R := R) A hT h0 hMt hMp (cropReq T.tstamps h0 ts)
  obtain ⟨c, hc⟩ : ∃ c, c = cropReq T.tstamps h0 ts := ⟨_, rfl⟩
  rcases interpolateRotations_cases L c { T with pos := interpPos T c } with ⟨q, hq⟩ | ⟨e, he⟩
  · have hlock := Seen.interpolateRotations hL hs hA c { T with pos := interpPos T c } { M with pos := interpPos M c }
      ⟨by rw [hc]; exact hpos, by show M.rot = T.rot.map _; rw [hMr, hr]; rfl, hMt, by rw [hM], by rw [hM], by rw [hM]⟩
    rw [hq] at hlock
    rcases interpolateRotations_cases L c { M with pos := interpPos M c } with ⟨q', hq'⟩ | ⟨e, he⟩
    · rw [hq'] at hlock
      have hqq : q' = q.map (List.map (turnBy L A)) := hlock.2.rot
      have i1 := interpolate_eq_of_rot L hT h0 ts (q := q) (by rw [← hc]; exact hq)
      have i2 := interpolate_eq_of_rot L hMc h0M ts (q := q') (by rw [hcr, ← hc]; exact hq')
      have hCe : C = interpDone T c q := by
        unfold Returns at hC
        rw [i1, ← hc] at hC
        exact ((Prod.mk.inj hC).2).symm
      have hcne : c ≠ [] := by rw [hCe] at hne; exact hne
      obtain ⟨q0, rfl⟩ : ∃ q0, q = some q0 := by
        unfold Traj.interpolateRotations at hq
        rw [SE.run_bind_ok (SE.run_get _)] at hq
        simp only [hr] at hq
        rw [if_neg (by simpa using hcne), SE.run_bind, SE.run_lift] at hq
        rcases hsl : Traj.slerpCall L T.tstamps r c with e | x
        · rw [hsl] at hq; simp at hq
        · rw [hsl] at hq
          simp only [SE.run_modify, Prod.mk.injEq, true_and, Traj.mk.injEq] at hq
          exact ⟨x, by simp_all⟩
      have hCc : Coherent C := by
        have hmem : ∃ t, t ∈ c := List.exists_mem_of_ne_nil _ hcne
        obtain ⟨t, ht⟩ := hmem
        rw [hc] at ht
        unfold cropReq at ht
        rw [List.mem_filter, mem_npSort] at ht
        have := stepOk_interpolate (L := L) (ts := ts) hT (.inr ⟨t, ht.1, _, _, by
          rw [List.head?_eq_getElem?, List.getElem?_eq_getElem h0], by
          rw [List.getLast?_eq_getElem?, List.getElem?_eq_getElem (by omega)], (of_decide_eq_true ht.2).1, (of_decide_eq_true ht.2).2⟩)
        unfold Returns at hC
        unfold StepOk at this
        rw [hC] at this
        rcases this with h | ⟨h, -⟩
        · exact h
        · simp at h
      have hD : interpDone M c q' = { ({ C with
            pos := C.pos.map (fun p => mulV (poseRot A) p + posePos A)
            rot := some ((rotOr C.pos.length C.rot L.toMat).map (fun m => L.fromMat (poseRot A * m))) } : Traj K R) with
            speed := C.speed.map (mulV (poseRot A)) } := by
        rw [hCe, hqq]
        simp only [interpDone, Traj.mk.injEq, rotOr, List.map_map, Option.map_some, Option.some.injEq]
        rw [← hc] at hpos
        refine ⟨trivial, hpos, rfl, by rw [hM], ?_, by rw [hM], by rw [hM], by rw [hM]⟩
        rw [hpos, speeds_moved]
      refine ⟨M, _, _, e1, by unfold Returns; rw [i2, hcr, ← hc], applyTransformation_eq L hCc hne A, hD, rfl, ?_⟩
      rw [hD]
      simp only [Traj.mk.injEq, true_and, and_true]
      have := List.map_inj_left (l := C.speed) (f := mulV (poseRot A)) (g := id)
      rw [List.map_id] at this
      exact this
    · rw [he] at hlock
      exact hlock.1.elim
  · exfalso
    unfold Returns at hC
    rw [interpolate_error_of_rot L hT h0 ts (by rw [← hc]; exact he)] at hC
    simp at hC

/-! ## Examples -/

/-- three samples along x, with orientations -/
def exEast : Traj ℚ (RotM ℚ) :=
  { tstamps := [0, 1, 2], pos := [⟨0, 0, 0⟩, ⟨1, 0, 0⟩, ⟨3, 0, 0⟩], rot := some [⟨1, isRot_one⟩, quarter, quarter]
    arc := [0, 1, 3], speed := [⟨1, 0, 0⟩, ⟨2, 0, 0⟩, ⟨0, 0, 0⟩], sorting := .time, name := "east", epsg := 0 }

example : Coherent exEast := ⟨rfl, rfl, rfl, by rintro r ⟨⟩; rfl⟩
example : IsRotLib exMatLib ∧ SlerpByTurn exMatLib :=
  ⟨matLib_isRotLib _, fun _ _ => ⟨1, isRot_one⟩, fun a b u => Subtype.ext (Matrix.mul_one _).symm⟩
/-- the selection keeps two of the three samples -/
example : (Traj.crop (1 : ℚ) 5 false exEast).1.toOption = some () ∧ (Traj.crop (1 : ℚ) 5 false exEast).2.tstamps = [1, 2] := by decide +kernel
/-- interpolation keeps two of the requested times; after a quarter turn the path leads to the north, the speed kept does not -/
example : (Traj.interpolate exMatLib [1 / 2, 3 / 2, 7] exEast).1.toOption = some () ∧
    (Traj.interpolate exMatLib [1 / 2, 3 / 2, 7] exEast).2.tstamps = [1 / 2, 3 / 2] := by decide +kernel
example : mulV (poseRot (mkPose quarter.1 (⟨1, 2, 3⟩ : V3 ℚ))) (⟨1, 0, 0⟩ : V3 ℚ) ≠ ⟨1, 0, 0⟩ := by decide +kernel

end TC
