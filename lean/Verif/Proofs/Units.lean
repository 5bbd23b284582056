import Verif.Spec.Units
import Verif.Props.RpeFrames
import Verif.Proofs.Rpe
import Verif.Model.Stats
/-!
# Two runs with lengths in different units
-/
namespace TC
set_option linter.unusedSectionVars false
set_option linter.unusedSimpArgs false
open H
variable {K R : Type} [Field K] [LinearOrder K] [IsStrictOrderedRing K]

/-- lengths in another unit -/
abbrev scl (c : K) (l : List K) : List K := l.map (fun x => c * x)
/-- vectors in another unit -/
abbrev sclV (c : K) (l : List (V3 K)) : List (V3 K) := l.map (fun p => c • p)

theorem diffs_sclV (c : K) (l : List (V3 K)) : diffs (sclV c l) = sclV c (diffs l) := by
  simp only [diffs, ← List.map_tail, ← List.map_dropLast, List.zipWith_map, List.map_zipWith, smul_sub]

theorem bcastDiv_scl (c : K) (d : List (V3 K)) (t : List K) : bcastDiv (sclV c d) t = (bcastDiv d t).map (sclV c) := by
  unfold bcastDiv
  rw [List.length_map]
  split
  · simp only [Except.map, List.zipWith_map_left, List.map_zipWith, smul_comm c]
  · rcases t with _ | ⟨s, _ | ⟨s2, t⟩⟩
    · rcases d with _ | ⟨v, _ | ⟨w, d⟩⟩ <;> rfl
    · simp only [Except.map, List.map_map, Function.comp_def, smul_comm c]
    · rcases d with _ | ⟨v, _ | ⟨w, d⟩⟩
      · rfl
      · simp only [Except.map, List.map_map, Function.comp_def, smul_comm c, List.map_cons, List.map_nil]
      · rfl

theorem gradient3d_scl (c : K) (p : List (V3 K)) (ts : List K) :
    gradient3d (sclV c p) ts = (gradient3d p ts).map (sclV c) := by
  unfold gradient3d
  rw [diffs_sclV, bcastDiv_scl]
  rcases bcastDiv (diffs p) (diffs ts) with e | g
  · rfl
  · simp [Except.map, bind, Except.bind, pure, Except.pure]

theorem cumFrom_scl (c : K) : ∀ (l : List K) (a : K), cumFrom (c * a) (scl c l) = scl c (cumFrom a l)
  | [], _ => rfl
  | d :: l, a => by
    simp only [scl, List.map_cons, cumFrom, ← mul_add]
    rw [show List.map (fun x => c * x) l = scl c l from rfl, cumFrom_scl c l]

theorem nrm_scl {nrm : V3 K → K} (hn : IsNorm nrm) {c : K} (hc : 0 < c) (v : V3 K) : nrm (c • v) = c * nrm v := by
  refine (mul_self_inj (hn.nonneg _) (mul_nonneg hc.le (hn.nonneg _))).1 ?_
  rw [hn.sq, mul_mul_mul_comm, hn.sq]
  simp only [V3.normSq, V3.smul_x, V3.smul_y, V3.smul_z]
  ring

theorem lengthsFromXyz_scl {nrm : V3 K → K} (hn : IsNorm nrm) {c : K} (hc : 0 < c) (p : List (V3 K)) :
    lengthsFromXyz nrm (sclV c p) = scl c (lengthsFromXyz nrm p) := by
  unfold lengthsFromXyz
  rw [diffs_sclV, ← cumFrom_scl, mul_zero, List.map_map, scl, List.map_map]
  congr 1
  exact List.map_congr_left fun v _ => nrm_scl hn hc v

theorem npGet_scl (c : K) (l : List K) (i : Int) : npGet (scl c l) i = (npGet l i).map (fun x => c * x) := npGet_map _ _ _

theorem interpOne_scl (c : K) (xp fp : List K) (x : K) : interpOne xp (scl c fp) x = (interpOne xp fp x).map (fun y => c * y) := by
  unfold interpOne
  simp only [npGet_scl]
  split
  · rfl
  split
  · rfl
  rcases npGet xp ((searchRight xp x : Int) - 1) with e | x0
  · rfl
  simp only [bind, Except.bind, pure, Except.pure]
  rcases npGet fp ((searchRight xp x : Int) - 1) with e | f0
  · rfl
  simp only [Except.map]
  split
  · rfl
  rcases npGet xp (searchRight xp x : Int) with e | x1
  · rfl
  simp only
  rcases npGet fp (searchRight xp x : Int) with e | f1
  · rfl
  simp only [Except.ok.injEq]
  ring

theorem interpAll_scl (c : K) (xp fp : List K) : ∀ qs : List K, interpAll xp (scl c fp) qs = (interpAll xp fp qs).map (scl c)
  | [] => rfl
  | q :: qs => by
    simp only [interpAll, interpOne_scl, interpAll_scl c xp fp qs]
    rcases interpOne xp fp q with e | v
    · rfl
    rcases interpAll xp fp qs with e | vs
    · rfl
    rfl

theorem npInterp_scl (c : K) (qs xp fp : List K) : npInterp qs xp (scl c fp) = (npInterp qs xp fp).map (scl c) := by
  unfold npInterp
  rw [interpAll_scl, List.length_map]
  split
  · rfl
  split
  · rfl
  · rfl

/-! ### one object -/

/-- one object in two units -/
abbrev Scl (c : K) (T T' : Traj K R) : Prop := T' = T.rescaled c

theorem Scl.applyIndex (c : K) (i : Index) : Lock (Scl c) Eq (Traj.applyIndex i : SE (Traj K R) Unit) (Traj.applyIndex i) := by
  unfold Traj.applyIndex
  refine Lock.bind Lock.get ?_
  rintro T _ rfl
  refine Lock.bind (Lock.lift (OutRel.refl (npIndex T.tstamps i))) ?_
  rintro ts _ rfl
  refine Lock.bind (Lock.modify (by rintro s _ rfl; rfl)) fun _ _ _ => ?_
  refine Lock.bind Lock.get ?_
  rintro T _ rfl
  refine Lock.bind (Lock.lift (V := fun a b => b = sclV c a) ?_) ?_
  · rw [show (T.rescaled c).pos = sclV c T.pos from rfl, npIndex_map]
    exact OutRel.map _ _
  rintro ps _ rfl
  refine Lock.bind (Lock.modify (by rintro s _ rfl; rfl)) fun _ _ _ => ?_
  refine Lock.bind Lock.get ?_
  rintro T _ rfl
  have rest : Lock (Scl c) Eq
      (do let s ← SE.get
          let as ← SE.lift (npIndex s.arc i)
          SE.modify (fun s => { s with arc := as })
          let s ← SE.get
          let vs ← SE.lift (npIndex s.speed i)
          SE.modify (fun s => { s with speed := vs }) : SE (Traj K R) Unit)
      (do let s ← SE.get
          let as ← SE.lift (npIndex s.arc i)
          SE.modify (fun s => { s with arc := as })
          let s ← SE.get
          let vs ← SE.lift (npIndex s.speed i)
          SE.modify (fun s => { s with speed := vs })) := by
    refine Lock.bind Lock.get ?_
    rintro T _ rfl
    refine Lock.bind (Lock.lift (V := fun a b => b = scl c a) ?_) ?_
    · rw [show (T.rescaled c).arc = scl c T.arc from rfl, npIndex_map]
      exact OutRel.map _ _
    rintro as _ rfl
    refine Lock.bind (Lock.modify (by rintro s _ rfl; rfl)) fun _ _ _ => ?_
    refine Lock.bind Lock.get ?_
    rintro T _ rfl
    refine Lock.bind (Lock.lift (V := fun a b => b = sclV c a) ?_) ?_
    · rw [show (T.rescaled c).speed = sclV c T.speed from rfl, npIndex_map]
      exact OutRel.map _ _
    rintro vs _ rfl
    intro s s' h
    cases h
    exact ⟨rfl, rfl⟩
  rw [show (T.rescaled c).rot = T.rot from rfl]
  rcases T.rot with _ | r
  · exact rest
  · refine Lock.bind (Lock.lift (OutRel.refl (npIndex r i))) ?_
    rintro q _ rfl
    split
    · exact Lock.bind Lock.raise fun _ _ (_ : True) => rest
    · exact Lock.bind (Lock.modify (by rintro s _ rfl; rfl)) fun _ _ _ => rest

theorem Scl.interpolatePositions (c : K) (ts : List K) :
    Lock (Scl c) Eq (Traj.interpolatePositions ts : SE (Traj K R) Unit) (Traj.interpolatePositions ts) := by
  unfold Traj.interpolatePositions
  refine Lock.bind Lock.get ?_
  rintro T _ rfl
  have e : ∀ (f : V3 K → K) (_ : ∀ v, f (c • v) = c * f v),
      OutRel (fun a b => b = scl c a) (npInterp ts T.tstamps (T.pos.map f))
        (npInterp ts (T.rescaled c).tstamps ((T.rescaled c).pos.map f)) := by
    intro f hf
    rw [show (T.rescaled c).tstamps = T.tstamps from rfl, show (T.rescaled c).pos.map f = scl c (T.pos.map f) from by
      simp only [Traj.rescaled, List.map_map]
      exact List.map_congr_left fun v _ => hf v, npInterp_scl]
    exact OutRel.map _ _
  refine Lock.bind (Lock.lift (e V3.x fun _ => rfl)) ?_
  rintro x _ rfl
  refine Lock.bind (Lock.lift (e V3.y fun _ => rfl)) ?_
  rintro y _ rfl
  refine Lock.bind (Lock.lift (e V3.z fun _ => rfl)) ?_
  rintro z _ rfl
  intro s s' h
  cases h
  refine ⟨rfl, ?_⟩
  simp only [SE.modify, Scl, Traj.rescaled, Traj.mk.injEq, true_and, and_true]
  rw [List.map_zipWith, List.zip_map, List.zipWith_map]
  rfl

theorem Scl.interpolateRotations (L : RotLib K R) (c : K) (ts : List K) :
    Lock (Scl c) Eq (Traj.interpolateRotations L ts : SE (Traj K R) Unit) (Traj.interpolateRotations L ts) := by
  unfold Traj.interpolateRotations
  refine Lock.bind Lock.get ?_
  rintro T _ rfl
  simp only [show (T.rescaled c).tstamps = T.tstamps from rfl, show (T.rescaled c).rot = T.rot from rfl]
  rcases T.rot with _ | r
  · exact Lock.pure rfl
  · simp only
    split
    · exact Lock.pure rfl
    · refine Lock.bind (Lock.lift (OutRel.refl (Traj.slerpCall L T.tstamps r ts))) ?_
      rintro q _ rfl
      intro s s' h
      cases h
      exact ⟨rfl, rfl⟩

/-- a pose in another unit -/
def sclPose (c : K) (P : M4 K) : M4 K := Matrix.of fun i j => if i < 3 ∧ j = 3 then c * P i j else P i j

theorem posePos_sclPose (c : K) (P : M4 K) : posePos (sclPose c P) = c • posePos P := by
  ext <;> simp [posePos, sclPose]

theorem poseRot_sclPose (c : K) (P : M4 K) : poseRot (sclPose c P) = poseRot P := by
  ext i j
  fin_cases i <;> fin_cases j <;> simp [poseRot, sclPose]

theorem sclPose_mkPose (c : K) (A : M3 K) (t : V3 K) : sclPose c (mkPose A t) = mkPose A (c • t) := by
  ext i j
  fin_cases i <;> fin_cases j <;> simp [mkPose, sclPose]

theorem sclPose_mul (c : K) (P : M4 K) (A : M3 K) (t : V3 K) :
    posePos (sclPose c P * mkPose A (c • t)) = c • posePos (P * mkPose A t) ∧
    poseRot (sclPose c P * mkPose A (c • t)) = poseRot (P * mkPose A t) := by
  rw [posePos_mul, poseRot_mul, posePos_mul, poseRot_mul, poseRot_sclPose, posePos_sclPose, mulV_smul, smul_add]
  exact ⟨rfl, rfl⟩

theorem se3_scl (L : RotLib K R) (c : K) (T : Traj K R) : (T.rescaled c).se3 L = (T.se3 L).map (sclPose c) := by
  unfold Traj.se3
  rw [show (T.rescaled c).rot = T.rot from rfl]
  rcases T.rot with _ | r
  · simp only [Traj.rescaled, List.map_map, Function.comp_def, sclPose_mkPose]
  · simp only [Traj.rescaled, List.zipWith_map_left, List.map_zipWith, sclPose_mkPose]

theorem Scl.setSe3 (L : RotLib K R) (c : K) (ps qs : List (M4 K)) (hp : qs.map posePos = sclV c (ps.map posePos))
    (hr : qs.map poseRot = ps.map poseRot) :
    Lock (Scl c) Eq (Traj.setSe3 L ps : SE (Traj K R) Unit) (Traj.setSe3 L qs) := by
  unfold Traj.setSe3
  have hl : qs.length = ps.length := by simpa using congrArg List.length hp
  rw [hl, hp]
  refine Lock.bind (Lock.modify (by rintro s _ rfl; rfl)) fun _ _ _ => ?_
  split
  · exact Lock.raise
  · intro s s' h
    cases h
    refine ⟨rfl, ?_⟩
    have : qs.map (fun p => L.fromMat (poseRot p)) = ps.map (fun p => L.fromMat (poseRot p)) := by
      have := congrArg (List.map L.fromMat) hr
      rwa [List.map_map, List.map_map] at this
    rw [this]
    rfl

theorem sclPose_se3 (L : RotLib K R) (c : K) (A B : M4 K) (hA : B = sclPose c A) (T : Traj K R) :
    (((T.rescaled c).se3 L).map (fun p => B * p)).map posePos = sclV c (((T.se3 L).map (fun p => A * p)).map posePos) ∧
    (((T.rescaled c).se3 L).map (fun p => B * p)).map poseRot = ((T.se3 L).map (fun p => A * p)).map poseRot := by
  subst hA
  rw [se3_scl]
  simp only [List.map_map]
  have hmem : ∀ P ∈ T.se3 L, ∃ M t, P = mkPose M t := by
    unfold Traj.se3
    rcases T.rot with _ | r
    · intro P hP
      obtain ⟨t, -, rfl⟩ := List.mem_map.1 hP
      exact ⟨_, _, rfl⟩
    · intro P hP
      simp only [← List.map_uncurry_zip_eq_zipWith] at hP
      obtain ⟨t, -, rfl⟩ := List.mem_map.1 hP
      exact ⟨_, _, rfl⟩
  constructor
  · apply List.map_congr_left
    intro P hP
    obtain ⟨M, t, rfl⟩ := hmem P hP
    simp only [Function.comp_apply, sclPose_mkPose]
    exact (sclPose_mul c A M t).1
  · apply List.map_congr_left
    intro P hP
    obtain ⟨M, t, rfl⟩ := hmem P hP
    simp only [Function.comp_apply, sclPose_mkPose]
    exact (sclPose_mul c A M t).2

/-! ### all objects -/

/-- all objects in two units -/
abbrev HScl (c : K) (h h' : Heap K R) : Prop := h' = h.map (Traj.rescaled c)

theorem HScl.rd (c : K) (r : Nat) : Lock (HScl c) (Scl c) (rd r : SE (Heap K R) _) (rd r) := by
  rintro h _ rfl
  unfold TC.rd
  rw [List.getElem?_map]
  rcases h[r]? with _ | T
  · exact ⟨rfl, rfl⟩
  · exact ⟨rfl, rfl⟩

theorem HScl.onRef (c : K) (r : Nat) {α β : Type} {V : α → β → Prop} {m : SE (Traj K R) α} {m' : SE (Traj K R) β}
    (hm : Lock (Scl c) V m m') : Lock (HScl c) V (onRef r m) (onRef r m') := by
  rintro h _ rfl
  unfold TC.onRef
  rw [List.getElem?_map]
  rcases h[r]? with _ | T
  · exact ⟨rfl, rfl⟩
  · obtain ⟨h1, h2⟩ := hm T _ rfl
    refine ⟨h1, ?_⟩
    simp only [Option.map_some]
    rw [h2]
    exact (List.map_set ..).symm

theorem HScl.copyRef (c : K) (r : Nat) : Lock (HScl c) Eq (copyRef r : SE (Heap K R) Nat) (copyRef r) := by
  rintro h _ rfl
  unfold TC.copyRef
  rw [List.getElem?_map]
  rcases h[r]? with _ | T
  · exact ⟨rfl, rfl⟩
  · exact ⟨by simp [OutRel], (by simp : h.map (Traj.rescaled c) ++ [T.rescaled c] = (h ++ [T]).map (Traj.rescaled c))⟩

theorem HScl.selfOrCopy (c : K) (inplace : Bool) (r : Nat) :
    Lock (HScl c) Eq (selfOrCopy inplace r : SE (Heap K R) Nat) (selfOrCopy inplace r) := by
  cases inplace
  · exact HScl.copyRef c r
  · exact Lock.pure rfl

theorem HScl.applyIndex (c : K) (r : Nat) (i : Index) (inplace : Bool) :
    Lock (HScl c) Eq (H.applyIndex r i inplace : SE (Heap K R) Nat) (H.applyIndex r i inplace) := by
  unfold H.applyIndex
  refine Lock.bind (HScl.selfOrCopy c inplace r) ?_
  rintro s _ rfl
  exact Lock.bind (HScl.onRef c s (Scl.applyIndex c i)) fun _ _ _ => Lock.pure rfl

theorem HScl.crop (c : K) (r : Nat) (a b : K) (inverse inplace : Bool) :
    Lock (HScl c) Eq (H.crop r a b inverse inplace : SE (Heap K R) Nat) (H.crop r a b inverse inplace) := by
  unfold H.crop
  refine Lock.bind (HScl.rd c r) ?_
  rintro T _ rfl
  exact HScl.applyIndex c r _ inplace

theorem HScl.interpolate (L : RotLib K R) (c : K) (r : Nat) (ts : List K) (inplace : Bool) :
    Lock (HScl c) Eq (H.interpolate L r ts inplace) (H.interpolate L r ts inplace) := by
  unfold H.interpolate
  refine Lock.bind (HScl.selfOrCopy c inplace r) ?_
  rintro s _ rfl
  refine Lock.bind (HScl.rd c r) ?_
  rintro T _ rfl
  refine Lock.bind (Lock.lift (OutRel.refl (Traj.cropStamps T.tstamps (npSort ts)))) ?_
  rintro cr _ rfl
  refine Lock.bind (HScl.onRef c s (Scl.interpolatePositions c cr)) fun _ _ _ => ?_
  refine Lock.bind (HScl.onRef c s (Scl.interpolateRotations L c cr)) fun _ _ _ => ?_
  refine Lock.bind (HScl.rd c s) ?_
  rintro T _ rfl
  rw [show (T.rescaled c).pos = sclV c T.pos from rfl, gradient3d_scl]
  refine Lock.bind (Lock.lift (OutRel.map _ (gradient3d T.pos cr))) ?_
  rintro g _ rfl
  refine Lock.bind (HScl.onRef c s (Lock.modify (by rintro s _ rfl; rfl))) fun _ _ _ => ?_
  refine Lock.bind (HScl.rd c s) ?_
  rintro T _ rfl
  rw [show (T.rescaled c).arc = scl c T.arc from rfl, npInterp_scl]
  refine Lock.bind (Lock.lift (OutRel.map _ (npInterp cr T.tstamps T.arc))) ?_
  rintro as _ rfl
  refine Lock.bind (HScl.onRef c s (Lock.modify (by rintro s _ rfl; rfl))) fun _ _ _ => ?_
  refine Lock.bind (HScl.onRef c s (Lock.modify (by rintro s _ rfl; rfl))) fun _ _ _ => ?_
  exact Lock.pure rfl

theorem HScl.matchTimestamps (c : K) (r : Nat) (ts : List K) (inplace : Bool) :
    Lock (HScl c) Eq (H.matchTimestamps r ts inplace : SE (Heap K R) Nat) (H.matchTimestamps r ts inplace) := by
  unfold H.matchTimestamps
  refine Lock.bind (HScl.selfOrCopy c inplace r) ?_
  rintro s _ rfl
  refine Lock.bind (HScl.rd c s) ?_
  rintro T _ rfl
  exact Lock.bind (HScl.applyIndex c s _ true) fun _ _ _ => Lock.pure rfl

theorem HScl.intersect (c : K) (r : Nat) (ts : List K) (g : K) (inplace : Bool) :
    Lock (HScl c) Eq (H.intersect r ts g inplace : SE (Heap K R) Nat) (H.intersect r ts g inplace) := by
  unfold H.intersect
  refine Lock.bind (HScl.selfOrCopy c inplace r) ?_
  rintro s _ rfl
  refine Lock.bind (HScl.rd c s) ?_
  rintro T _ rfl
  refine Lock.bind (Lock.lift (OutRel.refl (commonTimeSpan ts T.tstamps))) ?_
  rintro sp _ rfl
  rcases sp with _ | ⟨t0, t1⟩
  · exact Lock.raise
  refine Lock.bind (HScl.crop c s t0 t1 false true) fun _ _ _ => ?_
  refine Lock.bind (HScl.rd c s) ?_
  rintro T _ rfl
  refine Lock.bind (Lock.lift (OutRel.refl (Traj.gapFilter (npSort ts) g T.tstamps 0))) ?_
  rintro idx _ rfl
  exact Lock.bind (HScl.applyIndex c s _ true) fun _ _ _ => Lock.pure rfl

theorem HScl.applyTransformation (L : RotLib K R) (c : K) (r : Nat) (A : M4 K) (inplace : Bool) :
    Lock (HScl c) Eq (H.applyTransformation L r A inplace) (H.applyTransformation L r (sclPose c A) inplace) := by
  unfold H.applyTransformation
  refine Lock.bind (HScl.selfOrCopy c inplace r) ?_
  rintro s _ rfl
  refine Lock.bind (HScl.rd c s) ?_
  rintro T _ rfl
  obtain ⟨h1, h2⟩ := sclPose_se3 L c A _ rfl T
  exact Lock.bind (HScl.onRef c s (Scl.setSe3 L c _ _ h1 h2)) fun _ _ _ => Lock.pure rfl

theorem leverTime_scl (τ : Trig K) (c : K) (e v : V3 K) (t : K) (l : V3 K) :
    Equations.leverTime τ e (c • v) t (c • l) = c • Equations.leverTime τ e v t l := by
  unfold Equations.leverTime
  ext <;> simp [Equations.leverTimeX, Equations.leverTimeY, Equations.leverTimeZ] <;> ring

theorem Scl.applyAlignmentBody (L : RotLib K R) (τ : Trig K) (toEuler : R → V3 K) (q : Equations.Params K) (sensor : R) (c : K) :
    Lock (Scl c) Eq (Traj.applyAlignmentBody L τ toEuler q sensor)
      (Traj.applyAlignmentBody L τ toEuler { q with trans := c • q.trans, lever := c • q.lever } sensor) := by
  unfold Traj.applyAlignmentBody
  refine Lock.bind Lock.get ?_
  rintro T _ rfl
  simp only [show (T.rescaled c).rot = T.rot from rfl, show (T.rescaled c).speed = sclV c T.speed from rfl,
    show (T.rescaled c).pos = sclV c T.pos from rfl, List.length_map]
  have hz : ∀ (es : List (V3 K)) (l : V3 K), List.zipWith (fun e v => Equations.leverTime τ e v q.time (c • l)) es (sclV c T.speed)
      = sclV c (List.zipWith (fun e v => Equations.leverTime τ e v q.time l) es T.speed) := by
    intro es l
    simp only [List.zipWith_map_right, List.map_zipWith, leverTime_scl]
  have tail : ∀ comps : List (V3 K), Lock (Scl c) Eq
      (do SE.modify (fun s => { s with pos := List.zipWith (fun p c => p + c) s.pos comps })
          Traj.applyTransformation L (sim3Matrix τ q)
          let s ← SE.get
          match s.rot with
          | some r => SE.modify (fun s => { s with rot := some (r.map (L.mul sensor)) })
          | none => pure () : SE (Traj K R) Unit)
      (do SE.modify (fun s => { s with pos := List.zipWith (fun p c => p + c) s.pos (sclV c comps) })
          Traj.applyTransformation L (sim3Matrix τ { q with trans := c • q.trans, lever := c • q.lever })
          let s ← SE.get
          match s.rot with
          | some r => SE.modify (fun s => { s with rot := some (r.map (L.mul sensor)) })
          | none => pure ()) := by
    intro comps
    refine Lock.bind (Lock.modify (by
      rintro s _ rfl
      simp only [Scl, Traj.rescaled, Traj.mk.injEq, true_and, and_true]
      rw [List.zipWith_map, List.map_zipWith]
      simp only [smul_add])) fun _ _ _ => ?_
    refine Lock.bind (V := Eq) ?_ fun _ _ _ => ?_
    · unfold Traj.applyTransformation
      refine Lock.bind Lock.get ?_
      rintro T _ rfl
      obtain ⟨h1, h2⟩ := sclPose_se3 L c (sim3Matrix τ q) (sim3Matrix τ { q with trans := c • q.trans, lever := c • q.lever })
        (by unfold sim3Matrix; rw [sclPose_mkPose]) T
      exact Scl.setSe3 L c _ _ h1 h2
    refine Lock.bind Lock.get ?_
    rintro T _ rfl
    rw [show (T.rescaled c).rot = T.rot from rfl]
    rcases T.rot with _ | r
    · exact Lock.pure rfl
    · intro s s' h
      cases h
      exact ⟨rfl, rfl⟩
  rcases T.rot with _ | r
  · dsimp only
    split
    · intro s s' h
      exact ⟨rfl, h⟩
    have := hz (List.replicate T.speed.length 0) 0
    rw [smul_zero] at this
    rw [this]
    simp only [List.length_map]
    split
    · intro s s' h
      exact ⟨rfl, h⟩
    exact tail _
  · dsimp only
    split
    · intro s s' h
      exact ⟨rfl, h⟩
    rw [hz]
    simp only [List.length_map]
    split
    · intro s s' h
      exact ⟨rfl, h⟩
    exact tail _

theorem HScl.applyAlignment (L : RotLib K R) (τ : Trig K) (toEuler : R → V3 K) (c : K) (r : Nat) (q : Equations.Params K)
    (sensor : R) (inplace : Bool) :
    Lock (HScl c) Eq (H.applyAlignment L τ toEuler r q sensor inplace)
      (H.applyAlignment L τ toEuler r { q with trans := c • q.trans, lever := c • q.lever } sensor inplace) := by
  unfold H.applyAlignment
  cases inplace
  · refine Lock.bind (HScl.copyRef c r) ?_
    rintro s _ rfl
    exact Lock.bind (HScl.onRef c s (Scl.applyAlignmentBody L τ toEuler q sensor c)) fun _ _ _ => Lock.pure rfl
  · rintro h _ rfl
    exact ⟨rfl, rfl⟩

theorem HScl.adoptFirstPosition (c : K) (r t : Nat) (inplace : Bool) :
    Lock (HScl c) Eq (H.adoptFirstPosition r t inplace : SE (Heap K R) Nat) (H.adoptFirstPosition r t inplace) := by
  unfold H.adoptFirstPosition
  refine Lock.bind (HScl.selfOrCopy c inplace r) ?_
  rintro s _ rfl
  refine Lock.bind (HScl.rd c s) ?_
  rintro T _ rfl
  have e : OutRel (fun a b => b = c • a) (npGet T.pos 0) (npGet (T.rescaled c).pos 0) := by
    rw [show (T.rescaled c).pos = sclV c T.pos from rfl, npGet_map]
    exact OutRel.map _ _
  refine Lock.bind (Lock.lift e) ?_
  rintro a _ rfl
  refine Lock.bind (Lock.lift e) ?_
  rintro b _ rfl
  refine Lock.bind (HScl.onRef c s (Lock.modify (by
    rintro s _ rfl
    simp only [Scl, Traj.rescaled, List.map_map, Function.comp_def, smul_add, smul_sub]))) fun _ _ _ => ?_
  exact Lock.pure rfl

theorem HScl.adoptFirstOrientation (toEuler : R → V3 K) (fromEuler : V3 K → R) (c : K) (r t : Nat) (inplace : Bool) :
    Lock (HScl c) Eq (H.adoptFirstOrientation toEuler fromEuler r t inplace)
      (H.adoptFirstOrientation toEuler fromEuler r t inplace) := by
  unfold H.adoptFirstOrientation
  refine Lock.bind (HScl.selfOrCopy c inplace r) ?_
  rintro s _ rfl
  refine Lock.bind (HScl.rd c r) ?_
  rintro T _ rfl
  refine Lock.bind (HScl.rd c s) ?_
  rintro U _ rfl
  rw [show (T.rescaled c).rot = T.rot from rfl, show (U.rescaled c).rot = U.rot from rfl]
  rcases T.rot with _ | p
  · exact Lock.pure rfl
  rcases U.rot with _ | q
  · exact Lock.pure rfl
  refine Lock.bind (Lock.lift (OutRel.refl (npGet (q.map toEuler) 0))) ?_
  rintro a _ rfl
  refine Lock.bind (Lock.lift (OutRel.refl (npGet (q.map toEuler) 0))) ?_
  rintro b _ rfl
  refine Lock.bind (HScl.onRef c s (Lock.modify (by rintro s _ rfl; rfl))) fun _ _ _ => ?_
  exact Lock.pure rfl

theorem HScl.adoptFirstPose (toEuler : R → V3 K) (fromEuler : V3 K → R) (c : K) (r t : Nat) (inplace : Bool) :
    Lock (HScl c) Eq (H.adoptFirstPose toEuler fromEuler r t inplace) (H.adoptFirstPose toEuler fromEuler r t inplace) := by
  unfold H.adoptFirstPose
  refine Lock.bind (HScl.selfOrCopy c inplace r) ?_
  rintro s _ rfl
  refine Lock.bind (HScl.adoptFirstPosition c s s true) fun _ _ _ => ?_
  refine Lock.bind (HScl.adoptFirstOrientation toEuler fromEuler c s s true) fun _ _ _ => ?_
  exact Lock.pure rfl

/-! ### matching -/

theorem HScl.applyMatch (c : K) (t r : Nat) (m : List Nat × List Nat) :
    Lock (HScl c) Eq (H.applyMatch t r m : SE (Heap K R) _) (H.applyMatch t r m) := by
  unfold H.applyMatch
  refine Lock.bind (HScl.applyIndex c t _ true) ?_
  rintro a _ rfl
  refine Lock.bind (HScl.applyIndex c r _ true) ?_
  rintro b _ rfl
  exact Lock.pure rfl

theorem HScl.matchTemporal (lib : MatchLib K R) (c : K) (t r : Nat) (m : K) :
    Lock (HScl c) Eq (H.matchTemporal lib t r m) (H.matchTemporal lib t r m) := by
  unfold H.matchTemporal
  refine Lock.bind (HScl.rd c r) ?_
  rintro T _ rfl
  refine Lock.bind (HScl.rd c t) ?_
  rintro U _ rfl
  refine Lock.bind (Lock.lift (OutRel.refl (kdMatcher lib.queryT T.tstamps U.tstamps m))) ?_
  rintro x _ rfl
  exact HScl.applyMatch c t r x

theorem kdMatcher_scl {query : KdQuery K (V3 K)} (hq : UnitFree query) {c : K} (hc : 0 < c) (ref test : List (V3 K)) (m : K) :
    kdMatcher query (sclV c ref) (sclV c test) (c * m) = kdMatcher query ref test m := by
  unfold kdMatcher
  have h1 := hq c hc ref none test
  have h2 := hq c hc ref (some m) test
  simp only [Option.map_none, Option.map_some] at h1 h2
  rw [h1, h2, List.length_map]
  simp only [mul_eq_zero, hc.ne', false_or]

theorem HScl.matchSpatial {lib : MatchLib K R} (hq : UnitFree lib.queryP) {c : K} (hc : 0 < c) (t r : Nat) (m : K) :
    Lock (HScl c) Eq (H.matchSpatial lib t r m) (H.matchSpatial lib t r (c * m)) := by
  unfold H.matchSpatial
  refine Lock.bind (HScl.rd c r) ?_
  rintro T _ rfl
  refine Lock.bind (HScl.rd c t) ?_
  rintro U _ rfl
  rw [show (T.rescaled c).pos = sclV c T.pos from rfl, show (U.rescaled c).pos = sclV c U.pos from rfl, kdMatcher_scl hq hc]
  refine Lock.bind (Lock.lift (OutRel.refl (kdMatcher lib.queryP T.pos U.pos m))) ?_
  rintro x _ rfl
  exact HScl.applyMatch c t r x

theorem HScl.matchInterpolation (lib : MatchLib K R) (c : K) (t r : Nat) :
    Lock (HScl c) Eq (H.matchInterpolation lib t r) (H.matchInterpolation lib t r) := by
  unfold H.matchInterpolation
  refine Lock.bind (HScl.rd c r) ?_
  rintro T _ rfl
  refine Lock.bind (HScl.intersect c t T.tstamps defaultGap true) fun _ _ _ => ?_
  refine Lock.bind (HScl.rd c t) ?_
  rintro T _ rfl
  refine Lock.bind (HScl.intersect c r T.tstamps defaultGap true) fun _ _ _ => ?_
  refine Lock.bind (HScl.rd c r) ?_
  rintro T _ rfl
  refine Lock.bind (HScl.interpolate lib.rot c t T.tstamps true) fun _ _ _ => ?_
  refine Lock.bind (HScl.rd c r) ?_
  rintro T _ rfl
  refine Lock.bind (HScl.onRef c t (Lock.modify (by rintro s _ rfl; rfl))) fun _ _ _ => ?_
  exact Lock.pure rfl

theorem HScl.matchTrajectories {lib : MatchLib K R} (hq : UnitFree lib.queryP) {c : K} (hc : 0 < c) (n : Nat) (f t : Nat)
    (s : MatchingSettings K) (hs : s.method ≠ .nearestSpatialInterpolated) (inplace : Bool) :
    Lock (HScl c) Eq (H.matchTrajectories lib n f t s inplace) (H.matchTrajectories lib n f t (s.rescaled c) inplace) := by
  unfold H.matchTrajectories
  refine Lock.bind (HScl.selfOrCopy c inplace f) ?_
  rintro a _ rfl
  refine Lock.bind (HScl.selfOrCopy c inplace t) ?_
  rintro b _ rfl
  rw [show (s.rescaled c).method = s.method from rfl, show (s.rescaled c).maxTimeDiff = s.maxTimeDiff from rfl,
    show (s.rescaled c).maxDistance = c * s.maxDistance from rfl]
  rcases hm : s.method
  · exact HScl.matchSpatial hq hc a b _
  · exact HScl.matchTemporal lib c a b _
  · exact HScl.matchInterpolation lib c a b
  · exact absurd hm hs
  · exact Lock.raise

/-! ### absolute deviations -/

theorem sqrt_scl {E : EvalLib K} (hE : IsEvalLib E) {c : K} (hc : 0 < c) (x : K) (hx : 0 ≤ x) :
    E.sqrt (c ^ 2 * x) = c * E.sqrt x := by
  have hx' : 0 ≤ c ^ 2 * x := mul_nonneg (sq_nonneg c) hx
  refine (mul_self_inj (hE.sqrt_nonneg _ hx') (mul_nonneg hc.le (hE.sqrt_nonneg _ hx))).1 ?_
  rw [hE.sqrt_sq _ hx', mul_mul_mul_comm, hE.sqrt_sq _ hx]
  ring

theorem npSign_scl {c : K} (hc : 0 < c) (x : K) : npSign (c * x) = npSign x := by
  unfold npSign
  simp only [mul_pos_iff_of_pos_left hc, mul_neg_iff, hc, hc.le.not_gt, true_and, false_and, or_false]

theorem nearestPoint_scl {E : EvalLib K} (hE : IsEvalLib E) {c : K} (hc : 0 < c) (p a b : V3 K) :
    nearestPoint E (c • p) (c • a) (c • b) = (c • (nearestPoint E p a b).1, c * (nearestPoint E p a b).2) := by
  unfold nearestPoint
  simp only [← smul_sub, nrm_scl hE.nrm hc, mul_eq_zero, hc.ne', false_or]
  split
  · simp
  · rename_i h
    have e : (c * E.nrm (b - a))⁻¹ • c • (b - a) = (E.nrm (b - a))⁻¹ • (b - a) := by
      rw [smul_smul]
      congr 1
      field_simp [hc.ne']
    rw [e]
    have d : ∀ u w : V3 K, V3.dot (c • u) w = c * V3.dot u w := by
      intro u w
      simp only [V3.dot, V3.smul_x, V3.smul_y, V3.smul_z]
      ring
    simp only [d, smul_add, smul_smul, mul_assoc]

theorem alongTrackDev_scl {E : EvalLib K} (hE : IsEvalLib E) {c : K} (hc : 0 < c) (p a b : V3 K) (l : Bool) :
    alongTrackDev E (c • p) (c • a) (c • b) l = c * alongTrackDev E p a b l := by
  unfold alongTrackDev
  rw [nearestPoint_scl hE hc]
  rcases nearestPoint E p a b with ⟨q, t⟩
  dsimp only
  simp only [← smul_sub, nrm_scl hE.nrm hc, npSign_scl hc, gt_iff_lt, mul_lt_mul_iff_right₀ hc]
  split
  · ring
  · split
    · ring
    · ring

theorem crossTrackDev_scl {E : EvalLib K} (hE : IsEvalLib E) {c : K} (hc : 0 < c) (p a b : V3 K) :
    crossTrackDev E (c • p) (c • a) (c • b) = (c * (crossTrackDev E p a b).1, c * (crossTrackDev E p a b).2) := by
  unfold crossTrackDev
  rw [nearestPoint_scl hE hc]
  rcases nearestPoint E p a b with ⟨q, t⟩
  dsimp only
  simp only [← smul_sub, V3.smul_x, V3.smul_y, V3.smul_z]
  have e1 : (c * p.x - c * a.x) * (c * b.y - c * a.y) + (c * p.y - c * a.y) * -(c * b.x - c * a.x)
      = c * (c * ((p.x - a.x) * (b.y - a.y) + (p.y - a.y) * (-(b.x - a.x)))) := by ring
  have e2 : (c * (q - p).x) ^ 2 + (c * (q - p).y) ^ 2 = c ^ 2 * ((q - p).x ^ 2 + (q - p).y ^ 2) := by ring
  rw [e1, npSign_scl hc, npSign_scl hc, e2, sqrt_scl hE hc _ (by positivity)]
  congr 1
  ring

theorem devNoRot_scl {E : EvalLib K} (hE : IsEvalLib E) {c : K} (hc : 0 < c) (p q : List (V3 K)) (i : Nat) :
    devNoRot E (sclV c p) (sclV c q) i = (devNoRot E p q i).map (fun v => c • v) := by
  unfold devNoRot
  simp only [npGet_map, List.length_map]
  rcases npGet p (i : Int) with e | cur
  · rfl
  simp only [Except.map, bind, Except.bind]
  generalize decide (i + 1 = q.length) = l
  cases l
  · simp only [Bool.false_eq_true, if_false]
    rcases npGet p ((i : Int) + 1) with e | nxt
    · rfl
    rcases npGet q (i : Int) with e | v
    · rfl
    simp only [pure, Except.pure, alongTrackDev_scl hE hc, crossTrackDev_scl hE hc]
    rfl
  · simp only [if_true]
    rcases npGet p ((i : Int) - 1) with e | nxt
    · rfl
    rcases npGet q (i : Int) with e | v
    · rfl
    simp only [pure, Except.pure, alongTrackDev_scl hE hc, crossTrackDev_scl hE hc]
    rfl

theorem mapE_map_out {α β γ : Type} {f : α → Except Err β} {g : α → Except Err γ} (φ : β → γ)
    (h : ∀ a, g a = (f a).map φ) : ∀ l : List α, mapE g l = (mapE f l).map (List.map φ)
  | [] => rfl
  | a :: l => by
    simp only [mapE, h a, mapE_map_out φ h l]
    rcases f a with e | b
    · rfl
    rcases mapE f l with e | bs
    · rfl
    rfl

theorem devWithRot_scl (c : K) : ∀ (p q : List (V3 K)) (m : List (M3 K)),
    devDirectionsWithRot (sclV c p) (sclV c q) m = (devDirectionsWithRot p q m).map (sclV c)
  | [], q, m => by
    simp only [sclV, List.map_nil, devDirectionsWithRot, Except.map, List.map_map, Function.comp_def, smul_zero]
  | p :: ps, [], _ => rfl
  | p :: ps, q :: qs, [] => rfl
  | p :: ps, q :: qs, m :: ms => by
    have ih := devWithRot_scl c ps qs ms
    simp only [sclV, List.map_cons] at ih ⊢
    simp only [devDirectionsWithRot, ih]
    rcases devDirectionsWithRot ps qs ms with e | r
    · rfl
    · simp only [Except.map, bind, Except.bind, pure, Except.pure, List.map_cons, ← smul_sub, mulV_smul]

theorem bcast_scl (c : K) (a b : List (V3 K)) :
    bcast (fun a b => a - b) (sclV c a) (sclV c b) = (bcast (fun a b => a - b) a b).map (sclV c) := by
  unfold bcast
  simp only [List.length_map]
  split
  · simp only [Except.map, List.zipWith_map, List.map_zipWith, smul_sub]
  · rcases a with _ | ⟨x, _ | ⟨x2, a⟩⟩
    · rcases b with _ | ⟨y, _ | ⟨y2, b⟩⟩ <;> rfl
    · simp only [List.map_cons, List.map_nil, Except.map, List.map_map, Function.comp_def, smul_sub]
    · rcases b with _ | ⟨y, _ | ⟨y2, b⟩⟩
      · rfl
      · simp only [List.map_cons, List.map_nil, Except.map, List.map_map, Function.comp_def, smul_sub]
      · rfl

end TC
