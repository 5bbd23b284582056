import Verif.Spec.TimeShift
import Verif.Props.RpeFrames
/-!
# Two runs whose times are counted from different origins
-/
namespace TC
set_option linter.unusedSectionVars false
set_option linter.unusedSimpArgs false
open H
variable {K R : Type} [Field K] [LinearOrder K] [IsStrictOrderedRing K]

/-- shifted times -/
abbrev shl (d : K) (l : List K) : List K := l.map (fun t => t + d)

theorem diffs_shl (d : K) (l : List K) : diffs (shl d l) = diffs l := by
  simp only [diffs, ← List.map_tail, ← List.map_dropLast, List.zipWith_map, add_sub_add_right_eq_sub]

theorem npSort_shl (d : K) (l : List K) : npSort (shl d l) = shl d (npSort l) :=
  (List.map_insertionSort (r := (· ≤ ·)) (s := (· ≤ ·)) (fun t => t + d) l (fun a _ b _ => by simp)).symm

theorem searchRight_shl (d : K) (l : List K) (x : K) : searchRight (shl d l) (x + d) = searchRight l x := by
  simp only [searchRight, List.countP_map, Function.comp_def, add_le_add_iff_right]

theorem searchLeft_shl (d : K) (l : List K) (x : K) : searchLeft (shl d l) (x + d) = searchLeft l x := by
  simp only [searchLeft, List.countP_map, Function.comp_def, add_lt_add_iff_right]

theorem strictAsc_shl (d : K) (l : List K) : StrictAsc (shl d l) ↔ StrictAsc l := by
  simp only [StrictAsc, List.pairwise_map, add_lt_add_iff_right]

theorem pyFirst_shl (d : K) (l : List K) : pyFirst (shl d l) = (pyFirst l).map (fun t => t + d) := npGet_map _ _ _
theorem pyLast_shl (d : K) (l : List K) : pyLast (shl d l) = (pyLast l).map (fun t => t + d) := npGet_map _ _ _
theorem npGet_shl (d : K) (l : List K) (i : Int) : npGet (shl d l) i = (npGet l i).map (fun t => t + d) := npGet_map _ _ _

theorem cropStamps_shl (d : K) (own : List K) : ∀ ts : List K,
    Traj.cropStamps (shl d own) (shl d ts) = (Traj.cropStamps own ts).map (shl d)
  | [] => rfl
  | t :: ts => by
    have ih := cropStamps_shl d own ts
    simp only [shl, List.map_cons] at ih ⊢
    simp only [Traj.cropStamps, ih]
    rw [show pyFirst (List.map (fun t => t + d) own) = _ from pyFirst_shl d own,
      show pyLast (List.map (fun t => t + d) own) = _ from pyLast_shl d own]
    rcases pyFirst own with e | f
    · rfl
    simp only [Except.map, bind, Except.bind, pure, Except.pure, add_le_add_iff_right]
    by_cases h : f ≤ t
    · simp only [h, if_true]
      rcases pyLast own with e | l
      · rfl
      simp only [add_le_add_iff_right]
      rcases Traj.cropStamps own ts with e | r
      · rfl
      · by_cases h2 : t ≤ l <;> simp [h2]
    · simp only [h, if_false]
      rcases Traj.cropStamps own ts with e | r
      · rfl
      · simp

theorem interpOne_shl (d : K) (xp fp : List K) (x : K) : interpOne (shl d xp) fp (x + d) = interpOne xp fp x := by
  unfold interpOne
  simp only [searchRight_shl, List.length_map, npGet_shl]
  split
  · rfl
  split
  · rfl
  rcases npGet xp ((searchRight xp x : Int) - 1) with e | x0
  · rfl
  simp only [Except.map, bind, Except.bind, pure, Except.pure, add_left_inj]
  rcases npGet fp ((searchRight xp x : Int) - 1) with e | f0
  · rfl
  simp only
  split
  · rfl
  rcases npGet xp (searchRight xp x : Int) with e | x1
  · rfl
  simp only [add_sub_add_right_eq_sub]

theorem interpAll_shl (d : K) (xp fp : List K) : ∀ qs : List K, interpAll (shl d xp) fp (shl d qs) = interpAll xp fp qs
  | [] => rfl
  | q :: qs => by
    have ih := interpAll_shl d xp fp qs
    simp only [shl, List.map_cons] at ih ⊢
    simp only [interpAll, ih]
    rw [show interpOne (List.map (fun t => t + d) xp) fp (q + d) = _ from interpOne_shl d xp fp q]

theorem npInterp_shl (d : K) (qs xp fp : List K) : npInterp (shl d qs) (shl d xp) fp = npInterp qs xp fp := by
  unfold npInterp
  rw [interpAll_shl, List.length_map]

theorem slerpOne_shl (L : RotLib K R) (d : K) (times : List K) (rots : List R) (t : K) :
    Traj.slerpOne L (shl d times) rots (t + d) = Traj.slerpOne L times rots t := by
  unfold Traj.slerpOne
  rw [pyFirst_shl]
  rcases pyFirst times with e | f
  · rfl
  simp only [Except.map, bind, Except.bind, pure, Except.pure, add_left_inj, searchLeft_shl, npGet_shl]
  generalize (if t = f then 0 else searchLeft times t - 1 : Nat) = i
  rcases npGet times (i : Int) with e | t0
  · rfl
  rcases npGet times ((i : Int) + 1) with e | t1
  · rfl
  simp only [add_sub_add_right_eq_sub]

theorem slerpAll_shl (L : RotLib K R) (d : K) (times : List K) (rots : List R) : ∀ ts : List K,
    Traj.slerpAll L (shl d times) rots (shl d ts) = Traj.slerpAll L times rots ts
  | [] => rfl
  | t :: ts => by
    have ih := slerpAll_shl L d times rots ts
    simp only [shl, List.map_cons] at ih ⊢
    simp only [Traj.slerpAll, ih]
    rw [show Traj.slerpOne L (List.map (fun t => t + d) times) rots (t + d) = _ from slerpOne_shl L d times rots t]

theorem slerpCall_shl (L : RotLib K R) (d : K) (times : List K) (rots : List R) (ts : List K) :
    Traj.slerpCall L (shl d times) rots (shl d ts) = Traj.slerpCall L times rots ts := by
  unfold Traj.slerpCall
  simp only [strictAsc_shl, List.length_map, pyFirst_shl, pyLast_shl, slerpAll_shl]
  rcases pyFirst times with e | f
  · rfl
  rcases pyLast times with e | l
  · rfl
  simp only [Except.map, bind, Except.bind, List.any_map, Function.comp_def, add_lt_add_iff_right]

theorem commonTimeSpan_shl (d : K) (a b : List K) : commonTimeSpan (shl d a) (shl d b) =
    (commonTimeSpan a b).map (Option.map (fun s => (s.1 + d, s.2 + d))) := by
  unfold commonTimeSpan
  simp only [npSort_shl, pyFirst_shl, pyLast_shl]
  rcases pyFirst (npSort a) with e | f1
  · rfl
  rcases pyFirst (npSort b) with e | f2
  · rfl
  rcases pyLast (npSort a) with e | l1
  · rfl
  rcases pyLast (npSort b) with e | l2
  · rfl
  simp only [Except.map, bind, Except.bind, pure, Except.pure, add_le_add_iff_right]
  split
  · simp [max_add_add_right, min_add_add_right]
  · rfl

theorem gapKeep_shl (d : K) (sorted : List K) (g t : K) :
    Traj.gapKeep (shl d sorted) g (t + d) = Traj.gapKeep sorted g t := by
  unfold Traj.gapKeep
  simp only [searchRight_shl, npGet_shl]
  rcases npGet sorted ((searchRight sorted t : Int) - 1) with e | a
  · rfl
  simp only [Except.map, bind, Except.bind, pure, Except.pure, add_left_inj]
  split
  · rfl
  rcases npGet sorted ((searchRight sorted t : Int) - 1 + 1) with e | b
  · rfl
  simp only [add_sub_add_right_eq_sub]

theorem gapFilter_shl (d : K) (sorted : List K) (g : K) : ∀ (ts : List K) (i : Nat),
    Traj.gapFilter (shl d sorted) g (shl d ts) i = Traj.gapFilter sorted g ts i
  | [], _ => rfl
  | t :: ts, i => by
    have ih := gapFilter_shl d sorted g ts (i + 1)
    simp only [shl, List.map_cons] at ih ⊢
    simp only [Traj.gapFilter, ih]
    rw [show Traj.gapKeep (List.map (fun t => t + d) sorted) g (t + d) = _ from gapKeep_shl d sorted g t]

theorem gradient3d_shl (d : K) (p : List (V3 K)) (ts : List K) : gradient3d p (shl d ts) = gradient3d p ts := by
  unfold gradient3d
  rw [diffs_shl]

theorem intersectIdx_shl (d : K) (own ts : List K) : Traj.intersectIdx (shl d own) (shl d ts) = Traj.intersectIdx own ts := by
  have hinj : Function.Injective (fun t : K => t + d) := fun a b h => add_right_cancel h
  unfold Traj.intersectIdx
  rw [npSort_shl, List.dedup_map_of_injective hinj, List.filter_map, List.map_map]
  simp only [Function.comp_def, List.mem_map, add_left_inj, exists_eq_right, List.findIdx_map]

/-! ### one object -/

/-- one object, its times counted from two origins -/
abbrev Lat (d : K) (T T' : Traj K R) : Prop := T' = T.later d

theorem Lat.applyIndex (d : K) (i : Index) : Lock (Lat d) Eq (Traj.applyIndex i : SE (Traj K R) Unit) (Traj.applyIndex i) := by
  unfold Traj.applyIndex
  refine Lock.bind Lock.get ?_
  rintro T _ rfl
  refine Lock.bind (Lock.lift (V := fun a b => b = shl d a) ?_) ?_
  · rw [show (T.later d).tstamps = shl d T.tstamps from rfl, npIndex_map]
    exact OutRel.map _ _
  rintro ts _ rfl
  refine Lock.bind (Lock.modify (by rintro s _ rfl; rfl)) fun _ _ _ => ?_
  refine Lock.bind Lock.get ?_
  rintro T _ rfl
  refine Lock.bind (Lock.lift (OutRel.refl (npIndex T.pos i))) ?_
  rintro ps _ rfl
  refine Lock.bind (Lock.modify (by rintro s _ rfl; rfl)) fun _ _ _ => ?_
  refine Lock.bind Lock.get ?_
  rintro T _ rfl
  have rest : Lock (Lat d) Eq
      (do let s ← SE.get
          let as ← SE.lift (npIndex s.arc i)
          SE.modify (fun s => { s with arc := as })
          let s ← SE.get
          let vs ← SE.lift (npIndex s.speed i)
          SE.modify (fun s => { s with speed := vs }) : SE (Traj K R) Unit)
      (do let s ← SE.get
          let as ← SE.lift (npIndex s.arc i)
          SE.modify (fun s => { s with arc := as })
          let s ← SE.get
          let vs ← SE.lift (npIndex s.speed i)
          SE.modify (fun s => { s with speed := vs })) := by
    refine Lock.bind Lock.get ?_
    rintro T _ rfl
    refine Lock.bind (Lock.lift (OutRel.refl (npIndex T.arc i))) ?_
    rintro as _ rfl
    refine Lock.bind (Lock.modify (by rintro s _ rfl; rfl)) fun _ _ _ => ?_
    refine Lock.bind Lock.get ?_
    rintro T _ rfl
    refine Lock.bind (Lock.lift (OutRel.refl (npIndex T.speed i))) ?_
    rintro vs _ rfl
    intro s s' h
    cases h
    exact ⟨rfl, rfl⟩
  rw [show (T.later d).rot = T.rot from rfl]
  rcases T.rot with _ | r
  · exact rest
  · refine Lock.bind (Lock.lift (OutRel.refl (npIndex r i))) ?_
    rintro q _ rfl
    split
    · exact Lock.bind Lock.raise fun _ _ (_ : True) => rest
    · exact Lock.bind (Lock.modify (by rintro s _ rfl; rfl)) fun _ _ _ => rest

theorem Lat.interpolatePositions (d : K) (ts : List K) :
    Lock (Lat d) Eq (Traj.interpolatePositions ts : SE (Traj K R) Unit) (Traj.interpolatePositions (shl d ts)) := by
  unfold Traj.interpolatePositions
  refine Lock.bind Lock.get ?_
  rintro T _ rfl
  simp only [show (T.later d).tstamps = shl d T.tstamps from rfl, npInterp_shl]
  refine Lock.bind (Lock.lift (OutRel.refl (npInterp ts T.tstamps (T.pos.map V3.x)))) ?_
  rintro x _ rfl
  refine Lock.bind (Lock.lift (OutRel.refl (npInterp ts T.tstamps (T.pos.map V3.y)))) ?_
  rintro y _ rfl
  refine Lock.bind (Lock.lift (OutRel.refl (npInterp ts T.tstamps (T.pos.map V3.z)))) ?_
  rintro z _ rfl
  intro s s' h
  cases h
  exact ⟨rfl, rfl⟩

theorem Lat.interpolateRotations (L : RotLib K R) (d : K) (ts : List K) :
    Lock (Lat d) Eq (Traj.interpolateRotations L ts : SE (Traj K R) Unit) (Traj.interpolateRotations L (shl d ts)) := by
  unfold Traj.interpolateRotations
  refine Lock.bind Lock.get ?_
  rintro T _ rfl
  simp only [show (T.later d).tstamps = shl d T.tstamps from rfl, show (T.later d).rot = T.rot from rfl, List.length_map,
    slerpCall_shl]
  rcases T.rot with _ | r
  · exact Lock.pure rfl
  · simp only
    split
    · exact Lock.pure rfl
    · refine Lock.bind (Lock.lift (OutRel.refl (Traj.slerpCall L T.tstamps r ts))) ?_
      rintro q _ rfl
      intro s s' h
      cases h
      exact ⟨rfl, rfl⟩

theorem Lat.setSe3 (L : RotLib K R) (d : K) (ps : List (M4 K)) :
    Lock (Lat d) Eq (Traj.setSe3 L ps : SE (Traj K R) Unit) (Traj.setSe3 L ps) := by
  unfold Traj.setSe3
  refine Lock.bind (Lock.modify (by rintro s _ rfl; rfl)) fun _ _ _ => ?_
  split
  · exact Lock.raise
  · intro s s' h
    cases h
    exact ⟨rfl, rfl⟩

theorem Lat.applyAlignmentBody (L : RotLib K R) (τ : Trig K) (toEuler : R → V3 K) (q : Equations.Params K) (sensor : R) (d : K) :
    Lock (Lat d) Eq (Traj.applyAlignmentBody L τ toEuler q sensor) (Traj.applyAlignmentBody L τ toEuler q sensor) := by
  unfold Traj.applyAlignmentBody
  refine Lock.bind Lock.get ?_
  rintro T _ rfl
  simp only [show (T.later d).rot = T.rot from rfl, show (T.later d).speed = T.speed from rfl, show (T.later d).pos = T.pos from rfl]
  rcases T.rot with _ | r
  all_goals
    dsimp only
    split
    · intro s s' h
      exact ⟨rfl, h⟩
    split
    · intro s s' h
      exact ⟨rfl, h⟩
    refine Lock.bind (Lock.modify (by rintro s _ rfl; rfl)) fun _ _ _ => ?_
    refine Lock.bind (V := Eq) ?_ fun _ _ _ => ?_
    · unfold Traj.applyTransformation
      refine Lock.bind Lock.get ?_
      rintro T _ rfl
      exact Lat.setSe3 L d _
    refine Lock.bind Lock.get ?_
    rintro T _ rfl
    rw [show (T.later d).rot = T.rot from rfl]
    rcases T.rot with _ | r
    · exact Lock.pure rfl
    · intro s s' h
      cases h
      exact ⟨rfl, rfl⟩

/-! ### all objects -/

/-- all objects, their times counted from two origins -/
abbrev HLat (d : K) (h h' : Heap K R) : Prop := h' = h.map (Traj.later d)

theorem HLat.rd (d : K) (r : Nat) : Lock (HLat d) (Lat d) (rd r : SE (Heap K R) _) (rd r) := by
  rintro h _ rfl
  unfold TC.rd
  rw [List.getElem?_map]
  rcases h[r]? with _ | T
  · exact ⟨rfl, rfl⟩
  · exact ⟨rfl, rfl⟩

theorem HLat.onRef (d : K) (r : Nat) {α β : Type} {V : α → β → Prop} {m : SE (Traj K R) α} {m' : SE (Traj K R) β}
    (hm : Lock (Lat d) V m m') : Lock (HLat d) V (onRef r m) (onRef r m') := by
  rintro h _ rfl
  unfold TC.onRef
  rw [List.getElem?_map]
  rcases h[r]? with _ | T
  · exact ⟨rfl, rfl⟩
  · obtain ⟨h1, h2⟩ := hm T _ rfl
    refine ⟨h1, ?_⟩
    simp only [Option.map_some]
    rw [h2]
    exact (List.map_set ..).symm

theorem HLat.copyRef (d : K) (r : Nat) : Lock (HLat d) Eq (copyRef r : SE (Heap K R) Nat) (copyRef r) := by
  rintro h _ rfl
  unfold TC.copyRef
  rw [List.getElem?_map]
  rcases h[r]? with _ | T
  · exact ⟨rfl, rfl⟩
  · exact ⟨by simp [OutRel], (by simp : h.map (Traj.later d) ++ [T.later d] = (h ++ [T]).map (Traj.later d))⟩

theorem HLat.selfOrCopy (d : K) (inplace : Bool) (r : Nat) :
    Lock (HLat d) Eq (selfOrCopy inplace r : SE (Heap K R) Nat) (selfOrCopy inplace r) := by
  cases inplace
  · exact HLat.copyRef d r
  · exact Lock.pure rfl

theorem HLat.applyIndex (d : K) (r : Nat) (i : Index) (inplace : Bool) :
    Lock (HLat d) Eq (H.applyIndex r i inplace : SE (Heap K R) Nat) (H.applyIndex r i inplace) := by
  unfold H.applyIndex
  refine Lock.bind (HLat.selfOrCopy d inplace r) ?_
  rintro s _ rfl
  exact Lock.bind (HLat.onRef d s (Lat.applyIndex d i)) fun _ _ _ => Lock.pure rfl

theorem HLat.crop (d : K) (r : Nat) (a b : K) (inverse inplace : Bool) :
    Lock (HLat d) Eq (H.crop r a b inverse inplace : SE (Heap K R) Nat) (H.crop r (a + d) (b + d) inverse inplace) := by
  unfold H.crop
  refine Lock.bind (HLat.rd d r) ?_
  rintro T _ rfl
  simp only [Traj.later, List.map_map, Function.comp_def, add_le_add_iff_right]
  exact HLat.applyIndex d r _ inplace

theorem HLat.interpolate (L : RotLib K R) (d : K) (r : Nat) (ts : List K) (inplace : Bool) :
    Lock (HLat d) Eq (H.interpolate L r ts inplace) (H.interpolate L r (shl d ts) inplace) := by
  unfold H.interpolate
  rw [npSort_shl]
  refine Lock.bind (HLat.selfOrCopy d inplace r) ?_
  rintro s _ rfl
  refine Lock.bind (HLat.rd d r) ?_
  rintro T _ rfl
  refine Lock.bind (Lock.lift (V := fun a b => b = shl d a) ?_) ?_
  · rw [show (T.later d).tstamps = shl d T.tstamps from rfl, cropStamps_shl]
    exact OutRel.map _ _
  rintro c _ rfl
  refine Lock.bind (HLat.onRef d s (Lat.interpolatePositions d c)) fun _ _ _ => ?_
  refine Lock.bind (HLat.onRef d s (Lat.interpolateRotations L d c)) fun _ _ _ => ?_
  refine Lock.bind (HLat.rd d s) ?_
  rintro T _ rfl
  rw [gradient3d_shl]
  refine Lock.bind (Lock.lift (OutRel.refl (gradient3d T.pos c))) ?_
  rintro g _ rfl
  refine Lock.bind (HLat.onRef d s (Lock.modify (by rintro s _ rfl; rfl))) fun _ _ _ => ?_
  refine Lock.bind (HLat.rd d s) ?_
  rintro T _ rfl
  rw [show (T.later d).tstamps = shl d T.tstamps from rfl, npInterp_shl]
  refine Lock.bind (Lock.lift (OutRel.refl (npInterp c T.tstamps T.arc))) ?_
  rintro as _ rfl
  refine Lock.bind (HLat.onRef d s (Lock.modify (by rintro s _ rfl; rfl))) fun _ _ _ => ?_
  refine Lock.bind (HLat.onRef d s (Lock.modify (by rintro s _ rfl; rfl))) fun _ _ _ => ?_
  exact Lock.pure rfl

theorem HLat.matchTimestamps (d : K) (r : Nat) (ts : List K) (inplace : Bool) :
    Lock (HLat d) Eq (H.matchTimestamps r ts inplace : SE (Heap K R) Nat) (H.matchTimestamps r (shl d ts) inplace) := by
  unfold H.matchTimestamps
  refine Lock.bind (HLat.selfOrCopy d inplace r) ?_
  rintro s _ rfl
  refine Lock.bind (HLat.rd d s) ?_
  rintro T _ rfl
  rw [show (T.later d).tstamps = shl d T.tstamps from rfl, intersectIdx_shl]
  exact Lock.bind (HLat.applyIndex d s _ true) fun _ _ _ => Lock.pure rfl

theorem HLat.intersect (d : K) (r : Nat) (ts : List K) (g : K) (inplace : Bool) :
    Lock (HLat d) Eq (H.intersect r ts g inplace : SE (Heap K R) Nat) (H.intersect r (shl d ts) g inplace) := by
  unfold H.intersect
  refine Lock.bind (HLat.selfOrCopy d inplace r) ?_
  rintro s _ rfl
  refine Lock.bind (HLat.rd d s) ?_
  rintro T _ rfl
  rw [show (T.later d).tstamps = shl d T.tstamps from rfl, commonTimeSpan_shl]
  refine Lock.bind (Lock.lift (OutRel.map _ (commonTimeSpan ts T.tstamps))) ?_
  rintro sp _ rfl
  rcases sp with _ | ⟨t0, t1⟩
  · exact Lock.raise
  simp only [Option.map_some]
  refine Lock.bind (HLat.crop d s t0 t1 false true) fun _ _ _ => ?_
  refine Lock.bind (HLat.rd d s) ?_
  rintro T _ rfl
  rw [show (T.later d).tstamps = shl d T.tstamps from rfl, npSort_shl, gapFilter_shl]
  refine Lock.bind (Lock.lift (OutRel.refl (Traj.gapFilter (npSort ts) g T.tstamps 0))) ?_
  rintro idx _ rfl
  exact Lock.bind (HLat.applyIndex d s _ true) fun _ _ _ => Lock.pure rfl

theorem HLat.applyTransformation (L : RotLib K R) (d : K) (r : Nat) (A : M4 K) (inplace : Bool) :
    Lock (HLat d) Eq (H.applyTransformation L r A inplace) (H.applyTransformation L r A inplace) := by
  unfold H.applyTransformation
  refine Lock.bind (HLat.selfOrCopy d inplace r) ?_
  rintro s _ rfl
  refine Lock.bind (HLat.rd d s) ?_
  rintro T _ rfl
  exact Lock.bind (HLat.onRef d s (Lat.setSe3 L d _)) fun _ _ _ => Lock.pure rfl

theorem HLat.applyAlignment (L : RotLib K R) (τ : Trig K) (toEuler : R → V3 K) (d : K) (r : Nat) (q : Equations.Params K)
    (sensor : R) (inplace : Bool) :
    Lock (HLat d) Eq (H.applyAlignment L τ toEuler r q sensor inplace) (H.applyAlignment L τ toEuler r q sensor inplace) := by
  unfold H.applyAlignment
  cases inplace
  · refine Lock.bind (HLat.copyRef d r) ?_
    rintro s _ rfl
    exact Lock.bind (HLat.onRef d s (Lat.applyAlignmentBody L τ toEuler q sensor d)) fun _ _ _ => Lock.pure rfl
  · rintro h _ rfl
    exact ⟨rfl, rfl⟩

theorem HLat.sortSpatially (d : K) (argsortN : List Nat → List Nat)
    (sortMls : List (V3 K) → Except Err (List Nat × List K)) (r : Nat) (inplace : Bool) :
    Lock (HLat d) Eq (H.sortSpatially argsortN sortMls r inplace : SE (Heap K R) Nat)
      (H.sortSpatially argsortN sortMls r inplace) := by
  unfold H.sortSpatially
  refine Lock.bind (HLat.rd d r) ?_
  rintro T _ rfl
  refine Lock.bind (Lock.lift (OutRel.refl (sortMls T.pos))) ?_
  rintro ⟨i, a⟩ _ rfl
  refine Lock.bind (HLat.applyIndex d r _ inplace) ?_
  rintro s _ rfl
  refine Lock.bind (Lock.lift (OutRel.refl (Traj.take a (argsortN i)))) ?_
  rintro as _ rfl
  refine Lock.bind (HLat.onRef d s (Lock.modify (by rintro s _ rfl; rfl))) fun _ _ _ => ?_
  refine Lock.bind (HLat.onRef d s (Lock.modify (by rintro s _ rfl; rfl))) fun _ _ _ => ?_
  exact Lock.pure rfl

theorem HLat.adoptFirstPosition (d : K) (r t : Nat) (inplace : Bool) :
    Lock (HLat d) Eq (H.adoptFirstPosition r t inplace : SE (Heap K R) Nat) (H.adoptFirstPosition r t inplace) := by
  unfold H.adoptFirstPosition
  refine Lock.bind (HLat.selfOrCopy d inplace r) ?_
  rintro s _ rfl
  refine Lock.bind (HLat.rd d s) ?_
  rintro T _ rfl
  refine Lock.bind (Lock.lift (OutRel.refl (npGet T.pos 0))) ?_
  rintro a _ rfl
  refine Lock.bind (Lock.lift (OutRel.refl (npGet T.pos 0))) ?_
  rintro b _ rfl
  refine Lock.bind (HLat.onRef d s (Lock.modify (by rintro s _ rfl; rfl))) fun _ _ _ => ?_
  exact Lock.pure rfl

theorem HLat.adoptFirstOrientation (toEuler : R → V3 K) (fromEuler : V3 K → R) (d : K) (r t : Nat) (inplace : Bool) :
    Lock (HLat d) Eq (H.adoptFirstOrientation toEuler fromEuler r t inplace)
      (H.adoptFirstOrientation toEuler fromEuler r t inplace) := by
  unfold H.adoptFirstOrientation
  refine Lock.bind (HLat.selfOrCopy d inplace r) ?_
  rintro s _ rfl
  refine Lock.bind (HLat.rd d r) ?_
  rintro T _ rfl
  refine Lock.bind (HLat.rd d s) ?_
  rintro U _ rfl
  rw [show (T.later d).rot = T.rot from rfl, show (U.later d).rot = U.rot from rfl]
  rcases T.rot with _ | p
  · exact Lock.pure rfl
  rcases U.rot with _ | q
  · exact Lock.pure rfl
  refine Lock.bind (Lock.lift (OutRel.refl (npGet (q.map toEuler) 0))) ?_
  rintro a _ rfl
  refine Lock.bind (Lock.lift (OutRel.refl (npGet (q.map toEuler) 0))) ?_
  rintro b _ rfl
  refine Lock.bind (HLat.onRef d s (Lock.modify (by rintro s _ rfl; rfl))) fun _ _ _ => ?_
  exact Lock.pure rfl

theorem HLat.adoptFirstPose (toEuler : R → V3 K) (fromEuler : V3 K → R) (d : K) (r t : Nat) (inplace : Bool) :
    Lock (HLat d) Eq (H.adoptFirstPose toEuler fromEuler r t inplace) (H.adoptFirstPose toEuler fromEuler r t inplace) := by
  unfold H.adoptFirstPose
  refine Lock.bind (HLat.selfOrCopy d inplace r) ?_
  rintro s _ rfl
  refine Lock.bind (HLat.adoptFirstPosition d s s true) fun _ _ _ => ?_
  refine Lock.bind (HLat.adoptFirstOrientation toEuler fromEuler d s s true) fun _ _ _ => ?_
  exact Lock.pure rfl

/-! ### matching -/

theorem kdMatcher_shl {query : KdQuery K K} (hq : OriginFree query) (d : K) (ref test : List K) (m : K) :
    kdMatcher query (shl d ref) (shl d test) m = kdMatcher query ref test m := by
  unfold kdMatcher
  rw [hq, hq, List.length_map]

theorem HLat.applyMatch (d : K) (t r : Nat) (m : List Nat × List Nat) :
    Lock (HLat d) Eq (H.applyMatch t r m : SE (Heap K R) _) (H.applyMatch t r m) := by
  unfold H.applyMatch
  refine Lock.bind (HLat.applyIndex d t _ true) ?_
  rintro a _ rfl
  refine Lock.bind (HLat.applyIndex d r _ true) ?_
  rintro b _ rfl
  exact Lock.pure rfl

theorem HLat.matchTemporal {lib : MatchLib K R} (hq : OriginFree lib.queryT) (d : K) (t r : Nat) (m : K) :
    Lock (HLat d) Eq (H.matchTemporal lib t r m) (H.matchTemporal lib t r m) := by
  unfold H.matchTemporal
  refine Lock.bind (HLat.rd d r) ?_
  rintro T _ rfl
  refine Lock.bind (HLat.rd d t) ?_
  rintro U _ rfl
  rw [show (T.later d).tstamps = shl d T.tstamps from rfl, show (U.later d).tstamps = shl d U.tstamps from rfl,
    kdMatcher_shl hq]
  refine Lock.bind (Lock.lift (OutRel.refl (kdMatcher lib.queryT T.tstamps U.tstamps m))) ?_
  rintro x _ rfl
  exact HLat.applyMatch d t r x

theorem HLat.matchSpatial (lib : MatchLib K R) (d : K) (t r : Nat) (m : K) :
    Lock (HLat d) Eq (H.matchSpatial lib t r m) (H.matchSpatial lib t r m) := by
  unfold H.matchSpatial
  refine Lock.bind (HLat.rd d r) ?_
  rintro T _ rfl
  refine Lock.bind (HLat.rd d t) ?_
  rintro U _ rfl
  refine Lock.bind (Lock.lift (OutRel.refl (kdMatcher lib.queryP T.pos U.pos m))) ?_
  rintro x _ rfl
  exact HLat.applyMatch d t r x

theorem HLat.matchInterpolation (lib : MatchLib K R) (d : K) (t r : Nat) :
    Lock (HLat d) Eq (H.matchInterpolation lib t r) (H.matchInterpolation lib t r) := by
  unfold H.matchInterpolation
  refine Lock.bind (HLat.rd d r) ?_
  rintro T _ rfl
  refine Lock.bind (HLat.intersect d t T.tstamps defaultGap true) fun _ _ _ => ?_
  refine Lock.bind (HLat.rd d t) ?_
  rintro T _ rfl
  refine Lock.bind (HLat.intersect d r T.tstamps defaultGap true) fun _ _ _ => ?_
  refine Lock.bind (HLat.rd d r) ?_
  rintro T _ rfl
  refine Lock.bind (HLat.interpolate lib.rot d t T.tstamps true) fun _ _ _ => ?_
  refine Lock.bind (HLat.rd d r) ?_
  rintro T _ rfl
  refine Lock.bind (HLat.onRef d t (Lock.modify (by rintro s _ rfl; rfl))) fun _ _ _ => ?_
  exact Lock.pure rfl

theorem HLat.matchTrajectories {lib : MatchLib K R} (hq : OriginFree lib.queryT) (d : K) (c : Nat) (f t : Nat)
    (s : MatchingSettings K) (hs : s.method ≠ .nearestSpatialInterpolated) (inplace : Bool) :
    Lock (HLat d) Eq (H.matchTrajectories lib c f t s inplace) (H.matchTrajectories lib c f t s inplace) := by
  unfold H.matchTrajectories
  refine Lock.bind (HLat.selfOrCopy d inplace f) ?_
  rintro a _ rfl
  refine Lock.bind (HLat.selfOrCopy d inplace t) ?_
  rintro b _ rfl
  rcases hm : s.method
  · exact HLat.matchSpatial lib d a b _
  · exact HLat.matchTemporal hq d a b _
  · exact HLat.matchInterpolation lib d a b
  · exact absurd hm hs
  · exact Lock.raise

/-! ### the alignment -/

theorem HLat.speedFilter (nrm : V3 K → K) (d : K) (r : Nat) (v : K) :
    Lock (HLat d) Eq (H.speedFilter nrm r v : SE (Heap K R) Unit) (H.speedFilter nrm r v) := by
  unfold H.speedFilter
  refine Lock.bind (HLat.rd d r) ?_
  rintro T _ rfl
  exact Lock.bind (HLat.applyIndex d r _ true) fun _ _ _ => Lock.pure rfl

theorem HLat.timeFilter (s : AlignSettings K) (d : K) (f t : Nat) :
    Lock (HLat d) Eq (H.timeFilter s f t : SE (Heap K R) Unit) (H.timeFilter s f t) := by
  unfold H.timeFilter
  split
  · refine Lock.bind (HLat.rd d f) ?_
    rintro T _ rfl
    refine Lock.bind (Lock.lift (V := fun a b => b = a + d) ?_) ?_
    · rw [show (T.later d).tstamps = shl d T.tstamps from rfl, npGet_shl]
      exact OutRel.map _ _
    rintro t0 _ rfl
    rw [add_right_comm t0 d s.timeStart, add_right_comm t0 d s.timeEnd]
    refine Lock.bind (HLat.crop d t _ _ false true) fun _ _ _ => ?_
    refine Lock.bind (HLat.crop d f _ _ false true) fun _ _ _ => ?_
    exact Lock.pure rfl
  · exact Lock.pure rfl

theorem build_shl (e : EstSettings) (d : K) (ts : List K) (p q : List (V3 K)) (r v : Option (List (V3 K))) :
    Obs.build e (shl d ts) p q r v = Obs.build e ts p q r v := by
  unfold Obs.build
  rw [gradient3d_shl]

theorem HLat.setup {lib : MetricLib K R} (hq : OriginFree lib.mat.queryT) (d : K) (c : Nat) (s : AlignSettings K)
    (ms : MatchingSettings K) (hs : ms.method ≠ .nearestSpatialInterpolated) (f t : Nat) :
    Lock (HLat d) Eq (H.setup lib c s ms f t) (H.setup lib c s ms f t) := by
  unfold H.setup
  refine Lock.bind (HLat.speedFilter _ d t _) fun _ _ _ => ?_
  refine Lock.bind (HLat.speedFilter _ d f _) fun _ _ _ => ?_
  refine Lock.bind (HLat.timeFilter s d f t) fun _ _ _ => ?_
  refine Lock.bind (HLat.rd d f) ?_
  rintro T _ rfl
  refine Lock.bind (HLat.rd d t) ?_
  rintro U _ rfl
  simp only [show (T.later d).pos = T.pos from rfl, show (U.later d).pos = U.pos from rfl]
  split
  · rintro h h' hh
    exact ⟨rfl, hh⟩
  refine Lock.bind (HLat.matchTrajectories hq d c f t ms hs true) fun _ _ _ => ?_
  refine Lock.bind (HLat.rd d f) ?_
  rintro T _ rfl
  refine Lock.bind (HLat.rd d t) ?_
  rintro U _ rfl
  refine Lock.bind (Lock.lift (V := fun a b => b = a + d) ?_) fun _ _ _ => ?_
  · rw [show (T.later d).tstamps = shl d T.tstamps from rfl, pyLast_shl]
    exact OutRel.map _ _
  rw [show (T.later d).tstamps = shl d T.tstamps from rfl, build_shl]
  refine Lock.bind (Lock.lift (OutRel.refl (Obs.build s.est T.tstamps T.pos U.pos (T.rot.map (fun r => r.map lib.toEuler))
    (some T.speed)))) ?_
  rintro o _ rfl
  refine Lock.bind (Lock.lift (OutRel.refl _)) ?_
  rintro o _ rfl
  refine Lock.bind (Lock.lift (OutRel.refl _)) ?_
  rintro v _ rfl
  refine Lock.bind (Lock.lift (OutRel.refl _)) ?_
  rintro v _ rfl
  exact Lock.pure rfl

theorem HLat.alignData {lib : MetricLib K R} (hq : OriginFree lib.mat.queryT) (d : K) (c : Nat) (s : AlignSettings K)
    (ms : MatchingSettings K) (hs : ms.method ≠ .nearestSpatialInterpolated) (f t : Nat) :
    Lock (HLat d) Eq (H.alignData lib c s ms f t) (H.alignData lib c s ms f t) := by
  unfold H.alignData
  refine Lock.bind (HLat.copyRef d f) ?_
  rintro f' _ rfl
  refine Lock.bind (HLat.copyRef d t) ?_
  rintro t' _ rfl
  refine Lock.bind (HLat.setup hq d c s ms hs f' t') ?_
  rintro v _ rfl
  exact Lock.pure rfl

theorem HLat.sensorRotation (lib : MetricLib K R) (d : K) (s : AlignSettings K) (a : AlignData K) (p : PSet K) :
    Lock (HLat d) Eq (H.sensorRotation lib s a p) (H.sensorRotation lib s a p) := by
  unfold H.sensorRotation
  refine Lock.bind (HLat.rd d a.source) ?_
  rintro T _ rfl
  refine Lock.bind (HLat.rd d a.target) ?_
  rintro U _ rfl
  rw [show (T.later d).rot = T.rot from rfl, show (U.later d).rot = U.rot from rfl]
  rcases T.rot with _ | rf
  · exact Lock.pure rfl
  rcases U.rot with _ | rt
  · exact Lock.pure rfl
  rcases s.est.sensorRotation
  · exact Lock.pure rfl
  refine Lock.bind (HLat.applyTransformation lib.mat.rot d a.source _ false) ?_
  rintro pre _ rfl
  refine Lock.bind (HLat.rd d pre) ?_
  rintro V _ rfl
  rw [show (V.later d).rot = V.rot from rfl]
  rcases V.rot with _ | rf
  · exact Lock.raise
  refine Lock.bind (Lock.lift (OutRel.refl _)) ?_
  rintro ps _ rfl
  exact Lock.lift (OutRel.refl _)

theorem HLat.estimateAlignment {lib : MetricLib K R} (hq : OriginFree lib.mat.queryT) (d : K) (c : Nat)
    (s : AlignSettings K) (ms : MatchingSettings K) (hs : ms.method ≠ .nearestSpatialInterpolated) (f t : Nat) :
    Lock (HLat d) Eq (H.estimateAlignment lib c s ms f t) (H.estimateAlignment lib c s ms f t) := by
  unfold H.estimateAlignment
  refine Lock.bind (HLat.alignData hq d c s ms hs f t) ?_
  rintro a _ rfl
  refine Lock.bind (Lock.lift (OutRel.refl _)) ?_
  rintro e _ rfl
  rcases e.params with _ | p
  · exact Lock.pure rfl
  refine Lock.bind (HLat.sensorRotation lib d s a p) ?_
  rintro q _ rfl
  refine Lock.bind (HLat.rd d a.source) ?_
  rintro T _ rfl
  refine Lock.bind (HLat.rd d a.target) ?_
  rintro U _ rfl
  exact Lock.pure rfl

end TC
