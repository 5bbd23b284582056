import Verif.Props.Origin
import Verif.Props.WeightsApi
import Verif.Props.RpeFrames
/-!
# C184 for alignments and the absolute error

Two runs are compared step by step.
-/
namespace TC
set_option linter.unusedSectionVars false
set_option linter.unusedSimpArgs false
variable {K R : Type} [Field K] [LinearOrder K] [IsStrictOrderedRing K]
open H Obs Adjust

/-! ### heaps whose objects are related -/

/-- how the objects at some references are related -/
abbrev Links (K R : Type) := Nat → Option (Traj K R → Traj K R → Prop)

def Linked (F : Links K R) (h h' : Heap K R) : Prop :=
  h'.length = h.length ∧ ∀ r P, F r = some P → ∃ T T', h[r]? = some T ∧ h'[r]? = some T' ∧ P T T'

/-- from linked objects, two programs end with linked objects (possibly more of them) and related outcomes -/
def Pace {α β : Type} (F : Links K R) (W : Links K R → α → β → Prop) (m : SE (Heap K R) α) (m' : SE (Heap K R) β) : Prop :=
  ∀ h h', Linked F h h' → ∃ G : Links K R, (∀ r P, F r = some P → G r = some P) ∧ Linked G (m h).2 (m' h').2 ∧
    OutRel (W G) (m h).1 (m' h').1

theorem Pace.bind {α β γ δ : Type} {F : Links K R} {W : Links K R → α → β → Prop} {X : Links K R → γ → δ → Prop}
    {m : SE (Heap K R) α} {m' : SE (Heap K R) β} {f : α → SE (Heap K R) γ} {f' : β → SE (Heap K R) δ} (hm : Pace F W m m')
    (hf : ∀ (G : Links K R) a b, (∀ r P, F r = some P → G r = some P) → W G a b → Pace G X (f a) (f' b)) :
    Pace F X (m >>= f) (m' >>= f') := by
  intro h h' hh
  obtain ⟨G, g1, g2, g3⟩ := hm h h' hh
  rw [SE.run_bind, SE.run_bind]
  rcases e : m h with ⟨o, t⟩
  rcases e' : m' h' with ⟨o', t'⟩
  rw [e, e'] at g2 g3
  cases o <;> cases o' <;> simp only [OutRel] at g3 g2 ⊢
  · exact ⟨G, g1, g2, g3⟩
  · obtain ⟨G', k1, k2, k3⟩ := hf G _ _ g1 g3 t t' g2
    exact ⟨G', fun r P hr => k1 r P (g1 r P hr), k2, k3⟩

theorem Pace.of_lock {α β : Type} {F : Links K R} {V : α → β → Prop} {m : SE (Heap K R) α} {m' : SE (Heap K R) β}
    (h : Lock (Linked F) V m m') : Pace F (fun _ => V) m m' := fun s s' hs => ⟨F, fun _ _ h => h, (h s s' hs).2, (h s s' hs).1⟩

theorem Linked.rd {F : Links K R} {r : Nat} {P : Traj K R → Traj K R → Prop} (hr : F r = some P) :
    Lock (Linked F) P (rd r) (rd r) := by
  intro h h' hh
  obtain ⟨T, T', e, e', hs⟩ := hh.2 r P hr
  simp only [TC.rd, e, e']
  exact ⟨hs, hh⟩

theorem Linked.onRef {F : Links K R} {r : Nat} {P : Traj K R → Traj K R → Prop} (hr : F r = some P) {α β : Type}
    {V : α → β → Prop} {m : SE (Traj K R) α} {m' : SE (Traj K R) β} (hm : Lock P V m m') :
    Lock (Linked F) V (onRef r m) (onRef r m') := by
  intro h h' hh
  obtain ⟨T, T', e, e', hs⟩ := hh.2 r P hr
  obtain ⟨h1, h2⟩ := hm T T' hs
  simp only [TC.onRef, e, e']
  refine ⟨h1, by simp [hh.1], ?_⟩
  intro k B hk
  by_cases hkr : r = k
  · subst hkr
    rw [hr] at hk
    injection hk with hk
    subst hk
    have l1 := (List.getElem?_eq_some_iff.1 e).1
    have l2 := (List.getElem?_eq_some_iff.1 e').1
    exact ⟨_, _, by simp [l1], by simp [l2], h2⟩
  · obtain ⟨U, U', f, f', hu⟩ := hh.2 k B hk
    exact ⟨U, U', by rw [List.getElem?_set_ne hkr, f], by rw [List.getElem?_set_ne hkr, f'], hu⟩

/-- a copy that is changed at once -/
theorem Pace.copyOn {F : Links K R} {r : Nat} {P Q : Traj K R → Traj K R → Prop} (hr : F r = some P)
    {m m' : SE (Traj K R) Unit} (hm : ∀ T T', P T T' → OutRel (fun _ _ => Q (m T).2 (m' T').2) (m T).1 (m' T').1) :
    Pace F (fun G a b => b = a ∧ G a = some Q) (copyRef r >>= fun s => onRef s m >>= fun _ => pure s)
      (copyRef r >>= fun s => onRef s m' >>= fun _ => pure s) := by
  intro h h' hh
  obtain ⟨T, T', e, e', hs⟩ := hh.2 r P hr
  have hq := hm T T' hs
  have r1 : ∀ (m : SE (Traj K R) Unit) (h : Heap K R) (T : Traj K R), h[r]? = some T →
      (copyRef r >>= fun s => TC.onRef s m >>= fun _ => pure s : SE (Heap K R) Nat) h =
        (((m T).1).map (fun _ => h.length), h ++ [(m T).2]) := by
    intro m h T e
    have c1 : copyRef r h = (.ok h.length, h ++ [T]) := by simp [copyRef, e]
    rw [SE.run_bind_ok c1, SE.run_bind]
    have c2 : TC.onRef h.length m (h ++ [T]) = ((m T).1, h ++ [(m T).2]) := by simp [TC.onRef]
    rw [c2]
    rcases (m T).1 with x | x <;> rfl
  rw [r1 m h T e, r1 m' h' T' e', hh.1]
  have old : ∀ (X Y : Traj K R) k B, F k = some B → ∃ T T', (h ++ [X])[k]? = some T ∧ (h' ++ [Y])[k]? = some T' ∧ B T T' := by
    intro X Y k B hk
    obtain ⟨U, U', f, f', hu⟩ := hh.2 k B hk
    have l1 := (List.getElem?_eq_some_iff.1 f).1
    have l2 := (List.getElem?_eq_some_iff.1 f').1
    exact ⟨U, U', by rw [List.getElem?_append_left l1, f], by rw [List.getElem?_append_left l2, f'], hu⟩
  have lt : ∀ k B, F k = some B → k ≠ h.length := by
    intro k B hk
    obtain ⟨U, U', f, f', hu⟩ := hh.2 k B hk
    have l1 := (List.getElem?_eq_some_iff.1 f).1
    omega
  rcases o : (m T).1 with x | x <;> rcases o' : (m' T').1 with y | y <;> rw [o, o'] at hq <;> simp only [OutRel] at hq
  · exact ⟨F, fun _ _ h => h, ⟨by simp [hh.1], old _ _⟩, hq⟩
  · refine ⟨fun k => if k = h.length then some Q else F k, fun k B hk => ?_, ⟨by simp [hh.1], fun k B hk => ?_⟩, ?_⟩
    · simp only [lt k B hk, if_false, hk]
    · simp only at hk
      by_cases hkn : k = h.length
      · rw [if_pos hkn] at hk
        injection hk with hk
        subst hk hkn
        exact ⟨_, _, by simp, by simp [← hh.1], hq⟩
      · rw [if_neg hkn] at hk
        exact old _ _ k B hk
    · exact ⟨rfl, if_pos rfl⟩

theorem copyRef_on (r : Nat) (h : Heap K R) : copyRef r h =
    (copyRef r >>= fun s => onRef s (fun T => (.ok (), T) : SE (Traj K R) Unit) >>= fun _ => pure s : SE (Heap K R) Nat) h := by
  cases hT : h[r]? with
  | none =>
    have : copyRef r h = (.error .attributeError, h) := by simp [copyRef, hT]
    rw [SE.run_bind_error this, this]
  | some T =>
    have c1 : copyRef r h = (.ok h.length, h ++ [T]) := by simp [copyRef, hT]
    rw [SE.run_bind_ok c1, SE.run_bind]
    have c2 : onRef h.length (fun T => (.ok (), T) : SE (Traj K R) Unit) (h ++ [T]) = (.ok (), h ++ [T]) := by
      simp [onRef]
    rw [c1, c2]
    rfl

theorem Pace.copyRef {F : Links K R} {r : Nat} {P : Traj K R → Traj K R → Prop} (hr : F r = some P) :
    Pace F (fun G a b => b = a ∧ G a = some P) (TC.copyRef r) (TC.copyRef r) := by
  intro h h' hh
  rw [copyRef_on r h, copyRef_on r h']
  exact Pace.copyOn (Q := P) (m := fun T => (.ok (), T)) (m' := fun T => (.ok (), T)) hr (fun T T' h => h) h h' hh

/-! ### one object -/

/-- one object, its positions from two origins -/
abbrev Off (d : V3 K) (T T' : Traj K R) : Prop := T' = T.off d

theorem Off.applyIndex (d : V3 K) (i : Index) : Lock (Off d) Eq (Traj.applyIndex i : SE (Traj K R) Unit) (Traj.applyIndex i) := by
  unfold Traj.applyIndex
  refine Lock.bind Lock.get ?_
  rintro T _ rfl
  refine Lock.bind (Lock.lift (OutRel.refl (npIndex T.tstamps i))) ?_
  rintro ts _ rfl
  refine Lock.bind (Lock.modify (by rintro s _ rfl; rfl)) fun _ _ _ => ?_
  refine Lock.bind Lock.get ?_
  rintro T _ rfl
  refine Lock.bind (Lock.lift (V := fun a b => b = a.map (fun p => p + d)) ?_) ?_
  · rw [show (T.off d).pos = T.pos.map (fun p => p + d) from rfl, npIndex_map]
    exact OutRel.map _ _
  rintro ps _ rfl
  refine Lock.bind (Lock.modify (by rintro s _ rfl; rfl)) fun _ _ _ => ?_
  refine Lock.bind Lock.get ?_
  rintro T _ rfl
  have rest : Lock (Off d) Eq
      (do let s ← SE.get
          let as ← SE.lift (npIndex s.arc i)
          SE.modify (fun s => { s with arc := as })
          let s ← SE.get
          let vs ← SE.lift (npIndex s.speed i)
          SE.modify (fun s => { s with speed := vs }) : SE (Traj K R) Unit)
      (do let s ← SE.get
          let as ← SE.lift (npIndex s.arc i)
          SE.modify (fun s => { s with arc := as })
          let s ← SE.get
          let vs ← SE.lift (npIndex s.speed i)
          SE.modify (fun s => { s with speed := vs })) := by
    refine Lock.bind Lock.get ?_
    rintro T _ rfl
    refine Lock.bind (Lock.lift (OutRel.refl (npIndex T.arc i))) ?_
    rintro as _ rfl
    refine Lock.bind (Lock.modify (by rintro s _ rfl; rfl)) fun _ _ _ => ?_
    refine Lock.bind Lock.get ?_
    rintro T _ rfl
    refine Lock.bind (Lock.lift (OutRel.refl (npIndex T.speed i))) ?_
    rintro vs _ rfl
    intro s s' h
    cases h
    exact ⟨rfl, rfl⟩
  rw [show (T.off d).rot = T.rot from rfl]
  rcases T.rot with _ | r
  · exact rest
  · refine Lock.bind (Lock.lift (OutRel.refl (npIndex r i))) ?_
    rintro q _ rfl
    split
    · exact Lock.bind Lock.raise fun _ _ (_ : True) => rest
    · exact Lock.bind (Lock.modify (by rintro s _ rfl; rfl)) fun _ _ _ => rest

theorem moveBy_off (d : V3 K) : moveBy (mkPose (1 : M3 K) d) = fun p => p + d := by
  funext p
  unfold moveBy
  rw [poseRot_mkPose, posePos_mkPose]
  ext <;> simp [mulV, Matrix.one_apply]

theorem Off.interpolatePositions (d : V3 K) (ts : List K) :
    Lock (Off d) Eq (Traj.interpolatePositions ts : SE (Traj K R) Unit) (Traj.interpolatePositions ts) := by
  rintro T _ rfl
  rw [interpolatePositions_lerp, interpolatePositions_lerp]
  simp only [show (T.off d).tstamps = T.tstamps from rfl, show (T.off d).pos = T.pos.map (fun p => p + d) from rfl, List.length_map]
  by_cases hc : T.tstamps.length = 0 ∨ T.tstamps.length ≠ T.pos.length
  · rw [if_pos hc, if_pos hc]
    exact ⟨rfl, rfl⟩
  · rw [if_neg hc, if_neg hc]
    rw [not_or, not_not] at hc
    obtain ⟨ps, h1, h2⟩ := lerpAll_moved (Nat.pos_of_ne_zero hc.1) (mkPose (1 : M3 K) d) hc.2.symm ts
    rw [moveBy_off] at h2
    rw [h1, h2]
    exact ⟨rfl, rfl⟩

theorem Off.interpolateRotations (L : RotLib K R) (d : V3 K) (ts : List K) :
    Lock (Off d) Eq (Traj.interpolateRotations L ts : SE (Traj K R) Unit) (Traj.interpolateRotations L ts) := by
  unfold Traj.interpolateRotations
  refine Lock.bind Lock.get ?_
  rintro T _ rfl
  simp only [show (T.off d).tstamps = T.tstamps from rfl, show (T.off d).rot = T.rot from rfl]
  rcases T.rot with _ | r
  · exact Lock.pure rfl
  · simp only
    split
    · exact Lock.pure rfl
    · refine Lock.bind (Lock.lift (OutRel.refl (Traj.slerpCall L T.tstamps r ts))) ?_
      rintro q _ rfl
      intro s s' h
      cases h
      exact ⟨rfl, rfl⟩

theorem gradient3d_off (d : V3 K) (p : List (V3 K)) (ts : List K) : gradient3d (p.map (fun p => p + d)) ts = gradient3d p ts := by
  unfold gradient3d diffs
  rw [← List.map_tail, ← List.map_dropLast, List.zipWith_map]
  simp only [add_sub_add_right_eq_sub]

/-! ### methods -/

section
variable {F : Links K R} {r : Nat} {d : V3 K}

theorem Linked.applyIndex (hr : F r = some (Off d)) (i : Index) :
    Lock (Linked F) Eq (H.applyIndex r i true) (H.applyIndex r i true) := by
  unfold H.applyIndex selfOrCopy
  refine Lock.bind (V := fun a b => a = r ∧ b = r) (Lock.pure ⟨rfl, rfl⟩) ?_
  rintro s s' ⟨rfl, rfl⟩
  exact Lock.bind (Linked.onRef hr (Off.applyIndex d i)) fun _ _ _ => Lock.pure rfl

theorem Linked.crop (hr : F r = some (Off d)) (a b : K) (inverse : Bool) :
    Lock (Linked F) Eq (H.crop r a b inverse true) (H.crop r a b inverse true) := by
  unfold H.crop
  refine Lock.bind (Linked.rd hr) ?_
  rintro T _ rfl
  exact Linked.applyIndex hr _

theorem Linked.intersect (hr : F r = some (Off d)) (ts : List K) (g : K) :
    Lock (Linked F) Eq (H.intersect r ts g true) (H.intersect r ts g true) := by
  unfold H.intersect selfOrCopy
  refine Lock.bind (V := fun a b => a = r ∧ b = r) (Lock.pure ⟨rfl, rfl⟩) ?_
  rintro s s' ⟨rfl, rfl⟩
  refine Lock.bind (Linked.rd hr) ?_
  rintro T _ rfl
  refine Lock.bind (Lock.lift (OutRel.refl (commonTimeSpan ts T.tstamps))) ?_
  rintro sp _ rfl
  rcases sp with _ | ⟨t0, t1⟩
  · exact Lock.raise
  · refine Lock.bind (Linked.crop hr _ _ _) fun _ _ _ => ?_
    refine Lock.bind (Linked.rd hr) ?_
    rintro T _ rfl
    refine Lock.bind (Lock.lift (OutRel.refl (Traj.gapFilter (npSort ts) g T.tstamps 0))) ?_
    rintro idx _ rfl
    exact Lock.bind (Linked.applyIndex hr _) fun _ _ _ => Lock.pure rfl

theorem Linked.interpolate (L : RotLib K R) (hr : F r = some (Off d)) (ts : List K) :
    Lock (Linked F) Eq (H.interpolate L r ts true) (H.interpolate L r ts true) := by
  unfold H.interpolate selfOrCopy
  refine Lock.bind (V := fun a b => a = r ∧ b = r) (Lock.pure ⟨rfl, rfl⟩) ?_
  rintro s s' ⟨rfl, rfl⟩
  refine Lock.bind (Linked.rd hr) ?_
  rintro T _ rfl
  refine Lock.bind (Lock.lift (OutRel.refl (Traj.cropStamps T.tstamps (npSort ts)))) ?_
  rintro c _ rfl
  refine Lock.bind (Linked.onRef hr (Off.interpolatePositions d c)) fun _ _ _ => ?_
  refine Lock.bind (Linked.onRef hr (Off.interpolateRotations L d c)) fun _ _ _ => ?_
  refine Lock.bind (Linked.rd hr) ?_
  rintro T _ rfl
  rw [show (T.off d).pos = T.pos.map (fun p => p + d) from rfl, gradient3d_off]
  refine Lock.bind (Lock.lift (OutRel.refl (gradient3d T.pos c))) ?_
  rintro g _ rfl
  refine Lock.bind (Linked.onRef hr (Lock.modify (by rintro s _ rfl; rfl))) fun _ _ _ => ?_
  refine Lock.bind (Linked.rd hr) ?_
  rintro T _ rfl
  refine Lock.bind (Lock.lift (OutRel.refl (npInterp c T.tstamps T.arc))) ?_
  rintro as _ rfl
  refine Lock.bind (Linked.onRef hr (Lock.modify (by rintro s _ rfl; rfl))) fun _ _ _ => ?_
  refine Lock.bind (Linked.onRef hr (Lock.modify (by rintro s _ rfl; rfl))) fun _ _ _ => ?_
  exact Lock.pure rfl

variable {u : Nat} {b : V3 K}

theorem Linked.matchTemporal (lib : MatchLib K R) (hr : F r = some (Off d)) (hu : F u = some (Off b)) (m : K) :
    Lock (Linked F) Eq (H.matchTemporal lib r u m) (H.matchTemporal lib r u m) := by
  unfold H.matchTemporal
  refine Lock.bind (Linked.rd hu) ?_
  rintro T _ rfl
  refine Lock.bind (Linked.rd hr) ?_
  rintro U _ rfl
  refine Lock.bind (Lock.lift (OutRel.refl _)) ?_
  rintro m _ rfl
  unfold H.applyMatch
  refine Lock.bind (Linked.applyIndex hr _) ?_
  rintro t _ rfl
  refine Lock.bind (Linked.applyIndex hu _) ?_
  rintro v _ rfl
  exact Lock.pure rfl

theorem Linked.matchInterpolation (lib : MatchLib K R) (hr : F r = some (Off d)) (hu : F u = some (Off b)) :
    Lock (Linked F) Eq (H.matchInterpolation lib r u) (H.matchInterpolation lib r u) := by
  unfold H.matchInterpolation
  refine Lock.bind (Linked.rd hu) ?_
  rintro T _ rfl
  refine Lock.bind (Linked.intersect hr _ _) fun _ _ _ => ?_
  refine Lock.bind (Linked.rd hr) ?_
  rintro T _ rfl
  refine Lock.bind (Linked.intersect hu _ _) fun _ _ _ => ?_
  refine Lock.bind (Linked.rd hu) ?_
  rintro T _ rfl
  refine Lock.bind (Linked.interpolate lib.rot hr _) fun _ _ _ => ?_
  refine Lock.bind (Linked.rd hu) ?_
  rintro T _ rfl
  refine Lock.bind (Linked.onRef hr (Lock.modify (by rintro s _ rfl; rfl))) fun _ _ _ => ?_
  exact Lock.pure rfl

theorem Linked.matchByTime (lib : MatchLib K R) (hr : F r = some (Off d)) (hu : F u = some (Off b)) (c : Nat) (s : MatchingSettings K)
    (h1 : s.method ≠ .nearestSpatial) (h2 : s.method ≠ .nearestSpatialInterpolated) :
    Lock (Linked F) Eq (H.matchTrajectories lib c r u s true) (H.matchTrajectories lib c r u s true) := by
  unfold H.matchTrajectories selfOrCopy
  refine Lock.bind (V := fun a b => a = r ∧ b = r) (Lock.pure ⟨rfl, rfl⟩) ?_
  rintro t t' ⟨rfl, rfl⟩
  refine Lock.bind (V := fun a b => a = u ∧ b = u) (Lock.pure ⟨rfl, rfl⟩) ?_
  rintro v v' ⟨rfl, rfl⟩
  rcases hm : s.method
  · exact absurd hm h1
  · exact Linked.matchTemporal lib hr hu _
  · exact Linked.matchInterpolation lib hr hu
  · exact absurd hm h2
  · exact Lock.raise

theorem Linked.speedFilter (nrm : V3 K → K) (hr : F r = some (Off d)) (v : K) :
    Lock (Linked F) Eq (H.speedFilter nrm r v : SE (Heap K R) Unit) (H.speedFilter nrm r v) := by
  unfold H.speedFilter
  refine Lock.bind (Linked.rd hr) ?_
  rintro T _ rfl
  exact Lock.bind (Linked.applyIndex hr _) fun _ _ _ => Lock.pure rfl

theorem Linked.timeFilter (s : AlignSettings K) (hr : F r = some (Off d)) (hu : F u = some (Off b)) :
    Lock (Linked F) Eq (H.timeFilter s r u : SE (Heap K R) Unit) (H.timeFilter s r u) := by
  unfold H.timeFilter
  split
  · refine Lock.bind (Linked.rd hr) ?_
    rintro T _ rfl
    refine Lock.bind (Lock.lift (OutRel.refl (npGet T.tstamps 0))) ?_
    rintro t0 _ rfl
    refine Lock.bind (Linked.crop hu _ _ _) fun _ _ _ => ?_
    refine Lock.bind (Linked.crop hr _ _ _) fun _ _ _ => ?_
    exact Lock.pure rfl
  · exact Lock.pure rfl

end

/-! ### observations -/

theorem flatten_mapIdx {α : Type} (g : Nat → α → α) {n : Nat} (hn : 0 < n) : ∀ (rows : List (List α)), (∀ r ∈ rows, r.length = n) →
    rows.flatten.mapIdx (fun i x => g (i % n) x) = (rows.map (fun r => r.mapIdx g)).flatten
  | [], _ => rfl
  | r :: rows, h => by
    have hr : r.length = n := h r (by simp)
    have ih := flatten_mapIdx g hn rows (fun r hr => h r (by simp [hr]))
    rw [List.flatten_cons, List.mapIdx_append, List.map_cons, List.flatten_cons, ← ih]
    congr 1
    · refine List.ext_getElem (by simp) (fun i h1 h2 => ?_)
      simp only [List.getElem_mapIdx]
      rw [Nat.mod_eq_of_lt (by simpa [hr] using h1)]
    · rw [hr]
      simp only [Nat.add_mod_right]

/-- one epoch with a reference from another origin -/
def bump (d : V3 K) (r : List K) : List K := r.mapIdx (fun i x => x + [0, 0, 0, d.x, d.y, d.z].getD i 0)

theorem bump_append (d : V3 K) {a : List K} (b : List K) (h : 6 ≤ a.length) : bump d (a ++ b) = bump d a ++ b := by
  unfold bump
  rw [List.mapIdx_append]
  congr 1
  refine List.ext_getElem (by simp) (fun i h1 h2 => ?_)
  rw [List.getElem_mapIdx, List.getD_eq_getElem?_getD, List.getElem?_eq_none (by simp; omega)]
  simp

theorem bump_rows (d p q : V3 K) : bump d (row p ++ row q) = row p ++ row (q + d) := by
  simp [bump, row, List.mapIdx_cons]

theorem hcat_bump (d : V3 K) (a b : List (List K)) (ha : ∀ r ∈ a, 6 ≤ r.length) :
    hcat (a.map (bump d)) b = (hcat a b).map (List.map (bump d)) := by
  unfold hcat
  rw [List.length_map]
  split_ifs with h
  · simp only [Except.map]
    refine congrArg Except.ok ?_
    clear h
    induction a generalizing b with
    | nil => rfl
    | cons x a ih =>
      cases b with
      | nil => rfl
      | cons y b =>
        simp only [List.map_cons, List.zipWith_cons_cons]
        rw [ih b (fun r hr => ha r (by simp [hr])), bump_append d y (ha x (by simp))]
  · rfl

theorem hcat_from_to (d : V3 K) (p q : List (V3 K)) :
    hcat (p.map row) ((q.map (fun x => x + d)).map row) = (hcat (p.map row) (q.map row)).map (List.map (bump d)) := by
  unfold hcat
  simp only [List.length_map]
  split_ifs with h
  · simp only [Except.map]
    refine congrArg Except.ok ?_
    clear h
    induction p generalizing q with
    | nil => rfl
    | cons x p ih =>
      cases q with
      | nil => rfl
      | cons y q =>
        simp only [List.map_cons, List.zipWith_cons_cons]
        rw [ih q, bump_rows]
  · rfl

theorem hcat_rows {a b c : List (List K)} {m n : Nat} (ha : ∀ r ∈ a, r.length = m) (hb : ∀ r ∈ b, r.length = n) (h : hcat a b = .ok c) :
    ∀ r ∈ c, r.length = m + n := by
  unfold hcat at h
  split_ifs at h
  cases h
  intro r hr
  rw [List.mem_iff_getElem] at hr
  obtain ⟨i, hi, rfl⟩ := hr
  rw [List.getElem_zipWith, List.length_append, ha _ (List.getElem_mem _), hb _ (List.getElem_mem _)]

theorem row_rows (l : List (V3 K)) : ∀ r ∈ l.map row, r.length = 3 := by
  intro r hr
  obtain ⟨p, -, rfl⟩ := List.mem_map.1 hr
  rfl

/-- the second step of the observations -/
def withRpy (e : EstSettings) (r : Option (List (V3 K))) (o : List (List K)) : Except Err (List (List K)) :=
  if e.leverarmEnabled then
    (match r with
    | some r => hcat o (r.map row)
    | none => .error .valueError)
  else .ok o

theorem withRpy_bump (d : V3 K) (e : EstSettings) (r : Option (List (V3 K))) (o : List (List K)) (h : ∀ r ∈ o, r.length = 6) :
    withRpy e r (o.map (bump d)) = (withRpy e r o).map (List.map (bump d)) := by
  unfold withRpy
  split_ifs
  · cases r with
    | none => rfl
    | some r => exact hcat_bump d _ _ (fun r hr => by rw [h r hr])
  · rfl

theorem withRpy_rows {e : EstSettings} {r : Option (List (V3 K))} {o o' : List (List K)} (h : ∀ r ∈ o, r.length = 6)
    (ho : withRpy e r o = .ok o') : ∀ r ∈ o', r.length = 6 + (if e.leverarmEnabled then 3 else 0) := by
  unfold withRpy at ho
  split_ifs at ho ⊢
  · cases r with
    | none => cases ho
    | some r => exact hcat_rows h (row_rows r) ho
  · cases ho
    exact h

/-- the third step of the observations -/
def withSpeed (e : EstSettings) (v : Except Err (List (V3 K))) (o : List (List K)) : Except Err (List (List K)) :=
  if e.timeShiftEnabled then v.bind (fun v => hcat o ((zeroSpeed e.timeShiftFilter v).map row)) else .ok o

theorem withSpeed_bump (d : V3 K) (e : EstSettings) (v : Except Err (List (V3 K))) (o : List (List K)) (h : ∀ r ∈ o, 6 ≤ r.length) :
    withSpeed e v (o.map (bump d)) = (withSpeed e v o).map (List.map (bump d)) := by
  unfold withSpeed
  split_ifs
  · cases v with
    | error x => rfl
    | ok v => exact hcat_bump d _ _ h
  · rfl

theorem withSpeed_rows {e : EstSettings} {v : Except Err (List (V3 K))} {o o' : List (List K)} {n : Nat} (h : ∀ r ∈ o, r.length = n)
    (ho : withSpeed e v o = .ok o') : ∀ r ∈ o', r.length = n + (if e.timeShiftEnabled then 3 else 0) := by
  unfold withSpeed at ho
  split_ifs at ho ⊢
  · cases v with
    | error x => cases ho
    | ok v => exact hcat_rows h (row_rows _) ho
  · cases ho
    exact h

theorem build_steps (e : EstSettings) (ts : List K) (p q : List (V3 K)) (r v : Option (List (V3 K))) : Obs.build e ts p q r v =
    (hcat (p.map row) (q.map row)).bind (fun o => (withRpy e r o).bind (fun o =>
      (withSpeed e (match v with
        | some v => .ok v
        | none => gradient3d p ts) o).map List.flatten)) := by
  unfold Obs.build withRpy withSpeed
  simp only [bind, pure, Except.pure]
  cases hcat (p.map row) (q.map row) with
  | error x => rfl
  | ok o =>
    simp only [Except.bind]
    by_cases h1 : e.leverarmEnabled = true
    · rw [if_pos h1, if_pos h1]
      cases r with
      | none => rfl
      | some r =>
        simp only
        cases hcat o (List.map row r) with
        | error x => rfl
        | ok o' =>
          simp only
          by_cases h2 : e.timeShiftEnabled = true
          · rw [if_pos h2, if_pos h2]
            cases v with
            | none =>
              cases gradient3d p ts with
              | error x => rfl
              | ok w => simp only; cases hcat o' (List.map row (zeroSpeed e.timeShiftFilter w)) <;> rfl
            | some w => simp only; cases hcat o' (List.map row (zeroSpeed e.timeShiftFilter w)) <;> rfl
          · rw [if_neg h2, if_neg h2]
            rfl
    · rw [if_neg h1, if_neg h1]
      simp only
      by_cases h2 : e.timeShiftEnabled = true
      · rw [if_pos h2, if_pos h2]
        cases v with
        | none =>
          cases gradient3d p ts with
          | error x => rfl
          | ok w => simp only; cases hcat o (List.map row (zeroSpeed e.timeShiftFilter w)) <;> rfl
        | some w => simp only; cases hcat o (List.map row (zeroSpeed e.timeShiftFilter w)) <;> rfl
      · rw [if_neg h2, if_neg h2]
        rfl

theorem build_off (e : EstSettings) (d : V3 K) (ts : List K) (p q : List (V3 K)) (r v : Option (List (V3 K))) :
    Obs.build e ts p (q.map (fun x => x + d)) r v = (Obs.build e ts p q r v).map (offObs e d) := by
  rw [build_steps, build_steps, hcat_from_to]
  generalize (match v with
    | some v => Except.ok v
    | none => gradient3d p ts) = w
  cases h1 : hcat (p.map row) (q.map row) with
  | error x => rfl
  | ok o1 =>
    have l1 := hcat_rows (row_rows p) (row_rows q) h1
    simp only [Except.map, Except.bind]
    rw [withRpy_bump d e r _ l1]
    cases hx : withRpy e r o1 with
    | error y => rfl
    | ok o2 =>
      have l2 := withRpy_rows l1 hx
      simp only [Except.map]
      rw [withSpeed_bump d e w _ (fun r hr => by rw [l2 r hr]; omega)]
      cases hy : withSpeed e w o2 with
      | error y => rfl
      | ok o3 =>
        have l3 := withSpeed_rows l2 hy
        simp only [Except.map]
        unfold offObs
        rw [flatten_mapIdx (fun i x => x + [0, 0, 0, d.x, d.y, d.z].getD i 0) (n := perEpoch e) (by unfold perEpoch; omega) o3 l3]
        rfl

theorem foldl_off (f : K → K → K) (hf : ∀ a b c, f (a + c) (b + c) = f a b + c) (d : V3 K) : ∀ (l : List (V3 K)) (p : V3 K),
    (l.map (fun x => x + d)).foldl (fun a b => (⟨f a.x b.x, f a.y b.y, f a.z b.z⟩ : V3 K)) (p + d) =
      l.foldl (fun a b => (⟨f a.x b.x, f a.y b.y, f a.z b.z⟩ : V3 K)) p + d
  | [], _ => rfl
  | x :: l, p => by
    simp only [List.map_cons, List.foldl_cons]
    rw [← foldl_off f hf d l]
    congr 1
    ext <;> simp [hf]

theorem thresholds_off (nrm : V3 K → K) (m t : K) (d : V3 K) (source target : List (V3 K)) :
    Adjust.thresholds nrm m t source (target.map (fun x => x + d)) = Adjust.thresholds nrm m t source target := by
  unfold Adjust.thresholds
  cases target with
  | nil => rfl
  | cons p ps =>
    simp only [List.map_cons]
    rw [foldl_off max (fun a b c => (max_add_add_right a b c)), foldl_off min (fun a b c => (min_add_add_right a b c)), add_sub_add_right_eq_sub]


/-! ### the estimation -/

theorem estimation_any (i : InitLib K) {c : AdjCfg K} (hD : MovesTogether c.D c.τ) {d : V3 K} (hd : Free c.e d)
    (h0 : points c.e c.obs .xyzFrom ≠ []) (varEst : Bool) (var : List K) :
    Both (fun E E' => E'.hasResults = E.hasResults ∧ BothSome (Translated d) E.params E'.params)
      (estimate i c varEst var) (estimate i { c with obs := offObs c.e d c.obs } varEst var) := by
  cases he : c.e.allLqDisabled with
  | false => exact C184_estimation i hD hd h0 he varEst var
  | true =>
    have hf : c.e.transX = false ∧ c.e.transY = false ∧ c.e.transZ = false := by
      have hh : c.e.helmertEnabled = false := by
        simp [EstSettings.allLqDisabled] at he
        exact he.1
      simp [EstSettings.helmertEnabled] at hh
      exact ⟨hh.1, hh.2.1, hh.2.2.1⟩
    have : d = 0 := V3.ext (hd.x hf.1) (hd.y hf.2.1) (hd.z hf.2.2)
    subst this
    rw [offObs_zero]
    unfold estimate
    simp only [he, if_true]
    cases initParameters i c.τ c.e c.obs with
    | error x => exact .error x
    | ok p =>
      refine .ok ⟨rfl, .some ⟨⟨0, [0, 0, 0, 1, 0, 0, 0, 0], ?_, ?_⟩, rfl, rfl, rfl, rfl⟩⟩
      · simp [PSet.values, AlignParams.new, alignNames, alignDefaults, Param.value]
      · simp [PSet.values, AlignParams.new, alignNames, alignDefaults, Param.value]

theorem points_ne_nil {nrm : V3 K → K} {m t : K} {source target : List (V3 K)} {ths : List (Option K)}
    (h : Adjust.thresholds nrm m t source target = .ok ths) : source ≠ [] := by
  rintro rfl
  cases h

theorem runEstimation_off {lib : MetricLib K R} (hD : MovesTogether lib.grad lib.trig) (s : AlignSettings K) {d : V3 K} (hd : Free s.est d)
    (a : AlignData K) : Both (fun E E' => E'.hasResults = E.hasResults ∧ BothSome (Translated d) E.params E'.params)
      (runEstimation lib s a) (runEstimation lib s { a with obs := offObs s.est d a.obs }) := by
  unfold runEstimation
  simp only [points_from, points_to, thresholds_off]
  cases h : Adjust.thresholds lib.mat.nrm s.metricThreshold s.timeThreshold (points s.est a.obs .xyzFrom) (points s.est a.obs .xyzTo) with
  | error x => exact .error x
  | ok ths =>
    exact estimation_any lib.init (c := ⟨lib.grad, lib.trig, lib.adj, s.est, a.obs, ths⟩) hD hd (points_ne_nil h) _ _

/-! ### aligned trajectories -/

theorem setSe3_run (L : RotLib K R) (ps : List (M4 K)) (T : Traj K R) : Traj.setSe3 L ps T =
    if ps.length = 0 then (.error .valueError, { T with pos := ps.map posePos })
    else (.ok (), { T with pos := ps.map posePos, rot := some (ps.map (fun p => L.fromMat (poseRot p))) }) := by
  unfold Traj.setSe3
  rw [SE.run_bind_ok (SE.run_modify _ _)]
  split_ifs <;> rfl

theorem se3_forms (L : RotLib K R) (T : Traj K R) : ∀ P ∈ T.se3 L, ∃ A t, P = mkPose A t := by
  intro P hP
  unfold Traj.se3 at hP
  cases hr : T.rot with
  | none =>
    rw [hr] at hP
    obtain ⟨t, -, rfl⟩ := List.mem_map.1 hP
    exact ⟨_, _, rfl⟩
  | some r =>
    rw [hr] at hP
    obtain ⟨i, hi, rfl⟩ := List.mem_iff_getElem.1 hP
    rw [List.getElem_zipWith]
    exact ⟨_, _, rfl⟩

theorem map_rot_same {A B : M4 K} (h : poseRot B = poseRot A) {ps : List (M4 K)} (hp : ∀ P ∈ ps, ∃ A t, P = mkPose A t) (L : RotLib K R) :
    (ps.map (fun p => B * p)).map (fun p => L.fromMat (poseRot p)) = (ps.map (fun p => A * p)).map (fun p => L.fromMat (poseRot p)) := by
  rw [List.map_map, List.map_map]
  refine List.map_congr_left (fun P hP => ?_)
  obtain ⟨M, t, rfl⟩ := hp P hP
  simp only [Function.comp, poseRot_mul, h]

theorem map_pos_off {A B : M4 K} {d : V3 K} (h : poseRot B = poseRot A) (hd : posePos B = posePos A + d) {ps : List (M4 K)}
    (hp : ∀ P ∈ ps, ∃ A t, P = mkPose A t) :
    (ps.map (fun p => B * p)).map posePos = ((ps.map (fun p => A * p)).map posePos).map (fun p => p + d) := by
  rw [List.map_map, List.map_map, List.map_map]
  refine List.map_congr_left (fun P hP => ?_)
  obtain ⟨M, t, rfl⟩ := hp P hP
  simp only [Function.comp, posePos_mul, h, hd, add_assoc]

theorem sim3_off (τ : Trig K) (q : Equations.Params K) (d : V3 K) : poseRot (sim3Matrix τ { q with trans := q.trans + d }) = poseRot (sim3Matrix τ q) ∧
    posePos (sim3Matrix τ { q with trans := q.trans + d }) = posePos (sim3Matrix τ q) + d := by
  unfold sim3Matrix
  simp only [poseRot_mkPose, posePos_mkPose, and_self]

theorem tail_off (L : RotLib K R) (τ : Trig K) (q : Equations.Params K) (sensor : R) (d : V3 K) (f : Traj K R → Traj K R) (T : Traj K R)
    (t t' : SE (Traj K R) Unit)
    (ht : t = (do
      SE.modify f
      Traj.applyTransformation L (sim3Matrix τ q)
      let s ← SE.get
      match s.rot with
      | some r => SE.modify (fun s => { s with rot := some (r.map (L.mul sensor)) })
      | none => pure ()))
    (ht' : t' = (do
      SE.modify f
      Traj.applyTransformation L (sim3Matrix τ { q with trans := q.trans + d })
      let s ← SE.get
      match s.rot with
      | some r => SE.modify (fun s => { s with rot := some (r.map (L.mul sensor)) })
      | none => pure ())) : OutRel (fun _ _ => Off d (t T).2 (t' T).2) (t T).1 (t' T).1 := by
  obtain ⟨s1, s2⟩ := sim3_off τ q d
  rw [ht, ht', SE.run_bind_ok (SE.run_modify _ _), SE.run_bind_ok (SE.run_modify _ _)]
  generalize f T = U
  have run : ∀ A : M4 K, Traj.applyTransformation L A U = Traj.setSe3 L ((U.se3 L).map (fun p => A * p)) U := by
    intro A
    unfold Traj.applyTransformation
    rw [SE.run_bind_ok (SE.run_get _)]
  by_cases h3 : (U.se3 L).length = 0
  · rw [SE.run_bind_error (s' := { U with pos := ((U.se3 L).map (fun p => sim3Matrix τ q * p)).map posePos }) (e := .valueError),
      SE.run_bind_error (s' := { U with pos := ((U.se3 L).map (fun p => sim3Matrix τ { q with trans := q.trans + d } * p)).map posePos })
        (e := .valueError)]
    · rfl
    · rw [run, setSe3_run, if_pos (by simpa using h3)]
    · rw [run, setSe3_run, if_pos (by simpa using h3)]
  · have e1 := run (sim3Matrix τ q)
    have e2 := run (sim3Matrix τ { q with trans := q.trans + d })
    rw [setSe3_run, if_neg (by simpa using h3)] at e1 e2
    rw [SE.run_bind_ok e1, SE.run_bind_ok e2, SE.run_bind_ok (SE.run_get _), SE.run_bind_ok (SE.run_get _)]
    simp only [SE.run_modify]
    rw [map_rot_same s1 (se3_forms L U) L, map_pos_off s1 s2 (se3_forms L U)]
    rfl

theorem body_off (L : RotLib K R) (τ : Trig K) (toEuler : R → V3 K) (q : Equations.Params K) (sensor : R) (d : V3 K) (T : Traj K R) :
    OutRel (fun _ _ => Off d (Traj.applyAlignmentBody L τ toEuler q sensor T).2
        (Traj.applyAlignmentBody L τ toEuler { q with trans := q.trans + d } sensor T).2)
      (Traj.applyAlignmentBody L τ toEuler q sensor T).1
      (Traj.applyAlignmentBody L τ toEuler { q with trans := q.trans + d } sensor T).1 := by
  unfold Traj.applyAlignmentBody
  rw [SE.run_bind_ok (SE.run_get T), SE.run_bind_ok (SE.run_get T)]
  rcases hr : T.rot with _ | r
  · dsimp only
    by_cases h1 : (List.replicate T.speed.length (0 : V3 K)).length ≠ T.speed.length
    · rw [if_pos h1, if_pos h1, SE.run_bind_error (SE.run_raise _ _), SE.run_bind_error (SE.run_raise _ _)]
      rfl
    rw [if_neg h1, if_neg h1]
    by_cases h2 : (List.zipWith (fun e v => Equations.leverTime τ e v q.time 0) (List.replicate T.speed.length (0 : V3 K)) T.speed).length ≠
        T.pos.length
    · rw [if_pos h2, if_pos h2, SE.run_bind_error (SE.run_raise _ _), SE.run_bind_error (SE.run_raise _ _)]
      rfl
    rw [if_neg h2, if_neg h2]
    exact tail_off L τ q sensor d _ T _ _ rfl rfl
  · dsimp only
    by_cases h1 : (r.map toEuler).length ≠ T.speed.length
    · rw [if_pos h1, if_pos h1, SE.run_bind_error (SE.run_raise _ _), SE.run_bind_error (SE.run_raise _ _)]
      rfl
    rw [if_neg h1, if_neg h1]
    by_cases h2 : (List.zipWith (fun e v => Equations.leverTime τ e v q.time q.lever) (r.map toEuler) T.speed).length ≠ T.pos.length
    · rw [if_pos h2, if_pos h2, SE.run_bind_error (SE.run_raise _ _), SE.run_bind_error (SE.run_raise _ _)]
      rfl
    rw [if_neg h2, if_neg h2]
    exact tail_off L τ q sensor d _ T _ _ rfl rfl

theorem paramsOf_translated {d : V3 K} {p p' : PSet K} (h : Translated d p p') :
    paramsOf p'.values = { paramsOf p.values with trans := (paramsOf p.values).trans + d } := by
  obtain ⟨t, r, h1, h2⟩ := h.values
  rw [h1, h2]
  unfold paramsOf
  congr 1

theorem Pace.applyAlignment {F : Links K R} {r : Nat} (hr : F r = some (Off 0)) (L : RotLib K R) (τ : Trig K) (toEuler : R → V3 K)
    (q : Equations.Params K) (sensor : R) (d : V3 K) :
    Pace F (fun G a b => b = a ∧ G a = some (Off d)) (H.applyAlignment L τ toEuler r q sensor false)
      (H.applyAlignment L τ toEuler r { q with trans := q.trans + d } sensor false) := by
  unfold H.applyAlignment
  simp only [Bool.false_eq_true, if_false]
  refine Pace.copyOn hr ?_
  rintro T _ rfl
  have : T.off 0 = T := by
    unfold Traj.off
    simp
  rw [this]
  exact body_off L τ toEuler q sensor d T

/-- same orientations -/
abbrev SameRot (T T' : Traj K R) : Prop := T'.rot = T.rot

theorem applyTransformation_on (L : RotLib K R) (r : Nat) (A : M4 K) (h : Heap K R) : H.applyTransformation L r A false h =
    (copyRef r >>= fun s => onRef s (Traj.applyTransformation L A) >>= fun _ => pure s : SE (Heap K R) Nat) h := by
  unfold H.applyTransformation selfOrCopy
  simp only [Bool.false_eq_true, if_false]
  cases hT : h[r]? with
  | none =>
    have : copyRef r h = (.error .attributeError, h) := by simp [copyRef, hT]
    rw [SE.run_bind_error this, SE.run_bind_error this]
  | some T =>
    have c1 : copyRef r h = (.ok h.length, h ++ [T]) := by simp [copyRef, hT]
    have c2 : rd h.length (h ++ [T]) = (.ok T, h ++ [T]) := by simp [rd]
    rw [SE.run_bind_ok c1, SE.run_bind_ok c1, SE.run_bind_ok c2]
    have c3 : onRef h.length (Traj.applyTransformation L A) (h ++ [T]) = onRef h.length (Traj.setSe3 L ((T.se3 L).map (fun p => A * p))) (h ++ [T]) := by
      simp [onRef, Traj.applyTransformation, SE.run_bind_ok (SE.run_get _)]
    rw [SE.run_bind, SE.run_bind, c3]

theorem Pace.applyTransformation {F : Links K R} {r : Nat} (hr : F r = some (Off 0)) (L : RotLib K R) {A B : M4 K} (h : poseRot B = poseRot A) :
    Pace F (fun G a b => b = a ∧ G a = some SameRot) (H.applyTransformation L r A false) (H.applyTransformation L r B false) := by
  intro s s' hs
  rw [applyTransformation_on, applyTransformation_on]
  refine Pace.copyOn hr ?_ s s' hs
  rintro T _ rfl
  have : T.off 0 = T := by
    unfold Traj.off
    simp
  rw [this]
  have run : ∀ A : M4 K, Traj.applyTransformation L A T = Traj.setSe3 L ((T.se3 L).map (fun p => A * p)) T := by
    intro A
    unfold Traj.applyTransformation
    rw [SE.run_bind_ok (SE.run_get _)]
  rw [run, run, setSe3_run, setSe3_run]
  simp only [List.length_map]
  by_cases h3 : (T.se3 L).length = 0
  · rw [if_pos h3, if_pos h3]
    rfl
  · rw [if_neg h3, if_neg h3]
    exact congrArg some (map_rot_same h (se3_forms L T) L)

/-! ### the whole alignment -/

theorem Linked.setup {lib : MetricLib K R} {F : Links K R} {f t : Nat} {d : V3 K} (hf : F f = some (Off 0)) (ht : F t = some (Off d)) (c : Nat)
    (s : AlignSettings K) (ms : MatchingSettings K) (h1 : ms.method ≠ .nearestSpatial) (h2 : ms.method ≠ .nearestSpatialInterpolated) :
    Lock (Linked F) (fun v v' => v' = (offObs s.est d v.1, v.2)) (H.setup lib c s ms f t) (H.setup lib c s ms f t) := by
  unfold H.setup
  refine Lock.bind (Linked.speedFilter _ ht _) fun _ _ _ => ?_
  refine Lock.bind (Linked.speedFilter _ hf _) fun _ _ _ => ?_
  refine Lock.bind (Linked.timeFilter s hf ht) fun _ _ _ => ?_
  refine Lock.bind (Linked.rd hf) ?_
  rintro T _ rfl
  refine Lock.bind (Linked.rd ht) ?_
  rintro U _ rfl
  simp only [show (T.off 0).pos.length = T.pos.length from List.length_map _, show (U.off d).pos.length = U.pos.length from List.length_map _]
  split
  · rintro h h' hh
    exact ⟨rfl, hh⟩
  refine Lock.bind (Linked.matchByTime lib.mat hf ht c ms h1 h2) fun _ _ _ => ?_
  refine Lock.bind (Linked.rd hf) ?_
  rintro T _ rfl
  refine Lock.bind (Linked.rd ht) ?_
  rintro U _ rfl
  refine Lock.bind (Lock.lift (OutRel.refl (pyLast T.tstamps))) fun _ _ _ => ?_
  have e0 : (T.off 0).pos = T.pos := by simp [Traj.off]
  rw [e0, show (U.off d).pos = U.pos.map (fun x => x + d) from rfl, build_off]
  refine Lock.bind (Lock.lift (OutRel.map _ (Obs.build s.est T.tstamps T.pos U.pos (T.rot.map (fun r => r.map lib.toEuler))
    (some T.speed)))) ?_
  rintro o _ rfl
  have e1 : checkLength s.est (offObs s.est d o) = (checkLength s.est o).map (offObs s.est d) := by
    unfold checkLength
    rw [offObs_length]
    split_ifs <;> rfl
  rw [e1]
  refine Lock.bind (Lock.lift (OutRel.map _ _)) ?_
  rintro o _ rfl
  have e2 : buildVar s.est s.stoch (offObs s.est d o) = buildVar s.est s.stoch o := by
    unfold buildVar numEpochs
    rw [offObs_length]
  rw [e2]
  refine Lock.bind (Lock.lift (OutRel.refl _)) ?_
  rintro v _ rfl
  refine Lock.bind (Lock.lift (OutRel.refl _)) ?_
  rintro v _ rfl
  exact Lock.pure rfl

theorem Pace.pure {α β : Type} {F : Links K R} {W : Links K R → α → β → Prop} {a : α} {b : β} (h : W F a b) :
    Pace F W (Pure.pure a : SE (Heap K R) α) (Pure.pure b : SE (Heap K R) β) := fun _ _ hq => ⟨F, fun _ _ h => h, hq, h⟩

theorem Pace.alignData {lib : MetricLib K R} {F : Links K R} {f t : Nat} {d : V3 K} (hf : F f = some (Off 0)) (ht : F t = some (Off d)) (c : Nat)
    (s : AlignSettings K) (ms : MatchingSettings K) (h1 : ms.method ≠ .nearestSpatial) (h2 : ms.method ≠ .nearestSpatialInterpolated) :
    Pace F (fun G a a' => a' = { a with obs := offObs s.est d a.obs } ∧ G a.source = some (Off 0) ∧ G a.target = some (Off d))
      (H.alignData lib c s ms f t) (H.alignData lib c s ms f t) := by
  unfold H.alignData
  refine Pace.bind (Pace.copyRef hf) ?_
  rintro G f' _ hG ⟨rfl, gf⟩
  refine Pace.bind (Pace.copyRef (hG _ _ ht)) ?_
  rintro G' t' _ hG' ⟨rfl, gt⟩
  refine Pace.bind (Pace.of_lock (Linked.setup (hG' _ _ gf) gt c s ms h1 h2)) ?_
  rintro G'' v _ hG'' rfl
  exact Pace.pure ⟨rfl, hG'' _ _ (hG' _ _ gf), hG'' _ _ gt⟩

theorem Pace.sensorRotation {lib : MetricLib K R} {F : Links K R} {d : V3 K} (s : AlignSettings K) (a : AlignData K) (obs : List K)
    (hf : F a.source = some (Off 0)) (ht : F a.target = some (Off d)) {p p' : PSet K} (hp : Translated d p p') :
    Pace F (fun _ => Eq) (H.sensorRotation lib s a p) (H.sensorRotation lib s { a with obs := obs } p') := by
  unfold H.sensorRotation
  refine Pace.bind (Pace.of_lock (Linked.rd hf)) ?_
  rintro G T _ hG rfl
  refine Pace.bind (Pace.of_lock (Linked.rd (hG _ _ ht))) ?_
  rintro G' U _ hG' rfl
  rw [show (T.off 0).rot = T.rot from rfl, show (U.off d).rot = U.rot from rfl]
  rcases T.rot with _ | rf
  · exact Pace.pure rfl
  rcases U.rot with _ | rt
  · exact Pace.pure rfl
  rcases s.est.sensorRotation
  · exact Pace.pure rfl
  rw [paramsOf_translated hp]
  refine Pace.bind (Pace.applyTransformation (hG' _ _ (hG _ _ hf)) lib.mat.rot (sim3_off lib.trig (paramsOf p.values) d).1) ?_
  rintro G'' pre _ hG'' ⟨rfl, gp⟩
  refine Pace.bind (Pace.of_lock (Linked.rd gp)) ?_
  intro G3 V V' hG3 hV
  rw [show V'.rot = V.rot from hV]
  rcases V.rot with _ | rf
  · exact Pace.of_lock Lock.raise
  refine Pace.bind (Pace.of_lock (Lock.lift (OutRel.refl _))) ?_
  rintro G4 ps _ - rfl
  exact Pace.of_lock (Lock.lift (OutRel.refl _))

theorem OutRel.of_both {α : Type} {Q : α → α → Prop} {x y : Except Err α} (h : Both Q x y) : OutRel Q x y := by
  cases h with
  | error e => rfl
  | ok h => exact h

theorem OutRel.both {α : Type} {Q : α → α → Prop} {x y : Except Err α} (h : OutRel Q x y) : Both Q x y := by
  rcases x with x | x <;> rcases y with y | y
  · cases h
    exact .error _
  · exact h.elim
  · exact h.elim
  · exact .ok h

theorem Pace.estimateAlignment {lib : MetricLib K R} (hD : MovesTogether lib.grad lib.trig) {F : Links K R} {f t : Nat} {d : V3 K}
    (hf : F f = some (Off 0)) (ht : F t = some (Off d)) (c : Nat) (s : AlignSettings K) (hd : Free s.est d) (ms : MatchingSettings K)
    (h1 : ms.method ≠ .nearestSpatial) (h2 : ms.method ≠ .nearestSpatialInterpolated) :
    Pace F (fun _ => BothSome (SameButTranslation d)) (H.estimateAlignment lib c s ms f t) (H.estimateAlignment lib c s ms f t) := by
  unfold H.estimateAlignment
  refine Pace.bind (Pace.alignData hf ht c s ms h1 h2) ?_
  rintro G a _ hG ⟨rfl, ga, gb⟩
  refine Pace.bind (Pace.of_lock (Lock.lift (OutRel.of_both (runEstimation_off hD s hd a)))) ?_
  rintro G' ⟨p, b⟩ ⟨p', b'⟩ hG' ⟨hb, hp⟩
  simp only at hb hp
  subst hb
  cases hp with
  | none => exact Pace.pure .none
  | @some p p' hp =>
    simp only
    refine Pace.bind (Pace.sensorRotation s a _ (hG' _ _ ga) (hG' _ _ gb) hp) ?_
    rintro G2 q _ hG2 rfl
    refine Pace.bind (Pace.of_lock (Linked.rd (hG2 _ _ (hG' _ _ ga)))) ?_
    rintro G3 T _ hG3 rfl
    refine Pace.bind (Pace.of_lock (Linked.rd (hG3 _ _ (hG2 _ _ (hG' _ _ gb))))) ?_
    rintro G4 U _ hG4 rfl
    exact Pace.pure (.some ⟨rfl, rfl, rfl, rfl, hp⟩)

/-! ### deviations -/

theorem bcast_map {α β γ α' β' : Type} (f : α → β → γ) (g : α' → α) (k : β' → β) (a : List α') (b : List β') :
    bcast f (a.map g) (b.map k) = bcast (fun x y => f (g x) (k y)) a b := by
  unfold bcast
  rw [List.length_map, List.length_map, List.zipWith_map]
  split_ifs
  · rfl
  · rcases a with _ | ⟨x, _ | ⟨x', a⟩⟩ <;> rcases b with _ | ⟨y, _ | ⟨y', b⟩⟩ <;> simp [List.map_map] <;> rfl

theorem nearestPoint_off (E : EvalLib K) (p a b d : V3 K) :
    nearestPoint E (p + d) (a + d) (b + d) = ((nearestPoint E p a b).1 + d, (nearestPoint E p a b).2) := by
  unfold nearestPoint
  simp only [add_sub_add_right_eq_sub]
  split_ifs
  · rfl
  · refine Prod.ext ?_ rfl
    simp only
    abel

theorem along_off (E : EvalLib K) (p a b d : V3 K) (l : Bool) : alongTrackDev E (p + d) (a + d) (b + d) l = alongTrackDev E p a b l := by
  unfold alongTrackDev
  rw [nearestPoint_off]
  simp only [add_sub_add_right_eq_sub]

theorem cross_off (E : EvalLib K) (p a b d : V3 K) : crossTrackDev E (p + d) (a + d) (b + d) = crossTrackDev E p a b := by
  unfold crossTrackDev
  rw [nearestPoint_off]
  simp only [add_sub_add_right_eq_sub, V3.add_x, V3.add_y]

theorem devNoRot_off (E : EvalLib K) (d : V3 K) (a b : List (V3 K)) (i : Nat) :
    devNoRot E (a.map (fun p => p + d)) (b.map (fun p => p + d)) i = devNoRot E a b i := by
  unfold devNoRot
  simp only [npGet_map, List.length_map]
  cases npGet a (i : Int) with
  | error x => rfl
  | ok cur =>
    simp only [Except.map, bind, Except.bind]
    by_cases hl : decide (i + 1 = b.length) = true
    · simp only [hl, if_true]
      cases npGet a ((i : Int) - 1) with
      | error x => rfl
      | ok nxt =>
        simp only
        cases npGet b (i : Int) with
        | error x => rfl
        | ok p => simp only [along_off, cross_off]
    · simp only [hl, if_false, Bool.false_eq_true]
      cases npGet a ((i : Int) + 1) with
      | error x => rfl
      | ok nxt =>
        simp only
        cases npGet b (i : Int) with
        | error x => rfl
        | ok p => simp only [along_off, cross_off]

theorem devWithRot_off (d : V3 K) : ∀ (a b : List (V3 K)) (m : List (M3 K)),
    devDirectionsWithRot (a.map (fun p => p + d)) (b.map (fun p => p + d)) m = devDirectionsWithRot a b m
  | [], b, m => by
    simp only [List.map_nil, devDirectionsWithRot, List.map_map]
    rfl
  | p :: ps, [], m => rfl
  | p :: ps, q :: qs, [] => rfl
  | p :: ps, q :: qs, m :: ms => by
    simp only [List.map_cons, devDirectionsWithRot, devWithRot_off d ps qs ms, add_sub_add_right_eq_sub]

/-- the same error, with the trajectory it belongs to from another origin -/
def AteResult.off (d : V3 K) (r : AteResult K R) : AteResult K R := { r with trajectory := r.trajectory.off d }

theorem compareAbsolute_off (E : EvalLib K) (L : RotLib K R) (d : V3 K) (o u : Traj K R) :
    compareAbsolute E L (o.off d) (u.off d) = (compareAbsolute E L o u).map (AteResult.off d) := by
  have e1 : bcast (fun a b => a - b) (u.pos.map (fun p => p + d)) (o.pos.map (fun p => p + d)) = bcast (fun a b => a - b) u.pos o.pos := by
    rw [bcast_map]
    simp only [add_sub_add_right_eq_sub]
  have e2 : ∀ r : Option (List R), directedDeviations E L (u.pos.map (fun p => p + d)) (o.pos.map (fun p => p + d)) r =
      directedDeviations E L u.pos o.pos r := by
    intro r
    unfold directedDeviations
    cases r with
    | none =>
      simp only
      unfold devDirectionsNoRot
      rw [List.length_map]
      congr 1
      funext i
      exact devNoRot_off E d u.pos o.pos i
    | some r => exact devWithRot_off d _ _ _
  unfold compareAbsolute
  simp only [show (o.off d).pos = o.pos.map (fun p => p + d) from rfl, show (u.off d).pos = u.pos.map (fun p => p + d) from rfl,
    show (o.off d).rot = o.rot from rfl, show (u.off d).rot = u.rot from rfl, show (o.off d).name = o.name from rfl,
    show (u.off d).name = u.name from rfl, e1, e2]
  cases bcast (fun a b => a - b) u.pos o.pos with
  | error x => rfl
  | ok pd =>
    simp only [bind, Except.bind]
    cases directedDeviations E L u.pos o.pos (rotEither u.rot o.rot) with
    | error x => rfl
    | ok dd =>
      simp only
      cases u.rot with
      | none => rfl
      | some r =>
        cases o.rot with
        | none => rfl
        | some t =>
          simp only
          cases bcast (fun a b => L.mul a (L.inv b)) r t <;> rfl

/-! ### for users -/

theorem linked_start {σ : Heap K R} {gt est : Nat} (hne : est ≠ gt) {T : Traj K R} (hT : σ[gt]? = some T) {U : Traj K R} (hU : σ[est]? = some U)
    (d : V3 K) : Linked (fun r => if r = gt then some (Off d) else if r = est then some (Off 0) else none) σ (σ.set gt (T.off d)) := by
  refine ⟨by simp, fun r P hP => ?_⟩
  simp only at hP
  by_cases h1 : r = gt
  · subst h1
    rw [if_pos rfl] at hP
    cases hP
    have l := (List.getElem?_eq_some_iff.1 hT).1
    exact ⟨T, _, hT, by simp [l], rfl⟩
  · rw [if_neg h1] at hP
    by_cases h2 : r = est
    · subst h2
      rw [if_pos rfl] at hP
      cases hP
      exact ⟨U, U, hU, by rw [List.getElem?_set_ne (Ne.symm h1), hU], by simp [Off, Traj.off]⟩
    · rw [if_neg h2] at hP
      cases hP

/-- **C184**, alignments: with coordinates of the reference from another origin, the estimated alignment has a translation
that is moved accordingly, and otherwise is the same; an exception is the same. -/
theorem C184_alignment {lib : MetricLib K R} (hD : MovesTogether lib.grad lib.trig) (counter : Nat) (s : AlignSettings K) {d : V3 K}
    (hd : Free s.est d) (ms : MatchingSettings K) (h1 : ms.method ≠ .nearestSpatial) (h2 : ms.method ≠ .nearestSpatialInterpolated)
    {σ : Heap K R} {est gt : Nat} (hne : est ≠ gt) {T U : Traj K R} (hT : σ[gt]? = some T) (hU : σ[est]? = some U) :
    Both (BothSome (SameButTranslation d)) (estimateAlignment lib counter s ms est gt σ).1
      (estimateAlignment lib counter s ms est gt (σ.set gt (T.off d))).1 := by
  obtain ⟨G, -, -, h⟩ := Pace.estimateAlignment hD (f := est) (t := gt) (d := d) (by rw [if_neg hne, if_pos rfl]) (if_pos rfl) counter s hd ms h1 h2 σ
    (σ.set gt (T.off d)) (linked_start hne hT hU d)
  exact h.both

/-- **C184**, the absolute error: with coordinates of the reference from another origin, the absolute error is the same (all
deviations, the name and whether orientations were used), the aligned trajectory has the new origin, and the alignment differs in
its translation only. -/
theorem C184_ate {lib : MetricLib K R} (hD : MovesTogether lib.grad lib.trig) (counter : Nat) (s : ProcSettings K) {d : V3 K}
    (hd : Free s.align.est d) (h1 : s.matching.method ≠ .nearestSpatial) (h2 : s.matching.method ≠ .nearestSpatialInterpolated)
    {σ : Heap K R} {est gt : Nat} (hne : est ≠ gt) {T U : Traj K R} (hT : σ[gt]? = some T) (hU : σ[est]? = some U) :
    Both (BothSome (fun x y => y.1 = { x.1 with trajectory := x.1.trajectory.off d } ∧ SameButTranslation d x.2 y.2))
      (ate lib counter s gt est σ).1 (ate lib counter s gt est (σ.set gt (T.off d))).1 := by
  have key : Pace (fun r => if r = gt then some (Off d) else if r = est then some (Off 0) else none)
      (fun _ => BothSome (fun x y => y.1 = { x.1 with trajectory := x.1.trajectory.off d } ∧ SameButTranslation d x.2 y.2))
      (ate lib counter s gt est) (ate lib counter s gt est) := by
    have f0 : (fun r => if r = gt then some (Off d) else if r = est then some (Off (R := R) 0) else none) est = some (Off 0) := by
      simp only [if_neg hne, if_true]
    have g0 : (fun r => if r = gt then some (Off d) else if r = est then some (Off (R := R) 0) else none) gt = some (Off d) := if_pos rfl
    unfold ate
    refine Pace.bind (Pace.of_lock (Linked.matchByTime lib.mat f0 g0 counter s.matching h1 h2)) ?_
    rintro G _ _ hG -
    refine Pace.bind (Pace.estimateAlignment hD (hG _ _ f0) (hG _ _ g0) counter s.align hd s.matching h1 h2) ?_
    intro G2 a b hG2 hab
    cases hab with
    | none => exact Pace.pure .none
    | @some a a' h =>
      have e1 : sensorOf lib a' = sensorOf lib a := by
        unfold sensorOf
        rw [h.rotation]
      simp only [e1, paramsOf_translated h.position]
      refine Pace.bind (Pace.applyAlignment (hG2 _ _ (hG _ _ f0)) lib.mat.rot lib.trig lib.toEuler (paramsOf a.position.values) (sensorOf lib a) d) ?_
      rintro G3 t _ hG3 ⟨rfl, gt3⟩
      refine Pace.bind (Pace.of_lock (Linked.rd gt3)) ?_
      rintro G4 o _ hG4 rfl
      refine Pace.bind (Pace.of_lock (Linked.rd (hG4 _ _ (hG3 _ _ (hG2 _ _ (hG _ _ g0)))))) ?_
      rintro G5 u _ hG5 rfl
      rw [compareAbsolute_off]
      refine Pace.bind (Pace.of_lock (Lock.lift (OutRel.map _ _))) ?_
      rintro G6 r _ - rfl
      exact Pace.pure (.some ⟨rfl, h⟩)
  obtain ⟨G, -, -, h⟩ := key σ (σ.set gt (T.off d)) (linked_start hne hT hU d)
  exact h.both

/-- with true derivatives and the default settings, any change of the origin is covered, for any two trajectories -/
theorem C184_exact_arithmetic (m : MatchingMethod) (hm : m = .interpolation ∨ m = .nearestTemporal) (d : V3 ℝ) (U T : Traj ℝ RotMat) :
    Both (BothSome (fun x y => y.1 = { x.1 with trajectory := x.1.trajectory.off d } ∧ SameButTranslation d x.2 y.2))
      (ate exactMetricLib 0 (exDefaults m) 1 0 [U, T]).1 (ate exactMetricLib 0 (exDefaults m) 1 0 [U, T.off d]).1 :=
  C184_ate (isGrad_movesTogether exactMetricLib_right.grad _) 0 (exDefaults m) ⟨nofun, nofun, nofun⟩
    (by rcases hm with rfl | rfl <;> nofun) (by rcases hm with rfl | rfl <;> nofun) (σ := [U, T]) (by decide) rfl rfl

/-- in metres from far away: the reference of a quarter turn and a shift by (5, 6, 7) is given with other coordinates, and the
translation is estimated with these coordinates -/
example (m : MatchingMethod) (hm : m = .interpolation ∨ m = .nearestTemporal) :
    ∃ r a, (ate exactMetricLib 0 (exDefaults m) 1 0
      [exTetra, (exTetraMoved !![0, -1, 0; 1, 0, 0; 0, 0, 1] ⟨5, 6, 7⟩).off ⟨1000, 2000, 3000⟩]).1 = .ok (some (r, a)) ∧
      r.posDev = [0, 0, 0, 0] ∧ (paramsOf a.position.values).trans = ⟨1005, 2006, 3007⟩ := by
  have hD : MovesTogether exactMetricLib.grad exactMetricLib.trig := isGrad_movesTogether exactMetricLib_right.grad _
  obtain ⟨h1, h2, h3, h4, h5⟩ := exTetra_facts !![0, -1, 0; 1, 0, 0; 0, 0, 1] ⟨5, 6, 7⟩
  obtain ⟨r, a, h', e1, e2, e3, -⟩ := C132_exact_copy_has_no_error_partial exactMetricLib_right 0 (exDefaults_plain m hm) h1 h2
    (by
      constructor
      · ext i j
        fin_cases i <;> fin_cases j <;> simp [Matrix.mul_apply, Fin.sum_univ_three]
      · simp [Matrix.det_fin_three]) one_pos h3 h4 h5
    ⟨nofun, nofun, nofun, nofun, nofun, nofun, fun _ => rfl⟩ (.inl rfl) (.inl (by simp)) (h := [_, _]) (est := 0) (gt := 1)
    rfl rfl (by decide)
  have key := C184_exact_arithmetic m hm ⟨1000, 2000, 3000⟩ exTetra (exTetraMoved !![0, -1, 0; 1, 0, 0; 0, 0, 1] ⟨5, 6, 7⟩)
  rw [show (ate exactMetricLib 0 (exDefaults m) 1 0 [exTetra, exTetraMoved !![0, -1, 0; 1, 0, 0; 0, 0, 1] ⟨5, 6, 7⟩]).1 = .ok (some (r, a)) from
    congrArg Prod.fst e1] at key
  generalize hx : (ate exactMetricLib 0 (exDefaults m) 1 0
      [exTetra, (exTetraMoved !![0, -1, 0; 1, 0, 0; 0, 0, 1] ⟨5, 6, 7⟩).off ⟨1000, 2000, 3000⟩]).1 = x at key
  cases key with
  | ok h =>
    cases h with
    | @some _ y h =>
      refine ⟨y.1, y.2, rfl, ?_, ?_⟩
      · rw [h.1]
        exact e3
      · rw [paramsOf_translated h.2.position, e2.1]
        ext <;> simp <;> norm_num

end TC
