import Verif.Props.Histories
/-!
# C197: what a trajectory keeps through every history of calls
-/
namespace TC
set_option linter.unusedSectionVars false
open H
variable {K R : Type} [Field K] [LinearOrder K]

/-! ### Specification -/

/-- the times that the interpolations among the calls ask for -/
def Asked (calls : List (Call K R)) (t : K) : Prop := ∃ ts, .interpolate ts ∈ calls ∧ t ∈ ts

/-- one of the calls is a transformation or an alignment -/
def Moving (calls : List (Call K R)) : Prop := ∃ c ∈ calls, (∃ A, c = .applyTransformation A) ∨ ∃ q s, c = .applyAlignment q s

/-- `T'` is a later state, or a copy, of `T`, if only the given calls were made.  It has the name and the coordinate system of
`T`.  It is sorted as `T`, or by arc length if `sort_spatially` was called.  It has orientations if `T` has some; if `T` has none
it has some only if there was a transformation or an alignment.  Each of its times is one of `T`, or one that an interpolation
asked for. -/
structure Descends (calls : List (Call K R)) (T T' : Traj K R) : Prop where
  name : T'.name = T.name
  epsg : T'.epsg = T.epsg
  sorting : T'.sorting = T.sorting ∨ (.sortSpatially ∈ calls ∧ T'.sorting = .arcLength)
  oriented : T.rot ≠ none → T'.rot ≠ none
  bare : T.rot = none → T'.rot = none ∨ Moving calls
  times : ∀ t ∈ T'.tstamps, t ∈ T.tstamps ∨ Asked calls t

/-! ### One call -/

theorem Descends.refl (calls : List (Call K R)) (T : Traj K R) : Descends calls T T :=
  ⟨rfl, rfl, .inl rfl, id, .inl, fun _ => .inl⟩

theorem Descends.trans {calls : List (Call K R)} {A B C : Traj K R} (h : Descends calls A B) (k : Descends calls B C) :
    Descends calls A C :=
  ⟨k.name.trans h.name, k.epsg.trans h.epsg, k.sorting.elim (fun e => e ▸ h.sorting) .inr, fun e => k.oriented (h.oriented e),
    fun e => (h.bare e).elim k.bare .inr, fun t ht => (k.times t ht).elim (h.times t) .inr⟩

theorem Descends.mono {p q : List (Call K R)} (hpq : ∀ c ∈ p, c ∈ q) {A B : Traj K R} (h : Descends p A B) : Descends q A B :=
  ⟨h.name, h.epsg, h.sorting.imp_right fun k => ⟨hpq _ k.1, k.2⟩, h.oriented,
    fun e => (h.bare e).imp_right fun ⟨c, hc, k⟩ => ⟨c, hpq c hc, k⟩,
    fun t ht => (h.times t ht).imp_right fun ⟨ts, hc, k⟩ => ⟨ts, hpq _ hc, k⟩⟩

/-- whatever happens, the state stays within `P` -/
def Stays {α : Type} (P : Traj K R → Prop) (m : SE (Traj K R) α) : Prop := ∀ T, P T → P (m T).2

section rules
variable {α β : Type} {P : Traj K R → Prop}

theorem Stays.pure (a : α) : Stays P (Pure.pure a : SE (Traj K R) α) := fun _ h => h
theorem Stays.raise (e : Err) : Stays P (SE.raise e : SE (Traj K R) α) := fun _ h => h

theorem Stays.bind {m : SE (Traj K R) α} {k : α → SE (Traj K R) β} (hm : Stays P m) (hk : ∀ a, Stays P (k a)) :
    Stays P (m >>= k) := by
  intro T hT
  have := hm T hT
  rw [SE.run_bind]
  rcases e : m T with ⟨a | a, T'⟩ <;> rw [e] at this
  · exact this
  · exact hk a T' this

theorem Stays.get {k : Traj K R → SE (Traj K R) β} (hk : ∀ s, P s → Stays P (k s)) : Stays P (SE.get >>= k) :=
  fun T hT => hk T hT T hT

theorem Stays.lift {e : Except Err α} {k : α → SE (Traj K R) β} (hk : ∀ a, e = .ok a → Stays P (k a)) :
    Stays P (SE.lift e >>= k) := by
  intro T hT
  rcases he : e with x | a
  · exact hT
  · exact hk a he T hT

theorem Stays.modify {f : Traj K R → Traj K R} (hf : ∀ T, P T → P (f T)) : Stays P (SE.modify f) := hf

end rules

theorem mem_of_maskList {α : Type} : ∀ (m : List Bool) (l : List α) (x : α), x ∈ maskList m l → x ∈ l
  | [], _, x, h => by simp [maskList] at h
  | _ :: _, [], x, h => by simp [maskList] at h
  | b :: m, y :: l, x, h => by
    cases b with
    | true =>
      rcases List.mem_cons.1 (show x ∈ y :: maskList m l from h) with rfl | h
      · exact List.mem_cons_self
      · exact List.mem_cons_of_mem _ (mem_of_maskList m l x h)
    | false => exact List.mem_cons_of_mem _ (mem_of_maskList m l x h)

theorem npIndex_sub {α : Type} {l r : List α} {i : Index} (h : npIndex l i = .ok r) : ∀ x ∈ r, x ∈ l := by
  intro x hx
  cases i with
  | ints idx =>
    obtain ⟨k, hk, rfl⟩ := List.getElem_of_mem hx
    have hl := npTake_length (show npTake l idx = .ok r from h)
    obtain ⟨j, -, hj, e⟩ := npTake_getElem? (show npTake l idx = .ok r from h) (List.getElem?_eq_getElem (hl ▸ hk))
    rw [List.getElem?_eq_getElem hk, List.getElem?_eq_getElem hj] at e
    rw [Option.some.inj e]
    exact List.getElem_mem _
  | mask m =>
    unfold npIndex npMask at h
    simp only at h
    split_ifs at h
    rw [← Except.ok.inj h] at hx
    exact mem_of_maskList _ _ _ hx

theorem cropStamps_sub {own ts r : List K} (h : Traj.cropStamps own ts = .ok r) : ∀ t ∈ r, t ∈ ts := by
  intro t ht
  by_cases h0 : 0 < own.length
  · rw [cropStamps_eq h0] at h
    rw [← Except.ok.inj h] at ht
    exact (List.mem_filter.1 ht).1
  · have : own = [] := by
      rcases own with _ | ⟨a, l⟩
      · rfl
      · simp at h0
    subst this
    rw [cropStamps_empty] at h
    split_ifs at h
    rw [← Except.ok.inj h] at ht
    simp at ht

section calls
variable {calls : List (Call K R)} {T₀ : Traj K R}

theorem stays_applyIndex (i : Index) : Stays (Descends calls T₀) (Traj.applyIndex i) := by
  unfold Traj.applyIndex
  refine Stays.get fun s hs => Stays.lift fun ts hts => Stays.bind (Stays.modify fun T hT =>
    ⟨hT.name, hT.epsg, hT.sorting, hT.oriented, hT.bare, fun t ht => hs.times t (npIndex_sub hts t ht)⟩) fun _ => ?_
  refine Stays.get fun s hs => Stays.lift fun ps _ => Stays.bind (Stays.modify fun T hT =>
    ⟨hT.name, hT.epsg, hT.sorting, hT.oriented, hT.bare, hT.times⟩) fun _ => Stays.get fun s hs => ?_
  have rest : Stays (Descends calls T₀) (do
      let s ← SE.get
      let as ← SE.lift (npIndex s.arc i)
      SE.modify (fun s => { s with arc := as })
      let s ← SE.get
      let vs ← SE.lift (npIndex s.speed i)
      SE.modify (fun s => { s with speed := vs })) :=
    Stays.get fun s hs => Stays.lift fun as _ => Stays.bind (Stays.modify fun T hT =>
      ⟨hT.name, hT.epsg, hT.sorting, hT.oriented, hT.bare, hT.times⟩) fun _ => Stays.get fun s hs => Stays.lift fun vs _ =>
        Stays.modify fun T hT => ⟨hT.name, hT.epsg, hT.sorting, hT.oriented, hT.bare, hT.times⟩
  rcases hr : s.rot with _ | r
  · exact rest
  · refine Stays.lift fun q _ => ?_
    by_cases hq : q.length = 0
    · simp only [hq, if_true]
      exact Stays.raise _
    · simp only [hq, if_false]
      exact Stays.bind (Stays.modify fun T hT => ⟨hT.name, hT.epsg, hT.sorting, fun _ => by simp, fun e => .inr ((hs.bare e).resolve_left (by rw [hr]; simp)), hT.times⟩) fun _ => rest

theorem stays_crop (a b : K) (inverse : Bool) : Stays (Descends calls T₀) (Traj.crop a b inverse) := by
  unfold Traj.crop
  exact Stays.get fun s hs => stays_applyIndex _

theorem stays_matchTimestamps (ts : List K) : Stays (Descends calls T₀) (Traj.matchTimestamps ts) := by
  unfold Traj.matchTimestamps
  exact Stays.get fun s hs => stays_applyIndex _

theorem stays_intersect (ts : List K) (g : K) : Stays (Descends calls T₀) (Traj.intersect ts g) := by
  unfold Traj.intersect
  refine Stays.get fun s hs => Stays.lift fun span _ => ?_
  rcases span with _ | ⟨a, b⟩
  · exact Stays.raise _
  · exact Stays.bind (stays_crop a b false) fun _ => Stays.get fun s hs => Stays.lift fun idx _ => stays_applyIndex _

theorem stays_interpolate (L : RotLib K R) (ts : List K) (hts : .interpolate ts ∈ calls) :
    Stays (Descends calls T₀) (Traj.interpolate L ts) := by
  unfold Traj.interpolate
  refine Stays.get fun s hs => Stays.lift fun c hc => Stays.bind ?_ fun _ => Stays.bind ?_ fun _ => ?_
  · unfold Traj.interpolatePositions
    exact Stays.get fun s hs => Stays.lift fun _ _ => Stays.lift fun _ _ => Stays.lift fun _ _ =>
      Stays.modify fun T hT => ⟨hT.name, hT.epsg, hT.sorting, hT.oriented, hT.bare, hT.times⟩
  · unfold Traj.interpolateRotations
    refine Stays.get fun s hs => ?_
    rcases hr : s.rot with _ | r
    · exact Stays.pure _
    · by_cases hc : c.length = 0
      · simp only [hc, if_true]; exact Stays.pure _
      · simp only [hc, if_false]
        exact Stays.lift fun q _ => Stays.modify fun T hT => ⟨hT.name, hT.epsg, hT.sorting, fun _ => by simp, fun e => .inr ((hs.bare e).resolve_left (by rw [hr]; simp)), hT.times⟩
  · exact Stays.get fun s hs => Stays.lift fun _ _ => Stays.bind (Stays.modify fun T hT =>
      ⟨hT.name, hT.epsg, hT.sorting, hT.oriented, hT.bare, hT.times⟩) fun _ => Stays.get fun s hs => Stays.lift fun _ _ =>
      Stays.bind (Stays.modify fun T hT => ⟨hT.name, hT.epsg, hT.sorting, hT.oriented, hT.bare, hT.times⟩) fun _ =>
      Stays.modify fun T hT => ⟨hT.name, hT.epsg, hT.sorting, hT.oriented, hT.bare, fun t ht =>
        .inr ⟨ts, hts, (List.perm_insertionSort (· ≤ ·) ts).mem_iff.1 (cropStamps_sub hc t ht)⟩⟩

theorem stays_setSe3 (hm : Moving calls) (L : RotLib K R) (ps : List (M4 K)) : Stays (Descends calls T₀) (Traj.setSe3 L ps) := by
  unfold Traj.setSe3
  refine Stays.bind (Stays.modify fun T hT => ⟨hT.name, hT.epsg, hT.sorting, hT.oriented, hT.bare, hT.times⟩) fun _ => ?_
  split_ifs
  · exact Stays.raise _
  · exact Stays.modify fun T hT => ⟨hT.name, hT.epsg, hT.sorting, fun _ => by simp, fun _ => .inr hm, hT.times⟩

theorem stays_applyTransformation (hm : Moving calls) (L : RotLib K R) (A : M4 K) : Stays (Descends calls T₀) (Traj.applyTransformation L A) := by
  unfold Traj.applyTransformation
  exact Stays.get fun s hs => stays_setSe3 hm L _

theorem stays_applyAlignment (hm : Moving calls) (L : RotLib K R) (τ : Trig K) (toEuler : R → V3 K) (q : Equations.Params K) (sensor : R) :
    Stays (Descends calls T₀) (Traj.applyAlignmentBody L τ toEuler q sensor) := by
  unfold Traj.applyAlignmentBody
  refine Stays.get fun s hs => ?_
  have key : ∀ comps : List (V3 K), Stays (Descends calls T₀) (do
        SE.modify (fun s => { s with pos := List.zipWith (fun p c => p + c) s.pos comps })
        Traj.applyTransformation L (sim3Matrix τ q)
        let s ← SE.get
        match s.rot with
        | some r => SE.modify (fun s => { s with rot := some (r.map (L.mul sensor)) })
        | none => pure () : SE (Traj K R) Unit) := by
    intro comps
    refine Stays.bind (Stays.modify fun T hT => ⟨hT.name, hT.epsg, hT.sorting, hT.oriented, hT.bare, hT.times⟩) fun _ =>
      Stays.bind (stays_applyTransformation hm L _) fun _ => Stays.get fun s hs => ?_
    rcases hr : s.rot with _ | r
    · exact Stays.pure _
    · exact Stays.modify fun T hT => ⟨hT.name, hT.epsg, hT.sorting, fun _ => by simp, fun _ => .inr hm, hT.times⟩
  simp only
  split_ifs
  · exact Stays.bind (Stays.raise _) fun _ => Stays.bind (Stays.raise _) fun _ => key _
  · exact Stays.bind (Stays.raise _) fun _ => key _
  · exact Stays.bind (Stays.raise _) fun _ => key _
  · exact key _

theorem stays_sortSpatially (hs : .sortSpatially ∈ calls) (argsortN : List Nat → List Nat) (sortMls : List (V3 K) → Except Err (List Nat × List K)) :
    Stays (Descends calls T₀) (Traj.sortSpatially argsortN sortMls) := by
  unfold Traj.sortSpatially
  refine Stays.get fun s _ => Stays.lift fun x _ => ?_
  exact Stays.bind (stays_applyIndex _) fun _ => Stays.lift fun _ _ => Stays.bind (Stays.modify fun T hT =>
    ⟨hT.name, hT.epsg, hT.sorting, hT.oriented, hT.bare, hT.times⟩) fun _ =>
    Stays.modify fun T hT => ⟨hT.name, hT.epsg, .inr ⟨hs, rfl⟩, hT.oriented, hT.bare, hT.times⟩

theorem stays_approximate (argsort : List K → List Nat) (argsortN : List Nat → List Nat)
    (cubic : List K → List (V3 K) → Except Err (List (V3 K))) (rotAvg : List K → List R → Except Err (List R)) :
    Stays (Descends calls T₀) (Traj.approximate argsort argsortN cubic rotAvg) := by
  unfold Traj.approximate
  refine Stays.get fun s hs => Stays.lift fun _ _ => Stays.lift fun _ _ => Stays.lift fun _ _ => Stays.lift fun _ _ =>
    Stays.bind (Stays.modify fun T hT => ⟨hT.name, hT.epsg, hT.sorting, hT.oriented, hT.bare, hT.times⟩) fun _ => Stays.get fun s hs => ?_
  rcases hr : s.rot with _ | r
  · exact Stays.pure _
  · by_cases hl : r.length = 0
    · simp only [hl, if_true]; exact Stays.pure _
    · simp only [hl, if_false]
      exact Stays.lift fun _ _ => Stays.lift fun _ _ => Stays.lift fun _ _ => Stays.lift fun _ _ =>
        Stays.modify fun T hT => ⟨hT.name, hT.epsg, hT.sorting, fun _ => by simp, fun e => .inr ((hs.bare e).resolve_left (by rw [hr]; simp)), hT.times⟩

theorem stays_adoptFirstPosition (U : Traj K R) : Stays (Descends calls T₀) (Traj.adoptFirstPosition U) := by
  unfold Traj.adoptFirstPosition
  exact Stays.get fun s hs => Stays.lift fun _ _ => Stays.lift fun _ _ =>
    Stays.modify fun T hT => ⟨hT.name, hT.epsg, hT.sorting, hT.oriented, hT.bare, hT.times⟩

theorem stays_adoptFirstOrientation (f : R → V3 K) (g : V3 K → R) (U : Traj K R) :
    Stays (Descends calls T₀) (Traj.adoptFirstOrientation f g U) := by
  unfold Traj.adoptFirstOrientation
  refine Stays.get fun s hs => ?_
  rcases hr : s.rot with _ | r
  · exact Stays.pure _
  · exact Stays.lift fun _ _ => Stays.lift fun _ _ =>
      Stays.modify fun T hT => ⟨hT.name, hT.epsg, hT.sorting, fun _ => by simp, fun e => .inr ((hs.bare e).resolve_left (by rw [hr]; simp)), hT.times⟩

theorem stays_adoptFirstPose (f : R → V3 K) (g : V3 K → R) (U : Traj K R) :
    Stays (Descends calls T₀) (Traj.adoptFirstPose f g U) := by
  unfold Traj.adoptFirstPose
  exact Stays.get fun s hs => Stays.bind (stays_adoptFirstPosition _) fun _ => Stays.get fun s hs => stays_adoptFirstOrientation _ _ _

theorem stays_body (lib : Lib K R) (c : Call K R) (hc : c ∈ calls) :
    Stays (Descends calls T₀) (bodyOf lib c) := by
  cases c with
  | applyIndex i => exact stays_applyIndex i
  | crop a b i => exact stays_crop a b i
  | interpolate ts => exact stays_interpolate lib.rot ts hc
  | matchTimestamps ts => exact stays_matchTimestamps ts
  | intersect ts g => exact stays_intersect ts g
  | applyTransformation A => exact stays_applyTransformation ⟨_, hc, .inl ⟨A, rfl⟩⟩ lib.rot A
  | applyAlignment q s => exact stays_applyAlignment ⟨_, hc, .inr ⟨q, s, rfl⟩⟩ _ _ _ q s
  | sortSpatially => exact stays_sortSpatially hc _ _
  | approximate => exact stays_approximate _ _ _ _
  | adoptFirstPosition t => exact fun T hT => stays_adoptFirstPosition T T hT
  | adoptFirstOrientation t => exact fun T hT => stays_adoptFirstOrientation _ _ T T hT
  | adoptFirstPose t => exact fun T hT => stays_adoptFirstPose _ _ T T hT

theorem run_missing (lib : Lib K R) (c : Call K R) (h : Heap K R) (r : Nat) (hr : h[r]? = none) (inplace : Bool) :
    (H.run lib c r inplace h).2 = h := by
  have h1 : selfOrCopy true r h = (.ok r, h) := rfl
  have h2 : selfOrCopy false r h = (.error .attributeError, h) := by simp [selfOrCopy, copyRef, hr]
  have h2' : copyRef r h = (.error .attributeError, h) := by simp [copyRef, hr]
  have h3 : rd r h = (.error .attributeError, h) := by simp [rd, hr]
  have h4 : ∀ b : SE (Traj K R) Unit, onRef r b h = (.error .attributeError, h) := fun b => by simp [onRef, hr]
  cases c <;> cases inplace <;>
    simp [H.run, H.applyIndex, H.crop, H.interpolate, H.matchTimestamps, H.intersect, H.applyTransformation, H.applyAlignment,
      H.sortSpatially, H.approximate, H.adoptFirstPosition, H.adoptFirstOrientation, H.adoptFirstPose, SE.run_bind, h1, h2, h2', h3, h4,
      SE.run_raise]

theorem run_descends (lib : Lib K R) (c : Call K R) (hc : c ∈ calls)
    {h : Heap K R} {r : Nat} {T : Traj K R} (hr : h[r]? = some T) (inplace : Bool) :
    ∃ T', Descends calls T T' ∧ ((H.run lib c r inplace h).2 = h ∨ (H.run lib c r inplace h).2 = h.set r T'
      ∨ (H.run lib c r inplace h).2 = h ++ [T']) := by
  have hd : Descends calls T (bodyOf lib c T).2 := stays_body lib c hc T (Descends.refl _ _)
  refine ⟨_, hd, ?_⟩
  cases inplace with
  | true =>
    by_cases ha : ∃ q s, c = .applyAlignment q s
    · obtain ⟨q, s, rfl⟩ := ha
      exact .inl rfl
    · right; left
      rw [run_inplace lib c (fun q s e => ha ⟨q, s, e⟩) r h T hr]
  | false =>
    rcases run_copy lib c h r T hr with e | ⟨e, -, e'⟩
    · exact .inr (.inr (by rw [e]))
    · exact .inl (by rw [e'])

end calls

/-! ### Every history -/

/-- **C197**, first part.  After any history of calls, in place or on copies, whether they return or raise, every object that
was there at the beginning is still there, with its name and its coordinate system, sorted as it was or by arc length, with
orientations if it had some, and with times that it had or that an interpolation asked for. -/
theorem C197_objects (lib : Lib K R) : ∀ (ss : List (Step K R)) (h : Heap K R) (i : Nat) (T : Traj K R), h[i]? = some T →
    ∃ T', (runAll lib h ss)[i]? = some T' ∧ Descends (ss.map Step.call) T T' := by
  intro ss
  induction ss with
  | nil => exact fun h i T hi => ⟨T, hi, Descends.refl _ _⟩
  | cons s ss ih =>
    intro h i T hi
    have hm : ∀ c ∈ ss.map Step.call, c ∈ (s :: ss).map Step.call := fun c hc => List.mem_cons_of_mem _ hc
    have step : ∃ T', (H.run lib s.call s.ref s.inplace h).2[i]? = some T' ∧ Descends ((s :: ss).map Step.call) T T' := by
      rcases hr : h[s.ref]? with _ | S
      · rw [run_missing lib s.call h s.ref hr]
        exact ⟨T, hi, Descends.refl _ _⟩
      · obtain ⟨S', hS, e | e | e⟩ := run_descends (calls := (s :: ss).map Step.call) lib s.call
          List.mem_cons_self hr s.inplace
        · rw [e]; exact ⟨T, hi, Descends.refl _ _⟩
        · rw [e]
          by_cases hsi : s.ref = i
          · subst hsi
            obtain rfl : S = T := Option.some.inj (hr.symm.trans hi)
            exact ⟨S', by rw [List.getElem?_set_self (List.getElem?_eq_some_iff.1 hr).1], hS⟩
          · exact ⟨T, by rw [List.getElem?_set_ne hsi]; exact hi, Descends.refl _ _⟩
        · rw [e]
          exact ⟨T, by rw [List.getElem?_append_left (List.getElem?_eq_some_iff.1 hi).1]; exact hi, Descends.refl _ _⟩
    obtain ⟨T₁, h₁, d₁⟩ := step
    obtain ⟨T', h', d'⟩ := ih _ i T₁ h₁
    exact ⟨T', h', d₁.trans (d'.mono hm)⟩

/-- **C197**, second part.  Every object after the history comes from one that was there at the beginning. -/
theorem C197_origin (lib : Lib K R) : ∀ (ss : List (Step K R)) (h : Heap K R) (i : Nat) (T' : Traj K R),
    (runAll lib h ss)[i]? = some T' → ∃ T ∈ h, Descends (ss.map Step.call) T T' := by
  intro ss
  induction ss with
  | nil => exact fun h i T hi => ⟨T, List.mem_of_getElem? hi, Descends.refl _ _⟩
  | cons s ss ih =>
    intro h i T' hi
    have hm : ∀ c ∈ ss.map Step.call, c ∈ (s :: ss).map Step.call := fun c hc => List.mem_cons_of_mem _ hc
    obtain ⟨T₁, h₁, d₁⟩ := ih _ i T' hi
    rcases hr : h[s.ref]? with _ | S
    · rw [run_missing lib s.call h s.ref hr] at h₁
      exact ⟨T₁, h₁, d₁.mono hm⟩
    · obtain ⟨S', hS, e | e | e⟩ := run_descends (calls := (s :: ss).map Step.call) lib s.call
        List.mem_cons_self hr s.inplace
      · rw [e] at h₁; exact ⟨T₁, h₁, d₁.mono hm⟩
      · rw [e] at h₁
        rcases List.mem_or_eq_of_mem_set h₁ with h₁ | rfl
        · exact ⟨T₁, h₁, d₁.mono hm⟩
        · exact ⟨S, List.mem_of_getElem? hr, hS.trans (d₁.mono hm)⟩
      · rw [e] at h₁
        rcases List.mem_append.1 h₁ with h₁ | h₁
        · exact ⟨T₁, h₁, d₁.mono hm⟩
        · rw [List.mem_singleton.1 h₁] at d₁
          exact ⟨S, List.mem_of_getElem? hr, hS.trans (d₁.mono hm)⟩

/-! ### A history of five calls, one of which raises -/

example : (runAll exH [exT] exSteps).map (fun T => (T.name, T.sorting)) = [(exT.name, .time), (exT.name, .time), (exT.name, .time)] := by
  decide +kernel

example : ∃ T', (runAll exH [exT] exSteps)[0]? = some T' ∧ Descends (exSteps.map Step.call) exT T' :=
  C197_objects exH exSteps [exT] 0 exT rfl

example : ¬ (.sortSpatially ∈ exSteps.map Step.call) := by simp [exSteps]

/-- the times of the second object are those asked for -/
example : (runAll exH [exT] exSteps)[1]?.map (fun T => T.tstamps) = some [1/2, 3/2] ∧ ¬ ((1/2 : ℚ) ∈ exT.tstamps) := by
  decide +kernel

end TC
