import Verif.Props.Construct
import Verif.Props.Views
import Verif.Props.Intersect
import Verif.Props.ApplyAlign
/-!
# C04: the channels of all trajectory objects stay in step, over every history of calls
-/
namespace TC
set_option linter.unusedSectionVars false
open H
variable {K R : Type} [Field K] [LinearOrder K]

/-! ### Specification: histories -/

/-- one method call: which method with which arguments, on which object, in place or on a copy -/
structure Step (K R : Type) where
  call : Call K R
  ref : Nat
  inplace : Bool

/-- All objects after a history of calls; an exception is caught and the history goes on. -/
def runAll (lib : Lib K R) (h : Heap K R) : List (Step K R) → Heap K R
  | [] => h
  | s :: ss => runAll lib (H.run lib s.call s.ref s.inplace h).2 ss

/-- What is assumed about the library routines: the two argsorts sort, the smoothing routines return
as many values as they get, and `sort_mls` returns row numbers of its input with one arc length
for each. -/
structure LibOk (lib : Lib K R) : Prop where
  argsort : IsArgsort lib.argsort
  argsortN : IsArgsort lib.argsortN
  cubic : ∀ f x y, lib.cubic f x = .ok y → y.length = x.length
  rotAvg : ∀ f q p, lib.rotAvg f q = .ok p → p.length = q.length
  sortMls : ∀ p idx arcs, lib.sortMls p = .ok (idx, arcs) →
    arcs.length = idx.length ∧ ∀ i ∈ idx, i < p.length

/-- The calls of a history that the theorem covers.  The called object exists; a call on a trajectory
with orientations does not raise `ValueError`, except that of `intersect` without common time
span; and an interpolation asks for at least one time within the range of the trajectory. -/
def Covers (lib : Lib K R) (h : Heap K R) (s : Step K R) : Prop :=
  ∃ T, h[s.ref]? = some T ∧
    ((H.run lib s.call s.ref s.inplace h).1 = .error .valueError → T.rot = none ∨
      ∃ ts g, s.call = .intersect ts g ∧ ¬ Overlap ts T.tstamps) ∧
    (∀ ts, s.call = .interpolate ts → T.tstamps = [] ∨
      ∃ t ∈ ts, ∃ a b, T.tstamps.head? = some a ∧ T.tstamps.getLast? = some b ∧ a ≤ t ∧ t ≤ b)

/-- every call of the history is covered -/
def CoversAll (lib : Lib K R) (h : Heap K R) : List (Step K R) → Prop
  | [] => True
  | s :: ss => Covers lib h s ∧ CoversAll lib (H.run lib s.call s.ref s.inplace h).2 ss

/-! ### One call on one object -/

/-- the outcome of a call: the channels are in step afterwards, or `ValueError` was raised on a
trajectory with orientations -/
def StepOk (m : SE (Traj K R) Unit) (T : Traj K R) : Prop :=
  Coherent (m T).2 ∨ ((m T).1 = .error .valueError ∧ T.rot.isSome = true)

theorem stepOk_applyIndex {index : Index} {T : Traj K R} (h : Coherent T) :
    StepOk (Traj.applyIndex index) T := by
  unfold StepOk
  rw [applyIndex_eq' h]
  split_ifs with h1 h2
  · exact Or.inr ⟨rfl, h2.1⟩
  · exact Or.inl (pickTraj_coherent h)
  · exact Or.inl h

theorem applyIndex_rot {index : Index} {T T' : Traj K R} (h : Coherent T)
    (hr : Traj.applyIndex index T = (.ok (), T')) : T' = pickTraj index T := by
  rw [applyIndex_eq' h] at hr
  split_ifs at hr
  · simp at hr
  · exact ((Prod.mk.inj hr).2).symm
  · simp at hr

theorem stepOk_bind {α : Type} {m : SE (Traj K R) α} {f : α → SE (Traj K R) Unit} {T : Traj K R}
    (h1 : Coherent (m T).2 ∨ ((m T).1 = .error .valueError ∧ T.rot.isSome = true))
    (h2 : ∀ a T', m T = (.ok a, T') → Coherent T' →
      StepOk (f a) T' ∧ T'.rot.isSome = T.rot.isSome) : StepOk (m >>= f) T := by
  unfold StepOk
  rcases hm : m T with ⟨e | a, T'⟩
  · rw [SE.run_bind_error hm]
    rw [hm] at h1
    rcases h1 with h1 | ⟨h1, h1'⟩
    · exact Or.inl h1
    · exact Or.inr ⟨by simpa using h1, h1'⟩
  · rw [SE.run_bind_ok hm]
    rw [hm] at h1
    rcases h1 with h1 | ⟨h1, _⟩
    · obtain ⟨h3, h4⟩ := h2 a T' hm h1
      unfold StepOk at h3
      rwa [h4] at h3
    · simp at h1

theorem stepOk_get {f : Traj K R → SE (Traj K R) Unit} {T : Traj K R} (h : StepOk (f T) T) :
    StepOk (SE.get >>= f) T := by
  unfold StepOk at *
  rwa [SE.run_bind_ok (SE.run_get T)]

theorem stepOk_lift {α : Type} {e : Except Err α} {f : α → SE (Traj K R) Unit} {T : Traj K R}
    (hT : Coherent T) (h : ∀ a, e = .ok a → StepOk (f a) T) : StepOk (SE.lift e >>= f) T := by
  refine stepOk_bind (Or.inl (by rw [SE.run_lift]; exact hT)) ?_
  intro a T' hm hc
  rw [SE.run_lift] at hm
  have h1 := Prod.mk.inj hm
  rw [← h1.2]
  exact ⟨h a h1.1, rfl⟩

theorem stepOk_modify {g : Traj K R → Traj K R} {T : Traj K R} (h : Coherent (g T)) :
    StepOk (SE.modify g) T := by
  unfold StepOk
  rw [SE.run_modify]
  exact Or.inl h

theorem stepOk_pure {T : Traj K R} (h : Coherent T) : StepOk (pure ()) T := Or.inl h

theorem stepOk_crop {a b : K} {inv : Bool} {T : Traj K R} (h : Coherent T) :
    StepOk (Traj.crop a b inv) T := by
  unfold Traj.crop
  exact stepOk_get (stepOk_applyIndex h)

theorem crop_rot {a b : K} {inv : Bool} {T T' : Traj K R} (h : Coherent T)
    (hr : Traj.crop a b inv T = (.ok (), T')) : T'.rot.isSome = T.rot.isSome := by
  unfold Traj.crop at hr
  rw [SE.run_bind_ok (SE.run_get T)] at hr
  rw [applyIndex_rot h hr]
  exact (pickTraj_sameMeta _ T).rot

theorem stepOk_intersect {ts : List K} {g : K} {T : Traj K R} (h : Coherent T) :
    StepOk (Traj.intersect ts g) T := by
  unfold Traj.intersect
  refine stepOk_get (stepOk_lift h ?_)
  rintro (_ | ⟨t0, t1⟩) _
  · exact Or.inl h
  · refine stepOk_bind (stepOk_crop h) ?_
    intro _ T' hm hc
    exact ⟨stepOk_get (stepOk_lift hc (fun idx _ => stepOk_applyIndex hc)), crop_rot h hm⟩

theorem stepOk_transform {L : RotLib K R} {A : M4 K} {T : Traj K R} (h : Coherent T) :
    StepOk (Traj.applyTransformation L A) T := by
  by_cases hne : T.tstamps = []
  · left
    have hp : T.pos = [] := List.length_eq_zero_iff.1 (by rw [h.pos, hne]; rfl)
    have hs : T.se3 L = [] := by
      unfold Traj.se3
      cases T.rot <;> simp [hp]
    have : (Traj.applyTransformation L A T).2 = { T with pos := [] } := by
      unfold Traj.applyTransformation Traj.setSe3
      rw [SE.run_bind_ok (SE.run_get T), hs]
      rfl
    rw [this]
    exact ⟨by simp [hne], h.arc, h.speed, h.rot⟩
  · left
    rw [applyTransformation_eq L h hne]
    refine ⟨by simp [h.pos], h.arc, h.speed, ?_⟩
    intro r hr
    simp only [Option.some.injEq] at hr
    rw [← hr, List.length_map]
    rcases hq : T.rot with _ | q
    · simp [rotOr, h.pos]
    · simp [rotOr, h.rot q hq]

theorem stepOk_align {L : RotLib K R} {τ : Trig K} {toEuler : R → V3 K} {q : Equations.Params K}
    {sensor : R} {T : Traj K R} (h : Coherent T) :
    StepOk (Traj.applyAlignmentBody L τ toEuler q sensor) T := by
  have he : ∀ r, T.rot = some r → (r.map toEuler).length = T.speed.length := fun r hr => by
    rw [List.length_map, h.rot r hr, h.speed]
  unfold Traj.applyAlignmentBody
  apply stepOk_get
  have key : ∀ comps : List (V3 K), comps.length = T.pos.length →
      StepOk (do
        SE.modify (fun s => { s with pos := List.zipWith (fun p c => p + c) s.pos comps })
        Traj.applyTransformation L (sim3Matrix τ q)
        let s ← SE.get
        match s.rot with
        | some r => SE.modify (fun s => { s with rot := some (r.map (L.mul sensor)) })
        | none => pure () : SE (Traj K R) Unit) T := by
    intro comps hc
    have h1 : Coherent ({ T with pos := List.zipWith (fun p c => p + c) T.pos comps } : Traj K R) :=
      ⟨by simp [hc, h.pos], h.arc, h.speed, h.rot⟩
    unfold StepOk
    rw [SE.run_bind_ok (SE.run_modify _ _)]
    generalize ({ T with pos := List.zipWith (fun p c => p + c) T.pos comps } : Traj K R) = S at h1
    left
    have h2 : Coherent (Traj.applyTransformation L (sim3Matrix τ q) S).2 := by
      rcases stepOk_transform (L := L) (A := sim3Matrix τ q) h1 with h2 | h2
      · exact h2
      · by_cases hne : S.tstamps = []
        · have hp : S.pos = [] := List.length_eq_zero_iff.1 (by rw [h1.pos, hne]; rfl)
          have hs : S.se3 L = [] := by
            unfold Traj.se3
            cases S.rot <;> simp [hp]
          have : (Traj.applyTransformation L (sim3Matrix τ q) S).2 = { S with pos := [] } := by
            unfold Traj.applyTransformation Traj.setSe3
            rw [SE.run_bind_ok (SE.run_get S), hs]
            rfl
          rw [this]
          exact ⟨by simp [hne], h1.arc, h1.speed, h1.rot⟩
        · rw [applyTransformation_eq L h1 hne] at h2
          simp at h2
    rcases hm : Traj.applyTransformation L (sim3Matrix τ q) S with ⟨e | a, S'⟩
    · rw [SE.run_bind_error hm]
      rw [hm] at h2
      exact h2
    · rw [SE.run_bind_ok hm, SE.run_bind_ok (SE.run_get S')]
      rw [hm] at h2
      rcases hr : S'.rot with _ | r
      · exact h2
      · refine ⟨h2.pos, h2.arc, h2.speed, ?_⟩
        intro r' hr'
        simp only [SE.run_modify, Option.some.injEq] at hr'
        rw [← hr']
        simpa using h2.rot r hr
  have hl1 : ∀ eulers : List (V3 K), eulers.length = T.speed.length → ∀ lever : V3 K,
      (List.zipWith (fun e v => Equations.leverTime τ e v q.time lever) eulers T.speed).length
        = T.pos.length := by
    intro eulers h1 lever
    rw [List.length_zipWith, h1, Nat.min_self, h.speed, h.pos]
  rcases hr : T.rot with _ | r
  · simp only
    rw [if_neg (by simp), if_neg (by rw [hl1 _ (by simp)]; simp)]
    exact key _ (hl1 _ (by simp) _)
  · simp only
    rw [if_neg (by rw [he r hr]; simp), if_neg (by rw [hl1 _ (he r hr)]; simp)]
    exact key _ (hl1 _ (he r hr) _)

theorem stepOk_sort {lib : Lib K R} (hlib : LibOk lib) {T : Traj K R} (h : Coherent T) :
    StepOk (Traj.sortSpatially lib.argsortN lib.sortMls) T := by
  rcases hm : lib.sortMls T.pos with e | ⟨idx, arcs⟩
  · left
    unfold Traj.sortSpatially
    rw [SE.run_bind_ok (SE.run_get T), SE.run_bind_error (e := e) (s' := T) (by rw [SE.run_lift, hm])]
    exact h
  · obtain ⟨hl, hr⟩ := hlib.sortMls _ _ _ hm
    have hr' : InRange T.tstamps.length idx := by
      intro i hi; rw [← h.pos]; exact hr i hi
    have hrs : InRange T.tstamps.length (npSort idx) := fun i hi => hr' i (mem_npSort.1 hi)
    by_cases hne : T.rot = none ∨ idx ≠ []
    · left
      rw [sortSpatially_eq hlib.argsortN h hm hl hr' hne]
      have ha : InRange arcs.length (lib.argsortN idx) := by rw [hl]; exact (hlib.argsortN idx).inRange
      refine ⟨?_, ?_, ?_, ?_⟩
      · simp only [sel_length (l := T.pos) (by rw [h.pos]; exact hrs), sel_length hrs]
      · simp only [sel_length ha, sel_length hrs, (hlib.argsortN idx).length, npSort_length]
      · simp only [sel_length (l := T.speed) (by rw [h.speed]; exact hrs), sel_length hrs]
      · intro r hrr
        simp only [Option.map_eq_some_iff] at hrr
        obtain ⟨r', h1, rfl⟩ := hrr
        simp only [sel_length (l := r') (by rw [h.rot _ h1]; exact hrs), sel_length hrs]
    · rw [not_or, not_not] at hne
      obtain ⟨h1, rfl⟩ := hne
      right
      refine ⟨?_, Option.isSome_iff_ne_none.2 h1⟩
      unfold Traj.sortSpatially
      rw [SE.run_bind_ok (SE.run_get T), SE.run_bind_ok (a := (([] : List Nat), arcs)) (s' := T) (by rw [SE.run_lift, hm])]
      have he : Traj.applyIndex (.ints ((npSort ([] : List Nat)).map (fun i : Nat => (i : Int)))) T =
          (.error .valueError, { T with tstamps := [], pos := [] }) := by
        rw [applyIndex_eq' h, if_pos (by simp [npSort, IndexValid]), if_pos]
        exact ⟨Option.isSome_iff_ne_none.2 h1, by simp [npSort, pick]⟩
      simp only
      rw [SE.run_bind_error he]

theorem interpDone_coherent {T : Traj K R} {c : List K} (hc : c ≠ []) {q : Option (List R)}
    (hq : ∀ r, q = some r → r.length = c.length) : Coherent (interpDone T c q) := by
  have h0 := List.length_pos_of_ne_nil hc
  refine ⟨by simp [interpDone, interpPos], by simp [interpDone], ?_, hq⟩
  simp [interpDone, interpPos, diffs_length]
  omega

theorem stepOk_interpolate {L : RotLib K R} {ts : List K} {T : Traj K R} (h : Coherent T)
    (hg : T.tstamps = [] ∨ ∃ t ∈ ts, ∃ a b, T.tstamps.head? = some a ∧
      T.tstamps.getLast? = some b ∧ a ≤ t ∧ t ≤ b) : StepOk (Traj.interpolate L ts) T := by
  rcases hg with hg | ⟨t, ht, a, b, ha, hb, h1, h2⟩
  · left
    unfold Traj.interpolate
    rw [SE.run_bind_ok (SE.run_get T)]
    by_cases hts : npSort ts = []
    · rw [SE.run_bind_ok (a := []) (s' := T) (by rw [SE.run_lift, hg, cropStamps_empty, if_pos hts])]
      have : Traj.interpolatePositions ([] : List K) T = (.error .valueError, T) := by
        have hp : T.pos = [] := List.length_eq_zero_iff.1 (by rw [h.pos, hg]; rfl)
        unfold Traj.interpolatePositions
        rw [SE.run_bind_ok (SE.run_get T), SE.run_bind_error (e := .valueError) (s' := T)]
        rw [SE.run_lift, hg]
        simp [npInterp]
      rw [SE.run_bind_error this]
      exact h
    · rw [SE.run_bind_error (e := .indexError) (s' := T)
        (by rw [SE.run_lift, hg, cropStamps_empty, if_neg hts])]
      exact h
  · have h0 : 0 < T.tstamps.length := by
      rcases hT : T.tstamps with _ | ⟨c, l⟩
      · rw [hT] at ha; simp at ha
      · simp
    have ha' : T.tstamps[0] = a := by
      rw [List.head?_eq_getElem?, List.getElem?_eq_getElem h0] at ha
      exact Option.some.inj ha
    have hb' : T.tstamps[T.tstamps.length - 1] = b := by
      rw [List.getLast?_eq_getElem?, List.getElem?_eq_getElem (by omega)] at hb
      exact Option.some.inj hb
    have hne : cropReq T.tstamps h0 ts ≠ [] := by
      intro hc
      have : t ∈ cropReq T.tstamps h0 ts := by
        unfold cropReq
        rw [List.mem_filter, mem_npSort, ha', hb']
        exact ⟨ht, by simp [h1, h2]⟩
      rw [hc] at this
      simp at this
    rcases hr : T.rot with _ | r
    · left
      rw [interpolate_eq_noRot L h h0 ts hr]
      exact interpDone_coherent hne (by simp)
    · by_cases hs : 2 ≤ T.tstamps.length ∧ StrictAsc T.tstamps
      · obtain ⟨q, _, hq, he⟩ := interpolate_eq_rot L h hs.1 hs.2 ts hr hne
        left
        rw [he]
        exact interpDone_coherent hne (by rintro _ ⟨⟩; exact hq)
      · right
        have hl := h.rot r hr
        have hsl : Traj.slerpCall L T.tstamps r (cropReq T.tstamps h0 ts) = .error .valueError := by
          unfold Traj.slerpCall
          by_cases h2 : r.length < 2
          · simp [h2, bind, Except.bind, throw, throwThe, MonadExceptOf.throw]
          · have h3 : ¬ StrictAsc T.tstamps := fun h3 => hs ⟨by omega, h3⟩
            simp [hl, h3, bind, Except.bind, throw, throwThe, MonadExceptOf.throw]
        have hlen : ¬ (cropReq T.tstamps h0 ts).length = 0 := by simpa using hne
        rw [interpolate_error_of_rot (e := .valueError)
          (T' := { T with pos := interpPos T (cropReq T.tstamps h0 ts) }) L h h0 ts]
        · exact ⟨rfl, by simp [hr]⟩
        · simp only [Traj.interpolateRotations, SE.run_bind, SE.run_get, hr, hlen, if_false,
            SE.run_lift, hsl]

theorem stepOk_adoptPosition {T U : Traj K R} (h : Coherent T) :
    StepOk (Traj.adoptFirstPosition U) T := by
  unfold Traj.adoptFirstPosition
  refine stepOk_get (stepOk_lift h (fun a _ => stepOk_lift h (fun b _ => stepOk_modify ?_)))
  exact ⟨by simp [h.pos], h.arc, h.speed, h.rot⟩

theorem stepOk_adoptOrientation {toEuler : R → V3 K} {fromEuler : V3 K → R} {T U : Traj K R}
    (h : Coherent T) : StepOk (Traj.adoptFirstOrientation toEuler fromEuler U) T := by
  unfold Traj.adoptFirstOrientation
  apply stepOk_get
  rcases hr : T.rot with _ | r
  · exact stepOk_pure h
  · refine stepOk_lift h (fun a _ => stepOk_lift h (fun b _ => stepOk_modify ?_))
    refine ⟨h.pos, h.arc, h.speed, ?_⟩
    intro r' hr'
    simp only [Option.some.injEq] at hr'
    rw [← hr']
    simpa using h.rot r hr

theorem stepOk_adoptPose {toEuler : R → V3 K} {fromEuler : V3 K → R} {T U : Traj K R}
    (h : Coherent T) : StepOk (Traj.adoptFirstPose toEuler fromEuler U) T := by
  unfold Traj.adoptFirstPose
  refine stepOk_get (stepOk_bind (stepOk_adoptPosition h) ?_)
  intro _ T' hm hc
  refine ⟨stepOk_get (stepOk_adoptOrientation hc), ?_⟩
  unfold Traj.adoptFirstPosition at hm
  rw [SE.run_bind_ok (SE.run_get T)] at hm
  rcases hg : npGet T.pos 0 with e | p
  · rw [SE.run_bind_error (e := e) (s' := T) (by rw [SE.run_lift, hg])] at hm
    simp at hm
  · rw [SE.run_bind_ok (a := p) (s' := T) (by rw [SE.run_lift, hg]),
      SE.run_bind_ok (a := p) (s' := T) (by rw [SE.run_lift, hg]), SE.run_modify] at hm
    rw [← (Prod.mk.inj hm).2]

theorem take_ok_length {α : Type} {l r : List α} {p : List Nat} (h : Traj.take l p = .ok r) :
    r.length = p.length := by
  have := npTake_ok_iff.1 h
  have := congrArg List.length this
  simpa using this.symm

theorem switching_length {lib : Lib K R} (hlib : LibOk lib) (T : Traj K R) (h : Coherent T) :
    (T.sortSwitchingIndex lib.argsort lib.argsortN).length = T.tstamps.length := by
  have h1 := (sortingIndex_isArgsort hlib.argsort T).length
  unfold Traj.sortSwitchingIndex
  rw [(hlib.argsortN _).length, h1]
  unfold sortKey
  cases T.sorting <;> simp [h.arc]

theorem stepOk_approximate {lib : Lib K R} (hlib : LibOk lib) {T : Traj K R} (h : Coherent T) :
    StepOk (Traj.approximate lib.argsort lib.argsortN lib.cubic lib.rotAvg) T := by
  unfold Traj.approximate
  refine stepOk_get (stepOk_lift h (fun f _ => stepOk_lift h (fun x _ => stepOk_lift h (fun xa _ =>
    stepOk_lift h (fun p hp => ?_)))))
  have hl := take_ok_length hp
  rw [switching_length hlib T h] at hl
  have h1 : Coherent ({ T with pos := p } : Traj K R) := ⟨hl, h.arc, h.speed, h.rot⟩
  refine stepOk_bind (Or.inl (by rw [SE.run_modify]; exact h1)) ?_
  intro _ S hm hc
  rw [SE.run_modify] at hm
  have hS := (Prod.mk.inj hm).2
  refine ⟨stepOk_get ?_, by rw [← hS]⟩
  rcases hr : S.rot with _ | r
  · exact stepOk_pure hc
  · by_cases h0 : r.length = 0
    · simp only [h0, if_true]
      exact stepOk_pure hc
    · simp only [h0, if_false]
      refine stepOk_lift hc (fun f _ => stepOk_lift hc (fun q _ => stepOk_lift hc (fun qa _ =>
        stepOk_lift hc (fun q' hq' => stepOk_modify ?_))))
      refine ⟨hc.pos, hc.arc, hc.speed, ?_⟩
      intro r' hr'
      simp only [Option.some.injEq] at hr'
      rw [← hr', take_ok_length hq', switching_length hlib S hc]

theorem intersect_without_overlap {ts : List K} {g : K} {T : Traj K R}
    (h : ¬ Overlap ts T.tstamps) : (Traj.intersect ts g T).2 = T := by
  unfold Traj.intersect
  rw [SE.run_bind_ok (SE.run_get T)]
  rcases hs : commonTimeSpan ts T.tstamps with e | _ | ⟨t0, t1⟩
  · rw [SE.run_bind_error (e := e) (s' := T) (by rw [SE.run_lift])]
  · rw [SE.run_bind_ok (a := none) (s' := T) (by rw [SE.run_lift])]
    rfl
  · exfalso
    by_cases hne : ts = []
    · rw [hne] at hs; simp [commonTimeSpan, npSort, pyFirst, npGet_nil, bind, Except.bind] at hs
    · by_cases hne' : T.tstamps = []
      · have h0 : pyFirst (npSort T.tstamps) = .error .indexError := by
          rw [hne']; simp [npSort, pyFirst, npGet_nil]
        unfold commonTimeSpan at hs
        simp only [h0, bind, Except.bind] at hs
        cases hf : pyFirst (npSort ts) <;> simp [hf] at hs
      · rw [(C27_common_time_span_none_iff ts T.tstamps hne hne').2 h] at hs
        simp at hs

theorem body_coherent (lib : Lib K R) (hlib : LibOk lib) (c : Call K R) (T : Traj K R)
    (hT : Coherent T)
    (h1 : (bodyOf lib c T).1 = .error .valueError → T.rot = none ∨
      ∃ ts g, c = .intersect ts g ∧ ¬ Overlap ts T.tstamps)
    (h2 : ∀ ts, c = .interpolate ts → T.tstamps = [] ∨
      ∃ t ∈ ts, ∃ a b, T.tstamps.head? = some a ∧ T.tstamps.getLast? = some b ∧ a ≤ t ∧ t ≤ b) :
    Coherent (bodyOf lib c T).2 := by
  have hs : StepOk (bodyOf lib c) T := by
    cases c with
    | applyIndex index => exact stepOk_applyIndex hT
    | crop a b inv => exact stepOk_crop hT
    | interpolate ts => exact stepOk_interpolate hT (h2 ts rfl)
    | matchTimestamps ts => exact stepOk_get (stepOk_applyIndex hT)
    | intersect ts g => exact stepOk_intersect hT
    | applyTransformation A => exact stepOk_transform hT
    | applyAlignment q s => exact stepOk_align hT
    | sortSpatially => exact stepOk_sort hlib hT
    | approximate => exact stepOk_approximate hlib hT
    | adoptFirstPosition t => exact stepOk_adoptPosition (U := T) hT
    | adoptFirstOrientation t => exact stepOk_adoptOrientation (U := T) hT
    | adoptFirstPose t => exact stepOk_adoptPose (U := T) hT
  rcases hs with hs | ⟨hs, hr⟩
  · exact hs
  · rcases h1 hs with h3 | ⟨ts, g, rfl, h3⟩
    · rw [h3] at hr; simp at hr
    · change Coherent (Traj.intersect ts g T).2
      rw [intersect_without_overlap h3]
      exact hT

theorem map_error {α β : Type} {f : α → β} {x : Except Err α} {e : Err} (h : x = .error e) :
    x.map f = .error e := by rw [h]; rfl

theorem run_coherent (lib : Lib K R) (hlib : LibOk lib) (h : Heap K R) (hh : ∀ T ∈ h, Coherent T)
    (s : Step K R) (hs : Covers lib h s) :
    ∀ T ∈ (H.run lib s.call s.ref s.inplace h).2, Coherent T := by
  obtain ⟨T, hr, h1, h2⟩ := hs
  obtain ⟨c, r, ip⟩ := s
  have hT : Coherent T := hh T (List.mem_of_getElem? hr)
  cases ip with
  | false =>
    rcases run_copy lib c h r T hr with he | ⟨e, hb, he⟩
    · simp only at h1 he ⊢
      rw [he] at h1 ⊢
      intro U hU
      rcases List.mem_append.1 hU with hU | hU
      · exact hh U hU
      · rw [List.mem_singleton.1 hU]
        exact body_coherent lib hlib c T hT (fun h3 => h1 (map_error h3)) h2
    · simp only at h1 he ⊢
      rw [he]
      exact hh
  | true =>
    by_cases hc : ∃ q s, c = .applyAlignment q s
    · obtain ⟨q, s, rfl⟩ := hc
      have : (H.run lib (.applyAlignment q s) r true h).2 = h := rfl
      simp only
      rw [this]
      exact hh
    · have he := run_inplace lib c (by intro q s hq; exact hc ⟨q, s, hq⟩) r h T hr
      simp only at h1 he ⊢
      rw [he] at h1 ⊢
      intro U hU
      rcases List.mem_or_eq_of_mem_set hU with hU | hU
      · exact hh U hU
      · rw [hU]
        exact body_coherent lib hlib c T hT (fun h3 => h1 (map_error h3)) h2

/-! ### C04 -/

/-- **C04**, positive part: after every history of covered calls (see `Covers`), in place or on
copies, successful or raising, all channels of all trajectory objects have the same length.
Missing for the full property: interpolation outside the own time range, and `ValueError`s on
trajectories with orientations, for which it is false (below). -/
theorem C04_channels_in_step_partial (lib : Lib K R) (hlib : LibOk lib) (h : Heap K R)
    (hh : ∀ T ∈ h, Coherent T) (steps : List (Step K R)) (hs : CoversAll lib h steps) :
    ∀ T ∈ runAll lib h steps, Coherent T := by
  induction steps generalizing h with
  | nil => exact hh
  | cons s ss ih => exact ih _ (run_coherent lib hlib h hh s hs.1) hs.2

/-- the calls that neither interpolate nor create orientations -/
def Selecting : Call K R → Prop
  | .applyIndex _ | .crop _ _ _ | .matchTimestamps _ | .intersect _ _ | .adoptFirstPosition _
  | .adoptFirstOrientation _ | .adoptFirstPose _ => True
  | _ => False

theorem noRot_applyIndex {index : Index} {T : Traj K R} (h : Coherent T) (hr : T.rot = none) :
    (Traj.applyIndex index T).2.rot = none := by
  rw [applyIndex_eq' h]
  split_ifs with h1 h2
  · rw [hr] at h2; simp at h2
  · simp [pickTraj, hr]
  · exact hr

theorem noRot_crop {a b : K} {inv : Bool} {T : Traj K R} (h : Coherent T) (hr : T.rot = none) :
    (Traj.crop a b inv T).2.rot = none := by
  unfold Traj.crop
  rw [SE.run_bind_ok (SE.run_get T)]
  exact noRot_applyIndex h hr

theorem noRot_adoptPosition {T U : Traj K R} (hr : T.rot = none) :
    (Traj.adoptFirstPosition U T).2.rot = none := by
  unfold Traj.adoptFirstPosition
  rw [SE.run_bind_ok (SE.run_get T)]
  rcases hg : npGet T.pos 0 with e | p
  · rw [SE.run_bind_error (e := e) (s' := T) (by rw [SE.run_lift])]
    exact hr
  · rw [SE.run_bind_ok (a := p) (s' := T) (by rw [SE.run_lift]),
      SE.run_bind_ok (a := p) (s' := T) (by rw [SE.run_lift]), SE.run_modify]
    exact hr

theorem noRot_adoptOrientation {toEuler : R → V3 K} {fromEuler : V3 K → R} {T U : Traj K R}
    (hr : T.rot = none) : (Traj.adoptFirstOrientation toEuler fromEuler U T).2.rot = none := by
  unfold Traj.adoptFirstOrientation
  rw [SE.run_bind_ok (SE.run_get T), hr]
  exact hr

theorem noRot_body (lib : Lib K R) (c : Call K R) (hc : Selecting c) {T : Traj K R}
    (h : Coherent T) (hr : T.rot = none) : (bodyOf lib c T).2.rot = none := by
  cases c with
  | applyIndex index => exact noRot_applyIndex h hr
  | crop a b inv => exact noRot_crop h hr
  | matchTimestamps ts =>
    change (Traj.matchTimestamps ts T).2.rot = none
    unfold Traj.matchTimestamps
    rw [SE.run_bind_ok (SE.run_get T)]
    exact noRot_applyIndex h hr
  | intersect ts g =>
    change (Traj.intersect ts g T).2.rot = none
    unfold Traj.intersect
    rw [SE.run_bind_ok (SE.run_get T)]
    rcases hs : commonTimeSpan ts T.tstamps with e | _ | ⟨t0, t1⟩
    · rw [SE.run_bind_error (e := e) (s' := T) (by rw [SE.run_lift])]
      exact hr
    · rw [SE.run_bind_ok (a := none) (s' := T) (by rw [SE.run_lift])]
      exact hr
    · rw [SE.run_bind_ok (a := some (t0, t1)) (s' := T) (by rw [SE.run_lift])]
      have hn := noRot_crop (a := t0) (b := t1) (inv := false) h hr
      have hs' := stepOk_crop (a := t0) (b := t1) (inv := false) h
      simp only
      rcases hm : Traj.crop t0 t1 false T with ⟨e | u, S⟩
      · rw [SE.run_bind_error hm]
        rw [hm] at hn
        exact hn
      · unfold StepOk at hs'
        rw [hm] at hn hs'
        rw [SE.run_bind_ok hm, SE.run_bind_ok (SE.run_get S)]
        have hS : Coherent S := by simpa using hs'
        rcases hg : Traj.gapFilter (npSort ts) g S.tstamps 0 with e | idx
        · rw [SE.run_bind_error (e := e) (s' := S) (by rw [SE.run_lift])]
          exact hn
        · rw [SE.run_bind_ok (a := idx) (s' := S) (by rw [SE.run_lift])]
          exact noRot_applyIndex hS hn
  | adoptFirstPosition t => exact noRot_adoptPosition (U := T) hr
  | adoptFirstOrientation t => exact noRot_adoptOrientation (U := T) hr
  | adoptFirstPose t =>
    change (Traj.adoptFirstPose lib.toEuler lib.fromEuler T T).2.rot = none
    unfold Traj.adoptFirstPose
    rw [SE.run_bind_ok (SE.run_get T)]
    have hn := noRot_adoptPosition (U := T) hr
    rcases hm : Traj.adoptFirstPosition T T with ⟨e | u, S⟩
    · rw [SE.run_bind_error hm]
      rw [hm] at hn
      exact hn
    · rw [hm] at hn
      rw [SE.run_bind_ok hm, SE.run_bind_ok (SE.run_get S)]
      exact noRot_adoptOrientation hn
  | interpolate ts => exact hc.elim
  | applyTransformation A => exact hc.elim
  | applyAlignment q s => exact hc.elim
  | sortSpatially => exact hc.elim
  | approximate => exact hc.elim

/-- the calls of the history work on existing objects -/
def RefsValid (lib : Lib K R) (h : Heap K R) : List (Step K R) → Prop
  | [] => True
  | s :: ss => s.ref < h.length ∧ RefsValid lib (H.run lib s.call s.ref s.inplace h).2 ss

/-- **C04** for trajectories without orientations: no history of selections, intersections and
adopted poses, whatever the arguments and whichever calls raise, gets the channels out of step. -/
theorem C04_channels_in_step_without_orientations_partial (lib : Lib K R) (h : Heap K R)
    (hh : ∀ T ∈ h, Coherent T ∧ T.rot = none) (steps : List (Step K R))
    (hsel : ∀ s ∈ steps, Selecting s.call) (hrefs : RefsValid lib h steps) :
    ∀ T ∈ runAll lib h steps, Coherent T ∧ T.rot = none := by
  induction steps generalizing h with
  | nil => exact hh
  | cons s ss ih =>
    refine ih _ ?_ (fun s' hs' => hsel s' (by simp [hs'])) hrefs.2
    obtain ⟨c, r, ip⟩ := s
    have hc : Selecting c := hsel ⟨c, r, ip⟩ (by simp)
    have hlt : r < h.length := hrefs.1
    have hr : h[r]? = some h[r] := List.getElem?_eq_getElem hlt
    obtain ⟨hT, hn⟩ := hh h[r] (List.getElem_mem hlt)
    have hb : Coherent (bodyOf lib c h[r]).2 ∧ (bodyOf lib c h[r]).2.rot = none := by
      refine ⟨?_, noRot_body lib c hc hT hn⟩
      have hs : StepOk (bodyOf lib c) h[r] := by
        cases c with
        | applyIndex index => exact stepOk_applyIndex hT
        | crop a b inv => exact stepOk_crop hT
        | matchTimestamps ts => exact stepOk_get (stepOk_applyIndex hT)
        | intersect ts g => exact stepOk_intersect hT
        | adoptFirstPosition t => exact stepOk_adoptPosition (U := h[r]) hT
        | adoptFirstOrientation t => exact stepOk_adoptOrientation (U := h[r]) hT
        | adoptFirstPose t => exact stepOk_adoptPose (U := h[r]) hT
        | interpolate ts => exact hc.elim
        | applyTransformation A => exact hc.elim
        | applyAlignment q s => exact hc.elim
        | sortSpatially => exact hc.elim
        | approximate => exact hc.elim
      rcases hs with hs | ⟨_, hs⟩
      · exact hs
      · rw [hn] at hs; simp at hs
    cases ip with
    | false =>
      rcases run_copy lib c h r h[r] hr with he | ⟨e, _, he⟩
      · simp only at he ⊢
        rw [he]
        intro U hU
        rcases List.mem_append.1 hU with hU | hU
        · exact hh U hU
        · rw [List.mem_singleton.1 hU]
          exact hb
      · simp only at he ⊢
        rw [he]
        exact hh
    | true =>
      have he := run_inplace lib c (by intro q s hq; rw [hq] at hc; exact hc.elim) r h h[r] hr
      simp only at he ⊢
      rw [he]
      intro U hU
      rcases List.mem_or_eq_of_mem_set hU with hU | hU
      · exact hh U hU
      · rw [hU]
        exact hb

/-! ### C04 is false of the code in general -/

/-- interpolating outside the own time range, without orientations: one speed for no sample -/
theorem C04_interpolation_outside_range_gets_out_of_step :
    ∃ T : Traj ℚ Nat, Coherent T ∧ T.rot = none ∧
      ∃ T', Returns (H.run exH (.interpolate [5, 6]) 0 true) [T] 0 [T'] ∧
        T'.tstamps.length = 0 ∧ T'.speed.length = 1 := by
  refine ⟨{ exT with rot := none }, ⟨rfl, rfl, rfl, by rintro r ⟨⟩⟩, rfl,
    (Traj.interpolate exLib [5, 6] { exT with rot := none }).2, ?_, ?_, ?_⟩
  · unfold Returns
    decide +kernel
  · decide +kernel
  · decide +kernel

/-- interpolating a trajectory with repeated timestamps and orientations raises after the positions
were replaced: one position for two timestamps -/
theorem C04_failed_interpolation_gets_out_of_step :
    ∃ T : Traj ℚ Nat, Coherent T ∧
      ∃ T', Raises (H.run exH (.interpolate [0]) 0 true) [T] .valueError [T'] ∧
        T'.tstamps.length ≠ T'.pos.length := by
  refine ⟨exDup, ⟨rfl, rfl, rfl, by rintro r ⟨⟩; rfl⟩, (Traj.interpolate exLib [0] exDup).2, ?_, ?_⟩
  · unfold Raises
    decide +kernel
  · decide +kernel

/-- an empty selection of a trajectory with orientations raises half way -/
theorem C04_empty_selection_gets_out_of_step :
    ∃ T : Traj ℚ Nat, Coherent T ∧
      ∃ T', Raises (H.run exH (.crop 10 20 false) 0 true) [T] .valueError [T'] ∧
        T'.tstamps.length ≠ T'.arc.length := by
  refine ⟨exT, exT_coherent, (Traj.crop 10 20 false exT).2, ?_, ?_⟩
  · unfold Raises
    decide +kernel
  · decide +kernel

/-! ### The hypotheses are met -/

theorem exH_ok : LibOk exH :=
  ⟨stableArgsort_isArgsort, stableArgsort_isArgsort, by rintro _ _ _ ⟨⟩; rfl,
    by rintro _ _ _ ⟨⟩; rfl, by
      rintro p _ _ ⟨⟩
      simp⟩

/-- a history with a copy, an exception and an interpolation -/
def exSteps : List (Step ℚ Nat) :=
  [⟨.crop 0 2 false, 0, false⟩, ⟨.applyIndex (.ints [7]), 1, true⟩, ⟨.intersect [8, 9] 1, 0, true⟩,
   ⟨.interpolate [1/2, 3/2], 1, true⟩, ⟨.applyTransformation 1, 0, false⟩]

example : CoversAll exH [exT] exSteps := by
  refine ⟨⟨exT, by decide +kernel, ?_, ?_⟩, ⟨exT, by decide +kernel, ?_, ?_⟩,
    ⟨exT, by decide +kernel, ?_, ?_⟩, ⟨exT, by decide +kernel, ?_, ?_⟩,
    ⟨exT, by decide +kernel, ?_, ?_⟩, trivial⟩
  · intro h; exact absurd h (by decide +kernel)
  · rintro ts ⟨⟩
  · intro h; exact absurd h (by decide +kernel)
  · rintro ts ⟨⟩
  · intro _
    refine Or.inr ⟨_, _, rfl, ?_⟩
    rintro ⟨t, ⟨⟨a, ha, hat⟩, _⟩, _, b, hb, htb⟩
    simp [exT] at ha hb
    rcases ha with rfl | rfl <;> rcases hb with rfl | rfl | rfl <;> linarith
  · rintro ts ⟨⟩
  · intro h; exact absurd h (by decide +kernel)
  · rintro ts ⟨⟩
    exact Or.inr ⟨1/2, by simp, 0, 2, rfl, rfl, by norm_num, by norm_num⟩
  · intro h; exact absurd h (by decide +kernel)
  · rintro ts ⟨⟩

example : (runAll exH [exT] exSteps).map (fun T => T.tstamps) = [[0, 1, 2], [1/2, 3/2], [0, 1, 2]] := by
  decide +kernel

end TC
