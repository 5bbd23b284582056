import Verif.Model.Heap
/-!
Relating heap-level methods to their one-object versions.
-/
namespace TC
set_option linter.unusedSectionVars false
variable {K R : Type} [Field K] [LinearOrder K]

/-- `P` acts on object `r` like `m`, and on nothing else -/
def Sim {α : Type} (r : Nat) (P : SE (Heap K R) α) (m : SE (Traj K R) α) : Prop :=
  ∀ h T, h[r]? = some T → P h = ((m T).1, h.set r (m T).2)

/-- `P` acts like `m` on the object appended to `h0`, and on nothing else -/
def SimC {α : Type} (h0 : Heap K R) (P : SE (Heap K R) α) (m : SE (Traj K R) α) : Prop :=
  ∀ T, P (h0 ++ [T]) = ((m T).1, h0 ++ [(m T).2])

section
omit [Field K] [LinearOrder K]

theorem set_self {h : Heap K R} {r : Nat} {T : Traj K R} (hr : h[r]? = some T) : h.set r T = h := by
  obtain ⟨hlt, rfl⟩ := List.getElem?_eq_some_iff.1 hr
  simp

theorem get_set {h : Heap K R} {r : Nat} {T T' : Traj K R} (hr : h[r]? = some T) :
    (h.set r T')[r]? = some T' := by
  obtain ⟨hlt, -⟩ := List.getElem?_eq_some_iff.1 hr
  simp [hlt]

theorem Sim.pure {α : Type} {r : Nat} (a : α) :
    Sim r (Pure.pure a : SE (Heap K R) α) (Pure.pure a : SE (Traj K R) α) := by
  intro h T hr
  simp [set_self hr]

theorem Sim.lift {α : Type} {r : Nat} (e : Except Err α) :
    Sim r (SE.lift e : SE (Heap K R) α) (SE.lift e : SE (Traj K R) α) := by
  intro h T hr
  simp [set_self hr]

theorem Sim.raise {α : Type} {r : Nat} (e : Err) :
    Sim r (SE.raise e : SE (Heap K R) α) (SE.raise e : SE (Traj K R) α) := by
  intro h T hr
  simp [set_self hr]

theorem Sim.rd {r : Nat} : Sim r (rd r : SE (Heap K R) _) SE.get := by
  intro h T hr
  simp [TC.rd, hr, set_self hr]

theorem Sim.onRef {α : Type} {r : Nat} (m : SE (Traj K R) α) : Sim r (onRef r m) m := by
  intro h T hr
  simp [TC.onRef, hr]

theorem Sim.bind {α β : Type} {r : Nat} {P : SE (Heap K R) α} {m : SE (Traj K R) α}
    {Q : α → SE (Heap K R) β} {f : α → SE (Traj K R) β} (h1 : Sim r P m)
    (h2 : ∀ a, Sim r (Q a) (f a)) : Sim r (P >>= Q) (m >>= f) := by
  intro h T hr
  rw [SE.run_bind, SE.run_bind, h1 h T hr]
  rcases hm : m T with ⟨_ | a, T'⟩
  · rfl
  · show Q a (h.set r T') = _
    rw [h2 a (h.set r T') T' (get_set hr)]
    simp

/-- a method that acts on object `r` like `m` and returns the reference `v` -/
def SimV (r v : Nat) (P : SE (Heap K R) Nat) (m : SE (Traj K R) Unit) : Prop :=
  ∀ h T, h[r]? = some T → P h = ((m T).1.map (fun _ => v), h.set r (m T).2)

theorem SimV.bind {α : Type} {r v : Nat} {P : SE (Heap K R) α} {m : SE (Traj K R) α}
    {Q : α → SE (Heap K R) Nat} {f : α → SE (Traj K R) Unit} (h1 : Sim r P m)
    (h2 : ∀ a, SimV r v (Q a) (f a)) : SimV r v (P >>= Q) (m >>= f) := by
  intro h T hr
  rw [SE.run_bind, SE.run_bind, h1 h T hr]
  rcases hm : m T with ⟨_ | a, T'⟩
  · rfl
  · show Q a (h.set r T') = _
    rw [h2 a (h.set r T') T' (get_set hr)]
    simp

theorem SimV.bindV {r v w : Nat} {P : SE (Heap K R) Nat} {m : SE (Traj K R) Unit}
    {Q : Nat → SE (Heap K R) Nat} {f : Unit → SE (Traj K R) Unit} (h1 : SimV r w P m)
    (h2 : SimV r v (Q w) (f ())) : SimV r v (P >>= Q) (m >>= f) := by
  intro h T hr
  rw [SE.run_bind, SE.run_bind, h1 h T hr]
  rcases hm : m T with ⟨_ | a, T'⟩
  · rfl
  · show Q w (h.set r T') = _
    rw [h2 (h.set r T') T' (get_set hr)]
    simp

theorem SimV.pure {r v : Nat} :
    SimV r v (Pure.pure v : SE (Heap K R) Nat) (Pure.pure () : SE (Traj K R) Unit) := by
  intro h T hr
  simp [set_self hr, Except.map]

theorem SimV.raise {r v : Nat} (e : Err) :
    SimV r v (SE.raise e : SE (Heap K R) Nat) (SE.raise e : SE (Traj K R) Unit) := by
  intro h T hr
  simp [set_self hr, Except.map]

theorem SE.bind_unit {σ : Type} (m : SE σ Unit) : (m >>= fun _ => Pure.pure ()) = m := by
  funext s
  rw [SE.run_bind]
  rcases m s with ⟨_ | _, _⟩ <;> rfl

theorem SimV.last {r v : Nat} {P : SE (Heap K R) Unit} {m : SE (Traj K R) Unit} (h1 : Sim r P m) :
    SimV r v (P >>= fun _ => Pure.pure v) m := by
  rw [← SE.bind_unit m]
  exact SimV.bind h1 (fun _ => SimV.pure)

theorem SimV.lastV {r v w : Nat} {P : SE (Heap K R) Nat} {m : SE (Traj K R) Unit}
    (h1 : SimV r w P m) : SimV r v (P >>= fun _ => Pure.pure v) m := by
  rw [← SE.bind_unit m]
  exact SimV.bindV h1 SimV.pure

/-- a method that acts on the object appended to `h0` like `m` and returns the reference `v` -/
def SimCV (h0 : Heap K R) (v : Nat) (P : SE (Heap K R) Nat) (m : SE (Traj K R) Unit) : Prop :=
  ∀ T, P (h0 ++ [T]) = ((m T).1.map (fun _ => v), h0 ++ [(m T).2])

theorem SimV.toC {h0 : Heap K R} {v : Nat} {P : SE (Heap K R) Nat} {m : SE (Traj K R) Unit}
    (h1 : SimV h0.length v P m) : SimCV h0 v P m := by
  intro T
  rw [h1 (h0 ++ [T]) T (by simp)]
  simp

theorem SimCV.bind {α : Type} {h0 : Heap K R} {v : Nat} {P : SE (Heap K R) α}
    {m : SE (Traj K R) α} {Q : α → SE (Heap K R) Nat} {f : α → SE (Traj K R) Unit}
    (h1 : SimC h0 P m) (h2 : ∀ a, SimCV h0 v (Q a) (f a)) : SimCV h0 v (P >>= Q) (m >>= f) := by
  intro T
  rw [SE.run_bind, SE.run_bind, h1 T]
  rcases hm : m T with ⟨_ | a, T'⟩
  · rfl
  · exact h2 a T'

theorem Sim.toC {α : Type} {h0 : Heap K R} {P : SE (Heap K R) α} {m : SE (Traj K R) α}
    (h1 : Sim h0.length P m) : SimC h0 P m := by
  intro T
  rw [h1 (h0 ++ [T]) T (by simp)]
  simp

theorem SimC.bind {α β : Type} {h0 : Heap K R} {P : SE (Heap K R) α} {m : SE (Traj K R) α}
    {Q : α → SE (Heap K R) β} {f : α → SE (Traj K R) β} (h1 : SimC h0 P m)
    (h2 : ∀ a, SimC h0 (Q a) (f a)) : SimC h0 (P >>= Q) (m >>= f) := by
  intro T
  rw [SE.run_bind, SE.run_bind, h1 T]
  rcases hm : m T with ⟨_ | a, T'⟩
  · rfl
  · exact h2 a T'

/-- reading the receiver while working on the copy -/
theorem SimC.rdOld {h0 : Heap K R} {r : Nat} {T0 : Traj K R} (hr : h0[r]? = some T0) :
    SimC h0 (TC.rd r) (Pure.pure T0) := by
  intro T
  obtain ⟨hlt, -⟩ := List.getElem?_eq_some_iff.1 hr
  simp only [TC.rd, SE.run_pure, List.getElem?_append_left hlt, hr]

end

open H

variable (lib : Lib K R)

/-- what a call does to the object it works on -/
def bodyOf (lib : Lib K R) : Call K R → SE (Traj K R) Unit
  | .applyIndex index => Traj.applyIndex index
  | .crop a b inverse => Traj.crop a b inverse
  | .interpolate ts => Traj.interpolate lib.rot ts
  | .matchTimestamps ts => Traj.matchTimestamps ts
  | .intersect ts g => Traj.intersect ts g
  | .applyTransformation A => Traj.applyTransformation lib.rot A
  | .applyAlignment q sensor => Traj.applyAlignmentBody lib.rot lib.trig lib.toEuler q sensor
  | .sortSpatially => Traj.sortSpatially lib.argsortN lib.sortMls
  | .approximate => Traj.approximate lib.argsort lib.argsortN lib.cubic lib.rotAvg
  | .adoptFirstPosition _ => fun T => Traj.adoptFirstPosition T T
  | .adoptFirstOrientation _ => fun T => Traj.adoptFirstOrientation lib.toEuler lib.fromEuler T T
  | .adoptFirstPose _ => fun T => Traj.adoptFirstPose lib.toEuler lib.fromEuler T T

omit [Field K] [LinearOrder K] in
theorem selfOrCopy_true (r : Nat) : (selfOrCopy true r : SE (Heap K R) Nat) = Pure.pure r := rfl

theorem pure_bind' {σ α β : Type} (a : α) (f : α → SE σ β) :
    ((Pure.pure a : SE σ α) >>= f) = f a := rfl

theorem sim_applyIndex (r : Nat) (index : Index) :
    SimV r r (H.applyIndex (K := K) (R := R) r index true) (Traj.applyIndex index) := by
  unfold H.applyIndex
  rw [selfOrCopy_true, pure_bind']
  exact SimV.last (Sim.onRef _)

theorem sim_crop (r : Nat) (a b : K) (inverse : Bool) :
    SimV r r (H.crop (R := R) r a b inverse true) (Traj.crop a b inverse) := by
  unfold H.crop Traj.crop
  exact SimV.bind Sim.rd (fun me => sim_applyIndex r _)

theorem sim_interpolate (L : RotLib K R) (r : Nat) (ts : List K) :
    SimV r r (H.interpolate L r ts true) (Traj.interpolate L ts) := by
  unfold H.interpolate Traj.interpolate
  simp only
  rw [selfOrCopy_true, pure_bind']
  refine SimV.bind Sim.rd (fun me => SimV.bind (Sim.lift _) (fun cropped =>
    SimV.bind (Sim.onRef _) (fun _ => SimV.bind (Sim.onRef _) (fun _ => SimV.bind Sim.rd (fun o =>
    SimV.bind (Sim.lift _) (fun g => SimV.bind (Sim.onRef _) (fun _ => SimV.bind Sim.rd (fun o =>
    SimV.bind (Sim.lift _) (fun as => SimV.bind (Sim.onRef _) (fun _ => SimV.last (Sim.onRef _)))
    ))))))))

theorem sim_matchTimestamps (r : Nat) (ts : List K) :
    SimV r r (H.matchTimestamps (R := R) r ts true) (Traj.matchTimestamps ts) := by
  unfold H.matchTimestamps Traj.matchTimestamps
  rw [selfOrCopy_true, pure_bind']
  exact SimV.bind Sim.rd (fun o => SimV.lastV (sim_applyIndex r _))

theorem sim_intersect (r : Nat) (ts : List K) (g : K) :
    SimV r r (H.intersect (R := R) r ts g true) (Traj.intersect ts g) := by
  unfold H.intersect Traj.intersect
  rw [selfOrCopy_true, pure_bind']
  refine SimV.bind Sim.rd (fun o => SimV.bind (Sim.lift _) (fun span => ?_))
  match span with
  | none => exact SimV.raise _
  | some (t0, t1) =>
    exact SimV.bindV (sim_crop r t0 t1 false) (SimV.bind Sim.rd (fun o =>
      SimV.bind (Sim.lift _) (fun idx => SimV.lastV (sim_applyIndex r _))))

theorem sim_applyTransformation (L : RotLib K R) (r : Nat) (A : M4 K) :
    SimV r r (H.applyTransformation L r A true) (Traj.applyTransformation L A) := by
  unfold H.applyTransformation Traj.applyTransformation
  rw [selfOrCopy_true, pure_bind']
  exact SimV.bind Sim.rd (fun o => SimV.last (Sim.onRef _))

theorem sim_sortSpatially (argsortN : List Nat → List Nat)
    (sortMls : List (V3 K) → Except Err (List Nat × List K)) (r : Nat) :
    SimV r r (H.sortSpatially (R := R) argsortN sortMls r true)
      (Traj.sortSpatially argsortN sortMls) := by
  unfold H.sortSpatially Traj.sortSpatially
  refine SimV.bind Sim.rd (fun me => SimV.bind (Sim.lift _) (fun p => ?_))
  exact SimV.bindV (sim_applyIndex r _) (SimV.bind (Sim.lift _) (fun as =>
      SimV.bind (Sim.onRef _) (fun _ => SimV.last (Sim.onRef _))))

/-- the part of `approximate` after the choice of the object, with the receiver and the changed
object read separately -/
def approxRest (argsort : List K → List Nat) (argsortN : List Nat → List Nat)
    (rotAvg : List K → List R → Except Err (List R)) (rdMe : SE (Traj K R) (Traj K R))
    (xa : List (V3 K)) : SE (Traj K R) Unit := do
  let me ← rdMe
  let p ← SE.lift (Traj.take xa (me.sortSwitchingIndex argsort argsortN))
  SE.modify (fun s => { s with pos := p })
  let o ← SE.get
  match o.rot with
  | none => pure ()
  | some ro =>
    if ro.length = 0 then pure ()
    else do
      let me ← rdMe
      match me.rot with
      | none => SE.raise Err.attributeError
      | some rr => do
        let f ← SE.lift (me.functionOf argsort)
        let q ← SE.lift (Traj.take rr (me.sortingIndex argsort))
        let qa ← SE.lift (rotAvg f q)
        let q' ← SE.lift (Traj.take qa (me.sortSwitchingIndex argsort argsortN))
        SE.modify (fun s => { s with rot := some q' })

/-- the same part at the level of objects -/
def approxRestH (argsort : List K → List Nat) (argsortN : List Nat → List Nat)
    (rotAvg : List K → List R → Except Err (List R)) (r s : Nat) (xa : List (V3 K)) :
    SE (Heap K R) Nat := do
  let me ← rd r
  let p ← SE.lift (Traj.take xa (me.sortSwitchingIndex argsort argsortN))
  onRef s (SE.modify (fun s => { s with pos := p }))
  let o ← rd s
  match o.rot with
  | none => return s
  | some ro =>
    if ro.length = 0 then return s
    else do
      let me ← rd r
      match me.rot with
      | none => SE.raise Err.attributeError
      | some rr => do
        let f ← SE.lift (me.functionOf argsort)
        let q ← SE.lift (Traj.take rr (me.sortingIndex argsort))
        let qa ← SE.lift (rotAvg f q)
        let q' ← SE.lift (Traj.take qa (me.sortSwitchingIndex argsort argsortN))
        onRef s (SE.modify (fun s => { s with rot := some q' }))
        return s

theorem approxRest_get (argsort : List K → List Nat) (argsortN : List Nat → List Nat)
    (rotAvg : List K → List R → Except Err (List R)) (xa : List (V3 K)) (T : Traj K R)
    (rdMe : SE (Traj K R) (Traj K R)) (hrd : rdMe = SE.get ∨ rdMe = Pure.pure T) :
    approxRest argsort argsortN rotAvg rdMe xa T
      = (do
        let s ← SE.get
        let p ← SE.lift (Traj.take xa (s.sortSwitchingIndex argsort argsortN))
        SE.modify (fun s => { s with pos := p })
        let s ← SE.get
        match s.rot with
        | none => pure ()
        | some r =>
          if r.length = 0 then pure ()
          else do
            let f ← SE.lift (s.functionOf argsort)
            let q ← SE.lift (Traj.take r (s.sortingIndex argsort))
            let qa ← SE.lift (rotAvg f q)
            let q' ← SE.lift (Traj.take qa (s.sortSwitchingIndex argsort argsortN))
            SE.modify (fun s => { s with rot := some q' }) : SE (Traj K R) Unit) T := by
  unfold approxRest
  have h1 : rdMe T = (.ok T, T) := by rcases hrd with rfl | rfl <;> rfl
  rw [SE.run_bind_ok h1, SE.run_bind_ok (SE.run_get T), SE.run_bind, SE.run_bind]
  simp only [SE.run_lift]
  rcases Traj.take xa (T.sortSwitchingIndex argsort argsortN) with _ | p
  · rfl
  simp only
  rw [SE.run_bind_ok (SE.run_modify _ T), SE.run_bind_ok (SE.run_modify _ T),
    SE.run_bind_ok (SE.run_get _), SE.run_bind_ok (SE.run_get _)]
  rcases hrot : T.rot with _ | r
  · rfl
  by_cases hl : r.length = 0
  · simp only [hl, if_true]
  · simp only [hl, if_false]
    rcases hrd with rfl | rfl
    · rw [SE.run_bind_ok (SE.run_get _)]
    · rw [SE.run_bind_ok (SE.run_pure T _)]
      simp only [hrot]
      rfl

theorem sim_approxRest (argsort : List K → List Nat) (argsortN : List Nat → List Nat)
    (rotAvg : List K → List R → Except Err (List R)) (r : Nat) (xa : List (V3 K)) :
    SimV r r (approxRestH argsort argsortN rotAvg r r xa)
      (approxRest argsort argsortN rotAvg SE.get xa) := by
  unfold approxRestH approxRest
  refine SimV.bind Sim.rd (fun me => SimV.bind (Sim.lift _) (fun p => SimV.bind (Sim.onRef _)
    (fun _ => SimV.bind Sim.rd (fun o => ?_))))
  rcases o.rot with _ | ro
  · exact SimV.pure
  · simp only
    split
    · exact SimV.pure
    · refine SimV.bind Sim.rd (fun me => ?_)
      rcases me.rot with _ | rr
      · exact SimV.raise _
      · exact SimV.bind (Sim.lift _) (fun _ => SimV.bind (Sim.lift _) (fun _ =>
          SimV.bind (Sim.lift _) (fun _ => SimV.bind (Sim.lift _) (fun _ =>
          SimV.last (Sim.onRef _)))))

theorem simC_approxRest (argsort : List K → List Nat) (argsortN : List Nat → List Nat)
    (rotAvg : List K → List R → Except Err (List R)) (h0 : Heap K R) (r : Nat) (T0 : Traj K R)
    (hr : h0[r]? = some T0) (xa : List (V3 K)) :
    SimCV h0 h0.length (approxRestH argsort argsortN rotAvg r h0.length xa)
      (approxRest argsort argsortN rotAvg (Pure.pure T0) xa) := by
  unfold approxRestH approxRest
  refine SimCV.bind (SimC.rdOld hr) (fun me => SimCV.bind (Sim.lift _).toC (fun p =>
    SimCV.bind (Sim.onRef _).toC (fun _ => SimCV.bind Sim.rd.toC (fun o => ?_))))
  rcases o.rot with _ | ro
  · exact SimV.pure.toC
  · simp only
    split
    · exact SimV.pure.toC
    · refine SimCV.bind (SimC.rdOld hr) (fun me => ?_)
      rcases me.rot with _ | rr
      · exact (SimV.raise _).toC
      · exact (SimV.bind (Sim.lift _) (fun _ => SimV.bind (Sim.lift _) (fun _ =>
          SimV.bind (Sim.lift _) (fun _ => SimV.bind (Sim.lift _) (fun _ =>
          SimV.last (Sim.onRef _)))))).toC

theorem approximate_eq (argsort : List K → List Nat) (argsortN : List Nat → List Nat)
    (cubic : List K → List (V3 K) → Except Err (List (V3 K)))
    (rotAvg : List K → List R → Except Err (List R)) (T : Traj K R) (rdMe) 
    (hrd : rdMe = SE.get ∨ rdMe = Pure.pure T) :
    Traj.approximate argsort argsortN cubic rotAvg T
      = (do
        let s ← SE.get
        let f ← SE.lift (s.functionOf argsort)
        let x ← SE.lift (s.xyz argsort)
        let xa ← SE.lift (cubic f x)
        approxRest argsort argsortN rotAvg rdMe xa : SE (Traj K R) Unit) T := by
  unfold Traj.approximate
  rw [SE.run_bind_ok (SE.run_get T), SE.run_bind_ok (SE.run_get T), SE.run_bind, SE.run_bind]
  simp only [SE.run_lift]
  rcases T.functionOf argsort with _ | f
  · rfl
  simp only
  rw [SE.run_bind, SE.run_bind]
  simp only [SE.run_lift]
  rcases T.xyz argsort with _ | x
  · rfl
  simp only
  rw [SE.run_bind, SE.run_bind]
  simp only [SE.run_lift]
  rcases cubic f x with _ | xa
  · rfl
  simp only
  rw [approxRest_get _ _ _ _ _ _ hrd, SE.run_bind_ok (SE.run_get T)]
  rfl

theorem sim_approximate (argsort : List K → List Nat) (argsortN : List Nat → List Nat)
    (cubic : List K → List (V3 K) → Except Err (List (V3 K)))
    (rotAvg : List K → List R → Except Err (List R)) (r : Nat) :
    SimV r r (H.approximate argsort argsortN cubic rotAvg r true)
      (Traj.approximate argsort argsortN cubic rotAvg) := by
  have : Traj.approximate argsort argsortN cubic rotAvg = (do
        let s ← SE.get
        let f ← SE.lift (s.functionOf argsort)
        let x ← SE.lift (s.xyz argsort)
        let xa ← SE.lift (cubic f x)
        approxRest argsort argsortN rotAvg SE.get xa : SE (Traj K R) Unit) := by
    funext T
    exact approximate_eq argsort argsortN cubic rotAvg T _ (.inl rfl)
  rw [this]
  exact SimV.bind Sim.rd (fun me => SimV.bind (Sim.lift _) (fun f => SimV.bind (Sim.lift _)
    (fun x => SimV.bind (Sim.lift _) (fun xa => sim_approxRest argsort argsortN rotAvg r xa))))

/-- `adopt_first_position` does not look at the target -/
theorem sim_adoptFirstPosition (r t : Nat) (T' : Traj K R) :
    SimV r r (H.adoptFirstPosition r t true) (Traj.adoptFirstPosition T') := by
  unfold H.adoptFirstPosition Traj.adoptFirstPosition
  rw [selfOrCopy_true, pure_bind']
  exact SimV.bind Sim.rd (fun o => SimV.bind (Sim.lift _) (fun a => SimV.bind (Sim.lift _)
    (fun b => SimV.last (Sim.onRef _))))

/-- `adopt_first_orientation` with the receiver and the changed object read separately -/
def adoptOriRest (toEuler : R → V3 K) (fromEuler : V3 K → R) (rdMe : SE (Traj K R) (Traj K R)) :
    SE (Traj K R) Unit := do
  let me ← rdMe
  let o ← SE.get
  match me.rot, o.rot with
  | some _, some q => do
    let rpy := q.map toEuler
    let a ← SE.lift (npGet (q.map toEuler) 0)
    let b ← SE.lift (npGet rpy 0)
    SE.modify (fun s => { s with rot := some (rpy.map (fun e => fromEuler (e + (a - b)))) })
  | _, _ => pure ()

theorem adoptOriRest_eq (toEuler : R → V3 K) (fromEuler : V3 K → R) (T T' : Traj K R)
    (rdMe : SE (Traj K R) (Traj K R)) (hrd : rdMe = SE.get ∨ rdMe = Pure.pure T) :
    adoptOriRest toEuler fromEuler rdMe T = Traj.adoptFirstOrientation toEuler fromEuler T' T := by
  unfold adoptOriRest Traj.adoptFirstOrientation
  have h1 : rdMe T = (.ok T, T) := by rcases hrd with rfl | rfl <;> rfl
  rw [SE.run_bind_ok h1, SE.run_bind_ok (SE.run_get T), SE.run_bind_ok (SE.run_get T)]
  rcases T.rot with _ | q <;> rfl

theorem sim_adoptFirstOrientation (toEuler : R → V3 K) (fromEuler : V3 K → R) (r t : Nat)
    (T' : Traj K R) :
    SimV r r (H.adoptFirstOrientation toEuler fromEuler r t true)
      (Traj.adoptFirstOrientation toEuler fromEuler T') := by
  have : Traj.adoptFirstOrientation toEuler fromEuler T'
      = adoptOriRest toEuler fromEuler SE.get := by
    funext T
    exact (adoptOriRest_eq toEuler fromEuler T T' _ (.inl rfl)).symm
  rw [this]
  unfold H.adoptFirstOrientation adoptOriRest
  rw [selfOrCopy_true, pure_bind']
  refine SimV.bind Sim.rd (fun me => SimV.bind Sim.rd (fun o => ?_))
  rcases me.rot with _ | qm
  · rcases o.rot with _ | q <;> exact SimV.pure
  · rcases o.rot with _ | q
    · exact SimV.pure
    · exact SimV.bind (Sim.lift _) (fun a => SimV.bind (Sim.lift _) (fun b =>
        SimV.last (Sim.onRef _)))

theorem sim_adoptFirstPose (toEuler : R → V3 K) (fromEuler : V3 K → R) (r t : Nat)
    (T' : Traj K R) :
    SimV r r (H.adoptFirstPose toEuler fromEuler r t true)
      (Traj.adoptFirstPose toEuler fromEuler T') := by
  have : Traj.adoptFirstPose toEuler fromEuler T' = (do
      Traj.adoptFirstPosition T'
      Traj.adoptFirstOrientation toEuler fromEuler T' : SE (Traj K R) Unit) := rfl
  rw [this]
  unfold H.adoptFirstPose
  rw [selfOrCopy_true, pure_bind']
  exact SimV.bindV (sim_adoptFirstPosition r r T')
    (SimV.lastV (sim_adoptFirstOrientation toEuler fromEuler r r T'))

/-- every call in place acts on the receiver like its body, except `apply_alignment` -/
theorem run_inplace (c : Call K R) (hc : ∀ q s, c ≠ .applyAlignment q s) (r : Nat) :
    SimV r r (H.run lib c r true) (bodyOf lib c) := by
  cases c with
  | applyIndex index => exact sim_applyIndex r index
  | crop a b i => exact sim_crop r a b i
  | interpolate ts => exact sim_interpolate lib.rot r ts
  | matchTimestamps ts => exact sim_matchTimestamps r ts
  | intersect ts g => exact sim_intersect r ts g
  | applyTransformation A => exact sim_applyTransformation lib.rot r A
  | applyAlignment q s => exact absurd rfl (hc q s)
  | sortSpatially => exact sim_sortSpatially _ _ r
  | approximate => exact sim_approximate _ _ _ _ r
  | adoptFirstPosition t => intro h T hr; exact sim_adoptFirstPosition r t T h T hr
  | adoptFirstOrientation t => intro h T hr; exact sim_adoptFirstOrientation _ _ r t T h T hr
  | adoptFirstPose t => intro h T hr; exact sim_adoptFirstPose _ _ r t T h T hr

theorem copyRef_run {h : Heap K R} {r : Nat} {T : Traj K R} (hr : h[r]? = some T) :
    (selfOrCopy false r : SE (Heap K R) Nat) h = (.ok h.length, h ++ [T]) := by
  show copyRef r h = _
  simp [copyRef, hr]

theorem rd_run {h : Heap K R} {r : Nat} {T : Traj K R} (hr : h[r]? = some T) :
    rd r h = (.ok T, h) := by simp [rd, hr]

/-- Every call with `inplace=False` leaves the objects alone; it either returns/raises after
working on a fresh copy of the receiver or raises before the copy is made. -/
theorem run_copy (c : Call K R) (h : Heap K R) (r : Nat) (T : Traj K R) (hr : h[r]? = some T) :
    H.run lib c r false h = ((bodyOf lib c T).1.map (fun _ => h.length), h ++ [(bodyOf lib c T).2])
    ∨ ∃ e, (bodyOf lib c T) = (.error e, T) ∧ H.run lib c r false h = (.error e, h) := by
  have ai : ∀ index, H.applyIndex r index false h
      = ((Traj.applyIndex index T).1.map (fun _ => h.length), h ++ [(Traj.applyIndex index T).2]) := by
    intro index
    unfold H.applyIndex
    rw [SE.run_bind_ok (copyRef_run hr)]
    exact (SimV.last (Sim.onRef _)).toC T
  cases c with
  | applyIndex index => exact .inl (ai index)
  | crop a b i =>
    left
    show H.crop r a b i false h = _
    unfold H.crop
    rw [SE.run_bind_ok (rd_run hr)]
    exact ai _
  | interpolate ts =>
    left
    show H.interpolate lib.rot r ts false h = _
    unfold H.interpolate
    rw [SE.run_bind_ok (copyRef_run hr)]
    have hb : bodyOf lib (.interpolate ts) T = (do
      let s ← (Pure.pure T : SE (Traj K R) (Traj K R))
      let cropped ← SE.lift (Traj.cropStamps s.tstamps (npSort ts))
      Traj.interpolatePositions cropped
      Traj.interpolateRotations lib.rot cropped
      let s ← SE.get
      let g ← SE.lift (gradient3d s.pos cropped)
      SE.modify (fun s => { s with speed := g })
      let s ← SE.get
      let as ← SE.lift (npInterp cropped s.tstamps s.arc)
      SE.modify (fun s => { s with arc := as })
      SE.modify (fun s => { s with tstamps := cropped }) : SE (Traj K R) Unit) T := rfl
    rw [hb]
    exact SimCV.bind (SimC.rdOld hr) (fun me => (SimV.bind (Sim.lift _) (fun cropped =>
      SimV.bind (Sim.onRef _) (fun _ => SimV.bind (Sim.onRef _) (fun _ => SimV.bind Sim.rd
      (fun o => SimV.bind (Sim.lift _) (fun g => SimV.bind (Sim.onRef _) (fun _ =>
      SimV.bind Sim.rd (fun o => SimV.bind (Sim.lift _) (fun as => SimV.bind (Sim.onRef _)
      (fun _ => SimV.last (Sim.onRef _))))))))))).toC) T
  | matchTimestamps ts =>
    left
    show H.matchTimestamps r ts false h = _
    unfold H.matchTimestamps
    rw [SE.run_bind_ok (copyRef_run hr)]
    exact (SimV.bind Sim.rd (fun o => SimV.lastV (sim_applyIndex _ _))).toC T
  | intersect ts g =>
    left
    show H.intersect r ts g false h = _
    unfold H.intersect
    rw [SE.run_bind_ok (copyRef_run hr)]
    exact (sim_intersect (h.length) ts g).toC T
  | applyTransformation A =>
    left
    show H.applyTransformation lib.rot r A false h = _
    unfold H.applyTransformation
    rw [SE.run_bind_ok (copyRef_run hr)]
    exact (sim_applyTransformation lib.rot h.length A).toC T
  | applyAlignment q s =>
    left
    show H.applyAlignment lib.rot lib.trig lib.toEuler r q s false h = _
    rw [show H.applyAlignment lib.rot lib.trig lib.toEuler r q s false h
      = (selfOrCopy false r >>= fun t => onRef t (Traj.applyAlignmentBody lib.rot lib.trig
        lib.toEuler q s) >>= fun _ => Pure.pure t) h from rfl]
    rw [SE.run_bind_ok (copyRef_run hr)]
    exact (SimV.last (Sim.onRef _)).toC T
  | sortSpatially =>
    show H.sortSpatially lib.argsortN lib.sortMls r false h = _ ∨ _
    have hb : bodyOf lib .sortSpatially T = Traj.sortSpatially lib.argsortN lib.sortMls T := rfl
    have hrun : H.run lib .sortSpatially r false h
      = H.sortSpatially lib.argsortN lib.sortMls r false h := rfl
    rw [hb, hrun]
    unfold H.sortSpatially Traj.sortSpatially
    rw [SE.run_bind_ok (rd_run hr), SE.run_bind_ok (SE.run_get T)]
    rcases hs : lib.sortMls T.pos with e | ⟨sortIdx, arcs⟩
    · right
      exact ⟨e, rfl, rfl⟩
    · left
      rw [SE.run_bind_ok (SE.run_lift _ h), SE.run_bind_ok (SE.run_lift _ T)]
      simp only
      have hai : ∀ idx, H.applyIndex r idx false h
          = H.applyIndex h.length idx true (h ++ [T]) := by
        intro idx
        unfold H.applyIndex
        rw [SE.run_bind_ok (copyRef_run hr), selfOrCopy_true, pure_bind']
      rw [SE.run_bind, hai, ← SE.run_bind]
      exact (SimV.bindV (sim_applyIndex h.length _) (SimV.bind (Sim.lift _) (fun as =>
        SimV.bind (Sim.onRef _) (fun _ => SimV.last (Sim.onRef _))))).toC T
  | approximate =>
    have hb := approximate_eq lib.argsort lib.argsortN lib.cubic lib.rotAvg T _ (.inr rfl)
    have hrun : H.run lib .approximate r false h
      = H.approximate lib.argsort lib.argsortN lib.cubic lib.rotAvg r false h := rfl
    rw [show bodyOf lib .approximate T = _ from hb, hrun]
    unfold H.approximate
    rw [SE.run_bind_ok (rd_run hr), SE.run_bind_ok (SE.run_get T)]
    rcases hf : T.functionOf lib.argsort with e | f
    · right; exact ⟨e, rfl, rfl⟩
    rw [SE.run_bind_ok (SE.run_lift _ h), SE.run_bind_ok (SE.run_lift _ T)]
    rcases hx : T.xyz lib.argsort with e | x
    · right; exact ⟨e, rfl, rfl⟩
    rw [SE.run_bind_ok (SE.run_lift _ h), SE.run_bind_ok (SE.run_lift _ T)]
    rcases hx : lib.cubic f x with e | xa
    · right; exact ⟨e, rfl, rfl⟩
    rw [SE.run_bind_ok (SE.run_lift _ h), SE.run_bind_ok (SE.run_lift _ T)]
    left
    rw [SE.run_bind_ok (copyRef_run hr)]
    exact simC_approxRest lib.argsort lib.argsortN lib.rotAvg h r T hr xa T
  | adoptFirstPosition t =>
    left
    show H.adoptFirstPosition r t false h = _
    unfold H.adoptFirstPosition
    rw [SE.run_bind_ok (copyRef_run hr)]
    exact (sim_adoptFirstPosition h.length t T).toC T
  | adoptFirstOrientation t =>
    left
    show H.adoptFirstOrientation lib.toEuler lib.fromEuler r t false h = _
    unfold H.adoptFirstOrientation
    rw [SE.run_bind_ok (copyRef_run hr)]
    have hb := adoptOriRest_eq lib.toEuler lib.fromEuler T T _ (.inr rfl)
    rw [show bodyOf lib (.adoptFirstOrientation t) T = _ from hb.symm]
    refine SimCV.bind (SimC.rdOld hr) (fun me => SimCV.bind Sim.rd.toC (fun o => ?_)) T
    rcases me.rot with _ | qm
    · rcases o.rot with _ | q <;> exact SimV.pure.toC
    · rcases o.rot with _ | q
      · exact SimV.pure.toC
      · exact (SimV.bind (Sim.lift _) (fun a => SimV.bind (Sim.lift _) (fun b =>
          SimV.last (Sim.onRef _)))).toC
  | adoptFirstPose t =>
    left
    show H.adoptFirstPose lib.toEuler lib.fromEuler r t false h = _
    unfold H.adoptFirstPose
    rw [SE.run_bind_ok (copyRef_run hr)]
    exact (sim_adoptFirstPose lib.toEuler lib.fromEuler h.length t T).toC T

end TC
