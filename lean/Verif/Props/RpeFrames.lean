import Verif.Props.Rpe
import Verif.Props.Metrics
import Verif.Props.ExactAte
/-!
# C157: the coordinate frames of the inputs of `rpe`

Two runs are compared step by step: one on the given trajectories, one on the moved trajectories.
-/
namespace TC
set_option linter.unusedSectionVars false
set_option linter.unusedSimpArgs false
open H
variable {K R : Type} [Field K] [LinearOrder K]

/-- What scipy's `Slerp` does: the interpolated rotation is the first one, followed by a rotation that depends
only on the turn from the first to the second and on the fraction (`r0 * exp(u log(r0⁻¹ r1))`). -/
def SlerpByTurn (L : RotLib K R) : Prop :=
  ∃ f : R → K → R, ∀ r0 r1 u, L.slerp r0 r1 u = L.mul r0 (f (L.mul (L.inv r0) r1) u)

/-! ### two runs in lockstep -/

/-- two outcomes: the same exception, or related values -/
def OutRel {α β : Type} (V : α → β → Prop) : Except Err α → Except Err β → Prop
  | .ok a, .ok b => V a b
  | .error e, .error f => e = f
  | _, _ => False

/-- two programs started in related states have related outcomes and end in related states -/
def Lock {σ σ' α β : Type} (Q : σ → σ' → Prop) (V : α → β → Prop) (m : SE σ α) (m' : SE σ' β) : Prop :=
  ∀ s s', Q s s' → OutRel V (m s).1 (m' s').1 ∧ Q (m s).2 (m' s').2

theorem Lock.bind {σ σ' α β γ δ : Type} {Q : σ → σ' → Prop} {V : α → β → Prop} {W : γ → δ → Prop}
    {m : SE σ α} {m' : SE σ' β} {f : α → SE σ γ} {f' : β → SE σ' δ} (hm : Lock Q V m m')
    (hf : ∀ a b, V a b → Lock Q W (f a) (f' b)) : Lock Q W (m >>= f) (m' >>= f') := by
  intro s s' h
  obtain ⟨h1, h2⟩ := hm s s' h
  rw [SE.run_bind, SE.run_bind]
  rcases e : m s with ⟨o, t⟩
  rcases e' : m' s' with ⟨o', t'⟩
  rw [e, e'] at h1 h2
  cases o <;> cases o' <;> simp only [OutRel] at h1 h2 ⊢
  · exact ⟨h1, h2⟩
  · exact hf _ _ h1 t t' h2

theorem Lock.pure {σ σ' α β : Type} {Q : σ → σ' → Prop} {V : α → β → Prop} {a : α} {b : β} (h : V a b) :
    Lock Q V (Pure.pure a : SE σ α) (Pure.pure b : SE σ' β) := fun _ _ hq => ⟨h, hq⟩

theorem Lock.lift {σ σ' α β : Type} {Q : σ → σ' → Prop} {V : α → β → Prop} {a : Except Err α} {b : Except Err β}
    (h : OutRel V a b) : Lock Q V (SE.lift a : SE σ α) (SE.lift b : SE σ' β) := fun _ _ hq => ⟨h, hq⟩

theorem Lock.raise {σ σ' α β : Type} {Q : σ → σ' → Prop} {V : α → β → Prop} {e : Err} :
    Lock Q V (SE.raise e : SE σ α) (SE.raise e : SE σ' β) := fun _ _ hq => ⟨rfl, hq⟩

theorem Lock.get {σ σ' : Type} {Q : σ → σ' → Prop} : Lock Q Q SE.get SE.get := fun _ _ hq => ⟨hq, hq⟩

theorem Lock.modify {σ σ' : Type} {Q : σ → σ' → Prop} {f : σ → σ} {g : σ' → σ'}
    (h : ∀ s s', Q s s' → Q (f s) (g s')) : Lock Q (fun _ _ => True) (SE.modify f) (SE.modify g) :=
  fun _ _ hq => ⟨trivial, h _ _ hq⟩

theorem OutRel.refl {α : Type} (a : Except Err α) : OutRel Eq a a := by cases a <;> rfl

theorem OutRel.of_eq {α : Type} {a b : Except Err α} (h : a = b) : OutRel Eq a b := h ▸ OutRel.refl a

theorem OutRel.map {α β : Type} (f : α → β) (a : Except Err α) :
    OutRel (fun x y => y = f x) a (a.map f) := by cases a <;> rfl

theorem OutRel.eq {α : Type} {a b : Except Err α} (h : OutRel Eq a b) : a = b := by
  cases a <;> cases b <;> simp_all [OutRel]

/-! ### indexing -/

theorem npTake_map {α β : Type} (f : α → β) (l : List α) (is : List Int) :
    npTake (l.map f) is = (npTake l is).map (List.map f) := by
  induction is with
  | nil => rfl
  | cons i is ih =>
    simp only [npTake, npGet_map, ih, Bind.bind, Except.bind, Pure.pure, Except.pure]
    rcases npGet l i with e | a
    · rfl
    rcases npTake l is with e | as <;> rfl

theorem npIndex_map {α β : Type} (f : α → β) (l : List α) (i : Index) :
    npIndex (l.map f) i = (npIndex l i).map (List.map f) := by
  cases i with
  | ints is => exact npTake_map f l is
  | mask m =>
    simp only [npIndex, npMask, List.length_map, maskList_map]
    split <;> rfl

theorem npIndex_len {α β : Type} {l : List α} {l' : List β} (h : l'.length = l.length) (i : Index) :
    OutRel (fun x y => y.length = x.length) (npIndex l i) (npIndex l' i) := by
  have e : l.map (fun _ => ()) = l'.map (fun _ => ()) := by
    apply List.ext_getElem (by simp [h]); intros; rfl
  have e1 := npIndex_map (fun _ => ()) l i
  have e2 := npIndex_map (fun _ => ()) l' i
  rw [← e, e1] at e2
  revert e2
  rcases npIndex l i with a | a <;> rcases npIndex l' i with b | b <;> simp only [Except.map] <;> intro e2
  · injection e2
  · cases e2
  · cases e2
  · injection e2 with e2
    have := congrArg List.length e2
    simpa [OutRel, eq_comm] using this

/-! ### moved trajectories -/

/-- an orientation seen from the other frame -/
def turnBy (L : RotLib K R) (A : M4 K) (q : R) : R := L.fromMat (poseRot A * L.toMat q)

/-- a position seen from the other frame -/
def moveBy (A : M4 K) (p : V3 K) : V3 K := mulV (poseRot A) p + posePos A

/-- the same trajectory seen from another frame; of the speeds only the number is related, because interpolation
computes new ones -/
structure Seen (L : RotLib K R) (A : M4 K) (T T' : Traj K R) : Prop where
  pos : T'.pos = T.pos.map (moveBy A)
  rot : T'.rot = T.rot.map (List.map (turnBy L A))
  tstamps : T'.tstamps = T.tstamps
  arc : T'.arc = T.arc
  speed : T'.speed.length = T.speed.length
  name : T'.name = T.name

theorem MovedBy.seen {L : RotLib K R} (hL : IsRotLib L) {A : M4 K} {T T' : Traj K R} (h : MovedBy L A T T') :
    Seen L A T T' := by
  refine ⟨h.pos, ?_, h.tstamps, h.arc, by rw [h.speed], h.name⟩
  have hr := h.rot
  rcases e : T.rot with _ | r <;> rcases e' : T'.rot with _ | r' <;> rw [e, e'] at hr <;> simp at hr ⊢
  have : r'.map (L.fromMat ∘ L.toMat) = r.map (fun q => L.fromMat (poseRot A * L.toMat q)) := by
    rw [← List.map_map, hr, List.map_map]; rfl
  rw [show (L.fromMat ∘ L.toMat) = id from funext hL.fromMat_toMat, List.map_id] at this
  exact this

theorem Seen.moved {L : RotLib K R} (hL : IsRotLib L) {A : M4 K} (hA : IsRigid A) {T T' : Traj K R}
    (h : Seen L A T T') :
    MovedBy L A T { T' with speed := T.speed, sorting := T.sorting, epsg := T.epsg } := by
  refine ⟨hA, h.pos, ?_, h.tstamps, h.arc, rfl, rfl, h.name, rfl⟩
  show T'.rot.map _ = _
  rw [h.rot]
  rcases T.rot with _ | r
  · rfl
  · simp only [Option.map_some, List.map_map, Option.some.injEq]
    apply List.map_congr_left
    intro q _
    exact hL.toMat_fromMat _ (hA.rot.mul (hL.rot q))

theorem Seen.applyIndex {L : RotLib K R} {A : M4 K} (i : Index) :
    Lock (Seen L A) (fun _ _ => True) (Traj.applyIndex i) (Traj.applyIndex i) := by
  unfold Traj.applyIndex
  refine Lock.bind Lock.get fun T T' h => ?_
  rw [h.tstamps]
  refine Lock.bind (Lock.lift (OutRel.refl _)) ?_
  rintro ts _ rfl
  refine Lock.bind (Lock.modify fun s s' h => ⟨h.pos, h.rot, rfl, h.arc, h.speed, h.name⟩) fun _ _ _ => ?_
  refine Lock.bind Lock.get fun T T' h => ?_
  rw [h.pos, npIndex_map]
  refine Lock.bind (Lock.lift (OutRel.map _ _)) ?_
  rintro ps _ rfl
  refine Lock.bind (Lock.modify fun s s' h => ⟨rfl, h.rot, h.tstamps, h.arc, h.speed, h.name⟩) fun _ _ _ => ?_
  refine Lock.bind Lock.get fun T T' h => ?_
  have tail : Lock (Seen L A) (fun _ _ => True)
      (do let s ← SE.get
          let as ← SE.lift (npIndex s.arc i)
          SE.modify (fun s => { s with arc := as })
          let s ← SE.get
          let vs ← SE.lift (npIndex s.speed i)
          SE.modify (fun s => { s with speed := vs }))
      (do let s ← SE.get
          let as ← SE.lift (npIndex s.arc i)
          SE.modify (fun s => { s with arc := as })
          let s ← SE.get
          let vs ← SE.lift (npIndex s.speed i)
          SE.modify (fun s => { s with speed := vs })) := by
    refine Lock.bind Lock.get fun T T' h => ?_
    rw [h.arc]
    refine Lock.bind (Lock.lift (OutRel.refl _)) ?_
    rintro as _ rfl
    refine Lock.bind (Lock.modify fun s s' h => ⟨h.pos, h.rot, h.tstamps, rfl, h.speed, h.name⟩) fun _ _ _ => ?_
    refine Lock.bind Lock.get fun T T' h => ?_
    refine Lock.bind (Lock.lift (npIndex_len h.speed i)) fun vs vs' hv => ?_
    exact Lock.modify fun s s' h => ⟨h.pos, h.rot, h.tstamps, h.arc, hv, h.name⟩
  rw [h.rot]
  rcases T.rot with _ | r
  · exact tail
  · simp only [Option.map_some, npIndex_map]
    refine Lock.bind (Lock.lift (OutRel.map _ _)) ?_
    rintro q _ rfl
    rw [List.length_map]
    split
    · exact Lock.bind (Lock.raise (V := fun _ _ => True)) fun _ _ _ => tail
    · exact Lock.bind (Lock.modify fun s s' h => ⟨h.pos, rfl, h.tstamps, h.arc, h.speed, h.name⟩) fun _ _ _ => tail

/-! ### interpolation -/

/-- `np.interp` at one place takes a weighted mean of two entries; which ones and the weight depend on the table's
first column only -/
theorem interpOne_weights {xp : List K} (h0 : 0 < xp.length) (x : K) :
    ∃ (i j : Nat) (w : K), ∀ fp : List K, fp.length = xp.length →
      ∃ a b, fp[i]? = some a ∧ fp[j]? = some b ∧ interpOne xp fp x = .ok ((1 - w) * a + w * b) := by
  have hle := searchRight_le xp x
  by_cases h1 : searchRight xp x = 0
  · refine ⟨0, 0, 0, fun fp hl => ⟨fp[0]'(by omega), fp[0]'(by omega), ?_, ?_, ?_⟩⟩
    · exact List.getElem?_eq_getElem _
    · exact List.getElem?_eq_getElem _
    · unfold interpOne
      simp only [h1, if_true]
      rw [npGet_zero (l := fp) (by omega)]
      simp
  have hc : ((searchRight xp x : Int) - 1) = ((searchRight xp x - 1 : Nat) : Int) := by omega
  by_cases h2 : searchRight xp x = xp.length
  · refine ⟨searchRight xp x - 1, searchRight xp x - 1, 0, fun fp hl =>
      ⟨fp[searchRight xp x - 1]'(by omega), fp[searchRight xp x - 1]'(by omega), ?_, ?_, ?_⟩⟩
    · exact List.getElem?_eq_getElem _
    · exact List.getElem?_eq_getElem _
    · unfold interpOne
      simp only [h1, if_false]
      rw [if_pos h2, hc, npGet_nat (l := fp) (by omega)]
      simp
  by_cases h3 : xp[searchRight xp x - 1]'(by omega) = x
  · refine ⟨searchRight xp x - 1, searchRight xp x - 1, 0, fun fp hl =>
      ⟨fp[searchRight xp x - 1]'(by omega), fp[searchRight xp x - 1]'(by omega), ?_, ?_, ?_⟩⟩
    · exact List.getElem?_eq_getElem _
    · exact List.getElem?_eq_getElem _
    · unfold interpOne
      simp only [h1, if_false]
      rw [if_neg h2, hc, npGet_nat (l := xp) (by omega), npGet_nat (l := fp) (by omega)]
      simp only [Bind.bind, Except.bind, Pure.pure, Except.pure]
      rw [if_pos h3]
      simp
  · refine ⟨searchRight xp x - 1, searchRight xp x,
      (x - xp[searchRight xp x - 1]'(by omega)) / (xp[searchRight xp x]'(by omega) - xp[searchRight xp x - 1]'(by omega)),
      fun fp hl => ⟨fp[searchRight xp x - 1]'(by omega), fp[searchRight xp x]'(by omega), ?_, ?_, ?_⟩⟩
    · exact List.getElem?_eq_getElem _
    · exact List.getElem?_eq_getElem _
    · unfold interpOne
      simp only [h1, if_false]
      rw [if_neg h2, hc, npGet_nat (l := xp) (by omega), npGet_nat (l := fp) (by omega)]
      simp only [Bind.bind, Except.bind, Pure.pure, Except.pure]
      rw [if_neg h3, npGet_nat (l := xp) (by omega), npGet_nat (l := fp) (by omega)]
      simp only
      congr 1
      rw [div_eq_mul_inv, div_eq_mul_inv]
      ring

/-- the positions interpolated at the places `qs` -/
def lerpAll (xp : List K) (pos : List (V3 K)) (qs : List K) : Except Err (List (V3 K)) :=
  (interpAll xp (pos.map V3.x) qs).bind fun xi => (interpAll xp (pos.map V3.y) qs).bind fun yi =>
    (interpAll xp (pos.map V3.z) qs).bind fun zi =>
      .ok (List.zipWith (fun x yz => ⟨x, yz.1, yz.2⟩) xi (yi.zip zi))

theorem lerpAll_moved {xp : List K} (h0 : 0 < xp.length) (A : M4 K) {pos : List (V3 K)}
    (hl : pos.length = xp.length) (qs : List K) :
    ∃ ps, lerpAll xp pos qs = .ok ps ∧ lerpAll xp (pos.map (moveBy A)) qs = .ok (ps.map (moveBy A)) := by
  induction qs with
  | nil => exact ⟨[], rfl, rfl⟩
  | cons q qs ih =>
    obtain ⟨ps, h1, h2⟩ := ih
    obtain ⟨i, j, w, hw⟩ := interpOne_weights h0 q
    have one : ∀ pos : List (V3 K), pos.length = xp.length → ∃ a b, pos[i]? = some a ∧ pos[j]? = some b ∧
        interpOne xp (pos.map V3.x) q = .ok ((1 - w) * a.x + w * b.x) ∧
        interpOne xp (pos.map V3.y) q = .ok ((1 - w) * a.y + w * b.y) ∧
        interpOne xp (pos.map V3.z) q = .ok ((1 - w) * a.z + w * b.z) := by
      intro pos hl
      obtain ⟨ax, bx, e1, e2, e3⟩ := hw (pos.map V3.x) (by simpa using hl)
      obtain ⟨ay, by', f1, f2, f3⟩ := hw (pos.map V3.y) (by simpa using hl)
      obtain ⟨az, bz, g1, g2, g3⟩ := hw (pos.map V3.z) (by simpa using hl)
      rw [List.getElem?_map, Option.map_eq_some_iff] at e1 e2 f1 f2 g1 g2
      obtain ⟨a, ha, rfl⟩ := e1
      obtain ⟨b, hb, rfl⟩ := e2
      obtain ⟨a', ha', rfl⟩ := f1
      obtain ⟨b', hb', rfl⟩ := f2
      obtain ⟨a'', ha'', rfl⟩ := g1
      obtain ⟨b'', hb'', rfl⟩ := g2
      rw [ha] at ha' ha''
      rw [hb] at hb' hb''
      injection ha' with ha'
      injection hb' with hb'
      injection ha'' with ha''
      injection hb'' with hb''
      subst ha' hb' ha'' hb''
      exact ⟨a, b, ha, hb, e3, f3, g3⟩
    have step : ∀ (pos ps : List (V3 K)) (a b : V3 K), lerpAll xp pos qs = .ok ps →
        interpOne xp (pos.map V3.x) q = .ok ((1 - w) * a.x + w * b.x) →
        interpOne xp (pos.map V3.y) q = .ok ((1 - w) * a.y + w * b.y) →
        interpOne xp (pos.map V3.z) q = .ok ((1 - w) * a.z + w * b.z) →
        lerpAll xp pos (q :: qs) = .ok (((1 - w) • a + w • b) :: ps) := by
      intro pos ps a b h e1 e2 e3
      unfold lerpAll at h ⊢
      simp only [interpAll, e1, e2, e3, Bind.bind, Except.bind, Pure.pure, Except.pure] at h ⊢
      revert h
      rcases interpAll xp (pos.map V3.x) qs with _ | xi
      · rintro ⟨⟩
      rcases interpAll xp (pos.map V3.y) qs with _ | yi
      · rintro ⟨⟩
      rcases interpAll xp (pos.map V3.z) qs with _ | zi
      · rintro ⟨⟩
      intro h
      simp only at h ⊢
      injection h with h
      rw [← h]
      rfl
    obtain ⟨a, b, ha, hb, e1, e2, e3⟩ := one pos hl
    obtain ⟨a', b', ha', hb', e1', e2', e3'⟩ := one (pos.map (moveBy A)) (by simpa using hl)
    rw [List.getElem?_map, ha, Option.map_some] at ha'
    rw [List.getElem?_map, hb, Option.map_some] at hb'
    injection ha' with ha'
    injection hb' with hb'
    subst ha' hb'
    refine ⟨_, step _ _ a b h1 e1 e2 e3, ?_⟩
    rw [step _ _ _ _ h2 e1' e2' e3', List.map_cons]
    congr 2
    ext <;> simp [moveBy, mulV] <;> ring

theorem interpolatePositions_lerp (qs : List K) (T : Traj K R) :
    Traj.interpolatePositions qs T =
      if T.tstamps.length = 0 ∨ T.tstamps.length ≠ T.pos.length then (.error .valueError, T)
      else match lerpAll T.tstamps T.pos qs with
        | .ok ps => (.ok (), { T with pos := ps })
        | .error e => (.error e, T) := by
  unfold Traj.interpolatePositions npInterp lerpAll
  simp only [List.length_map]
  by_cases h0 : T.tstamps.length = 0
  · rw [if_pos (Or.inl h0), SE.run_bind_ok (SE.run_get _), SE.run_bind_error]
    rw [SE.run_lift, if_pos h0]
  by_cases h1 : T.tstamps.length = T.pos.length
  · simp only [h0, h1, if_false, ne_eq, not_true, or_false, SE.run_bind, SE.run_get, SE.run_lift]
    rw [h1] at h0
    simp only [h0, if_false, Except.bind]
    rcases interpAll T.tstamps (T.pos.map V3.x) qs with _ | xi
    · rfl
    rcases interpAll T.tstamps (T.pos.map V3.y) qs with _ | yi
    · rfl
    rcases interpAll T.tstamps (T.pos.map V3.z) qs with _ | zi
    · rfl
    rfl
  · rw [if_pos (Or.inr h1), SE.run_bind_ok (SE.run_get _), SE.run_bind_error]
    rw [SE.run_lift, if_neg h0, if_pos h1]

theorem Seen.interpolatePositions {L : RotLib K R} {A : M4 K} (qs : List K) :
    Lock (Seen L A) (fun _ _ => True) (Traj.interpolatePositions qs) (Traj.interpolatePositions qs) := by
  intro T T' h
  rw [interpolatePositions_lerp, interpolatePositions_lerp, h.tstamps, h.pos, List.length_map]
  by_cases hc : T.tstamps.length = 0 ∨ T.tstamps.length ≠ T.pos.length
  · rw [if_pos hc, if_pos hc]
    exact ⟨rfl, h⟩
  · rw [if_neg hc, if_neg hc]
    rw [not_or, not_not] at hc
    obtain ⟨ps, h1, h2⟩ := lerpAll_moved (Nat.pos_of_ne_zero hc.1) A hc.2.symm qs
    rw [h1, h2]
    exact ⟨trivial, rfl, h.rot, rfl, h.arc, h.speed, h.name⟩

theorem slerp_turn {L : RotLib K R} (hL : IsRotLib L) (hs : SlerpByTurn L) {A : M4 K} (hA : IsRigid A) (a b : R) (u : K) :
    L.slerp (turnBy L A a) (turnBy L A b) u = turnBy L A (L.slerp a b u) := by
  obtain ⟨f, hf⟩ := hs
  have hm : ∀ q, L.toMat (turnBy L A q) = poseRot A * L.toMat q :=
    fun q => hL.toMat_fromMat _ (hA.rot.mul (hL.rot q))
  have hback : ∀ {x y : R}, L.toMat x = L.toMat y → x = y := by
    intro x y h
    rw [← hL.fromMat_toMat x, h, hL.fromMat_toMat]
  have hrel : L.mul (L.inv (turnBy L A a)) (turnBy L A b) = L.mul (L.inv a) b := by
    apply hback
    rw [hL.toMat_mul, hL.toMat_inv, hm, hm, hL.toMat_mul, hL.toMat_inv, Matrix.transpose_mul, Matrix.mul_assoc,
      ← Matrix.mul_assoc (poseRot A).transpose, mul_eq_one_comm.1 hA.rot.1, Matrix.one_mul]
  apply hback
  rw [hf, hrel, hL.toMat_mul, hm, hm, hf, hL.toMat_mul, Matrix.mul_assoc]

theorem slerpAll_moved {L : RotLib K R} (hL : IsRotLib L) (hs : SlerpByTurn L) {A : M4 K} (hA : IsRigid A)
    (times : List K) (rots : List R) (ts : List K) :
    Traj.slerpAll L times (rots.map (turnBy L A)) ts =
      (Traj.slerpAll L times rots ts).map (List.map (turnBy L A)) := by
  induction ts with
  | nil => rfl
  | cons t ts ih =>
    have one : Traj.slerpOne L times (rots.map (turnBy L A)) t =
        (Traj.slerpOne L times rots t).map (turnBy L A) := by
      unfold Traj.slerpOne
      simp only [npGet_map, Bind.bind, Except.bind, Pure.pure, Except.pure]
      rcases pyFirst times with _ | f
      · rfl
      simp only
      generalize (((if t = f then 0 else searchLeft times t - 1 : Nat)) : Int) = ind
      rcases npGet times ind with _ | t0
      · rfl
      rcases npGet times (ind + 1) with _ | t1
      · rfl
      rcases npGet rots ind with _ | r0
      · rfl
      rcases npGet rots (ind + 1) with _ | r1
      · rfl
      simp only [Except.map, slerp_turn hL hs hA]
    simp only [Traj.slerpAll, one, ih, Bind.bind, Except.bind, Pure.pure, Except.pure]
    rcases Traj.slerpOne L times rots t with _ | r
    · rfl
    rcases Traj.slerpAll L times rots ts with _ | rs <;> rfl

theorem slerpCall_moved {L : RotLib K R} (hL : IsRotLib L) (hs : SlerpByTurn L) {A : M4 K} (hA : IsRigid A)
    (times : List K) (rots : List R) (ts : List K) :
    Traj.slerpCall L times (rots.map (turnBy L A)) ts =
      (Traj.slerpCall L times rots ts).map (List.map (turnBy L A)) := by
  unfold Traj.slerpCall
  simp only [List.length_map, slerpAll_moved hL hs hA]
  simp only [Bind.bind, Except.bind, Pure.pure, Except.pure, throw, throwThe, MonadExceptOf.throw]
  by_cases h1 : rots.length < 2
  · simp [h1, Except.map]
  by_cases h2 : times.length ≠ rots.length
  · simp [h1, h2, Except.map]
  by_cases h3 : StrictAsc times
  · simp only [h1, h2, h3, if_false, not_true]
    rcases pyFirst times with _ | f
    · rfl
    rcases pyLast times with _ | l
    · rfl
    simp only
    split <;> rfl
  · simp [h1, h2, h3, Except.map]

theorem Seen.interpolateRotations {L : RotLib K R} (hL : IsRotLib L) (hs : SlerpByTurn L) {A : M4 K} (hA : IsRigid A)
    (qs : List K) :
    Lock (Seen L A) (fun _ _ => True) (Traj.interpolateRotations L qs) (Traj.interpolateRotations L qs) := by
  unfold Traj.interpolateRotations
  refine Lock.bind Lock.get fun T T' h => ?_
  rw [h.rot, h.tstamps]
  rcases T.rot with _ | r
  · exact Lock.pure trivial
  · simp only [Option.map_some, slerpCall_moved hL hs hA]
    split
    · exact Lock.pure trivial
    · refine Lock.bind (Lock.lift (OutRel.map _ _)) ?_
      rintro q _ rfl
      exact Lock.modify fun s s' h => ⟨h.pos, rfl, h.tstamps, h.arc, h.speed, h.name⟩

theorem gradient3d_len {p p' : List (V3 K)} (h : p'.length = p.length) (ts : List K) :
    OutRel (fun x y => y.length = x.length) (gradient3d p ts) (gradient3d p' ts) := by
  have hd : (diffs p').length = (diffs p).length := by simp [diffs, h]
  unfold gradient3d bcastDiv
  rw [hd]
  generalize diffs p = d at *
  generalize diffs p' = d' at *
  generalize diffs ts = t
  by_cases h1 : d.length = t.length
  · simp [h1, OutRel, Bind.bind, Except.bind, Pure.pure, Except.pure, hd]
  · rw [if_neg h1, if_neg h1]
    rcases t with _ | ⟨s, _ | ⟨s', t⟩⟩
    · rcases d with _ | ⟨v, _ | ⟨w, d⟩⟩ <;> rcases d' with _ | ⟨v', _ | ⟨w', d'⟩⟩ <;> simp at hd h1 ⊢ <;>
        simp [OutRel, Bind.bind, Except.bind, Pure.pure, Except.pure]
    · simp [OutRel, Bind.bind, Except.bind, Pure.pure, Except.pure, hd]
    · rcases d with _ | ⟨v, _ | ⟨w, d⟩⟩ <;> rcases d' with _ | ⟨v', _ | ⟨w', d'⟩⟩ <;> simp at hd h1 ⊢ <;>
        simp [OutRel, Bind.bind, Except.bind, Pure.pure, Except.pure]

/-! ### objects -/

/-- at the references where a frame is given, the objects of the two heaps are the same trajectory seen from two frames -/
def HeapSeen (L : RotLib K R) (F : Nat → Option (M4 K)) (h h' : Heap K R) : Prop :=
  ∀ r A, F r = some A → ∃ T T', h[r]? = some T ∧ h'[r]? = some T' ∧ Seen L A T T'

theorem Lock.rd {L : RotLib K R} {F : Nat → Option (M4 K)} {r : Nat} {A : M4 K} (hr : F r = some A) :
    Lock (HeapSeen L F) (Seen L A) (rd r) (rd r) := by
  intro h h' hh
  obtain ⟨T, T', e, e', hs⟩ := hh r A hr
  simp only [TC.rd, e, e']
  exact ⟨hs, hh⟩

theorem Lock.onRef {L : RotLib K R} {F : Nat → Option (M4 K)} {r : Nat} {A : M4 K} (hr : F r = some A) {α β : Type}
    {V : α → β → Prop} {m : SE (Traj K R) α} {m' : SE (Traj K R) β} (hm : Lock (Seen L A) V m m') :
    Lock (HeapSeen L F) V (onRef r m) (onRef r m') := by
  intro h h' hh
  obtain ⟨T, T', e, e', hs⟩ := hh r A hr
  obtain ⟨h1, h2⟩ := hm T T' hs
  simp only [TC.onRef, e, e']
  refine ⟨h1, ?_⟩
  intro k B hk
  by_cases hkr : r = k
  · subst hkr
    rw [hr] at hk
    injection hk with hk
    subst hk
    have l1 := (List.getElem?_eq_some_iff.1 e).1
    have l2 := (List.getElem?_eq_some_iff.1 e').1
    exact ⟨_, _, by simp [l1], by simp [l2], h2⟩
  · obtain ⟨U, U', f, f', hu⟩ := hh k B hk
    exact ⟨U, U', by rw [List.getElem?_set_ne hkr, f], by rw [List.getElem?_set_ne hkr, f'], hu⟩

section
variable {L : RotLib K R} {F : Nat → Option (M4 K)} {r : Nat} {A : M4 K}

theorem Lock.applyIndex (hr : F r = some A) (i : Index) :
    Lock (HeapSeen L F) Eq (H.applyIndex r i true) (H.applyIndex r i true) := by
  unfold H.applyIndex selfOrCopy
  refine Lock.bind (V := fun a b => a = r ∧ b = r) (Lock.pure ⟨rfl, rfl⟩) ?_
  rintro s s' ⟨rfl, rfl⟩
  exact Lock.bind (Lock.onRef hr (Seen.applyIndex i)) fun _ _ _ => Lock.pure rfl

theorem Lock.crop (hr : F r = some A) (a b : K) (inverse : Bool) :
    Lock (HeapSeen L F) Eq (H.crop r a b inverse true) (H.crop r a b inverse true) := by
  unfold H.crop
  refine Lock.bind (Lock.rd hr) fun T T' h => ?_
  rw [h.tstamps]
  exact Lock.applyIndex hr _

theorem Lock.intersect (hr : F r = some A) (ts : List K) (g : K) :
    Lock (HeapSeen L F) Eq (H.intersect r ts g true) (H.intersect r ts g true) := by
  unfold H.intersect selfOrCopy
  refine Lock.bind (V := fun a b => a = r ∧ b = r) (Lock.pure ⟨rfl, rfl⟩) ?_
  rintro s s' ⟨rfl, rfl⟩
  refine Lock.bind (Lock.rd hr) fun T T' h => ?_
  rw [h.tstamps]
  refine Lock.bind (Lock.lift (OutRel.refl _)) ?_
  rintro sp _ rfl
  rcases sp with _ | ⟨t0, t1⟩
  · exact Lock.raise
  · refine Lock.bind (Lock.crop hr _ _ _) fun _ _ _ => ?_
    refine Lock.bind (Lock.rd hr) fun T T' h => ?_
    rw [h.tstamps]
    refine Lock.bind (Lock.lift (OutRel.refl _)) ?_
    rintro idx _ rfl
    exact Lock.bind (Lock.applyIndex hr _) fun _ _ _ => Lock.pure rfl

theorem Lock.interpolate (hL : IsRotLib L) (hs : SlerpByTurn L) (hA : IsRigid A) (hr : F r = some A) (ts : List K) :
    Lock (HeapSeen L F) Eq (H.interpolate L r ts true) (H.interpolate L r ts true) := by
  unfold H.interpolate selfOrCopy
  refine Lock.bind (V := fun a b => a = r ∧ b = r) (Lock.pure ⟨rfl, rfl⟩) ?_
  rintro s s' ⟨rfl, rfl⟩
  refine Lock.bind (Lock.rd hr) fun T T' h => ?_
  rw [h.tstamps]
  refine Lock.bind (Lock.lift (OutRel.refl _)) ?_
  rintro c _ rfl
  refine Lock.bind (Lock.onRef hr (Seen.interpolatePositions c)) fun _ _ _ => ?_
  refine Lock.bind (Lock.onRef hr (Seen.interpolateRotations hL hs hA c)) fun _ _ _ => ?_
  refine Lock.bind (Lock.rd hr) fun T T' h => ?_
  refine Lock.bind (Lock.lift (gradient3d_len (by rw [h.pos, List.length_map]) c)) fun g g' hg => ?_
  refine Lock.bind (Lock.onRef hr (Lock.modify fun s s' h => ⟨h.pos, h.rot, h.tstamps, h.arc, hg, h.name⟩))
    fun _ _ _ => ?_
  refine Lock.bind (Lock.rd hr) fun T T' h => ?_
  rw [h.tstamps, h.arc]
  refine Lock.bind (Lock.lift (OutRel.refl _)) ?_
  rintro as _ rfl
  refine Lock.bind (Lock.onRef hr (Lock.modify fun s s' h => ⟨h.pos, h.rot, h.tstamps, rfl, h.speed, h.name⟩))
    fun _ _ _ => ?_
  refine Lock.bind (Lock.onRef hr (Lock.modify fun s s' h => ⟨h.pos, h.rot, rfl, h.arc, h.speed, h.name⟩))
    fun _ _ _ => ?_
  exact Lock.pure rfl

variable {u : Nat} {B : M4 K}

theorem Lock.matchTemporal (lib : MatchLib K R) (hr : F r = some A) (hu : F u = some B) (d : K) :
    Lock (HeapSeen L F) Eq (H.matchTemporal lib r u d) (H.matchTemporal lib r u d) := by
  unfold H.matchTemporal
  refine Lock.bind (Lock.rd hu) fun T T' h => ?_
  refine Lock.bind (Lock.rd hr) fun U U' g => ?_
  rw [h.tstamps, g.tstamps]
  refine Lock.bind (Lock.lift (OutRel.refl _)) ?_
  rintro m _ rfl
  unfold H.applyMatch
  refine Lock.bind (Lock.applyIndex hr _) ?_
  rintro t _ rfl
  refine Lock.bind (Lock.applyIndex hu _) ?_
  rintro v _ rfl
  exact Lock.pure rfl

theorem Lock.matchInterpolation {lib : MatchLib K R} (hL : IsRotLib lib.rot) (hs : SlerpByTurn lib.rot) (hA : IsRigid A)
    (hr : F r = some A) (hu : F u = some B) :
    Lock (HeapSeen lib.rot F) Eq (H.matchInterpolation lib r u) (H.matchInterpolation lib r u) := by
  unfold H.matchInterpolation
  refine Lock.bind (Lock.rd hu) fun T T' h => ?_
  rw [h.tstamps]
  refine Lock.bind (Lock.intersect hr _ _) fun _ _ _ => ?_
  refine Lock.bind (Lock.rd hr) fun T T' h => ?_
  rw [h.tstamps]
  refine Lock.bind (Lock.intersect hu _ _) fun _ _ _ => ?_
  refine Lock.bind (Lock.rd hu) fun T T' h => ?_
  rw [h.tstamps]
  refine Lock.bind (Lock.interpolate hL hs hA hr _) fun _ _ _ => ?_
  refine Lock.bind (Lock.rd hu) fun T T' h => ?_
  refine Lock.bind (Lock.onRef hr (Lock.modify fun s s' g => ⟨g.pos, g.rot, g.tstamps, h.arc, g.speed, g.name⟩))
    fun _ _ _ => ?_
  exact Lock.pure rfl

/-- matching by time does not look at positions or orientations -/
theorem Lock.matchByTime {lib : MatchLib K R} (hL : IsRotLib lib.rot) (hs : SlerpByTurn lib.rot) (hA : IsRigid A)
    (hr : F r = some A) (hu : F u = some B) (c c' : Nat) (s : MatchingSettings K)
    (h1 : s.method ≠ .nearestSpatial) (h2 : s.method ≠ .nearestSpatialInterpolated) :
    Lock (HeapSeen lib.rot F) Eq (H.matchTrajectories lib c r u s true) (H.matchTrajectories lib c' r u s true) := by
  unfold H.matchTrajectories selfOrCopy
  refine Lock.bind (V := fun a b => a = r ∧ b = r) (Lock.pure ⟨rfl, rfl⟩) ?_
  rintro t t' ⟨rfl, rfl⟩
  refine Lock.bind (V := fun a b => a = u ∧ b = u) (Lock.pure ⟨rfl, rfl⟩) ?_
  rintro v v' ⟨rfl, rfl⟩
  rcases hm : s.method
  · exact absurd hm h1
  · exact Lock.matchTemporal lib hr hu _
  · exact Lock.matchInterpolation hL hs hA hr hu
  · exact absurd hm h2
  · exact Lock.raise

end

/-- **C157**, positive part: with matching by time, the relative pose error of two trajectories (its result, or the
exception raised) does not change when the estimated trajectory is moved by one rigid motion and the ground truth by
another.  Missing for the full property: matching by position, see `C157_spatial_matching_depends_on_frames`. -/
theorem C157_rpe_frames_do_not_matter_partial [IsStrictOrderedRing K] [FloorRing K] (lib : MetricLib K R) (hL : IsRotLib lib.mat.rot)
    (hsl : SlerpByTurn lib.mat.rot) (hE : IsEvalLib lib.eval) (c c' : Nat) (s : ProcSettings K)
    (h1 : s.matching.method ≠ .nearestSpatial) (h2 : s.matching.method ≠ .nearestSpatialInterpolated)
    (A B : M4 K) (gt est : Nat) (hne : est ≠ gt) (h h' : Heap K R) (T T' U U' : Traj K R)
    (hT : h[est]? = some T) (hT' : h'[est]? = some T') (hU : h[gt]? = some U) (hU' : h'[gt]? = some U')
    (hA : MovedBy lib.mat.rot A T T') (hB : MovedBy lib.mat.rot B U U') :
    (H.rpe lib c' s gt est h').1 = (H.rpe lib c s gt est h).1 := by
  let F : Nat → Option (M4 K) := fun k => if k = est then some A else if k = gt then some B else none
  have hFe : F est = some A := by simp [F]
  have hFg : F gt = some B := by simp [F, Ne.symm hne]
  have hh : HeapSeen lib.mat.rot F h h' := by
    intro k C hk
    by_cases k1 : k = est
    · subst k1
      rw [hFe] at hk
      injection hk with hk
      subst hk
      exact ⟨T, T', hT, hT', hA.seen hL⟩
    by_cases k2 : k = gt
    · subst k2
      rw [hFg] at hk
      injection hk with hk
      subst hk
      exact ⟨U, U', hU, hU', hB.seen hL⟩
    · simp [F, k1, k2] at hk
  have key : Lock (HeapSeen lib.mat.rot F) Eq (H.rpe lib c s gt est) (H.rpe lib c' s gt est) := by
    unfold H.rpe
    refine Lock.bind (Lock.matchByTime hL hsl hA.rigid hFe hFg c c' s.matching h1 h2) fun _ _ _ => ?_
    refine Lock.bind (Lock.rd hFe) fun V V' hV => ?_
    refine Lock.bind (Lock.rd hFg) fun W W' hW => ?_
    refine Lock.lift (OutRel.of_eq ?_)
    exact (C62_frames_do_not_matter lib.eval hE lib.mat.rot hL A B V _ W _ (hV.moved hL hA.rigid)
      (hW.moved hL hB.rigid) s.relative).symm
  exact (key h h' hh).1.eq.symm

/-! ### matching by position -/

theorem exists_far (ps qs : List (V3 K)) [IsStrictOrderedRing K] (m : K) :
    ∃ c : K, ∀ p ∈ ps, ∀ q ∈ qs, m ≤ |p.x + c - q.x| := by
  have bound : ∀ l : List (V3 K), ∃ b, ∀ p ∈ l, |p.x| ≤ b := by
    intro l
    induction l with
    | nil => exact ⟨0, by simp⟩
    | cons a l ih =>
      obtain ⟨b, hb⟩ := ih
      refine ⟨max |a.x| b, ?_⟩
      intro p hp
      rcases List.mem_cons.1 hp with rfl | hp
      · exact le_max_left _ _
      · exact (hb p hp).trans (le_max_right _ _)
  obtain ⟨b1, h1⟩ := bound ps
  obtain ⟨b2, h2⟩ := bound qs
  refine ⟨m + b1 + b2, fun p hp q hq => ?_⟩
  have e1 := neg_le_of_abs_le (h1 p hp)
  have e2 := le_of_abs_le (h2 q hq)
  refine le_trans ?_ (le_abs_self _)
  linarith

theorem IsNorm.abs_x_le [IsStrictOrderedRing K] {nrm : V3 K → K} (h : IsNorm nrm) (v : V3 K) : |v.x| ≤ nrm v := by
  have h1 := h.sq v
  have h2 : v.x * v.x ≤ nrm v * nrm v := by
    rw [h1]
    have := mul_self_nonneg v.y
    have := mul_self_nonneg v.z
    unfold V3.normSq
    linarith
  exact abs_le_of_sq_le_sq (by rw [pow_two, pow_two]; exact h2) (h.nonneg v)

/-- With matching by position and any distance limit, every estimated trajectory can be shifted so far that its relative
pose error against the given ground truth is no longer computed. -/
theorem C157_far_away_nothing_is_matched [IsStrictOrderedRing K] [FloorRing K] (lib : MetricLib K R)
    (hn : IsNorm lib.mat.nrm)
    (hq : IsNearestQuery (fun p q => lib.mat.nrm (p - q)) lib.mat.queryP) (c : Nat) (s : ProcSettings K)
    (hm : s.matching.method = .nearestSpatial) (hd : 0 < s.matching.maxDistance) (gt est : Nat) (T U : Traj K R)
    (hT : T.pos ≠ []) :
    ∃ A : M4 K, IsRigid A ∧ ∀ (T' : Traj K R) (h : Heap K R), MovedBy lib.mat.rot A T T' → h[est]? = some T' →
      h[gt]? = some U → (H.rpe lib c s gt est h).1 = .error .valueError := by
  obtain ⟨d, hfar⟩ := exists_far T.pos U.pos s.matching.maxDistance
  refine ⟨mkPose 1 ⟨d, 0, 0⟩, mkPose_isRigid isRot_one _, ?_⟩
  intro T' h hmv he hg
  have hp := hmv.pos
  simp only [poseRot_mkPose, posePos_mkPose, mulV_one] at hp
  have hpne : T'.pos ≠ [] := by rw [hp]; simpa using hT
  have hkd : kdMatcher lib.mat.queryP U.pos T'.pos s.matching.maxDistance = .error .valueError := by
    apply kdMatcher_none _ _ _ _ hpne
    intro t r hc
    unfold closestOf at hc
    rw [if_neg (ne_of_gt hd)] at hc
    have hlt : t < T'.pos.length := by
      have := (List.getElem?_eq_some_iff.1 hc).1
      rwa [hq.length] at this
    obtain ⟨q, h1, -, h3⟩ := hq.found _ _ _ (by rintro m ⟨⟩; exact hd) t _ r (List.getElem?_eq_getElem hlt) hc
    have h4 := h3 _ rfl
    obtain ⟨p, hpm, hpe⟩ : ∃ p ∈ T.pos, T'.pos[t] = p + ⟨d, 0, 0⟩ := by
      have : T'.pos[t] ∈ T.pos.map (fun p => p + (⟨d, 0, 0⟩ : V3 K)) := by rw [← hp]; exact List.getElem_mem _
      obtain ⟨p, hpm, hpe⟩ := List.mem_map.1 this
      exact ⟨p, hpm, hpe.symm⟩
    have h5 := hfar p hpm q (List.mem_of_getElem? h1)
    have h6 := hn.abs_x_le (T'.pos[t] - q)
    rw [hpe] at h4 h6
    have : (p + (⟨d, 0, 0⟩ : V3 K) - q).x = p.x + d - q.x := by simp
    rw [this] at h6
    exact absurd (h5.trans h6) (not_le.2 h4)
  simp [H.rpe, H.matchTrajectories, hm, selfOrCopy, H.matchSpatial, SE.run_bind, TC.rd, he, hg, hkd]

/-- matching by position of two trajectories with the same, pairwise different positions changes nothing -/
theorem matchSpatial_same [IsStrictOrderedRing K] (lib : MatchLib K R) (hn : IsNorm lib.nrm)
    (hq : IsNearestQuery (fun p q => lib.nrm (p - q)) lib.queryP) (c : Nat)
    (s : MatchingSettings K) (hs : s.method = .nearestSpatial) (hm : 0 < s.maxDistance)
    {T U : Traj K R} (hT : Coherent T) (hU : Coherent U) (hpU : U.pos = T.pos) (hnd : T.pos.Nodup)
    (hne : T.tstamps ≠ []) {h : Heap K R} {f t : Nat} (hf : h[f]? = some T) (ht : h[t]? = some U) :
    matchTrajectories lib c f t s true h = (.ok (f, t), h) := by
  have fset : ∀ {k : Nat} {X : Traj K R}, h[k]? = some X → h.set k X = h := by
    intro k X hk
    obtain ⟨hk1, hk2⟩ := List.getElem?_eq_some_iff.1 hk
    rw [← hk2, List.set_getElem_self]
  have hbound : ∀ m, some s.maxDistance = some m → 0 < m := by rintro m ⟨⟩; exact hm
  have hcl : closestOf lib.queryP T.pos T.pos s.maxDistance = lib.queryP T.pos (some s.maxDistance) T.pos := by
    unfold closestOf
    rw [if_neg (ne_of_gt hm)]
  have hlenU : U.tstamps.length = T.tstamps.length := by rw [← hU.pos, hpU, hT.pos]
  have hk : kdMatcher lib.queryP T.pos T.pos s.maxDistance =
      .ok (List.range T.tstamps.length, List.range T.tstamps.length) := by
    rw [← hT.pos]
    apply kdMatcher_diagonal
    · intro h0
      rw [← List.length_eq_zero_iff, hT.pos, List.length_eq_zero_iff] at h0
      exact hne h0
    · intro i hi
      rw [hcl]
      have hl := hq.length T.pos (some s.maxDistance) T.pos
      have hi' := List.getElem?_eq_getElem hi
      rcases hr : (lib.queryP T.pos (some s.maxDistance) T.pos)[i]? with _ | _ | r
      · rw [List.getElem?_eq_none_iff] at hr
        omega
      · obtain ⟨m, h1, h2⟩ := hq.missing _ _ _ hbound i _ hi' hr _ (List.getElem_mem hi)
        have := hbound m h1
        simp only [sub_self, hn.zero] at h2
        exact absurd this (not_lt.2 h2)
      · obtain ⟨q, h1, h2, -⟩ := hq.found _ _ _ hbound i _ r hi' hr
        have := h2 _ (List.getElem_mem hi)
        simp only [sub_self, hn.zero] at this
        have hqe : T.pos[i] = q := sub_eq_zero.1 (hn.eq_zero (le_antisymm this (hn.nonneg _)))
        obtain ⟨h3, h4⟩ := List.getElem?_eq_some_iff.1 h1
        rw [← hqe] at h4
        rw [(List.Nodup.getElem_inj_iff hnd).1 h4]
    · rw [hcl]
      exact hq.length _ _ _
  unfold matchTrajectories
  rw [selfOrCopy_true, selfOrCopy_true, pure_bind', pure_bind', hs]
  simp only
  unfold matchSpatial
  have g1 := sim_applyIndex f (.ints ((List.range T.tstamps.length).map (fun i : Nat => (i : Int)))) h T hf
  rw [applyIndex_range hT hne] at g1
  simp only [Except.map, fset hf] at g1
  have g2 := sim_applyIndex t (.ints ((List.range T.tstamps.length).map (fun i : Nat => (i : Int)))) h U ht
  rw [← hlenU, applyIndex_range hU (by intro h0; rw [h0] at hlenU; exact hne (List.length_eq_zero_iff.1 hlenU.symm))] at g2
  simp only [Except.map, fset ht] at g2
  rw [SE.run_bind_ok (rd_run ht), SE.run_bind_ok (rd_run hf), hpU, hk, SE.run_bind_ok (SE.run_lift _ _)]
  unfold applyMatch
  rw [hlenU] at g2
  rw [SE.run_bind_ok g1, SE.run_bind_ok g2]
  rfl

/-- **C157 is false of the code** with matching by position, whatever the library routines are: a trajectory compared
with its copy has a relative pose error, and a shifted copy has none. -/
theorem C157_spatial_matching_depends_on_frames [IsStrictOrderedRing K] [FloorRing K] (lib : MetricLib K R)
    (hn : IsNorm lib.mat.nrm) (hq : IsNearestQuery (fun p q => lib.mat.nrm (p - q)) lib.mat.queryP) (c : Nat)
    (al : AlignSettings K) :
    ∃ (s : ProcSettings K) (A : M4 K) (T T' U : Traj K R), s.align = al ∧ s.matching.method = .nearestSpatial ∧
      Coherent T ∧ Coherent U ∧ MovedBy lib.mat.rot A T T' ∧
      (∃ r, (H.rpe lib c s 1 0 [T, U]).1 = .ok r) ∧ (H.rpe lib c s 1 0 [T', U]).1 = .error .valueError := by
  let T : Traj K R := exPair 0 ⟨1, 0, 0⟩
  let s : ProcSettings K := ⟨al, ⟨.nearestSpatial, 1, 1, 1⟩, exThird⟩
  have hT : Coherent T := ⟨rfl, rfl, rfl, by rintro r ⟨⟩⟩
  obtain ⟨A, hA, hfar⟩ := C157_far_away_nothing_is_matched lib hn hq c s rfl zero_lt_one 1 0 T T (by simp [T, exPair])
  have hmv : MovedBy lib.mat.rot A T { T with pos := T.pos.map (fun p => mulV (poseRot A) p + posePos A) } :=
    ⟨hA, rfl, rfl, rfl, rfl, rfl, rfl, rfl, rfl⟩
  refine ⟨s, A, T, _, T, rfl, rfl, hT, hT, hmv, ?_, hfar _ _ hmv rfl rfl⟩
  have hms := matchSpatial_same lib.mat hn hq c s.matching rfl zero_lt_one hT hT rfl
    (by simp [T, exPair, V3.ext_iff]) (by simp [T, exPair]) (h := [T, T]) (f := 0) (t := 1) rfl rfl
  have hres : (H.rpe lib c s 1 0 [T, T]).1 = compareRelative lib.eval lib.mat.rot T T exThird := by
    unfold H.rpe
    rw [SE.run_bind_ok hms]
    rfl
  exact ⟨_, hres.trans (exThird_result lib.eval lib.mat.rot 0 ⟨1, 0, 0⟩ 0 ⟨1, 0, 0⟩)⟩

/-! ### a case that meets the hypotheses -/

/-- rotation matrices; the interpolated rotation is one of the two -/
noncomputable def exStepLib : MetricLib ℝ RotMat :=
  { exactMetricLib with mat := { exactMetricLib.mat with rot := matLib (fun a b u => open Classical in if u = 1 then b else a) } }

example : IsRotLib exStepLib.mat.rot ∧ SlerpByTurn exStepLib.mat.rot ∧ IsEvalLib exStepLib.eval ∧
    IsNorm exStepLib.mat.nrm ∧ IsNearestQuery (fun p q => exStepLib.mat.nrm (p - q)) exStepLib.mat.queryP := by
  have hL : IsRotLib exStepLib.mat.rot := matLib_isRotLib _
  refine ⟨hL, ⟨fun d u => open Classical in if u = 1 then d else ⟨1, isRot_one⟩, ?_⟩, ?_, realNorm_isNorm, bruteQuery_isNearest _⟩
  · intro a b u
    apply Subtype.ext
    by_cases hu : u = 1
    · subst hu
      show (if (1 : ℝ) = 1 then b else a).1 = a.1 * (if (1 : ℝ) = 1 then _ else _ : RotMat).1
      rw [if_pos rfl, if_pos rfl]
      show b.1 = a.1 * (a.1.transpose * b.1)
      rw [← Matrix.mul_assoc, a.2.1, Matrix.one_mul]
    · show (if u = 1 then b else a).1 = a.1 * (if u = 1 then _ else _ : RotMat).1
      rw [if_neg hu, if_neg hu, Matrix.mul_one]
  · exact ⟨realNorm_isNorm, fun x _ => Real.sqrt_nonneg x, fun x hx => Real.mul_self_sqrt hx, Real.arccos_one⟩

/-- a quarter turn and a shift of a trajectory with orientations is a motion in the sense of the theorem -/
example : ∃ A : M4 ℝ, ∃ T T' : Traj ℝ RotMat, MovedBy exStepLib.mat.rot A T T' ∧ T.rot.isSome ∧ T'.pos ≠ T.pos ∧
    T'.rot ≠ T.rot := by
  have hq : IsRot (!![0, -1, 0; 1, 0, 0; 0, 0, 1] : M3 ℝ) := by
    constructor
    · ext i j; fin_cases i <;> fin_cases j <;> simp [Matrix.mul_apply, Fin.sum_univ_three]
    · simp [Matrix.det_fin_three]
  refine ⟨mkPose !![0, -1, 0; 1, 0, 0; 0, 0, 1] ⟨5, 6, 7⟩,
    { tstamps := [0, 1], pos := [0, ⟨1, 0, 0⟩], rot := some [⟨1, isRot_one⟩, ⟨_, hq⟩], arc := [0, 1], speed := [0, 0]
      sorting := .time, name := "a", epsg := 0 },
    { tstamps := [0, 1], pos := [⟨5, 6, 7⟩, ⟨5, 7, 7⟩], rot := some [⟨_, hq⟩, ⟨_, hq.mul hq⟩], arc := [0, 1], speed := [0, 0]
      sorting := .time, name := "a", epsg := 0 },
    ⟨mkPose_isRigid hq _, ?_, ?_, rfl, rfl, rfl, rfl, rfl, rfl⟩, rfl, ?_, ?_⟩
  · simp [mulV, V3.ext_iff]; norm_num
  · simp [exStepLib, matLib]
  · simp [V3.ext_iff]
  · intro h
    have := congrArg (fun o => o.map (fun r => r.map (fun a : RotMat => a.1 0 0))) h
    simp at this

end TC
