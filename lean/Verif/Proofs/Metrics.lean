import Verif.Model.Metrics
import Verif.Props.MatchInterp
import Verif.Props.MatchRest
import Verif.Props.Histories
/-!
# Lemmas about the whole evaluation
-/
namespace TC
set_option linter.unusedSectionVars false
open H
variable {K R : Type} [Field K] [LinearOrder K]

/-! ### which objects are touched -/

theorem Frame.speedFilter {n r : Nat} (hr : n ≤ r) (nrm : V3 K → K) (m : K) :
    Frame n (H.speedFilter nrm r m : SE (Heap K R) Unit) :=
  Frame.bind Frame.rd (fun _ => Frame.bind (Frame.applyIndex hr _) (fun _ => Frame.pure _))

theorem Frame.timeFilter {n f t : Nat} (hf : n ≤ f) (ht : n ≤ t) (s : AlignSettings K) :
    Frame n (H.timeFilter s f t : SE (Heap K R) Unit) := by
  unfold H.timeFilter
  exact Frame.ite (Frame.bind Frame.rd (fun _ => Frame.bind (Frame.lift _) (fun _ =>
    Frame.bind (Frame.crop ht _ _ _) (fun _ => Frame.bind (Frame.crop hf _ _ _) (fun _ => Frame.pure _)))))
    (Frame.pure _)

theorem Frame.matchInplace {n f t : Nat} (hf : n ≤ f) (ht : n ≤ t) (lib : MatchLib K R) (c : Nat)
    (s : MatchingSettings K) : Frame n (H.matchTrajectories lib c f t s true) := by
  unfold H.matchTrajectories
  rw [selfOrCopy_true, selfOrCopy_true, pure_bind', pure_bind']
  rcases s.method with _ | _ | _ | _ | _
  · exact Frame.matchSpatial hf ht lib _
  · exact Frame.matchTemporal hf ht lib _
  · exact Frame.matchInterpolation hf ht lib
  · exact Frame.matchSpatialInterpolation lib _ _ _
  · exact Frame.raise _

theorem Frame.setup {n f t : Nat} (hf : n ≤ f) (ht : n ≤ t) (lib : MetricLib K R) (c : Nat) (s : AlignSettings K)
    (ms : MatchingSettings K) : Frame n (H.setup lib c s ms f t) := by
  unfold H.setup
  refine Frame.bind (Frame.speedFilter ht _ _) (fun _ => Frame.bind (Frame.speedFilter hf _ _) (fun _ =>
    Frame.bind (Frame.timeFilter hf ht _) (fun _ => Frame.bind Frame.rd (fun _ => Frame.bind Frame.rd (fun _ => ?_)))))
  refine Frame.guard (fun _ => Frame.bind (Frame.matchInplace hf ht _ _ _) (fun _ => Frame.bind Frame.rd (fun _ =>
    Frame.bind Frame.rd (fun _ => Frame.bind (Frame.lift _) (fun _ => Frame.bind (Frame.lift _) (fun _ =>
    Frame.bind (Frame.lift _) (fun _ => Frame.bind (Frame.lift _) (fun _ => Frame.bind (Frame.lift _) (fun _ =>
    Frame.pure _)))))))))

theorem Frame.alignData {n f t : Nat} (lib : MetricLib K R) (c : Nat) (s : AlignSettings K)
    (ms : MatchingSettings K) : Frame n (H.alignData lib c s ms f t) :=
  frame_copies (fun _ _ ha hb => Frame.bind (Frame.setup ha hb _ _ _ _) (fun _ => Frame.pure _))

theorem Frame.applyTransformation_copy {n r : Nat} (L : RotLib K R) (A : M4 K) :
    Frame n (H.applyTransformation L r A false) := by
  unfold H.applyTransformation
  refine Frame.bind' (m := TC.copyRef r) Frame.copyRef (fun h a h' hn ha => ?_)
  have : n ≤ a := by rw [copyRef_ok ha]; exact hn
  exact Frame.bind Frame.rd (fun _ => Frame.bind (Frame.onRef this _) (fun _ => Frame.pure _))

theorem Frame.applyAlignment_copy {n r : Nat} (L : RotLib K R) (τ : Trig K) (toEuler : R → V3 K)
    (q : Equations.Params K) (sensor : R) : Frame n (H.applyAlignment L τ toEuler r q sensor false) := by
  unfold H.applyAlignment
  refine Frame.bind' (m := TC.copyRef r) Frame.copyRef (fun h a h' hn ha => ?_)
  have : n ≤ a := by rw [copyRef_ok ha]; exact hn
  exact Frame.bind (Frame.onRef this _) (fun _ => Frame.pure _)

theorem Frame.sensorRotation {n : Nat} (lib : MetricLib K R) (s : AlignSettings K) (d : AlignData K) (p : PSet K) :
    Frame n (H.sensorRotation lib s d p) := by
  unfold H.sensorRotation
  refine Frame.bind Frame.rd (fun o => Frame.bind Frame.rd (fun q => ?_))
  split
  · refine Frame.bind (Frame.applyTransformation_copy _ _) (fun _ => Frame.bind Frame.rd (fun o => ?_))
    split
    · exact Frame.bind (Frame.lift _) (fun _ => Frame.lift _)
    · exact Frame.raise _
  · exact Frame.pure _

theorem Frame.estimateAlignment {n f t : Nat} (lib : MetricLib K R) (c : Nat) (s : AlignSettings K)
    (ms : MatchingSettings K) : Frame n (H.estimateAlignment lib c s ms f t) := by
  unfold H.estimateAlignment
  refine Frame.bind (Frame.alignData _ _ _ _) (fun d => Frame.bind (Frame.lift _) (fun e => ?_))
  split
  · exact Frame.pure _
  · exact Frame.bind (Frame.sensorRotation _ _ _ _) (fun _ => Frame.bind Frame.rd (fun _ =>
      Frame.bind Frame.rd (fun _ => Frame.pure _)))

/-- the computation keeps all objects but two, whatever its outcome -/
def Touches (f t : Nat) {α : Type} (m : SE (Heap K R) α) : Prop :=
  ∀ h, h.length ≤ (m h).2.length ∧ ∀ k, k < h.length → k ≠ f → k ≠ t → (m h).2[k]? = h[k]?

theorem Touches.of_frame {f t : Nat} {α : Type} {m : SE (Heap K R) α} (h : ∀ n, Frame n m) : Touches f t m := by
  intro h0
  obtain ⟨h1, h2⟩ := h h0.length h0 (le_refl _)
  refine ⟨h1, fun k hk _ _ => ?_⟩
  rw [List.take_length] at h2
  conv_rhs => rw [← h2]
  rw [List.getElem?_take, if_pos hk]

variable {α β : Type} {f t : Nat}

theorem Touches.pure (a : α) : Touches f t (Pure.pure a : SE (Heap K R) α) :=
  fun _ => ⟨le_refl _, fun _ _ _ _ => rfl⟩

theorem Touches.lift (e : Except Err α) : Touches f t (SE.lift e : SE (Heap K R) α) :=
  fun _ => ⟨le_refl _, fun _ _ _ _ => rfl⟩

theorem Touches.raise (e : Err) : Touches f t (SE.raise e : SE (Heap K R) α) :=
  fun _ => ⟨le_refl _, fun _ _ _ _ => rfl⟩

theorem Touches.bind {m : SE (Heap K R) α} {g : α → SE (Heap K R) β} (h1 : Touches f t m)
    (h2 : ∀ a, Touches f t (g a)) : Touches f t (m >>= g) := by
  intro h
  obtain ⟨a1, a2⟩ := h1 h
  rw [SE.run_bind]
  rcases hm : m h with ⟨e | a, h'⟩
  · rw [hm] at a1 a2
    exact ⟨a1, a2⟩
  · rw [hm] at a1 a2
    obtain ⟨b1, b2⟩ := h2 a h'
    exact ⟨le_trans a1 b1, fun k hk h3 h4 => (b2 k (lt_of_lt_of_le hk a1) h3 h4).trans (a2 k hk h3 h4)⟩

theorem Touches.rd {r : Nat} : Touches f t (TC.rd r : SE (Heap K R) _) :=
  Touches.of_frame (fun _ => Frame.rd)

theorem Touches.onRef {r : Nat} (hr : r = f ∨ r = t) (m : SE (Traj K R) α) : Touches f t (TC.onRef r m) := by
  intro h
  unfold TC.onRef
  cases h[r]? with
  | none => exact ⟨le_refl _, fun _ _ _ _ => rfl⟩
  | some T =>
    refine ⟨by simp, fun k _ h3 h4 => ?_⟩
    rw [List.getElem?_set_ne]
    rintro rfl
    exact hr.elim h3 h4

theorem Touches.applyIndex {r : Nat} (hr : r = f ∨ r = t) (i : Index) :
    Touches f t (H.applyIndex r i true : SE (Heap K R) Nat) :=
  show Touches f t (TC.onRef r (Traj.applyIndex i) >>= fun _ => Pure.pure r) from
    Touches.bind (Touches.onRef hr _) (fun _ => Touches.pure r)

theorem Touches.intersect {r : Nat} (hr : r = f ∨ r = t) (ts : List K) (g : K) :
    Touches f t (H.intersect r ts g true : SE (Heap K R) Nat) := by
  unfold H.intersect
  rw [selfOrCopy_true, pure_bind']
  refine Touches.bind Touches.rd (fun o => Touches.bind (Touches.lift _) (fun sp => ?_))
  rcases sp with _ | ⟨a, b⟩
  · exact Touches.raise _
  · exact Touches.bind (Touches.bind Touches.rd (fun _ => Touches.applyIndex hr _)) (fun _ => Touches.bind Touches.rd
      (fun _ => Touches.bind (Touches.lift _) (fun _ => Touches.bind (Touches.applyIndex hr _) (fun _ => Touches.pure _))))

theorem Touches.interpolate {r : Nat} (hr : r = f ∨ r = t) (L : RotLib K R) (ts : List K) :
    Touches f t (H.interpolate L r ts true : SE (Heap K R) Nat) := by
  unfold H.interpolate
  simp only
  rw [selfOrCopy_true, pure_bind']
  exact Touches.bind Touches.rd (fun _ => Touches.bind (Touches.lift _) (fun _ =>
    Touches.bind (Touches.onRef hr _) (fun _ => Touches.bind (Touches.onRef hr _) (fun _ =>
    Touches.bind Touches.rd (fun _ => Touches.bind (Touches.lift _) (fun _ =>
    Touches.bind (Touches.onRef hr _) (fun _ => Touches.bind Touches.rd (fun _ =>
    Touches.bind (Touches.lift _) (fun _ => Touches.bind (Touches.onRef hr _) (fun _ =>
    Touches.bind (Touches.onRef hr _) (fun _ => Touches.pure _)))))))))))

theorem Touches.applyMatch (m : List Nat × List Nat) : Touches f t (H.applyMatch f t m : SE (Heap K R) _) :=
  Touches.bind (Touches.applyIndex (.inl rfl) _) (fun _ => Touches.bind (Touches.applyIndex (.inr rfl) _)
    (fun _ => Touches.pure _))

theorem Touches.matchInplace (lib : MatchLib K R) (c : Nat) (s : MatchingSettings K) :
    Touches f t (H.matchTrajectories lib c f t s true) := by
  unfold H.matchTrajectories
  rw [selfOrCopy_true, selfOrCopy_true, pure_bind', pure_bind']
  rcases s.method with _ | _ | _ | _ | _
  · exact Touches.bind Touches.rd (fun _ => Touches.bind Touches.rd (fun _ => Touches.bind (Touches.lift _)
      (fun _ => Touches.applyMatch _)))
  · exact Touches.bind Touches.rd (fun _ => Touches.bind Touches.rd (fun _ => Touches.bind (Touches.lift _)
      (fun _ => Touches.applyMatch _)))
  · exact Touches.bind Touches.rd (fun _ => Touches.bind (Touches.intersect (.inl rfl) _ _) (fun _ =>
      Touches.bind Touches.rd (fun _ => Touches.bind (Touches.intersect (.inr rfl) _ _) (fun _ =>
      Touches.bind Touches.rd (fun _ => Touches.bind (Touches.interpolate (.inl rfl) _ _) (fun _ =>
      Touches.bind Touches.rd (fun _ => Touches.bind (Touches.onRef (.inl rfl) _) (fun _ => Touches.pure _))))))))
  · exact Touches.of_frame (fun _ => Frame.matchSpatialInterpolation lib _ _ _)
  · exact Touches.raise _

theorem Touches.ate (lib : MetricLib K R) (c : Nat) (s : ProcSettings K) (gt est : Nat) :
    Touches est gt (H.ate lib c s gt est) := by
  unfold H.ate
  refine Touches.bind (Touches.matchInplace _ _ _) (fun _ => Touches.bind
    (Touches.of_frame (fun _ => Frame.estimateAlignment _ _ _ _)) (fun al => ?_))
  rcases al with _ | a
  · exact Touches.pure _
  · exact Touches.bind (Touches.of_frame (fun _ => Frame.applyAlignment_copy _ _ _ _ _)) (fun _ =>
      Touches.bind Touches.rd (fun _ => Touches.bind Touches.rd (fun _ => Touches.bind (Touches.lift _)
      (fun _ => Touches.pure _))))

theorem Touches.rpe [FloorRing K] (lib : MetricLib K R) (c : Nat) (s : ProcSettings K) (gt est : Nat) :
    Touches est gt (H.rpe lib c s gt est) := by
  unfold H.rpe
  exact Touches.bind (Touches.matchInplace _ _ _) (fun _ => Touches.bind Touches.rd (fun _ =>
    Touches.bind Touches.rd (fun _ => Touches.lift _)))

/-! ### matching in place -/

theorem interpolateRotations_meta (L : RotLib K R) {c : List K} {S S' : Traj K R}
    (h : Traj.interpolateRotations L c S = (.ok (), S')) : S'.rot.isSome = S.rot.isSome := by
  unfold Traj.interpolateRotations at h
  rw [SE.run_bind_ok (SE.run_get S)] at h
  rcases hr : S.rot with _ | r
  · rw [hr] at h
    obtain ⟨-, rfl⟩ := Prod.mk.inj h
    rw [hr]
  · rw [hr] at h
    simp only at h
    split_ifs at h with hc
    · obtain ⟨-, rfl⟩ := Prod.mk.inj h
      rw [hr]
    · obtain ⟨q, S1, -, h2⟩ := returns_bind h
      obtain ⟨-, rfl⟩ := Prod.mk.inj h2
      rfl

theorem kdMatcher_length {P : Type} {query : KdQuery K P} {ref test : List P} {m : K} {p : List Nat × List Nat}
    (h : kdMatcher query ref test m = .ok p) : p.1.length = p.2.length := by
  have take_length : ∀ {α : Type} {l : List α} {p : List Nat} {r : List α},
      Traj.take l p = .ok r → r.length = p.length := by
    intro α l p r h
    have := npTake_length h
    simpa using this
  unfold kdMatcher at h
  simp only [bind, Except.bind, pure, Except.pure] at h
  generalize (if m = 0 then query ref none test else query ref (some m) test) = cl at h
  split at h
  · simp [throw, throwThe, MonadExceptOf.throw] at h
  · split at h
    · simp [throw, throwThe, MonadExceptOf.throw] at h
    · split at h
      · simp at h
      · rename_i r hr
        split at h
        · simp at h
        · rename_i u hu
          injection h with h
          subst h
          show r.length = u.length
          rw [take_length hr, take_length hu]

/-- what is known of two trajectories after matching in place -/
structure MatchedPair (T U T' U' : Traj K R) : Prop where
  test : T'.pos ≠ [] → Coherent T'
  ref : Coherent U'
  length : T'.pos.length = U'.pos.length
  testMeta : SameMeta T T'
  refMeta : SameMeta U U'

theorem pick_ints_length {α : Type} {l : List α} {p : List Int} (h : IndexValid l.length (.ints p)) :
    (pick (.ints p) l).length = p.length := by
  simp only [pick]
  induction p with
  | nil => rfl
  | cons a p ih =>
    have ha := h a (by simp)
    have := ih (fun i hi => h i (by simp [hi]))
    rcases hp : pyPos l.length a with _ | j
    · exact absurd hp ha
    · have hj : j < l.length := by
        unfold pyPos at hp
        split_ifs at hp <;> simp at hp <;> omega
      rw [List.filterMap_cons_some (b := l[j]) (by simp [hp, hj])]
      simp [this]

theorem simV_returns' {r v : Nat} {P : SE (Heap K R) Nat} {m : SE (Traj K R) Unit}
    (hs : SimV r v P m) {h h' : Heap K R} {T : Traj K R} (hr : h[r]? = some T) {a : Nat}
    (hret : P h = (.ok a, h')) : a = v ∧ ∃ T', m T = (.ok (), T') ∧ h' = h.set r T' := by
  rw [hs h T hr] at hret
  rcases hm : m T with ⟨e | u, T'⟩
  · rw [hm] at hret; simp [Except.map] at hret
  · rw [hm] at hret
    simp only [Except.map, Prod.mk.injEq, Except.ok.injEq] at hret
    exact ⟨hret.1.symm, T', rfl, hret.2.symm⟩

theorem applyIndex_returns {index : Index} {T T' : Traj K R} (hT : Coherent T)
    (h : Traj.applyIndex index T = (.ok (), T')) :
    IndexValid T.tstamps.length index ∧ T' = pickTraj index T ∧ Coherent T' ∧ SameMeta T T' := by
  rw [applyIndex_eq' hT] at h
  split_ifs at h with h1 h2
  · simp at h
  · obtain ⟨-, rfl⟩ := Prod.mk.inj h
    exact ⟨h1, rfl, pickTraj_coherent hT, pickTraj_sameMeta index T⟩
  · simp at h

theorem applyMatch_inplace {T U : Traj K R} (hT : Coherent T) (hU : Coherent U) {h h' : Heap K R} {f t : Nat}
    (hf : h[f]? = some T) (ht : h[t]? = some U) (hft : f ≠ t) {m : List Nat × List Nat} (hm : m.1.length = m.2.length)
    {a : Nat × Nat} (hret : applyMatch f t m h = (.ok a, h')) :
    a = (f, t) ∧ ∃ T' U', h' = (h.set f T').set t U' ∧ MatchedPair T U T' U' := by
  unfold applyMatch at hret
  obtain ⟨a1, h1, hA, hret⟩ := returns_bind hret
  obtain ⟨rfl, T1, hT1, rfl⟩ := simV_returns' (sim_applyIndex f _) hf hA
  have ht1 : (h.set a1 T1)[t]? = some U := by rw [List.getElem?_set_ne hft]; exact ht
  obtain ⟨b1, h2, hB, hret⟩ := returns_bind hret
  obtain ⟨rfl, U1, hU1, rfl⟩ := simV_returns' (sim_applyIndex t _) ht1 hB
  obtain ⟨h3, rfl⟩ := Prod.mk.inj hret
  obtain ⟨v1, e1, c1, m1⟩ := applyIndex_returns hT hT1
  obtain ⟨v2, e2, c2, m2⟩ := applyIndex_returns hU hU1
  refine ⟨(Except.ok.inj h3).symm, T1, U1, rfl, fun _ => c1, c2, ?_, m1, m2⟩
  rw [e1, e2]
  simp only [pickTraj]
  rw [pick_ints_length (by rw [hT.pos]; exact v1), pick_ints_length (by rw [hU.pos]; exact v2)]
  simp [hm]

theorem interpolate_returns [IsStrictOrderedRing K] (L : RotLib K R) {T T' : Traj K R} (hT : Coherent T) (hne : T.tstamps ≠ [])
    {ts : List K} (h : Traj.interpolate L ts T = (.ok (), T')) :
    SameMeta T T' ∧ T'.pos.length = T'.tstamps.length ∧ (T'.pos ≠ [] → Coherent T') := by
  have h0 := List.length_pos_of_ne_nil hne
  rcases interpolateRotations_cases L (cropReq T.tstamps h0 ts)
    { T with pos := interpPos T (cropReq T.tstamps h0 ts) } with ⟨q, hq⟩ | ⟨e, he⟩
  · have h1 := interpolate_eq_of_rot L hT h0 ts hq
    have h2 := interpolateRotations_meta L hq
    have hT' : T' = interpDone T (cropReq T.tstamps h0 ts) q := by
      rw [h] at h1
      exact (Prod.mk.inj h1).2
    refine ⟨by rw [hT']; exact ⟨rfl, rfl, rfl, h2⟩, by rw [hT']; simp [interpDone, interpPos], fun hp => ?_⟩
    have hc : cropReq T.tstamps h0 ts ≠ [] := by
      intro hc
      apply hp
      rw [hT', hc]
      simp [interpDone, interpPos]
    obtain ⟨t, ht⟩ := List.exists_mem_of_ne_nil _ hc
    obtain ⟨ht1, ht2, ht3⟩ := cropReq_mem ht
    have hs := stepOk_interpolate (L := L) hT (ts := ts) (.inr ⟨t, ht1, _, _,
      by rw [List.head?_eq_getElem?, List.getElem?_eq_getElem h0],
      by rw [List.getLast?_eq_getElem?, List.getElem?_eq_getElem (by omega)], ht2, ht3⟩)
    unfold StepOk at hs
    rw [h] at hs
    simpa using hs
  · rw [interpolate_error_of_rot L hT h0 ts he] at h
    simp at h

/-- the timestamps are ascending if the method needs it -/
def NeedsAsc (s : MatchingSettings K) (T U : Traj K R) : Prop :=
  s.method = .interpolation → StrictAsc T.tstamps ∧ StrictAsc U.tstamps

variable [IsStrictOrderedRing K]

/-- matching in place, all methods but the last -/
theorem match_inplace (lib : MatchLib K R) (c : Nat) (s : MatchingSettings K)
    (hs : s.method ≠ .nearestSpatialInterpolated) {T U : Traj K R} (hT : Coherent T) (hU : Coherent U)
    (hasc : NeedsAsc s T U) {h h' : Heap K R} {f t : Nat} (hf : h[f]? = some T) (ht : h[t]? = some U) (hft : f ≠ t)
    {a : Nat × Nat} (hret : matchTrajectories lib c f t s true h = (.ok a, h')) :
    a = (f, t) ∧ ∃ T' U', h' = (h.set f T').set t U' ∧ MatchedPair T U T' U' := by
  have hret0 := hret
  unfold matchTrajectories at hret
  rw [selfOrCopy_true, selfOrCopy_true, pure_bind', pure_bind'] at hret
  rcases hm : s.method with _ | _ | _ | _ | _ <;> rw [hm] at hret <;> simp only at hret
  · unfold matchSpatial at hret
    rw [SE.run_bind_ok (rd_run ht), SE.run_bind_ok (rd_run hf)] at hret
    obtain ⟨m, h1, h2, h3⟩ := returns_bind hret
    rw [SE.run_lift] at h2
    obtain ⟨h4, rfl⟩ := Prod.mk.inj h2
    exact applyMatch_inplace hT hU hf ht hft (kdMatcher_length h4) h3
  · unfold matchTemporal at hret
    rw [SE.run_bind_ok (rd_run ht), SE.run_bind_ok (rd_run hf)] at hret
    obtain ⟨m, h1, h2, h3⟩ := returns_bind hret
    rw [SE.run_lift] at h2
    obtain ⟨h4, rfl⟩ := Prod.mk.inj h2
    exact applyMatch_inplace hT hU hf ht hft (kdMatcher_length h4) h3
  · unfold matchInterpolation at hret
    rw [SE.run_bind_ok (rd_run ht)] at hret
    obtain ⟨a1, h1, hA, hret⟩ := returns_bind hret
    obtain ⟨T1, hT1, rfl⟩ := simV_returns (sim_intersect f U.tstamps defaultGap) hf hA
    have hf2 : (h.set f T1)[f]? = some T1 := get_set hf
    have ht2 : (h.set f T1)[t]? = some U := by rw [List.getElem?_set_ne hft]; exact ht
    rw [SE.run_bind_ok (rd_run hf2)] at hret
    obtain ⟨b, h2, hB, hret⟩ := returns_bind hret
    obtain ⟨U1, hU1, rfl⟩ := simV_returns (sim_intersect t T1.tstamps defaultGap) ht2 hB
    have ht3 : ((h.set f T1).set t U1)[t]? = some U1 := get_set ht2
    have hf3 : ((h.set f T1).set t U1)[f]? = some T1 := by
      rw [List.getElem?_set_ne (Ne.symm hft)]; exact hf2
    rw [SE.run_bind_ok (rd_run ht3)] at hret
    obtain ⟨c, h3, hC, hret⟩ := returns_bind hret
    obtain ⟨T2, hT2, rfl⟩ := simV_returns (sim_interpolate lib.rot f U1.tstamps) hf3 hC
    have hf4 : (((h.set f T1).set t U1).set f T2)[f]? = some T2 := get_set hf3
    have ht4 : (((h.set f T1).set t U1).set f T2)[t]? = some U1 := by
      rw [List.getElem?_set_ne hft]; exact ht3
    rw [SE.run_bind_ok (rd_run ht4)] at hret
    have hlast := Sim.onRef (r := f)
      (SE.modify (fun s : Traj K R => { s with arc := U1.arc })) _ T2 hf4
    rw [SE.run_bind_ok hlast] at hret
    obtain ⟨h5, rfl⟩ := Prod.mk.inj hret
    obtain rfl := (Except.ok.inj h5).symm
    obtain ⟨-, -, hT1c, hT1m, hT1s⟩ := intersect_returns hT hT1
    obtain ⟨-, hT1ne, hU1c, hU1m, hU1s⟩ := intersect_returns hU hU1
    obtain ⟨T', U', g1, g2, -, g4, g5, g6, -⟩ := C40_interpolation_matching lib _ s hm hT hU (hasc hm).1
      (hasc hm).2 hf ht true (fun _ => hft) hret0
    obtain ⟨m2, l2, c2⟩ := interpolate_returns lib.rot hT1c hT1ne hT2
    refine ⟨rfl, { T2 with arc := U1.arc }, U1, ?_, ?_⟩
    · apply List.ext_getElem? 
      intro k
      simp only [List.getElem?_set, List.length_set]
      by_cases h6 : f = k <;> by_cases h7 : t = k <;> simp_all
    · have e1 : T' = { T2 with arc := U1.arc } := by
        have := get_set (T' := { T2 with arc := U1.arc }) hf4
        rw [SE.run_modify] at g1
        exact (Option.some.inj (g1.symm.trans this))
      have e2 : U' = U1 := by
        rw [List.getElem?_set_ne hft] at g2
        exact (Option.some.inj (g2.symm.trans ht4))
      subst e1 e2
      simp only at g4 g5 g6
      refine ⟨fun hp => ?_, hU1c, by rw [hU1c.pos, ← g4]; exact g6, ⟨m2.name.trans hT1m.name, m2.sorting.trans hT1m.sorting,
        m2.epsg.trans hT1m.epsg, m2.rot.trans hT1m.rot⟩, hU1m⟩
      have c3 := c2 hp
      exact ⟨c3.pos, by simp only; rw [hU1c.arc, g4], c3.speed, c3.rot⟩
  · exact absurd hm hs
  · simp [SE.raise] at hret

/-- matching by lines leaves the two objects unmatched -/
theorem match_line (lib : MatchLib K R) (c : Nat) (s : MatchingSettings K)
    (hs : s.method = .nearestSpatialInterpolated) (h : Heap K R) (f t : Nat) :
    (matchTrajectories lib c f t s true h).2.take h.length = h := by
  have : Frame h.length (matchTrajectories lib c f t s true) := by
    unfold matchTrajectories
    rw [selfOrCopy_true, selfOrCopy_true, pure_bind', pure_bind', hs]
    exact Frame.matchSpatialInterpolation lib _ _ _
  have h2 := (this h (le_refl _)).2
  rwa [List.take_length] at h2

end TC
