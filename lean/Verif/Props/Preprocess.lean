import Verif.Spec.Preprocess
import Verif.Props.Metrics
/-!
# The samples used for an alignment: C173
-/
namespace TC
set_option linter.unusedSectionVars false
variable {K R : Type} [Field K] [LinearOrder K] [IsStrictOrderedRing K]

/-- a trajectory is its samples and the attributes that are not per sample -/
theorem traj_ext {T U : Traj K R} (hT : Coherent T) (hU : Coherent U) (hm : SameMeta T U)
    (hs : samples U = samples T) : U = T := by
  have h1 : U.tstamps = T.tstamps := by rw [← samples_map_t hU, ← samples_map_t hT, hs]
  have h2 : U.pos = T.pos := by rw [← samples_map_p hU, ← samples_map_p hT, hs]
  have h3 : U.arc = T.arc := by rw [← samples_map_l hU, ← samples_map_l hT, hs]
  have h4 : U.speed = T.speed := by rw [← samples_map_v hU, ← samples_map_v hT, hs]
  have h5 : U.rot = T.rot := by
    have e := samples_map_r hU
    rw [hs, samples_map_r hT] at e
    have hr := hm.rot
    cases hTr : T.rot with
    | none =>
      rw [hTr] at hr
      cases hUr : U.rot with
      | none => rfl
      | some r => rw [hUr] at hr; simp at hr
    | some r =>
      rw [hTr] at hr
      cases hUr : U.rot with
      | none => rw [hUr] at hr; simp at hr
      | some r' =>
        rw [hTr, hUr] at e
        simp only [rotColumn] at e
        have : Function.Injective (some : R → Option R) := Option.some_injective R
        rw [this.list_map e]
  have h6 := hm.name
  have h7 := hm.sorting
  have h8 := hm.epsg
  cases T; cases U
  simp only at h1 h2 h3 h4 h5 h6 h7 h8
  subst h1 h2 h3 h4 h5 h6 h7 h8
  rfl

/-- the mask that selects samples -/
def maskOf (p : Sample K R → Prop) [DecidablePred p] (T : Traj K R) : Index :=
  .mask ((samples T).map (fun x => decide (p x)))

theorem pick_mask {p : Sample K R → Prop} [DecidablePred p] {T : Traj K R} :
    pick (maskOf p T) (samples T) = (samples T).filter (fun x => decide (p x)) := by
  have := maskList_map_self (fun x : Sample K R => x) (fun x => decide (p x)) (samples T)
  simp only [List.map_id'] at this
  exact this

theorem restricted_pick {p : Sample K R → Prop} [DecidablePred p] {T : Traj K R} (hT : Coherent T) :
    Restricted p T (pickTraj (maskOf p T) T) :=
  ⟨by rw [samples_pickTraj hT, pick_mask], pickTraj_sameMeta _ _, pickTraj_coherent hT⟩

theorem Restricted.eq {p : Sample K R → Prop} [DecidablePred p] {T U V : Traj K R} (hU : Restricted p T U)
    (hV : Restricted p T V) : U = V :=
  traj_ext hV.coherent hU.coherent
    ⟨by rw [hU.same.name, hV.same.name], by rw [hU.same.sorting, hV.same.sorting],
      by rw [hU.same.epsg, hV.same.epsg], by rw [hU.same.rot, hV.same.rot]⟩ (by rw [hU.samples, hV.samples])

theorem Restricted.trans {p q : Sample K R → Prop} [DecidablePred p] [DecidablePred q] {T U V : Traj K R}
    (hU : Restricted p T U) (hV : Restricted q U V) : Restricted (fun x => p x ∧ q x) T V where
  samples := by
    rw [hV.samples, hU.samples, List.filter_filter]
    apply List.filter_congr
    intro x _
    simp [Bool.and_comm]
  same := ⟨by rw [hV.same.name, hU.same.name], by rw [hV.same.sorting, hU.same.sorting],
      by rw [hV.same.epsg, hU.same.epsg], by rw [hV.same.rot, hU.same.rot]⟩
  coherent := hV.coherent

/-- applying a mask to the samples of an object -/
theorem applyMask_run {p : Sample K R → Prop} [DecidablePred p] {T T' : Traj K R} (hT : Coherent T)
    (hR : Restricted p T T') {h : Heap K R} {r : Nat} (hr : h[r]? = some T) :
    H.applyIndex r (maskOf p T) true h =
      if T.rot.isSome = true ∧ samples T' = [] then (.error .valueError, h.set r { T with tstamps := [], pos := [] })
      else (.ok r, h.set r T') := by
  have e := sim_applyIndex r (maskOf p T) h T hr
  have hv : IndexValid T.tstamps.length (maskOf p T) := by
    show List.length _ = _
    rw [List.length_map, samples_length hT]
  have hpick : pick (maskOf p T) T.tstamps = [] ↔ samples T' = [] := by
    rw [hR.samples, ← pick_mask, ← samples_map_t hT, pick_map, List.map_eq_nil_iff]
  have hT' : pickTraj (maskOf p T) T = T' := (restricted_pick hT).eq hR
  rw [applyIndex_eq' hT, if_pos hv, hT'] at e
  rw [e]
  by_cases hc : T.rot.isSome = true ∧ samples T' = []
  · rw [if_pos ⟨hc.1, hpick.mpr hc.2⟩, if_pos hc]; rfl
  · rw [if_neg (fun h => hc ⟨h.1, hpick.mp h.2⟩), if_neg hc]; rfl

theorem speedFilter_run {nrm : V3 K → K} {s : AlignSettings K} {T T' : Traj K R} (hT : Coherent T)
    (hR : Restricted (Fast nrm s) T T') {h : Heap K R} {r : Nat} (hr : h[r]? = some T) :
    H.speedFilter nrm r s.minSpeed h =
      if T.rot.isSome = true ∧ samples T' = [] then (.error .valueError, h.set r { T with tstamps := [], pos := [] })
      else (.ok (), h.set r T') := by
  unfold H.speedFilter
  rw [SE.run_bind_ok (rd_run hr)]
  have hm : (Index.mask (T.speed.map (fun v => decide (s.minSpeed ≤ nrm v)))) = maskOf (Fast nrm s) T := by
    unfold maskOf
    rw [← samples_map_v hT, List.map_map]
    rfl
  rw [hm]
  have e := applyMask_run hT hR hr
  by_cases hc : T.rot.isSome = true ∧ samples T' = []
  · rw [if_pos hc] at e ⊢
    rw [SE.run_bind_error e]
  · rw [if_neg hc] at e ⊢
    rw [SE.run_bind_ok e]; rfl

theorem crop_run {a b : K} {T T' : Traj K R} (hT : Coherent T)
    (hR : Restricted (fun x => a ≤ x.t ∧ x.t ≤ b) T T') {h : Heap K R} {r : Nat} (hr : h[r]? = some T) :
    H.crop r a b false true h =
      if T.rot.isSome = true ∧ samples T' = [] then (.error .valueError, h.set r { T with tstamps := [], pos := [] })
      else (.ok r, h.set r T') := by
  unfold H.crop
  rw [SE.run_bind_ok (rd_run hr)]
  have hm : (Index.mask (T.tstamps.map (fun t => decide (a ≤ t ∧ t ≤ b)))) =
      maskOf (fun x : Sample K R => a ≤ x.t ∧ x.t ≤ b) T := by
    unfold maskOf
    rw [← samples_map_t hT, List.map_map]
    rfl
  simp only [Bool.false_eq_true, if_false]
  rw [hm]
  exact applyMask_run hT hR hr

/-- what `AlignmentData.setup` does after the preprocessing -/
def afterPreprocessing (lib : MetricLib K R) (c : Nat) (s : AlignSettings K) (ms : MatchingSettings K) (f t : Nat) :
    SE (Heap K R) (List K × List K) := do
  let o ← rd f
  let p ← rd t
  if o.pos.length = 0 ∨ p.pos.length = 0 then SE.raise Err.valueError
  let _ ← H.matchTrajectories lib.mat c f t ms true
  let o ← rd f
  let p ← rd t
  let _ ← SE.lift (pyLast o.tstamps)
  let obs ← SE.lift (Obs.build s.est o.tstamps o.pos p.pos (o.rot.map (fun r => r.map lib.toEuler)) (some o.speed))
  let obs ← SE.lift (Obs.checkLength s.est obs)
  let var ← SE.lift (Obs.buildVar s.est s.stoch obs)
  let var ← SE.lift (Obs.checkLength s.est var)
  return (obs, var)

theorem setup_eq (lib : MetricLib K R) (c : Nat) (s : AlignSettings K) (ms : MatchingSettings K) (f t : Nat) :
    H.setup lib c s ms f t = (do
      H.speedFilter lib.mat.nrm t s.minSpeed
      H.speedFilter lib.mat.nrm f s.minSpeed
      H.timeFilter s f t
      afterPreprocessing lib c s ms f t : SE (Heap K R) (List K × List K)) := rfl

theorem restricted_subset {p q : Sample K R → Prop} [DecidablePred p] [DecidablePred q] {T U V : Traj K R}
    (hU : Restricted p T U) (hV : Restricted (fun x => p x ∧ q x) T V) (hne : samples V ≠ []) : samples U ≠ [] := by
  intro h0
  apply hne
  rw [hV.samples, List.filter_eq_nil_iff]
  rw [hU.samples, List.filter_eq_nil_iff] at h0
  intro x hx
  have := h0 x hx
  simp only [decide_eq_true_eq] at this ⊢
  exact fun h => this h.1

theorem Restricted.split {p q : Sample K R → Prop} [DecidablePred p] [DecidablePred q] {T U V : Traj K R}
    (hU : Restricted p T U) (hV : Restricted (fun x => p x ∧ q x) T V) : Restricted q U V where
  samples := by
    rw [hV.samples, hU.samples, List.filter_filter]
    apply List.filter_congr
    intro x _
    simp [Bool.and_comm]
  same := ⟨by rw [hV.same.name, hU.same.name], by rw [hV.same.sorting, hU.same.sorting],
      by rw [hV.same.epsg, hU.same.epsg], by rw [hV.same.rot, hU.same.rot]⟩
  coherent := hV.coherent

theorem first_time {T : Traj K R} (hT : Coherent T) {x : Sample K R} (h : (samples T).head? = some x) :
    npGet T.tstamps 0 = .ok x.t := by
  rw [← samples_map_t hT]
  cases hs : samples T with
  | nil => rw [hs] at h; cases h
  | cons a l =>
    rw [hs] at h
    cases h
    simp [npGet, pyPos]

/-- preprocessing that leaves something -/
theorem setup_prepared (lib : MetricLib K R) (c : Nat) (s : AlignSettings K) (ms : MatchingSettings K)
    {T U T' U' : Traj K R} (hT : Coherent T) (hU : Coherent U) {x0 : Sample K R}
    (h0 : ((samples T).filter (fun x => decide (Fast lib.mat.nrm s x))).head? = some x0)
    (hT' : Restricted (fun x => Fast lib.mat.nrm s x ∧ InTimeSpan s x0.t x) T T')
    (hU' : Restricted (fun x => Fast lib.mat.nrm s x ∧ InTimeSpan s x0.t x) U U')
    (hneT : samples T' ≠ []) (hneU : samples U' ≠ []) {g : Heap K R} {f t : Nat} (hft : f ≠ t)
    (hf : g[f]? = some T) (ht : g[t]? = some U) :
    H.setup lib c s ms f t g = afterPreprocessing lib c s ms f t ((g.set f T').set t U') := by
  obtain ⟨T1, hT1⟩ : ∃ T1, Restricted (Fast lib.mat.nrm s) T T1 := ⟨_, restricted_pick hT⟩
  obtain ⟨U1, hU1⟩ : ∃ U1, Restricted (Fast lib.mat.nrm s) U U1 := ⟨_, restricted_pick hU⟩
  have hT2 := hT1.split hT'
  have hU2 := hU1.split hU'
  have neT1 := restricted_subset hT1 hT' hneT
  have neU1 := restricted_subset hU1 hU' hneU
  have lf := (List.getElem?_eq_some_iff.1 hf).1
  have lt := (List.getElem?_eq_some_iff.1 ht).1
  have e1 := speedFilter_run hU hU1 ht
  rw [if_neg (fun h => neU1 h.2)] at e1
  have hf1 : (g.set t U1)[f]? = some T := by rw [List.getElem?_set_ne hft.symm, hf]
  have e2 := speedFilter_run hT hT1 hf1
  rw [if_neg (fun h => neT1 h.2)] at e2
  have hf2 : ((g.set t U1).set f T1)[f]? = some T1 := by simp [lf]
  have ht2 : ((g.set t U1).set f T1)[t]? = some U1 := by rw [List.getElem?_set_ne hft]; simp [lt]
  rw [setup_eq, SE.run_bind_ok e1, SE.run_bind_ok e2]
  have hx0 : (samples T1).head? = some x0 := by rw [hT1.samples]; exact h0
  by_cases hoff : s.timeStart = 0 ∧ s.timeEnd = 0
  · have all : ∀ x : Sample K R, InTimeSpan s x0.t x := fun x => Or.inl hoff
    have keep : ∀ {A B : Traj K R}, Coherent A → Restricted (InTimeSpan s x0.t) A B → B = A := by
      intro A B hA hB
      refine traj_ext hA hB.coherent hB.same ?_
      rw [hB.samples]
      exact List.filter_eq_self.mpr (fun x _ => by simp [all x])
    have et : H.timeFilter s f t ((g.set t U1).set f T1) = (.ok (), (g.set t U1).set f T1) := by
      unfold H.timeFilter
      rw [if_neg (by simp [hoff])]
      rfl
    rw [SE.run_bind_ok et, ← keep hT1.coherent hT2, ← keep hU1.coherent hU2, List.set_comm _ _ hft.symm]
  · have iff : ∀ x : Sample K R, InTimeSpan s x0.t x ↔ x0.t + s.timeStart ≤ x.t ∧ x.t ≤ x0.t + s.timeEnd :=
      fun x => ⟨fun h => h.resolve_left hoff, Or.inr⟩
    have conv : ∀ {A B : Traj K R}, Restricted (InTimeSpan s x0.t) A B →
        Restricted (fun x => x0.t + s.timeStart ≤ x.t ∧ x.t ≤ x0.t + s.timeEnd) A B := by
      intro A B hB
      refine ⟨?_, hB.same, hB.coherent⟩
      rw [hB.samples]
      exact List.filter_congr (fun x _ => decide_eq_decide.mpr (iff x))
    have c1 := crop_run hU1.coherent (conv hU2) ht2
    rw [if_neg (fun h => hneU h.2)] at c1
    have hf3 : (((g.set t U1).set f T1).set t U')[f]? = some T1 := by
      rw [List.getElem?_set_ne hft.symm, hf2]
    have c2 := crop_run hT1.coherent (conv hT2) hf3
    rw [if_neg (fun h => hneT h.2)] at c2
    have et : H.timeFilter s f t ((g.set t U1).set f T1) = (.ok (), (((g.set t U1).set f T1).set t U').set f T') := by
      unfold H.timeFilter
      rw [if_pos (by tauto), SE.run_bind_ok (rd_run hf2), first_time hT1.coherent hx0]
      rw [SE.run_bind_ok (SE.run_lift _ _), SE.run_bind_ok c1, SE.run_bind_ok c2]
      rfl
    have hset : (((g.set t U1).set f T1).set t U').set f T' = (g.set f T').set t U' := by
      rw [List.set_comm _ _ hft.symm, List.set_set, List.set_comm _ _ hft.symm (l := g), List.set_set]
    rw [SE.run_bind_ok et, hset]


theorem alignData_eq (lib : MetricLib K R) (c : Nat) (s : AlignSettings K) (ms : MatchingSettings K) {h : Heap K R}
    {f t : Nat} {T U : Traj K R} (hf : h[f]? = some T) (ht : h[t]? = some U) :
    H.alignData lib c s ms f t h =
      (do let v ← H.setup lib c s ms h.length (h.length + 1)
          return ⟨h.length, h.length + 1, v.1, v.2⟩ : SE (Heap K R) (AlignData K)) (h ++ [T, U]) := by
  unfold H.alignData
  rw [SE.run_bind_ok (m := copyRef f) (show copyRef f h = _ from copyRef_run hf)]
  have ht' : (h ++ [T])[t]? = some U := by
    rw [List.getElem?_append_left (List.getElem?_eq_some_iff.1 ht).1, ht]
  rw [SE.run_bind_ok (m := copyRef t) (show copyRef t _ = _ from copyRef_run ht')]
  simp

/-- **C173**: an alignment with a smallest speed and a time span is the alignment, without preprocessing, of the
two trajectories from which exactly the samples with a smaller speed or outside the time span were removed: the
result is the same, or the same exception.  The time span is counted from the first sample of the source
trajectory that is not too slow. -/
theorem C173_as_if_selected (lib : MetricLib K R) (hn : ∀ v, 0 ≤ lib.mat.nrm v) (c : Nat) (s : AlignSettings K)
    (ms : MatchingSettings K) {h : Heap K R} {f t f' t' : Nat} {T U T' U' : Traj K R}
    (hf : h[f]? = some T) (ht : h[t]? = some U) (hf' : h[f']? = some T') (ht' : h[t']? = some U')
    (hT : Coherent T) (hU : Coherent U) {first : Sample K R}
    (h0 : ((samples T).filter (fun x => decide (Fast lib.mat.nrm s x))).head? = some first)
    (hT' : Restricted (fun x => Fast lib.mat.nrm s x ∧ InTimeSpan s first.t x) T T')
    (hU' : Restricted (fun x => Fast lib.mat.nrm s x ∧ InTimeSpan s first.t x) U U')
    (hneT : samples T' ≠ []) (hneU : samples U' ≠ []) :
    H.estimateAlignment lib c s ms f t h = H.estimateAlignment lib c s.unfiltered ms f' t' h := by
  have key : H.alignData lib c s ms f t h = H.alignData lib c s.unfiltered ms f' t' h := by
    rw [alignData_eq lib c s ms hf ht, alignData_eq lib c s.unfiltered ms hf' ht']
    have e1 := setup_prepared lib c s ms hT hU h0 hT' hU' hneT hneU (g := h ++ [T, U]) (f := h.length)
      (t := h.length + 1) (by omega) (by simp) (by simp)
    have fast : ∀ x : Sample K R, Fast lib.mat.nrm s.unfiltered x := fun x => hn x.v
    obtain ⟨y, hy⟩ : ∃ y, (samples T').head? = some y := by
      cases hs : samples T' with
      | nil => exact absurd hs hneT
      | cons a l => exact ⟨a, rfl⟩
    have span : ∀ x : Sample K R, InTimeSpan s.unfiltered y.t x := fun x => Or.inl ⟨rfl, rfl⟩
    have self : ∀ {A : Traj K R}, Coherent A →
        Restricted (fun x => Fast lib.mat.nrm s.unfiltered x ∧ InTimeSpan s.unfiltered y.t x) A A := by
      intro A hA
      exact ⟨(List.filter_eq_self.mpr (fun x _ => by simp [fast x, span x])).symm, ⟨rfl, rfl, rfl, rfl⟩, hA⟩
    have e2 := setup_prepared lib c s.unfiltered ms hT'.coherent hU'.coherent (x0 := y)
      (by rw [List.filter_eq_self.mpr (fun x _ => by simp [fast x])]; exact hy)
      (self hT'.coherent) (self hU'.coherent) hneT hneU (g := h ++ [T', U']) (f := h.length)
      (t := h.length + 1) (by omega) (by simp) (by simp)
    have l1 : ((h ++ [T, U]).set h.length T').set (h.length + 1) U' = h ++ [T', U'] := by simp
    have l2 : ((h ++ [T', U']).set h.length T').set (h.length + 1) U' = h ++ [T', U'] := by simp
    have e : H.setup lib c s ms h.length (h.length + 1) (h ++ [T, U]) =
        H.setup lib c s.unfiltered ms h.length (h.length + 1) (h ++ [T', U']) := by
      rw [e1, e2, l1, l2]; rfl
    rw [SE.run_bind, SE.run_bind, e]
  unfold H.estimateAlignment
  rw [SE.run_bind, SE.run_bind, key]
  rfl

theorem pos_nil_iff {T : Traj K R} (hT : Coherent T) : T.pos.length = 0 ↔ samples T = [] := by
  rw [← samples_map_p hT, List.length_map, List.length_eq_zero_iff]

theorem afterPreprocessing_empty (lib : MetricLib K R) (c : Nat) (s : AlignSettings K) (ms : MatchingSettings K)
    {f t : Nat} {g : Heap K R} {T U : Traj K R} (hT : Coherent T) (hU : Coherent U) (hf : g[f]? = some T)
    (ht : g[t]? = some U) (he : samples T = [] ∨ samples U = []) :
    afterPreprocessing lib c s ms f t g = (.error .valueError, g) := by
  unfold afterPreprocessing
  rw [SE.run_bind_ok (rd_run hf), SE.run_bind_ok (rd_run ht)]
  rw [if_pos (by rw [pos_nil_iff hT, pos_nil_iff hU]; exact he)]
  rfl

theorem raises_bind {σ α β : Type} {m : SE σ α} {k : α → SE σ β} {s : σ}
    (h : ∀ a g, m s = (.ok a, g) → ∃ e g', k a g = (.error e, g')) : ∃ e g', (m >>= k) s = (.error e, g') := by
  cases hm : m s with
  | mk r g =>
    cases r with
    | error e => exact ⟨e, g, SE.run_bind_error hm⟩
    | ok a =>
      rw [SE.run_bind_ok hm]
      exact h a g hm

theorem setup_nothing (lib : MetricLib K R) (c : Nat) (s : AlignSettings K) (ms : MatchingSettings K)
    {T U : Traj K R} (hT : Coherent T) (hU : Coherent U)
    (hnone : ∀ x0, ((samples T).filter (fun x => decide (Fast lib.mat.nrm s x))).head? = some x0 →
      (∀ x ∈ samples T, ¬ (Fast lib.mat.nrm s x ∧ InTimeSpan s x0.t x)) ∨
      (∀ x ∈ samples U, ¬ (Fast lib.mat.nrm s x ∧ InTimeSpan s x0.t x)))
    {g : Heap K R} {f t : Nat} (hft : f ≠ t) (hf : g[f]? = some T) (ht : g[t]? = some U) :
    ∃ e g', H.setup lib c s ms f t g = (.error e, g') := by
  obtain ⟨T1, hT1⟩ : ∃ T1, Restricted (Fast lib.mat.nrm s) T T1 := ⟨_, restricted_pick hT⟩
  obtain ⟨U1, hU1⟩ : ∃ U1, Restricted (Fast lib.mat.nrm s) U U1 := ⟨_, restricted_pick hU⟩
  have lf := (List.getElem?_eq_some_iff.1 hf).1
  have lt := (List.getElem?_eq_some_iff.1 ht).1
  rw [setup_eq]
  apply raises_bind
  intro _ g1 e1
  rw [speedFilter_run hU hU1 ht] at e1
  split at e1
  · cases e1
  cases e1
  have hf1 : (g.set t U1)[f]? = some T := by rw [List.getElem?_set_ne hft.symm, hf]
  apply raises_bind
  intro _ g2 e2
  rw [speedFilter_run hT hT1 hf1] at e2
  split at e2
  · cases e2
  cases e2
  have hf2 : ((g.set t U1).set f T1)[f]? = some T1 := by simp [lf]
  have ht2 : ((g.set t U1).set f T1)[t]? = some U1 := by rw [List.getElem?_set_ne hft]; simp [lt]
  have gone : ∀ {A A1 A2 : Traj K R} {x0 : Sample K R}, Restricted (Fast lib.mat.nrm s) A A1 →
      Restricted (InTimeSpan s x0.t) A1 A2 → (∀ x ∈ samples A, ¬ (Fast lib.mat.nrm s x ∧ InTimeSpan s x0.t x)) →
      samples A2 = [] := by
    intro A A1 A2 x0 h1 h2 hno
    rw [h2.samples, List.filter_eq_nil_iff]
    intro x hx
    rw [h1.samples, List.mem_filter] at hx
    simp only [decide_eq_true_eq] at hx ⊢
    exact fun h => hno x hx.1 ⟨hx.2, h⟩
  by_cases hoff : s.timeStart = 0 ∧ s.timeEnd = 0
  · have et : H.timeFilter s f t ((g.set t U1).set f T1) = (.ok (), (g.set t U1).set f T1) := by
      unfold H.timeFilter
      rw [if_neg (by simp [hoff])]
      rfl
    rw [SE.run_bind_ok et]
    refine ⟨_, _, afterPreprocessing_empty lib c s ms hT1.coherent hU1.coherent hf2 ht2 ?_⟩
    cases hh : (samples T1).head? with
    | none => exact .inl (List.head?_eq_none_iff.mp hh)
    | some x0 =>
      have self : ∀ {A : Traj K R}, Coherent A → Restricted (InTimeSpan s x0.t) A A := fun hA =>
        ⟨(List.filter_eq_self.mpr (fun x _ => by simp [InTimeSpan, hoff])).symm, ⟨rfl, rfl, rfl, rfl⟩, hA⟩
      rw [hT1.samples] at hh
      exact (hnone x0 hh).imp (gone hT1 (self hT1.coherent)) (gone hU1 (self hU1.coherent))
  · apply raises_bind
    intro _ g3 e3
    unfold H.timeFilter at e3
    rw [if_pos (by tauto), SE.run_bind_ok (rd_run hf2)] at e3
    cases hh : (samples T1).head? with
    | none =>
      exfalso
      have hnil := List.head?_eq_none_iff.mp hh
      have : T1.tstamps = [] := by rw [← samples_map_t hT1.coherent, hnil]; rfl
      rw [this, SE.run_bind_error (m := SE.lift (npGet [] 0)) (s' := (g.set t U1).set f T1) (e := .indexError) rfl] at e3
      cases e3
    | some x0 =>
      have hcase := hnone x0 (by rw [← hT1.samples]; exact hh)
      rw [first_time hT1.coherent hh, SE.run_bind_ok (SE.run_lift _ _)] at e3
      obtain ⟨T2, hT2⟩ : ∃ T2, Restricted (InTimeSpan s x0.t) T1 T2 := ⟨_, restricted_pick hT1.coherent⟩
      obtain ⟨U2, hU2⟩ : ∃ U2, Restricted (InTimeSpan s x0.t) U1 U2 := ⟨_, restricted_pick hU1.coherent⟩
      have iff : ∀ x : Sample K R, InTimeSpan s x0.t x ↔ x0.t + s.timeStart ≤ x.t ∧ x.t ≤ x0.t + s.timeEnd :=
        fun x => ⟨fun h => h.resolve_left hoff, Or.inr⟩
      have conv : ∀ {A B : Traj K R}, Restricted (InTimeSpan s x0.t) A B →
          Restricted (fun x => x0.t + s.timeStart ≤ x.t ∧ x.t ≤ x0.t + s.timeEnd) A B := by
        intro A B hB
        refine ⟨?_, hB.same, hB.coherent⟩
        rw [hB.samples]
        exact List.filter_congr (fun x _ => decide_eq_decide.mpr (iff x))
      have c1 := crop_run hU1.coherent (conv hU2) ht2
      split at c1
      · rw [SE.run_bind_error c1] at e3; cases e3
      rw [SE.run_bind_ok c1] at e3
      have hf3 : (((g.set t U1).set f T1).set t U2)[f]? = some T1 := by
        rw [List.getElem?_set_ne hft.symm, hf2]
      have c2 := crop_run hT1.coherent (conv hT2) hf3
      split at c2
      · rw [SE.run_bind_error c2] at e3; cases e3
      rw [SE.run_bind_ok c2] at e3
      cases e3
      refine ⟨_, _, afterPreprocessing_empty lib c s ms hT2.coherent hU2.coherent (f := f) (t := t)
        (T := T2) (U := U2) (by simp [lf]) (by rw [List.getElem?_set_ne hft]; simp [lt]) ?_⟩
      exact hcase.imp (gone hT1 hT2) (gone hU1 hU2)

/-- **C173**: when no sample of one of the two trajectories is left, an exception is raised. -/
theorem C173_nothing_left (lib : MetricLib K R) (c : Nat) (s : AlignSettings K) (ms : MatchingSettings K)
    {h : Heap K R} {f t : Nat} {T U : Traj K R} (hf : h[f]? = some T) (ht : h[t]? = some U) (hT : Coherent T)
    (hU : Coherent U)
    (hnone : ∀ first, ((samples T).filter (fun x => decide (Fast lib.mat.nrm s x))).head? = some first →
      (∀ x ∈ samples T, ¬ (Fast lib.mat.nrm s x ∧ InTimeSpan s first.t x)) ∨
      (∀ x ∈ samples U, ¬ (Fast lib.mat.nrm s x ∧ InTimeSpan s first.t x))) :
    ∃ e h', H.estimateAlignment lib c s ms f t h = (.error e, h') := by
  obtain ⟨e, g, hs⟩ := setup_nothing lib c s ms hT hU hnone (g := h ++ [T, U]) (f := h.length)
    (t := h.length + 1) (by omega) (by simp) (by simp)
  refine ⟨e, g, ?_⟩
  unfold H.estimateAlignment
  rw [SE.run_bind_error]
  rw [alignData_eq lib c s ms hf ht, SE.run_bind_error hs]

/-- **C173**, negative: a start of the time span without an end selects nothing, so that every such alignment
raises an exception; the documentation describes the two settings as independent of each other. -/
theorem C173_start_without_end (lib : MetricLib K R) (c : Nat) (s : AlignSettings K) (ms : MatchingSettings K)
    (hstart : 0 < s.timeStart) (hend : s.timeEnd = 0)
    {h : Heap K R} {f t : Nat} {T U : Traj K R} (hf : h[f]? = some T) (ht : h[t]? = some U) (hT : Coherent T)
    (hU : Coherent U) : ∃ e h', H.estimateAlignment lib c s ms f t h = (.error e, h') := by
  refine C173_nothing_left lib c s ms hf ht hT hU (fun x0 _ => Or.inl (fun x _ hx => ?_))
  rcases hx.2 with h | h
  · exact absurd h.1 hstart.ne'
  · linarith [h.1, h.2]

/-- **C173**, negative: the time span is counted from the first sample of the source trajectory, not from the first
time the two trajectories have in common: if the target starts later than the end of the span after the start of the
source, an exception is raised, whatever the two have in common. -/
theorem C173_counted_from_source (lib : MetricLib K R) (c : Nat) (s : AlignSettings K) (ms : MatchingSettings K)
    (hend : s.timeEnd ≠ 0) {h : Heap K R} {f t : Nat} {T U : Traj K R} (hf : h[f]? = some T) (ht : h[t]? = some U)
    (hT : Coherent T) (hU : Coherent U) {first : Sample K R}
    (h0 : ((samples T).filter (fun x => decide (Fast lib.mat.nrm s x))).head? = some first)
    (hlate : ∀ x ∈ samples U, first.t + s.timeEnd < x.t) :
    ∃ e h', H.estimateAlignment lib c s ms f t h = (.error e, h') := by
  refine C173_nothing_left lib c s ms hf ht hT hU (fun x0 hx0 => Or.inr (fun x hx hs => ?_))
  rw [h0] at hx0
  cases hx0
  rcases hs.2 with h | h
  · exact hend h.2
  · exact absurd h.2 (not_le.mpr (hlate x hx))

/-- a smallest speed of half a metre per second and the first second of the source -/
def exFiltered : AlignSettings ℚ := { (exProc .nearestTemporal).align with minSpeed := 1 / 2, timeStart := 0, timeEnd := 1 }

/-- the hypotheses of `C173_as_if_selected` hold: the first two samples of each trajectory are left -/
example : ∃ T' U' first, (∀ v, 0 ≤ exMetric.mat.nrm v) ∧
    ((samples exEst).filter (fun x => decide (Fast exMetric.mat.nrm exFiltered x))).head? = some first ∧
    Restricted (fun x => Fast exMetric.mat.nrm exFiltered x ∧ InTimeSpan exFiltered first.t x) exEst T' ∧
    Restricted (fun x => Fast exMetric.mat.nrm exFiltered x ∧ InTimeSpan exFiltered first.t x) exGt U' ∧
    T'.tstamps = [0, 1] ∧ U'.tstamps = [0, 1] :=
  ⟨pickTraj (maskOf (fun x => Fast exMetric.mat.nrm exFiltered x ∧ InTimeSpan exFiltered 0 x) exEst) exEst,
    pickTraj (maskOf (fun x => Fast exMetric.mat.nrm exFiltered x ∧ InTimeSpan exFiltered 0 x) exGt) exGt,
    ⟨0, ⟨0, 0, 0⟩, none, 0, ⟨1, 0, 0⟩⟩, fun v => le_max_of_le_left (abs_nonneg _), by decide +kernel,
    restricted_pick exEst_coherent, restricted_pick exGt_coherent, by decide +kernel, by decide +kernel⟩

/-- the alignment succeeds: the mean of the two differences -/
example : ((H.estimateAlignment exMetric 0 exFiltered (exProc .nearestTemporal).matching 0 1 [exEst, exGt]).1.toOption.map
    (fun r => r.map (fun a => a.position.values.take 3))) = some (some [1, 1/2, 0]) := by decide +kernel

/-- the same reference, later -/
def exLater : Traj ℚ (Fin 4) := { exGt with tstamps := [3/2, 2, 3] }

/-- the two trajectories have times in common, and a span of one second from the first sample of the source
contains no sample of the target -/
example : Coherent exLater ∧ ((samples exEst).filter (fun x => decide (Fast exMetric.mat.nrm exFiltered x))).head? = some ⟨0, ⟨0, 0, 0⟩, none, 0, ⟨1, 0, 0⟩⟩ ∧
    (∀ x ∈ samples exLater, (0 : ℚ) + 1 < x.t) ∧ (2 : ℚ) ∈ exEst.tstamps ∧ (2 : ℚ) ∈ exLater.tstamps :=
  ⟨⟨rfl, rfl, rfl, by rintro r ⟨⟩; rfl⟩, by decide +kernel, by decide +kernel, by decide +kernel, by decide +kernel⟩

end TC
