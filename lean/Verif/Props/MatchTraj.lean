import Verif.Props.Match
import Verif.Props.Views
import Verif.Proofs.Heap
import Verif.Props.Heap
/-!
# C38, C39: temporal and spatial matching of trajectories
-/
namespace TC
set_option linter.unusedSectionVars false
open H
variable {K R P : Type} [Field K] [LinearOrder K]

theorem subperm_range {p : List Nat} {n : Nat} (hn : p.Nodup) (hp : InRange n p) :
    p.Subperm (List.range n) :=
  List.subperm_of_subset hn (fun x hx => List.mem_range.2 (hp x hx))

theorem sel_subperm {α : Type} {l : List α} {p : List Nat} (hn : p.Nodup)
    (hp : InRange l.length p) : (sel l p).Subperm l := by
  obtain ⟨q, hq1, hq2⟩ := subperm_range hn hp
  refine ⟨sel l q, sel_perm l hq1, ?_⟩
  have : (sel l q).Sublist (sel l (List.range l.length)) := hq2.filterMap _
  rwa [sel_range] at this

theorem sel_sublist {α : Type} {l : List α} {p : List Nat} (hs : p.Pairwise (· < ·))
    (hp : InRange l.length p) : (sel l p).Sublist l := by
  have hnd : p.Nodup := hs.imp (fun h => Nat.ne_of_lt h)
  have h1 : p.Sublist (List.range l.length) :=
    List.sublist_of_subperm_of_pairwise (r := (· < ·)) (subperm_range hnd hp) hs
      List.pairwise_lt_range
  have : (sel l p).Sublist (sel l (List.range l.length)) := h1.filterMap _
  rwa [sel_range] at this

/-- the reduced trajectories satisfy the specification -/
theorem paired_of_kdMatcher {dist : P → P → K} {query : KdQuery K P}
    (hq : IsNearestQuery dist query) {T U : Traj K R} (hT : Coherent T) (hU : Coherent U)
    (g : Sample K R → P) {m : K} (hm : 0 ≤ m) {refs tests : List Nat}
    (h : kdMatcher query ((samples U).map g) ((samples T).map g) m = .ok (refs, tests)) :
    InRange U.tstamps.length refs ∧ InRange T.tstamps.length tests ∧ refs ≠ [] ∧
    refs.length = tests.length ∧
    Paired dist m g T U (pickTraj (.ints (tests.map (fun i : Nat => (i : Int)))) T)
      (pickTraj (.ints (refs.map (fun i : Nat => (i : Int)))) U) := by
  obtain ⟨h1, h2, h3, h4, h5⟩ := C34_matches_are_one_to_one hq hm h
  obtain ⟨hne, -, -, -, -⟩ := kdMatcher_ok h
  have hr : InRange (samples U).length refs := fun i hi => by simpa using h4 i hi
  have ht : InRange (samples T).length tests := fun i hi => by simpa using h5 i hi
  have hr' : InRange U.tstamps.length refs := by rw [← samples_length hU]; exact hr
  have ht' : InRange T.tstamps.length tests := by rw [← samples_length hT]; exact ht
  have sT : samples (pickTraj (.ints (tests.map (fun i : Nat => (i : Int)))) T)
      = sel (samples T) tests := by rw [samples_pickTraj hT, pick_ints_nat ht]
  have sU : samples (pickTraj (.ints (refs.map (fun i : Nat => (i : Int)))) U)
      = sel (samples U) refs := by rw [samples_pickTraj hU, pick_ints_nat hr]
  refine ⟨hr', ht', hne, h1, ?_⟩
  refine ⟨pickTraj_coherent hT, pickTraj_coherent hU, pickTraj_sameMeta _ _, pickTraj_sameMeta _ _,
    ?_, ?_, ?_, ?_, ?_, ?_⟩
  · rw [sT]
    intro hc
    have := congrArg List.length hc
    rw [sel_length ht, ← h1] at this
    exact hne (List.length_eq_zero_iff.1 this)
  · rw [sT, sU, sel_length ht, sel_length hr, h1]
  · rw [sT]; exact sel_subperm h3 ht
  · rw [sU]; exact sel_sublist h2 hr
  · intro i a b ha hb
    rw [sT, sel_getElem? ht] at ha
    rw [sU, sel_getElem? hr] at hb
    obtain ⟨t, ht1, ht2⟩ := Option.bind_eq_some_iff.1 ha
    obtain ⟨r, hr1, hr2⟩ := Option.bind_eq_some_iff.1 hb
    obtain ⟨p, q, e1, e2, e3, e4⟩ := C33_matches_are_nearest_within_limit hq hm h hr1 ht1
    rw [List.getElem?_map, ht2] at e1
    rw [List.getElem?_map, hr2] at e2
    obtain rfl := Option.some.inj e1
    obtain rfl := Option.some.inj e2
    exact ⟨e3, e4⟩
  · rintro a ha ⟨b, hb, hw⟩
    obtain ⟨r, hrm, q, e1, e2⟩ := C35_no_neighbour_is_forgotten hq hm h (p := g a)
      (List.mem_map_of_mem ha) ⟨g b, List.mem_map_of_mem hb, hw⟩
    rw [List.getElem?_map] at e1
    obtain ⟨b', hb', rfl⟩ := Option.map_eq_some_iff.1 e1
    refine ⟨b', ?_, e2⟩
    rw [sU]
    exact List.mem_filterMap.2 ⟨r, hrm, hb'⟩

/-- `applyMatch` on two different objects -/
theorem applyMatch_eq {T U : Traj K R} (hT : Coherent T) (hU : Coherent U) {h : Heap K R}
    {f t : Nat} (hf : h[f]? = some T) (ht : h[t]? = some U) (hft : f ≠ t) {refs tests : List Nat}
    (hr : InRange U.tstamps.length refs) (hts : InRange T.tstamps.length tests)
    (hne : refs ≠ []) (hl : refs.length = tests.length) :
    applyMatch f t (refs, tests) h = (.ok (f, t),
      (h.set f (pickTraj (.ints (tests.map (fun i : Nat => (i : Int)))) T)).set t
        (pickTraj (.ints (refs.map (fun i : Nat => (i : Int)))) U)) := by
  have hne' : tests ≠ [] := by
    rintro rfl
    exact hne (List.length_eq_zero_iff.1 hl)
  have nn : ∀ {l : List K} {p : List Nat}, InRange l.length p → p ≠ [] →
      pick (.ints (p.map (fun i : Nat => (i : Int)))) l ≠ [] := by
    intro l p hp hpn hc
    rw [pick_ints_nat hp] at hc
    have := congrArg List.length hc
    rw [sel_length hp] at this
    exact hpn (List.length_eq_zero_iff.1 this)
  unfold applyMatch
  have e1 := sim_applyIndex f (.ints (tests.map (fun i : Nat => (i : Int)))) h T hf
  rw [applyIndex_eq hT (indexValid_nat hts) (Or.inr (nn hts hne'))] at e1
  rw [SE.run_bind_ok e1]
  have ht' : (h.set f (pickTraj (.ints (tests.map (fun i : Nat => (i : Int)))) T))[t]? = some U := by
    rw [List.getElem?_set_ne hft]; exact ht
  have e2 := sim_applyIndex t (.ints (refs.map (fun i : Nat => (i : Int)))) _ U ht'
  rw [applyIndex_eq hU (indexValid_nat hr) (Or.inr (nn hr hne))] at e2
  rw [SE.run_bind_ok e2]
  rfl

/-- the two objects `match_trajectories` works on -/
theorem match_start (inplace : Bool) {h : Heap K R} {f t : Nat} {T U : Traj K R}
    (hf : h[f]? = some T) (ht : h[t]? = some U) (hft : inplace = true → f ≠ t)
    {α : Type} (body : Nat → Nat → SE (Heap K R) α) :
    ∃ f' t' h0, (do
      let test ← selfOrCopy inplace f
      let ref ← selfOrCopy inplace t
      body test ref : SE (Heap K R) α) h = body f' t' h0 ∧ h0[f']? = some T ∧ h0[t']? = some U ∧
      f' ≠ t' ∧ (inplace = true → f' = f ∧ t' = t ∧ h0 = h) ∧
      (inplace = false → f' = h.length ∧ t' = h.length + 1 ∧ h0 = h ++ [T, U]) := by
  cases inplace with
  | true =>
    exact ⟨f, t, h, rfl, hf, ht, hft rfl, fun _ => ⟨rfl, rfl, rfl⟩, fun h => by simp at h⟩
  | false =>
    refine ⟨h.length, h.length + 1, h ++ [T, U], ?_, by simp, by simp, by omega,
      fun h => by simp at h, fun _ => ⟨rfl, rfl, rfl⟩⟩
    rw [SE.run_bind_ok (copyRef_run hf)]
    have ht' : (h ++ [T])[t]? = some U := by
      rw [List.getElem?_append_left (List.getElem?_eq_some_iff.1 ht).1, ht]
    rw [SE.run_bind_ok (copyRef_run ht')]
    simp

/-- the common part of temporal and spatial matching -/
theorem nearest_match {dist : P → P → K} {query : KdQuery K P} (hq : IsNearestQuery dist query)
    {T U : Traj K R} (hT : Coherent T) (hU : Coherent U) (g : Sample K R → P)
    (key : Traj K R → List P) (hkT : key T = (samples T).map g) (hkU : key U = (samples U).map g)
    {m : K} (hm : 0 ≤ m) {h : Heap K R} {f t : Nat} (hf : h[f]? = some T) (ht : h[t]? = some U)
    (hft : f ≠ t) (hne : T.tstamps ≠ []) :
    let run : SE (Heap K R) (Nat × Nat) := (do
      let o ← rd t
      let p ← rd f
      let mt ← SE.lift (kdMatcher query (key o) (key p) m)
      applyMatch f t mt)
    ((∃ a ∈ samples T, ∃ b ∈ samples U, Within dist m (g a) (g b)) →
      ∃ T' U', Returns run h (f, t) ((h.set f T').set t U') ∧ Paired dist m g T U T' U') ∧
    ((∀ a ∈ samples T, ∀ b ∈ samples U, ¬ Within dist m (g a) (g b)) →
      Raises run h .valueError h) := by
  intro run
  have hne' : (samples T).map g ≠ [] := by
    intro hc
    have := congrArg List.length hc
    rw [List.length_map, samples_length hT] at this
    exact hne (List.length_eq_zero_iff.1 this)
  have hrun : ∀ {e}, kdMatcher query ((samples U).map g) ((samples T).map g) m = e →
      run h = (SE.lift e >>= fun mt => applyMatch f t mt) h := by
    rintro e rfl
    show (rd t >>= fun o => rd f >>= fun p =>
      SE.lift (kdMatcher query (key o) (key p) m) >>= fun mt => applyMatch f t mt) h = _
    rw [SE.run_bind_ok (rd_run ht), SE.run_bind_ok (rd_run hf), hkT, hkU]
  obtain ⟨c1, c2⟩ := C35_raises_iff_nothing_in_reach hq (ref := (samples U).map g) hm hne'
  constructor
  · rintro ⟨a, ha, b, hb, hw⟩
    obtain ⟨refs, tests, hk, -⟩ := c2 ⟨g a, List.mem_map_of_mem ha, g b, List.mem_map_of_mem hb, hw⟩
    obtain ⟨h1, h2, h3, h4, h5⟩ := paired_of_kdMatcher hq hT hU g hm hk
    refine ⟨_, _, ?_, h5⟩
    unfold Returns
    rw [hrun hk, SE.run_bind_ok (SE.run_lift _ h)]
    exact applyMatch_eq hT hU hf ht hft h1 h2 h3 h4
  · intro hno
    have hk := c1.2 (by
      intro p hp q hq'
      obtain ⟨a, ha, rfl⟩ := List.mem_map.1 hp
      obtain ⟨b, hb, rfl⟩ := List.mem_map.1 hq'
      exact hno a ha b hb)
    unfold Raises
    rw [hrun hk, SE.run_bind_error (SE.run_lift _ h)]

/-- what a matching call promises to its caller, for the compared quantity `g` -/
def MatchPromise (dist : P → P → K) (m : K) (g : Sample K R → P) (T U : Traj K R) (f t : Nat)
    (h : Heap K R) (inplace : Bool) (call : SE (Heap K R) (Nat × Nat)) : Prop :=
  ((∃ a ∈ samples T, ∃ b ∈ samples U, Within dist m (g a) (g b)) →
    ∃ f' t' h' T' U', Returns call h (f', t') h' ∧ h'[f']? = some T' ∧ h'[t']? = some U' ∧
      Paired dist m g T U T' U' ∧ (inplace = true → f' = f ∧ t' = t) ∧
      (inplace = false → f' = h.length ∧ t' = h.length + 1)) ∧
  ((∀ a ∈ samples T, ∀ b ∈ samples U, ¬ Within dist m (g a) (g b)) →
    ∃ h', Raises call h .valueError h' ∧ h'.take h.length = h)

theorem matchPromise_of {dist : P → P → K} {query : KdQuery K P} (hq : IsNearestQuery dist query)
    {T U : Traj K R} (hT : Coherent T) (hU : Coherent U) (g : Sample K R → P)
    (key : Traj K R → List P) (hkT : key T = (samples T).map g) (hkU : key U = (samples U).map g)
    {m : K} (hm : 0 ≤ m) {h : Heap K R} {f t : Nat} (hf : h[f]? = some T) (ht : h[t]? = some U)
    (hne : T.tstamps ≠ []) (inplace : Bool) (hft : inplace = true → f ≠ t)
    (call : SE (Heap K R) (Nat × Nat))
    (hcall : call = (do
      let test ← selfOrCopy inplace f
      let ref ← selfOrCopy inplace t
      let o ← rd ref
      let p ← rd test
      let mt ← SE.lift (kdMatcher query (key o) (key p) m)
      applyMatch test ref mt)) :
    MatchPromise dist m g T U f t h inplace call := by
  obtain ⟨f', t', h0, e, hf', ht', hft', hin, hout⟩ := match_start inplace hf ht hft
    (fun test ref => (do
      let o ← rd ref
      let p ← rd test
      let mt ← SE.lift (kdMatcher query (key o) (key p) m)
      applyMatch test ref mt))
  obtain ⟨n1, n2⟩ := nearest_match hq hT hU g key hkT hkU hm hf' ht' hft' hne
  constructor
  · intro hex
    obtain ⟨T', U', hret, hpair⟩ := n1 hex
    have l1 := (List.getElem?_eq_some_iff.1 hf').1
    have l2 := (List.getElem?_eq_some_iff.1 ht').1
    refine ⟨f', t', (h0.set f' T').set t' U', T', U', ?_, ?_, ?_, hpair, fun hi => ⟨(hin hi).1, (hin hi).2.1⟩,
      fun ho => ⟨(hout ho).1, (hout ho).2.1⟩⟩
    · unfold Returns at *
      rw [hcall, e]
      exact hret
    · rw [List.getElem?_set_ne (Ne.symm hft')]
      simp [l1]
    · simp [l2]
  · intro hno
    refine ⟨h0, ?_, ?_⟩
    · have := n2 hno
      unfold Raises at *
      rw [hcall, e]
      exact this
    · cases inplace with
      | true => rw [(hin rfl).2.2]; simp
      | false => rw [(hout rfl).2.2]; simp

/-- **C38.** If some test sample has a reference sample within the time limit, temporal matching
returns two trajectories that are paired in time; otherwise it raises `ValueError` and changes
neither input. -/
theorem C38_temporal_matching (lib : MatchLib K R)
    (hq : IsNearestQuery (fun a b => |a - b|) lib.queryT) (counter : Nat) (s : MatchingSettings K)
    (hs : s.method = .nearestTemporal) (hm : 0 ≤ s.maxTimeDiff) {T U : Traj K R} (hT : Coherent T)
    (hU : Coherent U) (hne : T.tstamps ≠ []) {h : Heap K R} {f t : Nat} (hf : h[f]? = some T)
    (ht : h[t]? = some U) (inplace : Bool) (hft : inplace = true → f ≠ t) :
    MatchPromise (fun a b => |a - b|) s.maxTimeDiff Sample.t T U f t h inplace
      (matchTrajectories lib counter f t s inplace) := by
  refine matchPromise_of hq hT hU Sample.t Traj.tstamps (samples_map_t hT).symm
    (samples_map_t hU).symm hm hf ht hne inplace hft _ ?_
  unfold matchTrajectories
  rw [hs]
  rfl

/-- **C39.** The same for positions. -/
theorem C39_spatial_matching (lib : MatchLib K R)
    (hq : IsNearestQuery (fun a b => lib.nrm (a - b)) lib.queryP) (counter : Nat)
    (s : MatchingSettings K) (hs : s.method = .nearestSpatial) (hm : 0 ≤ s.maxDistance)
    {T U : Traj K R} (hT : Coherent T) (hU : Coherent U) (hne : T.tstamps ≠ []) {h : Heap K R}
    {f t : Nat} (hf : h[f]? = some T) (ht : h[t]? = some U) (inplace : Bool)
    (hft : inplace = true → f ≠ t) :
    MatchPromise (fun a b => lib.nrm (a - b)) s.maxDistance Sample.p T U f t h inplace
      (matchTrajectories lib counter f t s inplace) := by
  refine matchPromise_of hq hT hU Sample.p Traj.pos (samples_map_p hT).symm
    (samples_map_p hU).symm hm hf ht hne inplace hft _ ?_
  unfold matchTrajectories
  rw [hs]
  rfl

end TC
