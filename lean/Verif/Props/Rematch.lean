import Verif.Props.MatchInterp
import Verif.Props.Preprocess
import Verif.Props.Metrics
/-!
# Matching again what was matched: C175
-/
namespace TC
set_option linter.unusedSectionVars false
open H
variable {K R P : Type} [Field K] [LinearOrder K] [IsStrictOrderedRing K]

theorem eq_range_of_strict {l : List Nat} {n : Nat} (hs : l.Pairwise (· < ·)) (hm : ∀ i, i ∈ l ↔ i < n) :
    l = List.range n := by
  have hp : l.Perm (List.range n) := by
    rw [List.perm_ext_iff_of_nodup (hs.imp (fun h => Nat.ne_of_lt h)) List.nodup_range]
    intro i
    rw [hm, List.mem_range]
  exact hp.eq_of_pairwise (fun a b _ _ h1 h2 => absurd (Nat.lt_trans h1 h2) (Nat.lt_irrefl _)) hs
    List.pairwise_lt_range

/-- points that are each the only nearest one of its partner -/
theorem kdMatcher_own {dist : P → P → K} {query : KdQuery K P} (hq : IsNearestQuery dist query) {ref test : List P}
    {m : K} (hm : 0 ≤ m) (hlen : test.length = ref.length) (hne : test ≠ [])
    (hpair : ∀ (i : Nat) p q, test[i]? = some p → ref[i]? = some q → Within dist m p q ∧
      ∀ (j : Nat) q', ref[j]? = some q' → j ≠ i → dist p q < dist p q') :
    kdMatcher query ref test m = .ok (List.range test.length, List.range test.length) := by
  have hclen : (closestOf query ref test m).length = test.length := by
    unfold closestOf
    split
    · exact hq.length _ _ _
    · exact hq.length _ _ _
  have hc : ∀ i, i < test.length → (closestOf query ref test m)[i]? = some (some i) := by
    intro i hi
    obtain ⟨o, ho⟩ : ∃ o, (closestOf query ref test m)[i]? = some o := ⟨_, List.getElem?_eq_getElem (by omega)⟩
    have hp : test[i]? = some test[i] := List.getElem?_eq_getElem hi
    have hr : ref[i]? = some (ref[i]'(by omega)) := List.getElem?_eq_getElem (by omega)
    obtain ⟨hw, hmin⟩ := hpair i _ _ hp hr
    obtain ⟨b, hb, hb0, hbw⟩ : ∃ b : Option K, closestOf query ref test m = query ref b test ∧
        (∀ m', b = some m' → 0 < m') ∧ (∀ m', b = some m' → dist test[i] (ref[i]'(by omega)) < m') := by
      unfold closestOf
      by_cases h0 : m = 0
      · exact ⟨none, by rw [if_pos h0], by simp, by simp⟩
      · refine ⟨some m, by rw [if_neg h0], ?_, ?_⟩
        · rintro m' ⟨⟩; exact lt_of_le_of_ne hm (Ne.symm h0)
        · rintro m' ⟨⟩; exact hw.resolve_left h0
    rw [hb] at ho ⊢
    cases o with
    | none =>
      obtain ⟨m', hm', hle⟩ := hq.missing ref b test hb0 i _ hp ho _ (List.mem_of_getElem? hr)
      exact absurd (hbw m' hm') (not_lt.mpr hle)
    | some r =>
      obtain ⟨q, hrq, hle, -⟩ := hq.found ref b test hb0 i _ r hp ho
      by_cases hri : r = i
      · rw [ho, hri]
      · exact absurd (hmin r q hrq hri) (not_lt.mpr (hle _ (List.mem_of_getElem? hr)))
  have hpos : 0 < test.length := List.length_pos_of_ne_nil hne
  obtain ⟨refs, tests, he, -, hl, hs, hmem, hk⟩ := kdMatcher_some query ref test m hne ⟨0, 0, hc 0 hpos⟩
  have hrefs : refs = List.range test.length := by
    apply eq_range_of_strict hs
    intro r
    rw [hmem]
    constructor
    · rintro ⟨t, ht⟩
      have htl : t < test.length := by rw [← hclen]; exact (List.getElem?_eq_some_iff.1 ht).1
      rw [hc t htl] at ht
      cases ht
      exact htl
    · exact fun h => ⟨r, hc r h⟩
  have htests : tests = List.range test.length := by
    rw [hrefs, List.length_range] at hl
    apply List.ext_getElem? 
    intro k
    by_cases hkl : k < test.length
    · have h1 : refs[k]? = some k := by rw [hrefs]; simp [hkl]
      have h2 : tests[k]? = some (tests[k]'(by omega)) := List.getElem?_eq_getElem (by omega)
      obtain ⟨h3, -⟩ := hk k k _ h1 h2
      have htl : tests[k]'(by omega) < test.length := by rw [← hclen]; exact (List.getElem?_eq_some_iff.1 h3).1
      rw [hc _ htl] at h3
      rw [h2]
      have h4 : tests[k]'(by omega) = k := by simpa using h3
      rw [h4]
      simp [hkl]
    · rw [List.getElem?_eq_none (by omega), List.getElem?_eq_none (by simp; omega)]
  rw [he, hrefs, htests]

theorem pick_range {α : Type} (l : List α) :
    pick (.ints ((List.range l.length).map (fun i : Nat => (i : Int)))) l = l := by
  rw [pick_ints_nat (fun i hi => List.mem_range.1 hi), sel_range]

theorem pickTraj_range {T : Traj K R} (hT : Coherent T) {n : Nat} (hn : (samples T).length = n) :
    pickTraj (.ints ((List.range n).map (fun i : Nat => (i : Int)))) T = T := by
  subst hn
  refine traj_ext hT (pickTraj_coherent hT) (pickTraj_sameMeta _ _) ?_
  rw [samples_pickTraj hT, pick_range]

/-- matching by nearest neighbours what was matched by nearest neighbours -/
theorem nearest_again {dist : P → P → K} {query : KdQuery K P} (hq : IsNearestQuery dist query)
    {T U T' U' : Traj K R} (g : Sample K R → P) (key : Traj K R → List P)
    (hkT : key T' = (samples T').map g) (hkU : key U' = (samples U').map g) {m : K} (hm : 0 ≤ m)
    (hpair : Paired dist m g T U T' U')
    (hties : ∀ a ∈ samples T, (samples U).Pairwise (fun b c => dist (g a) (g b) ≠ dist (g a) (g c)))
    {h : Heap K R} {f t : Nat} (hf : h[f]? = some T') (ht : h[t]? = some U') (hft : f ≠ t) :
    (do
      let o ← rd t
      let p ← rd f
      let mt ← SE.lift (kdMatcher query (key o) (key p) m)
      applyMatch f t mt : SE (Heap K R) (Nat × Nat)) h = (.ok (f, t), h) := by
  have hl := hpair.length
  have hmem : ∀ a ∈ samples T', a ∈ samples T := fun a ha => hpair.test.subset ha
  have hown := kdMatcher_own hq (ref := (samples U').map g) (test := (samples T').map g) hm (by simpa using hl)
    (by simpa using hpair.nonempty) (by
      intro i p q hp hq'
      rw [List.getElem?_map] at hp hq'
      obtain ⟨a, ha, rfl⟩ := Option.map_eq_some_iff.1 hp
      obtain ⟨b, hb, rfl⟩ := Option.map_eq_some_iff.1 hq'
      obtain ⟨hn, hw⟩ := hpair.pairs i a b ha hb
      refine ⟨hw, ?_⟩
      intro j q' hj hji
      rw [List.getElem?_map] at hj
      obtain ⟨c, hc, rfl⟩ := Option.map_eq_some_iff.1 hj
      have hle := hn.2 (g c) (List.mem_map_of_mem (hpair.ref.subset (List.mem_of_getElem? hc)))
      refine lt_of_le_of_ne hle ?_
      have hp' := (hties a (hmem a (List.mem_of_getElem? ha))).sublist hpair.ref
      obtain ⟨hi, rfl⟩ := List.getElem?_eq_some_iff.1 hb
      obtain ⟨hj', rfl⟩ := List.getElem?_eq_some_iff.1 hc
      rw [List.pairwise_iff_getElem] at hp'
      rcases Nat.lt_or_gt_of_ne hji with hlt | hlt
      · exact (hp' j i hj' hi hlt).symm
      · exact hp' i j hi hj' hlt)
  rw [List.length_map] at hown
  rw [SE.run_bind_ok (rd_run ht), SE.run_bind_ok (rd_run hf), hkT, hkU, hown, SE.run_bind_ok (SE.run_lift _ _)]
  have lT := samples_length hpair.testCoherent
  have lU := samples_length hpair.refCoherent
  have hne : List.range (samples T').length ≠ [] := by
    rw [Ne, List.range_eq_nil, List.length_eq_zero_iff]
    exact hpair.nonempty
  rw [applyMatch_eq hpair.testCoherent hpair.refCoherent hf ht hft
    (fun i hi => by rw [List.mem_range] at hi; omega) (fun i hi => by rw [List.mem_range] at hi; omega) hne rfl]
  rw [pickTraj_range hpair.testCoherent rfl, pickTraj_range hpair.refCoherent hl.symm]
  rw [set_self hf, set_self ht]

/-- **C175**, nearest in time: matching twice is matching once.  Without the hypothesis on equal distances the library
may decide differently the second time. -/
theorem C175_temporal (lib : MatchLib K R) (hq : IsNearestQuery (fun a b => |a - b|) lib.queryT) (c₁ c₂ : Nat)
    (s : MatchingSettings K) (hs : s.method = .nearestTemporal) (hm : 0 ≤ s.maxTimeDiff) {T U : Traj K R}
    (hT : Coherent T) (hU : Coherent U) (hne : T.tstamps ≠ []) {h h' : Heap K R} {f t f' t' : Nat}
    (hf : h[f]? = some T) (ht : h[t]? = some U) (inplace : Bool) (hft : inplace = true → f ≠ t)
    (hties : ∀ a ∈ samples T, (samples U).Pairwise (fun b c => |a.t - b.t| ≠ |a.t - c.t|))
    (hret : Returns (matchTrajectories lib c₁ f t s inplace) h (f', t') h') :
    Returns (matchTrajectories lib c₂ f' t' s true) h' (f', t') h' := by
  obtain ⟨p1, p2⟩ := C38_temporal_matching lib hq c₁ s hs hm hT hU hne hf ht inplace hft
  by_cases hex : ∃ a ∈ samples T, ∃ b ∈ samples U, Within (fun a b : K => |a - b|) s.maxTimeDiff a.t b.t
  · obtain ⟨f1, t1, h1, T', U', hret1, hf1, ht1, hpair, hin, hout⟩ := p1 hex
    unfold Returns at hret hret1 ⊢
    rw [hret] at hret1
    cases hret1
    have hft' : f' ≠ t' := by
      cases inplace with
      | true => rw [(hin rfl).1, (hin rfl).2]; exact hft rfl
      | false => rw [(hout rfl).1, (hout rfl).2]; omega
    have := nearest_again hq Sample.t Traj.tstamps (samples_map_t hpair.testCoherent).symm
      (samples_map_t hpair.refCoherent).symm hm hpair hties hf1 ht1 hft'
    unfold matchTrajectories
    rw [hs]
    exact this
  · push Not at hex
    obtain ⟨h1, hr, -⟩ := p2 hex
    unfold Returns Raises at *
    rw [hret] at hr
    cases hr

/-- **C175**, nearest in space. -/
theorem C175_spatial (lib : MatchLib K R) (hq : IsNearestQuery (fun a b => lib.nrm (a - b)) lib.queryP) (c₁ c₂ : Nat)
    (s : MatchingSettings K) (hs : s.method = .nearestSpatial) (hm : 0 ≤ s.maxDistance) {T U : Traj K R}
    (hT : Coherent T) (hU : Coherent U) (hne : T.tstamps ≠ []) {h h' : Heap K R} {f t f' t' : Nat}
    (hf : h[f]? = some T) (ht : h[t]? = some U) (inplace : Bool) (hft : inplace = true → f ≠ t)
    (hties : ∀ a ∈ samples T, (samples U).Pairwise (fun b c => lib.nrm (a.p - b.p) ≠ lib.nrm (a.p - c.p)))
    (hret : Returns (matchTrajectories lib c₁ f t s inplace) h (f', t') h') :
    Returns (matchTrajectories lib c₂ f' t' s true) h' (f', t') h' := by
  obtain ⟨p1, p2⟩ := C39_spatial_matching lib hq c₁ s hs hm hT hU hne hf ht inplace hft
  by_cases hex : ∃ a ∈ samples T, ∃ b ∈ samples U, Within (fun a b => lib.nrm (a - b)) s.maxDistance a.p b.p
  · obtain ⟨f1, t1, h1, T', U', hret1, hf1, ht1, hpair, hin, hout⟩ := p1 hex
    unfold Returns at hret hret1 ⊢
    rw [hret] at hret1
    cases hret1
    have hft' : f' ≠ t' := by
      cases inplace with
      | true => rw [(hin rfl).1, (hin rfl).2]; exact hft rfl
      | false => rw [(hout rfl).1, (hout rfl).2]; omega
    have := nearest_again hq Sample.p Traj.pos (samples_map_p hpair.testCoherent).symm
      (samples_map_p hpair.refCoherent).symm hm hpair hties hf1 ht1 hft'
    unfold matchTrajectories
    rw [hs]
    exact this
  · push Not at hex
    obtain ⟨h1, hr, -⟩ := p2 hex
    unfold Returns Raises at *
    rw [hret] at hr
    cases hr

/-- a trajectory is interpolated onto its own timestamps -/
theorem interpolate_own (L : RotLib K R) (hL : SlerpEnds L) {T : Traj K R} (hT : Coherent T) (hne : T.tstamps ≠ [])
    (hs : StrictAsc T.tstamps) (hr : T.rot = none ∨ 2 ≤ T.tstamps.length)
    (hv : T.speed = List.zipWith (fun v s => s⁻¹ • v) (diffs T.pos) (diffs T.tstamps) ++ [0]) :
    Returns (Traj.interpolate L T.tstamps) T () T := by
  obtain ⟨T', hret⟩ := C05_interpolate_succeeds L T hT T.tstamps hne (hr.imp_right (fun h => ⟨h, hs⟩))
  obtain ⟨e1, e2, e3⟩ := C07_interpolate_own_timestamps L T T' hT hne hs hret
  have h0 : 0 < T.tstamps.length := List.length_pos_of_ne_nil hne
  have hrot : T'.rot = T.rot := by
    cases hTr : T.rot with
    | none =>
      have := interpolate_eq_noRot L hT h0 T.tstamps hTr
      unfold Returns at hret
      rw [this] at hret
      cases hret
      rfl
    | some r =>
      have h2 : 2 ≤ T.tstamps.length := hr.resolve_left (by rw [hTr]; simp)
      obtain ⟨r', hr', hl, hk⟩ := C06_interpolate_orientations L hL T T' hT h2 hs r hTr T.tstamps hret (by rw [e1]; exact hne)
      rw [hr']
      congr 1
      rw [e1] at hl hk
      have hrl := hT.rot r hTr
      apply List.ext_getElem (by omega)
      intro k h1 h2'
      have hkt : k < T.tstamps.length := by omega
      have ht : T.tstamps[k]? = some T.tstamps[k] := List.getElem?_eq_getElem hkt
      rcases hk k _ _ ht (List.getElem?_eq_getElem h1) with ⟨i, hi1, hi2⟩ | ⟨i, t0, t1, a0, a1, hi1, hi2, -, -, hlt1, hlt2, -⟩
      · obtain ⟨hil, hie⟩ := List.getElem?_eq_some_iff.1 hi1
        have : i = k := (List.Nodup.getElem_inj_iff hs.nodup).1 hie
        subst this
        rw [List.getElem?_eq_getElem h2'] at hi2
        exact (Option.some.inj hi2).symm
      · exfalso
        obtain ⟨l1, rfl⟩ := List.getElem?_eq_some_iff.1 hi1
        obtain ⟨l2, rfl⟩ := List.getElem?_eq_some_iff.1 hi2
        have hmono := List.pairwise_iff_getElem.1 hs
        have a1 : i < k := by
          by_contra hc
          rcases Nat.lt_or_ge k i with h | h
          · exact absurd (hmono k i hkt l1 h) (not_lt.mpr hlt1.le)
          · have : i = k := by omega
            subst this; exact lt_irrefl _ hlt1
        have a2 : k < i + 1 := by
          by_contra hc
          rcases Nat.lt_or_ge (i + 1) k with h | h
          · exact absurd (hmono (i + 1) k l2 hkt h) (not_lt.mpr hlt2.le)
          · have : i + 1 = k := by omega
            subst this; exact lt_irrefl _ hlt2
        omega
  have hT' : T' = T := by
    obtain ⟨q, hq⟩ : ∃ q, T' = interpDone T (cropReq T.tstamps h0 T.tstamps) q := by
      unfold Returns at hret
      rcases interpolate_cases L hT h0 T.tstamps with ⟨q, hq⟩ | ⟨e, he⟩
      · rw [hq] at hret; exact ⟨q, ((Prod.mk.inj hret).2).symm⟩
      · rw [he] at hret; simp at hret
    have hsp : T'.speed = T.speed := by
      have : T'.speed = List.zipWith (fun v s => s⁻¹ • v) (diffs T'.pos) (diffs T'.tstamps) ++ [0] := by rw [hq]; rfl
      rw [this, e1, e2, hv]
    have hm : T'.sorting = T.sorting ∧ T'.name = T.name ∧ T'.epsg = T.epsg := by rw [hq]; exact ⟨rfl, rfl, rfl⟩
    obtain ⟨m1, m2, m3⟩ := hm
    clear hq hret
    cases T; cases T'
    simp only at e1 e2 e3 hrot hsp m1 m2 m3
    subst e1 e2 e3 hrot hsp m1 m2 m3
    rfl
  rw [hT'] at hret
  exact hret

/-- nothing is removed by the intersection with the own timestamps -/
theorem intersect_own {T : Traj K R} (hT : Coherent T) (hne : T.tstamps ≠ []) (g : K) :
    Returns (Traj.intersect T.tstamps g) T () T := by
  classical
  obtain ⟨t, ht⟩ := List.exists_mem_of_ne_nil _ hne
  obtain ⟨T', hret, hc, hm, hs⟩ := C09_intersect_keeps_exactly_the_covered_samples T hT hne T.tstamps hne g
    ⟨t, inSpan_of_mem ht, inSpan_of_mem ht⟩ (Or.inr ⟨t, ht, Or.inl ht⟩)
  have : T' = T := by
    refine traj_ext hT hc hm ?_
    rw [hs, List.filter_eq_self]
    intro x hx
    rw [decide_eq_true_eq]
    left
    rw [← samples_map_t hT]
    exact List.mem_map_of_mem hx
  rw [this] at hret
  exact hret

theorem simV_run {r v : Nat} {P : SE (Heap K R) Nat} {m : SE (Traj K R) Unit} (hs : SimV r v P m) {h : Heap K R}
    {T : Traj K R} (hr : h[r]? = some T) (hret : Returns m T () T) : P h = (.ok v, h) := by
  rw [hs h T hr]
  unfold Returns at hret
  rw [hret]
  simp [Except.map, set_self hr]

/-- two trajectories with the same times and arc lengths are not changed by matching -/
theorem interpolation_fixed (lib : MatchLib K R) (hL : SlerpEnds lib.rot) {T U : Traj K R} (hT : Coherent T)
    (hU : Coherent U) (ht : T.tstamps = U.tstamps) (ha : T.arc = U.arc) (hne : T.tstamps ≠ [])
    (hs : StrictAsc T.tstamps) (hr : T.rot = none ∨ 2 ≤ T.tstamps.length)
    (hv : T.speed = List.zipWith (fun v s => s⁻¹ • v) (diffs T.pos) (diffs T.tstamps) ++ [0])
    {h : Heap K R} {f t : Nat} (hf : h[f]? = some T) (htt : h[t]? = some U) :
    matchInterpolation lib f t h = (.ok (f, t), h) := by
  unfold matchInterpolation
  rw [SE.run_bind_ok (rd_run htt), ← ht, SE.run_bind_ok (simV_run (sim_intersect f T.tstamps defaultGap) hf (intersect_own hT hne _)),
    SE.run_bind_ok (rd_run hf), ht,
    SE.run_bind_ok (simV_run (sim_intersect t U.tstamps defaultGap) htt (intersect_own hU (ht ▸ hne) _)),
    SE.run_bind_ok (rd_run htt), ← ht,
    SE.run_bind_ok (simV_run (sim_interpolate lib.rot f T.tstamps) hf (interpolate_own lib.rot hL hT hne hs hr hv)),
    SE.run_bind_ok (rd_run htt)]
  have hlast := Sim.onRef (r := f) (SE.modify (fun s : Traj K R => { s with arc := U.arc })) h T hf
  rw [SE.run_bind_ok hlast]
  have : { T with arc := U.arc } = T := by rw [← ha]
  simp only [SE.run_modify, this, set_self hf]
  rfl

open Classical in
/-- what is left by matching by interpolation -/
theorem interpolation_result (lib : MatchLib K R) (counter : Nat) (s : MatchingSettings K)
    (hs : s.method = .interpolation) {T U : Traj K R} (hT : Coherent T) (hU : Coherent U)
    (hTs : StrictAsc T.tstamps) (hUs : StrictAsc U.tstamps) {h h' : Heap K R} {f t f' t' : Nat}
    (hf : h[f]? = some T) (ht : h[t]? = some U) (inplace : Bool) (hft : inplace = true → f ≠ t)
    (hret : Returns (matchTrajectories lib counter f t s inplace) h (f', t') h') :
    ∃ T1 T2 U1, h'[f']? = some { T2 with arc := U1.arc } ∧ h'[t']? = some U1 ∧ Coherent T1 ∧ Coherent U1 ∧
      SameMeta T T1 ∧ T1.tstamps ≠ [] ∧ StrictAsc T1.tstamps ∧ StrictAsc U1.tstamps ∧
      Returns (Traj.interpolate lib.rot U1.tstamps) T1 () T2 ∧ T2.tstamps = U1.tstamps ∧
      samples T1 = (samples T).filter (fun x => decide (Covered U.tstamps 2 x.t)) := by
  obtain ⟨f1, t1, h0, e, hf1, ht1, hne1, -, -⟩ := match_start inplace hf ht hft
    (fun test ref => matchInterpolation lib test ref)
  have hcall : matchTrajectories lib counter f t s inplace h = matchInterpolation lib f1 t1 h0 := by
    rw [← e]
    unfold matchTrajectories
    rw [hs]
  unfold Returns at hret
  rw [hcall] at hret
  unfold matchInterpolation at hret
  rw [SE.run_bind_ok (rd_run ht1)] at hret
  obtain ⟨a, h1, hA, hret⟩ := returns_bind hret
  obtain ⟨T1, hT1, rfl⟩ := simV_returns (sim_intersect f1 U.tstamps defaultGap) hf1 hA
  have hf2 : (h0.set f1 T1)[f1]? = some T1 := get_set hf1
  have ht2 : (h0.set f1 T1)[t1]? = some U := by rw [List.getElem?_set_ne hne1]; exact ht1
  rw [SE.run_bind_ok (rd_run hf2)] at hret
  obtain ⟨b, h2, hB, hret⟩ := returns_bind hret
  obtain ⟨U1, hU1, rfl⟩ := simV_returns (sim_intersect t1 T1.tstamps defaultGap) ht2 hB
  have ht3 : ((h0.set f1 T1).set t1 U1)[t1]? = some U1 := get_set ht2
  have hf3 : ((h0.set f1 T1).set t1 U1)[f1]? = some T1 := by
    rw [List.getElem?_set_ne (Ne.symm hne1)]; exact hf2
  rw [SE.run_bind_ok (rd_run ht3)] at hret
  obtain ⟨c, h3, hC, hret⟩ := returns_bind hret
  obtain ⟨T2, hT2, rfl⟩ := simV_returns (sim_interpolate lib.rot f1 U1.tstamps) hf3 hC
  have hf4 : (((h0.set f1 T1).set t1 U1).set f1 T2)[f1]? = some T2 := get_set hf3
  have ht4 : (((h0.set f1 T1).set t1 U1).set f1 T2)[t1]? = some U1 := by
    rw [List.getElem?_set_ne hne1]; exact ht3
  rw [SE.run_bind_ok (rd_run ht4)] at hret
  have hlast := Sim.onRef (r := f1)
    (SE.modify (fun s : Traj K R => { s with arc := U1.arc })) _ T2 hf4
  rw [SE.run_bind_ok hlast] at hret
  obtain ⟨h5, rfl⟩ := Prod.mk.inj hret
  obtain ⟨rfl, rfl⟩ := Prod.mk.inj (Except.ok.inj h5)
  obtain ⟨-, -, hT1c, hT1m, hT1s⟩ := intersect_returns hT hT1
  obtain ⟨-, hT1ne, hU1c, -, hU1s⟩ := intersect_returns hU hU1
  have hT1t : ((samples T).filter (fun x => decide (Covered U.tstamps defaultGap x.t))).map Sample.t
      = T1.tstamps := by rw [← hT1s, samples_map_t hT1c]
  have hT1p : ((samples T).filter (fun x => decide (Covered U.tstamps defaultGap x.t))).map Sample.p
      = T1.pos := by rw [← hT1s, samples_map_p hT1c]
  have hT1asc : StrictAsc T1.tstamps := by
    rw [← hT1t]
    refine List.Pairwise.sublist ?_ hTs
    rw [← samples_map_t hT]
    exact List.filter_sublist.map _
  have hU1asc : StrictAsc U1.tstamps := by
    rw [← samples_map_t hU1c, hU1s]
    refine List.Pairwise.sublist ?_ hUs
    rw [← samples_map_t hU]
    exact List.filter_sublist.map _
  have h0T : 0 < T1.tstamps.length := List.length_pos_of_ne_nil hT1ne
  have hspan : ∀ τ ∈ U1.tstamps, InSpan T1.tstamps τ := by
    intro τ hτ
    rw [← samples_map_t hU1c, hU1s] at hτ
    obtain ⟨y, hy, rfl⟩ := List.mem_map.1 hτ
    have := (List.mem_filter.1 hy).2
    rw [decide_eq_true_eq] at this
    exact this.inSpan
  have hfirst : T1.tstamps.head? = some T1.tstamps[0] := by
    rw [List.head?_eq_getElem?, List.getElem?_eq_getElem h0T]
  have hlast' : T1.tstamps.getLast? = some T1.tstamps[T1.tstamps.length - 1] := by
    rw [List.getLast?_eq_getElem?, List.getElem?_eq_getElem (by omega)]
  have hts : T2.tstamps = U1.tstamps := by
    obtain ⟨p1, p2⟩ := C05_interpolate_timestamps lib.rot T1 T2 hT1c U1.tstamps _ _ hfirst hlast' hT2
    have hall : U1.tstamps.filter (fun τ => decide (T1.tstamps[0] ≤ τ ∧
        τ ≤ T1.tstamps[T1.tstamps.length - 1])) = U1.tstamps := by
      rw [List.filter_eq_self]
      intro τ hτ
      obtain ⟨⟨a, ha, ha'⟩, b, hb, hb'⟩ := hspan τ hτ
      obtain ⟨i, hi, rfl⟩ := List.getElem_of_mem ha
      obtain ⟨j, hj, rfl⟩ := List.getElem_of_mem hb
      have m1 : T1.tstamps[0] ≤ T1.tstamps[i] := by
        rcases Nat.eq_zero_or_pos i with rfl | hpos
        · exact le_refl _
        · exact le_of_lt (List.pairwise_iff_getElem.1 hT1asc 0 i h0T hi hpos)
      have m2 : T1.tstamps[j] ≤ T1.tstamps[T1.tstamps.length - 1] := by
        rcases Nat.lt_or_ge j (T1.tstamps.length - 1) with hlt | hge
        · exact le_of_lt (List.pairwise_iff_getElem.1 hT1asc j _ hj (by omega) hlt)
        · have : j = T1.tstamps.length - 1 := by omega
          subst this
          exact le_refl _
      simp only [decide_eq_true_eq]
      exact ⟨le_trans m1 ha', le_trans hb' m2⟩
    rw [hall] at p2
    exact p2.eq_of_pairwise (fun _ _ _ _ h1 h2 => le_antisymm h1 h2) p1
      (hU1asc.imp (fun h => le_of_lt h))
  refine ⟨T1, T2, U1, get_set hf4, ?_, hT1c, hU1c, hT1m, hT1ne, hT1asc, hU1asc, hT2, hts, hT1s⟩
  rw [List.getElem?_set_ne hne1]
  exact ht4

theorem interpDone_speed_length {T : Traj K R} {c : List K} (hc : c ≠ []) (q : Option (List R)) :
    (interpDone T c q).speed.length = c.length := by
  have : 0 < c.length := List.length_pos_of_ne_nil hc
  simp [interpDone, interpPos, diffs]
  omega

/-- **C175**, interpolation: matching twice is matching once, if the trajectories have a time in common, and two if the
first one has orientations. -/
theorem C175_interpolation (lib : MatchLib K R) (hL : SlerpEnds lib.rot) (c₁ c₂ : Nat) (s : MatchingSettings K)
    (hs : s.method = .interpolation) {T U : Traj K R} (hT : Coherent T) (hU : Coherent U)
    (hTs : StrictAsc T.tstamps) (hUs : StrictAsc U.tstamps) {h h' : Heap K R} {f t f' t' : Nat}
    (hf : h[f]? = some T) (ht : h[t]? = some U) (inplace : Bool) (hft : inplace = true → f ≠ t)
    (hret : Returns (matchTrajectories lib c₁ f t s inplace) h (f', t') h') {U' : Traj K R}
    (hU' : h'[t']? = some U') (hne : U'.tstamps ≠ []) (hr : T.rot = none ∨ 2 ≤ U'.tstamps.length) :
    Returns (matchTrajectories lib c₂ f' t' s true) h' (f', t') h' := by
  obtain ⟨T1, T2, U1, hf', ht', hT1, hU1, hm, hne1, hs1, hsU, hint, hts, -⟩ :=
    interpolation_result lib c₁ s hs hT hU hTs hUs hf ht inplace hft hret
  rw [ht'] at hU'
  cases hU'
  have h0 : 0 < T1.tstamps.length := List.length_pos_of_ne_nil hne1
  obtain ⟨q, hq⟩ : ∃ q, T2 = interpDone T1 (cropReq T1.tstamps h0 U'.tstamps) q := by
    have hint' := hint
    unfold Returns at hint'
    rcases interpolate_cases lib.rot hT1 h0 U'.tstamps with ⟨q, hq⟩ | ⟨e, he⟩
    · rw [hq] at hint'; exact ⟨q, ((Prod.mk.inj hint').2).symm⟩
    · rw [he] at hint'; simp at hint'
  have hcrop : cropReq T1.tstamps h0 U'.tstamps = U'.tstamps :=
    (congrArg Traj.tstamps hq).symm.trans hts
  have hrot : (T.rot = none ∧ T2.rot = none) ∨
      ∃ r, T2.rot = some r ∧ r.length = U'.tstamps.length ∧ 2 ≤ U'.tstamps.length := by
    cases hTr : T.rot with
    | none =>
      left
      refine ⟨rfl, ?_⟩
      have h1 : T1.rot = none := by
        have := hm.rot
        rw [hTr] at this
        simpa using this
      have := interpolate_eq_noRot lib.rot hT1 h0 U'.tstamps h1
      unfold Returns at hint
      rw [this] at hint
      cases hint
      rfl
    | some r0 =>
      right
      have h2 : 2 ≤ U'.tstamps.length := hr.resolve_left (by rw [hTr]; simp)
      obtain ⟨r1, hr1⟩ : ∃ r1, T1.rot = some r1 := by
        have := hm.rot
        rw [hTr] at this
        exact Option.isSome_iff_exists.1 (by simpa using this)
      have h3 : 2 ≤ T1.tstamps.length := by
        by_contra hlt
        have hrl := hT1.rot r1 hr1
        have hlen : ¬ (cropReq T1.tstamps h0 U'.tstamps).length = 0 := by rw [hcrop]; omega
        have := interpolate_error_of_rot lib.rot hT1 h0 U'.tstamps (e := .valueError)
          (T' := { T1 with pos := interpPos T1 (cropReq T1.tstamps h0 U'.tstamps) }) (by
            unfold Traj.interpolateRotations
            rw [SE.run_bind_ok (SE.run_get _)]
            simp only [hr1, if_neg hlen]
            rw [SE.run_bind_error]
            unfold Traj.slerpCall
            rw [if_pos (by omega)]
            rfl)
        unfold Returns at hint
        rw [this] at hint
        cases hint
      obtain ⟨q', hq1, hq2, hq3⟩ := interpolate_eq_rot lib.rot hT1 h3 hs1 U'.tstamps hr1 (by rw [hcrop]; exact hne)
      unfold Returns at hint
      rw [hq3] at hint
      cases hint
      exact ⟨q', rfl, by rw [hq2, hcrop], h2⟩
  have hspeed : T2.speed = List.zipWith (fun v s => s⁻¹ • v) (diffs T2.pos) (diffs T2.tstamps) ++ [0] := by rw [hq]; rfl
  have hT2 : Coherent { T2 with arc := U'.arc } := by
    refine ⟨?_, ?_, ?_, ?_⟩
    · simp [hq, interpDone, interpPos]
    · show U'.arc.length = T2.tstamps.length
      rw [hts]; exact hU1.arc
    · show T2.speed.length = T2.tstamps.length
      rw [hq, interpDone_speed_length (by rw [hcrop]; exact hne)]; rfl
    · intro r hr'
      show r.length = T2.tstamps.length
      rcases hrot with ⟨-, h1⟩ | ⟨r', h1, h2, -⟩
      · rw [show T2.rot = some r from hr'] at h1; cases h1
      · rw [show T2.rot = some r from hr'] at h1; cases h1; rw [h2, hts]
  have := interpolation_fixed lib hL hT2 hU1 hts rfl (by show T2.tstamps ≠ []; rw [hts]; exact hne)
    (by show StrictAsc T2.tstamps; rw [hts]; exact hsU)
    (by
      show T2.rot = none ∨ 2 ≤ T2.tstamps.length
      rw [hts]
      exact hrot.imp (fun h => h.2) (fun ⟨_, _, _, h⟩ => h)) hspeed hf' ht'
  unfold Returns matchTrajectories
  rw [hs]
  exact this

/-- a reference without equal distances -/
def exNoTies : Traj ℚ (Fin 4) := { exGt with tstamps := [0, 1, 7 / 2] }

/-- nearest in time, with a sample that has no partner -/
example : (∀ a ∈ samples exEst, (samples exNoTies).Pairwise (fun b c => |a.t - b.t| ≠ |a.t - c.t|)) ∧
    (matchTrajectories exMetric.mat 0 0 1 ⟨.nearestTemporal, 1 / 4, 1, 2⟩ true [exEst, exNoTies]).1 = .ok (0, 1) ∧
    ((matchTrajectories exMetric.mat 0 0 1 ⟨.nearestTemporal, 1 / 4, 1, 2⟩ true [exEst, exNoTies]).2.map (fun T => T.tstamps)) =
      [[0, 1], [0, 1]] := by
  refine ⟨?_, by decide +kernel, by decide +kernel⟩
  have hT : ∀ a ∈ samples exEst, a.t = 0 ∨ a.t = 1 ∨ a.t = 2 := by
    intro a ha
    have : a.t ∈ exEst.tstamps := by rw [← samples_map_t exEst_coherent]; exact List.mem_map_of_mem ha
    simpa [exEst] using this
  intro a ha
  have : ((samples exNoTies).map (fun s => s.t)).Pairwise (fun b c => |a.t - b| ≠ |a.t - c|) := by
    rw [samples_map_t (show Coherent exNoTies from ⟨rfl, rfl, rfl, by rintro r ⟨⟩; rfl⟩)]
    rcases hT a ha with h | h | h <;> rw [h] <;> norm_num [exNoTies, abs_of_pos, abs_of_neg]
  rw [List.pairwise_map] at this
  exact this
/-- nearest in space -/
example : (∀ a ∈ samples exEst, (samples exGt).Pairwise (fun b c => exMetric.mat.nrm (a.p - b.p) ≠ exMetric.mat.nrm (a.p - c.p))) ∧
    (matchTrajectories exMetric.mat 0 0 1 ⟨.nearestSpatial, 1 / 4, 1 / 2, 2⟩ false [exEst, exGt]).1 = .ok (2, 3) ∧
    ((matchTrajectories exMetric.mat 0 0 1 ⟨.nearestSpatial, 1 / 4, 1 / 2, 2⟩ false [exEst, exGt]).2.map (fun T => T.tstamps)) =
      [[0, 1, 2], [0, 1, 3], [1, 2], [0, 1]] := by
  refine ⟨?_, by decide +kernel, by decide +kernel⟩
  have hT : ∀ a ∈ samples exEst, a.p = ⟨0, 0, 0⟩ ∨ a.p = ⟨1, 0, 0⟩ ∨ a.p = ⟨2, 1, 0⟩ := by
    intro a ha
    have : a.p ∈ exEst.pos := by rw [← samples_map_p exEst_coherent]; exact List.mem_map_of_mem ha
    simpa [exEst] using this
  intro a ha
  have : ((samples exGt).map (fun s => s.p)).Pairwise (fun b c => exMetric.mat.nrm (a.p - b) ≠ exMetric.mat.nrm (a.p - c)) := by
    rw [samples_map_p exGt_coherent]
    rcases hT a ha with h | h | h <;> rw [h] <;> norm_num [exGt, exMetric, abs_of_pos, abs_of_neg]
  rw [List.pairwise_map] at this
  exact this

/-- interpolation -/
example : (matchTrajectories exMatchLib 0 0 1 ⟨.interpolation, 1, 2, 1⟩ true
      [{ exTestLine with tstamps := [0, 1/2, 1] }, { exRefLine with tstamps := [0, 3/4, 1] }]).1 = .ok (0, 1) ∧
    (matchTrajectories exMatchLib 0 0 1 ⟨.interpolation, 1, 2, 1⟩ true
      [{ exTestLine with tstamps := [0, 1/2, 1] }, { exRefLine with tstamps := [0, 3/4, 1] }]).2.map (fun T => T.tstamps) =
        [[0, 3/4, 1], [0, 3/4, 1]] := by decide +kernel
/-- one common time only, with orientations: the second matching raises, as spherical interpolation needs two samples -/
example : ∀ T' U' : Traj ℚ Nat, T' = { exRefLine with tstamps := [1], pos := [⟨1, 0, 0⟩], rot := some [1], arc := [1], speed := [0] } →
    U' = { exRefLine with tstamps := [1], pos := [⟨1, 0, 0⟩], arc := [1], speed := [0] } →
    (matchTrajectories exMatchLib 0 0 1 ⟨.interpolation, 1, 2, 1⟩ true [T', U']).1 = .error .valueError := by
  rintro _ _ rfl rfl
  decide +kernel

/-- right directions of the three lines that are fitted -/
def exCorner : MatchLib ℚ Nat :=
  { exMatchLib with
    lineDir := fun l => if l = [⟨0, 0, 0⟩, ⟨4, 0, 0⟩] ∨ l = [⟨4, 0, 0⟩, ⟨0, 0, 0⟩] then ⟨1, 0, 0⟩
      else if l = [⟨4, 0, 0⟩, ⟨4, 5, 0⟩] ∨ l = [⟨4, 5, 0⟩, ⟨4, 0, 0⟩] then ⟨0, 1, 0⟩ else ⟨3/5, 4/5, 0⟩ }
def exCornerTest : Traj ℚ Nat :=
  { tstamps := [0, 1], pos := [⟨1, 1, 0⟩, ⟨5, 4, 0⟩], rot := none, arc := [0, 5], speed := [0, 0], sorting := .time, name := "test", epsg := 0 }
def exCornerRef : Traj ℚ Nat :=
  { exRefLine with pos := [⟨0, 0, 0⟩, ⟨4, 0, 0⟩, ⟨4, 5, 0⟩] }

/-- **C175** fails for matching with lines: the second time the lines are fitted to feet of perpendiculars, and other feet are found.
-/
theorem C175_lines_move : ∃ (lib : MatchLib ℚ Nat) (s : MatchingSettings ℚ) (h h' h'' : Heap ℚ Nat) (f t f' t' : Nat),
    s.method = .nearestSpatialInterpolated ∧ IsKNearestQuery (fun a b => lib.nrm (a - b)) lib.queryPK ∧
    Returns (matchTrajectories lib 0 0 1 s true) h (f, t) h' ∧ Returns (matchTrajectories lib 0 f t s true) h' (f', t') h'' ∧
    (h'[f]?.map (fun T => T.pos)) = some [⟨1, 1, 0⟩, ⟨5, 4, 0⟩] ∧ (h'[t]?.map (fun T => T.pos)) = some [⟨1, 0, 0⟩, ⟨4, 4, 0⟩] ∧
    (h''[f']?.map (fun T => T.pos)) = some [⟨1, 1, 0⟩, ⟨5, 4, 0⟩] ∧
    (h''[t']?.map (fun T => T.pos)) = some [⟨37/25, 16/25, 0⟩, ⟨109/25, 112/25, 0⟩] := by
  refine ⟨exCorner, ⟨.nearestSpatialInterpolated, 1, 10, 2⟩, [exCornerTest, exCornerRef], _, _, 2, 3, 4, 5, rfl,
    bruteQueryK_isKNearest _, Prod.ext (by decide +kernel) rfl, Prod.ext (by decide +kernel) rfl, by decide +kernel, by decide +kernel,
    by decide +kernel, by decide +kernel⟩

end TC
