import Verif.Props.MatchInterp
import Verif.Props.MatchTraj
import Verif.Proofs.Ate
import Verif.Props.Observations
/-!
# Matching trajectories that have the same timestamps
-/
namespace TC
set_option linter.unusedSectionVars false
open H
variable {K R : Type} [Field K] [LinearOrder K]

theorem covered_self {ts : List K} {g : K} {t : K} (h : t ∈ ts) : Covered ts g t := .inl h

/-- cutting a trajectory to times among which all its own are changes nothing -/
theorem intersect_same {T : Traj K R} (hT : Coherent T) (hne : T.tstamps ≠ []) (ts : List K) (g : K)
    (h : ∀ t ∈ T.tstamps, t ∈ ts) : Traj.intersect ts g T = (.ok (), T) := by
  classical
  obtain ⟨t, ht⟩ := List.exists_mem_of_ne_nil _ hne
  have hts := h t ht
  obtain ⟨T', h1, h2, h3, h4⟩ := C09_intersect_keeps_exactly_the_covered_samples T hT hne ts (List.ne_nil_of_mem hts) g
    ⟨t, inSpan_of_mem hts, inSpan_of_mem ht⟩ (.inr ⟨t, ht, covered_self hts⟩)
  rw [List.filter_eq_self.2] at h4
  · rw [coherent_ext hT h2 h3 h4] at h1
    exact h1
  · intro s hs
    have : s.t ∈ T.tstamps := by rw [← samples_map_t hT]; exact List.mem_map_of_mem hs
    simpa using covered_self (h _ this)

variable [IsStrictOrderedRing K]

/-- the polygon at its own vertices -/
theorem polygon_vertex {ts : List K} {vs : List (V3 K)} (hs : StrictAsc ts) {i : Nat}
    {t : K} (hi : ts[i]? = some t) {p : V3 K} (h : OnPolygon ts vs t p) : vs[i]? = some p := by
  obtain ⟨hil, hit⟩ := List.getElem?_eq_some_iff.1 hi
  rcases h with ⟨j, hj, hp⟩ | ⟨j, t0, t1, v0, v1, h0, h1, -, -, h2, h3, -⟩
  · obtain ⟨hjl, hjt⟩ := List.getElem?_eq_some_iff.1 hj
    rcases Nat.lt_trichotomy i j with hij | rfl | hij
    · exact absurd (List.pairwise_iff_getElem.1 hs i j hil hjl hij) (by rw [hit, hjt]; exact lt_irrefl _)
    · exact hp
    · exact absurd (List.pairwise_iff_getElem.1 hs j i hjl hil hij) (by rw [hit, hjt]; exact lt_irrefl _)
  · exfalso
    obtain ⟨a0, b0⟩ := List.getElem?_eq_some_iff.1 h0
    obtain ⟨a1, b1⟩ := List.getElem?_eq_some_iff.1 h1
    rcases Nat.lt_or_ge j i with hij | hij
    · rcases Nat.eq_or_lt_of_le (Nat.succ_le_of_lt hij) with he | hlt
      · subst he
        rw [hit] at b1
        exact absurd h3 (by rw [b1]; exact lt_irrefl _)
      · have := List.pairwise_iff_getElem.1 hs (j + 1) i a1 hil hlt
        rw [hit, b1] at this
        exact lt_asymm h3 this
    · rcases Nat.eq_or_lt_of_le hij with rfl | hlt
      · rw [hit] at b0
        exact absurd h2 (by rw [b0]; exact lt_irrefl _)
      · have := List.pairwise_iff_getElem.1 hs i j hil a0 hlt
        rw [hit, b0] at this
        exact lt_asymm h2 this

/-- interpolating a trajectory at its own timestamps -/
theorem interpolate_same (L : RotLib K R) {T : Traj K R} (hT : Coherent T) (hs : StrictAsc T.tstamps)
    (h2 : 2 ≤ T.tstamps.length) : ∃ T', Traj.interpolate L T.tstamps T = (.ok (), T') ∧ Coherent T' ∧ SameMeta T T' ∧
      T'.tstamps = T.tstamps ∧ T'.pos = T.pos ∧ (SlerpEnds L → T'.rot = T.rot) := by
  have hne : T.tstamps ≠ [] := by intro h; rw [h] at h2; simp at h2
  have h0 : 0 < T.tstamps.length := by omega
  obtain ⟨T', h1⟩ := C05_interpolate_succeeds L T hT T.tstamps hne (.inr ⟨h2, hs⟩)
  have hfirst : T.tstamps.head? = some T.tstamps[0] := by rw [List.head?_eq_getElem?, List.getElem?_eq_getElem h0]
  have hlast : T.tstamps.getLast? = some T.tstamps[T.tstamps.length - 1] := by
    rw [List.getLast?_eq_getElem?, List.getElem?_eq_getElem (by omega)]
  obtain ⟨p1, p2⟩ := C05_interpolate_timestamps L T T' hT T.tstamps _ _ hfirst hlast h1
  have hts : T'.tstamps = T.tstamps := by
    rw [List.filter_eq_self.2] at p2
    · exact p2.eq_of_pairwise (fun _ _ _ _ h1 h2 => le_antisymm h1 h2) p1 (hs.imp (fun h => le_of_lt h))
    · intro t ht
      obtain ⟨i, hi, rfl⟩ := List.getElem_of_mem ht
      have m1 : T.tstamps[0] ≤ T.tstamps[i] := by
        rcases Nat.eq_zero_or_pos i with rfl | hpos
        · exact le_refl _
        · exact le_of_lt (List.pairwise_iff_getElem.1 hs 0 i h0 hi hpos)
      have m2 : T.tstamps[i] ≤ T.tstamps[T.tstamps.length - 1] := by
        rcases Nat.lt_or_ge i (T.tstamps.length - 1) with hlt | hge
        · exact le_of_lt (List.pairwise_iff_getElem.1 hs i _ hi (by omega) hlt)
        · have : i = T.tstamps.length - 1 := by omega
          subst this
          exact le_refl _
      simp only [decide_eq_true_eq]
      exact ⟨m1, m2⟩
  obtain ⟨q1, q2⟩ := C06_interpolate_positions L T T' hT hne hs T.tstamps h1
  obtain ⟨r1, r2, r3⟩ := interpolate_returns L hT hne h1
  have hpos : T'.pos = T.pos := by
    refine List.ext_getElem? fun i => ?_
    rw [hts] at q1 q2
    by_cases hi : i < T.tstamps.length
    · have hp : T'.pos[i]? = some (T'.pos[i]'(by omega)) := List.getElem?_eq_getElem (by omega)
      have := q2 i _ _ (List.getElem?_eq_getElem hi) hp
      rw [polygon_vertex hs (List.getElem?_eq_getElem hi) this, hp]
    · rw [List.getElem?_eq_none (by omega), List.getElem?_eq_none (by rw [hT.pos]; omega)]
  have hrot : SlerpEnds L → T'.rot = T.rot := by
    intro hL
    rcases hr : T.rot with _ | r
    · have := r1.rot
      rw [hr] at this
      simpa using this
    · obtain ⟨r', e1, e2, e3⟩ := C06_interpolate_orientations L hL T T' hT h2 hs r hr T.tstamps h1 (by rw [hts]; exact hne)
      rw [e1]
      congr 1
      refine List.ext_getElem? fun i => ?_
      rw [hts] at e2 e3
      have hrl := hT.rot r hr
      by_cases hi : i < T.tstamps.length
      · have hp : r'[i]? = some (r'[i]'(by omega)) := List.getElem?_eq_getElem (by omega)
        rcases e3 i _ _ (List.getElem?_eq_getElem hi) hp with ⟨j, hj, hp'⟩ | ⟨j, t0, t1, -, -, h0', h1', -, -, h2', h3', -⟩
        · obtain ⟨hjl, hjt⟩ := List.getElem?_eq_some_iff.1 hj
          have hij : i = j := by
            rcases Nat.lt_trichotomy i j with hij | hij | hij
            · exact absurd (List.pairwise_iff_getElem.1 hs i j hi hjl hij) (by rw [hjt]; exact lt_irrefl _)
            · exact hij
            · exact absurd (List.pairwise_iff_getElem.1 hs j i hjl hi hij) (by rw [hjt]; exact lt_irrefl _)
          rw [hp, ← hp', hij]
        · exfalso
          obtain ⟨a0, b0⟩ := List.getElem?_eq_some_iff.1 h0'
          obtain ⟨a1, b1⟩ := List.getElem?_eq_some_iff.1 h1'
          rw [← b0] at h2'
          rw [← b1] at h3'
          rcases Nat.lt_or_ge j i with hij | hij
          · rcases Nat.eq_or_lt_of_le (Nat.succ_le_of_lt hij) with he | hlt
            · subst he
              exact lt_irrefl _ h3'
            · exact lt_asymm h3' (List.pairwise_iff_getElem.1 hs (j + 1) i a1 hi hlt)
          · rcases Nat.eq_or_lt_of_le hij with rfl | hlt
            · exact lt_irrefl _ h2'
            · exact lt_asymm h2' (List.pairwise_iff_getElem.1 hs i j hi a0 hlt)
      · rw [List.getElem?_eq_none (by omega), List.getElem?_eq_none (by omega)]
  refine ⟨T', h1, r3 ?_, r1, hts, hpos, hrot⟩
  intro hc
  rw [hc, hts] at q1
  simp at q1
  omega

/-- matching by interpolation of two trajectories with the same timestamps keeps all samples -/
theorem matchInterp_same (lib : MatchLib K R) (c : Nat) (s : MatchingSettings K) (hs : s.method = .interpolation)
    {T U : Traj K R} (hT : Coherent T) (hU : Coherent U) (htU : U.tstamps = T.tstamps) (hasc : StrictAsc T.tstamps)
    (h2 : 2 ≤ T.tstamps.length) {h : Heap K R} {f t : Nat} (hf : h[f]? = some T) (ht : h[t]? = some U) (hft : f ≠ t) :
    ∃ T', matchTrajectories lib c f t s true h = (.ok (f, t), h.set f T') ∧ Coherent T' ∧ SameMeta T T' ∧
      T'.tstamps = T.tstamps ∧ T'.pos = T.pos ∧ (SlerpEnds lib.rot → T'.rot = T.rot) := by
  have hne : T.tstamps ≠ [] := by intro h; rw [h] at h2; simp at h2
  obtain ⟨T', h1, hc, hm, hts, hpos, hrot⟩ := interpolate_same lib.rot hT hasc h2
  have fset : ∀ {k : Nat} {X : Traj K R}, h[k]? = some X → h.set k X = h := by
    intro k X hk
    obtain ⟨hk1, hk2⟩ := List.getElem?_eq_some_iff.1 hk
    rw [← hk2, List.set_getElem_self]
  have g1 := sim_intersect f U.tstamps defaultGap h T hf
  rw [intersect_same hT hne U.tstamps defaultGap (fun t ht => by rw [htU]; exact ht)] at g1
  simp only [Except.map, fset hf] at g1
  have g2 := sim_intersect t T.tstamps defaultGap h U ht
  rw [intersect_same hU (by rw [htU]; exact hne) T.tstamps defaultGap (fun t ht => by rw [← htU]; exact ht)] at g2
  simp only [Except.map, fset ht] at g2
  have g3 := sim_interpolate lib.rot f U.tstamps h T hf
  rw [htU, h1] at g3
  simp only [Except.map] at g3
  refine ⟨{ T' with arc := U.arc }, ?_, ⟨hc.pos, ?_, hc.speed, hc.rot⟩, ⟨hm.name, hm.sorting, hm.epsg, hm.rot⟩, hts, hpos, hrot⟩
  · unfold matchTrajectories
    rw [selfOrCopy_true, selfOrCopy_true, pure_bind', pure_bind', hs]
    simp only
    unfold matchInterpolation
    have ht4 : (h.set f T')[t]? = some U := by rw [List.getElem?_set_ne hft]; exact ht
    have hf4 : (h.set f T')[f]? = some T' := get_set hf
    have hlast := Sim.onRef (r := f) (SE.modify (fun s : Traj K R => { s with arc := U.arc })) _ T' hf4
    rw [SE.run_bind_ok (rd_run ht), SE.run_bind_ok g1, SE.run_bind_ok (rd_run hf), SE.run_bind_ok g2,
      SE.run_bind_ok (rd_run ht), htU, SE.run_bind_ok g3, SE.run_bind_ok (rd_run ht4), SE.run_bind_ok hlast]
    simp [SE.modify, List.set_set]
  · change U.arc.length = T'.tstamps.length
    rw [hts, ← htU]
    exact hU.arc

/-- all pairs at the same place -/
theorem kdMatcher_diagonal {P : Type} (query : KdQuery K P) (ref test : List P) (m : K) (hne : test ≠ [])
    (h : ∀ t < test.length, (closestOf query ref test m)[t]? = some (some t))
    (hl : (closestOf query ref test m).length = test.length) :
    kdMatcher query ref test m = .ok (List.range test.length, List.range test.length) := by
  obtain ⟨refs, tests, h1, -, h3, h4, h5, h6⟩ := kdMatcher_some query ref test m hne
    ⟨0, 0, h 0 (List.length_pos_of_ne_nil hne)⟩
  have hcl : ∀ t r : Nat, (closestOf query ref test m)[t]? = some (some r) ↔ t < test.length ∧ r = t := by
    intro t r
    constructor
    · intro hr
      have ht : t < test.length := by
        rw [← hl]
        exact (List.getElem?_eq_some_iff.1 hr).1
      rw [h t ht] at hr
      simp at hr
      exact ⟨ht, hr.symm⟩
    · rintro ⟨ht, rfl⟩
      exact h _ ht
  have hrefs : refs = List.range test.length := by
    have hp : refs.Perm (List.range test.length) := by
      rw [List.perm_ext_iff_of_nodup (h4.imp (fun h => Nat.ne_of_lt h)) List.nodup_range]
      intro r
      rw [h5 r, List.mem_range]
      constructor
      · rintro ⟨t, ht⟩
        obtain ⟨ht1, rfl⟩ := (hcl t r).1 ht
        exact ht1
      · intro hr
        exact ⟨r, (hcl r r).2 ⟨hr, rfl⟩⟩
    exact hp.eq_of_pairwise (fun a b _ _ h1 h2 => absurd h2 (Nat.lt_asymm h1)) h4 List.pairwise_lt_range
  have htests : tests = refs := by
    refine List.ext_getElem? fun k => ?_
    by_cases hk : k < refs.length
    · have e1 := List.getElem?_eq_getElem hk
      have e2 : tests[k]? = some (tests[k]'(by omega)) := List.getElem?_eq_getElem (by omega)
      rw [e1, e2, ((hcl _ _).1 (h6 k _ _ e1 e2).1).2]
    · rw [List.getElem?_eq_none (by omega), List.getElem?_eq_none (by omega)]
  rw [h1, htests, hrefs]

theorem applyIndex_range {T : Traj K R} (hT : Coherent T) (hne : T.tstamps ≠ []) :
    Traj.applyIndex (.ints ((List.range T.tstamps.length).map (fun i : Nat => (i : Int)))) T = (.ok (), T) := by
  have hpp : ∀ n i : Nat, i < n → pyPos n (i : Int) = some i := by
    intro n i hi
    unfold pyPos
    simp [hi]
  have hpick : ∀ {α : Type} (l : List α), l.length = T.tstamps.length →
      pick (.ints ((List.range T.tstamps.length).map (fun i : Nat => (i : Int)))) l = l := by
    intro α l hl
    simp only [pick, List.filterMap_map]
    rw [← hl]
    have : ∀ i ∈ List.range l.length, ((fun i : Int => (pyPos l.length i).bind fun j => l[j]?) ∘ fun i : Nat => (i : Int)) i
        = l[i]? := by
      intro i hi
      simp [hpp _ _ (List.mem_range.1 hi)]
    rw [List.filterMap_congr this]
    clear this hl
    induction l with
    | nil => rfl
    | cons x l ih =>
      rw [List.length_cons, List.range_succ_eq_map]
      simp only [List.filterMap_cons, List.getElem?_cons_zero, List.filterMap_map]
      congr 1
  rw [applyIndex_eq' hT, if_pos, if_neg]
  · rw [coherent_ext hT (pickTraj_coherent hT) (pickTraj_sameMeta _ T)
      (by rw [samples_pickTraj hT, hpick _ (samples_length hT)])]
  · rintro ⟨-, h⟩
    rw [hpick _ rfl] at h
    exact hne h
  · intro i hi
    obtain ⟨j, hj, rfl⟩ := List.mem_map.1 hi
    rw [hpp _ _ (List.mem_range.1 hj)]
    simp

/-- matching by time of two trajectories with the same timestamps changes nothing -/
theorem matchTemporal_same (lib : MatchLib K R) (hq : IsNearestQuery (fun a b => |a - b|) lib.queryT) (c : Nat)
    (s : MatchingSettings K) (hs : s.method = .nearestTemporal) (hm : 0 ≤ s.maxTimeDiff)
    {T U : Traj K R} (hT : Coherent T) (hU : Coherent U) (htU : U.tstamps = T.tstamps) (hasc : StrictAsc T.tstamps)
    (hne : T.tstamps ≠ []) {h : Heap K R} {f t : Nat} (hf : h[f]? = some T) (ht : h[t]? = some U) :
    matchTrajectories lib c f t s true h = (.ok (f, t), h) := by
  have fset : ∀ {k : Nat} {X : Traj K R}, h[k]? = some X → h.set k X = h := by
    intro k X hk
    obtain ⟨hk1, hk2⟩ := List.getElem?_eq_some_iff.1 hk
    rw [← hk2, List.set_getElem_self]
  have hbound : ∀ m, (if s.maxTimeDiff = 0 then none else some s.maxTimeDiff) = some m → 0 < m := by
    intro m
    split_ifs with h0
    · simp
    · rintro ⟨⟩
      exact lt_of_le_of_ne hm (Ne.symm h0)
  have hcl : closestOf lib.queryT T.tstamps T.tstamps s.maxTimeDiff =
      lib.queryT T.tstamps (if s.maxTimeDiff = 0 then none else some s.maxTimeDiff) T.tstamps := by
    unfold closestOf
    split_ifs <;> rfl
  have hk : kdMatcher lib.queryT T.tstamps T.tstamps s.maxTimeDiff =
      .ok (List.range T.tstamps.length, List.range T.tstamps.length) := by
    apply kdMatcher_diagonal _ _ _ _ hne
    · intro i hi
      rw [hcl]
      have hl := hq.length T.tstamps (if s.maxTimeDiff = 0 then none else some s.maxTimeDiff) T.tstamps
      have hi' := List.getElem?_eq_getElem hi
      rcases hr : (lib.queryT T.tstamps (if s.maxTimeDiff = 0 then none else some s.maxTimeDiff) T.tstamps)[i]? with _ | _ | r
      · rw [List.getElem?_eq_none_iff] at hr
        omega
      · obtain ⟨m, h1, h2⟩ := hq.missing _ _ _ hbound i _ hi' hr _ (List.getElem_mem hi)
        have := hbound m h1
        simp at h2
        exact absurd this (not_lt.2 h2)
      · obtain ⟨q, h1, h2, -⟩ := hq.found _ _ _ hbound i _ r hi' hr
        have := h2 _ (List.getElem_mem hi)
        simp only [sub_self, abs_zero] at this
        have hqe : T.tstamps[i] = q := sub_eq_zero.1 (abs_eq_zero.1 (le_antisymm this (abs_nonneg _)))
        obtain ⟨h3, h4⟩ := List.getElem?_eq_some_iff.1 h1
        rw [← hqe] at h4
        rcases Nat.lt_trichotomy i r with hir | rfl | hir
        · exact absurd (List.pairwise_iff_getElem.1 hasc i r hi h3 hir) (by rw [h4]; exact lt_irrefl _)
        · rfl
        · exact absurd (List.pairwise_iff_getElem.1 hasc r i h3 hi hir) (by rw [h4]; exact lt_irrefl _)
    · rw [hcl]
      exact hq.length _ _ _
  unfold matchTrajectories
  rw [selfOrCopy_true, selfOrCopy_true, pure_bind', pure_bind', hs]
  simp only
  unfold matchTemporal
  have g1 := sim_applyIndex f (.ints ((List.range T.tstamps.length).map (fun i : Nat => (i : Int)))) h T hf
  rw [applyIndex_range hT hne] at g1
  simp only [Except.map, fset hf] at g1
  have g2 := sim_applyIndex t (.ints ((List.range T.tstamps.length).map (fun i : Nat => (i : Int)))) h U ht
  rw [← htU, applyIndex_range hU (by rw [htU]; exact hne)] at g2
  simp only [Except.map, fset ht] at g2
  rw [SE.run_bind_ok (rd_run ht), SE.run_bind_ok (rd_run hf), htU, hk, SE.run_bind_ok (SE.run_lift _ _)]
  unfold applyMatch
  rw [htU] at g2
  rw [SE.run_bind_ok g1, SE.run_bind_ok g2]
  rfl
end TC
