import Verif.Proofs.Intersect
import Verif.Props.Span
/-!
# C09–C11: `intersect` and `match_timestamps`
-/
namespace TC
variable {K R : Type} [Field K] [LinearOrder K]

/-- The instant `t` is covered by the timestamps `ts`: it is one of them, or lies between two
successive ones that are at most `maxGap` apart. -/
def Covered (ts : List K) (maxGap t : K) : Prop :=
  t ∈ ts ∨ ∃ a b, Successive ts a b ∧ a < t ∧ t < b ∧ b - a ≤ maxGap

omit [Field K] in
theorem inSpan_of_mem {ts : List K} {t : K} (h : t ∈ ts) : InSpan ts t :=
  ⟨⟨t, h, le_refl _⟩, t, h, le_refl _⟩

theorem Covered.inSpan {ts : List K} {g t : K} (h : Covered ts g t) : InSpan ts t := by
  rcases h with h | ⟨a, b, hs, h1, h2, _⟩
  · exact inSpan_of_mem h
  · exact ⟨⟨a, hs.1, le_of_lt h1⟩, b, hs.2.1, le_of_lt h2⟩

/-- **C09**, no overlap. -/
theorem C09_intersect_without_overlap_raises (T : Traj K R) (hne : T.tstamps ≠ []) (ts : List K)
    (hts : ts ≠ []) (g : K) (h : ¬ Overlap ts T.tstamps) :
    Raises (Traj.intersect ts g) T .valueError T := by
  unfold Raises Traj.intersect
  have := (C27_common_time_span_none_iff ts T.tstamps hts hne).2 h
  simp [SE.run_bind, this]

open Classical in
/-- **C09**, overlap. -/
theorem C09_intersect_keeps_exactly_the_covered_samples (T : Traj K R) (hT : Coherent T)
    (hne : T.tstamps ≠ []) (ts : List K) (hts : ts ≠ []) (g : K) (h : Overlap ts T.tstamps)
    (hk : T.rot = none ∨ ∃ t ∈ T.tstamps, Covered ts g t) :
    ∃ T', Returns (Traj.intersect ts g) T () T' ∧ Coherent T' ∧ SameMeta T T' ∧
      samples T' = (samples T).filter (fun s => decide (Covered ts g s.t)) := by
  obtain ⟨t0, t1, hsp, hiff⟩ := C27_common_time_span_exact ts T.tstamps hts hne h
  have hk1 : T.rot = none ∨ ∃ t ∈ T.tstamps, t0 ≤ t ∧ t ≤ t1 := by
    refine hk.imp_right ?_
    rintro ⟨t, ht, hcov⟩
    exact ⟨t, ht, (hiff t).2 ⟨hcov.inSpan, inSpan_of_mem ht⟩⟩
  obtain ⟨T1, hc, hT1, hm1, hs1⟩ := C03_crop_keeps_exactly_the_window T hT t0 t1 hk1
  unfold Returns at hc
  have hstamps : ∀ t ∈ T1.tstamps, InSpan ts t := by
    intro t ht
    rw [← samples_map_t hT1, hs1] at ht
    obtain ⟨s, hs, rfl⟩ := List.mem_map.1 ht
    have := (List.mem_filter.1 hs).2
    rw [decide_eq_true_eq] at this
    exact ((hiff s.t).1 this).1
  have hg : Traj.gapFilter (npSort ts) g T1.tstamps 0 =
      .ok (keepIdx (fun t => decide (Covered ts g t)) T1.tstamps 0) := by
    apply gapFilter_eq
    intro t ht
    rw [gapKeep_eq (hstamps t ht)]
    congr 1
    rw [decide_eq_decide]
    exact Iff.rfl
  have hval := keepIdx_valid (fun t => decide (Covered ts g t)) T1.tstamps 0 T1.tstamps.length (by omega)
  have hsam : pick (.ints (keepIdx (fun t => decide (Covered ts g t)) T1.tstamps 0)) (samples T1) =
      (samples T).filter (fun s => decide (Covered ts g s.t)) := by
    have hkk : keepIdx (fun t => decide (Covered ts g t)) T1.tstamps 0 =
        keepIdx (fun s : Sample K R => decide (Covered ts g s.t)) (samples T1) 0 := by
      conv_lhs => rw [← samples_map_t hT1]
      rw [keepIdx_map]
    rw [hkk]
    have hp := pick_keepIdx (fun s : Sample K R => decide (Covered ts g s.t)) [] (samples T1)
    simp only [List.length_nil, List.nil_append] at hp
    rw [hp, hs1, List.filter_filter]
    apply List.filter_congr
    intro s hs
    have hst : s.t ∈ T.tstamps := by
      rw [← samples_map_t hT]; exact List.mem_map_of_mem hs
    by_cases hcov : Covered ts g s.t
    · have : t0 ≤ s.t ∧ s.t ≤ t1 := (hiff s.t).2 ⟨hcov.inSpan, inSpan_of_mem hst⟩
      simp [hcov, this]
    · simp [hcov]
  refine ⟨pickTraj (.ints (keepIdx (fun t => decide (Covered ts g t)) T1.tstamps 0)) T1, ?_,
    pickTraj_coherent hT1, ?_, by rw [samples_pickTraj hT1, hsam]⟩
  · unfold Returns Traj.intersect
    simp only [SE.run_bind, SE.run_get, SE.run_lift, hsp, hc, hg]
    rw [applyIndex_eq hT1 hval]
    rcases hk with hk | ⟨t, ht, hcov⟩
    · left
      have := hm1.rot
      rw [hk] at this
      simpa using this
    · right
      apply pick_ne_nil_of_samples hT1
      rw [hsam]
      rw [← samples_map_t hT] at ht
      obtain ⟨s, hs, rfl⟩ := List.mem_map.1 ht
      exact List.ne_nil_of_mem (List.mem_filter.2 ⟨hs, by simpa using hcov⟩)
  · have hm2 := pickTraj_sameMeta (.ints (keepIdx (fun t => decide (Covered ts g t)) T1.tstamps 0)) T1
    exact ⟨hm2.name.trans hm1.name, hm2.sorting.trans hm1.sorting, hm2.epsg.trans hm1.epsg,
      hm2.rot.trans hm1.rot⟩

/-- **C10.** -/
theorem C10_intersect_idempotent (T T' : Traj K R) (hT : Coherent T) (hne : T.tstamps ≠ [])
    (ts : List K) (hts : ts ≠ []) (g : K) (hcv : ∃ t ∈ T.tstamps, Covered ts g t)
    (hret : Returns (Traj.intersect ts g) T () T') :
    Returns (Traj.intersect ts g) T' () T' := by
  classical
  have hov : Overlap ts T.tstamps := by
    obtain ⟨t, ht, hc⟩ := hcv
    exact ⟨t, hc.inSpan, inSpan_of_mem ht⟩
  obtain ⟨T1, h1, hT1, hm1, hs1⟩ :=
    C09_intersect_keeps_exactly_the_covered_samples T hT hne ts hts g hov (Or.inr hcv)
  have hEq : T' = T1 := by
    unfold Returns at h1 hret
    rw [h1] at hret
    exact (Prod.mk.inj hret).2.symm
  subst hEq
  have hcov : ∀ s ∈ samples T', Covered ts g s.t := by
    intro s hs
    rw [hs1] at hs
    simpa using (List.mem_filter.1 hs).2
  have hcv' : ∃ t ∈ T'.tstamps, Covered ts g t := by
    obtain ⟨t, ht, hc⟩ := hcv
    rw [← samples_map_t hT] at ht
    obtain ⟨s, hs, rfl⟩ := List.mem_map.1 ht
    refine ⟨s.t, ?_, hc⟩
    rw [← samples_map_t hT1, hs1]
    exact List.mem_map_of_mem (List.mem_filter.2 ⟨hs, by simpa using hc⟩)
  have hne' : T'.tstamps ≠ [] := by
    obtain ⟨t, ht, _⟩ := hcv'
    exact List.ne_nil_of_mem ht
  have hov' : Overlap ts T'.tstamps := by
    obtain ⟨t, ht, hc⟩ := hcv'
    exact ⟨t, hc.inSpan, inSpan_of_mem ht⟩
  obtain ⟨T2, h2, hT2, hm2, hs2⟩ :=
    C09_intersect_keeps_exactly_the_covered_samples T' hT1 hne' ts hts g hov' (Or.inr hcv')
  have : T2 = T' := by
    apply coherent_ext hT1 hT2 hm2
    rw [hs2, List.filter_eq_self]
    intro s hs
    simpa using hcov s hs
  rw [this] at h2
  exact h2

theorem findIdx_filterMap {α β : Type} [DecidableEq β] (f : α → β) (l : List α) (t : β)
    (h : t ∈ l.map f) :
    ((l.map f).findIdx (fun u => decide (u = t)) < l.length) ∧
    l[(l.map f).findIdx (fun u => decide (u = t))]? = l.find? (fun a => decide (f a = t)) := by
  induction l with
  | nil => simp at h
  | cons a l ih =>
    simp only [List.map_cons, List.findIdx_cons, List.find?_cons]
    by_cases ha : f a = t
    · simp [ha]
    · simp only [ha, decide_false, cond_false]
      have h' : t ∈ l.map f := by
        rcases List.mem_cons.1 h with h | h
        · exact absurd h.symm ha
        · exact h
      have := ih h'
      simp only [List.length_cons, List.getElem?_cons_succ]
      exact ⟨by omega, this.2⟩

/-- **C11.** -/
theorem C11_match_timestamps (T : Traj K R) (hT : Coherent T) (ts : List K)
    (hk : T.rot = none ∨ ∃ t ∈ T.tstamps, t ∈ ts) :
    ∃ T', Returns (Traj.matchTimestamps ts) T () T' ∧ Coherent T' ∧ SameMeta T T' ∧
      StrictAsc T'.tstamps ∧
      (∀ t, t ∈ T'.tstamps ↔ t ∈ T.tstamps ∧ t ∈ ts) ∧
      ∀ s ∈ samples T', (samples T).find? (fun u => decide (u.t = s.t)) = some s := by
  have hst := samples_map_t hT
  have hmem : ∀ t, t ∈ ((npSort T.tstamps).dedup).filter (fun t => decide (t ∈ ts)) ↔
      t ∈ T.tstamps ∧ t ∈ ts := by
    intro t
    rw [List.mem_filter, List.mem_dedup, mem_npSort, decide_eq_true_eq]
  have hsd : StrictAsc (((npSort T.tstamps).dedup).filter (fun t => decide (t ∈ ts))) := by
    have h1 : ((npSort T.tstamps).dedup).Pairwise (· < ·) := by
      have hle : ((npSort T.tstamps).dedup).Pairwise (· ≤ ·) :=
        (npSort_sorted T.tstamps).sublist (List.dedup_sublist _)
      have hnd : ((npSort T.tstamps).dedup).Pairwise (· ≠ ·) := List.nodup_dedup _
      exact (hle.and hnd).imp (fun ⟨h, h'⟩ => lt_of_le_of_ne h h')
    exact List.Pairwise.sublist List.filter_sublist h1
  generalize hF : ((npSort T.tstamps).dedup).filter (fun t => decide (t ∈ ts)) = F at *
  have hsub : ∀ t ∈ F, t ∈ (samples T).map Sample.t := fun t ht => by
    rw [hst]; exact ((hmem t).1 ht).1
  have hidx : Traj.intersectIdx T.tstamps ts =
      F.map (fun t => ((((samples T).map Sample.t).findIdx (fun u => decide (u = t)) : Nat) : Int)) := by
    unfold Traj.intersectIdx
    rw [hF, hst]
  have hval : IndexValid T.tstamps.length (.ints (Traj.intersectIdx T.tstamps ts)) := by
    rw [hidx]
    intro i hi
    obtain ⟨t, ht, rfl⟩ := List.mem_map.1 hi
    have h1 := (findIdx_filterMap Sample.t (samples T) t (hsub t ht)).1
    rw [samples_length hT] at h1
    rw [pyPos_natCast h1]
    simp
  have hpick : pick (.ints (Traj.intersectIdx T.tstamps ts)) (samples T) =
      F.filterMap (fun t => (samples T).find? (fun u => decide (u.t = t))) := by
    rw [hidx]
    simp only [pick, List.filterMap_map]
    apply List.filterMap_congr
    intro t ht
    obtain ⟨h1, h2⟩ := findIdx_filterMap Sample.t (samples T) t (hsub t ht)
    simp only [Function.comp]
    rw [pyPos_natCast h1, Option.bind_some, h2]
  have hfind : ∀ t ∈ F, ∃ s, (samples T).find? (fun u => decide (u.t = t)) = some s ∧ s.t = t := by
    intro t ht
    obtain ⟨u, hu, hut⟩ := List.mem_map.1 (hsub t ht)
    cases hf : (samples T).find? (fun u => decide (u.t = t)) with
    | none =>
      have := List.find?_eq_none.1 hf u hu
      simp [hut] at this
    | some s => exact ⟨s, rfl, by simpa using List.find?_some hf⟩
  have hsam : samples (pickTraj (.ints (Traj.intersectIdx T.tstamps ts)) T) =
      F.filterMap (fun t => (samples T).find? (fun u => decide (u.t = t))) := by
    rw [samples_pickTraj hT, hpick]
  have hT' := pickTraj_coherent (index := .ints (Traj.intersectIdx T.tstamps ts)) hT
  have hstamps : (pickTraj (.ints (Traj.intersectIdx T.tstamps ts)) T).tstamps = F := by
    rw [← samples_map_t hT', hsam, List.map_filterMap]
    conv_rhs => rw [← List.filterMap_some (l := F)]
    apply List.filterMap_congr
    intro t ht
    obtain ⟨s, h1, h2⟩ := hfind t ht
    rw [h1, Option.map_some, h2]
  refine ⟨pickTraj (.ints (Traj.intersectIdx T.tstamps ts)) T, ?_, hT',
    pickTraj_sameMeta _ _, ?_, ?_, ?_⟩
  · unfold Returns Traj.matchTimestamps
    simp only [SE.run_bind, SE.run_get]
    refine applyIndex_eq hT hval (hk.imp_right ?_)
    rintro ⟨t, ht, htt⟩ hc
    have h1 : t ∈ F := (hmem t).2 ⟨ht, htt⟩
    rw [← hstamps] at h1
    simp only [pickTraj] at h1
    rw [hc] at h1
    simp at h1
  · rw [hstamps]; exact hsd
  · rw [hstamps]; exact hmem
  · intro s hs
    rw [hsam] at hs
    obtain ⟨t, ht, hts⟩ := List.mem_filterMap.1 hs
    obtain ⟨s', h1, h2⟩ := hfind t ht
    rw [hts] at h1
    cases Option.some.inj h1
    rw [h2]
    exact hts

/-! Concrete cases -/

example : Overlap ([1, 2] : List ℚ) exT.tstamps ∧ exT.tstamps ≠ [] ∧ Coherent exT :=
  ⟨⟨1, inSpan_of_mem (by decide +kernel), inSpan_of_mem (by decide +kernel)⟩, by decide +kernel,
    exT_coherent⟩
example : ∃ t ∈ exT.tstamps, Covered ([1, 2] : List ℚ) 1 t :=
  ⟨1, by decide +kernel, Or.inl (by decide +kernel)⟩
/-- a sample inside a gap larger than the limit is dropped -/
example : (Traj.intersect [0, 2] 1 exT).2.tstamps = [0, 2] := by decide +kernel
example : (Traj.intersect [0, 2] 2 exT).2.tstamps = [0, 1, 2] := by decide +kernel
example : (Traj.intersect [0, 2] 1 exT).1 = .ok () := by decide +kernel
example : ¬ Overlap ([5, 6] : List ℚ) exT.tstamps := by
  rintro ⟨x, ⟨⟨a, ha, hax⟩, -⟩, -, b, hb, hxb⟩
  have h1 : ∀ a ∈ ([5, 6] : List ℚ), 5 ≤ a := by decide +kernel
  have h2 : ∀ b ∈ exT.tstamps, b ≤ 2 := by decide +kernel
  have h3 := le_trans (h1 a ha) (le_trans hax (le_trans hxb (h2 b hb)))
  exact absurd h3 (by decide +kernel)
example : (Traj.matchTimestamps [2, 7, 0, 2] exT).2.tstamps = [0, 2] := by decide +kernel
example : ∃ t ∈ exT.tstamps, t ∈ ([2, 7, 0, 2] : List ℚ) := ⟨2, by decide +kernel, by decide +kernel⟩

end TC
