import Verif.Props.MatchTraj
import Verif.Props.Intersect
import Verif.Props.TrajInterp
/-!
# C40: matching by interpolation
-/
namespace TC
set_option linter.unusedSectionVars false
open H
variable {K R : Type} [Field K] [LinearOrder K]

open Classical in
/-- up to its last step, `intersect` selects the covered samples -/
theorem intersect_reduce (T : Traj K R) (hT : Coherent T)
    (hne : T.tstamps ≠ []) (ts : List K) (hts : ts ≠ []) (g : K) (h : Overlap ts T.tstamps)
    (hk : T.rot = none ∨ ∃ t ∈ T.tstamps, InSpan ts t) :
    ∃ T1 idx, Coherent T1 ∧ SameMeta T T1 ∧ IndexValid T1.tstamps.length idx ∧
      pick idx (samples T1) = (samples T).filter (fun s => decide (Covered ts g s.t)) ∧
      Traj.intersect ts g T = Traj.applyIndex idx T1 ∧ ∀ t ∈ T.tstamps, InSpan ts t → t ∈ T1.tstamps := by
  obtain ⟨t0, t1, hsp, hiff⟩ := C27_common_time_span_exact ts T.tstamps hts hne h
  have hk1 : T.rot = none ∨ ∃ t ∈ T.tstamps, t0 ≤ t ∧ t ≤ t1 := by
    refine hk.imp_right ?_
    rintro ⟨t, ht, hcov⟩
    exact ⟨t, ht, (hiff t).2 ⟨hcov, inSpan_of_mem ht⟩⟩
  obtain ⟨T1, hc, hT1, hm1, hs1⟩ := C03_crop_keeps_exactly_the_window T hT t0 t1 hk1
  unfold Returns at hc
  have hstamps : ∀ t ∈ T1.tstamps, InSpan ts t := by
    intro t ht
    rw [← samples_map_t hT1, hs1] at ht
    obtain ⟨s, hs, rfl⟩ := List.mem_map.1 ht
    have := (List.mem_filter.1 hs).2
    rw [decide_eq_true_eq] at this
    exact ((hiff s.t).1 this).1
  have hg : Traj.gapFilter (npSort ts) g T1.tstamps 0 =
      .ok (keepIdx (fun t => decide (Covered ts g t)) T1.tstamps 0) := by
    apply gapFilter_eq
    intro t ht
    rw [gapKeep_eq (hstamps t ht)]
    congr 1
    rw [decide_eq_decide]
    exact Iff.rfl
  have hval := keepIdx_valid (fun t => decide (Covered ts g t)) T1.tstamps 0 T1.tstamps.length (by omega)
  have hsam : pick (.ints (keepIdx (fun t => decide (Covered ts g t)) T1.tstamps 0)) (samples T1) =
      (samples T).filter (fun s => decide (Covered ts g s.t)) := by
    have hkk : keepIdx (fun t => decide (Covered ts g t)) T1.tstamps 0 =
        keepIdx (fun s : Sample K R => decide (Covered ts g s.t)) (samples T1) 0 := by
      conv_lhs => rw [← samples_map_t hT1]
      rw [keepIdx_map]
    rw [hkk]
    have hp := pick_keepIdx (fun s : Sample K R => decide (Covered ts g s.t)) [] (samples T1)
    simp only [List.length_nil, List.nil_append] at hp
    rw [hp, hs1, List.filter_filter]
    apply List.filter_congr
    intro s hs
    have hst : s.t ∈ T.tstamps := by
      rw [← samples_map_t hT]; exact List.mem_map_of_mem hs
    by_cases hcov : Covered ts g s.t
    · have : t0 ≤ s.t ∧ s.t ≤ t1 := (hiff s.t).2 ⟨hcov.inSpan, inSpan_of_mem hst⟩
      simp [hcov, this]
    · simp [hcov]
  refine ⟨T1, _, hT1, hm1, hval, hsam, ?_, ?_⟩
  · unfold Traj.intersect
    simp only [SE.run_bind, SE.run_get, SE.run_lift, hsp, hc, hg]
  · intro t ht hcov
    rw [← samples_map_t hT1, hs1]
    have ht' := ht
    rw [← samples_map_t hT] at ht'
    obtain ⟨x, hx, rfl⟩ := List.mem_map.1 ht'
    exact List.mem_map_of_mem (List.mem_filter.2 ⟨hx, by simpa using (hiff x.t).2 ⟨hcov, inSpan_of_mem ht⟩⟩)

open Classical in
/-- whenever `intersect` returns, exactly the covered samples are left -/
theorem intersect_returns {T T' : Traj K R} (hT : Coherent T) {ts : List K} {g : K}
    (hret : Returns (Traj.intersect ts g) T () T') :
    T.tstamps ≠ [] ∧ ts ≠ [] ∧ Coherent T' ∧ SameMeta T T' ∧
      samples T' = (samples T).filter (fun s => decide (Covered ts g s.t)) := by
  unfold Returns at hret
  have hne : T.tstamps ≠ [] ∧ ts ≠ [] := by
    by_contra hc
    have := C27_common_time_span_empty ts T.tstamps (by tauto)
    unfold Traj.intersect at hret
    rw [SE.run_bind_ok (SE.run_get T), SE.run_bind_error (by rw [SE.run_lift, this])] at hret
    simp at hret
  obtain ⟨h1, h2⟩ := hne
  have hov : Overlap ts T.tstamps := by
    by_contra hc
    have := C09_intersect_without_overlap_raises T h1 ts h2 g hc
    unfold Raises at this
    rw [this] at hret
    simp at hret
  have hk : T.rot = none ∨ ∃ t ∈ T.tstamps, InSpan ts t := by
    by_contra hc
    push Not at hc
    obtain ⟨t0, t1, hsp, hiff⟩ := C27_common_time_span_exact ts T.tstamps h2 h1 hov
    have hcrop : ∃ e S, Traj.crop t0 t1 false T = (.error e, S) := by
      unfold Traj.crop
      rw [SE.run_bind_ok (SE.run_get T)]
      simp only [Bool.false_eq_true, if_false]
      rw [applyIndex_eq' hT, if_pos (show IndexValid _ _ by simp [IndexValid]), if_pos]
      · exact ⟨_, _, rfl⟩
      · refine ⟨Option.isSome_iff_ne_none.2 hc.1, ?_⟩
        simp only [pick]
        have := maskList_map_self (fun t : K => t) (fun t => decide (t0 ≤ t ∧ t ≤ t1)) T.tstamps
        rw [List.map_id'] at this
        rw [this, List.filter_eq_nil_iff]
        intro t ht
        have := hc.2 t ht
        simp only [decide_eq_true_eq]
        exact fun h => this ((hiff t).1 h).1
    obtain ⟨e, S, he⟩ := hcrop
    unfold Traj.intersect at hret
    rw [SE.run_bind_ok (SE.run_get T), SE.run_bind_ok (by rw [SE.run_lift, hsp])] at hret
    simp only at hret
    rw [SE.run_bind_error he] at hret
    simp at hret
  obtain ⟨T1, idx, hT1, hm1, hv, hp, he, -⟩ := intersect_reduce T hT h1 ts h2 g hov hk
  rw [he, applyIndex_eq' hT1, if_pos hv] at hret
  split_ifs at hret with hc
  · simp at hret
  · obtain rfl := (Prod.mk.inj hret).2
    have hm2 := pickTraj_sameMeta idx T1
    exact ⟨h1, h2, pickTraj_coherent hT1, ⟨hm2.name.trans hm1.name, hm2.sorting.trans hm1.sorting,
      hm2.epsg.trans hm1.epsg, hm2.rot.trans hm1.rot⟩, by rw [samples_pickTraj hT1, hp]⟩

theorem returns_bind {σ α β : Type} {m : SE σ α} {f : α → SE σ β} {s : σ} {b : β} {s' : σ}
    (h : (m >>= f) s = (.ok b, s')) : ∃ a s1, m s = (.ok a, s1) ∧ f a s1 = (.ok b, s') := by
  rw [SE.run_bind] at h
  rcases hm : m s with ⟨e | a, s1⟩
  · rw [hm] at h; simp at h
  · rw [hm] at h; exact ⟨a, s1, rfl, h⟩

/-- inversion of a step on one object -/
theorem simV_returns {r v : Nat} {P : SE (Heap K R) Nat} {m : SE (Traj K R) Unit}
    (hs : SimV r v P m) {h h' : Heap K R} {T : Traj K R} (hr : h[r]? = some T) {a : Nat}
    (hret : P h = (.ok a, h')) : ∃ T', Returns m T () T' ∧ h' = h.set r T' := by
  rw [hs h T hr] at hret
  rcases hm : m T with ⟨e | u, T'⟩
  · rw [hm] at hret; simp [Except.map] at hret
  · rw [hm] at hret
    exact ⟨T', hm, ((Prod.mk.inj hret).2).symm⟩

variable [IsStrictOrderedRing K]

open Classical in
/-- **C40.** Whenever matching by interpolation returns, both trajectories have the same timestamps
and arc lengths; the reference consists of exactly the original reference samples covered by the
retained test samples; every test position lies on the polygon through those original test samples that
are covered by the reference. -/
theorem C40_interpolation_matching (lib : MatchLib K R) (counter : Nat) (s : MatchingSettings K)
    (hs : s.method = .interpolation) {T U : Traj K R} (hT : Coherent T) (hU : Coherent U)
    (hTs : StrictAsc T.tstamps) (hUs : StrictAsc U.tstamps) {h h' : Heap K R} {f t f' t' : Nat}
    (hf : h[f]? = some T) (ht : h[t]? = some U) (inplace : Bool) (hft : inplace = true → f ≠ t)
    (hret : Returns (matchTrajectories lib counter f t s inplace) h (f', t') h') :
    ∃ T' U', h'[f']? = some T' ∧ h'[t']? = some U' ∧ Coherent U' ∧
      T'.tstamps = U'.tstamps ∧ T'.arc = U'.arc ∧ T'.pos.length = T'.tstamps.length ∧
      (let kept := (samples T).filter (fun x => decide (Covered U.tstamps 2 x.t))
       samples U' = (samples U).filter (fun y => decide (Covered (kept.map Sample.t) 2 y.t)) ∧
       ∀ (i : Nat) (τ : K) (p : V3 K), T'.tstamps[i]? = some τ → T'.pos[i]? = some p →
         OnPolygon (kept.map Sample.t) (kept.map Sample.p) τ p) := by
  obtain ⟨f1, t1, h0, e, hf1, ht1, hne1, -, -⟩ := match_start inplace hf ht hft
    (fun test ref => matchInterpolation lib test ref)
  have hcall : matchTrajectories lib counter f t s inplace h = matchInterpolation lib f1 t1 h0 := by
    rw [← e]
    unfold matchTrajectories
    rw [hs]
  unfold Returns at hret
  rw [hcall] at hret
  unfold matchInterpolation at hret
  rw [SE.run_bind_ok (rd_run ht1)] at hret
  obtain ⟨a, h1, hA, hret⟩ := returns_bind hret
  obtain ⟨T1, hT1, rfl⟩ := simV_returns (sim_intersect f1 U.tstamps defaultGap) hf1 hA
  have hf2 : (h0.set f1 T1)[f1]? = some T1 := get_set hf1
  have ht2 : (h0.set f1 T1)[t1]? = some U := by rw [List.getElem?_set_ne hne1]; exact ht1
  rw [SE.run_bind_ok (rd_run hf2)] at hret
  obtain ⟨b, h2, hB, hret⟩ := returns_bind hret
  obtain ⟨U1, hU1, rfl⟩ := simV_returns (sim_intersect t1 T1.tstamps defaultGap) ht2 hB
  have ht3 : ((h0.set f1 T1).set t1 U1)[t1]? = some U1 := get_set ht2
  have hf3 : ((h0.set f1 T1).set t1 U1)[f1]? = some T1 := by
    rw [List.getElem?_set_ne (Ne.symm hne1)]; exact hf2
  rw [SE.run_bind_ok (rd_run ht3)] at hret
  obtain ⟨c, h3, hC, hret⟩ := returns_bind hret
  obtain ⟨T2, hT2, rfl⟩ := simV_returns (sim_interpolate lib.rot f1 U1.tstamps) hf3 hC
  have hf4 : (((h0.set f1 T1).set t1 U1).set f1 T2)[f1]? = some T2 := get_set hf3
  have ht4 : (((h0.set f1 T1).set t1 U1).set f1 T2)[t1]? = some U1 := by
    rw [List.getElem?_set_ne hne1]; exact ht3
  rw [SE.run_bind_ok (rd_run ht4)] at hret
  have hlast := Sim.onRef (r := f1)
    (SE.modify (fun s : Traj K R => { s with arc := U1.arc })) _ T2 hf4
  rw [SE.run_bind_ok hlast] at hret
  obtain ⟨h5, rfl⟩ := Prod.mk.inj hret
  obtain ⟨rfl, rfl⟩ := Prod.mk.inj (Except.ok.inj h5)
  obtain ⟨-, -, hT1c, -, hT1s⟩ := intersect_returns hT hT1
  obtain ⟨-, hT1ne, hU1c, -, hU1s⟩ := intersect_returns hU hU1
  have hT1t : ((samples T).filter (fun x => decide (Covered U.tstamps defaultGap x.t))).map Sample.t
      = T1.tstamps := by rw [← hT1s, samples_map_t hT1c]
  have hT1p : ((samples T).filter (fun x => decide (Covered U.tstamps defaultGap x.t))).map Sample.p
      = T1.pos := by rw [← hT1s, samples_map_p hT1c]
  have hT1asc : StrictAsc T1.tstamps := by
    rw [← hT1t]
    refine List.Pairwise.sublist ?_ hTs
    rw [← samples_map_t hT]
    exact List.filter_sublist.map _
  have hU1asc : StrictAsc U1.tstamps := by
    rw [← samples_map_t hU1c, hU1s]
    refine List.Pairwise.sublist ?_ hUs
    rw [← samples_map_t hU]
    exact List.filter_sublist.map _
  have h0T : 0 < T1.tstamps.length := List.length_pos_of_ne_nil hT1ne
  have hspan : ∀ τ ∈ U1.tstamps, InSpan T1.tstamps τ := by
    intro τ hτ
    rw [← samples_map_t hU1c, hU1s] at hτ
    obtain ⟨y, hy, rfl⟩ := List.mem_map.1 hτ
    have := (List.mem_filter.1 hy).2
    rw [decide_eq_true_eq] at this
    exact this.inSpan
  have hfirst : T1.tstamps.head? = some T1.tstamps[0] := by
    rw [List.head?_eq_getElem?, List.getElem?_eq_getElem h0T]
  have hlast' : T1.tstamps.getLast? = some T1.tstamps[T1.tstamps.length - 1] := by
    rw [List.getLast?_eq_getElem?, List.getElem?_eq_getElem (by omega)]
  have hts : T2.tstamps = U1.tstamps := by
    obtain ⟨p1, p2⟩ := C05_interpolate_timestamps lib.rot T1 T2 hT1c U1.tstamps _ _ hfirst hlast' hT2
    have hall : U1.tstamps.filter (fun τ => decide (T1.tstamps[0] ≤ τ ∧
        τ ≤ T1.tstamps[T1.tstamps.length - 1])) = U1.tstamps := by
      rw [List.filter_eq_self]
      intro τ hτ
      obtain ⟨⟨a, ha, ha'⟩, b, hb, hb'⟩ := hspan τ hτ
      obtain ⟨i, hi, rfl⟩ := List.getElem_of_mem ha
      obtain ⟨j, hj, rfl⟩ := List.getElem_of_mem hb
      have m1 : T1.tstamps[0] ≤ T1.tstamps[i] := by
        rcases Nat.eq_zero_or_pos i with rfl | hpos
        · exact le_refl _
        · exact le_of_lt (List.pairwise_iff_getElem.1 hT1asc 0 i h0T hi hpos)
      have m2 : T1.tstamps[j] ≤ T1.tstamps[T1.tstamps.length - 1] := by
        rcases Nat.lt_or_ge j (T1.tstamps.length - 1) with hlt | hge
        · exact le_of_lt (List.pairwise_iff_getElem.1 hT1asc j _ hj (by omega) hlt)
        · have : j = T1.tstamps.length - 1 := by omega
          subst this
          exact le_refl _
      simp only [decide_eq_true_eq]
      exact ⟨le_trans m1 ha', le_trans hb' m2⟩
    rw [hall] at p2
    exact p2.eq_of_pairwise (fun _ _ _ _ h1 h2 => le_antisymm h1 h2) p1
      (hU1asc.imp (fun h => le_of_lt h))
  obtain ⟨q1, q2⟩ := C06_interpolate_positions lib.rot T1 T2 hT1c hT1ne hT1asc U1.tstamps hT2
  refine ⟨{ T2 with arc := U1.arc }, U1, get_set hf4, ?_, hU1c, hts, rfl, q1, ?_, ?_⟩
  · rw [List.getElem?_set_ne hne1]
    exact ht4
  · change samples U1 = (samples U).filter (fun y => decide (Covered
      (((samples T).filter (fun x => decide (Covered U.tstamps defaultGap x.t))).map Sample.t)
      defaultGap y.t))
    rw [hT1t]
    exact hU1s
  · intro i τ p hi hp
    change OnPolygon (((samples T).filter (fun x => decide (Covered U.tstamps defaultGap x.t))).map
      Sample.t) (((samples T).filter (fun x => decide (Covered U.tstamps defaultGap x.t))).map
      Sample.p) τ p
    rw [hT1t, hT1p]
    exact q2 i τ p hi hp

end TC
