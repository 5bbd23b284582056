import Verif.Props.Rematch
import Verif.Props.Utils
/-!
# More about interpolated trajectories (C06, C40, C175) and selections that keep nothing (C97)
-/
namespace TC
set_option linter.unusedSectionVars false
open H
variable {K R : Type} [Field K] [LinearOrder K] [IsStrictOrderedRing K]

/-- **C06**, speeds: an interpolated trajectory has one speed for every sample, the last one zero; moving with the speed
of a sample until the next one leads to its position. -/
theorem C06_interpolate_speeds (L : RotLib K R) (T T' : Traj K R) (hT : Coherent T) (hne : T.tstamps ≠ []) (ts : List K)
    (hret : Returns (Traj.interpolate L ts) T () T') (hne' : T'.tstamps ≠ []) :
    T'.speed.length = T'.tstamps.length ∧ T'.speed.getLast? = some 0 ∧
    ∀ (i : Nat) p p' t t', T'.pos[i]? = some p → T'.pos[i + 1]? = some p' → T'.tstamps[i]? = some t →
      T'.tstamps[i + 1]? = some t' → t ≠ t' → ∃ v, T'.speed[i]? = some v ∧ p + (t' - t) • v = p' := by
  have h0 : 0 < T.tstamps.length := List.length_pos_of_ne_nil hne
  obtain ⟨q, rfl⟩ : ∃ q, T' = interpDone T (cropReq T.tstamps h0 ts) q := by
    unfold Returns at hret
    rcases interpolate_cases L hT h0 ts with ⟨q, hq⟩ | ⟨e, he⟩
    · rw [hq] at hret; exact ⟨q, ((Prod.mk.inj hret).2).symm⟩
    · rw [he] at hret; simp at hret
  have hl : (interpPos T (cropReq T.tstamps h0 ts)).length = (cropReq T.tstamps h0 ts).length := by simp [interpPos]
  have hc : cropReq T.tstamps h0 ts ≠ [] := hne'
  obtain ⟨g, h1, h2, h3, h4⟩ := C29_gradient_integrates (interpPos T (cropReq T.tstamps h0 ts))
    (cropReq T.tstamps h0 ts) hl (by
      intro h
      rw [h] at hl
      exact hc (List.length_eq_zero_iff.1 hl.symm))
  rw [gradient3d_ok hl] at h1
  obtain rfl := Except.ok.inj h1
  exact ⟨h2.trans hl, h3, h4⟩

/-- A request without a time inside the trajectory leaves one speed, but no sample. -/
theorem C06_empty_request_one_speed (L : RotLib K R) (T T' : Traj K R) (hT : Coherent T) (hne : T.tstamps ≠ []) (ts : List K)
    (hret : Returns (Traj.interpolate L ts) T () T') (he : T'.tstamps = []) :
    T'.pos = [] ∧ T'.arc = [] ∧ T'.speed = [0] ∧ ¬ Coherent T' := by
  have h0 : 0 < T.tstamps.length := List.length_pos_of_ne_nil hne
  obtain ⟨q, rfl⟩ : ∃ q, T' = interpDone T (cropReq T.tstamps h0 ts) q := by
    unfold Returns at hret
    rcases interpolate_cases L hT h0 ts with ⟨q, hq⟩ | ⟨e, he⟩
    · rw [hq] at hret; exact ⟨q, ((Prod.mk.inj hret).2).symm⟩
    · rw [he] at hret; simp at hret
  have hc : cropReq T.tstamps h0 ts = [] := he
  rw [hc]
  refine ⟨rfl, rfl, rfl, fun h => ?_⟩
  have := h.speed
  simp [interpDone, interpPos, diffs] at this

example : ∃ T', Returns (Traj.interpolate exLib [1 / 2, 1, 3 / 2]) exT () T' ∧ T'.tstamps ≠ [] ∧
    T'.speed = [⟨1, 0, 0⟩, ⟨2, 0, 0⟩, 0] :=
  ⟨(Traj.interpolate exLib [1 / 2, 1, 3 / 2] exT).2, by unfold Returns; decide +kernel, by decide +kernel, by decide +kernel⟩
example : ∃ T', Returns (Traj.interpolate exLib [7]) { exT with rot := none } () T' ∧ T'.tstamps = [] :=
  ⟨(Traj.interpolate exLib [7] { exT with rot := none }).2, by unfold Returns; decide +kernel, by decide +kernel⟩

/-! ### C97: other selections -/

/-- Times and positions of the trajectory are gone, its orientations, arc lengths and speeds are not. -/
structure Torn (T : Traj K R) : Prop where
  times : T.tstamps = []
  pos : T.pos = []
  rot : ∃ r, T.rot = some r ∧ r ≠ []
  arc : T.arc ≠ []
  speed : T.speed ≠ []

theorem Torn.not_coherent {T : Traj K R} (h : Torn T) : ¬ Coherent T := by
  intro hc
  have := hc.arc
  rw [h.times] at this
  exact h.arc (List.length_eq_zero_iff.1 this)

theorem torn_of {T : Traj K R} (hT : Coherent T) (hr : T.rot ≠ none) (hne : T.tstamps ≠ []) :
    Torn ({ T with tstamps := [], pos := [] } : Traj K R) := by
  have h0 := List.length_pos_of_ne_nil hne
  obtain ⟨r, hr⟩ := Option.ne_none_iff_exists'.1 hr
  refine ⟨rfl, rfl, ⟨r, hr, ?_⟩, ?_, ?_⟩
  · intro h
    have := hT.rot r hr
    rw [h] at this
    simp at this
    omega
  · intro h
    have := hT.arc
    rw [show T.arc = [] from h] at this
    simp at this
    omega
  · intro h
    have := hT.speed
    rw [show T.speed = [] from h] at this
    simp at this
    omega

/-- any selection of `apply_index` without a sample -/
theorem applyIndex_tears {T : Traj K R} (hT : Coherent T) (hr : T.rot ≠ none) (hne : T.tstamps ≠ []) {i : Index}
    (hv : IndexValid T.tstamps.length i) (hp : pick i T.tstamps = []) :
    ∃ T', Raises (Traj.applyIndex i) T .valueError T' ∧ Torn T' :=
  ⟨_, by unfold Raises; rw [applyIndex_eq' hT, if_pos hv, if_pos ⟨Option.isSome_iff_ne_none.2 hr, hp⟩], torn_of hT hr hne⟩

/-- **C97 fails** for `crop` with a window that holds no sample, for every trajectory with orientations. -/
theorem C97_crop_tears (T : Traj K R) (hT : Coherent T) (hr : T.rot ≠ none) (hne : T.tstamps ≠ []) (a b : K)
    (h : ∀ t ∈ T.tstamps, ¬ (a ≤ t ∧ t ≤ b)) :
    ∃ T', Raises (Traj.crop a b false) T .valueError T' ∧ Torn T' := by
  unfold Traj.crop Raises
  rw [SE.run_bind_ok (SE.run_get T)]
  simp only [Bool.false_eq_true, if_false]
  refine applyIndex_tears hT hr hne (by simp [IndexValid]) ?_
  simp only [pick]
  have := maskList_map_self (fun t : K => t) (fun t => decide (a ≤ t ∧ t ≤ b)) T.tstamps
  rw [List.map_id'] at this
  rw [this, List.filter_eq_nil_iff]
  intro t ht
  simpa using h t ht

/-- **C97 fails** for `match_timestamps` without a common timestamp. -/
theorem C97_match_timestamps_tears (T : Traj K R) (hT : Coherent T) (hr : T.rot ≠ none) (hne : T.tstamps ≠ []) (ts : List K)
    (h : ∀ t ∈ T.tstamps, t ∉ ts) :
    ∃ T', Raises (Traj.matchTimestamps ts) T .valueError T' ∧ Torn T' := by
  unfold Traj.matchTimestamps Raises
  rw [SE.run_bind_ok (SE.run_get T)]
  have : Traj.intersectIdx T.tstamps ts = [] := by
    unfold Traj.intersectIdx
    rw [List.map_eq_nil_iff, List.filter_eq_nil_iff]
    intro t ht
    rw [List.mem_dedup, mem_npSort] at ht
    simpa using h t ht
  rw [this]
  exact applyIndex_tears hT hr hne (by simp [IndexValid]) rfl

/-- **C97 fails** for `intersect` if the time spans overlap but no sample is covered. -/
theorem C97_intersect_tears (T : Traj K R) (hT : Coherent T) (hr : T.rot ≠ none) (hne : T.tstamps ≠ []) (ts : List K)
    (hts : ts ≠ []) (g : K) (hov : Overlap ts T.tstamps) (h : ∀ t ∈ T.tstamps, ¬ Covered ts g t) :
    ∃ T', Raises (Traj.intersect ts g) T .valueError T' ∧ Torn T' := by
  classical
  by_cases hin : ∃ t ∈ T.tstamps, InSpan ts t
  · obtain ⟨T1, idx, hT1, hm1, hv, hp, he, hmem⟩ := intersect_reduce T hT hne ts hts g hov (.inr hin)
    obtain ⟨t, ht, hcov⟩ := hin
    have hnil : (samples T).filter (fun s => decide (Covered ts g s.t)) = [] := by
      rw [List.filter_eq_nil_iff]
      intro s hs
      have : s.t ∈ T.tstamps := by rw [← samples_map_t hT]; exact List.mem_map_of_mem hs
      simpa using h s.t this
    unfold Raises
    rw [he]
    refine applyIndex_tears hT1 ?_ (List.ne_nil_of_mem (hmem t ht hcov)) hv ?_
    · have := hm1.rot
      rw [Option.isSome_iff_ne_none.2 hr] at this
      exact Option.isSome_iff_ne_none.1 this
    · by_contra hc
      rw [hnil] at hp
      have h1 := pick_length (index := idx) (l := T1.tstamps) (l' := samples T1) (samples_length hT1).symm
      rw [hp] at h1
      exact hc (List.length_eq_zero_iff.1 h1)
  · push Not at hin
    obtain ⟨t0, t1, hsp, hiff⟩ := C27_common_time_span_exact ts T.tstamps hts hne hov
    obtain ⟨T', hc, ht⟩ := C97_crop_tears T hT hr hne t0 t1 (fun t ht hw => hin t ht ((hiff t).1 hw).1)
    refine ⟨T', ?_, ht⟩
    unfold Traj.intersect Raises
    rw [SE.run_bind_ok (SE.run_get T), SE.run_bind_ok (by rw [SE.run_lift, hsp])]
    simp only
    rw [SE.run_bind_error hc]

/-- **C97**, trajectories without orientations: each of these calls gives an empty trajectory. -/
theorem C97_other_selections_without_orientations_partial (T : Traj K R) (hT : Coherent T) (hr : T.rot = none)
    (hne : T.tstamps ≠ []) :
    (∀ a b, (∀ t ∈ T.tstamps, ¬ (a ≤ t ∧ t ≤ b)) →
      ∃ T', Returns (Traj.crop a b false) T () T' ∧ Coherent T' ∧ SameMeta T T' ∧ samples T' = []) ∧
    (∀ ts, (∀ t ∈ T.tstamps, t ∉ ts) →
      ∃ T', Returns (Traj.matchTimestamps ts) T () T' ∧ Coherent T' ∧ SameMeta T T' ∧ samples T' = []) ∧
    (∀ ts g, ts ≠ [] → Overlap ts T.tstamps → (∀ t ∈ T.tstamps, ¬ Covered ts g t) →
      ∃ T', Returns (Traj.intersect ts g) T () T' ∧ Coherent T' ∧ SameMeta T T' ∧ samples T' = []) := by
  classical
  refine ⟨fun a b h => ?_, fun ts h => ?_, fun ts g hts hov h => ?_⟩
  · obtain ⟨T', h1, h2, h3, h4⟩ := C03_crop_keeps_exactly_the_window T hT a b (.inl hr)
    refine ⟨T', h1, h2, h3, ?_⟩
    rw [h4, List.filter_eq_nil_iff]
    intro s hs
    have : s.t ∈ T.tstamps := by rw [← samples_map_t hT]; exact List.mem_map_of_mem hs
    simpa using h s.t this
  · obtain ⟨T', h1, h2, h3, -, h5, -⟩ := C11_match_timestamps T hT ts (.inl hr)
    refine ⟨T', h1, h2, h3, ?_⟩
    have : T'.tstamps = [] := List.eq_nil_iff_forall_not_mem.2 fun t ht => h t ((h5 t).1 ht).1 ((h5 t).1 ht).2
    rw [← List.length_eq_zero_iff, samples_length h2, this]
    rfl
  · obtain ⟨T1, idx, hT1, hm1, hv, hp, he, -⟩ := intersect_reduce T hT hne ts hts g hov (.inl hr)
    have hr1 : T1.rot = none := by
      have := hm1.rot
      rw [hr] at this
      simpa using this
    have hm2 := pickTraj_sameMeta idx T1
    refine ⟨pickTraj idx T1, ?_, pickTraj_coherent hT1, ⟨hm2.name.trans hm1.name, hm2.sorting.trans hm1.sorting,
      hm2.epsg.trans hm1.epsg, hm2.rot.trans hm1.rot⟩, ?_⟩
    · unfold Returns
      rw [he, applyIndex_eq' hT1, if_pos hv, if_neg (by rw [hr1]; simp)]
    · rw [samples_pickTraj hT1, hp, List.filter_eq_nil_iff]
      intro s hs
      have : s.t ∈ T.tstamps := by rw [← samples_map_t hT]; exact List.mem_map_of_mem hs
      simpa using h s.t this

/-- the hypotheses are met: times between the samples, with a gap in the other trajectory -/
example : (∀ t ∈ exT.tstamps, ¬ ((1 / 4 : ℚ) ≤ t ∧ t ≤ 3 / 4)) ∧ (∀ t ∈ exT.tstamps, t ∉ [(1 / 2 : ℚ)]) ∧
    Traj.intersect [(-1 : ℚ), 5] 2 exT = (.error .valueError, { exT with tstamps := [], pos := [] }) := by
  decide +kernel

/-! ### C40: orientations and speeds -/

open Classical in
/-- **C40**, orientations: every orientation of the test trajectory is that of a kept test sample with the same time, or
the spherical interpolation of the two kept samples around it. -/
theorem C40_orientations (lib : MatchLib K R) (hL : SlerpEnds lib.rot) (counter : Nat) (s : MatchingSettings K)
    (hs : s.method = .interpolation) {T U : Traj K R} (hT : Coherent T) (hU : Coherent U)
    (hTs : StrictAsc T.tstamps) (hUs : StrictAsc U.tstamps) {h h' : Heap K R} {f t f' t' : Nat}
    (hf : h[f]? = some T) (ht : h[t]? = some U) (inplace : Bool) (hft : inplace = true → f ≠ t)
    (hret : Returns (matchTrajectories lib counter f t s inplace) h (f', t') h') {T' : Traj K R} (hT' : h'[f']? = some T')
    (hne : T'.tstamps ≠ []) :
    (T.rot = none → T'.rot = none) ∧
    (T.rot ≠ none → ∃ r', T'.rot = some r' ∧ r'.length = T'.tstamps.length ∧
      (let kept := (samples T).filter (fun x => decide (Covered U.tstamps 2 x.t))
       ∀ (i : Nat) (τ : K) (a : R), T'.tstamps[i]? = some τ → r'[i]? = some a →
        (∃ x ∈ kept, x.t = τ ∧ x.r = some a) ∨
        ∃ (k : Nat) (x y : Sample K R) (a₀ a₁ : R), kept[k]? = some x ∧ kept[k + 1]? = some y ∧ x.r = some a₀ ∧
          y.r = some a₁ ∧ x.t < τ ∧ τ < y.t ∧ a = lib.rot.slerp a₀ a₁ ((τ - x.t) / (y.t - x.t)))) := by
  obtain ⟨T1, T2, U1, hf', ht', hT1, hU1, hm, hne1, hs1, hsU, hint, hts, hsam⟩ :=
    interpolation_result lib counter s hs hT hU hTs hUs hf ht inplace hft hret
  rw [hf'] at hT'
  obtain rfl := Option.some.inj hT'
  have h0 : 0 < T1.tstamps.length := List.length_pos_of_ne_nil hne1
  refine ⟨fun hr => ?_, fun hr => ?_⟩
  · have h1 : T1.rot = none := by
      have := hm.rot
      rw [hr] at this
      simpa using this
    have := interpolate_eq_noRot lib.rot hT1 h0 U1.tstamps h1
    unfold Returns at hint
    rw [this] at hint
    cases hint
    rfl
  · obtain ⟨r1, hr1⟩ : ∃ r1, T1.rot = some r1 := by
      have := hm.rot
      rw [Option.isSome_iff_ne_none.2 hr] at this
      exact Option.isSome_iff_exists.1 this
    have hneU : U1.tstamps ≠ [] := by rw [← hts]; exact hne
    have hcrop : cropReq T1.tstamps h0 U1.tstamps = U1.tstamps := by
      have hint' := hint
      unfold Returns at hint'
      rcases interpolate_cases lib.rot hT1 h0 U1.tstamps with ⟨q, hq⟩ | ⟨e, he⟩
      · rw [hq] at hint'
        have := (Prod.mk.inj hint').2
        exact (congrArg Traj.tstamps this).trans hts
      · rw [he] at hint'; simp at hint'
    have h2 : 2 ≤ T1.tstamps.length := by
      by_contra hlt
      have hlen : ¬ (cropReq T1.tstamps h0 U1.tstamps).length = 0 := by
        rw [hcrop]
        exact fun h => hneU (List.length_eq_zero_iff.1 h)
      have hrl := hT1.rot r1 hr1
      have := interpolate_error_of_rot lib.rot hT1 h0 U1.tstamps (e := .valueError)
        (T' := { T1 with pos := interpPos T1 (cropReq T1.tstamps h0 U1.tstamps) }) (by
          unfold Traj.interpolateRotations
          rw [SE.run_bind_ok (SE.run_get _)]
          simp only [hr1, if_neg hlen]
          rw [SE.run_bind_error]
          unfold Traj.slerpCall
          rw [if_pos (by omega)]
          rfl)
      unfold Returns at hint
      rw [this] at hint
      cases hint
    obtain ⟨r', e1, e2, e3⟩ := C06_interpolate_orientations lib.rot hL T1 T2 hT1 h2 hs1 r1 hr1 U1.tstamps hint hne
    refine ⟨r', e1, e2, ?_⟩
    simp only
    rw [← hsam]
    have hx : ∀ (i : Nat) τ a, T1.tstamps[i]? = some τ → r1[i]? = some a →
        ∃ x, (samples T1)[i]? = some x ∧ x.t = τ ∧ x.r = some a := by
      intro i τ a ha hb
      have q1 := congrArg (fun l => l[i]?) (samples_map_t hT1)
      have q2 := congrArg (fun l => l[i]?) (samples_map_r hT1)
      simp only [List.getElem?_map, ha, hr1, rotColumn, hb] at q1 q2
      rcases hi : (samples T1)[i]? with _ | x
      · rw [hi] at q1; simp at q1
      · rw [hi] at q1 q2
        refine ⟨x, rfl, by simpa using q1, by simpa using q2⟩
    intro i τ a hi ha
    rcases e3 i τ a hi ha with ⟨k, h3, h4⟩ | ⟨k, t₀, t₁, a₀, a₁, h3, h4, h5, h6, h7, h8, h9⟩
    · obtain ⟨x, hx1, hx2, hx3⟩ := hx k τ a h3 h4
      exact .inl ⟨x, List.mem_of_getElem? hx1, hx2, hx3⟩
    · obtain ⟨x, hx1, rfl, hx3⟩ := hx k t₀ a₀ h3 h5
      obtain ⟨y, hy1, rfl, hy3⟩ := hx (k + 1) t₁ a₁ h4 h6
      exact .inr ⟨k, x, y, a₀, a₁, hx1, hy1, hx3, hy3, h7, h8, h9⟩

/-- **C40**, speeds: those of the interpolated positions. -/
theorem C40_speeds (lib : MatchLib K R) (counter : Nat) (s : MatchingSettings K)
    (hs : s.method = .interpolation) {T U : Traj K R} (hT : Coherent T) (hU : Coherent U)
    (hTs : StrictAsc T.tstamps) (hUs : StrictAsc U.tstamps) {h h' : Heap K R} {f t f' t' : Nat}
    (hf : h[f]? = some T) (ht : h[t]? = some U) (inplace : Bool) (hft : inplace = true → f ≠ t)
    (hret : Returns (matchTrajectories lib counter f t s inplace) h (f', t') h') {T' : Traj K R} (hT' : h'[f']? = some T')
    (hne : T'.tstamps ≠ []) :
    T'.speed.length = T'.tstamps.length ∧ T'.speed.getLast? = some 0 ∧
    ∀ (i : Nat) p p' t t', T'.pos[i]? = some p → T'.pos[i + 1]? = some p' → T'.tstamps[i]? = some t →
      T'.tstamps[i + 1]? = some t' → ∃ v, T'.speed[i]? = some v ∧ p + (t' - t) • v = p' := by
  obtain ⟨T1, T2, U1, hf', ht', hT1, hU1, hm, hne1, hs1, hsU, hint, hts, hsam⟩ :=
    interpolation_result lib counter s hs hT hU hTs hUs hf ht inplace hft hret
  rw [hf'] at hT'
  obtain rfl := Option.some.inj hT'
  obtain ⟨h1, h2, h3⟩ := C06_interpolate_speeds lib.rot T1 T2 hT1 hne1 U1.tstamps hint hne
  refine ⟨h1, h2, fun i p p' t t' e1 e2 e3 e4 => h3 i p p' t t' e1 e2 e3 e4 ?_⟩
  have e3' : U1.tstamps[i]? = some t := by rw [← hts]; exact e3
  have e4' : U1.tstamps[i + 1]? = some t' := by rw [← hts]; exact e4
  obtain ⟨i1, rfl⟩ := List.getElem?_eq_some_iff.1 e3'
  obtain ⟨i2, rfl⟩ := List.getElem?_eq_some_iff.1 e4'
  exact ne_of_lt (List.pairwise_iff_getElem.1 hsU i (i + 1) i1 i2 (by omega))

/-- **C175 fails** for interpolation with a single common time: if the first matching returned, with orientations, the
second one raises. -/
theorem C175_single_common_time_raises (lib : MatchLib K R) (hL : SlerpEnds lib.rot) (c₁ c₂ : Nat) (s : MatchingSettings K)
    (hs : s.method = .interpolation) {T U : Traj K R} (hT : Coherent T) (hU : Coherent U)
    (hTs : StrictAsc T.tstamps) (hUs : StrictAsc U.tstamps) {h h' : Heap K R} {f t f' t' : Nat}
    (hf : h[f]? = some T) (ht : h[t]? = some U) (inplace : Bool) (hft : inplace = true → f ≠ t)
    (hret : Returns (matchTrajectories lib c₁ f t s inplace) h (f', t') h') {U' : Traj K R}
    (hU' : h'[t']? = some U') (h1 : U'.tstamps.length = 1) (hr : T.rot ≠ none) :
    ∃ h'', Raises (matchTrajectories lib c₂ f' t' s true) h' .valueError h'' := by
  obtain ⟨T1, T2, U1, hf', ht', hT1, hU1, hm, hne1, hs1, hsU, hint, hts, -⟩ :=
    interpolation_result lib c₁ s hs hT hU hTs hUs hf ht inplace hft hret
  rw [ht'] at hU'
  obtain rfl := Option.some.inj hU'
  have hneU : U1.tstamps ≠ [] := by intro h; rw [h] at h1; simp at h1
  have hne' : ({ T2 with arc := U1.arc } : Traj K R).tstamps ≠ [] := by rw [show T2.tstamps = _ from hts]; exact hneU
  obtain ⟨r', e1, e2, -⟩ := (C40_orientations lib hL c₁ s hs hT hU hTs hUs hf ht inplace hft hret hf' hne').2 hr
  have hsp := (C40_speeds lib c₁ s hs hT hU hTs hUs hf ht inplace hft hret hf' hne').1
  have hpos := (C06_interpolate_positions lib.rot T1 T2 hT1 hne1 hs1 U1.tstamps hint).1
  generalize hA : ({ T2 with arc := U1.arc } : Traj K R) = A at *
  have hAt : A.tstamps = U1.tstamps := by rw [← hA]; exact hts
  have hAc : Coherent A := by
    refine ⟨?_, ?_, hsp, ?_⟩
    · rw [← hA]; exact hpos
    · rw [hAt, ← hA]; exact hU1.arc
    · intro r hr'
      rw [e1] at hr'
      cases hr'
      exact e2
  have h0 : 0 < A.tstamps.length := by rw [hAt]; omega
  have hcrop : cropReq A.tstamps h0 U1.tstamps ≠ [] := by
    obtain ⟨x, hx⟩ := List.length_eq_one_iff.1 h1
    have hxA : A.tstamps = [x] := by rw [hAt, hx]
    refine List.ne_nil_of_mem (a := x) ?_
    unfold cropReq
    rw [List.mem_filter, mem_npSort, hx]
    simp [hxA]
  have herr := interpolate_error_of_rot lib.rot hAc h0 U1.tstamps (e := .valueError)
    (T' := { A with pos := interpPos A (cropReq A.tstamps h0 U1.tstamps) }) (by
      unfold Traj.interpolateRotations
      rw [SE.run_bind_ok (SE.run_get _)]
      simp only [e1, if_neg (show ¬ (cropReq A.tstamps h0 U1.tstamps).length = 0 from
        fun h => hcrop (List.length_eq_zero_iff.1 h))]
      rw [SE.run_bind_error]
      unfold Traj.slerpCall
      rw [if_pos (by rw [e2, hAt]; omega)]
      rfl)
  refine ⟨h'.set f' { A with pos := interpPos A (cropReq A.tstamps h0 U1.tstamps) }, ?_⟩
  unfold Raises matchTrajectories
  rw [hs]
  show matchInterpolation lib f' t' h' = _
  have i1 : Returns (Traj.intersect U1.tstamps defaultGap) A () A := by
    rw [← hAt]; exact intersect_own hAc (by rw [hAt]; exact hneU) _
  have i2 : Returns (Traj.intersect A.tstamps defaultGap) U1 () U1 := by
    rw [hAt]; exact intersect_own hU1 hneU _
  unfold matchInterpolation
  rw [SE.run_bind_ok (rd_run ht'), SE.run_bind_ok (simV_run (sim_intersect f' U1.tstamps defaultGap) hf' i1),
    SE.run_bind_ok (rd_run hf'), SE.run_bind_ok (simV_run (sim_intersect t' A.tstamps defaultGap) ht' i2),
    SE.run_bind_ok (rd_run ht')]
  have := sim_interpolate lib.rot f' U1.tstamps h' A hf'
  rw [herr] at this
  exact SE.run_bind_error this

/-- the hypotheses are met: only one sample of the reference lies in the time of the test trajectory -/
example : (matchTrajectories exMatchLib 0 0 1 ⟨.interpolation, 1, 2, 1⟩ true
      [exT, { exT with tstamps := [-1/2, 1, 5/2] }]).1 = .ok (0, 1) ∧
    (matchTrajectories exMatchLib 0 0 1 ⟨.interpolation, 1, 2, 1⟩ true
      [exT, { exT with tstamps := [-1/2, 1, 5/2] }]).2.map (fun T => T.tstamps) = [[1], [1]] := by decide +kernel

end TC
