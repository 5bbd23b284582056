import Verif.Props.Reorder
/-!
# C193: several selections one after the other
-/
namespace TC
variable {K R : Type} [Field K] [LinearOrder K] [IsStrictOrderedRing K]
set_option linter.unusedSectionVars false

open Classical in
/-- The operation keeps exactly the samples whose timestamp has the property, whenever there is one. -/
def KeepsWhere (m : SE (Traj K R) Unit) (p : K → Prop) : Prop :=
  ∀ T, Coherent T → (∃ t ∈ T.tstamps, p t) → ∃ T', Returns m T () T' ∧ Coherent T' ∧ SameMeta T T' ∧
    samples T' = (samples T).filter (fun s => decide (p s.t))

theorem keeps_crop (a b : K) : KeepsWhere (R := R) (Traj.crop a b false) (fun t => a ≤ t ∧ t ≤ b) := by
  intro T hT hk
  obtain ⟨T', h1, h2, h3, h4⟩ := C03_crop_keeps_exactly_the_window T hT a b (.inr hk)
  refine ⟨T', h1, h2, h3, h4.trans (List.filter_congr fun s _ => ?_)⟩
  simp

theorem keeps_crop_inverse (a b : K) : KeepsWhere (R := R) (Traj.crop a b true) (fun t => ¬ (a ≤ t ∧ t ≤ b)) := by
  intro T hT hk
  obtain ⟨T', h1, h2, h3, h4⟩ := C03_crop_inverse_keeps_exactly_the_rest T hT a b (.inr hk)
  refine ⟨T', h1, h2, h3, h4.trans (List.filter_congr fun s _ => ?_)⟩
  rw [← decide_not]
  congr 1

theorem keeps_intersect (ts : List K) (g : K) (hts : ts ≠ []) : KeepsWhere (R := R) (Traj.intersect ts g) (Covered ts g) := by
  intro T hT hk
  obtain ⟨t, ht, hc⟩ := hk
  obtain ⟨T', h1, h2, h3, h4⟩ := C09_intersect_keeps_exactly_the_covered_samples T hT (List.ne_nil_of_mem ht) ts hts g
    ⟨t, hc.inSpan, inSpan_of_mem ht⟩ (.inr ⟨t, ht, hc⟩)
  exact ⟨T', h1, h2, h3, h4⟩

theorem kept_times {T T' : Traj K R} (hT : Coherent T) (hT' : Coherent T') {p : K → Prop} [DecidablePred p]
    (h : samples T' = (samples T).filter (fun s => decide (p s.t))) (t : K) : t ∈ T'.tstamps ↔ t ∈ T.tstamps ∧ p t := by
  rw [← samples_map_t hT, ← samples_map_t hT', h]
  simp only [List.mem_map, List.mem_filter, decide_eq_true_eq]
  constructor
  · rintro ⟨s, ⟨h1, h2⟩, rfl⟩
    exact ⟨⟨s, h1, rfl⟩, h2⟩
  · rintro ⟨⟨s, h1, rfl⟩, h2⟩
    exact ⟨s, ⟨h1, h2⟩, rfl⟩

theorem meta_chain {A B C : Traj K R} (h : SameMeta A B) (k : SameMeta B C) : SameMeta A C :=
  ⟨by rw [k.name, h.name], by rw [k.sorting, h.sorting], by rw [k.epsg, h.epsg], by rw [k.rot, h.rot]⟩

theorem meta_both {A B C : Traj K R} (h : SameMeta A B) (k : SameMeta A C) : SameMeta B C :=
  ⟨by rw [k.name, h.name], by rw [k.sorting, h.sorting], by rw [k.epsg, h.epsg], by rw [k.rot, h.rot]⟩

/-- **C193**: any two of `crop`, `crop(inverse=True)` and `intersect` can be done in either order.
(`KeepsWhere` holds of them: `keeps_crop`, `keeps_crop_inverse`, `keeps_intersect`.) -/
theorem C193_order {m n : SE (Traj K R) Unit} {p q : K → Prop} (hm : KeepsWhere m p) (hn : KeepsWhere n q) {T : Traj K R}
    (hT : Coherent T) (hk : ∃ t ∈ T.tstamps, p t ∧ q t) :
    ∃ A B C, Returns m T () A ∧ Returns n A () C ∧ Returns n T () B ∧ Returns m B () C := by
  classical
  obtain ⟨t, ht, hp, hq⟩ := hk
  obtain ⟨A, a1, a2, a3, a4⟩ := hm T hT ⟨t, ht, hp⟩
  obtain ⟨B, b1, b2, b3, b4⟩ := hn T hT ⟨t, ht, hq⟩
  obtain ⟨C, c1, c2, c3, c4⟩ := hn A a2 ⟨t, (kept_times hT a2 a4 t).2 ⟨ht, hp⟩, hq⟩
  obtain ⟨D, d1, d2, d3, d4⟩ := hm B b2 ⟨t, (kept_times hT b2 b4 t).2 ⟨ht, hq⟩, hp⟩
  have : D = C := samples_inj c2 d2 (meta_both (meta_chain a3 c3) (meta_chain b3 d3)) (by
    rw [c4, d4, a4, b4, List.filter_filter, List.filter_filter]
    exact List.filter_congr fun s _ => Bool.and_comm _ _)
  subst this
  exact ⟨A, B, D, a1, c1, b1, d1⟩

/-- **C193**, spelled out for `crop` and `intersect`. -/
theorem C193_crop_intersect {T : Traj K R} (hT : Coherent T) (a b g : K) (ts : List K) (hts : ts ≠ [])
    (hk : ∃ t ∈ T.tstamps, (a ≤ t ∧ t ≤ b) ∧ Covered ts g t) :
    ∃ A B C, Returns (Traj.crop a b false) T () A ∧ Returns (Traj.intersect ts g) A () C ∧
      Returns (Traj.intersect ts g) T () B ∧ Returns (Traj.crop a b false) B () C :=
  C193_order (keeps_crop a b) (keeps_intersect ts g hts) hT hk

/-- **C193**: cropping twice is cropping to the common part of the windows. -/
theorem C193_crop_twice {T : Traj K R} (hT : Coherent T) (a b c d : K) (hk : ∃ t ∈ T.tstamps, max a c ≤ t ∧ t ≤ min b d) :
    ∃ A C, Returns (Traj.crop a b false) T () A ∧ Returns (Traj.crop c d false) A () C ∧
      Returns (Traj.crop (max a c) (min b d) false) T () C := by
  classical
  obtain ⟨t, ht, h1, h2⟩ := hk
  rw [max_le_iff] at h1
  rw [le_min_iff] at h2
  obtain ⟨A, a1, a2, a3, a4⟩ := keeps_crop (R := R) a b T hT ⟨t, ht, h1.1, h2.1⟩
  obtain ⟨C, c1, c2, c3, c4⟩ := keeps_crop (R := R) c d A a2 ⟨t, (@kept_times K R _ _ _ T A hT a2 (fun t => a ≤ t ∧ t ≤ b) (fun _ => Classical.propDecidable _) a4 t).2 ⟨ht, h1.1, h2.1⟩, h1.2, h2.2⟩
  obtain ⟨D, d1, d2, d3, d4⟩ := keeps_crop (R := R) (max a c) (min b d) T hT ⟨t, ht, max_le h1.1 h1.2, le_min h2.1 h2.2⟩
  have : D = C := samples_inj c2 d2 (meta_both (meta_chain a3 c3) d3) (by
    rw [c4, d4, a4, List.filter_filter]
    refine List.filter_congr fun s _ => ?_
    rw [← Bool.decide_and]
    congr 1
    simp only [max_le_iff, le_min_iff, eq_iff_iff]
    tauto)
  subst this
  exact ⟨A, D, a1, c1, d1⟩

theorem find_filter {α : Type} (p q : α → Bool) : ∀ l : List α, (∀ x ∈ l, p x = true → q x = true) → (l.filter q).find? p = l.find? p
  | [], _ => rfl
  | x :: l, h => by
    have ih := find_filter p q l (fun y hy => h y (by simp [hy]))
    by_cases hq : q x = true
    · rw [List.filter_cons_of_pos hq, List.find?_cons, List.find?_cons, ih]
    · rw [List.filter_cons_of_neg hq, ih, List.find?_cons_of_neg]
      intro hp
      exact hq (h x (by simp) hp)

/-- **C193**: `match_timestamps` and any of these selections can be done in either order. -/
theorem C193_match_timestamps {m : SE (Traj K R) Unit} {p : K → Prop} (hm : KeepsWhere m p) {T : Traj K R}
    (hT : Coherent T) (ts : List K) (hk : ∃ t ∈ T.tstamps, p t ∧ t ∈ ts) :
    ∃ A B C, Returns m T () A ∧ Returns (Traj.matchTimestamps ts) A () C ∧
      Returns (Traj.matchTimestamps ts) T () B ∧ Returns m B () C := by
  classical
  obtain ⟨t, ht, hp, hq⟩ := hk
  obtain ⟨A, a1, a2, a3, a4⟩ := hm T hT ⟨t, ht, hp⟩
  have hA := kept_times hT a2 a4
  obtain ⟨B, b1, b2, b3, b4, b5, b6⟩ := C11_match_timestamps T hT ts (.inr ⟨t, ht, hq⟩)
  obtain ⟨C, c1, c2, c3, c4, c5, c6⟩ := C11_match_timestamps A a2 ts (.inr ⟨t, (hA t).2 ⟨ht, hp⟩, hq⟩)
  obtain ⟨D, d1, d2, d3, d4⟩ := hm B b2 ⟨t, (b5 t).2 ⟨ht, hq⟩, hp⟩
  have hmem : ∀ (X : Traj K R), Coherent X → ∀ s ∈ samples X, s.t ∈ X.tstamps := by
    intro X hX s hs
    rw [← samples_map_t hX]
    exact List.mem_map_of_mem hs
  -- the samples of the two results, described by their members
  have hC : ∀ s, s ∈ samples C ↔ s.t ∈ T.tstamps ∧ p s.t ∧ s.t ∈ ts ∧ (samples T).find? (fun u => decide (u.t = s.t)) = some s := by
    have hf : ∀ x, p x → (samples A).find? (fun u => decide (u.t = x)) = (samples T).find? (fun u => decide (u.t = x)) := by
      intro x hx
      rw [a4]
      refine find_filter _ _ _ fun u _ hu => ?_
      rw [decide_eq_true_eq] at hu ⊢
      rw [hu]
      exact hx
    intro s
    constructor
    · intro hs
      obtain ⟨h1, h2⟩ := (c5 _).1 (hmem C c2 s hs)
      obtain ⟨h3, h4⟩ := (hA _).1 h1
      exact ⟨h3, h4, h2, by rw [← hf _ h4]; exact c6 s hs⟩
    · rintro ⟨h1, h2, h3, h4⟩
      have h5 := (c5 _).2 ⟨(hA _).2 ⟨h1, h2⟩, h3⟩
      rw [← samples_map_t c2, List.mem_map] at h5
      obtain ⟨u, hu, hut⟩ := h5
      have h6 := c6 u hu
      rw [hut, hf _ h2, h4] at h6
      rw [Option.some.inj h6]
      exact hu
  have hD : ∀ s, s ∈ samples D ↔ s.t ∈ T.tstamps ∧ p s.t ∧ s.t ∈ ts ∧ (samples T).find? (fun u => decide (u.t = s.t)) = some s := by
    intro s
    rw [d4, List.mem_filter, decide_eq_true_eq]
    constructor
    · rintro ⟨hs, h2⟩
      obtain ⟨h3, h4⟩ := (b5 _).1 (hmem B b2 s hs)
      exact ⟨h3, h2, h4, b6 s hs⟩
    · rintro ⟨h1, h2, h3, h4⟩
      have h5 := (b5 _).2 ⟨h1, h3⟩
      rw [← samples_map_t b2, List.mem_map] at h5
      obtain ⟨u, hu, hut⟩ := h5
      have h6 := b6 u hu
      rw [hut, h4] at h6
      have h7 := Option.some.inj h6
      exact ⟨h7 ▸ hu, h2⟩
  have hasc : ∀ X : Traj K R, Coherent X → StrictAsc X.tstamps → (samples X).Pairwise (fun s u => s.t < u.t) := by
    intro X hX h
    unfold StrictAsc at h
    rw [← samples_map_t hX] at h
    exact List.pairwise_map.1 h
  have hDs : (samples D).Pairwise (fun s u => s.t < u.t) := by
    rw [d4]
    exact (hasc B b2 b4).filter _
  have hss : samples D = samples C := by
    have e1 : (samples D).Nodup := hDs.imp (fun h => by rintro rfl; exact lt_irrefl _ h)
    have e2 : (samples C).Nodup := (hasc C c2 c4).imp (fun h => by rintro rfl; exact lt_irrefl _ h)
    refine List.Perm.eq_of_pairwise ?_ hDs (hasc C c2 c4) ((List.perm_ext_iff_of_nodup e1 e2).2 fun s => by rw [hD, hC])
    intro s u _ _ h1 h2
    exact absurd h1 (not_lt.2 h2.le)
  have : D = C := samples_inj c2 d2 (meta_both (meta_chain a3 c3) (meta_chain b3 d3)) hss
  subst this
  exact ⟨A, B, D, a1, c1, b1, d1⟩

theorem slerpOne_hit (L : RotLib K R) (hL : SlerpEnds L) {times : List K} {rots : List R} (hs : StrictAsc times)
    (hl : times.length = rots.length) (h2 : 2 ≤ rots.length) {k : Nat} (hk : k < times.length) :
    Traj.slerpOne L times rots times[k] = .ok (rots[k]'(hl ▸ hk)) := by
  unfold Traj.slerpOne
  rw [pyFirst_eq (by omega)]
  simp only [bind, Except.bind, pure, Except.pure]
  have hlt := fun (i j : Nat) (hi : i < times.length) (hj : j < times.length) (h : i < j) => List.pairwise_iff_getElem.1 hs i j hi hj h
  rcases k with _ | k
  · rw [if_pos rfl]
    have e1 : ((0 : Nat) : Int) + 1 = ((1 : Nat) : Int) := rfl
    rw [e1, npGet_nat (l := times) hk, npGet_nat (l := times) (by omega), npGet_nat (l := rots) (by omega), npGet_nat (l := rots) (by omega)]
    simp only [sub_self, zero_div, hL.start]
  · rw [if_neg (hlt 0 (k + 1) (by omega) hk (by omega)).ne']
    have hj : searchLeft times times[k + 1] = k + 1 := by
      have h1 : k < searchLeft times times[k + 1] := (searchLeft_lt_iff hs.le _ (by omega)).2 (hlt k (k + 1) (by omega) hk (by omega))
      have h3 : ¬ k + 1 < searchLeft times times[k + 1] := by
        rw [searchLeft_lt_iff hs.le _ hk]
        exact lt_irrefl _
      omega
    rw [hj]
    have e1 : (((k + 1 - 1 : Nat) : Int) + 1) = ((k + 1 : Nat) : Int) := by omega
    have e2 : ((k + 1 - 1 : Nat) : Int) = (k : Int) := by omega
    rw [e1, e2, npGet_nat (l := times) (by omega), npGet_nat (l := times) (by omega), npGet_nat (l := rots) (by omega),
      npGet_nat (l := rots) (by omega)]
    simp only [div_self (sub_pos.2 (hlt k (k + 1) (by omega) hk (by omega))).ne', hL.stop]

theorem interpDone_returns (L : RotLib K R) {T T' : Traj K R} (hT : Coherent T) (h0 : 0 < T.tstamps.length) {ts : List K}
    (h : Returns (Traj.interpolate L ts) T () T') : ∃ q, T' = interpDone T (cropReq T.tstamps h0 ts) q := by
  unfold Returns at h
  rcases interpolate_cases L hT h0 ts with ⟨q, hq⟩ | ⟨e, he⟩
  · rw [hq] at h; exact ⟨q, ((Prod.mk.inj h).2).symm⟩
  · rw [he] at h; simp at h

/-- values interpolated onto some times and from there onto one of these -/
theorem interpF_twice {xp fp c : List K} (hs : StrictAsc c) {x : K} (hx : x ∈ c) :
    interpF c (c.map (interpF xp fp)) x = interpF xp fp x := by
  obtain ⟨i, hi, rfl⟩ := List.getElem_of_mem hx
  rw [interpF_hit (by simp) hs hi]
  simp

/-- **C193**: interpolating onto some times and then onto some of these is the same as interpolating onto the latter at once. -/
theorem C193_interpolate_twice (L : RotLib K R) (hL : SlerpEnds L) {T C : Traj K R} (hT : Coherent T) (h2 : 2 ≤ T.tstamps.length)
    (hs : StrictAsc T.tstamps) (ts us : List K) (hn : ts.Nodup) (hsub : ∀ u ∈ us, u ∈ ts)
    (hC : Returns (Traj.interpolate L ts) T () C) (hC2 : 2 ≤ C.tstamps.length) (hk : ∃ u ∈ us, u ∈ C.tstamps) :
    ∃ D, Returns (Traj.interpolate L us) C () D ∧ Returns (Traj.interpolate L us) T () D := by
  have h0 : 0 < T.tstamps.length := by omega
  obtain ⟨c, hc⟩ : ∃ c, c = cropReq T.tstamps h0 ts := ⟨_, rfl⟩
  obtain ⟨q, hCe⟩ := interpDone_returns L hT h0 hC
  rw [← hc] at hCe
  have hct : C.tstamps = c := by rw [hCe]; rfl
  have hcs : StrictAsc c := by
    have h1 : c.Pairwise (· ≤ ·) := by rw [hc]; exact (npSort_sorted ts).filter _
    have h3 : c.Nodup := by rw [hc]; exact ((npSort_perm ts).nodup_iff.2 hn).filter _
    exact (h1.and h3).imp (fun h => lt_of_le_of_ne h.1 h.2)
  have h0C : 0 < C.tstamps.length := by omega
  have hmem : ∀ t, t ∈ c ↔ t ∈ ts ∧ T.tstamps[0] ≤ t ∧ t ≤ T.tstamps[T.tstamps.length - 1] := by
    intro t
    rw [hc]
    unfold cropReq
    rw [List.mem_filter, mem_npSort, decide_eq_true_eq]
  -- the requested times that are kept are the same
  have hcr : cropReq C.tstamps h0C us = cropReq T.tstamps h0 us := by
    unfold cropReq
    refine List.filter_congr fun u hu => ?_
    rw [mem_npSort] at hu
    congr 1
    rw [eq_iff_iff]
    have hf := (hmem C.tstamps[0]).1 (by rw [← hct]; exact List.getElem_mem _)
    have hl := (hmem (C.tstamps[C.tstamps.length - 1]'(by omega))).1 (by rw [← hct]; exact List.getElem_mem _)
    constructor
    · rintro ⟨g1, g2⟩
      exact ⟨hf.2.1.trans g1, g2.trans hl.2.2⟩
    · intro g
      have := (hmem u).2 ⟨hsub u hu, g⟩
      rw [← hct] at this
      obtain ⟨i, hi, rfl⟩ := List.getElem_of_mem this
      rw [← hct] at hcs
      have hle : ∀ (i j : Nat) (hi : i < C.tstamps.length) (hj : j < C.tstamps.length), i ≤ j → C.tstamps[i] ≤ C.tstamps[j] := by
        intro i j hi hj h
        rcases Nat.lt_or_eq_of_le h with h | rfl
        · exact (List.pairwise_iff_getElem.1 hcs i j hi hj h).le
        · exact le_refl _
      exact ⟨hle 0 i h0C hi (by omega), hle i _ hi (by omega) (by omega)⟩
  obtain ⟨e, he⟩ : ∃ e, e = cropReq T.tstamps h0 us := ⟨_, rfl⟩
  have hec : ∀ t ∈ e, t ∈ c := by
    intro t ht
    rw [he] at ht
    obtain ⟨g1, g2⟩ := cropReq_mem ht
    exact (hmem t).2 ⟨hsub t g1, g2⟩
  have hene : e ≠ [] := by
    obtain ⟨u, hu, huC⟩ := hk
    rw [hct, hmem] at huC
    apply List.ne_nil_of_mem (a := u)
    rw [he]
    unfold cropReq
    rw [List.mem_filter, mem_npSort, decide_eq_true_eq]
    exact ⟨hu, huC.2⟩
  have hp : interpPos C e = interpPos T e := by
    unfold interpPos
    refine List.map_congr_left fun t ht => ?_
    have hx := hec t ht
    rw [hCe]
    simp only [interpDone, interpPos, List.map_map, Function.comp_def]
    rw [interpF_twice hcs hx, interpF_twice hcs hx, interpF_twice hcs hx]
  have hdone : ∀ q', interpDone C e q' = interpDone T e q' := by
    intro q'
    unfold interpDone
    rw [hp]
    simp only [Traj.mk.injEq, true_and]
    refine ⟨?_, by rw [hCe]; rfl, by rw [hCe]; rfl, by rw [hCe]; rfl⟩
    refine List.map_congr_left fun t ht => ?_
    rw [hCe]
    exact interpF_twice hcs (hec t ht)
  have hcne : c ≠ [] := by
    intro h
    rw [hct, h] at h0C
    simp at h0C
  rcases hr : T.rot with _ | r
  · have i1 := interpolate_eq_noRot L hT h0 us hr
    have hCe : C = interpDone T c none := by
      unfold Returns at hC
      rw [interpolate_eq_noRot L hT h0 ts hr, ← hc] at hC
      exact ((Prod.mk.inj hC).2).symm
    have hCc : Coherent C := by rw [hCe]; exact interpDone_coherent hcne (by simp)
    have i2 := interpolate_eq_noRot L hCc h0C us (by rw [hCe]; rfl)
    refine ⟨interpDone T e none, ?_, ?_⟩
    · unfold Returns; rw [i2, hcr, ← he, hdone]
    · unfold Returns; rw [i1, ← he]
  · have hrl := hT.rot r hr
    obtain ⟨q0, s1, s2, s3⟩ := interpolate_eq_rot L hT h2 hs ts hr (by rw [← hc]; exact hcne)
    have hCe' : C = interpDone T c (some q0) := by
      unfold Returns at hC
      rw [s3, ← hc] at hC
      exact ((Prod.mk.inj hC).2).symm
    rw [← hc] at s1 s2
    have hCc : Coherent C := by rw [hCe']; exact interpDone_coherent hcne (by rintro _ ⟨⟩; exact s2)
    have hCr : C.rot = some q0 := by rw [hCe']; rfl
    obtain ⟨q1, a1, a2, a3⟩ := interpolate_eq_rot L hCc hC2 (by rw [hct]; exact hcs) us hCr (by rw [hcr, ← he]; exact hene)
    obtain ⟨q2, b1, b2, b3⟩ := interpolate_eq_rot L hT h2 hs us hr (by rw [← he]; exact hene)
    rw [hcr, ← he] at a1 a2 a3
    rw [← he] at b1 b2 b3
    rw [hct] at a1
    have hql : q0.length = c.length := s2
    have hc2 : 2 ≤ c.length := by rw [← hct]; exact hC2
    have hq12 : q1 = q2 := by
      obtain ⟨q0', c1, -, c3⟩ := slerpAll_ok L hs hrl.symm (by omega) (ts := c) (fun t ht => ((hmem t).1 ht).2)
      rw [s1] at c1
      cases c1
      obtain ⟨q2', d1, -, d3⟩ := slerpAll_ok L hs hrl.symm (by omega) (ts := e) (fun t ht => ((hmem t).1 (hec t ht)).2)
      rw [b1] at d1
      cases d1
      have hin : ∀ t ∈ e, c[0]'(by omega) ≤ t ∧ t ≤ c[c.length - 1]'(by omega) := by
        intro t ht
        obtain ⟨i, hi, rfl⟩ := List.getElem_of_mem (hec t ht)
        have hle : ∀ (i j : Nat) (hi : i < c.length) (hj : j < c.length), i ≤ j → c[i] ≤ c[j] := by
          intro i j hi hj h
          rcases Nat.lt_or_eq_of_le h with h | rfl
          · exact (List.pairwise_iff_getElem.1 hcs i j hi hj h).le
          · exact le_refl _
        exact ⟨hle 0 i _ hi (by omega), hle i _ hi _ (by omega)⟩
      obtain ⟨q1', f1, -, f3⟩ := slerpAll_ok L hcs hql.symm (by omega) (ts := e) hin
      rw [a1] at f1
      cases f1
      apply List.ext_getElem? 
      intro k
      rcases ht : e[k]? with _ | t
      · have : e.length ≤ k := List.getElem?_eq_none_iff.1 ht
        rw [List.getElem?_eq_none_iff.2 (by omega), List.getElem?_eq_none_iff.2 (by omega)]
      · obtain ⟨x, x1, x2⟩ := f3 k t ht
        obtain ⟨y, y1, y2⟩ := d3 k t ht
        obtain ⟨i, hi, hit⟩ := List.getElem_of_mem (hec t (List.mem_of_getElem? ht))
        obtain ⟨z, z1, z2⟩ := c3 i t (by rw [List.getElem?_eq_getElem hi, hit])
        have hx := slerpOne_hit L hL hcs hql.symm (by omega) hi
        rw [hit, x2] at hx
        rw [List.getElem?_eq_getElem (by omega), Option.some.injEq] at z1
        rw [y2] at z2
        rw [x1, y1, Except.ok.inj hx, Except.ok.inj z2, z1]
    subst hq12
    refine ⟨interpDone T e (some q1), ?_, b3⟩
    unfold Returns
    rw [a3, hdone]

/-! ## Examples -/

/-- the windows overlap in one sample -/
example : ∃ t ∈ exT.tstamps, (fun t => (0 : ℚ) ≤ t ∧ t ≤ 1) t ∧ (fun t => (1 : ℚ) ≤ t ∧ t ≤ 2) t := ⟨1, by decide +kernel⟩
example : ∃ t ∈ exT.tstamps, max (0 : ℚ) 1 ≤ t ∧ t ≤ min 1 2 := ⟨1, by decide +kernel⟩
example : ∃ t ∈ exT.tstamps, (fun t => (0 : ℚ) ≤ t ∧ t ≤ 1) t ∧ t ∈ [(7 : ℚ), 1] := ⟨1, by decide +kernel⟩
/-- three times are kept, two of them are asked for again -/
example : (Traj.interpolate exLib [3 / 2, 1 / 2, 1, 9] exT).1.toOption = some () ∧
    (Traj.interpolate exLib [3 / 2, 1 / 2, 1, 9] exT).2.tstamps = [1 / 2, 1, 3 / 2] ∧ [(3 / 2 : ℚ), 1 / 2, 1, 9].Nodup := by decide +kernel

end TC
