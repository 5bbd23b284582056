import Verif.Spec.Reorder
import Verif.Props.Intersect
import Verif.Props.InterpMore
import Verif.Props.Compare
import Verif.Props.TotalLength
/-!
# C191: the order in which the samples are stored
-/
namespace TC
variable {K R : Type} [Field K] [LinearOrder K] [IsStrictOrderedRing K]
set_option linter.unusedSectionVars false

/-- **C191**, the premise: this is what `apply_index` with a permutation gives. -/
theorem C191_apply_index (T : Traj K R) (hT : Coherent T) (hne : T.tstamps ≠ []) (idx : List Nat) (hp : idx.Perm (List.range T.tstamps.length)) :
    ∃ T', Returns (Traj.applyIndex (.ints (idx.map Int.ofNat))) T () T' ∧ Reordered T T' := by
  have hpos : 0 < T.tstamps.length := List.length_pos_of_ne_nil hne
  have hmem : ∀ i ∈ idx, i < T.tstamps.length := fun i hi => List.mem_range.1 (hp.mem_iff.1 hi)
  obtain ⟨T', h1, h2, h3, h4, h5⟩ := C01_apply_index_keeps_channels_in_step T hT (idx.map Int.ofNat) (by
    intro i hi
    obtain ⟨j, hj, rfl⟩ := List.mem_map.1 hi
    have := hmem j hj
    constructor <;> simp <;> omega) (.inr (by
    intro hc
    have := hp.length_eq
    rw [List.map_eq_nil_iff.1 hc] at this
    simp at this
    omega))
  have hls : (samples T).length = T.tstamps.length := by
    rw [← List.length_map (f := Sample.t), samples_map_t hT]
  refine ⟨T', h1, hT, h2, h3, ?_⟩
  have he : samples T' = sel (samples T) idx := by
    refine List.ext_getElem? fun k => ?_
    rw [sel_getElem? (by intro i hi; rw [hls]; exact hmem i hi)]
    cases hk : idx[k]? with
    | none =>
      rw [List.getElem?_eq_none]
      · rfl
      · rw [h4]; simpa using List.getElem?_eq_none_iff.1 hk
    | some i =>
      rw [h5 k (Int.ofNat i) i (by rw [List.getElem?_map, hk]; rfl) ?_]
      · rfl
      · have := hmem i (List.mem_of_getElem? hk)
        unfold Denotes
        simp
        omega
  rw [he]
  exact sel_perm_self (by rw [hls]; exact hp)

theorem times_perm {T T' : Traj K R} (h : Reordered T T') : T'.tstamps.Perm T.tstamps := by
  rw [← samples_map_t h.left, ← samples_map_t h.right]
  exact h.perm.map _

theorem rot_none_iff {T T' : Traj K R} (h : SameMeta T T') : T'.rot = none ↔ T.rot = none := by
  have := h.rot
  rcases hr : T.rot with _ | r <;> rcases hr' : T'.rot with _ | r' <;> simp [hr, hr'] at this ⊢

theorem meta_trans {A B A' B' : Traj K R} (h : SameMeta A B) (ha : SameMeta A A') (hb : SameMeta B B') : SameMeta A' B' :=
  ⟨by rw [hb.name, h.name, ha.name], by rw [hb.sorting, h.sorting, ha.sorting], by rw [hb.epsg, h.epsg, ha.epsg],
    by rw [hb.rot, h.rot, ha.rot]⟩

/-- **C191**, `crop` -/
theorem C191_crop {T T' : Traj K R} (h : Reordered T T') (a b : K) (hk : T.rot = none ∨ ∃ t ∈ T.tstamps, a ≤ t ∧ t ≤ b) :
    ∃ C C', Returns (Traj.crop a b false) T () C ∧ Returns (Traj.crop a b false) T' () C' ∧ Reordered C C' := by
  obtain ⟨C, h1, h2, h3, h4⟩ := C03_crop_keeps_exactly_the_window T h.left a b hk
  obtain ⟨C', k1, k2, k3, k4⟩ := C03_crop_keeps_exactly_the_window T' h.right a b
    (hk.imp (rot_none_iff h.same).2 (fun ⟨t, ht, hab⟩ => ⟨t, (times_perm h).mem_iff.2 ht, hab⟩))
  refine ⟨C, C', h1, k1, h2, k2, meta_trans h.same h3 k3, ?_⟩
  rw [h4, k4]
  exact h.perm.filter _

open Classical in
/-- **C191**, `intersect` -/
theorem C191_intersect {T T' : Traj K R} (h : Reordered T T') (hne : T.tstamps ≠ []) (ts : List K) (hts : ts ≠ []) (g : K)
    (hov : Overlap ts T.tstamps) (hk : T.rot = none ∨ ∃ t ∈ T.tstamps, Covered ts g t) :
    ∃ C C', Returns (Traj.intersect ts g) T () C ∧ Returns (Traj.intersect ts g) T' () C' ∧ Reordered C C' := by
  obtain ⟨C, h1, h2, h3, h4⟩ := C09_intersect_keeps_exactly_the_covered_samples T h.left hne ts hts g hov hk
  have hm := fun t => (times_perm h).mem_iff (a := t)
  obtain ⟨C', k1, k2, k3, k4⟩ := C09_intersect_keeps_exactly_the_covered_samples T' h.right
    (by intro hc; have := (times_perm h).length_eq; rw [hc] at this; exact hne (List.length_eq_zero_iff.1 this.symm)) ts hts g
    (by
      obtain ⟨x, hx, ⟨a, ha, ha'⟩, b, hb, hb'⟩ := hov
      exact ⟨x, hx, ⟨a, (hm a).2 ha, ha'⟩, b, (hm b).2 hb, hb'⟩)
    (hk.imp (rot_none_iff h.same).2 (fun ⟨t, ht, hab⟩ => ⟨t, (hm t).2 ht, hab⟩))
  refine ⟨C, C', h1, k1, h2, k2, meta_trans h.same h3 k3, ?_⟩
  rw [h4, k4]
  exact h.perm.filter _

theorem samples_inj {T T' : Traj K R} (hT : Coherent T) (hT' : Coherent T') (hm : SameMeta T T') (h : samples T' = samples T) : T' = T := by
  have h1 : T'.tstamps = T.tstamps := by rw [← samples_map_t hT, ← samples_map_t hT', h]
  have h2 : T'.pos = T.pos := by rw [← samples_map_p hT, ← samples_map_p hT', h]
  have h3 : T'.arc = T.arc := by rw [← samples_map_l hT, ← samples_map_l hT', h]
  have h4 : T'.speed = T.speed := by rw [← samples_map_v hT, ← samples_map_v hT', h]
  have h5 : rotColumn T'.tstamps.length T'.rot = rotColumn T.tstamps.length T.rot := by
    rw [← samples_map_r hT, ← samples_map_r hT', h]
  have h6 : T'.rot = T.rot := by
    have := hm.rot
    rcases hr : T.rot with _ | r <;> rcases hr' : T'.rot with _ | r' <;> simp [hr, hr'] at this ⊢
    rw [hr, hr'] at h5
    simp only [rotColumn] at h5
    exact List.map_injective_iff.2 (Option.some_injective R) h5
  have h7 := hm.name
  have h8 := hm.sorting
  have h9 := hm.epsg
  cases T; cases T'
  simp_all

/-- **C191**, `match_timestamps`: the results are equal. -/
theorem C191_match_timestamps {T T' : Traj K R} (h : Reordered T T') (hd : T.tstamps.Nodup) (ts : List K)
    (hk : T.rot = none ∨ ∃ t ∈ T.tstamps, t ∈ ts) :
    ∃ C, Returns (Traj.matchTimestamps ts) T () C ∧ Returns (Traj.matchTimestamps ts) T' () C := by
  have hm := fun t => (times_perm h).mem_iff (a := t)
  obtain ⟨C, h1, h2, h3, h4, h5, h6⟩ := C11_match_timestamps T h.left ts hk
  obtain ⟨C', k1, k2, k3, k4, k5, k6⟩ := C11_match_timestamps T' h.right ts
    (hk.imp (rot_none_iff h.same).2 (fun ⟨t, ht, hab⟩ => ⟨t, (hm t).2 ht, hab⟩))
  have hts : C'.tstamps = C.tstamps := by
    refine List.Perm.eq_of_pairwise' (r := (· < ·)) k4 h4 ?_
    refine (List.perm_ext_iff_of_nodup (k4.imp (fun h => ne_of_lt h)) (h4.imp (fun h => ne_of_lt h))).2 ?_
    intro t
    rw [k5, h5, hm]
  have hl : ∀ C : Traj K R, Coherent C → (samples C).length = C.tstamps.length := fun C hC => by
    rw [← List.length_map (f := Sample.t), samples_map_t hC]
  have hinj : ∀ s ∈ samples T, ∀ u ∈ samples T, s.t = u.t → s = u := by
    intro s hs u hu e
    have hn : ((samples T).map Sample.t).Nodup := by rw [samples_map_t h.left]; exact hd
    exact List.inj_on_of_nodup_map hn hs hu e
  have hss : samples C' = samples C := by
    refine List.ext_getElem (by rw [hl _ h2, hl _ k2, hts]) ?_
    intro i hi hi'
    have a1 := h6 _ (List.getElem_mem hi')
    have b1 := k6 _ (List.getElem_mem hi)
    have a2 := List.mem_of_find?_eq_some a1
    have b2 := h.perm.mem_iff.1 (List.mem_of_find?_eq_some b1)
    refine hinj _ b2 _ a2 ?_
    have e : ((samples C').map Sample.t)[i]'(by simpa using hi) = ((samples C).map Sample.t)[i]'(by simpa using hi') := by
      have := hts
      rw [← samples_map_t h2, ← samples_map_t k2] at this
      simp only [this]
    simpa using e
  have := samples_inj h2 k2 (meta_trans h.same h3 k3) hss
  rw [this] at k1
  exact ⟨C, h1, k1⟩

theorem sel_map {α β : Type} (f : α → β) (l : List α) (p : List Nat) : (sel l p).map f = sel (l.map f) p := by
  unfold sel
  rw [List.map_filterMap]
  refine List.filterMap_congr fun i _ => ?_
  rw [List.getElem?_map]

theorem samples_key {T : Traj K R} (hT : Coherent T) : (samples T).map (sortNumber T.sorting) = sortKey T := by
  unfold sortKey
  cases T.sorting
  · exact samples_map_t hT
  · exact samples_map_l hT

/-- the sorted samples are the same -/
theorem sorted_samples {argsort : List K → List Nat} (hA : IsArgsort argsort) {T T' : Traj K R} (h : Reordered T T') (hn : NoTies T) :
    sel (samples T') (T'.sortingIndex argsort) = sel (samples T) (T.sortingIndex argsort) := by
  have hl : ∀ C : Traj K R, Coherent C → (samples C).length = (sortKey C).length := fun C hC => by
    rw [← samples_key hC, List.length_map]
  have key : ∀ C : Traj K R, Coherent C → (sel (samples C) (C.sortingIndex argsort)).Perm (samples C) ∧
      ((sel (samples C) (C.sortingIndex argsort)).map (sortNumber C.sorting)).Pairwise (· ≤ ·) := by
    intro C hC
    have hi := sortingIndex_isArgsort hA C
    refine ⟨sel_perm_self (by rw [hl C hC]; exact hi.1), ?_⟩
    rw [sel_map, samples_key hC]
    exact hi.2
  obtain ⟨a1, a2⟩ := key T h.left
  obtain ⟨b1, b2⟩ := key T' h.right
  rw [h.same.sorting] at b2
  have hp := (b1.trans h.perm).trans a1.symm
  rw [List.pairwise_map] at a2 b2
  refine List.Perm.eq_of_pairwise ?_ b2 a2 hp
  intro s u hs hu h1 h2
  have hs' := h.perm.mem_iff.1 (b1.mem_iff.1 hs)
  have hu' := a1.mem_iff.1 hu
  exact List.inj_on_of_nodup_map hn hs' hu' (le_antisymm h1 h2)

/-- **C191**, the sorted views: the abscissas, the positions and the orientations are the same lists. -/
theorem C191_views {argsort : List K → List Nat} (hA : IsArgsort argsort) {T T' : Traj K R} (h : Reordered T T') (hn : NoTies T) :
    T'.functionOf argsort = T.functionOf argsort ∧ T'.xyz argsort = T.xyz argsort ∧ T'.quat argsort = T.quat argsort := by
  have hs := sorted_samples hA h hn
  refine ⟨?_, ?_, ?_⟩
  · rw [functionOf_eq hA, functionOf_eq hA, ← samples_key h.left, ← samples_key h.right, ← sel_map, ← sel_map, hs, h.same.sorting]
  · rw [xyz_eq hA h.left, xyz_eq hA h.right, ← samples_map_p h.left, ← samples_map_p h.right, ← sel_map, ← sel_map, hs]
  · have hq : ∀ (C : Traj K R), Coherent C → ∀ r, C.rot = some r → C.quat argsort = .ok (some (sel r (C.sortingIndex argsort))) ∧
        (sel r (C.sortingIndex argsort)).map some = (sel (samples C) (C.sortingIndex argsort)).map Sample.r := by
      intro C hC r hr
      have hi := (sortingIndex_isArgsort hA C).inRange
      rw [sortKey_length hC, ← hC.rot r hr] at hi
      constructor
      · unfold Traj.quat
        simp only [hr, take_eq hi]
        rfl
      · rw [sel_map, sel_map, samples_map_r hC, hr]
        rfl
    have hr := h.same.rot
    rcases hr1 : T.rot with _ | r <;> rcases hr2 : T'.rot with _ | r' <;> simp [hr1, hr2] at hr
    · simp [Traj.quat, hr1, hr2]
    · obtain ⟨a1, a2⟩ := hq T h.left r hr1
      obtain ⟨b1, b2⟩ := hq T' h.right r' hr2
      rw [a1, b1]
      rw [hs, ← a2] at b2
      rw [List.map_injective_iff.2 (Option.some_injective R) b2]

/-- **C191**, the table: the same rows. -/
theorem C191_table (io : IoLib K R) {argsort : List K → List Nat} (hA : IsArgsort argsort) {T T' : Traj K R} (h : Reordered T T') (hn : NoTies T) :
    ∃ f, T.toDataframe io argsort [] = .ok f ∧ T'.toDataframe io argsort [] = .ok f := by
  have hcol : ∀ b, sortColumn T.sorting ∈ tableColumns b := by
    intro b
    cases T.sorting <;> cases b <;> decide
  obtain ⟨rows, ss, h1, h2, h3, h4⟩ := (C151_table io hA h.left []).1 (by simpa using hcol _)
  obtain ⟨rows', ss', k1, k2, k3, k4⟩ := (C151_table io hA h.right []).1 (by rw [h.same.sorting]; simpa using hcol _)
  rw [h.same.rot] at k1 k3
  rw [h.same.sorting] at k4
  have hk : ∀ s : Sample K R, cellOf io.asQuat s (String.ofList (sortColumn T.sorting)) = some (sortNumber T.sorting s) := by
    intro s
    cases T.sorting <;> rfl
  simp only [if_pos, hk, Option.some.injEq, exists_eq_left', exists_and_left] at h4 k4
  have hss : ss' = ss := by
    refine List.Perm.eq_of_pairwise ?_ k4 h4 ((k2.trans h.perm).trans h2.symm)
    intro s u hs hu e1 e2
    exact List.inj_on_of_nodup_map hn (h.perm.mem_iff.1 (k2.mem_iff.1 hs)) (h2.mem_iff.1 hu) (le_antisymm e1 e2)
  subst hss
  have hr : rows' = rows := by
    clear h1 k1 h2 k2 h4 k4
    induction h3 generalizing rows' with
    | nil => cases k3; rfl
    | cons a _ ih =>
      rcases k3 with _ | ⟨b, k3⟩
      rw [ih _ k3]
      unfold Shows at a b
      rw [← a] at b
      rw [List.map_injective_iff.2 (Option.some_injective K) b]
  subst hr
  exact ⟨_, h1, k1⟩

/-- **C191 is false of the code** for the interpolation: if the sample that is stored last is earlier than the one stored first,
every requested time is dropped, whatever is requested. -/
theorem C191_interpolate_drops_all (L : RotLib K R) {T T' : Traj K R} (hT : Coherent T) (first last : K) (hf : T.tstamps.head? = some first)
    (hl : T.tstamps.getLast? = some last) (h : last < first) (ts : List K) (hret : Returns (Traj.interpolate L ts) T () T') :
    T'.tstamps = [] := by
  have hne : T.tstamps ≠ [] := by intro hc; rw [hc] at hf; cases hf
  have h0 : 0 < T.tstamps.length := List.length_pos_of_ne_nil hne
  obtain ⟨q, rfl⟩ : ∃ q, T' = interpDone T (cropReq T.tstamps h0 ts) q := by
    unfold Returns at hret
    rcases interpolate_cases L hT h0 ts with ⟨q, hq⟩ | ⟨e, he⟩
    · rw [hq] at hret; exact ⟨q, ((Prod.mk.inj hret).2).symm⟩
    · rw [he] at hret; simp at hret
  show cropReq T.tstamps h0 ts = []
  unfold cropReq
  rw [List.filter_eq_nil_iff]
  intro t _
  rw [List.head?_eq_getElem?, List.getElem?_eq_getElem h0, Option.some.injEq] at hf
  rw [List.getLast?_eq_getElem?, List.getElem?_eq_getElem (by omega), Option.some.injEq] at hl
  simp only [hf, hl, decide_eq_true_eq, not_and, not_le]
  intro h1
  exact h.trans_le h1

/-- **C191 is false of the code** for the total length: it is the arc length of the sample stored last. -/
theorem C191_total_length_last (T : Traj K R) (hT : Coherent T) (s : Sample K R) (h : (samples T).getLast? = some s) :
    T.totalLength = .ok s.l := by
  have hl : T.arc.getLast? = some s.l := by
    rw [← samples_map_l hT, List.getLast?_map, h]; rfl
  have hne : T.arc ≠ [] := by intro hc; rw [hc] at hl; cases hl
  rw [List.getLast?_eq_some_getLast hne, Option.some.injEq] at hl
  unfold Traj.totalLength
  rw [if_neg (by simpa using hne), pyLast_ne hne, hl]

/-- the samples stored in reversed order -/
def stored_backwards (T : Traj K R) : Traj K R :=
  { T with
    tstamps := T.tstamps.reverse
    pos := T.pos.reverse
    rot := T.rot.map List.reverse
    arc := T.arc.reverse
    speed := T.speed.reverse }

theorem backwards_coherent {T : Traj K R} (h : Coherent T) : Coherent (stored_backwards T) := by
  refine ⟨by simp [stored_backwards, h.pos], by simp [stored_backwards, h.arc], by simp [stored_backwards, h.speed], ?_⟩
  intro r hr
  simp only [stored_backwards, Option.map_eq_some_iff] at hr
  obtain ⟨r', hr', rfl⟩ := hr
  simp [stored_backwards, h.rot r' hr']

theorem zip_back {α β : Type} {l : List α} {m : List β} (h : l.length = m.length) : l.reverse.zip m.reverse = (l.zip m).reverse := by
  rw [List.zip_eq_zipWith, List.zip_eq_zipWith, List.reverse_zipWith h]

/-- **C191 is false of the code**: the same samples stored backwards report another total length and
interpolate to nothing.  For every trajectory with at least one sample whose first and last arc lengths differ, and whose last timestamp
is later than its first. -/
theorem C191_negation (L : RotLib K R) {T : Traj K R} (hT : Coherent T) (first last a b : K)
    (hf : T.tstamps.head? = some first) (hl : T.tstamps.getLast? = some last) (hlt : first < last)
    (ha : T.arc.head? = some a) (hb : T.arc.getLast? = some b) (hab : a ≠ b) :
    Reordered T (stored_backwards T) ∧
    T.totalLength = .ok b ∧ (stored_backwards T).totalLength = .ok a ∧
    (stored_backwards T).totalLength ≠ T.totalLength ∧
    (∀ ts T', Returns (Traj.interpolate L ts) (stored_backwards T) () T' → T'.tstamps = []) ∧
    (∀ ts T', Returns (Traj.interpolate L ts) T () T' → (∃ t ∈ ts, first ≤ t ∧ t ≤ last) → T'.tstamps ≠ []) := by
  have hB := backwards_coherent hT
  have hrev : samples (stored_backwards T) = (samples T).reverse := by
    have hc : rotColumn T.tstamps.length (T.rot.map List.reverse) = (rotColumn T.tstamps.length T.rot).reverse := by
      cases T.rot <;> simp [rotColumn]
    have hr : (rotColumn T.tstamps.length T.rot).length = T.tstamps.length := by
      have := hT.rot
      cases h : T.rot <;> simp_all [rotColumn]
    unfold samples stored_backwards
    rw [List.length_reverse, hc, ← List.map_reverse, zip_back (by rw [hT.arc, hT.speed]), zip_back (by simp [hr, hT.arc, hT.speed]),
      zip_back (by simp [hr, hT.arc, hT.speed, hT.pos]), zip_back (by simp [hr, hT.arc, hT.speed, hT.pos])]
  have hlast : ∀ (C : Traj K R) (x : K), C.arc.getLast? = some x → C.totalLength = .ok x := by
    intro C x hx
    have hne : C.arc ≠ [] := by intro hc; rw [hc] at hx; cases hx
    rw [List.getLast?_eq_some_getLast hne, Option.some.injEq] at hx
    unfold Traj.totalLength
    rw [if_neg (by simpa using hne), pyLast_ne hne, hx]
  refine ⟨⟨hT, hB, ⟨rfl, rfl, rfl, ?_⟩, hrev ▸ List.reverse_perm _⟩, hlast _ _ hb, hlast _ _ (by simpa [stored_backwards] using ha), ?_, ?_, ?_⟩
  · simp [stored_backwards]
  · rw [hlast _ _ hb, hlast _ a (by simpa [stored_backwards] using ha)]
    intro hc
    exact hab (Except.ok.inj hc)
  · intro ts T' h
    exact C191_interpolate_drops_all L hB last first (by simpa [stored_backwards] using hl) (by simpa [stored_backwards] using hf) hlt ts h
  · rintro ts T' h ⟨t, ht, hin⟩ hc
    have := (C05_interpolate_timestamps L T T' hT ts first last hf hl h).2
    rw [hc] at this
    have hm := this.mem_iff (a := t)
    simp [ht, hin] at hm

/-! ## Examples -/

/-- three samples in the order of time -/
def exStored : Traj ℚ Nat :=
  { tstamps := [0, 1, 2], pos := [⟨0, 0, 0⟩, ⟨1, 0, 0⟩, ⟨2, 0, 0⟩], rot := some [10, 11, 12],
    arc := [0, 1, 2], speed := [⟨1, 0, 0⟩, ⟨1, 0, 0⟩, ⟨0, 0, 0⟩], sorting := .time, name := "stored", epsg := 0 }

example : Coherent exStored := ⟨rfl, rfl, rfl, by rintro r ⟨⟩; rfl⟩
example : NoTies exStored := by unfold NoTies; decide +kernel
/-- an order that is neither the stored nor the reversed one -/
example : ∃ T', Returns (Traj.applyIndex (.ints ([2, 0, 1].map Int.ofNat))) exStored () T' ∧ Reordered exStored T' :=
  C191_apply_index exStored ⟨rfl, rfl, rfl, by rintro r ⟨⟩; rfl⟩ (by decide) _ (by decide)
example : (Traj.applyIndex (.ints ([2, 0, 1].map Int.ofNat)) exStored).2.tstamps = [2, 0, 1] := by decide +kernel
example : exStored.totalLength.toOption = some 2 ∧ (stored_backwards exStored).totalLength.toOption = some 0 := by decide +kernel
example : (stored_backwards exStored).xyz stableArgsort = exStored.xyz stableArgsort := by decide +kernel

end TC
