import Verif.Proofs.Sorting
import Verif.Props.Arc
import Verif.Props.Views
/-!
# C47–C51: spatial sorting
-/
namespace TC
set_option linter.unusedSectionVars false
variable {K R : Type} [Field K] [LinearOrder K] [IsStrictOrderedRing K]

/-- what `_compute_mst` returns for a triangulated point set -/
theorem computeMst_spec {tl : TreeLib K} {nrm : V3 K → K} {xyz : List (V3 K)} (ht : TreeOk tl xyz)
    {edges : List (Nat × Nat)} (he : tl.triangulate xyz = .ok edges) :
    ∃ g missing, computeMst tl nrm xyz = .ok (g, missing) ∧ IsSpanningForest xyz.length edges g ∧
      missing.Nodup ∧ ∀ i, i ∈ missing ↔ i < xyz.length ∧ ¬ Touched edges i := by
  have htri := ht.tri edges he
  have h1 : InRange xyz.length (edges.map Prod.fst) := by
    intro i hi
    obtain ⟨e, he', rfl⟩ := List.mem_map.1 hi
    exact (htri.range e he').1
  have h2 : InRange xyz.length (edges.map Prod.snd) := by
    intro i hi
    obtain ⟨e, he', rfl⟩ := List.mem_map.1 hi
    exact (htri.range e he').2.1
  unfold computeMst
  simp only [he, take_eq h1, take_eq h2, bind, Except.bind, pure, Except.pure]
  refine ⟨_, _, rfl, ?_, ?_, ?_⟩
  · apply ht.tree edges _ he
    apply List.ext_getElem?
    intro k
    rw [List.getElem?_map, List.getElem?_zipWith, List.getElem?_zipWith, sel_getElem? h1,
      sel_getElem? h2, List.getElem?_map, List.getElem?_map]
    cases hk : edges[k]? with
    | none => rfl
    | some e =>
      have hr := htri.range e (List.mem_of_getElem? hk)
      simp [List.getElem?_eq_getElem hr.1, List.getElem?_eq_getElem hr.2.1]
  · exact List.nodup_range.filter _
  · intro i
    simp [Touched]

/-- in a spanning forest of a triangulation exactly the triangulated points have neighbours, and
they are all connected -/
theorem forest_adj {n : Nat} {edges : List (Nat × Nat)} {g : Graph}
    (hf : IsSpanningForest n edges g) (ht : IsTriangulation n edges) :
    (∀ i, g.adj i ≠ [] ↔ Touched edges i) ∧
      ∀ u v, g.adj u ≠ [] → g.adj v ≠ [] → Reach g u v := by
  have hsymm : ∀ u v, Reach g u v → Reach g v u := by
    intro u v h
    induction h with
    | refl => exact Relation.ReflTransGen.refl
    | tail _ hbc ih => exact (Relation.ReflTransGen.single (hf.wf.symm _ _ hbc)).trans ih
  have hnb : ∀ u v, u ≠ v → Reach g u v → g.adj u ≠ [] := by
    intro u v hne h
    rcases Relation.ReflTransGen.cases_head h with h | ⟨w, hw, _⟩
    · exact absurd h hne
    · exact List.ne_nil_of_mem hw
  have h1 : ∀ i, g.adj i ≠ [] ↔ Touched edges i := by
    intro i
    constructor
    · intro h
      obtain ⟨v, hv⟩ := List.exists_mem_of_ne_nil _ h
      rcases hf.sub i v hv with h | h
      · exact ⟨_, h, Or.inl rfl⟩
      · exact ⟨_, h, Or.inr rfl⟩
    · rintro ⟨⟨a, b⟩, he, hi⟩
      have hne := (ht.range _ he).2.2
      have hr := hf.span a b he
      rcases hi with rfl | rfl
      · exact hnb _ _ hne hr
      · exact hnb _ _ hne.symm (hsymm _ _ hr)
  refine ⟨h1, fun u v hu hv => ?_⟩
  have := ht.connected u v ((h1 u).1 hu) ((h1 v).1 hv)
  induction this with
  | refl => exact Relation.ReflTransGen.refl
  | @tail b c hab hbc ih =>
    have hb : g.adj b ≠ [] := (h1 b).2 (by
      rcases hbc with h | h
      · exact ⟨_, h, Or.inl rfl⟩
      · exact ⟨_, h, Or.inr rfl⟩)
    refine (ih hb).trans ?_
    rcases hbc with h | h
    · exact hf.span _ _ h
    · exact hsymm _ _ (hf.span _ _ h)

/-- what `sort` does before start and direction are chosen -/
def lapOrder (tl : TreeLib K) (nrm : V3 K → K) (nn : List (V3 K) → V3 K → Nat × Nat)
    (xyz : List (V3 K)) (discardMissing : Bool) : Except Err (List Nat) := do
  let (g, missing) ← computeMst tl nrm xyz
  let idx0 ← mstSorting g
  if missing.length > 0 ∧ discardMissing = false then do
      let points ← Traj.take xyz missing
      let sorted ← Traj.take xyz idx0
      pure (insertPoints nn (missing.zip points) idx0 sorted).1
    else pure idx0

theorem sortPoints_eq (tl : TreeLib K) (nrm : V3 K → K) (nn : List (V3 K) → V3 K → Nat × Nat)
    (atan2 : K → K → K) (xyz : List (V3 K)) (d : Bool) :
    sortPoints tl nrm nn atan2 xyz d = (do
      let idx1 ← lapOrder tl nrm nn xyz d
      let top ← argmax (xyz.map V3.z)
      let idx2 ← beginWith idx1 top
      let sorted ← Traj.take xyz idx2
      if detectDirection atan2 sorted ≠ detectDirection atan2 xyz then return idx2.reverse
      else return idx2) := by
  unfold sortPoints lapOrder
  cases computeMst tl nrm xyz with
  | error e => rfl
  | ok gm =>
    simp only [bind, Except.bind]
    cases mstSorting gm.1 with
    | error e => rfl
    | ok idx0 =>
      simp only
      by_cases hc : gm.2.length > 0 ∧ d = false
      · simp only [hc]
        cases Traj.take xyz gm.2 with
        | error e => simp
        | ok ps =>
          simp only
          cases Traj.take xyz idx0 with
          | error e => simp
          | ok ss => rfl
      · simp only [if_neg hc]

theorem lapOrder_spec {tl : TreeLib K} {nrm : V3 K → K} (nn : List (V3 K) → V3 K → Nat × Nat)
    {xyz : List (V3 K)} (ht : TreeOk tl xyz) {edges : List (Nat × Nat)}
    (he : tl.triangulate xyz = .ok edges) (d : Bool) :
    ∃ idx, lapOrder tl nrm nn xyz d = .ok idx ∧ idx.Nodup ∧
      ∀ i, i ∈ idx ↔ i < xyz.length ∧ (d = true → Touched edges i) := by
  have htri := ht.tri edges he
  obtain ⟨g, missing, hm, hf, hmn, hmm⟩ := computeMst_spec (nrm := nrm) ht he
  obtain ⟨h1, h2⟩ := forest_adj hf htri
  obtain ⟨e0, he0⟩ := List.exists_mem_of_ne_nil _ htri.nonempty
  obtain ⟨idx0, hs, hnd, hmem⟩ := mstSorting_spec hf.wf hf.acyclic h2
    ⟨e0.1, (h1 _).2 ⟨e0, he0, Or.inl rfl⟩⟩
  have htl : ∀ i, Touched edges i → i < xyz.length := by
    rintro i ⟨e, he', rfl | rfl⟩
    · exact (htri.range e he').1
    · exact (htri.range e he').2.1
  have hin0 : InRange xyz.length idx0 := fun i hi => htl i ((h1 i).1 ((hmem i).1 hi))
  unfold lapOrder
  simp only [hm, hs, bind, Except.bind]
  by_cases hc : missing.length > 0 ∧ d = false
  · have hinm : InRange xyz.length missing := fun i hi => ((hmm i).1 hi).1
    simp only [hc, take_eq hinm, take_eq hin0, pure, Except.pure]
    obtain ⟨idx', e1, e2, e3, e4⟩ := insertPoints_spec nn xyz (missing.zip (sel xyz missing))
      (by
        intro m hmz
        obtain ⟨k, hk⟩ := List.getElem?_of_mem hmz
        rw [List.getElem?_zip_eq_some, sel_getElem? hinm] at hk
        obtain ⟨hk1, hk2⟩ := hk
        rw [hk1] at hk2
        simpa using hk2) idx0 hin0
    rw [List.map_fst_zip (by rw [sel_length hinm])] at e4
    refine ⟨idx', by rw [if_pos ⟨trivial, trivial⟩, e1], ?_, ?_⟩
    · rw [e4.nodup_iff, List.nodup_append]
      refine ⟨hmn, hnd, ?_⟩
      rintro a ha b hb rfl
      exact ((hmm a).1 ha).2 ((h1 a).1 ((hmem a).1 hb))
    · intro i
      rw [e4.mem_iff, List.mem_append, hmm, hmem, h1]
      by_cases hti : Touched edges i
      · simp [hti, htl i hti]
      · simp [hti]
  · rw [if_neg hc]
    refine ⟨idx0, rfl, hnd, ?_⟩
    intro i
    rw [hmem, h1]
    constructor
    · exact fun h => ⟨htl i h, fun _ => h⟩
    · rintro ⟨h3, h4⟩
      by_cases hd : d = true
      · exact h4 hd
      · by_contra hcon
        exact hc ⟨List.length_pos_of_mem ((hmm i).2 ⟨h3, hcon⟩), by simpa using hd⟩

/-- position `i` is (the first) highest point -/
def IsHighest (xyz : List (V3 K)) (i : Nat) : Prop :=
  ∃ p, xyz[i]? = some p ∧ (∀ q ∈ xyz, q.z ≤ p.z) ∧ ∀ j q, j < i → xyz[j]? = some q → q.z < p.z

theorem IsHighest.unique {xyz : List (V3 K)} {i j : Nat} (hi : IsHighest xyz i)
    (hj : IsHighest xyz j) : i = j := by
  obtain ⟨p, h1, h2, h3⟩ := hi
  obtain ⟨q, g1, g2, g3⟩ := hj
  rcases lt_trichotomy i j with h | h | h
  · exact absurd (g3 i p h h1) (not_lt.2 (h2 q (List.mem_of_getElem? g1)))
  · exact h
  · exact absurd (h3 j q h g1) (not_lt.2 (g2 p (List.mem_of_getElem? h1)))

theorem argmax_highest {xyz : List (V3 K)} (hne : xyz ≠ []) :
    ∃ k, argmax (xyz.map V3.z) = .ok k ∧ k < xyz.length ∧ IsHighest xyz k := by
  obtain ⟨k, a, h1, h2, h3, h4⟩ := argmax_spec (l := xyz.map V3.z) (by simpa using hne)
  rw [List.getElem?_map] at h2
  obtain ⟨p, hp, rfl⟩ := Option.map_eq_some_iff.1 h2
  refine ⟨k, h1, (List.getElem?_eq_some_iff.1 hp).1, p, hp, fun q hq => h3 _ (List.mem_map_of_mem hq), ?_⟩
  intro j q hj hq
  exact h4 j _ hj (by rw [List.getElem?_map, hq]; rfl)

/-- the whole of `sort` for a triangulated point set -/
theorem sortPoints_spec {tl : TreeLib K} {nrm : V3 K → K} (nn : List (V3 K) → V3 K → Nat × Nat)
    (atan2 : K → K → K) {xyz : List (V3 K)} (ht : TreeOk tl xyz) {edges : List (Nat × Nat)}
    (he : tl.triangulate xyz = .ok edges) (d : Bool) :
    ∃ lap top pre post, lapOrder tl nrm nn xyz d = .ok lap ∧ IsHighest xyz top ∧ lap.Nodup ∧
      (∀ i, i ∈ lap ↔ i < xyz.length ∧ (d = true → Touched edges i)) ∧
      (top ∉ lap → sortPoints tl nrm nn atan2 xyz d = .error .valueError) ∧
      (top ∈ lap → lap = pre ++ top :: post ∧
        sortPoints tl nrm nn atan2 xyz d = .ok (if detectDirection atan2
          (sel xyz (top :: post ++ pre)) ≠ detectDirection atan2 xyz
          then (top :: post ++ pre).reverse else top :: post ++ pre)) := by
  obtain ⟨lap, h1, h2, h3⟩ := lapOrder_spec (nrm := nrm) nn ht he d
  have htri := ht.tri edges he
  obtain ⟨e0, he0⟩ := List.exists_mem_of_ne_nil _ htri.nonempty
  have hne : xyz ≠ [] := by
    rintro rfl
    have := (htri.range e0 he0).1
    simp at this
  obtain ⟨top, t1, t2, t3⟩ := argmax_highest hne
  by_cases htop : top ∈ lap
  · obtain ⟨pre, post, p1, p2, p3⟩ := beginWith_spec htop
    refine ⟨lap, top, pre, post, h1, t3, h2, h3, fun h => absurd htop h, fun _ => ⟨p1, ?_⟩⟩
    have hin : InRange xyz.length (top :: post ++ pre) := by
      intro i hi
      apply ((h3 i).1 _).1
      rw [p1]
      simp only [List.mem_append, List.mem_cons, List.cons_append] at hi ⊢
      tauto
    rw [sortPoints_eq]
    simp only [h1, t1, p3, take_eq hin, bind, Except.bind, pure, Except.pure]
    split_ifs <;> rfl
  · refine ⟨lap, top, [], [], h1, t3, h2, h3, fun _ => ?_, fun h => absurd h htop⟩
    rw [sortPoints_eq]
    simp only [h1, t1, bind, Except.bind, beginWith, if_neg htop]

/-- **C47**: for every triangulation, every spanning tree and every neighbour search, the spatial
sort visits each sample at most once.  With `discard_missing=False` the result is a permutation of
all samples; with `discard_missing=True` it consists of exactly the triangulated samples – unless
the highest sample was not triangulated, then the call raises `ValueError`. -/
theorem C47_sort_visits_each_sample_once {tl : TreeLib K} {nrm : V3 K → K}
    (nn : List (V3 K) → V3 K → Nat × Nat) (atan2 : K → K → K) {xyz : List (V3 K)}
    (ht : TreeOk tl xyz) {edges : List (Nat × Nat)} (he : tl.triangulate xyz = .ok edges) :
    (∃ idx, sortPoints tl nrm nn atan2 xyz false = .ok idx ∧ idx.Perm (List.range xyz.length)) ∧
    ((∀ i, IsHighest xyz i → Touched edges i) →
      ∃ idx, sortPoints tl nrm nn atan2 xyz true = .ok idx ∧ idx.Nodup ∧
        ∀ i, i ∈ idx ↔ Touched edges i) ∧
    ((∃ i, IsHighest xyz i ∧ ¬ Touched edges i) →
      sortPoints tl nrm nn atan2 xyz true = .error .valueError) := by
  have htri := ht.tri edges he
  have htl : ∀ i, Touched edges i → i < xyz.length := by
    rintro i ⟨e, he', rfl | rfl⟩
    · exact (htri.range e he').1
    · exact (htri.range e he').2.1
  have hperm : ∀ (b : Prop) [Decidable b] (pre post : List Nat) (top : Nat),
      (if b then (top :: post ++ pre).reverse else top :: post ++ pre).Perm (pre ++ top :: post) := by
    intro b _ pre post top
    split_ifs
    · exact (List.reverse_perm _).trans List.perm_append_comm
    · exact List.perm_append_comm
  refine ⟨?_, ?_, ?_⟩
  · obtain ⟨lap, top, pre, post, _, h2, h3, h4, _, h6⟩ := sortPoints_spec (nrm := nrm) nn atan2 ht he false
    obtain ⟨p, hp, _⟩ := h2
    obtain ⟨e1, e2⟩ := h6 ((h4 top).2 ⟨(List.getElem?_eq_some_iff.1 hp).1, by simp⟩)
    refine ⟨_, e2, (hperm _ pre post top).trans ?_⟩
    rw [← e1]
    exact (List.perm_ext_iff_of_nodup h3 List.nodup_range).2 (fun i => by rw [h4]; simp)
  · intro hall
    obtain ⟨lap, top, pre, post, _, h2, h3, h4, _, h6⟩ := sortPoints_spec (nrm := nrm) nn atan2 ht he true
    have hti := hall top h2
    obtain ⟨e1, e2⟩ := h6 ((h4 top).2 ⟨htl top hti, fun _ => hti⟩)
    have hp := hperm (detectDirection atan2
          (sel xyz (top :: post ++ pre)) ≠ detectDirection atan2 xyz) pre post top
    rw [← e1] at hp
    refine ⟨_, e2, hp.nodup_iff.2 h3, fun i => ?_⟩
    rw [hp.mem_iff, h4]
    exact ⟨fun h => h.2 rfl, fun h => ⟨htl i h, fun _ => h⟩⟩
  · rintro ⟨i, hi, hti⟩
    obtain ⟨lap, top, _, _, _, h2, _, h4, h5, _⟩ := sortPoints_spec (nrm := nrm) nn atan2 ht he true
    obtain rfl := hi.unique h2
    exact h5 (fun h => hti (((h4 i).1 h).2 rfl))

/-- **C47**, the contract `sort_spatially` (C16) relies on: `sort_mls` returns distinct indices of
samples together with one arc length per index: the distance travelled along the smoothed points in
this order.  (`mls` is any smoothing that keeps the number of points.) -/
theorem C47_sort_mls {tl : TreeLib K} {nrm : V3 K → K}
    (nn : List (V3 K) → V3 K → Nat × Nat) (atan2 : K → K → K)
    {mls : List (V3 K) → Except Err (List (V3 K))} {xyz smooth : List (V3 K)}
    (hm : mls xyz = .ok smooth) (hl : smooth.length = xyz.length) (ht : TreeOk tl smooth)
    {edges : List (Nat × Nat)} (he : tl.triangulate smooth = .ok edges) (d : Bool)
    {idx : List Nat} {arcs : List K}
    (hs : sortMls tl nrm nn atan2 mls d xyz = .ok (idx, arcs)) :
    idx.Nodup ∧ idx ≠ [] ∧ (∀ i ∈ idx, i < xyz.length) ∧ arcs.length = idx.length ∧
      IsTravelled nrm (idx.filterMap (fun i => smooth[i]?)) arcs := by
  unfold sortMls at hs
  simp only [hm, bind, Except.bind] at hs
  obtain ⟨lap, top, pre, post, _, h2, h3, h4, h5, h6⟩ := sortPoints_spec (nrm := nrm) nn atan2 ht he d
  by_cases htop : top ∈ lap
  · obtain ⟨e1, e2⟩ := h6 htop
    have hp : (if detectDirection atan2
          (sel smooth (top :: post ++ pre)) ≠ detectDirection atan2 smooth
          then (top :: post ++ pre).reverse else top :: post ++ pre).Perm lap := by
      rw [e1]
      split_ifs
      · exact (List.reverse_perm _).trans List.perm_append_comm
      · exact List.perm_append_comm
    rw [e2] at hs
    generalize hidx : (if detectDirection atan2
          (sel smooth (top :: post ++ pre)) ≠ detectDirection atan2 smooth
          then (top :: post ++ pre).reverse else top :: post ++ pre) = idx' at hs hp
    have hin : InRange smooth.length idx' := fun i hi => ((h4 i).1 (hp.mem_iff.1 hi)).1
    simp only [take_eq hin, pure, Except.pure, Except.ok.injEq, Prod.mk.injEq] at hs
    obtain ⟨rfl, rfl⟩ := hs
    have hne : idx' ≠ [] := List.ne_nil_of_mem (hp.mem_iff.2 htop)
    have hsl := sel_length hin
    have hsne : sel smooth idx' ≠ [] := by
      rw [← List.length_pos_iff_ne_nil, hsl]
      exact List.length_pos_of_ne_nil hne
    refine ⟨hp.nodup_iff.2 h3, hne, fun i hi => hl ▸ hin i hi, ?_, ?_⟩
    · rw [lengthsFromXyz_length nrm hsne, hsl]
    · exact C13_arc_lengths_are_travelled_distance nrm _ hsne
  · rw [h5 htop] at hs
    cases hs

/-- **C48**, positive part: whenever the spatial sort returns, the highest sample is the first one
of the lap, or – exactly if the direction of travel had to be corrected – the last one.
Missing for the full property: the second case, in which it is false. -/
theorem C48_highest_point_at_an_end_partial {tl : TreeLib K} {nrm : V3 K → K}
    (nn : List (V3 K) → V3 K → Nat × Nat) (atan2 : K → K → K) {xyz : List (V3 K)}
    (ht : TreeOk tl xyz) {edges : List (Nat × Nat)} (he : tl.triangulate xyz = .ok edges) (d : Bool)
    {idx : List Nat} (hs : sortPoints tl nrm nn atan2 xyz d = .ok idx) :
    ∃ top, IsHighest xyz top ∧
      ((detectDirection atan2 (idx.filterMap (fun i => xyz[i]?)) = detectDirection atan2 xyz ∧
          idx.head? = some top) ∨ idx.getLast? = some top) := by
  obtain ⟨lap, top, pre, post, _, h2, h3, h4, h5, h6⟩ := sortPoints_spec (nrm := nrm) nn atan2 ht he d
  by_cases htop : top ∈ lap
  · obtain ⟨e1, e2⟩ := h6 htop
    rw [e2] at hs
    refine ⟨top, h2, ?_⟩
    split_ifs at hs with hc
    · right
      rw [← Except.ok.inj hs]
      simp
    · left
      push Not at hc
      rw [← Except.ok.inj hs]
      exact ⟨hc, by simp⟩
  · rw [h5 htop] at hs
    cases hs

/-- **C49** -/
theorem C49_begin_with (idx : List Nat) (begin : Nat) :
    (begin ∉ idx → beginWith idx begin = .error .valueError) ∧
    (begin ∈ idx → ∃ pre post, idx = pre ++ begin :: post ∧ begin ∉ pre ∧
      beginWith idx begin = .ok (begin :: post ++ pre)) := by
  refine ⟨fun h => by simp [beginWith, h], fun h => beginWith_spec h⟩

/-- **C50**: whatever the neighbour search answers, after inserting the missing points the
coordinates are those of the indices, entry by entry, the indices are the old ones and the missing
ones, and the old ones are still in their order. -/
theorem C50_insertion_keeps_alignment (nn : List (V3 K) → V3 K → Nat × Nat) (xyz : List (V3 K))
    (missing : List (Nat × V3 K)) (hm : ∀ m ∈ missing, xyz[m.1]? = some m.2)
    (idx : List Nat) (sorted : List (V3 K)) (hl : sorted.length = idx.length)
    (hal : ∀ (k i : Nat) (p : V3 K), idx[k]? = some i → sorted[k]? = some p → xyz[i]? = some p)
    {idx' : List Nat} {sorted' : List (V3 K)}
    (hins : insertPoints nn missing idx sorted = (idx', sorted')) :
    sorted'.length = idx'.length ∧
    (∀ (k i : Nat) (p : V3 K), idx'[k]? = some i → sorted'[k]? = some p → xyz[i]? = some p) ∧
    idx'.Perm (missing.map Prod.fst ++ idx) ∧ idx.Sublist idx' := by
  have hin : InRange xyz.length idx := by
    intro i hi
    obtain ⟨k, hk, rfl⟩ := List.getElem_of_mem hi
    have := hal k _ _ (List.getElem?_eq_getElem hk) (List.getElem?_eq_getElem (by omega))
    exact (List.getElem?_eq_some_iff.1 this).1
  have hsorted : sorted = sel xyz idx := by
    apply List.ext_getElem?
    intro k
    rw [sel_getElem? hin]
    by_cases hk : k < idx.length
    · rw [List.getElem?_eq_getElem hk, List.getElem?_eq_getElem (by omega), Option.bind_some]
      exact (hal k _ _ (List.getElem?_eq_getElem hk) (List.getElem?_eq_getElem (by omega))).symm
    · rw [List.getElem?_eq_none (by omega), List.getElem?_eq_none (by omega)]
      rfl
  subst hsorted
  obtain ⟨idx'', e1, e2, e3, e4⟩ := insertPoints_spec nn xyz missing hm idx hin
  rw [e1] at hins
  obtain ⟨rfl, rfl⟩ := Prod.mk.inj hins
  refine ⟨sel_length e2, ?_, e4, e3⟩
  intro k i p hk hp
  rw [sel_getElem? e2, hk] at hp
  exact hp

/-! ### C51 -/

theorem diffs_reverse (l : List K) : diffs l.reverse = ((diffs l).map (fun x => -x)).reverse := by
  unfold diffs
  rw [List.tail_reverse, List.dropLast_reverse, ← List.reverse_zipWith (by simp), List.map_zipWith]
  congr 1
  rw [List.zipWith_comm]
  congr 1
  funext a b
  ring

theorem signInt_neg (i : Int) : signInt (-i) = - signInt i := by
  unfold signInt
  split_ifs <;> omega

/-- **C51** -/
theorem C51_direction_of_reversed_path (atan2 : K → K → K) (xyz : List (V3 K)) :
    detectDirection atan2 xyz.reverse = - detectDirection atan2 xyz := by
  unfold detectDirection
  simp only [List.map_reverse, diffs_reverse, List.countP_reverse, List.countP_map]
  have e1 : ((fun d : K => decide (0 < d)) ∘ fun x => -x) = fun d => decide (d < 0) := by
    funext d
    simp
  have e2 : ((fun d : K => decide (d < 0)) ∘ fun x => -x) = fun d => decide (0 < d) := by
    funext d
    simp
  rw [e1, e2, ← signInt_neg]
  congr 1
  omega

/-! ### C128 -/

theorem signInt_cases (i : Int) : signInt i = -1 ∨ signInt i = 0 ∨ signInt i = 1 := by
  unfold signInt
  split_ifs <;> simp

/-- **C128**: the spatial sort never runs against the input: whenever the given points and the points in the order
returned both have a direction (more increasing than decreasing polar angles, or fewer), it is the same one. -/
theorem C128_sort_keeps_direction {tl : TreeLib K} {nrm : V3 K → K}
    (nn : List (V3 K) → V3 K → Nat × Nat) (atan2 : K → K → K) {xyz : List (V3 K)}
    (ht : TreeOk tl xyz) {edges : List (Nat × Nat)} (he : tl.triangulate xyz = .ok edges) (d : Bool)
    {idx : List Nat} (hs : sortPoints tl nrm nn atan2 xyz d = .ok idx)
    (hin : detectDirection atan2 xyz ≠ 0) (hout : detectDirection atan2 (idx.filterMap (fun i => xyz[i]?)) ≠ 0) :
    detectDirection atan2 (idx.filterMap (fun i => xyz[i]?)) = detectDirection atan2 xyz := by
  obtain ⟨lap, top, pre, post, _, h2, h3, h4, h5, h6⟩ := sortPoints_spec (nrm := nrm) nn atan2 ht he d
  by_cases htop : top ∈ lap
  · obtain ⟨-, e2⟩ := h6 htop
    rw [e2] at hs
    split_ifs at hs with hc
    · rw [← Except.ok.inj hs] at hout ⊢
      rw [List.filterMap_reverse, C51_direction_of_reversed_path] at hout ⊢
      change detectDirection atan2 (List.filterMap (fun i => xyz[i]?) (top :: post ++ pre)) ≠ detectDirection atan2 xyz at hc
      have h7 : ∀ l : List (V3 K), detectDirection atan2 l = -1 ∨ detectDirection atan2 l = 0 ∨ detectDirection atan2 l = 1 :=
        fun l => signInt_cases _
      rcases h7 xyz with h | h | h <;>
        rcases h7 (List.filterMap (fun i => xyz[i]?) (top :: post ++ pre)) with g | g | g <;> omega
    · push Not at hc
      rw [← Except.ok.inj hs]
      exact hc
  · rw [h5 htop] at hs
    cases hs

/-! ### Non-vacuity, and the counterexample to C48 -/

/-- three points on an arc around the origin, the last one is the highest -/
def exArcPts (K : Type) [Field K] : List (V3 K) := [⟨1, 0, 0⟩, ⟨2, 1, 0⟩, ⟨1, 2, 5⟩]

/-- the path `0 – 1 – 2` -/
def exTree : Graph := ⟨3, fun u => if u = 0 then [1] else if u = 1 then [0, 2] else if u = 2 then [1] else []⟩

/-- third-party answers for a triangle -/
def exTreeLib (K : Type) : TreeLib K := ⟨fun _ => .ok [(0, 1), (1, 2), (0, 2)], fun _ _ => exTree⟩

theorem exTree_acyclic : exTree.simple.IsAcyclic := by
  have hd : DecidableRel exTree.simple.Adj := fun u v =>
    inferInstanceAs (Decidable (u ≠ v ∧ (v.1 ∈ exTree.adj u.1 ∧ u.1 ∈ exTree.adj v.1)))
  intro v c hc
  have h3 := hc.three_le_length
  have hl := hc.support_nodup
  have hlen : c.support.tail.length = c.length := by simp
  have hmem : ∀ x : Fin exTree.n, x ∈ c.support.tail := by
    have hle : c.support.tail.length = Fintype.card (Fin exTree.n) := by
      apply le_antisymm hl.length_le_card
      rw [hlen, Fintype.card_fin]
      exact h3
    have hf : c.support.tail.toFinset = Finset.univ := by
      apply Finset.eq_univ_of_card
      rw [List.toFinset_card_of_nodup hl, hle]
    intro x
    have := Finset.mem_univ x
    rw [← hf] at this
    exact List.mem_toFinset.1 this
  have h0 : (⟨0, by decide⟩ : Fin exTree.n) ∈ c.support := List.mem_of_mem_tail (hmem _)
  have hcr := hc.rotate h0
  generalize c.rotate _ h0 = c' at hcr
  cases c' with
  | nil => simp at hcr
  | cons hadj p =>
    have h := hcr.snd_ne_penultimate
    have e1 := SimpleGraph.Walk.adj_snd (p := .cons hadj p) hcr.not_nil
    have e2 := SimpleGraph.Walk.adj_penultimate (p := .cons hadj p) hcr.not_nil
    have key : ∀ x : Fin exTree.n, exTree.simple.Adj ⟨0, by decide⟩ x → x = ⟨1, by decide⟩ := by
      rintro x ⟨_, hx, _⟩
      have : x.1 = 1 := by simpa [exTree] using hx
      exact Fin.ext this
    exact h ((key _ e1).trans (key _ e2.symm).symm)

theorem exTreeLib_ok : TreeOk (exTreeLib K) (exArcPts K) := by
  have r01 : Reach exTree 0 1 := Relation.ReflTransGen.single (by decide)
  have r12 : Reach exTree 1 2 := Relation.ReflTransGen.single (by decide)
  constructor
  · intro edges he
    obtain rfl := (Except.ok.inj he : [(0, 1), (1, 2), (0, 2)] = edges)
    refine ⟨by simp, by simp [exArcPts], ?_⟩
    have hT : ∀ i, Touched [(0, 1), (1, 2), (0, 2)] i → i = 0 ∨ i = 1 ∨ i = 2 := by
      rintro i ⟨e, he, hi⟩
      simp only [List.mem_cons, List.not_mem_nil, or_false] at he
      rcases he with rfl | rfl | rfl <;> simp only at hi <;> omega
    intro i j hi hj
    rcases hT i hi with rfl | rfl | rfl <;> rcases hT j hj with rfl | rfl | rfl <;>
      first
        | exact Relation.ReflTransGen.refl
        | exact Relation.ReflTransGen.single (by decide)
  · intro edges w he hw
    obtain rfl := (Except.ok.inj he : [(0, 1), (1, 2), (0, 2)] = edges)
    have hadj : ∀ u v, v ∈ exTree.adj u → (u = 0 ∧ v = 1) ∨ (u = 1 ∧ (v = 0 ∨ v = 2)) ∨ (u = 2 ∧ v = 1) := by
      intro u v h
      simp only [exTree] at h
      split_ifs at h with h0 h1 h2 <;> simp at h <;> tauto
    refine ⟨⟨?_, ?_, ?_, ?_⟩, rfl, ?_, ?_, exTree_acyclic⟩
    · intro u v h
      have e : exTree.n = 3 := rfl
      have := hadj u v h
      change u < exTree.n ∧ v < exTree.n
      omega
    · intro u v h
      change v ∈ exTree.adj u at h
      change u ∈ exTree.adj v
      rcases hadj u v h with ⟨rfl, rfl⟩ | ⟨rfl, rfl | rfl⟩ | ⟨rfl, rfl⟩ <;> decide
    · intro u h
      have := hadj u u h
      omega
    · intro u
      change (exTree.adj u).Nodup
      simp only [exTree]
      split_ifs <;> decide
    · intro u v h
      change v ∈ exTree.adj u at h
      rcases hadj u v h with ⟨rfl, rfl⟩ | ⟨rfl, rfl | rfl⟩ | ⟨rfl, rfl⟩ <;> decide
    · intro u v h
      change Reach exTree u v
      simp only [List.mem_cons, Prod.mk.injEq, List.not_mem_nil, or_false] at h
      rcases h with ⟨rfl, rfl⟩ | ⟨rfl, rfl⟩ | ⟨rfl, rfl⟩
      · exact r01
      · exact r12
      · exact r01.trans r12

example : (exTreeLib ℚ).triangulate (exArcPts ℚ) = .ok [(0, 1), (1, 2), (0, 2)] := rfl
example : IsHighest (exArcPts ℚ) 2 := ⟨⟨1, 2, 5⟩, rfl, by decide, by
  intro j q hj hq
  have : j = 0 ∨ j = 1 := by omega
  rcases this with rfl | rfl <;> · obtain rfl := Option.some.inj hq; decide⟩

/-- **C48**, the counterexample: for every angle function that grows with `y/x` in the half plane
`x > 0`, as `arctan2` does, the lap over `exArcPts` ends with the highest point instead of starting
with it. -/
theorem C48_highest_point_first_fails (nrm : V3 K → K) (nn : List (V3 K) → V3 K → Nat × Nat)
    (atan2 : K → K → K)
    (hmono : ∀ y x y' x', 0 < x → 0 < x' → y / x < y' / x' → atan2 y x < atan2 y' x') :
    TreeOk (exTreeLib K) (exArcPts K) ∧ IsHighest (exArcPts K) 2 ∧
      sortPoints (exTreeLib K) nrm nn atan2 (exArcPts K) true = .ok [1, 0, 2] := by
  refine ⟨exTreeLib_ok, ⟨⟨1, 2, 5⟩, rfl, ?_, ?_⟩, ?_⟩
  · intro q hq
    simp only [exArcPts, List.mem_cons, List.not_mem_nil, or_false] at hq
    rcases hq with rfl | rfl | rfl <;> simp
  · intro j q hj hq
    have : j = 0 ∨ j = 1 := by omega
    rcases this with rfl | rfl <;> · obtain rfl := Option.some.inj hq; simp
  · have h1 : atan2 0 1 < atan2 1 2 := hmono _ _ _ _ one_pos two_pos (by norm_num)
    have h2 : atan2 1 2 < atan2 2 1 := hmono _ _ _ _ two_pos one_pos (by norm_num)
    have h3 : atan2 0 1 < atan2 2 1 := h1.trans h2
    have hmst : mstSorting exTree = .ok [0, 1, 2] := by decide +kernel
    have hlap : lapOrder (exTreeLib K) nrm nn (exArcPts K) true = .ok [0, 1, 2] := by
      unfold lapOrder
      obtain ⟨g, m, hc, -⟩ := computeMst_spec (nrm := nrm) (exTreeLib_ok (K := K)) rfl
      have hg : g = exTree := by
        simp only [computeMst, exTreeLib, bind, Except.bind, pure, Except.pure] at hc
        split at hc
        · cases hc
        · split at hc
          · cases hc
          · exact (Prod.mk.inj (Except.ok.inj hc)).1.symm
      subst hg
      simp only [hc, hmst, bind, Except.bind]
      simp [pure, Except.pure]
    have hmax : argmax ((exArcPts K).map V3.z) = .ok 2 := by
      have h5 : ¬ (5 : K) ≤ 0 := by norm_num
      simp [argmax, exArcPts, List.findIdx_cons, h5]
    have hdir : detectDirection atan2 (exArcPts K) = 1 := by
      simp [detectDirection, exArcPts, diffs, h1, h2, h1.le, h2.le, signInt]
    have hdir' : detectDirection atan2 [(⟨1, 2, 5⟩ : V3 K), ⟨1, 0, 0⟩, ⟨2, 1, 0⟩] = 0 := by
      simp [detectDirection, diffs, h1, h3, h1.le, h3.le, signInt]
    have htake : Traj.take (exArcPts K) [2, 0, 1] = .ok [⟨1, 2, 5⟩, ⟨1, 0, 0⟩, ⟨2, 1, 0⟩] := rfl
    have hb : beginWith [0, 1, 2] 2 = .ok [2, 0, 1] := by decide +kernel
    rw [sortPoints_eq]
    simp only [hlap, hmax, hb, htake, bind, Except.bind, hdir, hdir']
    rfl

example : beginWith [4, 1, 7, 2] 7 = .ok [7, 2, 4, 1] := by decide +kernel
example : beginWith [4, 1] 7 = .error .valueError := by decide +kernel
example : insertPoints (fun _ _ => (0, 1)) [(2, (⟨1, 2, 5⟩ : V3 ℚ))] [0, 1] [⟨1, 0, 0⟩, ⟨2, 1, 0⟩]
    = ([0, 2, 1], [⟨1, 0, 0⟩, ⟨1, 2, 5⟩, ⟨2, 1, 0⟩]) := by decide +kernel
example : detectDirection (fun y x => y / x) (exArcPts ℚ) = 1 := by decide +kernel
example : sortPoints (exTreeLib ℚ) (fun v => v.x) (fun _ _ => (0, 1)) (fun y x => y / x)
    (exArcPts ℚ) false = .ok [1, 0, 2] := by decide +kernel
/-- both directions exist, and the order had to be reversed -/
example : sortPoints (exTreeLib ℚ) (fun v => v.x) (fun _ _ => (0, 1)) (fun y _ => if y ≤ 1 then (0:ℚ) else 1)
      (exArcPts ℚ) false = .ok [1, 0, 2] ∧ detectDirection (fun y _ => if y ≤ 1 then (0:ℚ) else 1) (exArcPts ℚ) = 1 ∧
    detectDirection (fun y _ => if y ≤ 1 then (0:ℚ) else 1)
      (([1, 0, 2] : List Nat).filterMap (fun i => (exArcPts ℚ)[i]?)) = 1 := by
  decide +kernel
example : ∃ arcs, sortMls (exTreeLib ℚ) (fun v => abs v.x) (fun _ _ => (0, 1)) (fun y x => y / x) .ok true
    (exArcPts ℚ) = .ok ([1, 0, 2], arcs) := ⟨[0, 1, 1], by decide +kernel⟩

end TC
