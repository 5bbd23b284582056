import Verif.Spec.Mls
import Verif.Proofs.Voxel
import Verif.Proofs.Index
import Verif.Props.MatchLine
import Verif.Props.Sorting
/-!
# C54, C55: iterated smoothing and its cache
-/
namespace TC
set_option linter.unusedSectionVars false
variable {K : Type} [Field K] [LinearOrder K] [IsStrictOrderedRing K] [FloorRing K]

/-! ### A line does not depend on the order of the voxels -/

/-- the points of one voxel -/
def ptsOf (vs : List (Voxel K)) (id : VoxelId) : Option (List (V3 K)) :=
  (vs.find? (fun v => decide (v.id = id))).map Voxel.points

theorem pointsFromVoxelSet_eq (vs : List (Voxel K)) (ids : List VoxelId) :
    pointsFromVoxelSet vs ids = if ∀ id ∈ ids, (ptsOf vs id).isSome then
      .ok (ids.flatMap (fun id => (ptsOf vs id).getD [])) else .error .keyError := by
  induction ids with
  | nil => simp [pointsFromVoxelSet]
  | cons id ids ih =>
    unfold pointsFromVoxelSet
    cases h : vs.find? (fun v => decide (v.id = id)) with
    | none =>
      have : ptsOf vs id = none := by simp only [ptsOf, h, Option.map_none]
      simp [this]
    | some v =>
      have hp : ptsOf vs id = some v.points := by simp only [ptsOf, h, Option.map_some]
      simp only [ih, List.forall_mem_cons, hp, Option.isSome_some, true_and, bind, Except.bind]
      split_ifs
      · simp [hp, pure, Except.pure]
      · rfl

theorem meanPoint_perm {l l' : List (V3 K)} (h : l.Perm l') : meanPoint l = meanPoint l' := by
  unfold meanPoint
  rw [h.length_eq, h.sum_eq]

theorem lineApproximator_perm {lib : MlsLib K} (hl : MlsLibOk lib) (vs : List (Voxel K))
    {a b : List VoxelId} (h : a.Perm b) : lineApproximator lib vs a = lineApproximator lib vs b := by
  unfold lineApproximator
  have hp : (a.flatMap (fun id => (ptsOf vs id).getD [])).Perm
      (b.flatMap (fun id => (ptsOf vs id).getD [])) := h.flatMap_right _
  have hc : (∀ id ∈ a, (ptsOf vs id).isSome) ↔ ∀ id ∈ b, (ptsOf vs id).isSome :=
    ⟨fun H i hi => H i (h.mem_iff.2 hi), fun H i hi => H i (h.mem_iff.1 hi)⟩
  rw [pointsFromVoxelSet_eq, pointsFromVoxelSet_eq]
  by_cases hb : ∀ id ∈ b, (ptsOf vs id).isSome
  · rw [if_pos (hc.2 hb), if_pos hb]
    simp only [bind, Except.bind, pure, Except.pure, hp.length_eq, Line3D.fromPoints,
      meanPoint_perm hp, hl.dir _ _ hp]
  · rw [if_neg (fun H => hb (hc.1 H)), if_neg hb]

/-! ### The cache -/

/-- every stored line is the one that would be computed -/
def CacheOk (lib : MlsLib K) (c : MlsCache K) : Prop :=
  ∀ e ∈ c.entries, e.2.1.Nodup ∧ ∃ vs, c.voxelizers[e.1]? = some vs ∧
    lineApproximator lib vs e.2.1 = .ok e.2.2

theorem sameSet_perm {a b : List VoxelId} (ha : a.Nodup) (hb : b.Nodup) (h : sameSet a b = true) :
    a.Perm b := by
  simp only [sameSet, Bool.and_eq_true, List.all_eq_true, decide_eq_true_eq] at h
  exact (List.perm_ext_iff_of_nodup ha hb).2 (fun i => ⟨h.1 i, h.2 i⟩)

theorem cachedLine_spec {lib : MlsLib K} (hl : MlsLibOk lib) {c : MlsCache K} (hc : CacheOk lib c)
    {ref : Nat} {vs : List (Voxel K)} (hv : c.voxelizers[ref]? = some vs) {set : List VoxelId}
    (hs : set.Nodup) :
    ∃ c', cachedLine lib ref set c = (lineApproximator lib vs set, c') ∧ CacheOk lib c' ∧
      c'.voxelizers = c.voxelizers := by
  have hrd : npGet c.voxelizers (ref : Int) = .ok vs := by
    obtain ⟨hlt, rfl⟩ := List.getElem?_eq_some_iff.1 hv
    rw [npGet_nat hlt]
  cases hf : c.entries.find? (fun e => decide (e.1 = ref) && sameSet e.2.1 set) with
  | some e =>
    refine ⟨c, ?_, hc, rfl⟩
    have hp := List.find?_some hf
    simp only [Bool.and_eq_true, decide_eq_true_eq] at hp
    obtain ⟨h1, vs', h2, h3⟩ := hc e (List.mem_of_find?_eq_some hf)
    rw [hp.1, hv] at h2
    obtain rfl := Option.some.inj h2
    rw [← lineApproximator_perm hl vs (sameSet_perm h1 hs hp.2), h3]
    unfold cachedLine
    rw [SE.run_bind_ok (SE.run_get c)]
    simp only [hf]
    rfl
  | none =>
    cases hla : lineApproximator lib vs set with
    | error e =>
      refine ⟨c, ?_, hc, rfl⟩
      unfold cachedLine
      rw [SE.run_bind_ok (SE.run_get c)]
      simp only [hf]
      rw [SE.run_bind_ok (by rw [SE.run_lift, hrd]), SE.run_bind_error (by rw [SE.run_lift, hla])]
    | ok line =>
      refine ⟨{ c with entries := c.entries ++ [(ref, set, line)] }, ?_, ?_, rfl⟩
      · unfold cachedLine
        rw [SE.run_bind_ok (SE.run_get c)]
        simp only [hf]
        rw [SE.run_bind_ok (by rw [SE.run_lift, hrd]), SE.run_bind_ok (by rw [SE.run_lift, hla]),
          SE.run_bind_ok (SE.run_modify _ _)]
        rfl
      · intro e he
        rcases List.mem_append.1 he with he | he
        · exact hc e he
        · rw [List.mem_singleton] at he
          subst he
          exact ⟨hs, vs, hv, hla⟩

theorem mlsPoints_spec {lib : MlsLib K} (hl : MlsLibOk lib) {ref : Nat} {vs : List (Voxel K)}
    (ps : List (V3 K)) (sets : List (List VoxelId)) (hs : ∀ s ∈ sets, s.Nodup)
    {c : MlsCache K} (hc : CacheOk lib c) (hv : c.voxelizers[ref]? = some vs) :
    ∃ c', mlsPoints lib ref ps sets c = (freshPoints lib vs ps sets, c') ∧ CacheOk lib c' ∧
      c'.voxelizers = c.voxelizers := by
  induction ps generalizing sets c with
  | nil => exact ⟨c, by cases sets <;> rfl, hc, rfl⟩
  | cons p ps ih =>
    cases sets with
    | nil => exact ⟨c, rfl, hc, rfl⟩
    | cons s sets =>
      obtain ⟨c1, h1, h2, h3⟩ := cachedLine_spec hl hc hv (hs s (by simp))
      unfold mlsPoints freshPoints
      cases hla : lineApproximator lib vs s with
      | error e =>
        rw [hla] at h1
        exact ⟨c1, by rw [SE.run_bind_error h1]; rfl, h2, h3⟩
      | ok line =>
        rw [hla] at h1
        obtain ⟨c2, k1, k2, k3⟩ := ih sets (fun s hs' => hs s (List.mem_cons_of_mem _ hs')) h2
          (h3 ▸ hv)
        refine ⟨c2, ?_, k2, k3.trans h3⟩
        rw [SE.run_bind_ok h1]
        cases hfp : freshPoints lib vs ps sets with
        | error e =>
          rw [hfp] at k1
          rw [SE.run_bind_error k1]
          rfl
        | ok rest =>
          rw [hfp] at k1
          rw [SE.run_bind_ok k1]
          rfl

theorem idRows_nodup {lib : MlsLib K} (hl : MlsLibOk lib) (vs : List (Voxel K))
    (cs : List (List (Option Nat))) {sets : List (List VoxelId)} (h : idRows lib vs cs = .ok sets) :
    (∀ s ∈ sets, s.Nodup) ∧ sets.length = cs.length := by
  induction cs generalizing sets with
  | nil =>
    obtain rfl := Except.ok.inj h
    simp
  | cons c cs ih =>
    unfold idRows at h
    cases hi : idsOf vs c with
    | error e => simp [hi, bind, Except.bind] at h
    | ok ids =>
      cases hr : idRows lib vs cs with
      | error e => simp [hi, hr, bind, Except.bind] at h
      | ok rest =>
        simp only [hi, hr, bind, Except.bind, pure, Except.pure, Except.ok.injEq] at h
        subst h
        obtain ⟨h1, h2⟩ := ih hr
        refine ⟨?_, by simp [h2]⟩
        intro s hs
        rcases List.mem_cons.1 hs with rfl | hs
        · exact hl.frozen_nodup _
        · exact h1 s hs

theorem kNearestQuery_spec {lib : MlsLib K} (hl : MlsLibOk lib) {vs : List (Voxel K)}
    {xyz : List (V3 K)} {k : Nat} {sets : List (List VoxelId)}
    (h : kNearestQuery lib vs xyz k = .ok sets) :
    (∀ s ∈ sets, s.Nodup) ∧ sets.length = xyz.length := by
  unfold kNearestQuery at h
  simp only [bind, Except.bind] at h
  have h' : idRows lib vs (lib.query (vs.map (fun v => meanPoint v.points)) none k xyz) = .ok sets := by
    split_ifs at h; exact h
  obtain ⟨h1, h2⟩ := idRows_nodup hl vs _ h'
  exact ⟨h1, h2.trans (hl.rows _ _ _ _)⟩

theorem CacheOk.addVoxelizer {lib : MlsLib K} {c : MlsCache K} (hc : CacheOk lib c)
    (vs : List (Voxel K)) : CacheOk lib { c with voxelizers := c.voxelizers ++ [vs] } := by
  intro e he
  obtain ⟨h1, ws, h2, h3⟩ := hc e he
  refine ⟨h1, ws, ?_, h3⟩
  rw [List.getElem?_append_left (List.getElem?_eq_some_iff.1 h2).1]
  exact h2

theorem mlsSingle_spec {lib : MlsLib K} (hl : MlsLibOk lib) {c : MlsCache K} (hc : CacheOk lib c)
    (size : K) (k : Nat) (xyz : List (V3 K)) :
    ∃ c', mlsSingle lib size k xyz c = (freshPass lib size k xyz, c') ∧ CacheOk lib c' := by
  unfold mlsSingle freshPass
  cases hv : createVoxels xyz size with
  | error e => exact ⟨c, by rw [SE.run_bind_error (by rw [SE.run_lift])]; rfl, hc⟩
  | ok vs =>
    rw [SE.run_bind_ok (by rw [SE.run_lift]), SE.run_bind_ok (SE.run_get c),
      SE.run_bind_ok (SE.run_modify _ _)]
    have hc' := hc.addVoxelizer vs
    cases hq : kNearestQuery lib vs xyz k with
    | error e => exact ⟨_, by rw [SE.run_bind_error (by rw [SE.run_lift])]; simp only [bind, Except.bind, hq], hc'⟩
    | ok sets =>
      rw [SE.run_bind_ok (by rw [SE.run_lift])]
      obtain ⟨c', h1, h2, -⟩ := mlsPoints_spec hl (ref := c.voxelizers.length) (vs := vs) xyz sets
        (kNearestQuery_spec hl hq).1 hc' (by simp)
      refine ⟨c', ?_, h2⟩
      cases hf : freshPoints lib vs xyz sets with
      | error e =>
        rw [hf] at h1
        rw [SE.run_bind_error h1]
        simp only [bind, Except.bind, hq, hf]
      | ok moved =>
        rw [hf] at h1
        rw [SE.run_bind_ok h1]
        simp only [bind, Except.bind, hq, hf]
        rfl

/-- the loop without cache -/
def freshLoop (lib : MlsLib K) (size : K) (k : Nat) (threshold : K) :
    Nat → List (V3 K) → Except Err (List (V3 K))
  | 0, xyz => .ok xyz
  | n + 1, xyz => do
    let r ← freshPass lib size k xyz
    if n = 0 then return r.1
    else if r.2 > threshold then freshLoop lib size k threshold n r.1
    else return r.1

theorem mlsLoop_spec {lib : MlsLib K} (hl : MlsLibOk lib) (size : K) (k : Nat) (threshold : K)
    (n : Nat) (xyz : List (V3 K)) {c : MlsCache K} (hc : CacheOk lib c) :
    ∃ c', mlsLoop lib size k threshold n xyz c = (freshLoop lib size k threshold n xyz, c') ∧
      CacheOk lib c' := by
  induction n generalizing xyz c with
  | zero => exact ⟨c, rfl, hc⟩
  | succ n ih =>
    obtain ⟨c1, h1, h2⟩ := mlsSingle_spec hl hc size k xyz
    unfold mlsLoop freshLoop
    cases hp : freshPass lib size k xyz with
    | error e =>
      rw [hp] at h1
      exact ⟨c1, by rw [SE.run_bind_error h1]; rfl, h2⟩
    | ok r =>
      rw [hp] at h1
      rw [SE.run_bind_ok h1]
      by_cases hn : n = 0
      · simp only [hn, if_true]
        exact ⟨c1, rfl, h2⟩
      · by_cases ht : r.2 > threshold
        · obtain ⟨c2, k1, k2⟩ := ih r.1 h2
          refine ⟨c2, ?_, k2⟩
          simp only [bind, Except.bind, hn, ht, if_true, if_false]
          exact k1
        · simp only [bind, Except.bind, hn, ht, if_false]
          exact ⟨c1, rfl, h2⟩

theorem cacheAfter_ok {lib : MlsLib K} (hl : MlsLibOk lib) (cs : List (MlsCall K)) :
    CacheOk lib (cacheAfter lib cs) := by
  induction cs with
  | nil => intro e he; simp [cacheAfter] at he
  | cons c cs ih =>
    obtain ⟨c', h1, h2⟩ := mlsLoop_spec hl c.size c.k c.threshold 10 c.xyz ih
    unfold cacheAfter mlsIterative
    rw [h1]
    exact h2

/-- **C55**, one pass: after any history of calls, a pass gives the points and the movement – or the
exception – that it gives when every line is computed anew. -/
theorem C55_cache_does_not_change_a_pass {lib : MlsLib K} (hl : MlsLibOk lib)
    (history : List (MlsCall K)) (size : K) (k : Nat) (xyz : List (V3 K)) :
    (mlsSingle lib size k xyz (cacheAfter lib history)).1 = freshPass lib size k xyz := by
  obtain ⟨c', h, -⟩ := mlsSingle_spec hl (cacheAfter_ok hl history) size k xyz
  rw [h]

/-- **C55**, the whole smoothing: its result does not depend on the calls made before. -/
theorem C55_history_does_not_matter {lib : MlsLib K} (hl : MlsLibOk lib)
    (history history' : List (MlsCall K)) (size : K) (k : Nat) (threshold : K) (xyz : List (V3 K)) :
    (mlsIterative lib size k threshold xyz (cacheAfter lib history)).1 =
      (mlsIterative lib size k threshold xyz (cacheAfter lib history')).1 := by
  obtain ⟨c1, h1, -⟩ := mlsLoop_spec hl size k threshold 10 xyz (cacheAfter_ok hl history)
  obtain ⟨c2, h2, -⟩ := mlsLoop_spec hl size k threshold 10 xyz (cacheAfter_ok hl history')
  unfold mlsIterative
  rw [h1, h2]

/-! ### C54 -/

theorem freshPoints_length {lib : MlsLib K} {vs : List (Voxel K)} (ps : List (V3 K))
    (sets : List (List VoxelId)) (hlen : sets.length = ps.length) {out : List (V3 K)}
    (h : freshPoints lib vs ps sets = .ok out) : out.length = ps.length := by
  induction ps generalizing sets out with
  | nil =>
    cases sets <;> (simp only [freshPoints, Except.ok.injEq] at h; subst h; rfl)
  | cons p ps ih =>
    cases sets with
    | nil => simp at hlen
    | cons s sets =>
      unfold freshPoints at h
      cases h1 : lineApproximator lib vs s with
      | error e => simp [h1, bind, Except.bind] at h
      | ok line =>
        cases h2 : freshPoints lib vs ps sets with
        | error e => simp [h1, h2, bind, Except.bind] at h
        | ok rest =>
          simp only [h1, h2, bind, Except.bind, pure, Except.pure, Except.ok.injEq] at h
          subst h
          simp [ih sets (by simpa using hlen) h2]

theorem freshPass_length {lib : MlsLib K} (hl : MlsLibOk lib) {size : K} {k : Nat}
    {xyz out : List (V3 K)} {mv : K} (h : freshPass lib size k xyz = .ok (out, mv)) :
    out.length = xyz.length := by
  unfold freshPass at h
  cases h1 : createVoxels xyz size with
  | error e => simp [h1, bind, Except.bind] at h
  | ok vs =>
    cases h2 : kNearestQuery lib vs xyz k with
    | error e => simp [h1, h2, bind, Except.bind] at h
    | ok sets =>
      cases h3 : freshPoints lib vs xyz sets with
      | error e => simp [h1, h2, h3, bind, Except.bind] at h
      | ok moved =>
        simp only [h1, h2, h3, bind, Except.bind, pure, Except.pure, Except.ok.injEq,
          Prod.mk.injEq] at h
        rw [← h.1]
        exact freshPoints_length xyz sets (kNearestQuery_spec hl h2).2 h3

theorem freshLoop_spec {lib : MlsLib K} {size : K} {k : Nat} {threshold : K} (n : Nat)
    {xyz out : List (V3 K)} (h : freshLoop lib size k threshold (n + 1) xyz = .ok out) :
    ∃ (m : Nat) (x : Nat → List (V3 K)) (mv : Nat → K), 1 ≤ m ∧ m ≤ n + 1 ∧ x 0 = xyz ∧ x m = out ∧
      (∀ j, j < m → freshPass lib size k (x j) = .ok (x (j + 1), mv j)) ∧
      (∀ j, j + 1 < m → threshold < mv j) ∧ (m = n + 1 ∨ mv (m - 1) ≤ threshold) := by
  induction n generalizing xyz with
  | zero =>
    unfold freshLoop at h
    cases hp : freshPass lib size k xyz with
    | error e => simp [hp, bind, Except.bind] at h
    | ok r =>
      simp only [hp, bind, Except.bind, if_true, pure, Except.pure, Except.ok.injEq] at h
      subst h
      refine ⟨1, fun j => if j = 0 then xyz else r.1, fun _ => r.2, le_refl _, le_refl _, rfl, rfl, ?_,
        fun j hj => by omega, Or.inl rfl⟩
      intro j hj
      obtain rfl : j = 0 := by omega
      exact hp
  | succ n ih =>
    rw [freshLoop] at h
    cases hp : freshPass lib size k xyz with
    | error e => simp [hp, bind, Except.bind] at h
    | ok r =>
      simp only [hp, bind, Except.bind, Nat.add_eq_zero_iff, one_ne_zero, and_false, if_false] at h
      by_cases ht : r.2 > threshold
      · rw [if_pos ht] at h
        obtain ⟨m, x, mv, h1, h2, h3, h4, h5, h6, h7⟩ := ih h
        refine ⟨m + 1, fun j => if j = 0 then xyz else x (j - 1),
          fun j => if j = 0 then r.2 else mv (j - 1), by omega, by omega, rfl, by simpa using h4, ?_, ?_, ?_⟩
        · intro j hj
          by_cases hj0 : j = 0
          · subst hj0
            simp [hp, h3]
          · have := h5 (j - 1) (by omega)
            rw [show j - 1 + 1 = j by omega] at this
            simp [hj0, this]
        · intro j hj
          by_cases hj0 : j = 0
          · subst hj0
            exact ht
          · have := h6 (j - 1) (by omega)
            simpa [hj0] using this
        · rcases h7 with h7 | h7
          · exact Or.inl (by omega)
          · right
            simpa [show m ≠ 0 by omega] using h7
      · rw [if_neg ht] at h
        simp only [pure, Except.pure, Except.ok.injEq] at h
        subst h
        refine ⟨1, fun j => if j = 0 then xyz else r.1, fun _ => r.2, le_refl _, by omega, rfl, rfl, ?_,
          fun j hj => by omega, Or.inr (not_lt.1 ht)⟩
        intro j hj
        obtain rfl : j = 0 := by omega
        exact hp

/-- **C54**: whatever `mls_iterative` returns, after any history of calls, is the result of one to ten
passes, it has as many points as the input, and the passes end as soon as the average movement is
not above the threshold. -/
theorem C54_smoothing_stops {lib : MlsLib K} (hl : MlsLibOk lib) (history : List (MlsCall K))
    (size : K) (k : Nat) (threshold : K) (xyz out : List (V3 K))
    (h : (mlsIterative lib size k threshold xyz (cacheAfter lib history)).1 = .ok out) :
    out.length = xyz.length ∧ Smoothed (freshPass lib size k) threshold xyz out := by
  obtain ⟨c', h1, -⟩ := mlsLoop_spec hl size k threshold 10 xyz (cacheAfter_ok hl history)
  unfold mlsIterative at h
  rw [h1] at h
  obtain ⟨m, x, mv, g1, g2, g3, g4, g5, g6, g7⟩ := freshLoop_spec 9 h
  refine ⟨?_, m, x, mv, g1, g2, g3, g4, g5, g6, g7⟩
  have : ∀ j, j ≤ m → (x j).length = xyz.length := by
    intro j
    induction j with
    | zero => intro _; rw [g3]
    | succ j ih =>
      intro hj
      rw [freshPass_length hl (g5 j (by omega))]
      exact ih (by omega)
  rw [← g4]
  exact this m (le_refl _)

/-! ### Together with the spatial sort -/

/-- **C47** with the real smoothing: whenever `sort_mls` returns, after any history of calls, the
indices are distinct positions of the input with one arc length each. -/
theorem C47_sort_mls_end_to_end {lib : MlsLib K} (hl : MlsLibOk lib) (history : List (MlsCall K))
    (size : K) (k : Nat) (threshold : K) {tl : TreeLib K} {nrm : V3 K → K}
    (nn : List (V3 K) → V3 K → Nat × Nat) (atan2 : K → K → K) (d : Bool)
    (htl : ∀ pts edges, tl.triangulate pts = .ok edges → TreeOk tl pts)
    {xyz : List (V3 K)} {idx : List Nat} {arcs : List K}
    (hs : sortMls tl nrm nn atan2
      (fun x => (mlsIterative lib size k threshold x (cacheAfter lib history)).1) d xyz
      = .ok (idx, arcs)) :
    idx.Nodup ∧ idx ≠ [] ∧ (∀ i ∈ idx, i < xyz.length) ∧ arcs.length = idx.length := by
  cases hm : (mlsIterative lib size k threshold xyz (cacheAfter lib history)).1 with
  | error e => simp [sortMls, hm, bind, Except.bind] at hs
  | ok smooth =>
    obtain ⟨h1, -⟩ := C54_smoothing_stops hl history size k threshold xyz smooth hm
    cases ht : tl.triangulate smooth with
    | error e => simp [sortMls, hm, sortPoints, computeMst, ht, bind, Except.bind] at hs
    | ok edges =>
      obtain ⟨a, b, c, d', -⟩ := C47_sort_mls nn atan2 (mls := fun x =>
        (mlsIterative lib size k threshold x (cacheAfter lib history)).1) hm h1
        (htl _ _ ht) ht d hs
      exact ⟨a, b, c, d'⟩

/-! ### Non-vacuity -/

/-- brute force neighbours, lines along the x axis, sets in order of insertion -/
def exMlsLib : MlsLib ℚ :=
  { query := bruteQueryK (fun a b => max (|a.x - b.x|) (max |a.y - b.y| |a.z - b.z|))
    lineDir := fun _ => ⟨1, 0, 0⟩
    nrm := fun v => max |v.x| (max |v.y| |v.z|)
    frozen := List.dedup }

theorem exMlsLib_ok : MlsLibOk exMlsLib where
  rows := (bruteQueryK_isKNearest _).length
  frozen_nodup := List.nodup_dedup
  frozen_mem _ _ := List.mem_dedup
  dir _ _ _ := rfl

example : (mlsIterative exMlsLib 1 2 (1/10) [⟨0, 0, 0⟩, ⟨2, 1, 0⟩, ⟨4, 0, 0⟩] ⟨[], []⟩).1 =
    .ok [⟨0, 1/2, 0⟩, ⟨2, 1/2, 0⟩, ⟨4, 1/2, 0⟩] := by decide +kernel
example : (mlsIterative exMlsLib 1 4 (1/10) [⟨0, 0, 0⟩, ⟨2, 1, 0⟩, ⟨4, 0, 0⟩] ⟨[], []⟩).1 =
    .error .indexError := by decide +kernel
example : (cacheAfter exMlsLib [⟨1, 2, 1/10, [⟨0, 0, 0⟩, ⟨2, 1, 0⟩, ⟨4, 0, 0⟩]⟩]).entries.length = 4 := by
  decide +kernel

end TC
