import Verif.Props.Mls
import Verif.Props.Voxel
import Mathlib.Analysis.Normed.Ring.Lemmas
import Mathlib.Topology.Order.Compact
/-!
# C129: what one smoothing pass does to a point
-/
namespace TC
set_option linter.unusedSectionVars false
variable {K : Type} [Field K] [LinearOrder K] [IsStrictOrderedRing K] [FloorRing K]

theorem snapped_move {lib : MlsLib K} {points : List (V3 K)}
    (hd : 1 < points.length → IsPrincipal points (lib.lineDir points)) (p : V3 K) :
    SnappedTo points p
      (moveToLine p (if points.length > 1 then some (Line3D.fromPoints lib.lineDir points) else none)) := by
  constructor
  · intro h
    rw [if_neg (by omega)]
    rfl
  · intro h
    rw [if_pos h]
    have hp := hd h
    obtain ⟨c1, c2, -, -, -⟩ := C31_projection_is_nearest (Line3D.fromPoints lib.lineDir points) hp.1 p
    refine ⟨meanPoint points, lib.lineDir points, ⟨hp.1, ?_⟩, c1, c2⟩
    have hne : points ≠ [] := by rintro rfl; simp at h
    have hfoot : ∀ x : V3 K, ∃ s : K, (Line3D.fromPoints lib.lineDir points).evaluateAt x =
        meanPoint points + s • lib.lineDir points := fun x =>
      (C31_projection_is_nearest (Line3D.fromPoints lib.lineDir points) hp.1 x).1
    refine ⟨fun x => (hfoot x).choose, fun a' d' hd' foot' => ?_⟩
    have h1 := C99_line_is_best_fit lib.lineDir points hne hp ⟨a', d'⟩ hd'
    refine le_trans (le_of_eq ?_) (le_trans h1 ?_)
    · congr 1
      apply List.map_congr_left
      intro x _
      unfold lineDistSq
      rw [(hfoot x).choose_spec]
    · apply List.sum_le_sum
      intro x _
      exact (C31_projection_is_nearest ⟨a', d'⟩ hd' x).2.1 (foot' x)

theorem idsOf_spec {vs : List (Voxel K)} : ∀ {c : List (Option Nat)} {ids : List VoxelId}, idsOf vs c = .ok ids →
    ∃ js : List Nat, c = js.map some ∧ (∀ j ∈ js, j < vs.length) ∧
      js.map (fun j => (vs[j]?).map Voxel.id) = ids.map some
  | [], ids, h => by
    cases h
    exact ⟨[], rfl, by simp, rfl⟩
  | none :: c, ids, h => by cases h
  | some i :: c, ids, h => by
    unfold idsOf at h
    cases h1 : npGet vs (i : Int) with
    | error e => simp [h1, bind, Except.bind] at h
    | ok v =>
      cases h2 : idsOf vs c with
      | error e => simp [h1, h2, bind, Except.bind] at h
      | ok rest =>
        simp only [h1, h2, bind, Except.bind, pure, Except.pure, Except.ok.injEq] at h
        obtain ⟨js, e1, e2, e3⟩ := idsOf_spec h2
        have hv : vs[i]? = some v := by
          unfold npGet at h1
          cases hp : pyPos vs.length (i : Int) with
          | none => simp [hp] at h1
          | some j =>
            have hj : j = i := by
              unfold pyPos at hp
              split_ifs at hp <;> simp at hp <;> omega
            subst hj
            simp only [hp] at h1
            cases hg : vs[j]? with
            | none => simp [hg] at h1
            | some w => simp [hg] at h1; rw [h1]
        refine ⟨i :: js, by simp [e1], ?_, ?_⟩
        · intro j hj
          rcases List.mem_cons.mp hj with rfl | hj
          · exact (List.getElem?_eq_some_iff.mp hv).1
          · exact e2 j hj
        · rw [← h]
          simp [hv, e3]

theorem idRows_get {lib : MlsLib K} {vs : List (Voxel K)} : ∀ {cs : List (List (Option Nat))} {sets : List (List VoxelId)},
    idRows lib vs cs = .ok sets → ∀ {i : Nat} {s : List VoxelId}, sets[i]? = some s →
      ∃ c ids, cs[i]? = some c ∧ idsOf vs c = .ok ids ∧ s = lib.frozen ids
  | [], sets, h, i, s, hs => by cases h; simp at hs
  | c :: cs, sets, h, i, s, hs => by
    unfold idRows at h
    cases h1 : idsOf vs c with
    | error e => simp [h1, bind, Except.bind] at h
    | ok ids =>
      cases h2 : idRows lib vs cs with
      | error e => simp [h1, h2, bind, Except.bind] at h
      | ok rest =>
        simp only [h1, h2, bind, Except.bind, pure, Except.pure, Except.ok.injEq] at h
        subst h
        cases i with
        | zero =>
          simp only [List.getElem?_cons_zero, Option.some.injEq] at hs
          exact ⟨c, ids, rfl, h1, hs.symm⟩
        | succ i =>
          simp only [List.getElem?_cons_succ] at hs ⊢
          exact idRows_get h2 hs

theorem freshPoints_get {lib : MlsLib K} {vs : List (Voxel K)} : ∀ {ps : List (V3 K)} {sets : List (List VoxelId)}
    {out : List (V3 K)}, freshPoints lib vs ps sets = .ok out → ∀ {i : Nat} {p q : V3 K}, ps[i]? = some p →
      out[i]? = some q → ∃ s line, sets[i]? = some s ∧ lineApproximator lib vs s = .ok line ∧ q = moveToLine p line
  | [], sets, out, h, i, p, q, hp, hq => by simp at hp
  | p0 :: ps, [], out, h, i, p, q, hp, hq => by cases h; simp at hq
  | p0 :: ps, s0 :: sets, out, h, i, p, q, hp, hq => by
    unfold freshPoints at h
    cases h1 : lineApproximator lib vs s0 with
    | error e => simp [h1, bind, Except.bind] at h
    | ok line =>
      cases h2 : freshPoints lib vs ps sets with
      | error e => simp [h1, h2, bind, Except.bind] at h
      | ok rest =>
        simp only [h1, h2, bind, Except.bind, pure, Except.pure, Except.ok.injEq] at h
        subst h
        cases i with
        | zero =>
          simp only [List.getElem?_cons_zero, Option.some.injEq] at hp hq
          subst hp hq
          exact ⟨s0, line, rfl, h1, rfl⟩
        | succ i =>
          simp only [List.getElem?_cons_succ] at hp hq ⊢
          exact freshPoints_get h2 hp hq

theorem find_id {vs : List (Voxel K)} (hn : (vs.map Voxel.id).Nodup) {v : Voxel K} (hv : v ∈ vs) :
    vs.find? (fun w => decide (w.id = v.id)) = some v := by
  cases h : vs.find? (fun w => decide (w.id = v.id)) with
  | none =>
    rw [List.find?_eq_none] at h
    exact absurd (h v hv) (by simp)
  | some w =>
    have h1 := List.mem_of_find?_eq_some h
    have h2 := List.find?_some h
    simp only [decide_eq_true_eq] at h2
    rw [List.inj_on_of_nodup_map hn h1 hv h2]

/-- **C129**: in one pass of the smoothing every point is moved to the nearest point of a best line through all points
in the `k` voxels nearest to it; if these hold a single point it stays.  The fitted direction is assumed to be a
principal one, the neighbour search to find the nearest centres. -/
theorem C129_points_move_to_local_lines {lib : MlsLib K} (hl : MlsLibOk lib) {dist : V3 K → V3 K → K}
    (hq : IsKNearestQuery dist lib.query) (hd : ∀ points, 1 < points.length → IsPrincipal points (lib.lineDir points))
    {size : K} (hs : 0 < size) {k : Nat} {xyz out : List (V3 K)} {mv : K}
    (h : freshPass lib size k xyz = .ok (out, mv)) :
    out.length = xyz.length ∧ ∃ vs, createVoxels xyz size = .ok vs ∧
      ∀ (i : Nat) (p q : V3 K), xyz[i]? = some p → out[i]? = some q →
        ∃ near, IsNearVoxels dist vs k p near ∧ SnappedTo (near.flatMap Voxel.points) p q := by
  refine ⟨freshPass_length hl h, ?_⟩
  have hne : xyz ≠ [] := by
    rintro rfl
    simp [freshPass, C52_no_points, bind, Except.bind] at h
  obtain ⟨vs, hvs, hn, -, -, -⟩ := C52_voxels_partition_points hne hs
  refine ⟨vs, hvs, fun i p q hp hqi => ?_⟩
  unfold freshPass at h
  simp only [hvs, bind, Except.bind] at h
  cases h2 : kNearestQuery lib vs xyz k with
  | error e => simp [h2] at h
  | ok sets =>
    cases h3 : freshPoints lib vs xyz sets with
    | error e => simp [h2, h3] at h
    | ok moved =>
      simp only [h2, h3, pure, Except.pure, Except.ok.injEq, Prod.mk.injEq] at h
      obtain ⟨rfl, -⟩ := h
      obtain ⟨s, line, hsi, hline, rfl⟩ := freshPoints_get h3 hp hqi
      have h2' : idRows lib vs (lib.query (vs.map (fun v => meanPoint v.points)) none k xyz) = .ok sets := by
        unfold kNearestQuery at h2
        simp only [bind, Except.bind] at h2
        split_ifs at h2; exact h2
      obtain ⟨c, ids, hc, hids, rfl⟩ := idRows_get h2' hsi
      have hnear := hq.row _ none k xyz (by simp) i p c hp hc
      obtain ⟨js, hjs, hjl, hjid⟩ := idsOf_spec hids
      have hjn : js.Nodup := by
        have := hnear.nodup
        rw [hjs, List.filterMap_map] at this
        simpa using this
      have hmemid : ∀ id, id ∈ ids ↔ ∃ j ∈ js, ∃ v, vs[j]? = some v ∧ v.id = id := by
        intro id
        have : some id ∈ ids.map some ↔ id ∈ ids := by simp
        rw [← this, ← hjid, List.mem_map]
        constructor
        · rintro ⟨j, hj, he⟩
          rw [Option.map_eq_some_iff] at he
          obtain ⟨v, hv, hid⟩ := he
          exact ⟨j, hj, v, hv, hid⟩
        · rintro ⟨j, hj, v, hv, rfl⟩
          exact ⟨j, hj, by simp [hv]⟩
      have hidsn : ids.Nodup := by
        have : (ids.map some).Nodup := by
          rw [← hjid]
          refine (List.nodup_map_iff_inj_on hjn).mpr ?_
          intro a ha b hb hab
          rw [List.getElem?_eq_getElem (hjl a ha), List.getElem?_eq_getElem (hjl b hb)] at hab
          simp only [Option.map_some, Option.some.injEq] at hab
          have e : (vs.map Voxel.id)[a]'(by simpa using hjl a ha) = (vs.map Voxel.id)[b]'(by simpa using hjl b hb) := by
            simpa using hab
          exact (List.Nodup.getElem_inj_iff hn).mp e
        exact List.Nodup.of_map _ this
      have hperm : (lib.frozen ids).Perm ids :=
        (List.perm_ext_iff_of_nodup (hl.frozen_nodup ids) hidsn).mpr (hl.frozen_mem ids)
      -- the voxels in the order of the set
      have hfind : ∀ id ∈ lib.frozen ids, ∃ v ∈ vs, v.id = id ∧ vs.find? (fun w => decide (w.id = id)) = some v := by
        intro id hid
        obtain ⟨j, -, v, hv, rfl⟩ := (hmemid id).mp ((hl.frozen_mem ids id).mp hid)
        have hm : v ∈ vs := List.mem_of_getElem? hv
        exact ⟨v, hm, rfl, find_id hn hm⟩
      have hnid : ∀ l : List VoxelId, (∀ id ∈ l, ∃ v ∈ vs, v.id = id ∧ vs.find? (fun w => decide (w.id = id)) = some v) →
          (l.filterMap (fun id => vs.find? (fun w => decide (w.id = id)))).map Voxel.id = l := by
        intro l
        induction l with
        | nil => intro _; rfl
        | cons id l ih =>
          intro hl'
          obtain ⟨v, -, h1, h2⟩ := hl' id (by simp)
          rw [List.filterMap_cons, h2]
          simp only [List.map_cons, h1, ih (fun id h => hl' id (by simp [h]))]
      set near := (lib.frozen ids).filterMap (fun id => vs.find? (fun w => decide (w.id = id))) with hnd
      have hnear_id : near.map Voxel.id = lib.frozen ids := hnid _ hfind
      have hsub : ∀ v ∈ near, v ∈ vs := by
        intro v hv
        obtain ⟨id, -, h⟩ := List.mem_filterMap.mp hv
        exact List.mem_of_find?_eq_some h
      refine ⟨near, ⟨?_, ?_, hsub, ?_⟩, ?_⟩
      · exact List.Nodup.of_map Voxel.id (hnear_id ▸ hl.frozen_nodup ids)
      · have : near.length = (lib.frozen ids).length := by rw [← hnear_id, List.length_map]
        rw [this, hperm.length_eq]
        have e1 : ids.length = js.length := by simpa using (congrArg List.length hjid).symm
        rw [e1, ← hnear.length, hjs, List.length_map]
      · intro v hv w hw hwn
        have hvid : v.id ∈ ids := (hl.frozen_mem ids _).mp (hnear_id ▸ List.mem_map_of_mem hv)
        obtain ⟨j, hj, v', hv', hid'⟩ := (hmemid _).mp hvid
        have : v' = v := List.inj_on_of_nodup_map hn (List.mem_of_getElem? hv') (hsub v hv) hid'
        subst this
        obtain ⟨j', hj'⟩ := List.getElem?_of_mem hw
        refine hnear.nearest j _ (by rw [hjs]; exact List.mem_map_of_mem hj) (by rw [List.getElem?_map, hv']; rfl) j' _
          (by rw [List.getElem?_map, hj']; rfl) ?_
        intro hc'
        rw [hjs] at hc'
        have hc'' : j' ∈ js := by simpa using hc'
        have hwid : w.id ∈ lib.frozen ids := (hl.frozen_mem ids _).mpr ((hmemid _).mpr ⟨j', hc'', w, hj', rfl⟩)
        rw [← hnear_id] at hwid
        obtain ⟨u, hu, hue⟩ := List.mem_map.mp hwid
        have : u = w := List.inj_on_of_nodup_map hn (hsub u hu) hw hue
        exact hwn (this ▸ hu)
      · have hpts : pointsFromVoxelSet vs (lib.frozen ids) = .ok (near.flatMap Voxel.points) := by
          rw [hnd]
          generalize lib.frozen ids = l at hfind ⊢
          induction l with
          | nil => rfl
          | cons id l ih =>
            obtain ⟨v, -, h1, h2⟩ := hfind id (by simp)
            have := ih (fun id h => hfind id (by simp [h]))
            unfold pointsFromVoxelSet
            simp only [h2, this, bind, Except.bind, pure, Except.pure, List.filterMap_cons, List.flatMap_cons]
        unfold lineApproximator at hline
        simp only [hpts, bind, Except.bind, pure, Except.pure, Except.ok.injEq] at hline
        rw [← hline]
        exact snapped_move (hd _) p

/-- **C129** for complete calls: whatever `mls_iterative` returns, after any history of calls, is reached by one to ten
such passes. -/
theorem C129_iterated {lib : MlsLib K} (hl : MlsLibOk lib) {dist : V3 K → V3 K → K}
    (hq : IsKNearestQuery dist lib.query) (hd : ∀ points, 1 < points.length → IsPrincipal points (lib.lineDir points))
    {size : K} (hs : 0 < size) (history : List (MlsCall K)) (k : Nat) (threshold : K) (xyz out : List (V3 K))
    (h : (mlsIterative lib size k threshold xyz (cacheAfter lib history)).1 = .ok out) :
    ∃ (m : Nat) (x : Nat → List (V3 K)), 1 ≤ m ∧ m ≤ 10 ∧ x 0 = xyz ∧ x m = out ∧
      ∀ j, j < m → (x (j + 1)).length = (x j).length ∧ ∃ vs, createVoxels (x j) size = .ok vs ∧
        ∀ (i : Nat) (p q : V3 K), (x j)[i]? = some p → (x (j + 1))[i]? = some q →
          ∃ near, IsNearVoxels dist vs k p near ∧ SnappedTo (near.flatMap Voxel.points) p q := by
  obtain ⟨-, m, x, mv, h1, h2, h3, h4, h5, -, -⟩ := C54_smoothing_stops hl history size k threshold xyz out h
  exact ⟨m, x, h1, h2, h3, h4, fun j hj => C129_points_move_to_local_lines hl hq hd hs (h5 j hj)⟩

/-! ### C130 -/

theorem idsOf_ok (vs : List (Voxel K)) : ∀ c : List (Option Nat), none ∉ c → (∀ r, some r ∈ c → r < vs.length) →
    ∃ ids, idsOf vs c = .ok ids ∧ ∀ id ∈ ids, ∃ v ∈ vs, v.id = id
  | [], _, _ => ⟨[], rfl, by simp⟩
  | none :: c, h, _ => by simp at h
  | some r :: c, h, hr => by
    obtain ⟨ids, h1, h2⟩ := idsOf_ok vs c (by simp at h; exact h) (fun r hm => hr r (by simp [hm]))
    have hl : r < vs.length := hr r (by simp)
    refine ⟨vs[r].id :: ids, ?_, ?_⟩
    · unfold idsOf
      rw [npGet_nat hl, h1]
      rfl
    · intro id hid
      rcases List.mem_cons.mp hid with rfl | hid
      · exact ⟨vs[r], List.getElem_mem hl, rfl⟩
      · exact h2 id hid

theorem idsOf_missing (vs : List (Voxel K)) : ∀ c : List (Option Nat), none ∈ c → (∀ r, some r ∈ c → r < vs.length) →
    idsOf vs c = .error .indexError
  | [], h, _ => by simp at h
  | none :: c, _, _ => rfl
  | some r :: c, h, hr => by
    have hl : r < vs.length := hr r (by simp)
    unfold idsOf
    rw [npGet_nat hl, idsOf_missing vs c (by simpa using h) (fun r hm => hr r (by simp [hm]))]
    rfl

theorem count_length (c : List (Option Nat)) : c.length = (c.filterMap id).length + c.countP (fun o => o.isNone) := by
  induction c with
  | nil => rfl
  | cons o c ih => cases o <;> simp [ih] <;> omega

theorem none_iff_few {dist : V3 K → V3 K → K} {ref : List (V3 K)} {k : Nat} {p : V3 K} {c : List (Option Nat)}
    (h : IsKNearest dist ref none k p c) : none ∈ c ↔ ref.length < k := by
  have hc := count_length c
  rw [h.length] at hc
  constructor
  · intro hm
    have h1 : (List.range ref.length).Subperm (c.filterMap id) := by
      refine List.subperm_of_subset List.nodup_range ?_
      intro j hj
      have hj' : j < ref.length := by simpa using hj
      have := h.missing hm j ref[j] (List.getElem?_eq_getElem hj') (by simp)
      simpa using this
    have h2 := h1.length_le
    have h3 : 0 < c.countP (fun o => o.isNone) := List.countP_pos_iff.mpr ⟨none, hm, rfl⟩
    simp only [List.length_range] at h2
    omega
  · intro hk
    by_contra hm
    have h1 : (c.filterMap id).Subperm (List.range ref.length) := by
      refine List.subperm_of_subset h.nodup ?_
      intro j hj
      have hj' : some j ∈ c := by simpa using hj
      obtain ⟨q, hq, -⟩ := h.found j hj'
      simpa using (List.getElem?_eq_some_iff.mp hq).1
    have h2 := h1.length_le
    have h3 : c.countP (fun o => o.isNone) = 0 := by
      rw [List.countP_eq_zero]
      intro o ho
      cases o with
      | none => exact absurd ho hm
      | some _ => simp
    simp only [List.length_range] at h2
    omega

theorem idRows_ok (lib : MlsLib K) (vs : List (Voxel K)) : ∀ cs : List (List (Option Nat)),
    (∀ c ∈ cs, ∃ ids, idsOf vs c = .ok ids) → ∃ sets, idRows lib vs cs = .ok sets
  | [], _ => ⟨[], rfl⟩
  | c :: cs, h => by
    obtain ⟨ids, h1⟩ := h c (by simp)
    obtain ⟨sets, h2⟩ := idRows_ok lib vs cs (fun c hc => h c (by simp [hc]))
    exact ⟨lib.frozen ids :: sets, by unfold idRows; rw [h1, h2]; rfl⟩

theorem pointsFromVoxelSet_ok (vs : List (Voxel K)) : ∀ ids : List VoxelId, (∀ id ∈ ids, ∃ v ∈ vs, v.id = id) →
    ∃ ps, pointsFromVoxelSet vs ids = .ok ps
  | [], _ => ⟨[], rfl⟩
  | id :: ids, h => by
    obtain ⟨ps, h1⟩ := pointsFromVoxelSet_ok vs ids (fun i hi => h i (by simp [hi]))
    obtain ⟨v, hv, hid⟩ := h id (by simp)
    cases hf : vs.find? (fun v => decide (v.id = id)) with
    | none =>
      rw [List.find?_eq_none] at hf
      exact absurd hid (by simpa using hf v hv)
    | some w =>
      refine ⟨w.points ++ ps, ?_⟩
      unfold pointsFromVoxelSet
      simp only [hf, h1, bind, Except.bind, pure, Except.pure]

theorem freshPoints_ok (lib : MlsLib K) (vs : List (Voxel K)) : ∀ (ps : List (V3 K)) (sets : List (List VoxelId)),
    (∀ s ∈ sets, ∃ l, lineApproximator lib vs s = .ok l) → ∃ out, freshPoints lib vs ps sets = .ok out
  | [], sets, _ => ⟨[], by cases sets <;> rfl⟩
  | p :: ps, [], _ => ⟨[], rfl⟩
  | p :: ps, s :: sets, h => by
    obtain ⟨l, h1⟩ := h s (by simp)
    obtain ⟨out, h2⟩ := freshPoints_ok lib vs ps sets (fun s hs => h s (by simp [hs]))
    exact ⟨moveToLine p l :: out, by unfold freshPoints; rw [h1, h2]; rfl⟩

/-- **C130**: a smoothing pass over some points, after any history of calls, returns if and only if `k` is at least two
and there are at least `k` occupied voxels.  Otherwise it raises: `ValueError` for `k = 0`, `TypeError` for `k = 1`,
`IndexError` for too few voxels. -/
theorem C130_pass_needs_enough_voxels {lib : MlsLib K} (hl : MlsLibOk lib) {dist : V3 K → V3 K → K}
    (hq : IsKNearestQuery dist lib.query) (history : List (MlsCall K)) {size : K} (hs : 0 < size) (k : Nat)
    {xyz : List (V3 K)} (hne : xyz ≠ []) :
    ∃ vs, createVoxels xyz size = .ok vs ∧
      (2 ≤ k → k ≤ vs.length → ∃ out mv, (mlsSingle lib size k xyz (cacheAfter lib history)).1 = .ok (out, mv)) ∧
      (2 ≤ k → vs.length < k → (mlsSingle lib size k xyz (cacheAfter lib history)).1 = .error .indexError) ∧
      (k = 1 → (mlsSingle lib size k xyz (cacheAfter lib history)).1 = .error .typeError) ∧
      (k = 0 → (mlsSingle lib size k xyz (cacheAfter lib history)).1 = .error .valueError) := by
  rw [C55_cache_does_not_change_a_pass hl]
  obtain ⟨vs, hvs, hn, -, -, -⟩ := C52_voxels_partition_points hne hs
  refine ⟨vs, hvs, ?_, ?_, ?_, ?_⟩
  · intro h2 hk
    have hrow : ∀ c ∈ lib.query (vs.map (fun v => meanPoint v.points)) none k xyz,
        ∃ ids, idsOf vs c = .ok ids ∧ ∀ id ∈ ids, ∃ v ∈ vs, v.id = id := by
      intro c hc
      obtain ⟨i, hi⟩ := List.getElem?_of_mem hc
      have hi' : i < xyz.length := by
        rw [← hl.rows (vs.map (fun v => meanPoint v.points)) none k xyz]
        exact (List.getElem?_eq_some_iff.mp hi).1
      have hk' := hq.row _ none k xyz (by simp) i _ c (List.getElem?_eq_getElem hi') hi
      refine idsOf_ok vs c ?_ ?_
      · rw [none_iff_few hk', List.length_map]
        omega
      · intro r hr
        obtain ⟨q, h, -⟩ := hk'.found r hr
        simpa using (List.getElem?_eq_some_iff.mp h).1
    obtain ⟨sets, hsets⟩ := idRows_ok lib vs _ (fun c hc => (hrow c hc).imp fun _ h => h.1)
    have hline : ∀ s ∈ sets, ∃ l, lineApproximator lib vs s = .ok l := by
      intro s hsm
      obtain ⟨i, hi⟩ := List.getElem?_of_mem hsm
      obtain ⟨c, ids, h1, h3, rfl⟩ := idRows_get hsets hi
      obtain ⟨ids', h4, h5⟩ := hrow c (List.mem_of_getElem? h1)
      rw [h3] at h4
      cases h4
      obtain ⟨ps, hps⟩ := pointsFromVoxelSet_ok vs (lib.frozen ids) (fun id hid => h5 id ((hl.frozen_mem ids id).mp hid))
      exact ⟨_, by unfold lineApproximator; rw [hps]; rfl⟩
    obtain ⟨out, hout⟩ := freshPoints_ok lib vs xyz sets hline
    refine ⟨out, avgMovement lib.nrm xyz out, ?_⟩
    unfold freshPass kNearestQuery
    simp only [hvs, bind, Except.bind, pure, Except.pure, if_neg (show ¬ k = 0 by omega),
      if_neg (show ¬ (k = 1 ∧ xyz.length > 0) by omega), hsets, hout]
  · intro h2 hk
    obtain ⟨p, ps, rfl⟩ := List.exists_cons_of_ne_nil hne
    have hq0 : idRows lib vs (lib.query (vs.map (fun v => meanPoint v.points)) none k (p :: ps)) = .error .indexError := by
      have hlen := hl.rows (vs.map (fun v => meanPoint v.points)) none k (p :: ps)
      have hrow := hq.row (vs.map (fun v => meanPoint v.points)) none k (p :: ps) (by simp) 0 p
      cases hquery : lib.query (vs.map (fun v => meanPoint v.points)) none k (p :: ps) with
      | nil => rw [hquery] at hlen; simp at hlen
      | cons c cs =>
        rw [hquery] at hrow
        have hk' := hrow c rfl rfl
        have hm : none ∈ c := (none_iff_few hk').mpr (by simpa using hk)
        unfold idRows
        rw [idsOf_missing vs c hm ?_]
        · rfl
        · intro r hr
          obtain ⟨q, h, -⟩ := hk'.found r hr
          simpa using (List.getElem?_eq_some_iff.mp h).1
    unfold freshPass kNearestQuery
    simp only [hvs, bind, Except.bind, if_neg (show ¬ k = 0 by omega),
      if_neg (show ¬ (k = 1 ∧ (p :: ps).length > 0) by omega), hq0]
  · rintro rfl
    have : xyz.length > 0 := List.length_pos_of_ne_nil hne
    unfold freshPass kNearestQuery
    simp [hvs, bind, Except.bind, this, throw, throwThe, MonadExceptOf.throw]
  · rintro rfl
    unfold freshPass kNearestQuery
    simp [hvs, bind, Except.bind, throw, throwThe, MonadExceptOf.throw]

/-- **C130** for a complete call: a point cloud with fewer than `k` occupied voxels cannot be smoothed -/
theorem C130_sparse_points_cannot_be_smoothed {lib : MlsLib K} (hl : MlsLibOk lib) {dist : V3 K → V3 K → K}
    (hq : IsKNearestQuery dist lib.query) (history : List (MlsCall K)) {size : K} (hs : 0 < size) {k : Nat} (h2 : 2 ≤ k)
    (threshold : K) {xyz : List (V3 K)} (hne : xyz ≠ []) (hfew : xyz.length < k) :
    (mlsIterative lib size k threshold xyz (cacheAfter lib history)).1 = .error .indexError := by
  obtain ⟨vs, hvs, -, h, -, -⟩ := C130_pass_needs_enough_voxels hl hq history hs k hne
  obtain ⟨vs', hvs', -, hp, hperm, -⟩ := C52_voxels_partition_points hne hs
  obtain rfl : vs' = vs := by rw [hvs] at hvs'; exact (Except.ok.inj hvs').symm
  have hle : vs'.length ≤ xyz.length := by
    rw [← hperm.length_eq]
    clear hvs hvs' h hperm
    induction vs' with
    | nil => simp
    | cons v vs ih =>
      have := List.length_pos_of_ne_nil (hp v (by simp)).1
      have := ih (fun w hw => hp w (by simp [hw]))
      simp only [List.flatMap_cons, List.length_append, List.length_cons]
      omega
  have h1 := h h2 (by omega)
  rw [C55_cache_does_not_change_a_pass hl] at h1
  obtain ⟨c', h3, -⟩ := mlsLoop_spec hl size k threshold 10 xyz (cacheAfter_ok hl history)
  unfold mlsIterative
  rw [h3]
  unfold freshLoop
  simp only [h1, bind, Except.bind]

/-! ### Non-vacuity: principal directions exist -/

theorem exists_principal (points : List (V3 ℝ)) : ∃ d, IsPrincipal points d := by
  let S : Set (ℝ × ℝ × ℝ) := {u | u.1 * u.1 + u.2.1 * u.2.1 + u.2.2 * u.2.2 = 1}
  have hclosed : IsClosed S := isClosed_eq (by fun_prop) continuous_const
  have hsub : S ⊆ Set.Icc (-1) 1 ×ˢ Set.Icc (-1) 1 ×ˢ Set.Icc (-1) 1 := by
    rintro ⟨a, b, c⟩ h
    have h' : a * a + b * b + c * c = 1 := h
    refine ⟨⟨?_, ?_⟩, ⟨?_, ?_⟩, ⟨?_, ?_⟩⟩ <;> simp only <;>
      nlinarith [mul_self_nonneg a, mul_self_nonneg b, mul_self_nonneg c]
  have hcomp : IsCompact S := (isCompact_Icc.prod (isCompact_Icc.prod isCompact_Icc)).of_isClosed_subset hclosed hsub
  let f : ℝ × ℝ × ℝ → ℝ := fun u => (points.map (fun p => (p - meanPoint points).dot ⟨u.1, u.2.1, u.2.2⟩ *
    (p - meanPoint points).dot ⟨u.1, u.2.1, u.2.2⟩)).sum
  have hf : Continuous f := by
    refine continuous_list_sum _ ?_
    intro p _
    simp only [V3.dot]
    fun_prop
  obtain ⟨u, hu, hmax⟩ := hcomp.exists_isMaxOn ⟨(1, 0, 0), by simp [S]⟩ hf.continuousOn
  refine ⟨⟨u.1, u.2.1, u.2.2⟩, hu, fun w hw => ?_⟩
  exact hmax (show (w.x, w.y, w.z) ∈ S from hw)

/-- brute force neighbours, a principal direction of the points (the same one for each order), sets in order of insertion -/
noncomputable def exLineLib : MlsLib ℝ :=
  { query := bruteQueryK (fun a b => max (|a.x - b.x|) (max |a.y - b.y| |a.z - b.z|))
    lineDir := fun ps => @Classical.epsilon (V3 ℝ) ⟨⟨1, 0, 0⟩⟩ (fun d => ∀ qs, qs.Perm ps → IsPrincipal qs d)
    nrm := fun v => max |v.x| (max |v.y| |v.z|)
    frozen := List.dedup }

theorem principal_perm {ps qs : List (V3 K)} (h : qs.Perm ps) {d : V3 K} (hd : IsPrincipal ps d) : IsPrincipal qs d := by
  refine ⟨hd.1, fun u hu => ?_⟩
  rw [meanPoint_perm h, (h.map _).sum_eq, (h.map _).sum_eq]
  exact hd.2 u hu

theorem exLineLib_ok : MlsLibOk exLineLib where
  rows := (bruteQueryK_isKNearest _).length
  frozen_nodup := List.nodup_dedup
  frozen_mem _ _ := List.mem_dedup
  dir ps qs h := by
    have : (fun d : V3 ℝ => ∀ xs, xs.Perm ps → IsPrincipal xs d) = fun d => ∀ xs, xs.Perm qs → IsPrincipal xs d := by
      funext d
      exact propext ⟨fun H xs hx => H xs (hx.trans h.symm), fun H xs hx => H xs (hx.trans h)⟩
    exact congrArg (@Classical.epsilon (V3 ℝ) ⟨⟨1, 0, 0⟩⟩) this

theorem exLineLib_principal (ps : List (V3 ℝ)) : IsPrincipal ps (exLineLib.lineDir ps) := by
  obtain ⟨d, hd⟩ := exists_principal ps
  have h : ∃ d, ∀ qs, qs.Perm ps → IsPrincipal qs d := ⟨d, fun qs hq => principal_perm hq hd⟩
  exact @Classical.epsilon_spec_aux _ ⟨⟨1, 0, 0⟩⟩ _ h ps (List.Perm.refl _)

/-- every hypothesis of C129 is met by a pass over three points with two neighbouring voxels -/
example : ∃ out mv, freshPass exLineLib 1 2 [⟨0, 0, 0⟩, ⟨2, 1, 0⟩, ⟨4, 0, 0⟩] = .ok (out, mv) := by
  obtain ⟨vs, hvs, h, -⟩ := C130_pass_needs_enough_voxels exLineLib_ok (bruteQueryK_isKNearest _) [] (size := 1)
    one_pos 2 (xyz := [⟨0, 0, 0⟩, ⟨2, 1, 0⟩, ⟨4, 0, 0⟩]) (by simp)
  have := h (le_refl _) ?_
  · rwa [C55_cache_does_not_change_a_pass exLineLib_ok] at this
  · obtain ⟨vs', hvs', hn, hpt, hperm, huniq⟩ := C52_voxels_partition_points (K := ℝ) (size := 1)
      (xyz := [⟨0, 0, 0⟩, ⟨2, 1, 0⟩, ⟨4, 0, 0⟩]) (by simp) one_pos
    obtain rfl : vs' = vs := by rw [hvs] at hvs'; exact (Except.ok.inj hvs').symm
    have hclose := C53_points_of_a_voxel_are_close_partial (K := ℝ) one_pos (by
      simp; norm_num) hvs
    have m1 : (⟨0, 0, 0⟩ : V3 ℝ) ∈ vs'.flatMap Voxel.points := hperm.mem_iff.mpr (by simp)
    have m2 : (⟨4, 0, 0⟩ : V3 ℝ) ∈ vs'.flatMap Voxel.points := hperm.mem_iff.mpr (by simp)
    obtain ⟨v, hv, hpv⟩ := List.mem_flatMap.mp m1
    obtain ⟨w, hw, hpw⟩ := List.mem_flatMap.mp m2
    have hvw : v ≠ w := by
      rintro rfl
      have := (hclose v hv _ hpv _ hpw).1
      norm_num at this
    by_contra hlt
    match vs', hv, hw, hlt with
    | [a], hv, hw, _ => simp at hv hw; exact hvw (hv.trans hw.symm)
    | [], hv, _, _ => simp at hv
    | _ :: _ :: _, _, _, hlt => simp at hlt

end TC
