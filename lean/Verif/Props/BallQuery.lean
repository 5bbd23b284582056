import Verif.Spec.BallQuery
import Verif.Props.Voxel
import Verif.Props.MlsLines
/-!
# C208: searching voxels around a position
-/
namespace TC
set_option linter.unusedSectionVars false
variable {K : Type} [Field K] [LinearOrder K] [IsStrictOrderedRing K] [FloorRing K]

theorem idsOf_some (vs : List (Voxel K)) : ∀ (c : List Nat), (∀ j ∈ c, j < vs.length) → ∃ ids, idsOf vs (c.map some) = .ok ids ∧
    c.map (fun j => (vs[j]?).map Voxel.id) = ids.map some
  | [], _ => ⟨[], rfl, rfl⟩
  | j :: c, h => by
    obtain ⟨ids, h1, h2⟩ := idsOf_some vs c (fun i hi => h i (List.mem_cons_of_mem _ hi))
    have hj := h j (List.mem_cons_self)
    have e : npGet vs (j : Int) = .ok vs[j] := by
      unfold npGet pyPos
      rw [if_pos (by omega)]
      simp [List.getElem?_eq_getElem hj, hj]
    refine ⟨vs[j].id :: ids, ?_, ?_⟩
    · simp only [List.map_cons, idsOf, e, h1, bind, Except.bind, pure, Except.pure]
    · simp [h2, List.getElem?_eq_getElem hj]

theorem ballRows_ok {frozen : List VoxelId → List VoxelId} (vs : List (Voxel K)) : ∀ (cs : List (List Nat)),
    (∀ c ∈ cs, ∀ j ∈ c, j < vs.length) → ∃ rows, ballRows frozen vs cs = .ok rows ∧ rows.length = cs.length ∧
      ∀ (i : Nat) (c : List Nat) row, cs[i]? = some c → rows[i]? = some row →
        ∃ ids, row = frozen ids ∧ c.map (fun j => (vs[j]?).map Voxel.id) = ids.map some
  | [], _ => ⟨[], rfl, rfl, by simp⟩
  | c :: cs, h => by
    obtain ⟨rows, h1, h2, h3⟩ := ballRows_ok (frozen := frozen) vs cs (fun d hd => h d (List.mem_cons_of_mem _ hd))
    obtain ⟨ids, h4, h5⟩ := idsOf_some vs c (h c List.mem_cons_self)
    refine ⟨frozen ids :: rows, ?_, by simp [h2], ?_⟩
    · simp only [ballRows, h4, h1, bind, Except.bind, pure, Except.pure]
    · intro i d row hd hr
      cases i with
      | zero =>
        simp only [List.getElem?_cons_zero, Option.some.injEq] at hd hr
        exact ⟨ids, hr.symm, hd ▸ h5⟩
      | succ i => exact h3 i d row (by simpa using hd) (by simpa using hr)

theorem isCentre_iff {points : List (V3 K)} (hne : points ≠ []) (c : V3 K) : IsCentre points c ↔ c = meanPoint points := by
  have hn : (points.length : K) ≠ 0 := by
    have := List.length_pos_iff.2 hne
    exact_mod_cast this.ne'
  unfold IsCentre meanPoint
  constructor
  · intro h
    rw [← h, smul_smul, inv_mul_cancel₀ hn, one_smul]
  · rintro rfl
    rw [smul_smul, mul_inv_cancel₀ hn, one_smul]

theorem pointsFrom_spec {vs : List (Voxel K)} (hn : (vs.map Voxel.id).Nodup) : ∀ (ids : List VoxelId),
    (∀ id ∈ ids, ∃ v ∈ vs, v.id = id) → ∃ ws : List (Voxel K), ws.map Voxel.id = ids ∧ (∀ w ∈ ws, w ∈ vs) ∧
      pointsFromVoxelSet vs ids = .ok (ws.flatMap Voxel.points)
  | [], _ => ⟨[], rfl, by simp, rfl⟩
  | id :: ids, h => by
    obtain ⟨ws, h1, h2, h3⟩ := pointsFrom_spec hn ids (fun i hi => h i (List.mem_cons_of_mem _ hi))
    obtain ⟨v, hv, rfl⟩ := h id List.mem_cons_self
    refine ⟨v :: ws, by simp [h1], ?_, ?_⟩
    · intro w hw
      rcases List.mem_cons.1 hw with rfl | hw
      · exact hv
      · exact h2 w hw
    · simp only [pointsFromVoxelSet, find_id hn hv, h3, bind, Except.bind, pure, Except.pure, List.flatMap_cons]

/-- **C208**: for any points, voxel size and radius the search never raises on the voxels of the points.  For every query
position it gives the ids of exactly the voxels whose centre is within the radius, each once, and the points of this
set are the points of exactly these voxels, each as often as it was given. -/
theorem C208_found {ball : BallSearch K} (hb : IsBallSearch ball) {frozen : List VoxelId → List VoxelId} (hf : IsFrozenset frozen)
    {xyz : List (V3 K)} (hne : xyz ≠ []) {size : K} (hs : 0 < size) {vs : List (Voxel K)}
    (hv : createVoxels xyz size = .ok vs) (qs : List (V3 K)) (r : K) :
    ∃ rows, ballQuery ball frozen vs qs r = .ok rows ∧ rows.length = qs.length ∧
      ∀ (i : Nat) q row, qs[i]? = some q → rows[i]? = some row →
        row.Nodup ∧ (∀ id, id ∈ row ↔ ∃ v ∈ vs, v.id = id ∧ ∃ c, IsCentre v.points c ∧ Reaches r q c) ∧
        ∃ near : List (Voxel K), near.Nodup ∧ (∀ v, v ∈ near ↔ v ∈ vs ∧ ∃ c, IsCentre v.points c ∧ Reaches r q c) ∧
          pointsFromVoxelSet vs row = .ok (near.flatMap Voxel.points) := by
  obtain ⟨vs', h1, hn, hp, -, -⟩ := C52_voxels_partition_points hne hs
  rw [hv] at h1
  cases h1
  have hcen : ∀ v ∈ vs, ∀ q, (∃ c, IsCentre v.points c ∧ Reaches r q c) ↔ Reaches r q (meanPoint v.points) := by
    intro v hv q
    constructor
    · rintro ⟨c, hc, h⟩
      rwa [(isCentre_iff (hp v hv).1 c).1 hc] at h
    · exact fun h => ⟨_, (isCentre_iff (hp v hv).1 _).2 rfl, h⟩
  set ref := vs.map (fun v => meanPoint v.points) with href
  have hin : ∀ c ∈ ball ref r qs, ∀ j ∈ c, j < vs.length := by
    intro c hc j hj
    obtain ⟨i, hi, rfl⟩ := List.mem_iff_getElem.1 hc
    have hi' : i < qs.length := hb.length ref r qs ▸ hi
    obtain ⟨q, hq, -⟩ := ((hb.row ref r qs i qs[i] _ (List.getElem?_eq_getElem hi') (List.getElem?_eq_getElem hi)).2 j).1 hj
    have := (List.getElem?_eq_some_iff.1 hq).1
    rwa [href, List.length_map] at this
  obtain ⟨rows, e1, e2, e3⟩ := ballRows_ok (frozen := frozen) vs (ball ref r qs) hin
  refine ⟨rows, e1, by rw [e2, hb.length], ?_⟩
  intro i q row hq hr
  have hi : i < (ball ref r qs).length := by
    rw [hb.length]
    exact (List.getElem?_eq_some_iff.1 hq).1
  obtain ⟨ids, rfl, e4⟩ := e3 i _ row (List.getElem?_eq_getElem hi) hr
  obtain ⟨-, hrow⟩ := hb.row ref r qs i q _ hq (List.getElem?_eq_getElem hi)
  have hmem : ∀ id, id ∈ frozen ids ↔ ∃ v ∈ vs, v.id = id ∧ ∃ c, IsCentre v.points c ∧ Reaches r q c := by
    intro id
    rw [hf.mem]
    have : id ∈ ids ↔ some id ∈ ids.map some := by simp
    rw [this, ← e4, List.mem_map]
    constructor
    · rintro ⟨j, hj, hid⟩
      obtain ⟨c, hc, h⟩ := (hrow j).1 hj
      rw [Option.map_eq_some_iff] at hid
      obtain ⟨v, hv', rfl⟩ := hid
      rw [href, List.getElem?_map, hv', Option.map_some, Option.some.injEq] at hc
      exact ⟨v, List.mem_of_getElem? hv', rfl, (hcen v (List.mem_of_getElem? hv') q).2 (hc ▸ h)⟩
    · rintro ⟨v, hv', rfl, h⟩
      obtain ⟨j, hj⟩ := List.mem_iff_getElem?.1 hv'
      refine ⟨j, (hrow j).2 ⟨meanPoint v.points, ?_, (hcen v hv' q).1 h⟩, ?_⟩
      · rw [href, List.getElem?_map, hj]
        rfl
      · rw [hj]
        rfl
  refine ⟨hf.nodup ids, hmem, ?_⟩
  obtain ⟨near, f1, f2, f3⟩ := pointsFrom_spec hn (frozen ids) (fun id hid => by
    obtain ⟨v, hv', h, -⟩ := (hmem id).1 hid
    exact ⟨v, hv', h⟩)
  refine ⟨near, List.Nodup.of_map Voxel.id (f1 ▸ hf.nodup ids), ?_, f3⟩
  intro v
  constructor
  · intro hvn
    have hid : v.id ∈ frozen ids := f1 ▸ List.mem_map_of_mem hvn
    obtain ⟨w, hw, he, h⟩ := (hmem _).1 hid
    rw [List.inj_on_of_nodup_map hn hw (f2 v hvn) he] at h
    exact ⟨f2 v hvn, h⟩
  · rintro ⟨hv', h⟩
    have hid : v.id ∈ frozen ids := (hmem _).2 ⟨v, hv', rfl, h⟩
    rw [← f1, List.mem_map] at hid
    obtain ⟨w, hw, he⟩ := hid
    rwa [← List.inj_on_of_nodup_map hn (f2 w hw) hv' he]

/-- **C208**: if the radius reaches all centres, the points found are all the points. -/
theorem C208_all {ball : BallSearch K} (hb : IsBallSearch ball) {frozen : List VoxelId → List VoxelId} (hf : IsFrozenset frozen)
    {xyz : List (V3 K)} (hne : xyz ≠ []) {size : K} (hs : 0 < size) {vs : List (Voxel K)}
    (hv : createVoxels xyz size = .ok vs) (q : V3 K) (r : K) (hr : ∀ v ∈ vs, ∃ c, IsCentre v.points c ∧ Reaches r q c) :
    ∃ row points, ballQuery ball frozen vs [q] r = .ok [row] ∧ pointsFromVoxelSet vs row = .ok points ∧ points.Perm xyz := by
  obtain ⟨rows, h1, h2, h3⟩ := C208_found hb hf hne hs hv [q] r
  obtain ⟨row, rfl⟩ := List.length_eq_one_iff.1 (h2.trans rfl)
  obtain ⟨-, -, near, h4, h5, h6⟩ := h3 0 q row rfl rfl
  refine ⟨row, _, h1, h6, ?_⟩
  obtain ⟨vs', e1, hn, -, hp, -⟩ := C52_voxels_partition_points hne hs
  rw [hv] at e1
  cases e1
  have : near.Perm vs := (List.perm_ext_iff_of_nodup h4 (List.Nodup.of_map _ hn)).2 fun v =>
    ⟨fun h => ((h5 v).1 h).1, fun h => (h5 v).2 ⟨h, hr v h⟩⟩
  exact (this.flatMap_right _).trans hp

theorem centre_close {points : List (V3 K)} {c : V3 K} (hc : IsCentre points c) {p : V3 K} (hp : p ∈ points) {size : K}
    (h : ∀ q ∈ points, |p.x - q.x| < size ∧ |p.y - q.y| < size ∧ |p.z - q.z| < size) :
    |p.x - c.x| ≤ size ∧ |p.y - c.y| ≤ size ∧ |p.z - c.z| ≤ size := by
  have hpos : 0 < points.length := List.length_pos_of_mem hp
  have hn : (0 : K) < points.length := by exact_mod_cast hpos
  have key : ∀ (f : V3 K → K) (a s : K), (points.length : K) * a = (points.map f).sum → (∀ q ∈ points, |f p - f q| < s) →
      |f p - a| ≤ s := by
    intro f a s ha hs
    have h1 : (points.length : K) * (f p - a) = (points.map (fun q => f p - f q)).sum := by
      rw [mul_sub, ha]
      have : ∀ l : List (V3 K), (l.length : K) * f p - (l.map f).sum = (l.map (fun q => f p - f q)).sum := by
        intro l
        induction l with
        | nil => simp
        | cons q l ih =>
          simp only [List.map_cons, List.sum_cons, List.length_cons, Nat.cast_add, Nat.cast_one]
          rw [← ih]
          ring
      exact this points
    have h2 : |(points.map (fun q => f p - f q)).sum| ≤ (points.length : K) * s := by
      have : ∀ l : List (V3 K), (∀ q ∈ l, |f p - f q| < s) → |(l.map (fun q => f p - f q)).sum| ≤ (l.length : K) * s := by
        intro l
        induction l with
        | nil => simp
        | cons q l ih =>
          intro hl
          have a1 := ih (fun q hq => hl q (List.mem_cons_of_mem _ hq))
          have a2 := hl q List.mem_cons_self
          simp only [List.map_cons, List.sum_cons, List.length_cons, Nat.cast_add, Nat.cast_one]
          calc _ ≤ |f p - f q| + |(l.map (fun q => f p - f q)).sum| := abs_add_le _ _
            _ ≤ s + l.length * s := add_le_add a2.le a1
            _ = _ := by ring
      exact this points hs
    rw [← h1, abs_mul, abs_of_pos hn] at h2
    exact le_of_mul_le_mul_left h2 hn
  have hx : (points.map V3.x).sum = points.sum.x := by
    clear hc hp h hpos hn key
    induction points with
    | nil => rfl
    | cons q l ih => simp [ih]
  have hy : (points.map V3.y).sum = points.sum.y := by
    clear hc hp h hpos hn key hx
    induction points with
    | nil => rfl
    | cons q l ih => simp [ih]
  have hz : (points.map V3.z).sum = points.sum.z := by
    clear hc hp h hpos hn key hx hy
    induction points with
    | nil => rfl
    | cons q l ih => simp [ih]
  unfold IsCentre at hc
  refine ⟨key V3.x c.x size ?_ fun q hq => (h q hq).1, key V3.y c.y size ?_ fun q hq => (h q hq).2.1,
    key V3.z c.z size ?_ fun q hq => (h q hq).2.2⟩
  · rw [hx, ← hc]; simp
  · rw [hy, ← hc]; simp
  · rw [hz, ← hc]; simp

/-- **C208**, positive part of the last sentence: if no axis is longer than nine voxels, a search around a point with a
radius of at least the diagonal of a voxel finds the point itself.
Missing for the full property: longer axes, for which it is false (`C208_own_point_missed`). -/
theorem C208_own_point_partial {ball : BallSearch K} (hb : IsBallSearch ball) {frozen : List VoxelId → List VoxelId}
    (hf : IsFrozenset frozen) {xyz : List (V3 K)} {size : K} (hs : 0 < size)
    (hx : ∀ p ∈ xyz, ∀ q ∈ xyz, p.x - q.x ≤ 9 * size ∧ p.y - q.y ≤ 9 * size ∧ p.z - q.z ≤ 9 * size)
    {vs : List (Voxel K)} (hv : createVoxels xyz size = .ok vs) {p : V3 K} (hp : p ∈ xyz) {r : K} (hr0 : 0 ≤ r)
    (hr : 3 * size ^ 2 ≤ r ^ 2) :
    ∃ row points, ballQuery ball frozen vs [p] r = .ok [row] ∧ pointsFromVoxelSet vs row = .ok points ∧ p ∈ points := by
  have hne : xyz ≠ [] := List.ne_nil_of_mem hp
  obtain ⟨rows, h1, h2, h3⟩ := C208_found hb hf hne hs hv [p] r
  obtain ⟨row, rfl⟩ := List.length_eq_one_iff.1 (h2.trans rfl)
  obtain ⟨-, -, near, h4, h5, h6⟩ := h3 0 p row rfl rfl
  refine ⟨row, _, h1, h6, ?_⟩
  obtain ⟨vs', e1, -, hpts, hperm, -⟩ := C52_voxels_partition_points hne hs
  rw [hv] at e1
  cases e1
  obtain ⟨v, hvm, hpv⟩ := List.mem_flatMap.1 (hperm.mem_iff.2 hp)
  refine List.mem_flatMap.2 ⟨v, (h5 v).2 ⟨hvm, meanPoint v.points, (isCentre_iff (hpts v hvm).1 _).2 rfl, hr0, ?_⟩, hpv⟩
  obtain ⟨c1, c2, c3⟩ := centre_close ((isCentre_iff (hpts v hvm).1 _).2 rfl) hpv
    (fun q hq => C53_points_of_a_voxel_are_close_partial hs hx hv v hvm p hpv q hq)
  have sq : ∀ a : K, |a| ≤ size → a ^ 2 ≤ size ^ 2 := fun a ha => by
    rw [← sq_abs]
    exact pow_le_pow_left₀ (abs_nonneg a) ha 2
  have := sq _ c1
  have := sq _ c2
  have := sq _ c3
  linarith

/-- **C208 is false of the code** for longer axes: cells far apart share a voxel, whose centre is then far away from both.
Around the point (1, 11, 1) nothing is found within twice the size of a voxel, for every search tree. -/
theorem C208_own_point_missed :
    ∃ (xyz : List (V3 ℚ)) (size r : ℚ) (vs : List (Voxel ℚ)) (p : V3 ℚ), 0 < size ∧ 0 ≤ r ∧ 3 * size ^ 2 ≤ r ^ 2 ∧ p ∈ xyz ∧
      createVoxels xyz size = .ok vs ∧ ∀ (ball : BallSearch ℚ) (frozen : List VoxelId → List VoxelId), IsBallSearch ball →
        IsFrozenset frozen → ∃ row points, ballQuery ball frozen vs [p] r = .ok [row] ∧
          pointsFromVoxelSet vs row = .ok points ∧ p ∉ points := by
  refine ⟨exFar, 1, 2, [⟨['0', '0', '0'], [⟨0, 0, 0⟩]⟩, ⟨['1', '1', '1', '1'], [⟨1, 11, 1⟩, ⟨11, 1, 1⟩]⟩], ⟨1, 11, 1⟩,
    by decide, by decide, by decide +kernel, by simp [exFar], by decide +kernel, ?_⟩
  intro ball frozen hb hf
  obtain ⟨rows, h1, h2, h3⟩ := C208_found hb hf (xyz := exFar) (by simp [exFar]) (size := 1) (by decide)
    (vs := [⟨['0', '0', '0'], [⟨0, 0, 0⟩]⟩, ⟨['1', '1', '1', '1'], [⟨1, 11, 1⟩, ⟨11, 1, 1⟩]⟩]) (by decide +kernel) [⟨1, 11, 1⟩] 2
  obtain ⟨row, rfl⟩ := List.length_eq_one_iff.1 (h2.trans rfl)
  obtain ⟨-, -, near, h4, h5, h6⟩ := h3 0 _ row rfl rfl
  refine ⟨row, _, h1, h6, ?_⟩
  intro hmem
  obtain ⟨v, hv, hp⟩ := List.mem_flatMap.1 hmem
  obtain ⟨hvs, c, hc, -, hd⟩ := (h5 v).1 hv
  rcases List.mem_cons.1 hvs with rfl | hvs
  · simp at hp
  · rw [List.mem_singleton] at hvs
    subst hvs
    rw [isCentre_iff (by simp)] at hc
    subst hc
    revert hd
    decide +kernel

/-! ### The hypotheses are met -/

/-- looking at all centres -/
def bruteBall : BallSearch K := fun ref r test =>
  test.map fun p => (List.range ref.length).filter fun j => decide (∃ q ∈ ref[j]?, Reaches r p q)

theorem bruteBall_ok : IsBallSearch (bruteBall (K := K)) where
  length _ _ _ := List.length_map _
  row ref r test i p c hp hc := by
    simp only [bruteBall, List.getElem?_map, hp, Option.map_some, Option.some.injEq] at hc
    subst hc
    refine ⟨List.nodup_range.filter _, fun j => ?_⟩
    simp only [List.mem_filter, List.mem_range, decide_eq_true_eq, Option.mem_def]
    constructor
    · rintro ⟨-, h⟩
      exact h
    · rintro ⟨q, hq, h⟩
      exact ⟨(List.getElem?_eq_some_iff.1 hq).1, q, hq, h⟩

theorem dedup_frozenset : IsFrozenset List.dedup := ⟨List.nodup_dedup, fun _ _ => List.mem_dedup⟩

/-- four points in three voxels: around the origin two of the voxels, with three points -/
example : createVoxels [(⟨0, 0, 0⟩ : V3 ℚ), ⟨1/2, 0, 0⟩, ⟨3/2, 0, 0⟩, ⟨1, 0, 0⟩] 1 =
      .ok [⟨['0', '0', '0'], [⟨0, 0, 0⟩]⟩, ⟨['1', '0', '0'], [⟨1/2, 0, 0⟩, ⟨1, 0, 0⟩]⟩, ⟨['2', '0', '0'], [⟨3/2, 0, 0⟩]⟩] ∧
    (ballQuery bruteBall List.dedup [⟨['0', '0', '0'], [(⟨0, 0, 0⟩ : V3 ℚ)]⟩, ⟨['1', '0', '0'], [⟨1/2, 0, 0⟩, ⟨1, 0, 0⟩]⟩,
      ⟨['2', '0', '0'], [⟨3/2, 0, 0⟩]⟩] [⟨0, 0, 0⟩] 1).toOption = some [[['0', '0', '0'], ['1', '0', '0']]] ∧
    (pointsFromVoxelSet [⟨['0', '0', '0'], [(⟨0, 0, 0⟩ : V3 ℚ)]⟩, ⟨['1', '0', '0'], [⟨1/2, 0, 0⟩, ⟨1, 0, 0⟩]⟩,
      ⟨['2', '0', '0'], [⟨3/2, 0, 0⟩]⟩] [['0', '0', '0'], ['1', '0', '0']]).toOption
      = some [⟨0, 0, 0⟩, ⟨1/2, 0, 0⟩, ⟨1, 0, 0⟩] := by
  decide +kernel

end TC
