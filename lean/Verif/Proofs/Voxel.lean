import Verif.Model.Voxel
import Verif.Proofs.Perm
import Mathlib.Algebra.Order.Floor.Semiring
import Mathlib.Data.Rat.Floor
import Mathlib.Tactic.FieldSimp
import Mathlib.Tactic.Linarith
import Mathlib.Tactic.IntervalCases
/-!
# Closed forms for voxels
-/
namespace TC
set_option linter.unusedSectionVars false
variable {K : Type} [Field K] [LinearOrder K] [IsStrictOrderedRing K] [FloorRing K]

/-! ### Python's min and max -/

omit [FloorRing K] in
theorem foldl_min_le (l : List K) (a : K) : l.foldl min a ≤ a ∧ ∀ b ∈ l, l.foldl min a ≤ b := by
  induction l generalizing a with
  | nil => simp
  | cons c l ih =>
    obtain ⟨h1, h2⟩ := ih (min a c)
    simp only [List.foldl_cons, List.mem_cons]
    refine ⟨h1.trans (min_le_left _ _), ?_⟩
    rintro b (rfl | hb)
    · exact h1.trans (min_le_right _ _)
    · exact h2 b hb

omit [FloorRing K] in
theorem foldl_min_mem (l : List K) (a : K) : l.foldl min a ∈ a :: l := by
  induction l generalizing a with
  | nil => simp
  | cons c l ih =>
    have := ih (min a c)
    simp only [List.foldl_cons, List.mem_cons] at this ⊢
    rcases this with h | h
    · rw [h]
      rcases min_choice a c with h | h <;> simp [h]
    · exact Or.inr (Or.inr h)

omit [FloorRing K] in
theorem le_foldl_max (l : List K) (a : K) : a ≤ l.foldl max a ∧ ∀ b ∈ l, b ≤ l.foldl max a := by
  induction l generalizing a with
  | nil => simp
  | cons c l ih =>
    obtain ⟨h1, h2⟩ := ih (max a c)
    simp only [List.foldl_cons, List.mem_cons]
    refine ⟨(le_max_left _ _).trans h1, ?_⟩
    rintro b (rfl | hb)
    · exact (le_max_right _ _).trans h1
    · exact h2 b hb

omit [FloorRing K] in
theorem foldl_max_mem (l : List K) (a : K) : l.foldl max a ∈ a :: l := by
  induction l generalizing a with
  | nil => simp
  | cons c l ih =>
    have := ih (max a c)
    simp only [List.foldl_cons, List.mem_cons] at this ⊢
    rcases this with h | h
    · rw [h]
      rcases max_choice a c with h | h <;> simp [h]
    · exact Or.inr (Or.inr h)

omit [FloorRing K] in
theorem pyMin_spec {l : List K} (h : l ≠ []) : ∃ a, pyMin l = .ok a ∧ a ∈ l ∧ ∀ b ∈ l, a ≤ b := by
  cases l with
  | nil => exact absurd rfl h
  | cons a l =>
    refine ⟨_, rfl, foldl_min_mem l a, ?_⟩
    obtain ⟨h1, h2⟩ := foldl_min_le l a
    intro b hb
    rcases List.mem_cons.1 hb with rfl | hb
    · exact h1
    · exact h2 b hb

omit [FloorRing K] in
theorem pyMax_spec {l : List K} (h : l ≠ []) : ∃ a, pyMax l = .ok a ∧ a ∈ l ∧ ∀ b ∈ l, b ≤ a := by
  cases l with
  | nil => exact absurd rfl h
  | cons a l =>
    refine ⟨_, rfl, foldl_max_mem l a, ?_⟩
    obtain ⟨h1, h2⟩ := le_foldl_max l a
    intro b hb
    rcases List.mem_cons.1 hb with rfl | hb
    · exact h1
    · exact h2 b hb

/-! ### Cells -/

theorem countP_range_lt (m N : Nat) : (List.range N).countP (fun i => decide (i < m)) = min m N := by
  induction N with
  | zero => simp
  | succ N ih =>
    rw [List.range_succ, List.countP_append, ih]
    by_cases h : N < m
    · simp [h]; omega
    · simp [h]; omega

/-- the cell number is the distance from the smallest coordinate in voxel sizes, rounded up -/
theorem cell_eq {a b size x : K} (hs : 0 < size) (hb : x ≤ b) {g : List K}
    (hg : arange a (b + size) size = .ok g) : searchLeft g x = ⌈(x - a) / size⌉₊ := by
  unfold arange at hg
  rw [if_neg hs.ne'] at hg
  obtain rfl := Except.ok.inj hg
  unfold searchLeft
  rw [List.countP_map]
  have : ((fun y => decide (y < x)) ∘ fun i : Nat => a + (i : K) * size) =
      fun i : Nat => decide (i < ⌈(x - a) / size⌉₊) := by
    funext i
    simp only [Function.comp]
    rw [decide_eq_decide, Nat.lt_ceil, lt_div_iff₀ hs]
    constructor <;> intro h <;> linarith
  rw [this, countP_range_lt]
  apply min_eq_left
  unfold arangeLen
  rw [Int.ceil_toNat]
  apply Nat.ceil_mono
  apply div_le_div_of_nonneg_right _ hs.le
  linarith

theorem cell_close {a size x y : K} (hs : 0 < size) (hx : a ≤ x) (hy : a ≤ y)
    (h : ⌈(x - a) / size⌉₊ = ⌈(y - a) / size⌉₊) : |x - y| < size := by
  have key : ∀ x y : K, a ≤ x → a ≤ y → ⌈(x - a) / size⌉₊ = ⌈(y - a) / size⌉₊ → x - y < size := by
    intro x y hx hy h
    have h1 : (x - a) / size ≤ ⌈(x - a) / size⌉₊ := Nat.le_ceil _
    rw [h] at h1
    have h2 : (⌈(y - a) / size⌉₊ : K) < (y - a) / size + 1 :=
      Nat.ceil_lt_add_one (div_nonneg (by linarith) hs.le)
    have h3 : (x - a) / size < (y - a) / size + 1 := lt_of_le_of_lt h1 h2
    rw [← sub_lt_iff_lt_add', ← sub_div, div_lt_iff₀ hs] at h3
    linarith
  rw [abs_lt]
  have h1 := key x y hx hy h
  have h2 := key y x hy hx h.symm
  constructor <;> linarith

/-- the grids exist for a non-empty point list and the cell numbers have the closed form -/
theorem voxelGrid_spec {c : List K} (hne : c ≠ []) {size : K} (hs : 0 < size) :
    ∃ g a, voxelGrid c size = .ok g ∧ a ∈ c ∧ (∀ x ∈ c, a ≤ x) ∧
      ∀ x ∈ c, searchLeft g x = ⌈(x - a) / size⌉₊ := by
  obtain ⟨a, h1, h2, h3⟩ := pyMin_spec hne
  obtain ⟨b, g1, g2, g3⟩ := pyMax_spec hne
  unfold voxelGrid
  simp only [h1, g1, bind, Except.bind]
  have : ∃ g, arange a (b + size) size = .ok g := by
    unfold arange
    rw [if_neg hs.ne']
    exact ⟨_, rfl⟩
  obtain ⟨g, hg⟩ := this
  exact ⟨g, a, hg, h2, h3, fun x hx => cell_eq hs (g3 x hx) hg⟩

/-! ### Filling -/

theorem addToVoxel_ids (id : VoxelId) (p : V3 K) (vs : List (Voxel K)) :
    (addToVoxel id p vs).map Voxel.id =
      if id ∈ vs.map Voxel.id then vs.map Voxel.id else vs.map Voxel.id ++ [id] := by
  induction vs with
  | nil => simp [addToVoxel]
  | cons v vs ih =>
    unfold addToVoxel
    by_cases h : v.id = id
    · simp [h]
    · rw [if_neg h, List.map_cons, ih]
      have h' : id ≠ v.id := fun e => h e.symm
      by_cases hm : id ∈ vs.map Voxel.id
      · simp only [hm, if_true, List.map_cons, List.mem_cons, or_true]
      · simp only [hm, if_false, List.map_cons, List.mem_cons, or_false, h', List.cons_append]

theorem addToVoxel_perm (id : VoxelId) (p : V3 K) (vs : List (Voxel K)) :
    ((addToVoxel id p vs).flatMap Voxel.points).Perm (vs.flatMap Voxel.points ++ [p]) := by
  induction vs with
  | nil => simp [addToVoxel]
  | cons v vs ih =>
    unfold addToVoxel
    by_cases h : v.id = id
    · rw [if_pos h]
      simp only [List.flatMap_cons, List.append_assoc]
      exact (List.perm_append_comm).append_left _
    · rw [if_neg h]
      simp only [List.flatMap_cons, List.append_assoc]
      exact ih.append_left _

/-- the voxels hold the points seen so far, by cell -/
structure Filled (f : V3 K → VoxelId) (done : List (V3 K)) (vs : List (Voxel K)) : Prop where
  nodup : (vs.map Voxel.id).Nodup
  points : ∀ v ∈ vs, v.points = done.filter (fun p => decide (f p = v.id)) ∧ v.points ≠ []
  covered : ∀ p ∈ done, f p ∈ vs.map Voxel.id
  perm : (vs.flatMap Voxel.points).Perm done

theorem addToVoxel_mem {id : VoxelId} {p : V3 K} {vs : List (Voxel K)} {w : Voxel K}
    (hw : w ∈ addToVoxel id p vs) :
    (w ∈ vs ∧ w.id ≠ id) ∨ (w.id = id ∧ ∃ v ∈ vs, v.id = id ∧ w.points = v.points ++ [p]) ∨
      (w = ⟨id, [p]⟩ ∧ id ∉ vs.map Voxel.id) ∨ (w ∈ vs ∧ ¬ (vs.map Voxel.id).Nodup) := by
  induction vs with
  | nil =>
    simp only [addToVoxel, List.mem_singleton] at hw
    exact Or.inr (Or.inr (Or.inl ⟨hw, by simp⟩))
  | cons v vs ih =>
    unfold addToVoxel at hw
    by_cases h : v.id = id
    · rw [if_pos h] at hw
      rcases List.mem_cons.1 hw with rfl | hw
      · exact Or.inr (Or.inl ⟨h, v, by simp, h, rfl⟩)
      · by_cases hwid : w.id = id
        · refine Or.inr (Or.inr (Or.inr ⟨List.mem_cons_of_mem _ hw, ?_⟩))
          intro hn
          rw [List.map_cons, List.nodup_cons] at hn
          exact hn.1 (List.mem_map.2 ⟨w, hw, hwid.trans h.symm⟩)
        · exact Or.inl ⟨List.mem_cons_of_mem _ hw, hwid⟩
    · rw [if_neg h] at hw
      rcases List.mem_cons.1 hw with rfl | hw
      · exact Or.inl ⟨by simp, h⟩
      · rcases ih hw with ⟨h1, h2⟩ | ⟨h1, u, h2, h3⟩ | ⟨h1, h2⟩ | ⟨h1, h2⟩
        · exact Or.inl ⟨List.mem_cons_of_mem _ h1, h2⟩
        · exact Or.inr (Or.inl ⟨h1, u, List.mem_cons_of_mem _ h2, h3⟩)
        · refine Or.inr (Or.inr (Or.inl ⟨h1, ?_⟩))
          rw [List.map_cons, List.mem_cons]
          rintro (e | e)
          · exact h e.symm
          · exact h2 e
        · refine Or.inr (Or.inr (Or.inr ⟨List.mem_cons_of_mem _ h1, ?_⟩))
          intro hn
          rw [List.map_cons, List.nodup_cons] at hn
          exact h2 hn.2

theorem Filled.add {f : V3 K → VoxelId} {done : List (V3 K)} {vs : List (Voxel K)}
    (h : Filled f done vs) (p : V3 K) : Filled f (done ++ [p]) (addToVoxel (f p) p vs) := by
  refine ⟨?_, ?_, ?_, ?_⟩
  · rw [addToVoxel_ids]
    split_ifs with hm
    · exact h.nodup
    · rw [List.nodup_append]
      refine ⟨h.nodup, by simp, ?_⟩
      rintro a ha b hb rfl
      exact hm (by rw [List.mem_singleton] at hb; rwa [← hb])
  · intro w hw
    rcases addToVoxel_mem hw with ⟨h1, h2⟩ | ⟨h1, v, h2, h3, h4⟩ | ⟨rfl, h2⟩ | ⟨h1, h2⟩
    · obtain ⟨e1, e2⟩ := h.points w h1
      refine ⟨?_, e2⟩
      rw [List.filter_append, List.filter_cons_of_neg (by simpa using fun e => h2 e.symm)]
      simpa using e1
    · obtain ⟨e1, e2⟩ := h.points v h2
      refine ⟨?_, by rw [h4]; simp⟩
      rw [h4, List.filter_append, List.filter_cons_of_pos (by simp [h1]), e1, h1, h3]
      rfl
    · refine ⟨?_, by simp⟩
      rw [List.filter_append, List.filter_cons_of_pos (by simp)]
      have : done.filter (fun q => decide (f q = f p)) = [] := by
        rw [List.filter_eq_nil_iff]
        intro q hq hc
        apply h2
        rw [← of_decide_eq_true hc]
        exact h.covered q hq
      simp only [this]
      rfl
    · exact absurd h.nodup h2
  · intro q hq
    rw [addToVoxel_ids]
    rcases List.mem_append.1 hq with hq | hq
    · have := h.covered q hq
      split_ifs
      · exact this
      · exact List.mem_append_left _ this
    · rw [List.mem_singleton] at hq
      subst hq
      split_ifs with hm
      · exact hm
      · simp
  · exact (addToVoxel_perm _ _ _).trans (h.perm.append_right _)

theorem fillVoxels_filled (gx gy gz : List K) (ps done : List (V3 K)) (vs : List (Voxel K))
    (h : Filled (fun p => voxelId (searchLeft gx p.x) (searchLeft gy p.y) (searchLeft gz p.z)) done vs) :
    Filled (fun p => voxelId (searchLeft gx p.x) (searchLeft gy p.y) (searchLeft gz p.z))
      (done ++ ps) (fillVoxels gx gy gz ps vs) := by
  induction ps generalizing done vs with
  | nil => simpa [fillVoxels] using h
  | cons p ps ih =>
    have := ih (done ++ [p]) _ (h.add p)
    rwa [List.append_assoc] at this

/-- the cells of a point list -/
theorem createVoxels_spec {xyz : List (V3 K)} (hne : xyz ≠ []) {size : K} (hs : 0 < size) :
    ∃ (vs : List (Voxel K)) (o : V3 K) (f : V3 K → VoxelId), createVoxels xyz size = .ok vs ∧
      Filled f xyz vs ∧ (∃ q ∈ xyz, q.x = o.x) ∧ (∃ q ∈ xyz, q.y = o.y) ∧ (∃ q ∈ xyz, q.z = o.z) ∧
      ∀ p ∈ xyz, o.x ≤ p.x ∧ o.y ≤ p.y ∧ o.z ≤ p.z ∧
        f p = voxelId ⌈(p.x - o.x) / size⌉₊ ⌈(p.y - o.y) / size⌉₊ ⌈(p.z - o.z) / size⌉₊ := by
  obtain ⟨gx, ax, h1, h2, h3, h4⟩ := voxelGrid_spec (c := xyz.map V3.x) (by simpa using hne) hs
  obtain ⟨gy, ay, i1, i2, i3, i4⟩ := voxelGrid_spec (c := xyz.map V3.y) (by simpa using hne) hs
  obtain ⟨gz, az, j1, j2, j3, j4⟩ := voxelGrid_spec (c := xyz.map V3.z) (by simpa using hne) hs
  refine ⟨_, ⟨ax, ay, az⟩, _, by simp only [createVoxels, h1, i1, j1, bind, Except.bind]; rfl,
    by simpa using fillVoxels_filled gx gy gz xyz [] [] ⟨by simp, by simp, by simp, by simp⟩,
    by simpa using h2, by simpa using i2, by simpa using j2, ?_⟩
  intro p hp
  have m1 := List.mem_map_of_mem (f := V3.x) hp
  have m2 := List.mem_map_of_mem (f := V3.y) hp
  have m3 := List.mem_map_of_mem (f := V3.z) hp
  refine ⟨h3 _ m1, i3 _ m2, j3 _ m3, ?_⟩
  simp only [h4 _ m1, i4 _ m2, j4 _ m3]

/-! ### Ids -/

theorem toDigits_small {n : Nat} (h : n < 10) : Nat.toDigits 10 n = [n.digitChar] := by
  interval_cases n <;> rfl

theorem voxelId_inj {x y z x' y' z' : Nat} (hx : x < 10) (hy : y < 10) (hz : z < 10)
    (hx' : x' < 10) (hy' : y' < 10) (hz' : z' < 10) (h : voxelId x y z = voxelId x' y' z') :
    x = x' ∧ y = y' ∧ z = z' := by
  have key : ∀ a b : Fin 10, a.1.digitChar = b.1.digitChar → a.1 = b.1 := by decide
  simp only [voxelId, toDigits_small hx, toDigits_small hy, toDigits_small hz, toDigits_small hx',
    toDigits_small hy', toDigits_small hz', List.cons_append, List.nil_append, List.cons.injEq,
    and_true] at h
  exact ⟨key ⟨x, hx⟩ ⟨x', hx'⟩ h.1, key ⟨y, hy⟩ ⟨y', hy'⟩ h.2.1, key ⟨z, hz⟩ ⟨z', hz'⟩ h.2.2⟩

end TC
