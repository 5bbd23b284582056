import Verif.Proofs.Voxel
/-!
# C52, C53: voxels
-/
namespace TC
set_option linter.unusedSectionVars false
variable {K : Type} [Field K] [LinearOrder K] [IsStrictOrderedRing K] [FloorRing K]

/-- **C52**: the voxels have distinct ids, none is empty, they keep the order of the points, together
they hold every point exactly once, and no point is in two voxels. -/
theorem C52_voxels_partition_points {xyz : List (V3 K)} (hne : xyz ≠ []) {size : K} (hs : 0 < size) :
    ∃ vs, createVoxels xyz size = .ok vs ∧ (vs.map Voxel.id).Nodup ∧
      (∀ v ∈ vs, v.points ≠ [] ∧ v.points.Sublist xyz) ∧
      (vs.flatMap Voxel.points).Perm xyz ∧
      ∀ v ∈ vs, ∀ w ∈ vs, ∀ p, p ∈ v.points → p ∈ w.points → v = w := by
  obtain ⟨vs, o, f, h1, h2, _⟩ := createVoxels_spec hne hs
  refine ⟨vs, h1, h2.nodup, ?_, h2.perm, ?_⟩
  · intro v hv
    obtain ⟨e1, e2⟩ := h2.points v hv
    exact ⟨e2, e1 ▸ List.filter_sublist⟩
  · intro v hv w hw p hp hp'
    rw [(h2.points v hv).1] at hp
    rw [(h2.points w hw).1] at hp'
    have a := of_decide_eq_true (List.mem_filter.1 hp).2
    have b := of_decide_eq_true (List.mem_filter.1 hp').2
    exact List.inj_on_of_nodup_map h2.nodup hv hw (a.symm.trans b)

/-- without points the call raises -/
theorem C52_no_points (size : K) : createVoxels ([] : List (V3 K)) size = .error .valueError := rfl

/-- **C53**, positive part: if no axis is longer than nine voxels, two points of one voxel differ by
less than the voxel size in every coordinate.
Missing for the full property: longer axes, for which it is false. -/
theorem C53_points_of_a_voxel_are_close_partial {xyz : List (V3 K)} {size : K} (hs : 0 < size)
    (hx : ∀ p ∈ xyz, ∀ q ∈ xyz, p.x - q.x ≤ 9 * size ∧ p.y - q.y ≤ 9 * size ∧ p.z - q.z ≤ 9 * size)
    {vs : List (Voxel K)} (hv : createVoxels xyz size = .ok vs) :
    ∀ v ∈ vs, ∀ p ∈ v.points, ∀ q ∈ v.points,
      |p.x - q.x| < size ∧ |p.y - q.y| < size ∧ |p.z - q.z| < size := by
  have hne : xyz ≠ [] := by
    rintro rfl
    rw [C52_no_points] at hv
    cases hv
  obtain ⟨vs', o, f, h1, h2, ⟨ox, hox, hox'⟩, ⟨oy, hoy, hoy'⟩, ⟨oz, hoz, hoz'⟩, h6⟩ :=
    createVoxels_spec hne hs
  rw [hv] at h1
  obtain rfl := Except.ok.inj h1
  have small : ∀ c : K, c ≤ 9 * size → ⌈c / size⌉₊ < 10 := by
    intro c hc
    have : c / size ≤ ((9 : Nat) : K) := by
      rw [div_le_iff₀ hs]
      exact_mod_cast hc
    have := Nat.ceil_le.2 this
    omega
  intro v hv p hp q hq
  rw [(h2.points v hv).1, List.mem_filter] at hp hq
  have e := (of_decide_eq_true hp.2).trans (of_decide_eq_true hq.2).symm
  obtain ⟨p1, p2, p3, p4⟩ := h6 p hp.1
  obtain ⟨q1, q2, q3, q4⟩ := h6 q hq.1
  rw [p4, q4] at e
  have bx := (hx p hp.1 ox hox).1
  have by' := (hx p hp.1 oy hoy).2.1
  have bz := (hx p hp.1 oz hoz).2.2
  have cx := (hx q hq.1 ox hox).1
  have cy := (hx q hq.1 oy hoy).2.1
  have cz := (hx q hq.1 oz hoz).2.2
  rw [hox'] at bx cx
  rw [hoy'] at by' cy
  rw [hoz'] at bz cz
  obtain ⟨i1, i2, i3⟩ := voxelId_inj (small _ bx) (small _ by') (small _ bz) (small _ cx)
    (small _ cy) (small _ cz) e
  exact ⟨cell_close hs p1 q1 i1, cell_close hs p2 q2 i2, cell_close hs p3 q3 i3⟩

/-- three points, two of them far apart -/
def exFar : List (V3 ℚ) := [⟨0, 0, 0⟩, ⟨1, 11, 1⟩, ⟨11, 1, 1⟩]

/-- **C53**, the counterexample: the cells (1, 11, 1) and (11, 1, 1) both have the id "1111". -/
theorem C53_points_of_a_voxel_are_close_fails :
    ¬ ∀ (xyz : List (V3 ℚ)) (size : ℚ) (vs : List (Voxel ℚ)), 0 < size →
      createVoxels xyz size = .ok vs → ∀ v ∈ vs, ∀ p ∈ v.points, ∀ q ∈ v.points,
      |p.x - q.x| ≤ size ∧ |p.y - q.y| ≤ size ∧ |p.z - q.z| ≤ size := by
  intro h
  have := h exFar 1 [⟨['0', '0', '0'], [⟨0, 0, 0⟩]⟩, ⟨['1', '1', '1', '1'], [⟨1, 11, 1⟩, ⟨11, 1, 1⟩]⟩]
    (by decide) (by decide +kernel) ⟨['1', '1', '1', '1'], [⟨1, 11, 1⟩, ⟨11, 1, 1⟩]⟩ (by simp)
    ⟨1, 11, 1⟩ (by simp) ⟨11, 1, 1⟩ (by simp)
  revert this
  decide +kernel

example : createVoxels [(⟨0, 0, 0⟩ : V3 ℚ), ⟨1/2, 0, 0⟩, ⟨3/2, 0, 0⟩, ⟨1, 0, 0⟩] 1 =
    .ok [⟨['0', '0', '0'], [⟨0, 0, 0⟩]⟩, ⟨['1', '0', '0'], [⟨1/2, 0, 0⟩, ⟨1, 0, 0⟩]⟩,
      ⟨['2', '0', '0'], [⟨3/2, 0, 0⟩]⟩] := by decide +kernel
example : ∀ p ∈ [(⟨0, 0, 0⟩ : V3 ℚ), ⟨1/2, 0, 0⟩, ⟨3/2, 0, 0⟩], ∀ q ∈ [(⟨0, 0, 0⟩ : V3 ℚ), ⟨1/2, 0, 0⟩, ⟨3/2, 0, 0⟩],
    p.x - q.x ≤ 9 * 1 ∧ p.y - q.y ≤ 9 * 1 ∧ p.z - q.z ≤ 9 * 1 := by decide +kernel

end TC
