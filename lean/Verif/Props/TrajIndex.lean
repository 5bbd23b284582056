import Verif.Proofs.ApplyIndex
import Mathlib.Algebra.Order.Ring.Rat
import Mathlib.Algebra.Field.Rat
/-!
# C01–C03: selecting samples
-/
namespace TC
variable {K R : Type} [Field K] [LinearOrder K]

/-- Python index `i` names position `j` of a sequence of length `n`: either directly, or counted
from the end. -/
def Denotes (n : Nat) (i : Int) (j : Nat) : Prop := j < n ∧ (i = (j : Int) ∨ i = (j : Int) - (n : Int))

theorem pyPos_eq_some_iff {n : Nat} {i : Int} {j : Nat} :
    pyPos n i = some j ↔ Denotes n i j := by
  unfold pyPos Denotes
  split <;> split <;> simp <;> omega

theorem pyPos_ne_none_iff {n : Nat} {i : Int} :
    pyPos n i ≠ none ↔ -(n : Int) ≤ i ∧ i < (n : Int) := by
  unfold pyPos
  split <;> split <;> simp <;> omega

/-- **C01.** -/
theorem C01_apply_index_keeps_channels_in_step (T : Traj K R) (hT : Coherent T) (idx : List Int)
    (hv : ∀ i ∈ idx, -(T.tstamps.length : Int) ≤ i ∧ i < (T.tstamps.length : Int))
    (hk : T.rot = none ∨ idx ≠ []) :
    ∃ T', Returns (Traj.applyIndex (.ints idx)) T () T' ∧
      Coherent T' ∧ SameMeta T T' ∧
      (samples T').length = idx.length ∧
      ∀ (k : Nat) (i : Int) (j : Nat), idx[k]? = some i → Denotes T.tstamps.length i j →
        (samples T')[k]? = (samples T)[j]? := by
  have hval : IndexValid T.tstamps.length (.ints idx) := fun i hi => pyPos_ne_none_iff.2 (hv i hi)
  refine ⟨pickTraj (.ints idx) T, ?_, pickTraj_coherent hT, pickTraj_sameMeta _ _, ?_, ?_⟩
  · refine applyIndex_eq hT hval (hk.imp_right ?_)
    intro hi hc
    obtain ⟨r, hr⟩ := npTake_isOk (l := T.tstamps) (idx := idx) hval
    simp only [pick] at hc
    rw [filterMap_eq_of_map_eq (npTake_ok_iff.1 hr)] at hc
    have := npTake_length hr
    rw [hc] at this
    exact hi (List.length_eq_zero_iff.1 this.symm)
  · have hl := samples_length hT
    obtain ⟨r, hr⟩ := npTake_isOk (l := samples T) (idx := idx) (by rw [hl]; exact hval)
    rw [samples_pickTraj hT]
    simp only [pick]
    rw [filterMap_eq_of_map_eq (npTake_ok_iff.1 hr), npTake_length hr]
  · intro k i j hk hd
    have hl := samples_length hT
    obtain ⟨r, hr⟩ := npTake_isOk (l := samples T) (idx := idx) (by rw [hl]; exact hval)
    rw [samples_pickTraj hT]
    simp only [pick]
    rw [filterMap_eq_of_map_eq (npTake_ok_iff.1 hr)]
    obtain ⟨j', h1, _, h3⟩ := npTake_getElem? hr hk
    rw [hl] at h1
    rw [pyPos_eq_some_iff.2 hd] at h1
    rw [h3, Option.some.inj h1]

/-- **C02**, integer positions. -/
theorem C02_apply_index_out_of_range_changes_nothing (T : Traj K R) (hT : Coherent T)
    (idx : List Int) (i : Int) (hi : i ∈ idx)
    (hbad : ¬ (-(T.tstamps.length : Int) ≤ i ∧ i < (T.tstamps.length : Int))) :
    Raises (Traj.applyIndex (.ints idx)) T .indexError T := by
  refine applyIndex_invalid hT ?_
  intro hv
  exact hbad (pyPos_ne_none_iff.1 (hv i hi))

/-- **C02**, boolean masks. -/
theorem C02_apply_mask_wrong_length_changes_nothing (T : Traj K R) (hT : Coherent T)
    (m : List Bool) (hbad : m.length ≠ T.tstamps.length) :
    Raises (Traj.applyIndex (.mask m)) T .indexError T := by
  exact applyIndex_invalid hT hbad

/-- **C03**, keeping the window. -/
theorem C03_crop_keeps_exactly_the_window (T : Traj K R) (hT : Coherent T) (a b : K)
    (hk : T.rot = none ∨ ∃ t ∈ T.tstamps, a ≤ t ∧ t ≤ b) :
    ∃ T', Returns (Traj.crop a b false) T () T' ∧ Coherent T' ∧ SameMeta T T' ∧
      samples T' = (samples T).filter (fun s => decide (a ≤ s.t ∧ s.t ≤ b)) := by
  refine ⟨_, crop_eq hT a b false (by simpa using hk), pickTraj_coherent hT, pickTraj_sameMeta _ _, ?_⟩
  rw [samples_pickTraj hT]
  simp only [pick]
  conv_lhs => rw [← samples_map_t hT]
  rw [maskList_map_self]
  rfl

/-- **C03**, cutting the window out. -/
theorem C03_crop_inverse_keeps_exactly_the_rest (T : Traj K R) (hT : Coherent T) (a b : K)
    (hk : T.rot = none ∨ ∃ t ∈ T.tstamps, ¬ (a ≤ t ∧ t ≤ b)) :
    ∃ T', Returns (Traj.crop a b true) T () T' ∧ Coherent T' ∧ SameMeta T T' ∧
      samples T' = (samples T).filter (fun s => !decide (a ≤ s.t ∧ s.t ≤ b)) := by
  refine ⟨_, crop_eq hT a b true (hk.imp_right (fun ⟨t, h1, h2⟩ => ⟨t, h1, by simpa using not_and_or.1 h2⟩)), pickTraj_coherent hT, pickTraj_sameMeta _ _, ?_⟩
  rw [samples_pickTraj hT]
  simp only [pick]
  conv_lhs => rw [← samples_map_t hT]
  rw [maskList_map_self]
  rfl

/-- **C03**, the two results together contain every sample once. -/
theorem C03_crop_and_inverse_partition (T : Traj K R) (hT : Coherent T) (a b : K)
    (hk : T.rot = none ∨ ((∃ t ∈ T.tstamps, a ≤ t ∧ t ≤ b) ∧ ∃ t ∈ T.tstamps, ¬ (a ≤ t ∧ t ≤ b))) :
    ∃ T₁ T₂, Returns (Traj.crop a b false) T () T₁ ∧ Returns (Traj.crop a b true) T () T₂ ∧
      (samples T₁ ++ samples T₂).Perm (samples T) := by
  obtain ⟨T₁, h1, _, _, e1⟩ := C03_crop_keeps_exactly_the_window T hT a b (hk.imp_right And.left)
  obtain ⟨T₂, h2, _, _, e2⟩ := C03_crop_inverse_keeps_exactly_the_rest T hT a b (hk.imp_right And.right)
  refine ⟨T₁, T₂, h1, h2, ?_⟩
  rw [e1, e2]
  exact List.filter_append_perm _ _

/-- **C97**, trajectories without orientations: a selection of no samples gives an empty
trajectory. -/
theorem C97_empty_selection_without_orientations_partial (T : Traj K R) (hT : Coherent T)
    (hr : T.rot = none) :
    ∃ T', Returns (Traj.applyIndex (.ints [])) T () T' ∧ Coherent T' ∧ SameMeta T T' ∧
      samples T' = [] := by
  obtain ⟨T', h1, h2, h3, h4, _⟩ := C01_apply_index_keeps_channels_in_step T hT [] (by simp) (Or.inl hr)
  exact ⟨T', h1, h2, h3, List.length_eq_zero_iff.1 (by simpa using h4)⟩

/-- **C97 fails** for every trajectory with orientations: the call raises and leaves a trajectory
whose timestamps and positions are gone but whose orientations, arc lengths and speeds are not. -/
theorem C97_empty_selection_with_orientations_tears (T : Traj K R) (hT : Coherent T) (r : List R)
    (hr : T.rot = some r) (hne : T.tstamps ≠ []) :
    ∃ T', Raises (Traj.applyIndex (.ints [])) T .valueError T' ∧ T' ≠ T ∧ ¬ Coherent T' ∧
      T'.tstamps = [] ∧ T'.pos = [] ∧ T'.rot = T.rot ∧ T'.arc = T.arc ∧ T'.speed = T.speed := by
  refine ⟨{ T with tstamps := [], pos := [] }, ?_, ?_, ?_, rfl, rfl, rfl, rfl, rfl⟩
  · unfold Raises
    rw [applyIndex_eq' hT, if_pos (by simp [IndexValid]), if_pos (by simp [hr, pick])]
  · intro h
    exact hne (congrArg Traj.tstamps h).symm
  · intro h
    have h1 := h.arc
    simp only [List.length_nil] at h1
    rw [hT.arc, List.length_eq_zero_iff] at h1
    exact hne h1

/-! ### The hypotheses are met -/

/-- a three-sample trajectory with orientations (numbers stand for rotations) -/
def exT : Traj ℚ Nat :=
  { tstamps := [0, 1, 2], pos := [⟨0, 0, 0⟩, ⟨1, 0, 0⟩, ⟨3, 0, 0⟩], rot := some [10, 11, 12],
    arc := [0, 1, 3], speed := [⟨1, 0, 0⟩, ⟨2, 0, 0⟩, ⟨0, 0, 0⟩], sorting := .time,
    name := "ex", epsg := 0 }

theorem exT_coherent : Coherent exT := ⟨rfl, rfl, rfl, by rintro r ⟨⟩; rfl⟩

example : Coherent exT ∧ ∀ i ∈ [-1, 0, 0], -(exT.tstamps.length : Int) ≤ i ∧
    i < (exT.tstamps.length : Int) := ⟨exT_coherent, by decide⟩
example : (Traj.applyIndex (.ints [-1, 0, 0]) exT).2.tstamps = [2, 0, 0] := by decide +kernel
example : Coherent exT ∧ (3 : Int) ∈ [0, 3] ∧
    ¬ (-(exT.tstamps.length : Int) ≤ 3 ∧ 3 < (exT.tstamps.length : Int)) :=
  ⟨exT_coherent, by decide, by decide⟩
example : [true].length ≠ exT.tstamps.length := by decide
example : (Traj.crop 1 2 false exT).2.arc = [1, 3] := by decide +kernel
example : (∃ t ∈ exT.tstamps, (1 : ℚ) ≤ t ∧ t ≤ 2) ∧ ∃ t ∈ exT.tstamps, ¬ ((1 : ℚ) ≤ t ∧ t ≤ 2) :=
  ⟨⟨1, by decide +kernel, by decide +kernel⟩, 0, by decide +kernel, by decide +kernel⟩
example : Coherent ({ exT with rot := none } : Traj ℚ Nat) ∧ ({ exT with rot := none } : Traj ℚ Nat).rot = none :=
  ⟨⟨rfl, rfl, rfl, by rintro r ⟨⟩⟩, rfl⟩
example : exT.rot = some [10, 11, 12] ∧ exT.tstamps ≠ [] := ⟨rfl, by decide +kernel⟩
example : (Traj.crop 5 6 false exT).1 = .error .valueError := by decide +kernel

end TC
