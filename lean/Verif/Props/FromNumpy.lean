import Verif.Model.Compare
import Verif.Spec.IO
import Verif.Props.Construct
import Verif.Props.Arc
import Verif.Proofs.Interp
import Verif.Props.TrajFile
/-!
# C187: trajectories from arrays
-/
namespace TC
set_option linter.unusedSectionVars false
variable {K R : Type} [Field K] [LinearOrder K] [IsStrictOrderedRing K]

theorem fromQuats_ok {io : IoLib K R} (hio : IsIoLib io) : ∀ quat : List (Q4 K), (∀ q ∈ quat, q.normSq ≠ 0) →
    ∃ rot, mapE io.fromQuat quat = .ok rot ∧ List.Forall₂ (fun q r => io.rot.toMat r = quatMat q) quat rot
  | [], _ => ⟨[], rfl, .nil⟩
  | q :: l, h => by
    obtain ⟨r, hr, hm⟩ := hio.fromQuat q (h q List.mem_cons_self)
    obtain ⟨rs, hrs, hms⟩ := fromQuats_ok hio l (fun a ha => h a (List.mem_cons_of_mem _ ha))
    exact ⟨r :: rs, by simp only [mapE, hr, hrs]; rfl, .cons hm hms⟩

theorem fromQuats_zero {io : IoLib K R} (hio : IsIoLib io) : ∀ quat : List (Q4 K), (∃ q ∈ quat, q.normSq = 0) →
    mapE io.fromQuat quat = .error .valueError
  | [], ⟨_, h, _⟩ => by cases h
  | q :: l, ⟨a, ha, h0⟩ => by
    by_cases hq : q.normSq = 0
    · simp only [mapE, hio.zero q hq]; rfl
    · obtain ⟨r, hr, -⟩ := hio.fromQuat q hq
      rcases List.mem_cons.1 ha with rfl | ha
      · exact absurd h0 hq
      · simp only [mapE, hr, fromQuats_zero hio l ⟨a, ha, h0⟩]; rfl

/-- **C187**, what the trajectory consists of -/
theorem C187_arrays {io : IoLib K R} (hio : IsIoLib io) (counter : Nat) {xyz : List (V3 K)} {quat : List (Q4 K)} {tstamps : List K} (epsg : Int)
    (hne : xyz ≠ []) (hq : quat.length = xyz.length) (ht : tstamps.length = xyz.length) (h0 : ∀ q ∈ quat, q.normSq ≠ 0) :
    ∃ T rot, Traj.fromNumpy io counter xyz quat tstamps epsg = .ok T ∧ Coherent T ∧ T.pos = xyz ∧ T.tstamps = tstamps ∧ T.epsg = epsg ∧
      T.sorting = .time ∧ T.rot = some rot ∧ List.Forall₂ (fun q r => io.rot.toMat r = quatMat q) quat rot ∧
      IsTravelled io.nrm xyz T.arc := by
  obtain ⟨rot, hr, hm⟩ := fromQuats_ok hio quat h0
  obtain ⟨T, h1, h2, h3, h4, h5, -, -, h6, h7, h8⟩ := new_eq io.nrm counter
    ({ pos := xyz, epsg := epsg, rot := some rot, tstamps := some tstamps } : TrajArgs K R)
    (by rintro r ⟨⟩; exact hm.length_eq.symm.trans hq) hne (by rintro t ⟨⟩; exact ht)
  refine ⟨T, rot, ?_, h2, h3, h5, h8, h7, h4, hm, ?_⟩
  · unfold Traj.fromNumpy
    rw [if_neg (by rw [hq]; exact fun h => hne (List.length_eq_zero_iff.1 h)), hr]
    exact h1
  · rw [h6 (by intro l h; cases h)]
    exact C13_arc_lengths_are_travelled_distance _ _ hne

/-- **C187**, what is refused: no orientations, another number of orientations than positions, a quaternion that is zero -/
theorem C187_refused {io : IoLib K R} (hio : IsIoLib io) (counter : Nat) {xyz : List (V3 K)} {quat : List (Q4 K)} (tstamps : List K) (epsg : Int)
    (h : quat = [] ∨ quat.length ≠ xyz.length ∨ ∃ q ∈ quat, q.normSq = 0) :
    Traj.fromNumpy io counter xyz quat tstamps epsg = .error .valueError := by
  unfold Traj.fromNumpy
  by_cases he : quat.length = 0
  · rw [if_pos he]; rfl
  rw [if_neg he]
  by_cases hz : ∃ q ∈ quat, q.normSq = 0
  · rw [fromQuats_zero hio quat hz]; rfl
  · obtain ⟨rot, hr, hm⟩ := fromQuats_ok hio quat (fun q hq h => hz ⟨q, hq, h⟩)
    rw [hr]
    have hl : quat.length ≠ xyz.length := by
      rcases h with rfl | h | h
      · exact absurd rfl he
      · exact h
      · exact absurd h hz
    show Traj.new io.nrm counter ({ pos := xyz, epsg := epsg, rot := some rot, tstamps := some tstamps } : TrajArgs K R) = _
    unfold Traj.new
    simp only [bind, Except.bind, if_pos (show rot.length ≠ xyz.length by rw [← hm.length_eq]; exact hl)]
    rfl

/-- **C187 is false of the code**: two timestamps are accepted for any larger number of poses. -/
theorem C187_two_timestamps_accepted {io : IoLib K R} (hio : IsIoLib io) (counter : Nat) {xyz : List (V3 K)} {quat : List (Q4 K)} (t₁ t₂ : K) (epsg : Int)
    (h3 : 3 ≤ xyz.length) (hq : quat.length = xyz.length) (h0 : ∀ q ∈ quat, q.normSq ≠ 0) :
    ∃ T, Traj.fromNumpy io counter xyz quat [t₁, t₂] epsg = .ok T ∧ T.pos = xyz ∧ T.tstamps = [t₁, t₂] ∧ ¬ Coherent T := by
  obtain ⟨rot, hr, hm⟩ := fromQuats_ok hio quat h0
  have hg : gradient3d xyz [t₁, t₂] = .ok ((diffs xyz).map (fun v => (t₂ - t₁)⁻¹ • v) ++ [0]) := by
    unfold gradient3d bcastDiv
    rw [if_neg (by rw [diffs_length, diffs_length]; simp; omega)]
    rfl
  have hnew : ∃ T, Traj.fromNumpy io counter xyz quat [t₁, t₂] epsg = .ok T ∧ T.pos = xyz ∧ T.tstamps = [t₁, t₂] := by
    unfold Traj.fromNumpy
    rw [if_neg (by omega), hr]
    show ∃ T, Traj.new io.nrm counter ({ pos := xyz, epsg := epsg, rot := some rot, tstamps := some [t₁, t₂] } : TrajArgs K R) = .ok T ∧ _
    unfold Traj.new
    simp only [bind, Except.bind, if_neg (show ¬ rot.length ≠ xyz.length by rw [← hm.length_eq]; exact not_not.2 hq), hg]
    exact ⟨_, rfl, rfl, rfl⟩
  obtain ⟨T, e, e1, e2⟩ := hnew
  refine ⟨T, e, e1, e2, fun h => ?_⟩
  have := h.pos
  rw [e1, e2] at this
  simp at this
  omega

/-- **C187**, otherwise a wrong number of timestamps is refused: more than two, for at least three poses -/
theorem C187_other_numbers_refused {io : IoLib K R} (hio : IsIoLib io) (counter : Nat) {xyz : List (V3 K)} {quat : List (Q4 K)} {tstamps : List K}
    (epsg : Int) (h3 : 3 ≤ xyz.length) (ht : tstamps.length ≠ xyz.length) (h2 : tstamps.length ≠ 2) :
    Traj.fromNumpy io counter xyz quat tstamps epsg = .error .valueError := by
  by_cases hbad : quat = [] ∨ quat.length ≠ xyz.length ∨ ∃ q ∈ quat, q.normSq = 0
  · exact C187_refused hio counter tstamps epsg hbad
  simp only [not_or, not_not, not_exists, not_and] at hbad
  obtain ⟨-, hq, h0⟩ := hbad
  obtain ⟨rot, hr, hm⟩ := fromQuats_ok hio quat h0
  have hg : gradient3d xyz tstamps = .error .valueError := by
    unfold gradient3d bcastDiv
    rw [if_neg (by rw [diffs_length, diffs_length]; omega)]
    have hd := diffs_length xyz
    have hd' := diffs_length tstamps
    split
    · next s hs => rw [hs] at hd'; simp at hd'; omega
    · split
      · next v hv => rw [hv] at hd; simp at hd; omega
      · rfl
  unfold Traj.fromNumpy
  rw [if_neg (by omega), hr]
  show Traj.new io.nrm counter ({ pos := xyz, epsg := epsg, rot := some rot, tstamps := some tstamps } : TrajArgs K R) = _
  unfold Traj.new
  simp only [bind, Except.bind, if_neg (show ¬ rot.length ≠ xyz.length by rw [← hm.length_eq]; exact not_not.2 hq), hg]

/-- three poses with two timestamps -/
example : ∃ T, Traj.fromNumpy realIo 0 [⟨0, 0, 0⟩, ⟨1, 0, 0⟩, ⟨3, 0, 0⟩] [⟨0, 0, 0, 1⟩, ⟨0, 0, 1, 1⟩, ⟨0, 0, 0, 2⟩] [0, 1] 0 = .ok T ∧
    T.pos.length = 3 ∧ T.tstamps = [0, 1] := by
  obtain ⟨T, h, h1, h2, -⟩ := C187_two_timestamps_accepted realIo_ok 0 (xyz := [⟨0, 0, 0⟩, ⟨1, 0, 0⟩, ⟨3, 0, 0⟩])
    (quat := [⟨0, 0, 0, 1⟩, ⟨0, 0, 1, 1⟩, ⟨0, 0, 0, 2⟩]) 0 1 0 (by simp) rfl (by
      intro q hq
      simp only [List.mem_cons, List.not_mem_nil, or_false] at hq
      rcases hq with rfl | rfl | rfl <;> norm_num [Q4.normSq])
  exact ⟨T, h, by rw [h1]; rfl, h2⟩

/-- three poses with three timestamps -/
example : ∃ T, Traj.fromNumpy realIo 0 [⟨0, 0, 0⟩, ⟨1, 0, 0⟩, ⟨3, 0, 0⟩] [⟨0, 0, 0, 1⟩, ⟨0, 0, 1, 1⟩, ⟨0, 0, 0, 2⟩] [0, 1, 2] 25832 = .ok T ∧
    Coherent T ∧ T.epsg = 25832 := by
  obtain ⟨T, -, h, h1, -, -, h2, -⟩ := C187_arrays realIo_ok 0 (xyz := [⟨0, 0, 0⟩, ⟨1, 0, 0⟩, ⟨3, 0, 0⟩])
    (quat := [⟨0, 0, 0, 1⟩, ⟨0, 0, 1, 1⟩, ⟨0, 0, 0, 2⟩]) (tstamps := [0, 1, 2]) 25832 (by simp) rfl rfl (by
      intro q hq
      simp only [List.mem_cons, List.not_mem_nil, or_false] at hq
      rcases hq with rfl | rfl | rfl <;> norm_num [Q4.normSq])
  exact ⟨T, h, h1, h2⟩

end TC
