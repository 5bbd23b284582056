import Verif.Model.Merge
import Verif.Spec.Merge
import Verif.Props.Construct
import Verif.Props.Views
import Verif.Props.Arc
/-!
# C44–C46: merging
-/
namespace TC
set_option linter.unusedSectionVars false
variable {K R : Type} [Field K] [LinearOrder K] [IsStrictOrderedRing K]

theorem poses_eq {T : Traj K R} (h : Coherent T) :
    poses T = T.tstamps.zip (T.pos.zip (rotColumn T.tstamps.length T.rot)) := by
  have h1 := rotColumn_length h
  apply List.ext_getElem?
  intro i
  unfold poses samples
  simp only [List.getElem?_map, List.zip, List.getElem?_zipWith]
  by_cases hi : i < T.tstamps.length
  · have e1 := List.getElem?_eq_getElem hi
    have e2 := List.getElem?_eq_getElem (l := T.pos) (i := i) (by rw [h.pos]; exact hi)
    have e3 := List.getElem?_eq_getElem (l := rotColumn T.tstamps.length T.rot) (i := i)
      (by rw [h1]; exact hi)
    have e4 := List.getElem?_eq_getElem (l := T.arc) (i := i) (by rw [h.arc]; exact hi)
    have e5 := List.getElem?_eq_getElem (l := T.speed) (i := i) (by rw [h.speed]; exact hi)
    simp [e1, e2, e3, e4, e5]
  · have e1 := List.getElem?_eq_none (l := T.tstamps) (i := i) (by omega)
    simp [e1]

theorem hasOrientation_iff {T : Traj K R} (h : Coherent T) (hne : T.tstamps ≠ []) :
    T.hasOrientation = T.rot.isSome := by
  unfold Traj.hasOrientation
  cases hr : T.rot with
  | none => rfl
  | some r =>
    have : 0 < r.length := by rw [h.rot r hr]; exact List.length_pos_of_ne_nil hne
    simpa using this

/-- the rows contributed by a trajectory in the regular case -/
def quatRows (one : R) (T : Traj K R) : List R := T.rot.getD (List.replicate T.pos.length one)

theorem mergeQuat_eq (L : RotLib K R) {T : Traj K R} (h : Coherent T) (hne : T.tstamps ≠ []) :
    mergeQuat L T = .ok (quatRows L.one T) := by
  unfold mergeQuat quatRows
  rw [hasOrientation_iff h hne]
  cases hr : T.rot with
  | none =>
    have : T.pos.length ≠ 0 := by
      rw [h.pos]; exact (List.length_pos_of_ne_nil hne).ne'
    simp [Traj.len, this]
  | some r => simp

theorem mergeQuats_eq (L : RotLib K R) {Ts : List (Traj K R)}
    (h : ∀ T ∈ Ts, Coherent T ∧ T.tstamps ≠ []) :
    mergeQuats L Ts = .ok (Ts.flatMap (quatRows L.one)) := by
  induction Ts with
  | nil => rfl
  | cons T Ts ih =>
    have hT := h T (by simp)
    unfold mergeQuats
    rw [mergeQuat_eq L hT.1 hT.2, ih (fun U hU => h U (by simp [hU]))]
    rfl

theorem quatRows_length {one : R} {T : Traj K R} (h : Coherent T) :
    (quatRows one T).length = T.pos.length := by
  unfold quatRows
  cases hr : T.rot with
  | none => simp
  | some r => simp [h.rot r hr, h.pos]

theorem flatMap_length_congr {α β γ : Type} {Ts : List γ} {f : γ → List α} {g : γ → List β}
    (h : ∀ T ∈ Ts, (f T).length = (g T).length) : (Ts.flatMap f).length = (Ts.flatMap g).length := by
  rw [List.length_flatMap, List.length_flatMap]
  congr 1
  exact List.map_congr_left h

theorem zip_flatMap {α β γ : Type} {Ts : List γ} {f : γ → List α} {g : γ → List β}
    (h : ∀ T ∈ Ts, (f T).length = (g T).length) :
    (Ts.flatMap f).zip (Ts.flatMap g) = Ts.flatMap (fun T => (f T).zip (g T)) := by
  induction Ts with
  | nil => rfl
  | cons T Ts ih =>
    simp only [List.flatMap_cons]
    rw [List.zip_append (h T (by simp)), ih (fun U hU => h U (by simp [hU]))]

theorem rotColumn_filled {one : R} {T : Traj K R} (h : Coherent T) :
    (rotColumn T.tstamps.length T.rot).map (fun o => some (o.getD one)) =
      (quatRows one T).map some := by
  unfold quatRows
  cases hr : T.rot with
  | none => simp [rotColumn, h.pos]
  | some r => simp [rotColumn]

/-- the merged trajectory before it is sorted -/
theorem merge_eq (L : RotLib K R) (nrm : V3 K → K) {argsort : List K → List Nat}
    (hs : IsArgsort argsort) (pop : List Int → Int) {Ts : List (Traj K R)} (hne : Ts ≠ [])
    (h : ∀ T ∈ Ts, Coherent T ∧ T.tstamps ≠ []) :
    ∃ M, Coherent M ∧ M.tstamps = Ts.flatMap Traj.tstamps ∧ M.pos = Ts.flatMap Traj.pos ∧
      M.rot = (if Ts.any (fun T => T.rot.isSome) then some (Ts.flatMap (quatRows L.one)) else none) ∧
      M.arc = lengthsFromXyz nrm M.pos ∧ M.sorting = .time ∧ M.epsg = pop (Ts.map Traj.epsg) ∧
      M.tstamps ≠ [] ∧
      mergeTrajectories L nrm argsort pop Ts =
        .ok (pickTraj (.ints ((argsort M.tstamps).map (fun i : Nat => (i : Int)))) M) := by
  have hany : Ts.any Traj.hasOrientation = Ts.any (fun T => T.rot.isSome) := by
    rw [Bool.eq_iff_iff, List.any_eq_true, List.any_eq_true]
    constructor <;> rintro ⟨T, hT, h'⟩ <;> refine ⟨T, hT, ?_⟩ <;>
      simpa [hasOrientation_iff (h T hT).1 (h T hT).2] using h'
  obtain ⟨T0, hT0⟩ := List.exists_mem_of_ne_nil _ hne
  have hts0 : Ts.flatMap Traj.tstamps ≠ [] := by
    obtain ⟨t, ht⟩ := List.exists_mem_of_ne_nil _ (h T0 hT0).2
    exact List.ne_nil_of_mem (List.mem_flatMap.2 ⟨T0, hT0, ht⟩)
  have hlp : (Ts.flatMap Traj.tstamps).length = (Ts.flatMap Traj.pos).length :=
    flatMap_length_congr (fun T hT => (h T hT).1.pos.symm)
  have hlq : (Ts.flatMap (quatRows L.one)).length = (Ts.flatMap Traj.pos).length :=
    flatMap_length_congr (fun T hT => quatRows_length (h T hT).1)
  obtain ⟨M, e1, e2, e3, e4, e5, _, _, e6, e7, e8⟩ := new_eq nrm 0
    ({ pos := Ts.flatMap Traj.pos
       epsg := pop (Ts.map Traj.epsg)
       rot := if Ts.any Traj.hasOrientation then some (Ts.flatMap (quatRows L.one)) else none
       tstamps := some (Ts.flatMap Traj.tstamps)
       name := "Merged" } : TrajArgs K R)
    (by intro r hr; simp only at hr ⊢; split_ifs at hr; obtain rfl := Option.some.inj hr; exact hlq)
    (by
      simp only
      rw [← List.length_pos_iff_ne_nil, ← hlp]
      exact List.length_pos_of_ne_nil hts0)
    (by intro t ht; obtain rfl := Option.some.inj ht; exact hlp)
  have e5' : M.tstamps = Ts.flatMap Traj.tstamps := e5
  refine ⟨M, e2, e5', e3, by rw [e4]; simp only [hany], by rw [e3]; exact e6 (by simp), e7, e8,
    by rw [e5']; exact hts0, ?_⟩
  have hv := (hs M.tstamps).inRange
  unfold mergeTrajectories
  rw [if_neg (by simpa using hne)]
  simp only [bind, Except.bind, pure, Except.pure, mergeQuats_eq L h, e1]
  rw [applyIndex_eq e2 (indexValid_nat hv) (Or.inr ?_)]
  rw [pick_ints_nat hv, (hs M.tstamps).sel, ne_eq, ← List.length_eq_zero_iff, npSort_length,
    List.length_eq_zero_iff, e5']
  exact hts0

/-- **C44** -/
theorem C44_merge_keeps_samples_and_sorts (L : RotLib K R) (nrm : V3 K → K)
    {argsort : List K → List Nat} (hs : IsArgsort argsort) (pop : List Int → Int)
    {Ts : List (Traj K R)} (hne : Ts ≠ []) (h : ∀ T ∈ Ts, Coherent T ∧ T.tstamps ≠ []) :
    ∃ M, mergeTrajectories L nrm argsort pop Ts = .ok M ∧ Coherent M ∧
      M.tstamps.Pairwise (· ≤ ·) ∧
      (AnyRot Ts → M.rot.isSome = true ∧ (poses M).Perm ((Ts.flatMap poses).map (filled L.one))) ∧
      (¬ AnyRot Ts → M.rot = none ∧ (poses M).Perm (Ts.flatMap poses)) := by
  obtain ⟨M, hM, ht, hp, hr, _, _, _, _, hm⟩ := merge_eq L nrm hs pop hne h
  have hv := (hs M.tstamps).inRange
  refine ⟨_, hm, pickTraj_coherent hM, ?_, ?_⟩
  · simp only [pickTraj, pick_ints_nat hv, (hs M.tstamps).sel]
    exact npSort_sorted _
  have hperm : (poses (pickTraj (.ints ((argsort M.tstamps).map (fun i : Nat => (i : Int)))) M)).Perm
      (poses M) := by
    unfold poses
    rw [samples_pickTraj hM, pick_ints_nat (by rw [samples_length hM]; exact hv)]
    exact (sel_perm_self (by rw [samples_length hM]; exact (hs _).1)).map _
  have hcols : Ts.flatMap poses = (Ts.flatMap Traj.tstamps).zip ((Ts.flatMap Traj.pos).zip
      (Ts.flatMap (fun T => rotColumn T.tstamps.length T.rot))) := by
    rw [zip_flatMap (f := Traj.pos), zip_flatMap (f := Traj.tstamps)]
    · exact List.flatMap_congr (fun T hT => poses_eq (h T hT).1)
    · intro T hT; simp [rotColumn_length (h T hT).1, (h T hT).1.pos]
    · intro T hT; simp [rotColumn_length (h T hT).1, (h T hT).1.pos]
  constructor
  · intro ⟨T, hT, hTr⟩
    rw [if_pos (List.any_eq_true.2 ⟨T, hT, hTr⟩)] at hr
    refine ⟨by simp [pickTraj, hr], hperm.trans ?_⟩
    rw [poses_eq hM, hcols, ht, hp, hr]
    have e : (fun s : K × V3 K × Option R => filled L.one s) =
        Prod.map id (Prod.map id (fun o : Option R => some (o.getD L.one))) := rfl
    have : ((Ts.flatMap Traj.tstamps).zip ((Ts.flatMap Traj.pos).zip
        (Ts.flatMap (fun T => rotColumn T.tstamps.length T.rot)))).map (filled L.one) =
        (Ts.flatMap Traj.tstamps).zip ((Ts.flatMap Traj.pos).zip
          ((Ts.flatMap (fun T => rotColumn T.tstamps.length T.rot)).map
            (fun o : Option R => some (o.getD L.one)))) := by
      rw [show (filled L.one : K × V3 K × Option R → _) =
        Prod.map id (Prod.map id (fun o : Option R => some (o.getD L.one))) from rfl,
        ← List.zip_map, ← List.zip_map]
      simp
    rw [this, List.map_flatMap,
      List.flatMap_congr (fun T hT => rotColumn_filled (one := L.one) (h T hT).1)]
    simp [rotColumn, List.map_flatMap]
  · intro hno
    have hf : ¬ (Ts.any (fun T => T.rot.isSome) = true) := by
      intro hc
      obtain ⟨T, hT, hTr⟩ := List.any_eq_true.1 hc
      exact hno ⟨T, hT, hTr⟩
    rw [if_neg hf] at hr
    refine ⟨by simp [pickTraj, hr], hperm.trans ?_⟩
    rw [poses_eq hM, hcols, ht, hp, hr]
    have : Ts.flatMap (fun T => rotColumn T.tstamps.length T.rot) =
        List.replicate (Ts.flatMap Traj.tstamps).length none := by
      rw [List.eq_replicate_iff]
      refine ⟨flatMap_length_congr (fun T hT => rotColumn_length (h T hT).1), ?_⟩
      intro o ho
      obtain ⟨T, hT, ho⟩ := List.mem_flatMap.1 ho
      have : T.rot = none := by
        cases hTr : T.rot with
        | none => rfl
        | some r => exact absurd ⟨T, hT, by simp [hTr]⟩ hno
      rw [this] at ho
      exact List.eq_of_mem_replicate ho
    rw [this]
    rfl

/-- **C44**, an input without samples is rejected. -/
theorem C44_empty_input_raises (L : RotLib K R) (nrm : V3 K → K)
    {argsort : List K → List Nat} (pop : List Int → Int)
    {Ts : List (Traj K R)} (h : ∀ T ∈ Ts, Coherent T) (he : ∃ T ∈ Ts, T.tstamps = []) :
    mergeTrajectories L nrm argsort pop Ts = .error .valueError := by
  have hq : mergeQuats L Ts = .error .valueError := by
    induction Ts with
    | nil => simp at he
    | cons T Ts ih =>
      unfold mergeQuats
      by_cases hT : T.tstamps = []
      · have hl : T.pos.length = 0 := by rw [(h T (by simp)).pos, hT]; rfl
        have hm : mergeQuat L T = .error .valueError := by
          unfold mergeQuat Traj.hasOrientation Traj.len
          cases hr : T.rot with
          | none => simp [hl]
          | some r =>
            have : r.length = 0 := by rw [(h T (by simp)).rot r hr, hT]; rfl
            simp [hl, this]
        rw [hm]
        rfl
      · obtain ⟨U, hU, hU'⟩ := he
        rw [mergeQuat_eq L (h T (by simp)) hT]
        have := ih (fun V hV => h V (by simp [hV])) ⟨U, by
          rcases List.mem_cons.1 hU with rfl | hU
          · exact absurd hU' hT
          · exact hU, hU'⟩
        rw [this]
        rfl
  obtain ⟨T, hT, _⟩ := he
  have hne : Ts ≠ [] := List.ne_nil_of_mem hT
  unfold mergeTrajectories
  rw [if_neg (by simpa using hne)]
  simp only [bind, Except.bind, hq]

/-- **C45**, positive part: if the inputs follow one another in time (all timestamps strictly
ascend across the inputs), the arc lengths of the result are the distance travelled along it.
Missing for the full property: interleaved inputs, for which it is false. -/
theorem C45_merged_arc_lengths_partial (L : RotLib K R) (nrm : V3 K → K)
    {argsort : List K → List Nat} (hs : IsArgsort argsort) (pop : List Int → Int)
    {Ts : List (Traj K R)} (hne : Ts ≠ []) (h : ∀ T ∈ Ts, Coherent T ∧ T.tstamps ≠ [])
    (hasc : (Ts.flatMap Traj.tstamps).Pairwise (· < ·)) :
    ∃ M, mergeTrajectories L nrm argsort pop Ts = .ok M ∧ IsTravelled nrm M.pos M.arc ∧
      M.pos = Ts.flatMap Traj.pos := by
  obtain ⟨M, hM, ht, hp, _, ha, _, _, hn, hm⟩ := merge_eq L nrm hs pop hne h
  have hv := (hs M.tstamps).inRange
  have hid : argsort M.tstamps = List.range M.tstamps.length := by
    apply eq_range_of_sorted (hs _).1
    have h2 := (hs M.tstamps).2
    have h1 : (sel M.tstamps (argsort M.tstamps)).Pairwise (· ≤ ·) := h2
    rw [List.pairwise_iff_getElem] at h1 ⊢
    intro i j hi hj hij
    by_contra hc
    push Not at hc
    have hi' : (argsort M.tstamps)[i] < M.tstamps.length := hv _ (List.getElem_mem _)
    have hj' : (argsort M.tstamps)[j] < M.tstamps.length := hv _ (List.getElem_mem _)
    have hl := sel_length (l := M.tstamps) hv
    have key := h1 i j (by omega) (by omega) hij
    have ei := sel_getElem? (l := M.tstamps) hv i
    have ej := sel_getElem? (l := M.tstamps) hv j
    rw [List.getElem?_eq_getElem (by omega), List.getElem?_eq_getElem hi, Option.bind_some,
      List.getElem?_eq_getElem hi'] at ei
    rw [List.getElem?_eq_getElem (by omega), List.getElem?_eq_getElem hj, Option.bind_some,
      List.getElem?_eq_getElem hj'] at ej
    rw [Option.some.inj ei, Option.some.inj ej] at key
    rw [← ht] at hasc
    exact absurd key (not_le.2 ((List.pairwise_iff_getElem.1 hasc) _ _ hj' hi' hc))
  have hpne : M.pos ≠ [] := by
    rw [← List.length_pos_iff_ne_nil, hM.pos]
    exact List.length_pos_of_ne_nil hn
  refine ⟨_, hm, ?_, ?_⟩
  · simp only [pickTraj]
    rw [pick_ints_nat (by rw [hM.pos]; exact hv), pick_ints_nat (by rw [hM.arc]; exact hv), hid]
    conv => arg 2; rw [← hM.pos]
    conv => arg 3; rw [← hM.arc]
    rw [sel_range, sel_range, ha]
    exact C13_arc_lengths_are_travelled_distance nrm _ hpne
  · simp only [pickTraj]
    rw [pick_ints_nat (by rw [hM.pos]; exact hv), hid]
    conv => lhs; rw [← hM.pos]
    rw [sel_range, hp]

/-- two trajectories with interleaved timestamps, the second with orientations -/
def exMergeA : Traj ℚ Nat :=
  { tstamps := [0, 2], pos := [⟨0, 0, 0⟩, ⟨2, 0, 0⟩], rot := none, arc := [0, 2],
    speed := [⟨1, 0, 0⟩, 0], sorting := .time, name := "a", epsg := 0 }

def exMergeB : Traj ℚ Nat :=
  { tstamps := [1, 3], pos := [⟨1, 0, 0⟩, ⟨3, 0, 0⟩], rot := some [7, 8], arc := [0, 2],
    speed := [⟨1, 0, 0⟩, 0], sorting := .time, name := "b", epsg := 0 }

theorem exMergeA_coherent : Coherent exMergeA := ⟨rfl, rfl, rfl, by rintro r ⟨⟩⟩
theorem exMergeB_coherent : Coherent exMergeB := ⟨rfl, rfl, rfl, by rintro r ⟨⟩; rfl⟩

/-- **C45** is false: for two interleaved trajectories on a straight line the merged path has
length 3, the reported arc lengths are 0, 3, 2, 5 (differences along the concatenation). -/
theorem C45_merged_arc_lengths_wrong : ¬ ∀ (L : RotLib ℚ Nat) (nrm : V3 ℚ → ℚ)
    (argsort : List ℚ → List Nat) (pop : List Int → Int) (Ts : List (Traj ℚ Nat)) (M : Traj ℚ Nat),
    IsArgsort argsort → Ts ≠ [] → (∀ T ∈ Ts, Coherent T ∧ T.tstamps ≠ []) →
    mergeTrajectories L nrm argsort pop Ts = .ok M → IsTravelled nrm M.pos M.arc := by
  intro hall
  have := hall exLib (fun v => |v.x|) stableArgsort (fun l => l.headD 0) [exMergeA, exMergeB]
    { tstamps := [0, 1, 2, 3]
      pos := [⟨0, 0, 0⟩, ⟨1, 0, 0⟩, ⟨2, 0, 0⟩, ⟨3, 0, 0⟩]
      rot := some [exLib.one, 7, exLib.one, 8]
      arc := [0, 3, 2, 5]
      speed := [⟨1, 0, 0⟩, ⟨1, 0, 0⟩, ⟨1, 0, 0⟩, 0]
      sorting := .time
      name := "Merged"
      epsg := 0 }
    stableArgsort_isArgsort (by simp)
    (by
      intro T hT
      simp only [List.mem_cons, List.not_mem_nil, or_false] at hT
      rcases hT with rfl | rfl
      · exact ⟨exMergeA_coherent, by decide⟩
      · exact ⟨exMergeB_coherent, by decide⟩)
    (by decide +kernel)
  have h := this.step 0 ⟨0, 0, 0⟩ ⟨1, 0, 0⟩ 0 3 rfl rfl rfl rfl
  norm_num at h

/-- **C46**: mixed coordinate systems are accepted; the result gets the EPSG code of one of the
inputs, so the common one if they agree.  An empty list raises `KeyError`. -/
theorem C46_merged_epsg (L : RotLib K R) (nrm : V3 K → K)
    {argsort : List K → List Nat} (hs : IsArgsort argsort) {pop : List Int → Int}
    (hpop : ∀ l : List Int, l ≠ [] → pop l ∈ l)
    {Ts : List (Traj K R)} (h : ∀ T ∈ Ts, Coherent T ∧ T.tstamps ≠ []) :
    (Ts = [] → mergeTrajectories L nrm argsort pop Ts = .error .keyError) ∧
    (Ts ≠ [] → ∃ M, mergeTrajectories L nrm argsort pop Ts = .ok M ∧ (∃ T ∈ Ts, M.epsg = T.epsg) ∧
      ∀ e, (∀ T ∈ Ts, T.epsg = e) → M.epsg = e) := by
  constructor
  · rintro rfl
    rfl
  · intro hne
    obtain ⟨M, _, _, _, _, _, _, he, _, hm⟩ := merge_eq L nrm hs pop hne h
    have hmem := hpop (Ts.map Traj.epsg) (by simpa using hne)
    obtain ⟨T, hT, hTe⟩ := List.mem_map.1 hmem
    have he' : (pickTraj (.ints ((argsort M.tstamps).map (fun i : Nat => (i : Int)))) M).epsg
      = T.epsg := by
      rw [hTe, ← he]; rfl
    exact ⟨_, hm, ⟨T, hT, he'⟩, fun e hall => by rw [he', hall T hT]⟩

example : (mergeTrajectories exLib (fun v => |v.x|) stableArgsort (fun l => l.headD 0)
    [exMergeA, exMergeB]).map poses = .ok [(0, ⟨0, 0, 0⟩, some exLib.one), (1, ⟨1, 0, 0⟩, some 7),
      (2, ⟨2, 0, 0⟩, some exLib.one), (3, ⟨3, 0, 0⟩, some 8)] := by decide +kernel
example : AnyRot [exMergeA, exMergeB] := ⟨exMergeB, by simp, rfl⟩
example : (mergeTrajectories exLib (fun v => |v.x|) stableArgsort (fun l => l.headD 0)
    [exMergeA, ({ exMergeB with tstamps := [3, 4], epsg := 4326 } : Traj ℚ Nat)]).map
      (fun M => (M.arc, M.epsg)) = .ok ([0, 2, 3, 5], 0) := by decide +kernel

end TC
