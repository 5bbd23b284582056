import Verif.Proofs.Perm
import Verif.Props.TrajInterp
import Verif.Proofs.Intersect
/-!
# C15, C16, C24: sorted views, spatial sorting, approximation
-/
namespace TC
set_option linter.unusedSectionVars false
variable {K R : Type} [Field K] [LinearOrder K]

/-- the quantity a trajectory is sorted by, in stored order -/
def sortKey (T : Traj K R) : List K :=
  match T.sorting with
  | .time => T.tstamps
  | .arcLength => T.arc

theorem sortingIndex_isArgsort {argsort : List K → List Nat} (hA : IsArgsort argsort) (T : Traj K R) :
    IsArgsortOf (sortKey T) (T.sortingIndex argsort) := by
  unfold Traj.sortingIndex sortKey
  cases T.sorting <;> exact hA _

theorem sortKey_length {T : Traj K R} (hT : Coherent T) : (sortKey T).length = T.tstamps.length := by
  unfold sortKey
  cases T.sorting
  · rfl
  · exact hT.arc

theorem functionOf_eq {argsort : List K → List Nat} (hA : IsArgsort argsort) (T : Traj K R) :
    T.functionOf argsort = .ok (sel (sortKey T) (T.sortingIndex argsort)) := by
  have h := (sortingIndex_isArgsort hA T).inRange
  unfold Traj.functionOf sortKey at *
  cases hs : T.sorting <;> simp only [hs] at h ⊢ <;> exact take_eq h

theorem xyz_eq {argsort : List K → List Nat} (hA : IsArgsort argsort) {T : Traj K R}
    (hT : Coherent T) : T.xyz argsort = .ok (sel T.pos (T.sortingIndex argsort)) := by
  have h := (sortingIndex_isArgsort hA T).inRange
  unfold Traj.xyz
  apply take_eq
  rw [hT.pos, ← sortKey_length hT]
  exact h

/-- **C15**, the sorted view is ascending and the switching index undoes the view of the sorting
quantity and of the positions. -/
theorem C15_switching_index_undoes_sorting (argsort : List K → List Nat) (hA : IsArgsort argsort)
    (argsortN : List Nat → List Nat) (hN : IsArgsort argsortN) (T : Traj K R) (hT : Coherent T) :
    ∃ f x, T.functionOf argsort = .ok f ∧ T.xyz argsort = .ok x ∧ f.Pairwise (· ≤ ·) ∧
      Traj.take f (T.sortSwitchingIndex argsort argsortN) =
        .ok (match T.sorting with | .time => T.tstamps | .arcLength => T.arc) ∧
      Traj.take x (T.sortSwitchingIndex argsort argsortN) = .ok T.pos := by
  have hi := sortingIndex_isArgsort hA T
  have hp : (T.sortingIndex argsort).Perm (List.range T.tstamps.length) := by
    rw [← sortKey_length hT]; exact hi.1
  have hsw := argsort_perm_right hp (hN (T.sortingIndex argsort))
  refine ⟨_, _, functionOf_eq hA T, xyz_eq hA hT, hi.2, ?_, ?_⟩
  · have hr : InRange (sortKey T).length (T.sortingIndex argsort) := hi.inRange
    rw [take_eq (by rw [sel_length hr]; exact (hN _).inRange), sel_sel hr]
    unfold Traj.sortSwitchingIndex
    rw [hsw, ← sortKey_length hT, sel_range]
    rfl
  · have hr : InRange T.pos.length (T.sortingIndex argsort) := by
      rw [hT.pos, ← sortKey_length hT]; exact hi.inRange
    rw [take_eq (by rw [sel_length hr]; exact (hN _).inRange), sel_sel hr]
    unfold Traj.sortSwitchingIndex
    rw [hsw, ← hT.pos, sel_range]

/-- **C15**, orientations. -/
theorem C15_switching_index_undoes_orientations (argsort : List K → List Nat)
    (hA : IsArgsort argsort) (argsortN : List Nat → List Nat) (hN : IsArgsort argsortN)
    (T : Traj K R) (hT : Coherent T) (r : List R) (hr : T.rot = some r) :
    ∃ q, T.quat argsort = .ok (some q) ∧
      Traj.take q (T.sortSwitchingIndex argsort argsortN) = .ok r := by
  have hi := sortingIndex_isArgsort hA T
  have hp : (T.sortingIndex argsort).Perm (List.range T.tstamps.length) := by
    rw [← sortKey_length hT]; exact hi.1
  have hsw := argsort_perm_right hp (hN (T.sortingIndex argsort))
  have hrl := hT.rot r hr
  have hir : InRange r.length (T.sortingIndex argsort) := by
    rw [hrl, ← sortKey_length hT]; exact hi.inRange
  refine ⟨_, by rw [Traj.quat, hr]; simp only [take_eq hir]; rfl, ?_⟩
  rw [take_eq (by rw [sel_length hir]; exact (hN _).inRange), sel_sel hir]
  unfold Traj.sortSwitchingIndex
  rw [hsw, ← hrl, sel_range]

theorem pick_ints_nat {α : Type} {l : List α} {p : List Nat} (h : InRange l.length p) :
    pick (.ints (p.map (fun i : Nat => (i : Int)))) l = sel l p := by
  simp only [pick]
  unfold sel
  rw [List.filterMap_map]
  apply List.filterMap_congr
  intro i hi
  simp [pyPos_natCast (h i hi)]

theorem indexValid_nat {n : Nat} {p : List Nat} (h : InRange n p) :
    IndexValid n (.ints (p.map (fun i : Nat => (i : Int)))) := by
  intro i hi
  obtain ⟨j, hj, rfl⟩ := List.mem_map.1 hi
  rw [pyPos_natCast (h j hj)]
  simp

/-- the state after `sort_spatially` -/
theorem sortSpatially_eq {argsortN : List Nat → List Nat} (hN : IsArgsort argsortN)
    {sortMls : List (V3 K) → Except Err (List Nat × List K)} {T : Traj K R} (hT : Coherent T)
    {idx : List Nat} {arcs : List K} (hm : sortMls T.pos = .ok (idx, arcs))
    (hl : arcs.length = idx.length) (hr : InRange T.tstamps.length idx)
    (hne : T.rot = none ∨ idx ≠ []) :
    Traj.sortSpatially argsortN sortMls T = (.ok (), { T with
      tstamps := sel T.tstamps (npSort idx)
      pos := sel T.pos (npSort idx)
      rot := T.rot.map (fun r => sel r (npSort idx))
      speed := sel T.speed (npSort idx)
      arc := sel arcs (argsortN idx)
      sorting := .arcLength }) := by
  have hr' : InRange T.tstamps.length (npSort idx) := fun i hi => hr i (mem_npSort.1 hi)
  have hpick := fun {α : Type} (l : List α) (h : l.length = T.tstamps.length) =>
    pick_ints_nat (l := l) (p := npSort idx) (by rw [h]; exact hr')
  have hne' : T.rot = none ∨ pick (.ints ((npSort idx).map (fun i : Nat => (i : Int)))) T.tstamps ≠ [] := by
    rcases hne with h | h
    · exact Or.inl h
    · right
      rw [hpick _ rfl]
      intro hc
      have := sel_length hr'
      rw [hc, npSort_length] at this
      exact h (List.length_eq_zero_iff.1 this.symm)
  unfold Traj.sortSpatially
  simp only [SE.run_bind, SE.run_get, SE.run_lift, hm, applyIndex_eq hT (indexValid_nat hr') hne',
    SE.run_modify, take_eq (l := arcs) (p := argsortN idx) (by rw [hl]; exact (hN idx).inRange)]
  have h4 : T.rot.map (pick (.ints ((npSort idx).map (fun i : Nat => (i : Int)))))
      = T.rot.map (fun r => sel r (npSort idx)) := by
    cases h : T.rot with
    | none => rfl
    | some r => simp [hpick r (hT.rot r h)]
  simp only [pickTraj, hpick _ hT.pos, hpick _ rfl, hpick _ hT.speed, h4]

/-- **C16.** Let the spatial sorter return the duplicate-free positions `idx` with strictly
increasing arc lengths `arcs`.  Then `sort_spatially` returns; the remaining samples are the ones
named by `idx` in their stored order (`sorted`), in arc-length mode; and the sorted views list the
arc lengths `arcs` and the positions in the order of `idx`. -/
theorem C16_sort_spatially (argsort : List K → List Nat) (hA : IsArgsort argsort)
    (argsortN : List Nat → List Nat) (hN : IsArgsort argsortN)
    (sortMls : List (V3 K) → Except Err (List Nat × List K)) (T : Traj K R) (hT : Coherent T)
    (idx : List Nat) (arcs : List K) (hm : sortMls T.pos = .ok (idx, arcs))
    (hl : arcs.length = idx.length) (hr : ∀ i ∈ idx, i < T.tstamps.length) (hnd : idx.Nodup)
    (harcs : StrictAsc arcs) (hne : T.rot = none ∨ idx ≠ []) :
    ∃ (T' : Traj K R) (sorted : List Nat),
      Returns (Traj.sortSpatially argsortN sortMls) T () T' ∧ Coherent T' ∧
      sorted.Perm idx ∧ sorted.Pairwise (· < ·) ∧
      T'.tstamps = sorted.filterMap (fun i => T.tstamps[i]?) ∧
      T'.pos = sorted.filterMap (fun i => T.pos[i]?) ∧
      T'.speed = sorted.filterMap (fun i => T.speed[i]?) ∧
      T'.rot = T.rot.map (fun r => sorted.filterMap (fun i => r[i]?)) ∧
      T'.sorting = .arcLength ∧ T'.name = T.name ∧ T'.epsg = T.epsg ∧
      T'.functionOf argsort = .ok arcs ∧
      T'.xyz argsort = .ok (idx.filterMap (fun i => T.pos[i]?)) := by
  have hr' : InRange T.tstamps.length (npSort idx) := fun i hi => hr i (mem_npSort.1 hi)
  have hres := sortSpatially_eq (argsortN := argsortN) hN hT hm hl hr hne
  have hco : Coherent ({ T with
      tstamps := sel T.tstamps (npSort idx)
      pos := sel T.pos (npSort idx)
      rot := T.rot.map (fun r => sel r (npSort idx))
      speed := sel T.speed (npSort idx)
      arc := sel arcs (argsortN idx)
      sorting := .arcLength } : Traj K R) := by
    have ha : InRange arcs.length (argsortN idx) := by rw [hl]; exact (hN idx).inRange
    refine ⟨?_, ?_, ?_, ?_⟩
    · simp only [sel_length (l := T.pos) (by rw [hT.pos]; exact hr'), sel_length hr']
    · simp only [sel_length ha, sel_length hr', (hN idx).length, npSort_length]
    · simp only [sel_length (l := T.speed) (by rw [hT.speed]; exact hr'), sel_length hr']
    · intro r hrr
      simp only [Option.map_eq_some_iff] at hrr
      obtain ⟨r0, h0, rfl⟩ := hrr
      simp only [sel_length (l := r0) (by rw [hT.rot r0 h0]; exact hr'), sel_length hr']
  -- the order found by sorting the arc lengths
  have ha : InRange arcs.length (argsortN idx) := by rw [hl]; exact (hN idx).inRange
  have hsA := hA (sel arcs (argsortN idx))
  have hperm : (sel (argsortN idx) (argsort (sel arcs (argsortN idx)))).Perm (List.range arcs.length) := by
    have h1 : (argsort (sel arcs (argsortN idx))).Perm (List.range (argsortN idx).length) := by
      have := hsA.1
      rwa [sel_length ha] at this
    exact (sel_perm_self h1).trans (by rw [hl]; exact (hN idx).1)
  have hsorted : sel arcs (sel (argsortN idx) (argsort (sel arcs (argsortN idx)))) = arcs := by
    have h1 := hsA.2
    change (sel (sel arcs (argsortN idx)) (argsort (sel arcs (argsortN idx)))).Pairwise (· ≤ ·) at h1
    rw [sel_sel ha] at h1
    exact (sel_perm_self hperm).eq_of_pairwise (fun _ _ _ _ h1 h2 => le_antisymm h1 h2) h1 harcs.le
  have hid : sel (argsortN idx) (argsort (sel arcs (argsortN idx))) = List.range arcs.length := by
    apply eq_range_of_sorted hperm
    rw [List.pairwise_iff_getElem]
    intro i j hi hj hij
    have hlen : (sel (argsortN idx) (argsort (sel arcs (argsortN idx)))).length = arcs.length := by
      simpa using hperm.length_eq
    have e : ∀ k (hk : k < arcs.length), (sel (argsortN idx) (argsort (sel arcs (argsortN idx))))[k]'(by omega) = k := by
      intro k hk
      have h1 := sel_getElem? (perm_inRange hperm) k
      rw [hsorted, List.getElem?_eq_getElem (by omega), List.getElem?_eq_getElem (by omega),
        Option.bind_some] at h1
      have hlt := perm_inRange hperm _ (List.getElem_mem (by omega : k < _))
      rw [List.getElem?_eq_getElem hlt] at h1
      exact ((List.Nodup.getElem_inj_iff harcs.nodup).1 (Option.some.inj h1)).symm
    rw [e i (by omega), e j (by omega)]
    omega
  refine ⟨_, npSort idx, hres, hco, npSort_perm idx, ?_, rfl, rfl, rfl, rfl, rfl, rfl, rfl, ?_, ?_⟩
  · have h1 := npSort_sorted idx
    have h2 : (npSort idx).Nodup := (npSort_perm idx).nodup_iff.2 hnd
    exact (h1.and h2).imp (fun h => lt_of_le_of_ne h.1 h.2)
  · rw [functionOf_eq hA]
    simp only [sortKey, Traj.sortingIndex]
    rw [sel_sel ha, hsorted]
  · rw [xyz_eq hA hco]
    simp only [Traj.sortingIndex]
    have e1 : npSort idx = sel idx (argsortN idx) := (hN idx).sel.symm
    rw [e1, sel_sel (by rw [hT.pos]; exact sel_inRange hr), sel_sel (hN idx).inRange, hid, hl, sel_range]
    rfl

/-! ### C24 -/

/-- **C24.** If the position approximator returns one point per sample, and the rotation
approximator one orientation per sample, `approximate` returns; timestamps, arc lengths, speeds and
mode are kept, the sorted view of the new positions (orientations) is exactly what the approximator
returned for the sorted views of the old ones. -/
theorem C24_approximate (argsort : List K → List Nat) (hA : IsArgsort argsort)
    (argsortN : List Nat → List Nat) (hN : IsArgsort argsortN)
    (cubic : List K → List (V3 K) → Except Err (List (V3 K)))
    (rotAvg : List K → List R → Except Err (List R)) (T : Traj K R) (hT : Coherent T)
    (f : List K) (x xa : List (V3 K)) (hf : T.functionOf argsort = .ok f)
    (hx : T.xyz argsort = .ok x) (hc : cubic f x = .ok xa) (hcl : xa.length = x.length)
    (hrot : ∀ r q, T.rot = some r → T.quat argsort = .ok (some q) →
      ∃ qa, rotAvg f q = .ok qa ∧ qa.length = q.length) :
    ∃ T', Returns (Traj.approximate argsort argsortN cubic rotAvg) T () T' ∧ Coherent T' ∧
      T'.tstamps = T.tstamps ∧ T'.arc = T.arc ∧ T'.speed = T.speed ∧ SameMeta T T' ∧
      T'.xyz argsort = .ok xa ∧
      ∀ r q qa, T.rot = some r → r ≠ [] → T.quat argsort = .ok (some q) → rotAvg f q = .ok qa →
        T'.quat argsort = .ok (some qa) := by
  have hi := sortingIndex_isArgsort hA T
  have hp : (T.sortingIndex argsort).Perm (List.range T.tstamps.length) := by
    rw [← sortKey_length hT]; exact hi.1
  have hsl := argsort_perm_left hp (hN (T.sortingIndex argsort))
  have hir : InRange T.pos.length (T.sortingIndex argsort) := by
    rw [hT.pos, ← sortKey_length hT]; exact hi.inRange
  have hx' : x = sel T.pos (T.sortingIndex argsort) := by
    rw [xyz_eq hA hT] at hx; exact (Except.ok.inj hx).symm
  have hil : (T.sortingIndex argsort).length = T.tstamps.length := by simpa using hp.length_eq
  have hxl : xa.length = T.tstamps.length := by
    rw [hcl, hx', sel_length hir, hil]
  have hsw : ∀ {α : Type} (l : List α), l.length = T.tstamps.length →
      InRange l.length (T.sortSwitchingIndex argsort argsortN) := by
    intro α l h
    rw [h, ← hil]; exact (hN _).inRange
  have hback : ∀ {α : Type} (l : List α), l.length = T.tstamps.length →
      sel (sel l (T.sortSwitchingIndex argsort argsortN)) (T.sortingIndex argsort) = l := by
    intro α l h
    rw [sel_sel (hsw l h)]
    unfold Traj.sortSwitchingIndex
    rw [hsl, ← h, sel_range]
  have hlen2 : ∀ {α : Type} (l : List α), l.length = T.tstamps.length →
      (sel l (T.sortSwitchingIndex argsort argsortN)).length = T.tstamps.length := by
    intro α l h
    rw [sel_length (hsw l h)]
    exact ((hN _).length).trans hil
  rcases hr : T.rot with _ | r
  · refine ⟨{ T with pos := sel xa (T.sortSwitchingIndex argsort argsortN) }, ?_, ?_, rfl, rfl, rfl,
      ⟨rfl, rfl, rfl, rfl⟩, ?_, by simp⟩
    · simp only [Returns, Traj.approximate, SE.run_bind, SE.run_get, SE.run_lift, hf, hx, hc,
        take_eq (hsw xa hxl), SE.run_modify, hr]
      rfl
    · exact ⟨hlen2 xa hxl, hT.arc, hT.speed, hT.rot⟩
    · have hco : Coherent ({ T with pos := sel xa (T.sortSwitchingIndex argsort argsortN) } : Traj K R) :=
        ⟨hlen2 xa hxl, hT.arc, hT.speed, hT.rot⟩
      rw [xyz_eq hA hco]
      exact congrArg Except.ok (hback xa hxl)
  · have hrl := hT.rot r hr
    have hirr : InRange r.length (T.sortingIndex argsort) := by
      rw [hrl, ← sortKey_length hT]; exact hi.inRange
    have hq : T.quat argsort = .ok (some (sel r (T.sortingIndex argsort))) := by
      rw [Traj.quat, hr]; simp only [take_eq hirr]; rfl
    by_cases hr0 : r.length = 0
    · refine ⟨{ T with pos := sel xa (T.sortSwitchingIndex argsort argsortN) }, ?_, ?_, rfl, rfl, rfl,
        ⟨rfl, rfl, rfl, rfl⟩, ?_, ?_⟩
      · simp only [Returns, Traj.approximate, SE.run_bind, SE.run_get, SE.run_lift, hf, hx, hc,
          take_eq (hsw xa hxl), SE.run_modify, hr, hr0, if_true]
        rfl
      · exact ⟨hlen2 xa hxl, hT.arc, hT.speed, hT.rot⟩
      · have hco : Coherent ({ T with pos := sel xa (T.sortSwitchingIndex argsort argsortN) } : Traj K R) :=
          ⟨hlen2 xa hxl, hT.arc, hT.speed, hT.rot⟩
        rw [xyz_eq hA hco]
        exact congrArg Except.ok (hback xa hxl)
      · rintro r' q qa hr' hne
        cases hr'
        exact absurd (List.length_eq_zero_iff.1 hr0) hne
    · obtain ⟨qa, hqa, hqal⟩ := hrot r _ hr hq
      have hqal' : qa.length = T.tstamps.length := by rw [hqal, sel_length hirr, hil]
      have hco : Coherent ({ T with
          pos := sel xa (T.sortSwitchingIndex argsort argsortN)
          rot := some (sel qa (T.sortSwitchingIndex argsort argsortN)) } : Traj K R) :=
        ⟨hlen2 xa hxl, hT.arc, hT.speed, by rintro _ ⟨⟩; exact hlen2 qa hqal'⟩
      refine ⟨{ T with
          pos := sel xa (T.sortSwitchingIndex argsort argsortN)
          rot := some (sel qa (T.sortSwitchingIndex argsort argsortN)) }, ?_, hco, rfl, rfl, rfl,
        ⟨rfl, rfl, rfl, by rw [hr]; rfl⟩, ?_, ?_⟩
      · unfold Returns Traj.approximate
        rw [SE.run_bind_ok (SE.run_get T), SE.run_bind_ok (a := f) (by rw [SE.run_lift, hf]),
          SE.run_bind_ok (a := x) (by rw [SE.run_lift, hx]),
          SE.run_bind_ok (a := xa) (by rw [SE.run_lift, hc]),
          SE.run_bind_ok (a := sel xa (T.sortSwitchingIndex argsort argsortN))
            (by rw [SE.run_lift, take_eq (hsw xa hxl)]),
          SE.run_bind_ok (SE.run_modify _ _), SE.run_bind_ok (SE.run_get _)]
        generalize hS : ({ T with pos := sel xa (T.sortSwitchingIndex argsort argsortN) } : Traj K R) = S
        have h1 : S.rot = some r := by rw [← hS]; exact hr
        have h2 : S.functionOf argsort = .ok f := by rw [← hS]; exact hf
        have h3 : S.sortingIndex argsort = T.sortingIndex argsort := by rw [← hS]; rfl
        have h4 : S.sortSwitchingIndex argsort argsortN = T.sortSwitchingIndex argsort argsortN := by
          rw [← hS]; rfl
        simp only [h1, hr0, if_false]
        rw [SE.run_bind_ok (a := f) (by rw [SE.run_lift, h2]),
          SE.run_bind_ok (a := sel r (T.sortingIndex argsort)) (by rw [SE.run_lift, h3, take_eq hirr]),
          SE.run_bind_ok (a := qa) (by rw [SE.run_lift, hqa]),
          SE.run_bind_ok (a := sel qa (T.sortSwitchingIndex argsort argsortN))
            (by rw [SE.run_lift, h4, take_eq (hsw qa hqal')]), SE.run_modify, ← hS]
      · rw [xyz_eq hA hco]
        exact congrArg Except.ok (hback xa hxl)
      · rintro r' q' qa' hr' hne hq' hqa'
        cases hr'
        rw [hq] at hq'
        cases hq'
        rw [hqa] at hqa'
        cases hqa'
        have hi3 : InRange (sel qa (T.sortSwitchingIndex argsort argsortN)).length (T.sortingIndex argsort) := by
          rw [hlen2 qa hqal', ← sortKey_length hT]; exact hi.inRange
        simp only [Traj.quat]
        have : Traj.take (sel qa (T.sortSwitchingIndex argsort argsortN)) (T.sortingIndex argsort) = .ok qa := by
          rw [take_eq hi3, hback qa hqal']
        have hi2 : Traj.sortingIndex argsort ({ T with
            pos := sel xa (T.sortSwitchingIndex argsort argsortN)
            rot := some (sel qa (T.sortSwitchingIndex argsort argsortN)) } : Traj K R)
              = T.sortingIndex argsort := rfl
        rw [hi2, this]
        rfl

/-! ### The hypotheses are met -/

example : IsArgsort (stableArgsort (K := ℚ)) := stableArgsort_isArgsort
example : IsArgsort (stableArgsort (K := Nat)) := stableArgsort_isArgsort

/-- three samples stored out of time order -/
def exUnsorted : Traj ℚ Nat :=
  { tstamps := [2, 0, 1], pos := [⟨2, 0, 0⟩, ⟨0, 0, 0⟩, ⟨1, 0, 0⟩], rot := some [12, 10, 11],
    arc := [0, 2, 3], speed := [0, 0, 0], sorting := .time, name := "unsorted", epsg := 0 }

example : Coherent exUnsorted := ⟨rfl, rfl, rfl, by rintro r ⟨⟩; rfl⟩
example : exUnsorted.xyz stableArgsort = .ok [⟨0, 0, 0⟩, ⟨1, 0, 0⟩, ⟨2, 0, 0⟩] := by decide +kernel
example : exUnsorted.sortSwitchingIndex stableArgsort stableArgsort = [2, 0, 1] := by decide +kernel
/-- a sorter that drops the first sample and visits the others backwards -/
example : (Traj.sortSpatially stableArgsort (fun _ => .ok ([2, 1], [0, 1])) exUnsorted).2
    = { exUnsorted with
        tstamps := [0, 1]
        pos := [⟨0, 0, 0⟩, ⟨1, 0, 0⟩]
        rot := some [10, 11]
        arc := [1, 0]
        speed := [0, 0]
        sorting := .arcLength } := by decide +kernel
/-- an approximator that shifts by one: the view is what it returned -/
example : (Traj.approximate stableArgsort stableArgsort
      (fun _ x => .ok (x.map (fun p => p + ⟨1, 0, 0⟩))) (fun _ r => .ok r.reverse) exUnsorted).2
    = { exUnsorted with
        pos := [⟨3, 0, 0⟩, ⟨1, 0, 0⟩, ⟨2, 0, 0⟩]
        rot := some [10, 12, 11] } := by decide +kernel

end TC
