import Verif.Proofs.Arc
import Verif.Proofs.Span
import Verif.Props.Heap
/-!
# C22: adopting the first pose, C23: construction, C26: data rate
-/
namespace TC
set_option linter.unusedSectionVars false
open H
variable {K R : Type} [Field K] [LinearOrder K]

/-! ### C22 -/

theorem adoptFirstPosition_eq (T U : Traj K R) (hne : T.pos ≠ []) :
    Traj.adoptFirstPosition U T = (.ok (), T) := by
  obtain ⟨p, ps, hp⟩ := List.exists_cons_of_ne_nil hne
  have h0 : npGet T.pos 0 = .ok p := by
    have := npGet_zero (l := T.pos) (by simp [hp])
    simpa [hp] using this
  unfold Traj.adoptFirstPosition
  simp only [SE.run_bind, SE.run_get, SE.run_lift, h0, SE.run_modify, sub_self, add_zero,
    List.map_id']

theorem adoptFirstOrientation_eq (toEuler : R → V3 K) (fromEuler : V3 K → R)
    (hrt : ∀ o, fromEuler (toEuler o) = o) (T U : Traj K R) (hr : ∀ r, T.rot = some r → r ≠ []) :
    Traj.adoptFirstOrientation toEuler fromEuler U T = (.ok (), T) := by
  unfold Traj.adoptFirstOrientation
  rcases h : T.rot with _ | r
  · simp [SE.run_bind, h]
  · obtain ⟨o, os, ho⟩ := List.exists_cons_of_ne_nil (hr r h)
    have h0 : npGet (r.map toEuler) 0 = .ok (toEuler o) := by
      have := npGet_zero (l := r.map toEuler) (by simp [ho])
      simpa [ho] using this
    simp only [SE.run_bind, SE.run_get, h, SE.run_lift, h0, SE.run_modify, sub_self, add_zero,
      List.map_map]
    have : r.map ((fun e => fromEuler e) ∘ toEuler) = r := by
      conv_rhs => rw [← List.map_id r]
      exact List.map_congr_left (fun o _ => hrt o)
    rw [this, ← h]

/-- **C22**, what the code does: `adopt_first_pose` never changes anything, whatever the target
(`hrt` says that the Euler angles of an orientation determine it). -/
theorem C22_adopt_first_pose_changes_nothing (lib : Lib K R)
    (hrt : ∀ o, lib.fromEuler (lib.toEuler o) = o) (h : Heap K R) (r target : Nat) (T : Traj K R)
    (hr : h[r]? = some T) (hT : Coherent T) (hne : T.tstamps ≠ []) :
    Returns (H.run lib (.adoptFirstPose target) r true) h r h := by
  have hl : 0 < T.tstamps.length := List.length_pos_of_ne_nil hne
  have hp : T.pos ≠ [] := List.ne_nil_of_length_pos (by rw [hT.pos]; exact hl)
  have hro : ∀ q, T.rot = some q → q ≠ [] := fun q hq =>
    List.ne_nil_of_length_pos (by rw [hT.rot q hq]; exact hl)
  have hb : bodyOf lib (.adoptFirstPose target) T = (.ok (), T) := by
    simp only [bodyOf, Traj.adoptFirstPose, SE.run_bind, SE.run_get, adoptFirstPosition_eq T T hp,
      adoptFirstOrientation_eq lib.toEuler lib.fromEuler hrt T T hro]
  unfold Returns
  rw [run_inplace lib (.adoptFirstPose target) (by intro q s hc; cases hc) r h T hr, hb]
  simp [Except.map, set_self hr]

/-- **C22**, the two parts: `adopt_first_position` and `adopt_first_orientation` never change anything either, whatever
the target, and for the copy (`inplace=False`) they return an unchanged copy. -/
theorem C22_adopt_first_parts_change_nothing (lib : Lib K R)
    (hrt : ∀ o, lib.fromEuler (lib.toEuler o) = o) (h : Heap K R) (r target : Nat) (T : Traj K R)
    (hr : h[r]? = some T) (hT : Coherent T) (hne : T.tstamps ≠ []) :
    Returns (H.run lib (.adoptFirstPosition target) r true) h r h ∧
    Returns (H.run lib (.adoptFirstOrientation target) r true) h r h ∧
    Returns (H.run lib (.adoptFirstPosition target) r false) h h.length (h ++ [T]) ∧
    Returns (H.run lib (.adoptFirstOrientation target) r false) h h.length (h ++ [T]) ∧
    Returns (H.run lib (.adoptFirstPose target) r false) h h.length (h ++ [T]) := by
  have hl : 0 < T.tstamps.length := List.length_pos_of_ne_nil hne
  have hp : T.pos ≠ [] := List.ne_nil_of_length_pos (by rw [hT.pos]; exact hl)
  have hro : ∀ q, T.rot = some q → q ≠ [] := fun q hq =>
    List.ne_nil_of_length_pos (by rw [hT.rot q hq]; exact hl)
  have h1 : bodyOf lib (.adoptFirstPosition target) T = (.ok (), T) := by
    simp only [bodyOf, adoptFirstPosition_eq T T hp]
  have h2 : bodyOf lib (.adoptFirstOrientation target) T = (.ok (), T) := by
    simp only [bodyOf, adoptFirstOrientation_eq lib.toEuler lib.fromEuler hrt T T hro]
  have h3 : bodyOf lib (.adoptFirstPose target) T = (.ok (), T) := by
    simp only [bodyOf, Traj.adoptFirstPose, SE.run_bind, SE.run_get, adoptFirstPosition_eq T T hp,
      adoptFirstOrientation_eq lib.toEuler lib.fromEuler hrt T T hro]
  unfold Returns
  refine ⟨?_, ?_, ?_, ?_, ?_⟩
  · rw [run_inplace lib (.adoptFirstPosition target) (by intro q s hc; cases hc) r h T hr, h1]
    simp [Except.map, set_self hr]
  · rw [run_inplace lib (.adoptFirstOrientation target) (by intro q s hc; cases hc) r h T hr, h2]
    simp [Except.map, set_self hr]
  · rcases run_copy lib (.adoptFirstPosition target) h r T hr with e | ⟨e, he, _⟩
    · rw [e, h1]; rfl
    · rw [h1] at he; cases he
  · rcases run_copy lib (.adoptFirstOrientation target) h r T hr with e | ⟨e, he, _⟩
    · rw [e, h2]; rfl
    · rw [h2] at he; cases he
  · rcases run_copy lib (.adoptFirstPose target) h r T hr with e | ⟨e, he, _⟩
    · rw [e, h3]; rfl
    · rw [h3] at he; cases he

/-- **C22**, positive part: if the first positions already agree, they agree afterwards.
Missing for the full property: different first poses, for which it is false. -/
theorem C22_adopt_first_pose_partial (lib : Lib K R)
    (hrt : ∀ o, lib.fromEuler (lib.toEuler o) = o) (h h' : Heap K R) (r target : Nat)
    (T U T' : Traj K R) (hr : h[r]? = some T) (_ht : h[target]? = some U) (hT : Coherent T)
    (hne : T.tstamps ≠ []) (hsame : T.pos.head? = U.pos.head?)
    (hret : Returns (H.run lib (.adoptFirstPose target) r true) h r h') (hr' : h'[r]? = some T') :
    T'.pos.head? = U.pos.head? := by
  have := C22_adopt_first_pose_changes_nothing lib hrt h r target T hr hT hne
  unfold Returns at *
  rw [this] at hret
  have e := (Prod.mk.inj hret).2
  subst e
  rw [hr] at hr'
  cases hr'
  exact hsame

/-- **C22 is false of the code**: the first position of the receiver does not become that of the
target. -/
theorem C22_adopt_first_pose_wrong : ¬ ∀ (h h' : Heap ℚ Nat) (r target s : Nat) (T U : Traj ℚ Nat),
    h[target]? = some U → Coherent U → U.tstamps ≠ [] →
    Returns (H.run exH (.adoptFirstPose target) r true) h s h' → h'[s]? = some T → Coherent T →
    T.tstamps ≠ [] → T.pos.head? = U.pos.head? := by
  intro hall
  have h1 : H.run exH (.adoptFirstPose 1) 0 true
      [exT, { exT with pos := [⟨5, 0, 0⟩, ⟨6, 0, 0⟩, ⟨8, 0, 0⟩] }] =
      (.ok 0, [{ exT with rot := some [0, 0, 0] },
        { exT with pos := [⟨5, 0, 0⟩, ⟨6, 0, 0⟩, ⟨8, 0, 0⟩] }]) := by decide +kernel
  have := hall _ _ 0 1 0 _ _ rfl ⟨rfl, rfl, rfl, by rintro r ⟨⟩; rfl⟩ (by decide) h1 rfl
    ⟨rfl, rfl, rfl, by rintro r ⟨⟩; rfl⟩ (by decide)
  simp [exT] at this

/-! ### C23 -/

theorem new_eq [IsStrictOrderedRing K] (nrm : V3 K → K) (counter : Nat) (a : TrajArgs K R)
    (hrot : ∀ r, a.rot = some r → r.length = a.pos.length) (hne : a.pos ≠ [])
    (hts : ∀ t, a.tstamps = some t → t.length = a.pos.length) :
    ∃ T, Traj.new nrm counter a = .ok T ∧ Coherent T ∧ T.pos = a.pos ∧ T.rot = a.rot ∧
      T.tstamps = a.tstamps.getD ((List.range a.pos.length).map (fun i : Nat => (i : K))) ∧
      (∀ v, a.speed = some v → v.length = a.pos.length → T.speed = v) ∧
      (∀ l, a.arc = some l → l.length = a.pos.length → T.arc = l) ∧
      ((∀ l, a.arc = some l → l.length ≠ a.pos.length) → T.arc = lengthsFromXyz nrm a.pos) ∧
      T.sorting = a.sorting ∧ T.epsg = a.epsg := by
  have hpos : 0 < a.pos.length := List.length_pos_of_ne_nil hne
  obtain ⟨ts, hts1, hts2⟩ : ∃ ts, (match a.tstamps with
      | none => (List.range a.pos.length).map (fun i : Nat => (i : K))
      | some t => t) = ts ∧ ts.length = a.pos.length := by
    rcases h : a.tstamps with _ | t
    · exact ⟨_, rfl, by simp⟩
    · exact ⟨_, rfl, hts t h⟩
  have hts3 : a.tstamps.getD ((List.range a.pos.length).map (fun i : Nat => (i : K))) = ts := by
    rw [← hts1]; cases a.tstamps <;> rfl
  have hg := gradient3d_ok (xyz := a.pos) (ts := ts) hts2.symm
  have hgl : (List.zipWith (fun v (s : K) => s⁻¹ • v) (diffs a.pos) (diffs ts) ++ [0]).length = a.pos.length := by
    simp [diffs_length, hts2]; omega
  have hal := lengthsFromXyz_length nrm hne
  obtain ⟨sp, hsp1, hsp2, hsp3⟩ : ∃ sp, (match a.speed with
      | some v => if v.length = a.pos.length then pure v else gradient3d a.pos ts
      | none => gradient3d a.pos ts) = .ok sp ∧ sp.length = a.pos.length ∧
      (∀ v, a.speed = some v → v.length = a.pos.length → sp = v) := by
    rcases h : a.speed with _ | v
    · exact ⟨_, hg, hgl, by simp⟩
    · by_cases hv : v.length = a.pos.length
      · exact ⟨v, by simp [hv, pure, Except.pure], hv, by rintro _ ⟨⟩ _; rfl⟩
      · exact ⟨_, by simp only [hv, if_false]; exact hg, hgl, by rintro _ ⟨⟩ h'; exact absurd h' hv⟩
  obtain ⟨al, hal1, hal2, hal3, hal4⟩ : ∃ al, (match a.arc with
      | some l => if l.length = a.pos.length then l else lengthsFromXyz nrm a.pos
      | none => lengthsFromXyz nrm a.pos) = al ∧ al.length = a.pos.length ∧
      (∀ v, a.arc = some v → v.length = a.pos.length → al = v) ∧
      ((∀ l, a.arc = some l → l.length ≠ a.pos.length) → al = lengthsFromXyz nrm a.pos) := by
    rcases h : a.arc with _ | v
    · exact ⟨_, rfl, hal, by simp, fun _ => rfl⟩
    · by_cases hv : v.length = a.pos.length
      · exact ⟨v, by simp [hv], hv, by rintro _ ⟨⟩ _; rfl, fun h' => absurd hv (h' v rfl)⟩
      · exact ⟨_, by simp only [hv, if_false], hal, by rintro _ ⟨⟩ h'; exact absurd h' hv, fun _ => rfl⟩
  refine ⟨{ tstamps := ts, pos := a.pos, rot := a.rot, arc := al, speed := sp, sorting := a.sorting,
            name := if a.name = "" then "Trajectory " ++ toString counter else a.name,
            epsg := a.epsg }, ?_, ⟨hts2.symm, by simp [hal2, hts2], by simp [hsp2, hts2],
            fun r hr => by simp [hrot r hr, hts2]⟩, rfl, rfl, hts3.symm, hsp3, hal3, hal4, rfl, rfl⟩
  subst hts1 hal1
  unfold Traj.new
  rcases ht : a.tstamps with _ | t <;> simp only [ht] at hsp1 <;> rcases hc : a.arc with _ | l <;>
  rcases hs : a.speed with _ | v
  all_goals first
  | simp only [hs] at hsp1
    rcases h : a.rot with _ | r
    · simp [bind, Except.bind, pure, Except.pure, hsp1]
    · simp [bind, Except.bind, pure, Except.pure, hrot r h, hsp1]
  | simp only [hs] at hsp1
    by_cases hv : v.length = a.pos.length
    · rw [if_pos hv] at hsp1
      cases hsp1
      rcases h : a.rot with _ | r
      · simp [bind, Except.bind, pure, Except.pure, hv]
      · simp [bind, Except.bind, pure, Except.pure, hrot r h, hv]
    · rw [if_neg hv] at hsp1
      rcases h : a.rot with _ | r
      · simp [bind, Except.bind, pure, Except.pure, hsp1, hv]
      · simp [bind, Except.bind, pure, Except.pure, hrot r h, hsp1, hv]

/-- **C23**, positive part: for at least one position, timestamps omitted or one per position, and
whatever speeds and arc lengths are given, the constructor raises exactly if the number of
orientations differs, and otherwise every channel has one entry per position.
Missing for the full property: other numbers of timestamps and empty position lists, for which it
is false. -/
theorem C23_construction_partial [IsStrictOrderedRing K] (nrm : V3 K → K) (counter : Nat) (a : TrajArgs K R)
    (hne : a.pos ≠ []) (hts : ∀ t, a.tstamps = some t → t.length = a.pos.length) :
    (Traj.new nrm counter a = .error .valueError ↔ ∃ r, a.rot = some r ∧ r.length ≠ a.pos.length) ∧
    ((∀ r, a.rot = some r → r.length = a.pos.length) →
      ∃ T, Traj.new nrm counter a = .ok T ∧ Coherent T ∧ T.pos = a.pos ∧ T.rot = a.rot ∧
        T.tstamps = a.tstamps.getD ((List.range a.pos.length).map (fun i : Nat => (i : K)))) := by
  have hok : (∀ r, a.rot = some r → r.length = a.pos.length) →
      ∃ T, Traj.new nrm counter a = .ok T ∧ Coherent T ∧ T.pos = a.pos ∧ T.rot = a.rot ∧
        T.tstamps = a.tstamps.getD ((List.range a.pos.length).map (fun i : Nat => (i : K))) := by
    intro h
    obtain ⟨T, h1, h2, h3, h4, h5, _⟩ := new_eq nrm counter a h hne hts
    exact ⟨T, h1, h2, h3, h4, h5⟩
  refine ⟨⟨?_, ?_⟩, hok⟩
  · intro he
    by_contra hc
    push Not at hc
    obtain ⟨T, h1, _⟩ := hok hc
    rw [h1] at he
    cases he
  · rintro ⟨r, hr, hl⟩
    unfold Traj.new
    simp only [hr, bind, Except.bind, throw, throwThe, MonadExceptOf.throw]
    rw [if_pos hl]

/-- **C23**, omitted timestamps are 0, 1, 2, … -/
theorem C23_default_timestamps (nrm : V3 K → K) (counter : Nat) (a : TrajArgs K R) (T : Traj K R)
    (hts : a.tstamps = none) (hnew : Traj.new nrm counter a = .ok T) :
    T.tstamps.length = a.pos.length ∧ ∀ i : Nat, i < a.pos.length → T.tstamps[i]? = some (i : K) := by
  have h : T.tstamps = (List.range a.pos.length).map (fun i : Nat => (i : K)) := by
    unfold Traj.new at hnew
    simp only [hts, bind, Except.bind, pure, Except.pure, throw, throwThe, MonadExceptOf.throw] at hnew
    repeat' split at hnew
    all_goals first
    | cases hnew; rfl
    | cases hnew
  rw [h]
  refine ⟨by simp, fun i hi => by simp [hi]⟩

/-- **C23 is false of the code**: three timestamps for two positions with two speeds are accepted. -/
theorem C23_mismatching_timestamps_accepted : ∃ (a : TrajArgs ℚ Nat) (T : Traj ℚ Nat),
    a.pos.length = 2 ∧ Traj.new V3.x 0 a = .ok T ∧ ¬ Coherent T := by
  refine ⟨{ pos := [0, 0], tstamps := some [0, 1, 2], speed := some [0, 0] }, _, rfl, rfl, ?_⟩
  intro h
  have := h.pos
  simp at this

/-- **C23 is false of the code**: an empty list of positions gives one arc length and one speed. -/
theorem C23_empty_construction_incoherent (nrm : V3 K → K) (counter : Nat) :
    ∃ T : Traj K R, Traj.new nrm counter ({ pos := [] } : TrajArgs K R) = .ok T ∧
      T.pos = [] ∧ T.tstamps = [] ∧ T.arc = [0] ∧ T.speed = [0] :=
  ⟨_, rfl, rfl, rfl, rfl, rfl⟩

/-! ### C26 -/

theorem sum_diffs (a : K) (l : List K) : (diffs (a :: l)).sum = (a :: l).getLast (by simp) - a := by
  induction l generalizing a with
  | nil => simp [diffs]
  | cons b l ih => rw [diffs_cons_cons, List.sum_cons, ih]; simp

/-- **C26.** -/
theorem C26_data_rate [IsStrictOrderedRing K] (T : Traj K R) (h2 : 2 ≤ T.tstamps.length) (lo hi : K) (hlo : lo ∈ T.tstamps)
    (hhi : hi ∈ T.tstamps) (hb : ∀ t ∈ T.tstamps, lo ≤ t ∧ t ≤ hi) (_hne : lo < hi) :
    T.dataRate = .ok ((T.tstamps.length - 1 : Nat) / (hi - lo)) := by
  have h0 : 0 < (npSort T.tstamps).length := by rw [npSort_length]; omega
  have hlen := npSort_length T.tstamps
  obtain ⟨f, e1, m1, b1⟩ := npSort_first (l := T.tstamps) (by omega)
  obtain ⟨g, e2, m2, b2⟩ := npSort_last (l := T.tstamps) (by omega)
  have hf : f = lo := le_antisymm (b1 lo hlo) (hb f m1).1
  have hg : g = hi := le_antisymm (hb g m2).2 (b2 hi hhi)
  rw [pyFirst_eq h0] at e1
  rw [pyLast_eq h0] at e2
  have hsum : (diffs (npSort T.tstamps)).sum = hi - lo := by
    rcases hS : npSort T.tstamps with _ | ⟨a, l⟩
    · rw [hS] at h0; simp at h0
    · rw [sum_diffs]
      have ha : a = lo := by
        have := Except.ok.inj e1
        simp only [hS, List.getElem_cons_zero] at this
        rw [this, hf]
      have hl : (a :: l).getLast (by simp) = hi := by
        have := Except.ok.inj e2
        rw [← hg, ← this, List.getLast_eq_getElem]
        simp only [hS]
      rw [hl, ha]
  unfold Traj.dataRate
  simp only
  rw [if_neg (by rw [diffs_length]; omega), hsum, diffs_length, hlen, one_div, inv_div]

/-! ### The hypotheses are met -/

example : (exT.dataRate : Except Err ℚ) = .ok 1 := by decide +kernel
example : (Traj.dataRate { exT with tstamps := [4, 0, 1] } : Except Err ℚ) = .ok (1/2) := by
  decide +kernel
/-- Euler angles about one axis determine an integer angle -/
example : ∃ lib : Lib ℚ Nat, ∀ o, lib.fromEuler (lib.toEuler o) = o :=
  ⟨{ exH with
      toEuler := fun o => ⟨0, 0, o⟩
      fromEuler := fun e => e.z.num.toNat }, fun o => by simp⟩
example : (Traj.new V3.x 7 ({ pos := [0, ⟨1, 0, 0⟩], rot := some [5, 6] } : TrajArgs ℚ Nat)) =
    .ok { tstamps := [0, 1], pos := [0, ⟨1, 0, 0⟩], rot := some [5, 6], arc := [0, 1],
          speed := [⟨1, 0, 0⟩, 0], sorting := .time, name := "Trajectory 7", epsg := 0 } := by
  decide +kernel

end TC
