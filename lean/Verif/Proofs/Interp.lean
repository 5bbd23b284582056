import Verif.Proofs.Sort
import Mathlib.Tactic.Linarith
import Mathlib.Tactic.FieldSimp
/-!
# Lemmas on interpolation
-/
namespace TC
variable {K R : Type} [Field K] [LinearOrder K]

theorem pyFirst_eq {α : Type} {l : List α} (h : 0 < l.length) : pyFirst l = .ok l[0] := npGet_zero h
theorem pyLast_eq {α : Type} {l : List α} (h : 0 < l.length) :
    pyLast l = .ok (l[l.length - 1]'(by omega)) := npGet_neg_one h

omit [Field K] in
theorem cropStamps_eq {own : List K} (h : 0 < own.length) (ts : List K) :
    Traj.cropStamps own ts = .ok (ts.filter (fun t => decide (own[0] ≤ t ∧ t ≤ own[own.length - 1]))) := by
  induction ts with
  | nil => rfl
  | cons t ts ih =>
    simp only [Traj.cropStamps, pyFirst_eq h, pyLast_eq h, ih, bind, Except.bind, pure, Except.pure]
    by_cases h1 : own[0] ≤ t
    · by_cases h2 : t ≤ own[own.length - 1]
      · simp [h1, h2]
      · simp [h1, h2]
    · simp [h1]

omit [Field K] in
theorem cropStamps_empty (ts : List K) :
    Traj.cropStamps ([] : List K) ts = if ts = [] then .ok [] else .error .indexError := by
  cases ts with
  | nil => rfl
  | cons t ts => simp [Traj.cropStamps, pyFirst, npGet_nil, bind, Except.bind]

/-- `interpOne` never raises on a proper table -/
theorem interpOne_ok {xp fp : List K} (hl : xp.length = fp.length) (h0 : 0 < xp.length) (x : K) :
    ∃ v, interpOne xp fp x = .ok v := by
  have hle := searchRight_le xp x
  unfold interpOne
  by_cases h1 : searchRight xp x = 0
  · simp only [h1, if_true]
    exact ⟨_, npGet_zero (by omega)⟩
  · simp only [h1, if_false]
    have hc : ((searchRight xp x : Int) - 1) = ((searchRight xp x - 1 : Nat) : Int) := by omega
    by_cases h2 : searchRight xp x = xp.length
    · rw [if_pos h2, hc]
      exact ⟨_, npGet_nat (by omega)⟩
    · rw [if_neg h2, hc, npGet_nat (l := xp) (by omega), npGet_nat (l := fp) (by omega)]
      simp only [bind, Except.bind, pure, Except.pure]
      split
      · exact ⟨_, rfl⟩
      · rw [npGet_nat (l := xp) (by omega), npGet_nat (l := fp) (by omega)]
        exact ⟨_, rfl⟩

/-- total version -/
def interpF (xp fp : List K) (x : K) : K :=
  match interpOne xp fp x with
  | .ok v => v
  | .error _ => 0

theorem npInterp_eq {xp fp : List K} (hl : xp.length = fp.length) (h0 : 0 < xp.length)
    (qs : List K) : npInterp qs xp fp = .ok (qs.map (interpF xp fp)) := by
  unfold npInterp
  rw [if_neg (by omega), if_neg (by omega)]
  induction qs with
  | nil => rfl
  | cons q qs ih =>
    obtain ⟨v, hv⟩ := interpOne_ok hl h0 q
    simp [interpAll, hv, ih, bind, Except.bind, pure, Except.pure, interpF]

/-- value at a query inside the range of a strictly ascending table: exact hit -/
theorem interpF_hit {xp fp : List K} (hl : xp.length = fp.length) (hs : StrictAsc xp) {i : Nat}
    (hi : i < xp.length) : interpF xp fp xp[i] = fp[i]'(hl ▸ hi) := by
  have hsr : searchRight xp xp[i] = i + 1 := by
    have h1 := (searchRight_lt_iff hs.le xp[i] hi).2 (le_refl _)
    by_contra hne
    have h2 : i + 1 < searchRight xp xp[i] := by omega
    have h3 : i + 1 < xp.length := lt_of_lt_of_le h2 (searchRight_le _ _)
    have h4 := (searchRight_lt_iff hs.le xp[i] h3).1 h2
    exact absurd (hs.getElem_lt h3 (Nat.lt_succ_self i)) (not_lt.2 h4)
  unfold interpF interpOne
  rw [hsr]
  have hc : (((i + 1 : Nat) : Int) - 1) = (i : Int) := by omega
  simp only [Nat.add_eq_zero_iff, Nat.one_ne_zero, and_false, if_false, hc]
  by_cases h2 : i + 1 = xp.length
  · rw [if_pos h2, npGet_nat (l := fp) (by omega)]
  · rw [if_neg h2, npGet_nat (l := xp) hi, npGet_nat (l := fp) (by omega)]
    simp [bind, Except.bind, pure, Except.pure]

/-- value at a query strictly between two neighbours -/
theorem interpF_between {xp fp : List K} (hl : xp.length = fp.length) (hs : StrictAsc xp) {i : Nat}
    (hi : i + 1 < xp.length) {x : K} (h1 : xp[i] < x) (h2 : x < xp[i + 1]) :
    interpF xp fp x = (fp[i + 1]'(hl ▸ hi) - fp[i]'(by omega)) / (xp[i + 1] - xp[i]) * (x - xp[i])
      + fp[i]'(by omega) := by
  have hsr : searchRight xp x = i + 1 := by
    have h3 := (searchRight_lt_iff hs.le x (by omega : i < xp.length)).2 (le_of_lt h1)
    by_contra hne
    have h4 : i + 1 < searchRight xp x := by omega
    exact absurd h2 (not_lt.2 ((searchRight_lt_iff hs.le x hi).1 h4))
  unfold interpF interpOne
  rw [hsr]
  have hc : (((i + 1 : Nat) : Int) - 1) = (i : Int) := by omega
  simp only [Nat.add_eq_zero_iff, Nat.one_ne_zero, and_false, if_false, hc]
  rw [if_neg (by omega), npGet_nat (l := xp) (by omega), npGet_nat (l := fp) (by omega)]
  simp only [bind, Except.bind, pure, Except.pure]
  rw [if_neg (ne_of_lt h1), npGet_nat (l := xp) hi, npGet_nat (l := fp) (by omega)]

omit [Field K] in
/-- a query inside the range either hits an entry or lies strictly between two neighbours -/
theorem bracket {xp : List K} (hs : StrictAsc xp) (h0 : 0 < xp.length) {x : K} (h1 : xp[0] ≤ x)
    (h2 : x ≤ xp[xp.length - 1]) :
    (∃ i, ∃ h : i < xp.length, xp[i] = x) ∨
    (∃ i, ∃ h : i + 1 < xp.length, xp[i] < x ∧ x < xp[i + 1]) := by
  have hle := searchRight_le xp x
  have hpos := (searchRight_lt_iff hs.le x h0).2 h1
  have ha : xp[searchRight xp x - 1] ≤ x :=
    (searchRight_lt_iff hs.le x (by omega)).1 (by omega)
  rcases lt_or_eq_of_le ha with ha | ha
  · right
    have hlt : searchRight xp x < xp.length := by
      by_contra hc
      have : searchRight xp x = xp.length := by omega
      have h3 : xp[searchRight xp x - 1] = xp[xp.length - 1] := by simp [this]
      rw [h3] at ha
      exact absurd h2 (not_le.2 ha)
    refine ⟨searchRight xp x - 1, by omega, ha, ?_⟩
    have h4 : ¬ (xp[searchRight xp x] ≤ x) := by
      rw [← searchRight_lt_iff hs.le x hlt]; omega
    have h5 : xp[searchRight xp x - 1 + 1]'(by omega) = xp[searchRight xp x] := by
      congr 1; omega
    rw [h5]; exact not_le.1 h4
  · left
    exact ⟨searchRight xp x - 1, by omega, ha⟩

theorem diffs_length {α : Type} [Sub α] (l : List α) : (diffs l).length = l.length - 1 := by
  simp [diffs]

omit [LinearOrder K] in
theorem gradient3d_ok {xyz : List (V3 K)} {ts : List K} (h : xyz.length = ts.length) :
    gradient3d xyz ts = .ok (List.zipWith (fun v s => s⁻¹ • v) (diffs xyz) (diffs ts) ++ [0]) := by
  unfold gradient3d bcastDiv
  rw [if_pos (by simp [diffs_length, h])]
  rfl

/-- positions after `_interpolate_positions` -/
def interpPos (T : Traj K R) (ts : List K) : List (V3 K) :=
  ts.map (fun t => ⟨interpF T.tstamps (T.pos.map V3.x) t, interpF T.tstamps (T.pos.map V3.y) t,
    interpF T.tstamps (T.pos.map V3.z) t⟩)

theorem interpolatePositions_eq {T : Traj K R} (hp : T.pos.length = T.tstamps.length)
    (h0 : 0 < T.tstamps.length) (ts : List K) :
    Traj.interpolatePositions ts T = (.ok (), { T with pos := interpPos T ts }) := by
  unfold Traj.interpolatePositions
  simp only [SE.run_bind, SE.run_get, SE.run_lift,
    npInterp_eq (fp := T.pos.map V3.x) (by simp [hp]) h0,
    npInterp_eq (fp := T.pos.map V3.y) (by simp [hp]) h0,
    npInterp_eq (fp := T.pos.map V3.z) (by simp [hp]) h0, SE.run_modify]
  congr 2
  unfold interpPos
  induction ts with
  | nil => rfl
  | cons t ts ih => simpa using ih

/-- the cropped request -/
def cropReq (own : List K) (h : 0 < own.length) (ts : List K) : List K :=
  (npSort ts).filter (fun t => decide (own[0] ≤ t ∧ t ≤ own[own.length - 1]))

/-- state after everything but the rotations -/
def interpDone (T : Traj K R) (c : List K) (rot : Option (List R)) : Traj K R :=
  { T with
    pos := interpPos T c
    rot := rot
    speed := List.zipWith (fun v s => s⁻¹ • v) (diffs (interpPos T c)) (diffs c) ++ [0]
    arc := c.map (interpF T.tstamps T.arc)
    tstamps := c }

/-- what `interpolate` does on a trajectory with at least one sample, given the outcome of the
rotation step -/
theorem interpolate_eq_of_rot (L : RotLib K R) {T : Traj K R} (hT : Coherent T)
    (h0 : 0 < T.tstamps.length) (ts : List K) {q : Option (List R)}
    (hr : Traj.interpolateRotations L (cropReq T.tstamps h0 ts)
        { T with pos := interpPos T (cropReq T.tstamps h0 ts) } =
      (.ok (), { T with pos := interpPos T (cropReq T.tstamps h0 ts), rot := q })) :
    Traj.interpolate L ts T = (.ok (), interpDone T (cropReq T.tstamps h0 ts) q) := by
  unfold Traj.interpolate
  have hc := cropStamps_eq h0 (npSort ts)
  change _ = Except.ok (cropReq T.tstamps h0 ts) at hc
  simp only [SE.run_bind, SE.run_get, SE.run_lift, hc, interpolatePositions_eq hT.pos h0, hr]
  have hg := gradient3d_ok (xyz := interpPos T (cropReq T.tstamps h0 ts))
    (ts := cropReq T.tstamps h0 ts) (by simp [interpPos])
  simp only [hg, SE.run_modify, npInterp_eq (fp := T.arc) hT.arc.symm h0]
  rfl

theorem interpolate_error_of_rot (L : RotLib K R) {T : Traj K R} (hT : Coherent T)
    (h0 : 0 < T.tstamps.length) (ts : List K) {e : Err} {T' : Traj K R}
    (hr : Traj.interpolateRotations L (cropReq T.tstamps h0 ts)
        { T with pos := interpPos T (cropReq T.tstamps h0 ts) } = (.error e, T')) :
    Traj.interpolate L ts T = (.error e, T') := by
  unfold Traj.interpolate
  have hc := cropStamps_eq h0 (npSort ts)
  change _ = Except.ok (cropReq T.tstamps h0 ts) at hc
  simp only [SE.run_bind, SE.run_get, SE.run_lift, hc, interpolatePositions_eq hT.pos h0, hr]

theorem interpolate_eq_noRot (L : RotLib K R) {T : Traj K R} (hT : Coherent T)
    (h0 : 0 < T.tstamps.length) (ts : List K) (hr : T.rot = none) :
    Traj.interpolate L ts T = (.ok (), interpDone T (cropReq T.tstamps h0 ts) none) := by
  apply interpolate_eq_of_rot L hT h0 ts
  simp [Traj.interpolateRotations, SE.run_bind, hr]

/-- the slerp evaluation succeeds on a proper table -/
theorem slerpOne_ok (L : RotLib K R) {times : List K} {rots : List R}
    (hs : StrictAsc times) (hl : times.length = rots.length) (h2 : 2 ≤ rots.length) {t : K}
    (ht2 : t ≤ times[times.length - 1]'(by omega)) :
    ∃ r, Traj.slerpOne L times rots t = .ok r := by
  unfold Traj.slerpOne
  rw [pyFirst_eq (by omega)]
  simp only [bind, Except.bind, pure, Except.pure]
  have hle := searchLeft_le times t
  have hind : (if t = times[0]'(by omega) then 0 else searchLeft times t - 1) + 1 < times.length := by
    split
    · omega
    · have hnl : ¬ (times.length - 1 < searchLeft times t) := by
        rw [searchLeft_lt_iff hs.le t (by omega)]; exact not_lt.2 ht2
      omega
  generalize (if t = times[0]'(by omega) then 0 else searchLeft times t - 1) = ind at *
  have hc : ((ind : Int) + 1) = ((ind + 1 : Nat) : Int) := by omega
  rw [hc, npGet_nat (l := times) (by omega), npGet_nat (l := times) hind,
    npGet_nat (l := rots) (by omega), npGet_nat (l := rots) (by omega)]
  exact ⟨_, rfl⟩

theorem slerpAll_ok (L : RotLib K R) {times : List K} {rots : List R}
    (hs : StrictAsc times) (hl : times.length = rots.length) (h2 : 2 ≤ rots.length) {ts : List K}
    (hts : ∀ t ∈ ts, times[0]'(by omega) ≤ t ∧ t ≤ times[times.length - 1]'(by omega)) :
    ∃ q, Traj.slerpAll L times rots ts = .ok q ∧ q.length = ts.length ∧
      ∀ (k : Nat) t, ts[k]? = some t → ∃ r, q[k]? = some r ∧ Traj.slerpOne L times rots t = .ok r := by
  induction ts with
  | nil => exact ⟨[], rfl, rfl, by simp⟩
  | cons t ts ih =>
    obtain ⟨q, h1, h3, h4⟩ := ih (fun t ht => hts t (by simp [ht]))
    have htt := hts t (by simp)
    obtain ⟨r, hr⟩ := slerpOne_ok L hs hl h2 htt.2
    refine ⟨r :: q, ?_, by simp [h3], ?_⟩
    · simp [Traj.slerpAll, hr, h1, bind, Except.bind, pure, Except.pure]
    · intro k t' hk
      cases k with
      | zero => simp at hk; subst hk; exact ⟨r, by simp, hr⟩
      | succ k => simp at hk; simpa using h4 k t' hk

theorem slerpCall_eq (L : RotLib K R) {times : List K} {rots : List R}
    (hs : StrictAsc times) (hl : times.length = rots.length) (h2 : 2 ≤ rots.length) {ts : List K}
    (hts : ∀ t ∈ ts, times[0]'(by omega) ≤ t ∧ t ≤ times[times.length - 1]'(by omega)) :
    Traj.slerpCall L times rots ts = Traj.slerpAll L times rots ts := by
  unfold Traj.slerpCall
  have hany : ¬ (ts.any (fun t => decide (t < times[0]'(by omega) ∨ times[times.length - 1]'(by omega) < t)) = true) := by
    simp only [List.any_eq_true, decide_eq_true_eq, not_exists, not_and, not_or, not_lt]
    intro t ht
    exact hts t ht
  simp only [bind, Except.bind, if_neg (by omega : ¬ rots.length < 2),
    hl, ne_eq, not_true_eq_false, if_false, hs, pyFirst_eq (by omega : 0 < times.length),
    pyLast_eq (by omega : 0 < times.length)]
  rw [if_neg (by simpa [hl] using hany)]

omit [Field K] in
theorem cropReq_mem {own : List K} {h : 0 < own.length} {ts : List K} {t : K}
    (ht : t ∈ cropReq own h ts) : t ∈ ts ∧ own[0] ≤ t ∧ t ≤ own[own.length - 1] := by
  unfold cropReq at ht
  rw [List.mem_filter] at ht
  refine ⟨mem_npSort.1 ht.1, by simpa using ht.2⟩

/-- success with orientations -/
theorem interpolate_eq_rot (L : RotLib K R) {T : Traj K R} (hT : Coherent T)
    (h2 : 2 ≤ T.tstamps.length) (hs : StrictAsc T.tstamps) (ts : List K) {r : List R}
    (hr : T.rot = some r) (hne : cropReq T.tstamps (by omega) ts ≠ []) :
    ∃ q, Traj.slerpAll L T.tstamps r (cropReq T.tstamps (by omega) ts) = .ok q ∧
      q.length = (cropReq T.tstamps (by omega) ts).length ∧
      Traj.interpolate L ts T =
        (.ok (), interpDone T (cropReq T.tstamps (by omega) ts) (some q)) := by
  have hl := hT.rot r hr
  have hts : ∀ t ∈ cropReq T.tstamps (by omega) ts,
      T.tstamps[0] ≤ t ∧ t ≤ T.tstamps[T.tstamps.length - 1] := fun t ht => (cropReq_mem ht).2
  obtain ⟨q, h1, h3, _⟩ := slerpAll_ok L hs hl.symm (by omega) hts
  refine ⟨q, h1, h3, ?_⟩
  apply interpolate_eq_of_rot L hT (by omega) ts
  have hlen : ¬ (cropReq T.tstamps (by omega) ts).length = 0 := by
    simpa using hne
  simp only [Traj.interpolateRotations, SE.run_bind, SE.run_get, hr, hlen, if_false, SE.run_lift]
  rw [slerpCall_eq L hs hl.symm (by omega) hts, h1]
  rfl

/-- the rotation step either replaces the rotations or raises without touching anything -/
theorem interpolateRotations_cases (L : RotLib K R) (c : List K) (S : Traj K R) :
    (∃ q, Traj.interpolateRotations L c S = (.ok (), { S with rot := q })) ∨
    (∃ e, Traj.interpolateRotations L c S = (.error e, S)) := by
  cases hr : S.rot with
  | none =>
    left
    refine ⟨none, ?_⟩
    have : { S with rot := none } = S := by cases S; simp_all
    rw [this]
    simp [Traj.interpolateRotations, SE.run_bind, hr]
  | some r =>
    by_cases hc : c.length = 0
    · left
      refine ⟨some r, ?_⟩
      have : { S with rot := some r } = S := by cases S; simp_all
      rw [this]
      simp [Traj.interpolateRotations, SE.run_bind, hr, hc]
    · cases hs : Traj.slerpCall L S.tstamps r c with
      | ok q =>
        left
        refine ⟨some q, ?_⟩
        simp only [Traj.interpolateRotations, SE.run_bind, SE.run_get, hr, hc, if_false, SE.run_lift,
          hs, SE.run_modify]
      | error e =>
        right
        refine ⟨e, ?_⟩
        simp only [Traj.interpolateRotations, SE.run_bind, SE.run_get, hr, hc, if_false, SE.run_lift,
          hs]

/-- whatever happens in `interpolate` -/
theorem interpolate_cases (L : RotLib K R) {T : Traj K R} (hT : Coherent T)
    (h0 : 0 < T.tstamps.length) (ts : List K) :
    (∃ q, Traj.interpolate L ts T = (.ok (), interpDone T (cropReq T.tstamps h0 ts) q)) ∨
    (∃ e, Traj.interpolate L ts T =
      (.error e, { T with pos := interpPos T (cropReq T.tstamps h0 ts) })) := by
  rcases interpolateRotations_cases L (cropReq T.tstamps h0 ts)
    { T with pos := interpPos T (cropReq T.tstamps h0 ts) } with ⟨q, hq⟩ | ⟨e, he⟩
  · exact Or.inl ⟨q, interpolate_eq_of_rot L hT h0 ts hq⟩
  · exact Or.inr ⟨e, interpolate_error_of_rot L hT h0 ts he⟩

end TC
