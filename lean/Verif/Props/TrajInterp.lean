import Verif.Proofs.Interp
import Verif.Props.TrajIndex
/-!
# C05–C08: interpolation
-/
namespace TC
variable {K R : Type} [Field K] [LinearOrder K]

/-- Specification of interpolated values: `v` is the value at time `t` of the polygon with corner
times `ts` and corner values `vs`.  Either `t` is a corner time, or it lies between two successive
corners and `v` divides the segment in the ratio of elapsed time. -/
def OnPolygon {V : Type} [AddCommGroup V] [Module K V] (ts : List K) (vs : List V) (t : K) (v : V) :
    Prop :=
  (∃ i : Nat, ts[i]? = some t ∧ vs[i]? = some v) ∨
  (∃ (i : Nat) (t₀ t₁ : K) (v₀ v₁ : V), ts[i]? = some t₀ ∧ ts[i + 1]? = some t₁ ∧
    vs[i]? = some v₀ ∧ vs[i + 1]? = some v₁ ∧ t₀ < t ∧ t < t₁ ∧
    v = v₀ + ((t - t₀) / (t₁ - t₀)) • (v₁ - v₀))

/-- **C05.** Whenever `interpolate` returns, the timestamps are the requested ones inside the
closed range, ascending. -/
theorem C05_interpolate_timestamps (L : RotLib K R) (T T' : Traj K R) (hT : Coherent T)
    (ts : List K) (first last : K) (hf : T.tstamps.head? = some first)
    (hl : T.tstamps.getLast? = some last) (hret : Returns (Traj.interpolate L ts) T () T') :
    T'.tstamps.Pairwise (· ≤ ·) ∧
    T'.tstamps.Perm (ts.filter (fun t => decide (first ≤ t ∧ t ≤ last))) := by
  have h0 : 0 < T.tstamps.length := by
    cases hts : T.tstamps with
    | nil => simp [hts] at hf
    | cons a l => simp
  have hf' : T.tstamps[0] = first := by
    rw [List.head?_eq_getElem?, List.getElem?_eq_getElem h0] at hf; exact Option.some.inj hf
  have hl' : T.tstamps[T.tstamps.length - 1] = last := by
    rw [List.getLast?_eq_getElem?, List.getElem?_eq_getElem (by omega)] at hl
    exact Option.some.inj hl
  have key : T'.tstamps = cropReq T.tstamps h0 ts := by
    unfold Returns at hret
    rcases interpolate_cases L hT h0 ts with ⟨q, hq⟩ | ⟨e, he⟩
    · rw [hq] at hret
      have := (Prod.mk.inj hret).2
      rw [← this]; rfl
    · rw [he] at hret; simp at hret
  rw [key]
  unfold cropReq
  refine ⟨(npSort_sorted ts).filter _, ?_⟩
  rw [hf', hl']
  exact (npSort_perm ts).filter _

/-- **C05**, when it returns: always without orientations; with orientations if there are at least
two samples with strictly increasing timestamps. -/
theorem C05_interpolate_succeeds (L : RotLib K R) (T : Traj K R) (hT : Coherent T) (ts : List K)
    (h0 : T.tstamps ≠ [])
    (hr : T.rot = none ∨ (2 ≤ T.tstamps.length ∧ StrictAsc T.tstamps)) :
    ∃ T', Returns (Traj.interpolate L ts) T () T' := by
  have h0' : 0 < T.tstamps.length := List.length_pos_of_ne_nil h0
  cases hrot : T.rot with
  | none => exact ⟨_, interpolate_eq_noRot L hT h0' ts hrot⟩
  | some r =>
    rcases hr with hr | ⟨h2, hs⟩
    · rw [hr] at hrot; simp at hrot
    · by_cases hne : cropReq T.tstamps h0' ts = []
      · refine ⟨_, interpolate_eq_of_rot L hT h0' ts (q := some r) ?_⟩
        rw [hne]
        simp [Traj.interpolateRotations, SE.run_bind, hrot]
      · obtain ⟨q, _, _, h3⟩ := interpolate_eq_rot L hT h2 hs ts hrot hne
        exact ⟨_, h3⟩

variable [IsStrictOrderedRing K]

theorem interpF_polygon {xp fp : List K} (hl : xp.length = fp.length) (hs : StrictAsc xp) {i : Nat}
    (hi : i + 1 < xp.length) {x : K} (h1 : xp[i] < x) (h2 : x < xp[i + 1]) :
    interpF xp fp x = fp[i]'(by omega) +
      ((x - xp[i]) / (xp[i + 1] - xp[i])) * (fp[i + 1]'(hl ▸ hi) - fp[i]'(by omega)) := by
  rw [interpF_between hl hs hi h1 h2]
  have h3 : xp[i + 1] - xp[i] ≠ 0 := by
    have := lt_trans h1 h2
    exact ne_of_gt (sub_pos.2 this)
  field_simp
  ring

/-- **C06**, positions. -/
theorem C06_interpolate_positions (L : RotLib K R) (T T' : Traj K R) (hT : Coherent T)
    (hne : T.tstamps ≠ []) (hs : StrictAsc T.tstamps) (ts : List K)
    (hret : Returns (Traj.interpolate L ts) T () T') :
    T'.pos.length = T'.tstamps.length ∧
    ∀ (k : Nat) (t : K) (p : V3 K), T'.tstamps[k]? = some t → T'.pos[k]? = some p →
      OnPolygon T.tstamps T.pos t p := by
  have h0 : 0 < T.tstamps.length := List.length_pos_of_ne_nil hne
  have hT' : ∃ q, T' = interpDone T (cropReq T.tstamps h0 ts) q := by
    unfold Returns at hret
    rcases interpolate_cases L hT h0 ts with ⟨q, hq⟩ | ⟨e, he⟩
    · rw [hq] at hret; exact ⟨q, ((Prod.mk.inj hret).2).symm⟩
    · rw [he] at hret; simp at hret
  obtain ⟨q, rfl⟩ := hT'
  refine ⟨by simp [interpDone, interpPos], ?_⟩
  intro k t p hk hp
  simp only [interpDone, interpPos] at hk hp
  rw [List.getElem?_map, hk] at hp
  simp only [Option.map_some, Option.some.injEq] at hp
  have hmem := cropReq_mem (List.mem_of_getElem? hk)
  have hpl := hT.pos
  rcases bracket hs h0 hmem.2.1 hmem.2.2 with ⟨i, hi, hx⟩ | ⟨i, hi, h1, h2⟩
  · left
    refine ⟨i, by rw [List.getElem?_eq_getElem hi, hx], ?_⟩
    subst hx
    rw [interpF_hit (by simp [hpl]) hs hi, interpF_hit (by simp [hpl]) hs hi,
      interpF_hit (by simp [hpl]) hs hi] at hp
    rw [← hp, List.getElem?_eq_getElem (by omega)]
    simp
  · right
    refine ⟨i, _, _, _, _, List.getElem?_eq_getElem (by omega), List.getElem?_eq_getElem hi,
      List.getElem?_eq_getElem (by omega), List.getElem?_eq_getElem (by omega), h1, h2, ?_⟩
    rw [← hp, interpF_polygon (by simp [hpl]) hs hi h1 h2, interpF_polygon (by simp [hpl]) hs hi h1 h2,
      interpF_polygon (by simp [hpl]) hs hi h1 h2]
    ext <;> simp

/-- **C06**, arc lengths. -/
theorem C06_interpolate_arc_lengths (L : RotLib K R) (T T' : Traj K R) (hT : Coherent T)
    (hne : T.tstamps ≠ []) (hs : StrictAsc T.tstamps) (ts : List K)
    (hret : Returns (Traj.interpolate L ts) T () T') :
    T'.arc.length = T'.tstamps.length ∧
    ∀ (k : Nat) (t l : K), T'.tstamps[k]? = some t → T'.arc[k]? = some l →
      OnPolygon T.tstamps T.arc t l := by
  have h0 : 0 < T.tstamps.length := List.length_pos_of_ne_nil hne
  have hT' : ∃ q, T' = interpDone T (cropReq T.tstamps h0 ts) q := by
    unfold Returns at hret
    rcases interpolate_cases L hT h0 ts with ⟨q, hq⟩ | ⟨e, he⟩
    · rw [hq] at hret; exact ⟨q, ((Prod.mk.inj hret).2).symm⟩
    · rw [he] at hret; simp at hret
  obtain ⟨q, rfl⟩ := hT'
  refine ⟨by simp [interpDone], ?_⟩
  intro k t p hk hp
  simp only [interpDone] at hk hp
  rw [List.getElem?_map, hk] at hp
  simp only [Option.map_some, Option.some.injEq] at hp
  have hmem := cropReq_mem (List.mem_of_getElem? hk)
  have hpl := hT.arc
  rcases bracket hs h0 hmem.2.1 hmem.2.2 with ⟨i, hi, hx⟩ | ⟨i, hi, h1, h2⟩
  · left
    refine ⟨i, by rw [List.getElem?_eq_getElem hi, hx], ?_⟩
    subst hx
    rw [interpF_hit (by simp [hpl]) hs hi] at hp
    rw [← hp, List.getElem?_eq_getElem (by omega)]
  · right
    refine ⟨i, _, _, _, _, List.getElem?_eq_getElem (by omega), List.getElem?_eq_getElem hi,
      List.getElem?_eq_getElem (by omega), List.getElem?_eq_getElem (by omega), h1, h2, ?_⟩
    rw [← hp, interpF_polygon (by simp [hpl]) hs hi h1 h2]
    simp

/-- scipy's slerp at the two ends of an interval -/
structure SlerpEnds (L : RotLib K R) : Prop where
  start : ∀ a b, L.slerp a b 0 = a
  stop : ∀ a b, L.slerp a b 1 = b

/-- **C06**, orientations: at a stored timestamp the interpolated orientation is the stored one,
elsewhere it is the spherical interpolation between the two enclosing stored orientations. -/
theorem C06_interpolate_orientations (L : RotLib K R) (hL : SlerpEnds L) (T T' : Traj K R)
    (hT : Coherent T) (h2 : 2 ≤ T.tstamps.length) (hs : StrictAsc T.tstamps) (r : List R)
    (hr : T.rot = some r) (ts : List K) (hret : Returns (Traj.interpolate L ts) T () T')
    (hne : T'.tstamps ≠ []) :
    ∃ r', T'.rot = some r' ∧ r'.length = T'.tstamps.length ∧
    ∀ (k : Nat) (t : K) (a : R), T'.tstamps[k]? = some t → r'[k]? = some a →
      (∃ i : Nat, T.tstamps[i]? = some t ∧ r[i]? = some a) ∨
      (∃ (i : Nat) (t₀ t₁ : K) (a₀ a₁ : R), T.tstamps[i]? = some t₀ ∧ T.tstamps[i + 1]? = some t₁ ∧
        r[i]? = some a₀ ∧ r[i + 1]? = some a₁ ∧ t₀ < t ∧ t < t₁ ∧
        a = L.slerp a₀ a₁ ((t - t₀) / (t₁ - t₀))) := by
  have h0 : 0 < T.tstamps.length := by omega
  have hrl := hT.rot r hr
  have hcne : cropReq T.tstamps h0 ts ≠ [] := by
    intro hc
    unfold Returns at hret
    rcases interpolate_cases L hT h0 ts with ⟨q, hq⟩ | ⟨e, he⟩
    · rw [hq] at hret
      apply hne
      rw [← (Prod.mk.inj hret).2]
      simpa [interpDone] using hc
    · rw [he] at hret; simp at hret
  obtain ⟨q, hq1, hq2, hq3⟩ := interpolate_eq_rot L hT h2 hs ts hr hcne
  unfold Returns at hret
  rw [hq3] at hret
  have hT' := (Prod.mk.inj hret).2
  subst hT'
  refine ⟨q, rfl, by simp [interpDone, hq2], ?_⟩
  intro k t a hk ha
  simp only [interpDone] at hk
  have hts : ∀ t ∈ cropReq T.tstamps (by omega) ts,
      T.tstamps[0] ≤ t ∧ t ≤ T.tstamps[T.tstamps.length - 1] := fun t ht => (cropReq_mem ht).2
  obtain ⟨q', hq1', _, hq4⟩ := slerpAll_ok L hs hrl.symm (by omega) hts
  rw [hq1] at hq1'
  cases Except.ok.inj hq1'
  obtain ⟨b, hb1, hb2⟩ := hq4 k t hk
  rw [ha] at hb1
  cases Option.some.inj hb1
  have hmem := cropReq_mem (List.mem_of_getElem? hk)
  -- evaluate `slerpOne`
  unfold Traj.slerpOne at hb2
  rw [pyFirst_eq h0] at hb2
  simp only [bind, Except.bind, pure, Except.pure] at hb2
  by_cases htf : t = T.tstamps[0]
  · left
    refine ⟨0, by rw [List.getElem?_eq_getElem h0, htf], ?_⟩
    rw [if_pos htf] at hb2
    have e1 : ((0 : Nat) : Int) + 1 = ((1 : Nat) : Int) := rfl
    rw [e1, npGet_nat (l := T.tstamps) h0, npGet_nat (l := T.tstamps) (by omega),
      npGet_nat (l := r) (by omega), npGet_nat (l := r) (by omega)] at hb2
    simp only [htf, sub_self, zero_div, hL.start, Except.ok.injEq] at hb2
    rw [← hb2, List.getElem?_eq_getElem (by omega)]
  · rw [if_neg htf] at hb2
    have hpos : 0 < searchLeft T.tstamps t := by
      rw [searchLeft_lt_iff hs.le t h0]
      exact lt_of_le_of_ne hmem.2.1 (fun h => htf h.symm)
    have hnl : ¬ (T.tstamps.length - 1 < searchLeft T.tstamps t) := by
      rw [searchLeft_lt_iff hs.le t (by omega)]; exact not_lt.2 hmem.2.2
    obtain ⟨j, hj⟩ : ∃ j, searchLeft T.tstamps t = j + 1 := ⟨_, (Nat.succ_pred_eq_of_pos hpos).symm⟩
    have hjlt : T.tstamps[j]'(by omega) < t := (searchLeft_lt_iff hs.le t (by omega)).1 (by omega)
    have hjge : t ≤ T.tstamps[j + 1]'(by omega) := by
      have : ¬ (T.tstamps[j + 1]'(by omega) < t) := by
        rw [← searchLeft_lt_iff hs.le t (by omega)]; omega
      exact not_lt.1 this
    rw [hj] at hb2
    have e1 : (((j + 1 - 1 : Nat) : Int) + 1) = ((j + 1 : Nat) : Int) := by omega
    have e2 : ((j + 1 - 1 : Nat) : Int) = (j : Int) := by omega
    rw [e1, e2, npGet_nat (l := T.tstamps) (by omega), npGet_nat (l := T.tstamps) (by omega),
      npGet_nat (l := r) (by omega), npGet_nat (l := r) (by omega)] at hb2
    simp only [Except.ok.injEq] at hb2
    rcases lt_or_eq_of_le hjge with hlt | heq
    · right
      exact ⟨j, _, _, _, _, List.getElem?_eq_getElem (by omega), List.getElem?_eq_getElem (by omega),
        List.getElem?_eq_getElem (by omega), List.getElem?_eq_getElem (by omega), hjlt, hlt, hb2.symm⟩
    · left
      refine ⟨j + 1, by rw [List.getElem?_eq_getElem (by omega)]; exact congrArg some heq.symm, ?_⟩
      rw [← heq, div_self (ne_of_gt (sub_pos.2 hjlt)), hL.stop] at hb2
      rw [← hb2, List.getElem?_eq_getElem (by omega)]

/-- **C07.** -/
theorem C07_interpolate_own_timestamps (L : RotLib K R) (T T' : Traj K R) (hT : Coherent T)
    (hne : T.tstamps ≠ []) (hs : StrictAsc T.tstamps)
    (hret : Returns (Traj.interpolate L T.tstamps) T () T') :
    T'.tstamps = T.tstamps ∧ T'.pos = T.pos ∧ T'.arc = T.arc := by
  have h0 : 0 < T.tstamps.length := List.length_pos_of_ne_nil hne
  have hts : T'.tstamps = T.tstamps := by
    obtain ⟨h1, h2⟩ := C05_interpolate_timestamps L T T' hT T.tstamps T.tstamps[0]
      T.tstamps[T.tstamps.length - 1]
      (by rw [List.head?_eq_getElem?, List.getElem?_eq_getElem h0])
      (by rw [List.getLast?_eq_getElem?, List.getElem?_eq_getElem (by omega)]) hret
    have h3 : T.tstamps.filter (fun t => decide (T.tstamps[0] ≤ t ∧
        t ≤ T.tstamps[T.tstamps.length - 1])) = T.tstamps := by
      rw [List.filter_eq_self]
      intro t ht
      obtain ⟨i, hi, rfl⟩ := List.getElem_of_mem ht
      simp only [decide_eq_true_eq]
      exact ⟨sorted_getElem_le hs.le hi (by omega), sorted_getElem_le hs.le (by omega) (by omega)⟩
    rw [h3] at h2
    exact h2.eq_of_pairwise (fun _ _ _ _ h1 h2 => le_antisymm h1 h2) h1 hs.le
  have huniq : ∀ {i j : Nat} {t : K}, T.tstamps[i]? = some t → T.tstamps[j]? = some t → i = j := by
    intro i j t hi hj
    have hil := (List.getElem?_eq_some_iff.1 hi).1
    have hjl := (List.getElem?_eq_some_iff.1 hj).1
    have h3 : T.tstamps[i] = T.tstamps[j] := by
      rw [(List.getElem?_eq_some_iff.1 hi).2, (List.getElem?_eq_some_iff.1 hj).2]
    exact (List.Nodup.getElem_inj_iff hs.nodup).1 h3
  have hno : ∀ {k i : Nat} {t t₀ t₁ : K}, T.tstamps[k]? = some t → T.tstamps[i]? = some t₀ →
      T.tstamps[i + 1]? = some t₁ → t₀ < t → t < t₁ → False := by
    intro k i t t₀ t₁ hk hi hi1 h1 h2
    obtain ⟨hkl, rfl⟩ := List.getElem?_eq_some_iff.1 hk
    obtain ⟨hil, rfl⟩ := List.getElem?_eq_some_iff.1 hi
    obtain ⟨hil1, rfl⟩ := List.getElem?_eq_some_iff.1 hi1
    rcases Nat.lt_or_ge i k with hik | hik
    · exact absurd h2 (not_lt.2 (sorted_getElem_le hs.le hkl (by omega)))
    · exact absurd h1 (not_lt.2 (sorted_getElem_le hs.le hil hik))
  refine ⟨hts, ?_, ?_⟩
  · obtain ⟨hlen, hval⟩ := C06_interpolate_positions L T T' hT hne hs _ hret
    apply List.ext_getElem?
    intro k
    by_cases hk : k < T.tstamps.length
    · have hk1 : k < T'.pos.length := by rw [hlen, hts]; exact hk
      have hk2 : k < T.pos.length := by rw [hT.pos]; exact hk
      rcases hval k T.tstamps[k] T'.pos[k] (by rw [hts]; exact List.getElem?_eq_getElem hk)
        (List.getElem?_eq_getElem hk1) with ⟨i, hi1, hi2⟩ | ⟨i, t₀, t₁, _, _, h1, h2, _, _, h3, h4, _⟩
      · rw [huniq (List.getElem?_eq_getElem hk) hi1, hi2]
        rw [← huniq (List.getElem?_eq_getElem hk) hi1, List.getElem?_eq_getElem hk1]
      · exact (hno (List.getElem?_eq_getElem hk) h1 h2 h3 h4).elim
    · rw [List.getElem?_eq_none (by rw [hlen, hts]; omega), List.getElem?_eq_none (by rw [hT.pos]; omega)]
  · obtain ⟨hlen, hval⟩ := C06_interpolate_arc_lengths L T T' hT hne hs _ hret
    apply List.ext_getElem?
    intro k
    by_cases hk : k < T.tstamps.length
    · have hk1 : k < T'.arc.length := by rw [hlen, hts]; exact hk
      have hk2 : k < T.arc.length := by rw [hT.arc]; exact hk
      rcases hval k T.tstamps[k] T'.arc[k] (by rw [hts]; exact List.getElem?_eq_getElem hk)
        (List.getElem?_eq_getElem hk1) with ⟨i, hi1, hi2⟩ | ⟨i, t₀, t₁, _, _, h1, h2, _, _, h3, h4, _⟩
      · rw [huniq (List.getElem?_eq_getElem hk) hi1, hi2]
        rw [← huniq (List.getElem?_eq_getElem hk) hi1, List.getElem?_eq_getElem hk1]
      · exact (hno (List.getElem?_eq_getElem hk) h1 h2 h3 h4).elim
    · rw [List.getElem?_eq_none (by rw [hlen, hts]; omega), List.getElem?_eq_none (by rw [hT.arc]; omega)]

omit [IsStrictOrderedRing K] in
/-- **C08**, positive part: without orientations a raising call changes nothing.
Missing for the full property: trajectories with orientations, for which it is false. -/
theorem C08_interpolate_atomic_without_orientations_partial (L : RotLib K R) (T T' : Traj K R)
    (hT : Coherent T) (hr : T.rot = none) (ts : List K) (e : Err)
    (hraise : Raises (Traj.interpolate L ts) T e T') : T' = T := by
  unfold Raises at hraise
  rcases Nat.eq_zero_or_pos T.tstamps.length with h0 | h0
  · have hts : T.tstamps = [] := List.eq_nil_of_length_eq_zero h0
    unfold Traj.interpolate at hraise
    simp only [SE.run_bind, SE.run_get, SE.run_lift, hts, cropStamps_empty] at hraise
    by_cases hn : npSort ts = []
    · rw [if_pos hn] at hraise
      simp [Traj.interpolatePositions, SE.run_bind, npInterp, hts] at hraise
      exact hraise.2.symm
    · rw [if_neg hn] at hraise
      simp at hraise
      exact hraise.2.symm
  · rw [interpolate_eq_noRot L hT h0 ts hr] at hraise
    simp at hraise

/-- a rotation library on numbers (rotations by integer angles about one axis); only used to run
examples -/
def exLib : RotLib ℚ Nat :=
  { one := 0, mul := (· + ·), inv := id, toMat := fun _ => 1, fromMat := fun _ => 0,
    slerp := fun a b α => if α = 1 then b else a }

/-- three samples with orientations, two of them at the same time -/
def exDup : Traj ℚ Nat :=
  { tstamps := [0, 1, 1], pos := [⟨0, 0, 0⟩, ⟨1, 0, 0⟩, ⟨1, 0, 0⟩], rot := some [10, 11, 12],
    arc := [0, 1, 1], speed := [⟨1, 0, 0⟩, ⟨0, 0, 0⟩, ⟨0, 0, 0⟩], sorting := .time,
    name := "dup", epsg := 0 }

/-- **C08 is false of the code**: with a repeated timestamp and orientations the call raises
`ValueError` after the positions have already been replaced (3 samples, 1 position). -/
theorem C08_interpolate_not_atomic : ¬ (∀ (L : RotLib ℚ Nat) (T T' : Traj ℚ Nat) (ts : List ℚ)
    (e : Err), Coherent T → Raises (Traj.interpolate L ts) T e T' → T' = T) := by
  intro h
  have h1 : Traj.interpolate exLib [1/2] exDup =
      (.error .valueError, { exDup with pos := [⟨1/2, 0, 0⟩] }) := by decide +kernel
  have := h exLib exDup _ [1/2] _ ⟨rfl, rfl, rfl, by rintro r ⟨⟩; rfl⟩ h1
  have h2 := congrArg (fun T => T.pos.length) this
  simp [exDup] at h2

/-! ### The hypotheses are met -/

example : SlerpEnds exLib := ⟨fun a b => by simp [exLib], fun a b => by simp [exLib]⟩
example : StrictAsc exT.tstamps ∧ 2 ≤ exT.tstamps.length ∧ exT.tstamps ≠ [] := by decide
example : exT.tstamps.head? = some 0 ∧ exT.tstamps.getLast? = some 2 := by decide
example : (Traj.interpolate exLib [3/2, 5, 1/2, 1] exT).1 = .ok () ∧
    (Traj.interpolate exLib [3/2, 5, 1/2, 1] exT).2.tstamps = [1/2, 1, 3/2] ∧
    (Traj.interpolate exLib [3/2, 5, 1/2, 1] exT).2.pos = [⟨1/2, 0, 0⟩, ⟨1, 0, 0⟩, ⟨2, 0, 0⟩] := by
  decide +kernel
example : (Traj.interpolate exLib exT.tstamps exT).1 = .ok () := by decide +kernel
/-- a raising call without orientations exists: an empty trajectory -/
example : (Traj.interpolate exLib [1] { exT with
      tstamps := []
      pos := []
      rot := none
      arc := []
      speed := [] }).1 = .error .indexError := by decide +kernel

end TC
