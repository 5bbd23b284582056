import Verif.Model.VarSubset
import Verif.Spec.Observations
import Verif.Props.TrajIndex
/-!
# C131: the subset used to estimate variances
-/
namespace TC
set_option linter.unusedSectionVars false
variable {K R : Type} [Field K] [LinearOrder K]

/-- the `num` numbers ending at position `m` vary most, and no earlier such group varies as much -/
structure IsBestWindow (std : List K → K) (xs : List K) (num m : Nat) : Prop where
  range : num ≤ m + 1 ∧ m < xs.length
  best : ∀ m', num ≤ m' + 1 → m' < xs.length →
    std ((xs.drop (m' + 1 - num)).take num) ≤ std ((xs.drop (m + 1 - num)).take num)
  first : ∀ m', num ≤ m' + 1 → m' < m →
    std ((xs.drop (m' + 1 - num)).take num) < std ((xs.drop (m + 1 - num)).take num)

namespace Obs

theorem rollingStd_get (std : List K → K) {num : Nat} (h2 : 2 ≤ num) (xs : List K) {i : Nat} (hi : i < xs.length) :
    (rollingStd std num xs)[i]? = some (if i + 1 < num then none else some (std ((xs.drop (i + 1 - num)).take num))) := by
  have : ¬ num < 2 := by omega
  simp [rollingStd, hi, this]

theorem mem_rolling (std : List K → K) {num : Nat} (h2 : 2 ≤ num) (xs : List K) (v : K) :
    some v ∈ rollingStd std num xs ↔
      ∃ i, num ≤ i + 1 ∧ i < xs.length ∧ v = std ((xs.drop (i + 1 - num)).take num) := by
  have h : ¬ num < 2 := by omega
  simp only [rollingStd, List.mem_map, List.mem_range, h, or_false]
  constructor
  · rintro ⟨i, hi, he⟩
    split_ifs at he with hc
    exact ⟨i, by omega, hi, (Option.some.inj he).symm⟩
  · rintro ⟨i, h1, hi, rfl⟩
    exact ⟨i, hi, by rw [if_neg (by omega)]⟩

theorem exists_best (std : List K → K) {num : Nat} (h2 : 2 ≤ num) {xs : List K} (hn : num ≤ xs.length) :
    ∃ a, some a ∈ rollingStd std num xs ∧ ∀ b, some b ∈ rollingStd std num xs → b ≤ a := by
  have hne : ((rollingStd std num xs).filterMap id) ≠ [] := by
    have : some (std ((xs.drop (num - 1 + 1 - num)).take num)) ∈ rollingStd std num xs :=
      (mem_rolling std h2 xs _).mpr ⟨num - 1, by omega, by omega, rfl⟩
    intro hc
    have hm : std ((xs.drop (num - 1 + 1 - num)).take num) ∈ (rollingStd std num xs).filterMap id := by
      simpa using this
    rw [hc] at hm
    simp at hm
  have : ∀ l : List K, l ≠ [] → ∃ a ∈ l, ∀ b ∈ l, b ≤ a := by
    intro l hl
    induction l with
    | nil => exact absurd rfl hl
    | cons x l ih =>
      by_cases hl' : l = []
      · subst hl'
        exact ⟨x, by simp, by simp⟩
      · obtain ⟨a, ha, hb⟩ := ih hl'
        by_cases hx : x ≤ a
        · exact ⟨a, by simp [ha], by simpa [hx] using hb⟩
        · push Not at hx
          exact ⟨x, by simp, by
            intro b hbm
            rcases List.mem_cons.mp hbm with rfl | hbm
            · exact le_refl _
            · exact le_trans (hb b hbm) hx.le⟩
  obtain ⟨a, ha, hb⟩ := this _ hne
  exact ⟨a, by simpa using ha, fun b hbm => hb b (by simpa using hbm)⟩

theorem idxmax_spec (std : List K → K) {num : Nat} (h2 : 2 ≤ num) {xs : List K} (hn : num ≤ xs.length) :
    ∃ m, idxmax (rollingStd std num xs) = some m ∧ IsBestWindow std xs num m := by
  obtain ⟨a, ha, hb⟩ := exists_best std h2 hn
  cases hm : idxmax (rollingStd std num xs) with
  | none =>
    unfold idxmax at hm
    rw [List.findIdx?_eq_none_iff] at hm
    have := hm _ ha
    simp only [List.all_eq_false] at this
    obtain ⟨b, hbm, hbf⟩ := this
    cases b with
    | none => simp at hbf
    | some b => exact absurd (hb b hbm) (by simpa using hbf)
  | some m =>
    refine ⟨m, rfl, ?_⟩
    unfold idxmax at hm
    rw [List.findIdx?_eq_some_iff_getElem] at hm
    obtain ⟨hlt, hp, hbefore⟩ := hm
    have hlen : (rollingStd std num xs).length = xs.length := by simp [rollingStd]
    have hlt' : m < xs.length := hlen ▸ hlt
    have hget := rollingStd_get std h2 xs hlt'
    rw [List.getElem?_eq_getElem hlt, Option.some.injEq] at hget
    rw [hget] at hp
    by_cases hc : m + 1 < num
    · rw [if_pos hc] at hp
      simp at hp
    · rw [if_neg hc] at hp
      simp only [List.all_eq_true] at hp
      have hbest : ∀ b, some b ∈ rollingStd std num xs → b ≤ std ((xs.drop (m + 1 - num)).take num) :=
        fun b hbm => by simpa using hp _ hbm
      refine ⟨⟨by omega, hlt'⟩, ?_, ?_⟩
      · intro m' h1 h3
        exact hbest _ ((mem_rolling std h2 xs _).mpr ⟨m', h1, h3, rfl⟩)
      · intro m' h1 h3
        have h4 : m' < xs.length := by omega
        have hb' := hbefore m' h3
        have hg := rollingStd_get std h2 xs h4
        rw [List.getElem?_eq_getElem (by omega), Option.some.injEq] at hg
        rw [hg, if_neg (show ¬ m' + 1 < num by omega)] at hb'
        simp only [Bool.not_eq_true, List.all_eq_false] at hb'
        obtain ⟨b, hbm, hbf⟩ := hb'
        cases b with
        | none => simp at hbf
        | some b => exact lt_of_lt_of_le (by simpa using hbf) (hbest b hbm)

theorem epochNorms_eq (nrm : List K → K) (e : EstSettings) (obs : List K) {n : Nat} (hn : numEpochs e obs = n) :
    epochNorms nrm e obs = (List.range n).map (fun k => nrm (block (perEpoch e) obs k)) := by
  subst hn
  rfl

/-- what `apply_index` leaves of the samples -/
theorem applyInts {T : Traj K R} (hT : Coherent T) {idx : List Int}
    (hv : ∀ i ∈ idx, -(T.tstamps.length : Int) ≤ i ∧ i < (T.tstamps.length : Int)) (hne : idx ≠ []) :
    ∃ T', Traj.applyIndex (.ints idx) T = (.ok (), T') ∧ Coherent T' ∧ SameMeta T T' ∧
      samples T' = idx.filterMap (fun i => (samples T)[(if i < 0 then i + (T.tstamps.length : Int) else i).toNat]?) := by
  obtain ⟨T', h1, h2, h3, h4, h5⟩ := C01_apply_index_keeps_channels_in_step T hT idx hv (.inr hne)
  refine ⟨T', h1, h2, h3, ?_⟩
  have hsl := samples_length hT
  have hj : ∀ i ∈ idx, (if i < 0 then i + (T.tstamps.length : Int) else i).toNat < (samples T).length := by
    intro i hi
    have := hv i hi
    rw [hsl]
    split_ifs <;> omega
  have hmap : idx.map (fun i => (samples T)[(if i < 0 then i + (T.tstamps.length : Int) else i).toNat]?) =
      (samples T').map some := by
    apply List.ext_getElem?
    intro k
    rw [List.getElem?_map, List.getElem?_map]
    cases hk : idx[k]? with
    | none =>
      have : idx.length ≤ k := by simpa using hk
      rw [List.getElem?_eq_none (by omega)]
      rfl
    | some i =>
      have hi : i ∈ idx := List.mem_of_getElem? hk
      have hd := h5 k i (if i < 0 then i + (T.tstamps.length : Int) else i).toNat hk (by
        have := hv i hi
        unfold Denotes
        split_ifs <;> omega)
      rw [hd]
      simp only [Option.map_some]
      rw [List.getElem?_eq_getElem (hj i hi)]
      rfl
  exact (filterMap_eq_of_map_eq hmap).symm

theorem drop_take_eq {α : Type} (l : List α) (a num : Nat) (h : a + num ≤ l.length) :
    (List.range num).filterMap (fun j => l[a + j]?) = (l.drop a).take num := by
  refine filterMap_eq_of_map_eq (List.ext_getElem? fun k => ?_)
  rw [List.getElem?_map, List.getElem?_map]
  by_cases hk : k < num
  · rw [List.getElem?_range hk, List.getElem?_take_of_lt hk, List.getElem?_drop]
    simp only [Option.map_some]
    rw [List.getElem?_eq_getElem (by omega)]
    rfl
  · rw [List.getElem?_eq_none (by simpa using hk), List.getElem?_eq_none (by simp; omega)]
    rfl

theorem select_shifted {α : Type} (l : List α) {n num m : Nat} (hn : l.length = n) (h1 : num ≤ m) (h2 : m < n) :
    ((List.range num).map (fun j : Nat => (m : Int) - (num : Int) + (j : Int))).filterMap
      (fun i => l[(if i < 0 then i + (n : Int) else i).toNat]?) = (l.drop (m - num)).take num := by
  rw [← drop_take_eq l (m - num) num (by omega), List.filterMap_map]
  refine List.filterMap_congr fun j hj => ?_
  simp only [Function.comp]
  rw [if_neg (by omega)]
  congr 1
  omega

theorem select_wrapped {α : Type} (l : List α) {n num m : Nat} (hn : l.length = n) (h0 : 0 < num) (h1 : m + 1 = num)
    (h2 : num ≤ n) :
    ((List.range num).map (fun j : Nat => (m : Int) - (num : Int) + (j : Int))).filterMap
      (fun i => l[(if i < 0 then i + (n : Int) else i).toNat]?) = l.getLast?.toList ++ l.take (num - 1) := by
  have e : num = (num - 1) + 1 := by omega
  have hr : List.range num = 0 :: (List.range (num - 1)).map Nat.succ := by
    conv_lhs => rw [e, List.range_succ_eq_map]
  have ht : (List.range (num - 1)).filterMap (fun j => l[j]?) = l.take (num - 1) := by
    simpa using drop_take_eq l 0 (num - 1) (by omega)
  rw [hr, List.map_cons, List.filterMap_cons, ← ht]
  have hlast : l[(if ((m : Int) - (num : Int) + ((0 : Nat) : Int)) < 0 then
      ((m : Int) - (num : Int) + ((0 : Nat) : Int)) + (n : Int) else (m : Int) - (num : Int) + ((0 : Nat) : Int)).toNat]? =
      l.getLast? := by
    rw [if_pos (by omega), List.getLast?_eq_getElem?]
    congr 1
    omega
  rw [hlast]
  have hrest : (((List.range (num - 1)).map Nat.succ).map (fun j : Nat => (m : Int) - (num : Int) + (j : Int))).filterMap
      (fun i => l[(if i < 0 then i + (n : Int) else i).toNat]?) = (List.range (num - 1)).filterMap (fun j => l[j]?) := by
    rw [List.map_map, List.filterMap_map]
    refine List.filterMap_congr fun j hj => ?_
    simp only [Function.comp]
    rw [if_neg (by push_cast; omega)]
    congr 1
    push_cast
    omega
  rw [hrest]
  cases l.getLast? <;> rfl

/-- the whole method for `n` epochs -/
theorem varianceSubset_spec (nrm std : List K → K) (e : EstSettings) {num n : Nat} (h2 : 2 ≤ num) (hn : num < n)
    {obs : List K} (ho : numEpochs e obs = n) {F T : Traj K R} (hF : Coherent F) (hT : Coherent T)
    (lF : F.tstamps.length = n) (lT : T.tstamps.length = n) :
    ∃ m F' T', IsBestWindow std ((List.range n).map (fun k => nrm (block (perEpoch e) obs k))) num m ∧
      varianceSubset nrm std e num obs F T = .ok (F', T') ∧ Coherent F' ∧ Coherent T' ∧ SameMeta F F' ∧ SameMeta T T' ∧
      (num ≤ m → samples F' = ((samples F).drop (m - num)).take num ∧ samples T' = ((samples T).drop (m - num)).take num) ∧
      (m + 1 = num → samples F' = (samples F).getLast?.toList ++ (samples F).take (num - 1) ∧
        samples T' = (samples T).getLast?.toList ++ (samples T).take (num - 1)) := by
  obtain ⟨m, hm, hb⟩ := idxmax_spec std h2 (xs := epochNorms nrm e obs) (by simp [epochNorms, ho]; omega)
  rw [epochNorms_eq nrm e obs ho] at hb
  have hmn : m < n := by simpa using hb.range.2
  have hm1 := hb.range.1
  have hv : ∀ N : Nat, N = n → ∀ i ∈ (List.range num).map (fun j : Nat => (m : Int) - (num : Int) + (j : Int)),
      -(N : Int) ≤ i ∧ i < (N : Int) := by
    rintro N rfl i hi
    simp only [List.mem_map, List.mem_range] at hi
    obtain ⟨j, hj, rfl⟩ := hi
    omega
  have hne : (List.range num).map (fun j : Nat => (m : Int) - (num : Int) + (j : Int)) ≠ [] := by
    simp; omega
  obtain ⟨F', f1, f2, f3, f4⟩ := applyInts hF (hv _ lF) hne
  obtain ⟨T', t1, t2, t3, t4⟩ := applyInts hT (hv _ lT) hne
  rw [lF] at f4
  rw [lT] at t4
  have sF := (samples_length hF).trans lF
  have sT := (samples_length hT).trans lT
  refine ⟨m, F', T', hb, ?_, f2, t2, f3, t3, ?_, ?_⟩
  · unfold varianceSubset varianceIndex
    rw [if_neg (by omega), hm]
    simp only [bind, Except.bind, f1, t1]
    rfl
  · intro h
    rw [f4, t4]
    exact ⟨select_shifted _ sF h hmn, select_shifted _ sT h hmn⟩
  · intro h
    rw [f4, t4]
    exact ⟨select_wrapped _ sF (by omega) h (by omega), select_wrapped _ sT (by omega) h (by omega)⟩

end Obs

/-- **C131**, positive part: up to `num` epochs everything is used.  Otherwise, if the group of `num` epochs that varies
most does not begin with the first epoch, the subset are `num` consecutive epochs of both trajectories in their order.
Missing for the full property: that it is this group; it is the one an epoch earlier. -/
theorem C131_subset_is_consecutive_partial (nrm std : List K → K) (e : EstSettings) {num n : Nat} (h2 : 2 ≤ num)
    {obs : List K} (ho : obs.length / Obs.perEpoch e = n) {F T : Traj K R} (hF : Coherent F) (hT : Coherent T)
    (lF : F.tstamps.length = n) (lT : T.tstamps.length = n) :
    (n ≤ num → Obs.varianceSubset nrm std e num obs F T = .ok (F, T)) ∧
    (num < n → ∃ m, IsBestWindow std ((List.range n).map (fun k => nrm (block (Obs.perEpoch e) obs k))) num m ∧
      (m + 1 ≠ num → ∃ F' T', Obs.varianceSubset nrm std e num obs F T = .ok (F', T') ∧ Coherent F' ∧ Coherent T' ∧
        samples F' = ((samples F).drop (m - num)).take num ∧ samples T' = ((samples T).drop (m - num)).take num ∧
        (samples F').length = num)) := by
  constructor
  · intro h
    unfold Obs.varianceSubset Obs.varianceIndex Obs.numEpochs
    rw [if_pos (by omega)]
    rfl
  · intro h
    obtain ⟨m, F', T', hb, h1, h3, h4, -, -, h5, -⟩ := Obs.varianceSubset_spec nrm std e h2 h ho hF hT lF lT
    refine ⟨m, hb, fun hm => ?_⟩
    have hr := hb.range
    obtain ⟨a, b⟩ := h5 (by omega)
    refine ⟨F', T', h1, h3, h4, a, b, ?_⟩
    have := samples_length hF
    have hmn : m < n := by simpa using hr.2
    rw [a, List.length_take, List.length_drop]
    omega

/-- **C131** fails: whatever the data, with more than `num` epochs the last epoch of the group that varies most is not in
the subset. -/
theorem C131_best_epochs_not_selected (nrm std : List K → K) (e : EstSettings) {num n : Nat} (h2 : 2 ≤ num) (hn : num < n)
    {obs : List K} (ho : obs.length / Obs.perEpoch e = n) {F T : Traj K R} (hF : Coherent F) (hT : Coherent T)
    (lF : F.tstamps.length = n) (lT : T.tstamps.length = n) (hd : F.tstamps.Nodup) :
    ∃ m F' T' s, IsBestWindow std ((List.range n).map (fun k => nrm (block (Obs.perEpoch e) obs k))) num m ∧
      Obs.varianceSubset nrm std e num obs F T = .ok (F', T') ∧ (samples F)[m]? = some s ∧ s ∉ samples F' := by
  obtain ⟨m, F', T', hb, h1, -, -, -, -, h5, h6⟩ := Obs.varianceSubset_spec nrm std e h2 hn ho hF hT lF lT
  have hr := hb.range
  have hsl := (samples_length hF).trans lF
  have hmn : m < n := by simpa using hr.2
  have hm : m < (samples F).length := by omega
  have hnd : (samples F).Nodup := List.Nodup.of_map Sample.t (by rw [samples_map_t hF]; exact hd)
  have hinj : ∀ j, (samples F)[j]? = some (samples F)[m] → j = m := by
    intro j hj
    obtain ⟨hj', he⟩ := List.getElem?_eq_some_iff.mp hj
    exact (List.Nodup.getElem_inj_iff hnd).mp he
  refine ⟨m, F', T', (samples F)[m], hb, h1, List.getElem?_eq_getElem hm, ?_⟩
  intro hmem
  obtain ⟨k, hk⟩ := List.getElem?_of_mem hmem
  by_cases hc : m + 1 = num
  · rw [(h6 hc).1] at hmem
    rcases List.mem_append.mp hmem with h | h
    · have h' : (samples F).getLast? = some (samples F)[m] := by simpa using h
      rw [List.getLast?_eq_getElem?] at h'
      have := hinj _ h'
      omega
    · obtain ⟨j, hj⟩ := List.getElem?_of_mem h
      have hjl : j < num - 1 := by
        have := (List.getElem?_eq_some_iff.mp hj).1
        simp at this
        omega
      rw [List.getElem?_take_of_lt hjl] at hj
      have := hinj _ hj
      omega
  · rw [(h5 (by omega)).1] at hk
    have hkl : k < num := by
      have := (List.getElem?_eq_some_iff.mp hk).1
      simp at this
      omega
    rw [List.getElem?_take_of_lt hkl, List.getElem?_drop] at hk
    have := hinj _ hk
    omega

/-- **C131** fails worse: if the first `num` epochs vary most, the subset consists of the last epoch followed by the
first `num - 1` ones. -/
theorem C131_first_window_tears (nrm std : List K → K) (e : EstSettings) {num n : Nat} (h2 : 2 ≤ num) (hn : num < n)
    {obs : List K} (ho : obs.length / Obs.perEpoch e = n) {F T : Traj K R} (hF : Coherent F) (hT : Coherent T)
    (lF : F.tstamps.length = n) (lT : T.tstamps.length = n)
    (hfirst : IsBestWindow std ((List.range n).map (fun k => nrm (block (Obs.perEpoch e) obs k))) num (num - 1)) :
    ∃ F' T' s t, Obs.varianceSubset nrm std e num obs F T = .ok (F', T') ∧ (samples F).getLast? = some s ∧
      (samples T).getLast? = some t ∧ samples F' = s :: (samples F).take (num - 1) ∧
      samples T' = t :: (samples T).take (num - 1) := by
  obtain ⟨m, F', T', hb, h1, -, -, -, -, -, h6⟩ := Obs.varianceSubset_spec nrm std e h2 hn ho hF hT lF lT
  have hm : m = num - 1 := by
    have r1 := hb.range
    have r2 := hfirst.range
    rcases Nat.lt_trichotomy m (num - 1) with h | h | h
    · omega
    · exact h
    · exact absurd (hb.first (num - 1) (by omega) h) (not_lt.mpr (hfirst.best m r1.1 r1.2))
  obtain ⟨a, b⟩ := h6 (by omega)
  have sF := (samples_length hF).trans lF
  have sT := (samples_length hT).trans lT
  have nF : samples F ≠ [] := by intro h; simp [h] at sF; omega
  have nT : samples T ≠ [] := by intro h; simp [h] at sT; omega
  refine ⟨F', T', (samples F).getLast nF, (samples T).getLast nT, h1, List.getLast?_eq_some_getLast nF,
    List.getLast?_eq_some_getLast nT, ?_, ?_⟩
  · rw [a, List.getLast?_eq_some_getLast nF]; rfl
  · rw [b, List.getLast?_eq_some_getLast nT]; rfl

/-! ### Non-vacuity -/

/-- three epochs with positions only -/
def exVarTraj : Traj ℚ Nat :=
  { tstamps := [0, 1, 2], pos := [⟨0, 0, 0⟩, ⟨9, 0, 0⟩, ⟨9, 0, 0⟩], rot := none, arc := [0, 9, 9], speed := [0, 0, 0],
    epsg := 0, name := "a", sorting := .time }

example : Coherent exVarTraj ∧ exVarTraj.tstamps.Nodup := ⟨⟨rfl, rfl, rfl, by rintro r ⟨⟩⟩, by decide +kernel⟩

/-- the first two epochs vary most: the last epoch is put before the first one -/
example : (Obs.varianceSubset (fun r => r.sum) (fun w => |w.headD 0 - w.getLastD 0|) {} 2
    [0, 0, 0, 0, 0, 0, 9, 0, 0, 0, 0, 0, 9, 0, 0, 0, 0, 0] exVarTraj exVarTraj).map (fun r => r.1.tstamps) =
    .ok [2, 0] := by decide +kernel

example : IsBestWindow (K := ℚ) (fun w => |w.headD 0 - w.getLastD 0|) [0, 9, 9] 2 1 := by
  refine ⟨by decide, ?_, ?_⟩
  · intro m' h1 h2
    have : m' = 1 ∨ m' = 2 := by simp at h2; omega
    rcases this with rfl | rfl <;> decide +kernel
  · intro m' h1 h2
    omega

/-- the last two epochs vary most: the epochs before are selected -/
example : (Obs.varianceSubset (fun r => r.sum) (fun w => |w.headD 0 - w.getLastD 0|) {} 2
    [0, 0, 0, 0, 0, 0, 0, 0, 0, 0, 0, 0, 9, 0, 0, 0, 0, 0] exVarTraj exVarTraj).map (fun r => r.1.tstamps) =
    .ok [0, 1] := by decide +kernel

end TC
