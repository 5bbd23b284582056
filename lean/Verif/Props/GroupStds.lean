import Verif.Model.GroupStds
import Verif.Props.Observations
/-!
# C189, C190: summaries of the parameters and of the observations of an alignment
-/
namespace TC
variable {K : Type} [Field K] [LinearOrder K] [IsStrictOrderedRing K]
set_option linter.unusedSectionVars false

/-! ### C189: what a set of parameters says about its parameters -/

theorem dictPut_keys {α : Type} (d : List (String × α)) (k : String) (v : α) (h : k ∉ d.map Prod.fst) :
    PSet.dictPut d k v = d ++ [(k, v)] := by
  unfold PSet.dictPut
  rw [if_neg]
  simp only [List.any_eq_true, beq_iff_eq, not_exists, not_and]
  intro e he hk
  exact h (List.mem_map.2 ⟨e, he, hk⟩)

theorem foldl_put (ps : List (Param K)) : ∀ d : List (String × (K × K)), (d.map Prod.fst ++ ps.map Param.name).Nodup →
    ps.foldl (fun d p => PSet.dictPut d p.name (p.value, p.variance)) d = d ++ ps.map (fun p => (p.name, (p.value, p.variance))) := by
  induction ps with
  | nil => intro d _; simp
  | cons p ps ih =>
    intro d h
    have hk : p.name ∉ d.map Prod.fst := by
      intro hc
      exact (List.nodup_append.1 h).2.2 _ hc _ (List.mem_map.2 ⟨p, List.mem_cons_self, rfl⟩) rfl
    simp only [List.foldl_cons]
    rw [dictPut_keys d _ _ hk, ih]
    · simp
    · simpa using h

/-- **C189**, the dictionary: if the names differ, it has an entry for every parameter asked for, in order and no other, and the entry is the value
in force and its variance. -/
theorem C189_dict (s : PSet K) (enabledOnly : Bool) (hn : (s.params.map Param.name).Nodup) :
    (∀ p ∈ s.params, p.enabled = true ∨ enabledOnly = false → (p.name, (p.value, p.variance)) ∈ s.toDict enabledOnly) ∧
    (∀ k v, (k, v) ∈ s.toDict enabledOnly → ∃ p ∈ s.params, (p.enabled = true ∨ enabledOnly = false) ∧ p.name = k ∧
      v = (p.value, p.variance)) ∧
    ((s.toDict enabledOnly).map Prod.fst).Nodup ∧ ((s.toDict enabledOnly).map Prod.fst).Sublist (s.params.map Param.name) := by
  have e : s.toDict enabledOnly = (s.params.filter (fun p => p.enabled || !enabledOnly)).map (fun p => (p.name, (p.value, p.variance))) := by
    unfold PSet.toDict
    rw [foldl_put _ [] (by simpa using hn.sublist (List.filter_sublist.map _))]
    rfl
  have e2 : (s.toDict enabledOnly).map Prod.fst = (s.params.filter (fun p => p.enabled || !enabledOnly)).map Param.name := by
    rw [e, List.map_map]; rfl
  have hs : ((s.toDict enabledOnly).map Prod.fst).Sublist (s.params.map Param.name) := by
    rw [e2]; exact List.filter_sublist.map _
  refine ⟨?_, ?_, hn.sublist hs, hs⟩
  · intro p hp h
    rw [e]
    refine List.mem_map.2 ⟨p, List.mem_filter.2 ⟨hp, ?_⟩, rfl⟩
    rcases h with h | h <;> simp [h]
  · intro k v h
    rw [e] at h
    obtain ⟨p, hp, h⟩ := List.mem_map.1 h
    obtain ⟨h1, h2⟩ := List.mem_filter.1 hp
    cases h
    refine ⟨p, h1, ?_, rfl, rfl⟩
    simpa using h2

/-- **C189**, negation: the value in force changes its sign and nothing else changes; the neutral value of the parameter does too.
Negating twice has no effect on what a parameter shows. -/
theorem C189_negation (p : Param K) :
    p.neg.value = -p.value ∧ p.neg.variance = p.variance ∧ p.neg.name = p.name ∧ p.neg.unit = p.unit ∧ p.neg.enabled = p.enabled ∧
      p.neg.neg.value = p.value ∧ p.neg.neg.default = p.default := by
  unfold Param.neg Param.value Param.variance
  cases p.enabled <;> simp

/-- **C189**, `any_enabled` -/
theorem C189_any_enabled (s : PSet K) : s.anyEnabled = true ↔ ∃ p ∈ s.params, p.enabled = true := by
  unfold PSet.anyEnabled PSet.numEnabled PSet.valuesEnabled
  rw [decide_eq_true_iff, List.length_map, gt_iff_lt, List.length_filter_pos_iff]

/-- **C189**, sums and differences of two sets with the same number of parameters are those of the values in force -/
theorem C189_sum (s t : PSet K) (h : s.params.length = t.params.length) :
    ∃ a b, s.add t = .ok a ∧ s.sub t = .ok b ∧ a.length = s.params.length ∧ b.length = s.params.length ∧
      ∀ (i : Nat) p q, s.params[i]? = some p → t.params[i]? = some q →
        a[i]? = some (p.value + q.value) ∧ b[i]? = some (p.value - q.value) := by
  have hl : s.values.length = t.values.length := by simp [PSet.values, h]
  refine ⟨_, _, if_pos hl, if_pos hl, by simp [PSet.values, h], by simp [PSet.values, h], ?_⟩
  intro i p q h1 h2
  simp [PSet.values, List.getElem?_zipWith, h1, h2]

-- the parameters of an alignment have different names
example : (AlignParams.new (K := ℚ)).params.map Param.name |>.Nodup := by decide +kernel

example : (PSet.toDict ⟨true, zeroRows 2, [⟨3, 2, 0, true, "Scale", .scale⟩, ⟨7, 1, 1, false, "Time Shift", .second⟩]⟩ true :
    List (String × (ℚ × ℚ))) = [("Scale", (3, 2))] ∧
    (PSet.toDict ⟨true, zeroRows 2, [⟨3, 2, 0, true, "Scale", .scale⟩, ⟨7, 1, 1, false, "Time Shift", .second⟩]⟩ false :
    List (String × (ℚ × ℚ))) = [("Scale", (3, 2)), ("Time Shift", (1, 0))] := by
  constructor <;> decide +kernel

/-! ### C190: the standard deviations reported for the observations -/

namespace Obs

theorem stride_const (e : EstSettings) (n : Nat) (v : List K) (hv : v.length = n * perEpoch e) (r : List K) (i : Nat) (a : K)
    (hi : i < perEpoch e) (hr : r[i]? = some a) (h : ∀ k < n, block (perEpoch e) v k = r) :
    stride (perEpoch e) i v = List.replicate n a := by
  have hp : 0 < perEpoch e := by omega
  refine List.ext_getElem? fun k => ?_
  rw [stride_getElem? hp, List.getElem?_replicate]
  by_cases hk : k < n
  · rw [if_pos hk, ← hr, ← h k hk]
    unfold block
    rw [List.getElem?_take, if_pos hi, List.getElem?_drop, Nat.add_comm]
  · rw [if_neg hk]
    refine List.getElem?_eq_none ?_
    rw [hv]
    exact (Nat.mul_le_mul_right _ (not_lt.1 hk)).trans (Nat.le_add_left _ _)

end Obs

/-- the standard deviation set for a kind of observations (spec) -/
def setStd (s : Stochastics K) : ObsKey → K
  | .xyFrom => s.stdXyFrom
  | .zFrom => s.stdZFrom
  | .xyTo => s.stdXyTo
  | .zTo => s.stdZTo
  | .rollPitch => s.stdRollPitch
  | .yaw => s.stdYaw
  | .speed => s.stdSpeed
  | _ => 0

/-- the kinds of observations that take part in an adjustment, each once (spec) -/
def TakesPart (e : EstSettings) (keys : List ObsKey) : Prop :=
  keys.Nodup ∧ ∀ k, k ∈ keys ↔ k = .xyFrom ∨ k = .zFrom ∨ k = .xyTo ∨ k = .zTo ∨
    ((k = .rollPitch ∨ k = .yaw) ∧ e.leverarmEnabled = true) ∨ (k = .speed ∧ e.timeShiftEnabled = true)

theorem mean_replicate {n : Nat} (hn : 0 < n) (a : K) : npMean (List.replicate n a) = .ok a := by
  unfold npMean
  have : (n : K) ≠ 0 := Nat.cast_ne_zero.2 (by omega)
  simp [Nat.pos_iff_ne_zero.1 hn, mul_div_cancel_left₀ _ this]

/-- **C190**: for each kind of observations that takes part, and no other, the reported standard deviation is the one of the settings,
times `g` after the variances were multiplied by `g²`. -/
theorem C190_group_stds (sqrt : K → K) (hs : ∀ a, 0 ≤ a → sqrt (a ^ 2) = a) (e : EstSettings) (s : Stochastics K)
    (hpos : ∀ k, 0 ≤ setStd s k) (n : Nat) (hn : 0 < n) (obs : List K) (hobs : obs.length = n * Obs.perEpoch e) (g : K) (hg : 0 ≤ g) :
    ∃ v rep, Obs.buildVar e s obs = .ok v ∧ Obs.groupStds sqrt e (v.map (fun x => g ^ 2 * x)) = .ok rep ∧
      TakesPart e (rep.map Prod.fst) ∧ ∀ k a, (k, a) ∈ rep → a = g * setStd s k := by
  obtain ⟨v, h1, h2, h3⟩ := C78_variances e s n obs hobs
  have hst : ∀ i a, i < Obs.perEpoch e → (epochNumbers e
        ⟨s.stdXyFrom ^ 2, s.stdXyFrom ^ 2, s.stdZFrom ^ 2⟩ ⟨s.stdXyTo ^ 2, s.stdXyTo ^ 2, s.stdZTo ^ 2⟩
        ⟨s.stdRollPitch ^ 2, s.stdRollPitch ^ 2, s.stdYaw ^ 2⟩ ⟨s.stdSpeed ^ 2, s.stdSpeed ^ 2, s.stdSpeed ^ 2⟩)[i]? = some (a ^ 2) →
      Obs.stride (Obs.perEpoch e) i (v.map (fun x => g ^ 2 * x)) = List.replicate n ((g * a) ^ 2) := by
    intro i a hi hr
    have hp : 0 < Obs.perEpoch e := by omega
    have h4 := Obs.stride_const e n v (h2.trans hobs) _ i _ hi hr h3
    have h5 : Obs.stride (Obs.perEpoch e) i (v.map (fun x => g ^ 2 * x)) = (Obs.stride (Obs.perEpoch e) i v).map (fun x => g ^ 2 * x) := by
      refine List.ext_getElem? fun k => ?_
      rw [stride_getElem? hp, List.getElem?_map, List.getElem?_map, stride_getElem? hp]
    rw [h5, h4, List.map_replicate, mul_pow]
  have hm : ∀ m a, 0 < m → 0 ≤ a → npMean ((List.replicate m ((g * a) ^ 2)).map sqrt) = .ok (g * a) := by
    intro m a hm ha
    rw [List.map_replicate, hs _ (mul_nonneg hg ha)]
    exact mean_replicate hm _
  have key : ∀ k ∈ Obs.varianceGroups e, (do
      let cols ← Obs.extract e (v.map (fun x => g ^ 2 * x)) k
      let m ← npMean (cols.flatten.map sqrt)
      return (k, m)) = Except.ok (k, g * setStd s k) := by
    have p6 : 6 ≤ Obs.perEpoch e := by unfold Obs.perEpoch; omega
    have s0 := hst 0 s.stdXyFrom (by omega) rfl
    have s1 := hst 1 s.stdXyFrom (by omega) rfl
    have s2 := hst 2 s.stdZFrom (by omega) rfl
    have s3 := hst 3 s.stdXyTo (by omega) rfl
    have s4 := hst 4 s.stdXyTo (by omega) rfl
    have s5 := hst 5 s.stdZTo (by omega) rfl
    have two : ∀ (k : ObsKey) (a : K) (i : Nat), 0 ≤ a → Obs.group e k = some (i, i + 2) → a = setStd s k →
        Obs.stride (Obs.perEpoch e) i (v.map (fun x => g ^ 2 * x)) = List.replicate n ((g * a) ^ 2) →
        Obs.stride (Obs.perEpoch e) (i + 1) (v.map (fun x => g ^ 2 * x)) = List.replicate n ((g * a) ^ 2) →
        (do
          let cols ← Obs.extract e (v.map (fun x => g ^ 2 * x)) k
          let m ← npMean (cols.flatten.map sqrt)
          return (k, m)) = Except.ok (k, g * setStd s k) := by
      intro k a i ha hgr hk e1 e2
      have := hm (n + n) a (by omega) ha
      unfold Obs.extract
      rw [hgr]
      simp only [show i + 2 - i = 2 by omega, List.range_succ, List.range_zero, List.nil_append, List.map_append, List.map_cons, List.map_nil,
        Nat.add_zero, e1, e2, List.flatten_cons, List.flatten_nil, List.append_nil, List.flatten_append, bind, Except.bind,
        List.replicate_append_replicate]
      rw [this]
      rw [hk]; rfl
    have one : ∀ (k : ObsKey) (a : K) (i : Nat), 0 ≤ a → Obs.group e k = some (i, i + 1) → a = setStd s k →
        Obs.stride (Obs.perEpoch e) i (v.map (fun x => g ^ 2 * x)) = List.replicate n ((g * a) ^ 2) →
        (do
          let cols ← Obs.extract e (v.map (fun x => g ^ 2 * x)) k
          let m ← npMean (cols.flatten.map sqrt)
          return (k, m)) = Except.ok (k, g * setStd s k) := by
      intro k a i ha hgr hk e1
      have := hm n a hn ha
      unfold Obs.extract
      rw [hgr]
      simp only [show i + 1 - i = 1 by omega, List.range_succ, List.range_zero, List.nil_append, List.map_append, List.map_cons, List.map_nil,
        Nat.add_zero, e1, List.flatten_cons, List.flatten_nil, List.append_nil, bind, Except.bind]
      rw [this]
      rw [hk]; rfl
    have three : ∀ (k : ObsKey) (a : K) (i : Nat), 0 ≤ a → Obs.group e k = some (i, i + 3) → a = setStd s k →
        Obs.stride (Obs.perEpoch e) i (v.map (fun x => g ^ 2 * x)) = List.replicate n ((g * a) ^ 2) →
        Obs.stride (Obs.perEpoch e) (i + 1) (v.map (fun x => g ^ 2 * x)) = List.replicate n ((g * a) ^ 2) →
        Obs.stride (Obs.perEpoch e) (i + 2) (v.map (fun x => g ^ 2 * x)) = List.replicate n ((g * a) ^ 2) →
        (do
          let cols ← Obs.extract e (v.map (fun x => g ^ 2 * x)) k
          let m ← npMean (cols.flatten.map sqrt)
          return (k, m)) = Except.ok (k, g * setStd s k) := by
      intro k a i ha hgr hk e1 e2 e3
      have := hm (n + n + n) a (by omega) ha
      unfold Obs.extract
      rw [hgr]
      simp only [show i + 3 - i = 3 by omega, List.range_succ, List.range_zero, List.nil_append, List.map_append, List.map_cons, List.map_nil,
        Nat.add_zero, e1, e2, e3, List.flatten_cons, List.flatten_nil, List.append_nil, List.flatten_append, bind, Except.bind,
        List.replicate_append_replicate]
      rw [this]
      rw [hk]; rfl
    intro k hk
    unfold Obs.varianceGroups at hk
    have q := hpos k
    rcases hl : e.leverarmEnabled with _ | _ <;> rcases ht : e.timeShiftEnabled with _ | _ <;> rw [hl, ht] at hk <;> simp at hk
    · rcases hk with rfl | rfl | rfl | rfl
      · exact two _ _ 0 q rfl rfl s0 s1
      · exact one _ _ 2 q rfl rfl s2
      · exact two _ _ 3 q rfl rfl s3 s4
      · exact one _ _ 5 q rfl rfl s5
    · have s6 := hst 6 s.stdSpeed (by simp [Obs.perEpoch, hl, ht]) (by simp [epochNumbers, hl, ht])
      have s7 := hst 7 s.stdSpeed (by simp [Obs.perEpoch, hl, ht]) (by simp [epochNumbers, hl, ht])
      have s8 := hst 8 s.stdSpeed (by simp [Obs.perEpoch, hl, ht]) (by simp [epochNumbers, hl, ht])
      rcases hk with rfl | rfl | rfl | rfl | rfl
      · exact two _ _ 0 q rfl rfl s0 s1
      · exact one _ _ 2 q rfl rfl s2
      · exact two _ _ 3 q rfl rfl s3 s4
      · exact one _ _ 5 q rfl rfl s5
      · exact three _ _ 6 q (by simp [Obs.group, hl, ht]) rfl s6 s7 s8
    · have s6 := hst 6 s.stdRollPitch (by simp [Obs.perEpoch, hl, ht]) (by simp [epochNumbers, hl, ht])
      have s7 := hst 7 s.stdRollPitch (by simp [Obs.perEpoch, hl, ht]) (by simp [epochNumbers, hl, ht])
      have s8 := hst 8 s.stdYaw (by simp [Obs.perEpoch, hl, ht]) (by simp [epochNumbers, hl, ht])
      rcases hk with rfl | rfl | rfl | rfl | rfl | rfl
      · exact two _ _ 0 q rfl rfl s0 s1
      · exact one _ _ 2 q rfl rfl s2
      · exact two _ _ 3 q rfl rfl s3 s4
      · exact one _ _ 5 q rfl rfl s5
      · exact two _ _ 6 q (by simp [Obs.group, hl]) rfl s6 s7
      · exact one _ _ 8 q (by simp [Obs.group, hl]) rfl s8
    · have s6 := hst 6 s.stdRollPitch (by simp [Obs.perEpoch, hl, ht]) (by simp [epochNumbers, hl, ht])
      have s7 := hst 7 s.stdRollPitch (by simp [Obs.perEpoch, hl, ht]) (by simp [epochNumbers, hl, ht])
      have s8 := hst 8 s.stdYaw (by simp [Obs.perEpoch, hl, ht]) (by simp [epochNumbers, hl, ht])
      have s9 := hst 9 s.stdSpeed (by simp [Obs.perEpoch, hl, ht]) (by simp [epochNumbers, hl, ht])
      have s10 := hst 10 s.stdSpeed (by simp [Obs.perEpoch, hl, ht]) (by simp [epochNumbers, hl, ht])
      have s11 := hst 11 s.stdSpeed (by simp [Obs.perEpoch, hl, ht]) (by simp [epochNumbers, hl, ht])
      rcases hk with rfl | rfl | rfl | rfl | rfl | rfl | rfl
      · exact two _ _ 0 q rfl rfl s0 s1
      · exact one _ _ 2 q rfl rfl s2
      · exact two _ _ 3 q rfl rfl s3 s4
      · exact one _ _ 5 q rfl rfl s5
      · exact two _ _ 6 q (by simp [Obs.group, hl]) rfl s6 s7
      · exact one _ _ 8 q (by simp [Obs.group, hl]) rfl s8
      · exact three _ _ 9 q (by simp [Obs.group, hl, ht]) rfl s9 s10 s11
  refine ⟨v, _, h1, mapE_ok key, ?_, ?_⟩
  · simp only [List.map_map, Function.comp_def, List.map_id']
    constructor
    · unfold Obs.varianceGroups
      cases e.leverarmEnabled <;> cases e.timeShiftEnabled <;> decide
    · intro k
      unfold Obs.varianceGroups
      cases e.leverarmEnabled <;> cases e.timeShiftEnabled <;> cases k <;> simp
  · intro k a h
    obtain ⟨k', -, h⟩ := List.mem_map.1 h
    cases h
    rfl

-- two epochs of positions only, as set in the settings; the numbers then are those of the settings
example : (Obs.groupStds (fun x : ℚ => if x = 4 then 2 else 3) {} [4, 4, 9, 4, 4, 9, 4, 4, 9, 4, 4, 9]).toOption
    = some [(.xyFrom, 2), (.zFrom, 3), (.xyTo, 2), (.zTo, 3)] ∧
    ∀ k, 0 ≤ setStd (⟨2, 3, 2, 3, 1, 1, 1, false⟩ : Stochastics ℚ) k := by
  refine ⟨by decide +kernel, ?_⟩
  intro k
  cases k <;> simp [setStd]

end TC
