import Verif.Proofs.Observations
import Verif.Proofs.Text
import Mathlib.Data.Rat.Defs
import Mathlib.Tactic.IntervalCases
/-!
# C78: the vectors of an alignment; C111: speed components that should be left out
-/
namespace TC
set_option linter.unusedSectionVars false
variable {K : Type} [Field K] [LinearOrder K]
open Obs

theorem hcat_ok (a b : List (List K)) (h : a.length = b.length) :
    hcat a b = .ok (List.zipWith (fun x y => x ++ y) a b) := if_pos h

theorem epochNumbers_length (e : EstSettings) (a b c d : V3 K) :
    (epochNumbers e a b c d).length = perEpoch e := by
  unfold epochNumbers perEpoch
  split_ifs <;> rfl

/-- the rows of the array built for the observations -/
def epochRows (e : EstSettings) (source target rpy speed : List (V3 K)) : List (List K) :=
  List.zipWith (fun (st rv : V3 K × V3 K) => epochNumbers e st.1 st.2 rv.1 rv.2)
    (source.zip target) (rpy.zip speed)

theorem timeShiftFilter_length (e : EstSettings) : e.timeShiftFilter.length = 3 := by
  unfold EstSettings.timeShiftFilter
  split_ifs <;> rfl

theorem zeroSpeed_eq (e : EstSettings) (v : List (V3 K)) : zeroSpeed e.timeShiftFilter v = v := by
  unfold zeroSpeed
  rw [if_neg]
  have := timeShiftFilter_length e
  rw [List.isEmpty_iff]
  intro h
  rw [h] at this
  cases this

/-- the closed form of the observation vector -/
theorem build_eq (e : EstSettings) (tstamps : List K) (source target rpy speed : List (V3 K))
    (ht : target.length = source.length) (hr : rpy.length = source.length) (hs : speed.length = source.length) :
    build e tstamps source target (some rpy) (some speed) = .ok (epochRows e source target rpy speed).flatten := by
  have key : ∀ obs : List (List K), obs = epochRows e source target rpy speed →
      obs.flatten = (epochRows e source target rpy speed).flatten := fun _ h => by rw [h]
  unfold build
  rw [hcat_ok _ _ (by simp [ht])]
  simp only [bind, Except.bind, pure, Except.pure, zeroSpeed_eq]
  rcases hl : e.leverarmEnabled with _ | _ <;> rcases hm : e.timeShiftEnabled with _ | _ <;>
    simp only [hcat, List.length_map, List.length_zipWith, ht, hr, hs, min_self, if_true, Bool.false_eq_true,
      if_false] <;> refine congrArg Except.ok (key _ ?_) <;> unfold epochRows epochNumbers <;>
    simp only [hl, hm, if_true, if_false, Bool.false_eq_true, List.append_nil] <;> (
    refine List.ext_getElem? fun k => ?_
    simp only [List.getElem?_zipWith, List.getElem?_map, List.zip]
    by_cases hk : k < source.length
    · rw [List.getElem?_eq_getElem hk, List.getElem?_eq_getElem (by omega : k < target.length),
        List.getElem?_eq_getElem (by omega : k < rpy.length), List.getElem?_eq_getElem (by omega : k < speed.length)]
      rfl
    · rw [List.getElem?_eq_none (by omega : source.length ≤ k)]
      rfl)

theorem epochRows_lengths (e : EstSettings) (source target rpy speed : List (V3 K)) :
    ∀ r ∈ epochRows e source target rpy speed, r.length = perEpoch e := by
  intro r hr
  unfold epochRows at hr
  rw [List.mem_iff_getElem?] at hr
  obtain ⟨k, hk⟩ := hr
  rw [List.getElem?_zipWith] at hk
  rcases h1 : (source.zip target)[k]? with _ | st <;> rw [h1] at hk
  · cases hk
  · rcases h2 : (rpy.zip speed)[k]? with _ | rv <;> rw [h2] at hk
    · cases hk
    · simp only [Option.some.injEq] at hk
      rw [← hk]
      exact epochNumbers_length _ _ _ _ _

theorem epochRows_length (e : EstSettings) (source target rpy speed : List (V3 K))
    (ht : target.length = source.length) (hr : rpy.length = source.length) (hs : speed.length = source.length) :
    (epochRows e source target rpy speed).length = source.length := by
  simp [epochRows, ht, hr, hs]

theorem epochRows_getElem? (e : EstSettings) (source target rpy speed : List (V3 K)) (k : Nat) (s t r v : V3 K)
    (h1 : source[k]? = some s) (h2 : target[k]? = some t) (h3 : rpy[k]? = some r) (h4 : speed[k]? = some v) :
    (epochRows e source target rpy speed)[k]? = some (epochNumbers e s t r v) := by
  simp only [epochRows, List.zip, List.getElem?_zipWith, h1, h2, h3, h4]

/-- **C78**: the observations are stored epoch by epoch.  For every combination of estimated parameters
and all source and target positions, Euler angles and speeds of the same number of epochs, the vector is
built, and its `k`-th block holds the numbers of the `k`-th epoch in the documented order. -/
theorem C78_layout (e : EstSettings) (tstamps : List K) (source target rpy speed : List (V3 K))
    (ht : target.length = source.length) (hr : rpy.length = source.length) (hs : speed.length = source.length) :
    ∃ v, build e tstamps source target (some rpy) (some speed) = .ok v ∧
      v.length = source.length * perEpoch e ∧
      (perEpoch e = 6 + (if e.leverarmEnabled then 3 else 0) + (if e.timeShiftEnabled then 3 else 0)) ∧
      ∀ (k : Nat) (s t r w : V3 K), source[k]? = some s → target[k]? = some t → rpy[k]? = some r →
        speed[k]? = some w → block (perEpoch e) v k = epochNumbers e s t r w := by
  refine ⟨_, build_eq e tstamps source target rpy speed ht hr hs, ?_, rfl, ?_⟩
  · rw [flatten_epochs_length _ (epochRows_lengths e source target rpy speed), epochRows_length e source target rpy speed ht hr hs]
  · intro k s t r w h1 h2 h3 h4
    exact block_flatten _ (epochRows_lengths e source target rpy speed) k _
      (epochRows_getElem? e source target rpy speed k s t r w h1 h2 h3 h4)

theorem epochRows_col (e : EstSettings) (source target rpy speed : List (V3 K))
    (ht : target.length = source.length) (hr : rpy.length = source.length) (hs : speed.length = source.length)
    (i : Nat) (hi : i < perEpoch e) {β : Type} (data : List β) (f : β → K) (hd : data.length = source.length)
    (h : ∀ (k : Nat) (s t r v : V3 K) (d : β), source[k]? = some s → target[k]? = some t → rpy[k]? = some r →
      speed[k]? = some v → data[k]? = some d → (epochNumbers e s t r v)[i]? = some (f d)) :
    stride (perEpoch e) i (epochRows e source target rpy speed).flatten = data.map f := by
  refine stride_flatten hi _ (epochRows_lengths e source target rpy speed) data f
    (by rw [epochRows_length e source target rpy speed ht hr hs, hd]) ?_
  intro k row d hk hdk
  have hks : k < source.length := by
    by_contra hc
    rw [List.getElem?_eq_none (by rw [epochRows_length e source target rpy speed ht hr hs]; omega)] at hk
    cases hk
  have g1 := List.getElem?_eq_getElem hks
  have g2 := List.getElem?_eq_getElem (by omega : k < target.length)
  have g3 := List.getElem?_eq_getElem (by omega : k < rpy.length)
  have g4 := List.getElem?_eq_getElem (by omega : k < speed.length)
  rw [epochRows_getElem? e source target rpy speed k _ _ _ _ g1 g2 g3 g4, Option.some.injEq] at hk
  rw [← hk]
  exact h k _ _ _ _ d g1 g2 g3 g4 hdk

/-- **C78**: without orientations of the source a lever arm cannot be estimated; everything else does not need them. -/
theorem C78_without_orientations (e : EstSettings) (tstamps : List K) (source target : List (V3 K))
    (speed : Option (List (V3 K))) (ht : target.length = source.length) :
    (e.leverarmEnabled = true → build e tstamps source target none speed = .error .valueError) ∧
    (e.leverarmEnabled = false → ∀ rpy, build e tstamps source target none speed = build e tstamps source target rpy speed) := by
  constructor
  · intro h
    unfold build
    rw [hcat_ok _ _ (by simp [ht])]
    simp [h, bind, Except.bind]
  · intro h rpy
    unfold build
    simp [h]

/-- **C78**: without speeds, the differences of the positions over the differences of the times are used. -/
theorem C78_without_speeds (e : EstSettings) (tstamps : List K) (source target : List (V3 K))
    (rpy : Option (List (V3 K))) (speed : List (V3 K)) (hs : gradient3d source tstamps = .ok speed) :
    build e tstamps source target rpy none = build e tstamps source target rpy (some speed) := by
  unfold build
  simp only [hs]

/-- **C78**: extracting a group of observations gives the columns that were put in, for every key and every
combination of estimated parameters; a group that is not part of the observations is rejected. -/
theorem C78_extract (e : EstSettings) (tstamps : List K) (source target rpy speed : List (V3 K))
    (ht : target.length = source.length) (hr : rpy.length = source.length) (hs : speed.length = source.length)
    (v : List K) (hv : build e tstamps source target (some rpy) (some speed) = .ok v) (key : ObsKey) :
    extract e v key = match columnsOf e source target rpy speed key with
      | some cols => .ok cols
      | none => .error .valueError := by
  rw [build_eq e tstamps source target rpy speed ht hr hs, Except.ok.injEq] at hv
  subst hv
  have c : ∀ (i : Nat) (_ : i < perEpoch e) (data : List (V3 K)) (f : V3 K → K) (_ : data.length = source.length)
      (_ : ∀ (k : Nat) (s t r v d : V3 K), source[k]? = some s → target[k]? = some t → rpy[k]? = some r →
        speed[k]? = some v → data[k]? = some d → (epochNumbers e s t r v)[i]? = some (f d)),
      stride (perEpoch e) i (epochRows e source target rpy speed).flatten = data.map f :=
    fun i hi data f hd h => epochRows_col e source target rpy speed ht hr hs i hi data f hd h
  have p6 : 6 ≤ perEpoch e := by unfold perEpoch; omega
  have s0 := c 0 (by omega) source V3.x rfl (by
    intro k s t r v d h1 h2 h3 h4 h5; rw [h1, Option.some.injEq] at h5; subst h5; rfl)
  have s1 := c 1 (by omega) source V3.y rfl (by
    intro k s t r v d h1 h2 h3 h4 h5; rw [h1, Option.some.injEq] at h5; subst h5; rfl)
  have s2 := c 2 (by omega) source V3.z rfl (by
    intro k s t r v d h1 h2 h3 h4 h5; rw [h1, Option.some.injEq] at h5; subst h5; rfl)
  have s3 := c 3 (by omega) target V3.x ht (by
    intro k s t r v d h1 h2 h3 h4 h5; rw [h2, Option.some.injEq] at h5; subst h5; rfl)
  have s4 := c 4 (by omega) target V3.y ht (by
    intro k s t r v d h1 h2 h3 h4 h5; rw [h2, Option.some.injEq] at h5; subst h5; rfl)
  have s5 := c 5 (by omega) target V3.z ht (by
    intro k s t r v d h1 h2 h3 h4 h5; rw [h2, Option.some.injEq] at h5; subst h5; rfl)
  have r12 : ∀ a : Nat, List.range (a + 1 - a) = [0] := fun a => by simp
  rcases hl : e.leverarmEnabled with _ | _ <;> rcases hm : e.timeShiftEnabled with _ | _
  · cases key <;> simp [extract, group, columnsOf, hl, hm, List.range_succ, s0, s1, s2, s3, s4, s5]
  · have s6 := c 6 (by unfold perEpoch; simp [hl, hm]) speed V3.x hs (by
      intro k s t r v d h1 h2 h3 h4 h5; rw [h4, Option.some.injEq] at h5; subst h5; simp [epochNumbers, hl, hm])
    have s7 := c 7 (by unfold perEpoch; simp [hl, hm]) speed V3.y hs (by
      intro k s t r v d h1 h2 h3 h4 h5; rw [h4, Option.some.injEq] at h5; subst h5; simp [epochNumbers, hl, hm])
    have s8 := c 8 (by unfold perEpoch; simp [hl, hm]) speed V3.z hs (by
      intro k s t r v d h1 h2 h3 h4 h5; rw [h4, Option.some.injEq] at h5; subst h5; simp [epochNumbers, hl, hm])
    cases key <;> simp [extract, group, columnsOf, hl, hm, List.range_succ, s0, s1, s2, s3, s4, s5, s6, s7, s8]
  · have s6 := c 6 (by unfold perEpoch; simp [hl, hm]) rpy V3.x hr (by
      intro k s t r v d h1 h2 h3 h4 h5; rw [h3, Option.some.injEq] at h5; subst h5; simp [epochNumbers, hl, hm])
    have s7 := c 7 (by unfold perEpoch; simp [hl, hm]) rpy V3.y hr (by
      intro k s t r v d h1 h2 h3 h4 h5; rw [h3, Option.some.injEq] at h5; subst h5; simp [epochNumbers, hl, hm])
    have s8 := c 8 (by unfold perEpoch; simp [hl, hm]) rpy V3.z hr (by
      intro k s t r v d h1 h2 h3 h4 h5; rw [h3, Option.some.injEq] at h5; subst h5; simp [epochNumbers, hl, hm])
    cases key <;> simp [extract, group, columnsOf, hl, hm, List.range_succ, s0, s1, s2, s3, s4, s5, s6, s7, s8]
  · have s6 := c 6 (by unfold perEpoch; simp [hl, hm]) rpy V3.x hr (by
      intro k s t r v d h1 h2 h3 h4 h5; rw [h3, Option.some.injEq] at h5; subst h5; simp [epochNumbers, hl, hm])
    have s7 := c 7 (by unfold perEpoch; simp [hl, hm]) rpy V3.y hr (by
      intro k s t r v d h1 h2 h3 h4 h5; rw [h3, Option.some.injEq] at h5; subst h5; simp [epochNumbers, hl, hm])
    have s8 := c 8 (by unfold perEpoch; simp [hl, hm]) rpy V3.z hr (by
      intro k s t r v d h1 h2 h3 h4 h5; rw [h3, Option.some.injEq] at h5; subst h5; simp [epochNumbers, hl, hm])
    have s9 := c 9 (by unfold perEpoch; simp [hl, hm]) speed V3.x hs (by
      intro k s t r v d h1 h2 h3 h4 h5; rw [h4, Option.some.injEq] at h5; subst h5; simp [epochNumbers, hl, hm])
    have s10 := c 10 (by unfold perEpoch; simp [hl, hm]) speed V3.y hs (by
      intro k s t r v d h1 h2 h3 h4 h5; rw [h4, Option.some.injEq] at h5; subst h5; simp [epochNumbers, hl, hm])
    have s11 := c 11 (by unfold perEpoch; simp [hl, hm]) speed V3.z hs (by
      intro k s t r v d h1 h2 h3 h4 h5; rw [h4, Option.some.injEq] at h5; subst h5; simp [epochNumbers, hl, hm])
    cases key <;> simp [extract, group, columnsOf, hl, hm, List.range_succ, s0, s1, s2, s3, s4, s5, s6, s7, s8, s9, s10, s11]

/-- the positions of a group in one epoch lie in the epoch -/
theorem group_le (e : EstSettings) (key : ObsKey) (a b : Nat) (h : group e key = some (a, b)) :
    a < b ∧ b ≤ perEpoch e := by
  unfold perEpoch
  rcases hl : e.leverarmEnabled with _ | _ <;> rcases hm : e.timeShiftEnabled with _ | _ <;>
    cases key <;> simp [group, hl, hm] at h <;> obtain ⟨rfl, rfl⟩ := h <;> simp

/-- **C78**: assigning a group and extracting it again gives the assigned columns, and every number outside
the group stays as it was.  For every vector of whole epochs (observations, variances, residuals) and every
group that is part of the observations. -/
theorem C78_set_group (e : EstSettings) (n : Nat) (v : List K) (hv : v.length = n * perEpoch e) (key : ObsKey)
    (a b : Nat) (hg : group e key = some (a, b)) (cols : List (List K)) (hc : cols.length = b - a)
    (hn : ∀ c ∈ cols, c.length = n) :
    ∃ w, setComponents e v cols key = .ok w ∧ w.length = v.length ∧ extract e w key = .ok cols ∧
      ∀ q, (q % perEpoch e < a ∨ b ≤ q % perEpoch e) → w[q]? = v[q]? := by
  obtain ⟨hab, hb⟩ := group_le e key a b hg
  obtain ⟨w, h1, h2, h3⟩ := setLoop_ok (n := perEpoch e) (m := n) cols v a (by omega) hv hn
  refine ⟨w, ?_, h2, ?_, ?_⟩
  · unfold setComponents
    simp only [hg]
    rw [if_neg (by omega), h1]
  · unfold extract
    simp only [hg]
    refine congrArg Except.ok (List.ext_getElem? fun c => ?_)
    rw [List.getElem?_map]
    by_cases hcb : c < b - a
    · rw [List.getElem?_range hcb, Option.map_some, List.getElem?_eq_getElem (by omega : c < cols.length)]
      refine congrArg some (List.ext_getElem? fun k => ?_)
      have hp : 0 < perEpoch e := by omega
      have hm : (a + c + k * perEpoch e) % perEpoch e = a + c := by
        rw [Nat.add_mul_mod_self_right, Nat.mod_eq_of_lt (by omega)]
      have hdiv : (a + c + k * perEpoch e) / perEpoch e = k := by
        rw [Nat.add_mul_div_right _ _ hp, Nat.div_eq_of_lt (by omega), Nat.zero_add]
      have hcn := hn cols[c] (List.getElem_mem _)
      rw [stride_getElem? hp, h3, hm, hdiv]
      by_cases hk : k < n
      · have : (k + 1) * perEpoch e ≤ n * perEpoch e := Nat.mul_le_mul_right _ hk
        rw [Nat.succ_mul] at this
        rw [if_pos ⟨by omega, by omega, by omega⟩, show a + c - a = c from by omega,
          List.getElem?_eq_getElem (by omega : c < cols.length)]
        rfl
      · have : n * perEpoch e ≤ k * perEpoch e := Nat.mul_le_mul_right _ (by omega)
        rw [if_neg (by omega), List.getElem?_eq_none (by omega), List.getElem?_eq_none (by omega)]
    · rw [List.getElem?_eq_none (by simpa using hcb), List.getElem?_eq_none (by omega)]
      rfl
  · intro q hq
    rw [h3 q, if_neg (by omega)]

/-- **C78**: a group that is not part of the observations cannot be read or assigned, nor can a group be
assigned with a wrong number of columns or columns of a wrong length; the exception is `ValueError`. -/
theorem C78_rejected (e : EstSettings) (v : List K) (key : ObsKey) (cols : List (List K)) :
    (group e key = none → extract e v key = .error .valueError ∧ setComponents e v cols key = .error .valueError) ∧
    (∀ a b, group e key = some (a, b) → cols.length ≠ b - a → setComponents e v cols key = .error .valueError) ∧
    (∀ n m : Nat, v.length = n * perEpoch e → m ≠ n → m ≠ 1 → (∀ c ∈ cols, c.length = m) →
      setComponents e v cols key = .error .valueError) := by
  refine ⟨fun h => by simp [extract, setComponents, h], fun a b h hl => by simp [setComponents, h, hl], ?_⟩
  intro n m hv hm h1 hc
  unfold setComponents
  rcases hg : group e key with _ | ⟨a, b⟩
  · rfl
  · obtain ⟨hab, hb⟩ := group_le e key a b hg
    simp only
    by_cases hl : cols.length ≠ b - a
    · rw [if_pos hl]
    · rw [if_neg hl]
      rcases cols with _ | ⟨c, cs⟩
      · simp at hl; omega
      · have hcm := hc c (by simp)
        have : setStride (perEpoch e) a v c = .error .valueError := by
          unfold setStride
          rw [if_neg (by rw [hv, strideLen_epochs (by omega)]; omega)]
          rcases c with _ | ⟨x, _ | ⟨y, c⟩⟩
          · rfl
          · simp at hcm; omega
          · rfl
        simp only [setLoop, this, bind, Except.bind]

theorem varCols_get (n : Nat) (a b : K) (k : Nat) (hk : k < n) (j : Nat) (hj : j < 3) :
    ((varCols n a b)[j]?).bind (fun c => c[k]?) = [a, a, b][j]? := by
  have h : ∀ x : K, (List.replicate n x)[k]? = some x := fun x => by
    rw [List.getElem?_replicate, if_pos hk]
  interval_cases j <;> simp [varCols, h]

/-- assigning three constant columns, seen at the `i`-th number of the `k`-th epoch -/
theorem setVar_ok (e : EstSettings) (n : Nat) (v : List K) (hv : v.length = n * perEpoch e) (key : ObsKey) (a : Nat)
    (hg : group e key = some (a, a + 3)) (x y : K) :
    ∃ w, setComponents e v (varCols n x y) key = .ok w ∧ w.length = n * perEpoch e ∧
      ∀ k < n, ∀ i < perEpoch e, w[k * perEpoch e + i]? =
        if a ≤ i ∧ i < a + 3 then [x, x, y][i - a]? else v[k * perEpoch e + i]? := by
  obtain ⟨_, hb⟩ := group_le e key a (a + 3) hg
  obtain ⟨w, h1, h2, h3⟩ := setLoop_ok (n := perEpoch e) (m := n) (varCols n x y) v a
    (by simp only [varCols, List.length_cons, List.length_nil]; omega) hv
    (by intro c hc; simp only [varCols, List.mem_cons, List.not_mem_nil, or_false] at hc
        rcases hc with rfl | rfl | rfl <;> simp)
  refine ⟨w, ?_, by omega, ?_⟩
  · unfold setComponents
    simp only [hg]
    rw [if_neg (by simp [varCols]), h1]
  · intro k hk i hi
    have hp : 0 < perEpoch e := by omega
    have : (k + 1) * perEpoch e ≤ n * perEpoch e := Nat.mul_le_mul_right _ hk
    rw [Nat.succ_mul] at this
    have hm : (k * perEpoch e + i) % perEpoch e = i := by
      rw [Nat.add_comm, Nat.add_mul_mod_self_right, Nat.mod_eq_of_lt hi]
    have hdiv : (k * perEpoch e + i) / perEpoch e = k := by
      rw [Nat.add_comm, Nat.add_mul_div_right _ _ hp, Nat.div_eq_of_lt hi, Nat.zero_add]
    rw [h3, hm, hdiv]
    have hl3 : (varCols n x y).length = 3 := rfl
    by_cases hc : a ≤ i ∧ i < a + 3
    · rw [if_pos ⟨hc.1, by omega, by omega⟩, if_pos hc]
      exact varCols_get n x y k hk (i - a) (by omega)
    · rw [if_neg (by omega), if_neg hc]

/-- **C78**: the variance vector gives every epoch the variances of the settings (the squared standard
deviations), each at the place of the observation it belongs to. -/
theorem C78_variances (e : EstSettings) (s : Stochastics K) (n : Nat) (obs : List K)
    (hobs : obs.length = n * perEpoch e) :
    ∃ v, buildVar e s obs = .ok v ∧ v.length = obs.length ∧
      ∀ k < n, block (perEpoch e) v k = epochNumbers e
        ⟨s.stdXyFrom ^ 2, s.stdXyFrom ^ 2, s.stdZFrom ^ 2⟩ ⟨s.stdXyTo ^ 2, s.stdXyTo ^ 2, s.stdZTo ^ 2⟩
        ⟨s.stdRollPitch ^ 2, s.stdRollPitch ^ 2, s.stdYaw ^ 2⟩ ⟨s.stdSpeed ^ 2, s.stdSpeed ^ 2, s.stdSpeed ^ 2⟩ := by
  have hp : 0 < perEpoch e := by unfold perEpoch; omega
  have hne : numEpochs e obs = n := by
    unfold numEpochs
    rw [hobs, Nat.mul_div_cancel _ hp]
  obtain ⟨v1, a1, b1, c1⟩ := setVar_ok e n (List.replicate obs.length (1 : K)) (by simp [hobs]) .xyzFrom 0 rfl
    (s.stdXyFrom ^ 2) (s.stdZFrom ^ 2)
  obtain ⟨v2, a2, b2, c2⟩ := setVar_ok e n v1 b1 .xyzTo 3 rfl (s.stdXyTo ^ 2) (s.stdZTo ^ 2)
  have fin : ∀ (v : List K) (r : List K), r.length = perEpoch e → (∀ k < n, ∀ i < perEpoch e,
      v[k * perEpoch e + i]? = r[i]?) → ∀ k < n, block (perEpoch e) v k = r := by
    intro v r hr h k hk
    refine List.ext_getElem? fun i => ?_
    unfold block
    rw [List.getElem?_take]
    by_cases hi : i < perEpoch e
    · rw [if_pos hi, List.getElem?_drop, h k hk i hi]
    · rw [if_neg hi, List.getElem?_eq_none (by omega)]
  unfold buildVar
  rw [hne]
  simp only [a1, a2, bind, Except.bind]
  rcases hl : e.leverarmEnabled with _ | _ <;> rcases hm : e.timeShiftEnabled with _ | _
  · simp only [Bool.false_eq_true, if_false]
    refine ⟨v2, rfl, by omega, fin v2 _ (epochNumbers_length _ _ _ _ _) ?_⟩
    intro k hk i hi
    have hp6 : perEpoch e = 6 := by simp [perEpoch, hl, hm]
    rw [c2 k hk i hi, c1 k hk i hi]
    rw [hp6] at hi
    interval_cases i <;> simp [epochNumbers]
  · simp only [Bool.false_eq_true, if_false, if_true]
    obtain ⟨v3, a3, b3, c3⟩ := setVar_ok e n v2 b2 .speed 6 (by simp [group, hl, hm]) (s.stdSpeed ^ 2) (s.stdSpeed ^ 2)
    refine ⟨v3, a3, by omega, fin v3 _ (epochNumbers_length _ _ _ _ _) ?_⟩
    intro k hk i hi
    have hp6 : perEpoch e = 9 := by simp [perEpoch, hl, hm]
    rw [c3 k hk i hi, c2 k hk i hi, c1 k hk i hi]
    rw [hp6] at hi
    interval_cases i <;> simp [epochNumbers, hl, hm]
  · simp only [Bool.false_eq_true, if_false, if_true]
    obtain ⟨v3, a3, b3, c3⟩ := setVar_ok e n v2 b2 .rpy 6 (by simp [group, hl]) (s.stdRollPitch ^ 2) (s.stdYaw ^ 2)
    rw [a3]
    refine ⟨v3, rfl, by omega, fin v3 _ (epochNumbers_length _ _ _ _ _) ?_⟩
    intro k hk i hi
    have hp6 : perEpoch e = 9 := by simp [perEpoch, hl, hm]
    rw [c3 k hk i hi, c2 k hk i hi, c1 k hk i hi]
    rw [hp6] at hi
    interval_cases i <;> simp [epochNumbers, hl, hm]
  · simp only [if_true]
    obtain ⟨v3, a3, b3, c3⟩ := setVar_ok e n v2 b2 .rpy 6 (by simp [group, hl]) (s.stdRollPitch ^ 2) (s.stdYaw ^ 2)
    obtain ⟨v4, a4, b4, c4⟩ := setVar_ok e n v3 b3 .speed 9 (by simp [group, hl, hm]) (s.stdSpeed ^ 2) (s.stdSpeed ^ 2)
    simp only [a3]
    refine ⟨v4, a4, by omega, fin v4 _ (epochNumbers_length _ _ _ _ _) ?_⟩
    intro k hk i hi
    have hp6 : perEpoch e = 12 := by simp [perEpoch, hl, hm]
    rw [c4 k hk i hi, c3 k hk i hi, c2 k hk i hi, c1 k hk i hi]
    rw [hp6] at hi
    interval_cases i <;> simp [epochNumbers, hl, hm]

/-- **C111**, negation: the settings that leave out components of the speed have no effect on the
observations.  Whenever a time shift is estimated, the speed group holds all three components of the given
speeds, whatever `use_x_speed`, `use_y_speed` and `use_z_speed` say. -/
theorem C111_speed_components_not_left_out (e : EstSettings) (tstamps : List K)
    (source target rpy speed : List (V3 K)) (ht : target.length = source.length)
    (hr : rpy.length = source.length) (hs : speed.length = source.length) (hon : e.timeShiftEnabled = true)
    (v : List K) (hv : build e tstamps source target (some rpy) (some speed) = .ok v) :
    extract e v .speed = .ok [speed.map V3.x, speed.map V3.y, speed.map V3.z] := by
  rw [C78_extract e tstamps source target rpy speed ht hr hs v hv]
  simp [columnsOf, hon]

/-- **C111**, positive part: without any component in use, no speed is part of the observations.
Missing for the full property: leaving out one or two components. -/
theorem C111_no_component_partial (e : EstSettings) (tstamps : List K) (source target rpy speed : List (V3 K))
    (hx : e.useXSpeed = false) (hy : e.useYSpeed = false) (hz : e.useZSpeed = false) (v : List K)
    (_ : build e tstamps source target (some rpy) (some speed) = .ok v) :
    extract e v .speed = .error .valueError ∧ perEpoch e = 6 + (if e.leverarmEnabled then 3 else 0) := by
  have : e.timeShiftEnabled = false := by
    unfold EstSettings.timeShiftEnabled EstSettings.timeShiftFilter
    rw [hx, hy, hz]
    cases e.timeShift <;> rfl
  simp [extract, group, perEpoch, this]

/-- settings that estimate a lever arm and a time shift, without the vertical speed -/
def exObsSettings : EstSettings :=
  { timeShift := true
    useZSpeed := false
    leverX := true }

/-- one epoch of observations of `exObsSettings`, with speed (10, 11, 12) -/
example : build exObsSettings ([0, 1] : List ℚ) [⟨1, 2, 3⟩, ⟨13, 14, 15⟩] [⟨4, 5, 6⟩, ⟨16, 17, 18⟩]
    (some [⟨7, 8, 9⟩, ⟨19, 20, 21⟩]) (some [⟨10, 11, 12⟩, ⟨22, 23, 24⟩]) =
    .ok [1, 2, 3, 4, 5, 6, 7, 8, 9, 10, 11, 12, 13, 14, 15, 16, 17, 18, 19, 20, 21, 22, 23, 24] := by
  decide +kernel

example : exObsSettings.timeShiftEnabled = true ∧ exObsSettings.useZSpeed = false ∧
    extract exObsSettings ([1, 2, 3, 4, 5, 6, 7, 8, 9, 10, 11, 12] : List ℚ) .speed = .ok [[10], [11], [12]] ∧
    setComponents exObsSettings ([1, 2, 3, 4, 5, 6, 7, 8, 9, 10, 11, 12] : List ℚ) [[0], [1]] .rollPitch =
      .ok [1, 2, 3, 4, 5, 6, 0, 1, 9, 10, 11, 12] ∧
    group exObsSettings .rollPitch = some (6, 8) ∧ group {} .speed = none ∧
    ([1, 2, 3, 4, 5, 6, 7, 8, 9, 10, 11, 12] : List ℚ).length = 1 * perEpoch exObsSettings := by
  decide +kernel

example : buildVar exObsSettings (⟨1, 2, 3, 4, 5, 6, 7, false⟩ : Stochastics ℚ)
    [1, 2, 3, 4, 5, 6, 7, 8, 9, 10, 11, 12] = .ok [1, 1, 4, 9, 9, 16, 25, 25, 36, 49, 49, 49] := by
  decide +kernel

example : ({ timeShift := true, useXSpeed := false, useYSpeed := false, useZSpeed := false } : EstSettings).timeShiftEnabled = false := by
  decide

end TC
