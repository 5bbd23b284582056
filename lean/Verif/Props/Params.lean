import Verif.Proofs.Params
import Mathlib.Data.Rat.Defs
/-!
# Assigning parameter values and covariance matrices
-/
namespace TC
set_option linter.unusedSectionVars false
variable {K : Type} [Field K] [LinearOrder K]

private theorem updValue_keep (p : Param K) (v : K) :
    (PSet.updValue p v).default = p.default ∧ (PSet.updValue p v).enabled = p.enabled ∧
    (PSet.updValue p v).name = p.name ∧ (PSet.updValue p v).unit = p.unit := ⟨rfl, rfl, rfl, rfl⟩

/-- **C74**: assigning `values_enabled` of any set of parameters, with any pattern of enabled ones.
As many values as there are enabled parameters are accepted; reading the enabled values gives them
back in order, every disabled parameter is unchanged, the variances and the covariance matrix too.
Any other number of values is rejected. -/
theorem C74_values_enabled (s : PSet K) (vals : List K) :
    (vals.length = (s.params.filter (fun p => p.enabled)).length →
      ∃ t, s.setValuesEnabled vals = .ok t ∧
        t.valuesEnabled = vals ∧ SameParams s t ∧ t.variances = s.variances ∧ t.cov = s.cov ∧
        (∀ (i : Nat) (p : Param K), s.params[i]? = some p → p.enabled = false → t.params[i]? = some p)) ∧
    (vals.length ≠ (s.params.filter (fun p => p.enabled)).length →
      s.setValuesEnabled vals = .error .valueError) := by
  rw [← PSet.numEnabled_eq]
  constructor
  · intro h
    refine ⟨_, PSet.set_enabled_ok s _ h, ?_, ?_, ?_, rfl, ?_⟩
    · unfold PSet.valuesEnabled
      refine PSet.setLoop_enabled (upd := PSet.updValue) Param.value (fun p v hp => ?_) (fun _ _ => rfl) s.params vals ?_
      · simp [Param.value, PSet.updValue, hp]
      · rw [← PSet.numEnabled_eq, h]
    · exact (PSet.setLoop_map _ (upd := PSet.updValue) (fun _ _ => rfl) true s.params vals).symm
    · exact PSet.setLoop_map _ (upd := PSet.updValue) (fun _ _ => rfl) true s.params vals
    · exact fun i p hi hp => PSet.setLoop_disabled _ s.params vals i p hi hp
  · exact fun h => PSet.set_enabled_error s _ h

/-- **C74** for all values at once: an enabled parameter gets its value, a disabled one still reads as
its default -/
theorem C74_values (s : PSet K) (vals : List K) :
    (vals.length = s.params.length →
      ∃ t, s.setValues vals = .ok t ∧ SameParams s t ∧ t.cov = s.cov ∧ t.variances = s.variances ∧
        (∀ (i : Nat) (p : Param K) (v : K), s.params[i]? = some p → vals[i]? = some v →
          t.values[i]? = some (if p.enabled = true then v else p.default))) ∧
    (vals.length ≠ s.params.length → s.setValues vals = .error .valueError) := by
  constructor
  · intro h
    refine ⟨_, PSet.set_all_ok s _ h, ?_, rfl, ?_, ?_⟩
    · have := (PSet.setLoop_map (fun p : Param K => (p.default, p.enabled, p.name, p.unit))
        (upd := PSet.updValue) (fun _ _ => rfl) false s.params vals).symm
      rw [PSet.setLoop_all _ _ _ h.symm] at this
      exact this
    · have := PSet.setLoop_map (fun p : Param K => p.variance)
        (upd := PSet.updValue) (fun _ _ => rfl) false s.params vals
      rw [PSet.setLoop_all _ _ _ h.symm] at this
      exact this
    · intro i p v hp hv
      unfold PSet.values
      simp [List.getElem?_zipWith, hp, hv, Param.value, PSet.updValue]
      rfl
  · exact fun h => PSet.set_all_error s _ h

/-- three parameters, the second disabled -/
def exSet : PSet ℚ :=
  { cov := zeroRows 3
    params := [⟨1, 0, 0, true, "a", .meter⟩, ⟨5, 0, 7, false, "b", .scale⟩, ⟨2, 0, 0, true, "c", .meter⟩] }

example : (exSet.setValuesEnabled [10, 20]).map (fun t => (t.valuesEnabled, t.values))
    = .ok ([10, 20], [10, 7, 20]) := by decide +kernel
example : exSet.setValuesEnabled [10, 20, 30] = .error .valueError := by decide +kernel
example : (exSet.setValues [10, 20, 30]).map (fun t => (t.valuesEnabled, t.values))
    = .ok ([10, 30], [10, 7, 30]) := by decide +kernel

/-- `values_enabled += delta` with one correction per enabled parameter: each enabled value is
corrected, disabled parameters are unchanged -/
theorem C74_add_corrections (s : PSet K) (delta : List K)
    (h : delta.length = (s.params.filter (fun p => p.enabled)).length) :
    ∃ t, s.addValuesEnabled delta = .ok t ∧
      t.valuesEnabled = List.zipWith (fun a b => a + b) s.valuesEnabled delta ∧ SameParams s t ∧ t.cov = s.cov ∧
      (∀ (i : Nat) (p : Param K), s.params[i]? = some p → p.enabled = false → t.params[i]? = some p) := by
  rw [← PSet.numEnabled_eq] at h
  have hl : (List.zipWith (fun a b => a + b) s.valuesEnabled delta).length
      = (s.params.filter (fun p => p.enabled)).length := by
    rw [List.length_zipWith, h, ← PSet.numEnabled_eq]
    simp [PSet.numEnabled]
  obtain ⟨t, e, h1, h2, -, h4, h5⟩ := (C74_values_enabled s _).1 hl
  refine ⟨t, ?_, h1, h2, h4, h5⟩
  unfold PSet.addValuesEnabled
  rw [if_pos (by rw [h]; rfl), e]

example : (exSet.addValuesEnabled [10, 20]).map (fun t => t.values) = .ok [11, 7, 22] := by decide +kernel

/-! ### covariance matrices -/

/-- writing variances keeps the pattern of enabled parameters -/
private theorem same_enabled {s t : PSet K} (h : SameParams s t) : t.enabledIndices = s.enabledIndices := by
  have : t.enabledBoolList = s.enabledBoolList := by
    unfold PSet.enabledBoolList
    have := congrArg (List.map (fun x : K × Bool × String × MUnit => x.2.1)) h
    simpa [List.map_map, Function.comp_def] using this.symm
  unfold PSet.enabledIndices
  rw [this]

private theorem head_square {n : Nat} {m : List (List K)} (h : IsSquare n m) :
    ¬ m.length ≠ (m.headD (List.replicate m.length 0)).length := by
  cases m with
  | nil => simp
  | cons r m =>
    simp only [List.headD_cons, not_not]
    rw [h.cols r (by simp), h.rows]

/-- **C110**: giving a covariance matrix of the enabled parameters of a set with a disabled one.
Reading the matrix of the enabled parameters gives it back; all entries of disabled parameters are
zero; the variances of the enabled parameters are its diagonal; no value changes. -/
theorem C110_enabled (s : PSet K) (m : List (List K)) (hm : IsSquare (s.params.filter (fun p => p.enabled)).length m)
    (hd : ∃ p ∈ s.params, p.enabled = false) :
    ∃ t, s.setCovariance m = .ok t ∧ t.getCovariance true = m ∧ IsSquare s.params.length (t.getCovariance false) ∧
      (∀ i < s.params.length, ∀ j < s.params.length,
        (∃ p, (s.params[i]? = some p ∨ s.params[j]? = some p) ∧ p.enabled = false) →
        PSet.entry (t.getCovariance false) i j = 0) ∧
      t.variancesEnabled = PSet.diag m ∧ t.values = s.values ∧ SameParams s t := by
  have hlt : (s.params.filter (fun p => p.enabled)).length < s.params.length := by
    obtain ⟨p, hp, he⟩ := hd
    by_contra hc
    have e : (s.params.filter (fun p => p.enabled)).length = s.params.length :=
      le_antisymm (List.length_filter_le _ _) (by omega)
    have := List.length_filter_eq_length_iff.mp e p hp
    rw [he] at this
    exact absurd this (by simp)
  rw [← PSet.numEnabled_eq] at hm hlt
  have hidx : s.enabledIndices.length = s.numEnabled := PSet.enabledIndices_length s
  have hsel : s.enabledIndices.map (fun i => s.enabledIndices.map (fun j =>
      PSet.entry (PSet.scatter s.len s.enabledIndices m) i j)) = m :=
    PSet.select_scatter (PSet.enabledIndices_nodup s)
      (fun i hi => by rw [PSet.len_eq]; exact PSet.enabledIndices_lt s hi) (by rw [hidx]; exact hm)
  have hset : ({ s with cov := PSet.scatter s.len s.enabledIndices m } : PSet K).set PSet.updVariance (PSet.diag m) true
      = .ok { s with
          cov := PSet.scatter s.len s.enabledIndices m
          params := PSet.setLoop PSet.updVariance true s.params (PSet.diag m) } :=
    PSet.set_enabled_ok _ _ (by rw [PSet.diag_length, hm.rows]; rfl)
  have hsame : SameParams s { s with
      cov := PSet.scatter s.len s.enabledIndices m
      params := PSet.setLoop PSet.updVariance true s.params (PSet.diag m) } :=
    (PSet.setLoop_map _ (upd := PSet.updVariance) (fun _ _ => rfl) true s.params _).symm
  have hfold : (s.enabledIndices.zip (PSet.diag m)).foldl
      (fun m iv => m.modify iv.1 (fun row => row.set iv.1 iv.2)) (PSet.scatter s.len s.enabledIndices m)
      = PSet.scatter s.len s.enabledIndices m := by
    apply PSet.foldl_diag (PSet.scatter_square s.len s.enabledIndices m)
    intro x hx
    obtain ⟨a, ha, hxa⟩ := List.mem_iff_getElem.mp hx
    rw [List.getElem_zip] at hxa
    subst hxa
    have ha1 : a < s.enabledIndices.length := by simp at ha; omega
    have ha2 : a < m.length := by simp [PSet.diag_length] at ha; omega
    have hlt2 : s.enabledIndices[a] < s.len := by
      rw [PSet.len_eq]; exact PSet.enabledIndices_lt s (List.getElem_mem ha1)
    refine ⟨hlt2, ?_⟩
    have e2 : (PSet.diag m)[a]'(by rw [PSet.diag_length]; exact ha2) = PSet.entry m a a := by
      have := PSet.diag_getElem ha2
      rw [List.getElem?_eq_getElem (by rw [PSet.diag_length]; exact ha2)] at this
      exact Option.some.inj this
    simp only
    rw [e2]
    conv_rhs => rw [← hsel]
    rw [PSet.entry.eq_def (List.map _ _) a a]
    simp only [List.getD_eq_getElem?_getD, List.getElem?_map, List.getElem?_eq_getElem ha1, Option.map_some,
      Option.getD_some]
  refine ⟨{ s with
      cov := PSet.scatter s.len s.enabledIndices m
      params := PSet.setLoop PSet.updVariance true s.params (PSet.diag m) }, ?_, ?_, ?_, ?_, ?_, ?_, hsame⟩
  · unfold PSet.setCovariance PSet.validateCovariance
    have e1 : ({ s with cov := m } : PSet K).len = s.len := rfl
    have e2 : ({ s with cov := m } : PSet K).numEnabled = s.numEnabled := rfl
    have e3 : ({ s with cov := m } : PSet K).enabledIndices = s.enabledIndices := rfl
    simp only [e1, e2, e3]
    rw [if_neg (head_square hm), if_neg (by rw [hm.rows, PSet.len_eq]; omega), if_neg (by rw [hm.rows]; simp)]
    unfold PSet.setVariancesEnabled
    have e4 : ({ s with cov := PSet.scatter s.len s.enabledIndices m } : PSet K).getCovariance true = m := by
      unfold PSet.getCovariance
      exact hsel
    simp only [e4, hset, bind, Except.bind, pure, Except.pure]
    rw [same_enabled hsame, hfold]
  · unfold PSet.getCovariance
    simp only [if_true, same_enabled hsame]
    exact hsel
  · unfold PSet.getCovariance
    simp only [Bool.false_eq_true, if_false]
    rw [← PSet.len_eq]
    exact PSet.scatter_square _ _ _
  · intro i hi j hj ⟨p, hp, he⟩
    unfold PSet.getCovariance
    simp only [Bool.false_eq_true, if_false]
    rw [← PSet.len_eq] at hi hj
    apply PSet.scatter_zero hi hj
    rcases hp with hp | hp
    · left
      intro hmem
      obtain ⟨q, hq, hq'⟩ := (PSet.mem_enabledIndices s i).mp hmem
      rw [hp] at hq; cases hq
      rw [he] at hq'; cases hq'
    · right
      intro hmem
      obtain ⟨q, hq, hq'⟩ := (PSet.mem_enabledIndices s j).mp hmem
      rw [hp] at hq; cases hq
      rw [he] at hq'; cases hq'
  · unfold PSet.variancesEnabled
    refine PSet.setLoop_enabled (upd := PSet.updVariance) Param.variance (fun p v hp => ?_) (fun _ _ => rfl) s.params _ ?_
    · simp [Param.variance, PSet.updVariance, hp]
    · rw [← PSet.numEnabled_eq, PSet.diag_length, hm.rows]
  · exact PSet.setLoop_map Param.value (upd := PSet.updVariance) (fun _ _ => rfl) true s.params _

/-- **C110**: giving a covariance matrix of all parameters.  It is kept as it is, the variance of an
enabled parameter is its entry on the diagonal, that of a disabled one is zero, no value changes. -/
theorem C110_full (s : PSet K) (m : List (List K)) (hm : IsSquare s.params.length m) :
    ∃ t, s.setCovariance m = .ok t ∧ t.getCovariance false = m ∧
      (∀ (i : Nat) (p : Param K), s.params[i]? = some p →
        t.variances[i]? = some (if p.enabled = true then PSet.entry m i i else 0)) ∧
      t.values = s.values ∧ SameParams s t := by
  have hset : ({ s with cov := m } : PSet K).set PSet.updVariance (PSet.diag m) false
      = .ok { s with
          cov := m
          params := List.zipWith PSet.updVariance s.params (PSet.diag m) } :=
    PSet.set_all_ok _ _ (by rw [PSet.diag_length, hm.rows])
  have hlen : s.params.length = (PSet.diag m).length := by rw [PSet.diag_length, hm.rows]
  refine ⟨{ s with
      cov := m
      params := List.zipWith PSet.updVariance s.params (PSet.diag m) }, ?_, rfl, ?_, ?_, ?_⟩
  · unfold PSet.setCovariance PSet.validateCovariance
    have e1 : ({ s with cov := m } : PSet K).len = s.len := rfl
    simp only [e1]
    rw [if_neg (head_square hm), if_pos (by rw [hm.rows, PSet.len_eq])]
    unfold PSet.setVariances
    simp only [hset, bind, Except.bind, pure, Except.pure, PSet.fillDiag_diag hm]
  · intro i p hp
    have hi : i < m.length := by rw [hm.rows]; exact (List.getElem?_eq_some_iff.mp hp).1
    unfold PSet.variances
    simp [List.getElem?_zipWith, hp, PSet.diag_getElem hi, Param.variance, PSet.updVariance]
    rfl
  · have := PSet.setLoop_map (fun p : Param K => p.value)
      (upd := PSet.updVariance) (fun _ _ => rfl) false s.params (PSet.diag m)
    rw [PSet.setLoop_all _ _ _ hlen] at this
    exact this
  · have := (PSet.setLoop_map (fun p : Param K => (p.default, p.enabled, p.name, p.unit))
      (upd := PSet.updVariance) (fun _ _ => rfl) false s.params (PSet.diag m)).symm
    rw [PSet.setLoop_all _ _ _ hlen] at this
    exact this

/-- **C110**: a matrix that has neither as many rows as there are parameters nor as many as there are
enabled ones is rejected, and so is one that is not square -/
theorem C110_rejected (s : PSet K) (m : List (List K))
    (h : (m.length ≠ s.params.length ∧ m.length ≠ (s.params.filter (fun p => p.enabled)).length) ∨
      (∃ row rest, m = row :: rest ∧ row.length ≠ m.length)) :
    s.setCovariance m = .error .alignmentParameters := by
  unfold PSet.setCovariance PSet.validateCovariance
  have e1 : ({ s with cov := m } : PSet K).len = s.len := rfl
  have e2 : ({ s with cov := m } : PSet K).numEnabled = s.numEnabled := rfl
  simp only [e1, e2]
  split
  · rfl
  · rename_i hsq
    rcases h with ⟨h1, h2⟩ | ⟨row, rest, rfl, hr⟩
    · rw [← PSet.len_eq] at h1
      rw [← PSet.numEnabled_eq] at h2
      rw [if_neg h1, if_pos h2]
    · simp only [List.headD_cons, not_not] at hsq
      exact absurd hsq.symm hr

example : (exSet.setCovariance [[1, 2], [2, 4]]).map (fun t => (t.cov, t.variances, t.getCovariance true))
    = .ok ([[1, 0, 2], [0, 0, 0], [2, 0, 4]], [1, 0, 4], [[1, 2], [2, 4]]) := by decide +kernel
example : (exSet.setCovariance [[1, 2, 3], [2, 4, 5], [3, 5, 6]]).map (fun t => (t.variances, t.getCovariance true))
    = .ok ([1, 0, 6], [[1, 3], [3, 6]]) := by decide +kernel
example : exSet.setCovariance [[1]] = .error .alignmentParameters := by decide +kernel

/-- **C110**: a set of parameters is constructed with a covariance matrix of all its parameters: the given one if it has
as many rows (and is square), otherwise zeros; names, values and switches are as given. -/
theorem C110_constructed (s : PSet K) :
    (∀ m, s.cov = m → IsSquare s.params.length m → ∃ t, s.postInit = .ok t ∧ t.getCovariance false = m ∧
      t.values = s.values ∧ SameParams s t) ∧
    (s.cov.length ≠ s.params.length → ∃ t, s.postInit = .ok t ∧ IsSquare s.params.length (t.getCovariance false) ∧
      (∀ row ∈ t.getCovariance false, ∀ x ∈ row, x = 0) ∧ t.params = s.params ∧ t.enabled = s.enabled) := by
  constructor
  · rintro m rfl hm
    obtain ⟨t, h1, h2, -, h3, h4⟩ := C110_full s s.cov hm
    refine ⟨t, ?_, h2, h3, h4⟩
    unfold PSet.postInit
    rw [if_pos (by rw [hm.rows, PSet.len_eq])]
    exact h1
  · intro hl
    refine ⟨{ s with cov := zeroRows s.len }, ?_, ?_, ?_, rfl, rfl⟩
    · unfold PSet.postInit
      rw [if_neg (by rw [PSet.len_eq]; exact hl)]
    · unfold PSet.getCovariance
      constructor
      · simp [zeroRows, PSet.len_eq]
      · intro row hr
        simp only [Bool.false_eq_true, if_false, zeroRows] at hr
        rw [List.eq_of_mem_replicate hr, List.length_replicate, PSet.len_eq]
    · intro row hr x hx
      unfold PSet.getCovariance at hr
      simp only [Bool.false_eq_true, if_false, zeroRows] at hr
      rw [List.eq_of_mem_replicate hr] at hx
      exact List.eq_of_mem_replicate hx

example : (({ exSet with cov := [] } : PSet ℚ).postInit.map (fun t => t.cov))
    = .ok [[0, 0, 0], [0, 0, 0], [0, 0, 0]] := by decide +kernel

end TC
