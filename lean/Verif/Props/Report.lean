import Verif.Spec.Report
import Verif.Spec.Eval
import Verif.Props.Stats
/-!
# C94, C95, C121, C122, C123, C124: report data
-/
namespace TC
namespace Report
set_option linter.unusedSectionVars false
variable {K R : Type} [Field K] [LinearOrder K]

/-! ### C95, C121: shrinking data -/

theorem width_eq {n m : Nat} (hm : 0 < m) :
    ((-(n : Int)) % (m : Int) + n).toNat = width n m * m := by
  have h1 : ((-(n : Int)) % (m : Int) + n) = (width n m * m : Nat) := by
    unfold width
    have hd := Nat.div_add_mod (n + (m - 1)) m
    have hlt := Nat.mod_lt (n + (m - 1)) hm
    set q := (n + (m - 1)) / m with hq
    set r := (n + (m - 1)) % m with hr
    have : (-(n : Int)) % (m : Int) = (m : Int) - 1 - r := by
      have e : (-(n : Int)) = ((m : Int) - 1 - r) + (m : Int) * (-(q : Int)) := by
        have : ((m * q + r : Nat) : Int) = ((n + (m - 1) : Nat) : Int) := by rw [hd]
        push_cast [Nat.cast_sub (show 1 ≤ m by omega)] at this
        linarith
      rw [e, Int.add_mul_emod_self_left]
      exact Int.emod_eq_of_lt (by omega) (by omega)
    rw [this]
    have : ((m * q + r : Nat) : Int) = ((n + (m - 1) : Nat) : Int) := by rw [hd]
    push_cast [Nat.cast_sub (show 1 ≤ m by omega)] at this ⊢
    linarith [mul_comm (m : Int) (q : Int)]
  rw [h1]
  rfl

theorem width_covers {n m : Nat} (hm : 0 < m) : n ≤ width n m * m := by
  have := Nat.div_add_mod (n + (m - 1)) m
  have hlt := Nat.mod_lt (n + (m - 1)) hm
  unfold width
  rw [mul_comm] at this
  omega

theorem width_pos {n m : Nat} (hm : 0 < m) (hn : m < n) : 0 < width n m := by
  have := width_covers (n := n) hm
  rcases Nat.eq_zero_or_pos (width n m) with h | h
  · rw [h] at this; omega
  · exact h

/-- the values of a row that are numbers: the values other than zero of the block -/
theorem row_values (w i z : Nat) (data : List K) :
    ((((data ++ List.replicate z 0).map (fun x => if x = 0 then none else some x)).drop (i * w)).take w).filterMap id
      = (block w i data).filter (fun x => decide (x ≠ 0)) := by
  have key : ∀ l : List K, (l.map (fun x => if x = 0 then none else some x)).filterMap id
      = l.filter (fun x => decide (x ≠ 0)) := by
    intro l
    induction l with
    | nil => rfl
    | cons a l ih => by_cases h : a = 0 <;> simpa [h] using ih
  have hz : ∀ k, (List.replicate k (0 : K)).filter (fun x => decide (x ≠ 0)) = [] := by
    intro k; simp
  rw [← List.map_drop, ← List.map_take, key, block, List.drop_append, List.take_append, List.filter_append,
    List.drop_replicate, List.take_replicate, hz, List.append_nil]

theorem all_none_iff (row : List (Option K)) : row.all Option.isNone = true ↔ row.filterMap id = [] := by
  induction row with
  | nil => simp
  | cons a row ih => cases a <;> simp_all

/-- What `shrink_data` computes: the means of the values other than zero of the blocks that have some. -/
theorem shrink_eq {data : List K} {m : Nat} (hm : 0 < m) (hn : m < data.length) :
    shrinkData data m = (let bs := ((List.range m).map (fun i => (block (width data.length m) i data).filter
        (fun x => decide (x ≠ 0)))).filter (fun b => decide (b ≠ []))
      if bs = [] then .error .valueError else .ok (bs.map mean)) := by
  have h0 : ¬ ((m : Int) < 0) := by omega
  have h1 : ¬ ((data.length : Int) ≤ (m : Int)) := by omega
  have h2 : ¬ ((m : Int) = 0) := by omega
  have hw := width_eq (n := data.length) hm
  have hcov := width_covers (n := data.length) hm
  simp only [shrinkData, if_neg h0, if_neg h1, if_neg h2, Int.toNat_natCast, hw, List.length_append, List.length_replicate]
  have e1 : (data.length + (width data.length m * m - data.length)) / m = width data.length m := by
    rw [show data.length + (width data.length m * m - data.length) = width data.length m * m by omega,
      Nat.mul_div_cancel _ hm]
  rw [e1]
  have e2 : ((rows m (width data.length m) ((data ++ List.replicate (width data.length m * m - data.length) 0).map
      (fun x => if x = 0 then none else some x))).filter (fun row => !(row.all Option.isNone))).map (fun row => row.filterMap id)
      = ((List.range m).map (fun i => (block (width data.length m) i data).filter
        (fun x => decide (x ≠ 0)))).filter (fun b => decide (b ≠ [])) := by
    unfold rows
    generalize List.range m = l
    induction l with
    | nil => rfl
    | cons i l ih =>
      have hr := row_values (width data.length m) i (width data.length m * m - data.length) data
      simp only [List.map_cons]
      by_cases hb : (block (width data.length m) i data).filter (fun x => decide (x ≠ 0)) = []
      · rw [List.filter_cons_of_neg, List.filter_cons_of_neg, ih]
        · simp only [hb]; simp
        · rw [Bool.not_eq_true', Bool.not_eq_false, all_none_iff, hr, hb]
      · rw [List.filter_cons_of_pos, List.filter_cons_of_pos, List.map_cons, ih, hr]
        · simpa using hb
        · rw [Bool.not_eq_true', ← Bool.not_eq_true, all_none_iff, hr]
          exact hb
  set kept := (rows m (width data.length m) ((data ++ List.replicate (width data.length m * m - data.length) 0).map
      (fun x => if x = 0 then none else some x))).filter (fun row => !(row.all Option.isNone)) with hk
  have e3 : kept.map nanMean = (kept.map (fun row => row.filterMap id)).map mean := by
    rw [List.map_map]
    rfl
  simp only [← e2, List.map_eq_nil_iff]
  by_cases hkn : kept = []
  · simp [hkn]
  · have : ¬ kept.length = 0 := by simpa using hkn
    rw [if_neg this, if_neg hkn, e3]

/-- **C95.** For all data and limits, if `shrink_data` returns: data that fit, or a negative limit, are returned as they
are, and otherwise there are at most as many values as the limit says. -/
theorem C95_shrink_limit {data r : List K} {maxSize : Int} (h : shrinkData data maxSize = .ok r) :
    (maxSize < 0 ∨ (data.length : Int) ≤ maxSize → r = data) ∧ (0 ≤ maxSize → (r.length : Int) ≤ maxSize) := by
  by_cases h0 : maxSize < 0
  · simp only [shrinkData, if_pos h0, Except.ok.injEq] at h
    exact ⟨fun _ => h.symm, fun h => by omega⟩
  · by_cases h1 : (data.length : Int) ≤ maxSize
    · simp only [shrinkData, if_neg h0, if_pos h1, Except.ok.injEq] at h
      subst h
      exact ⟨fun _ => rfl, fun _ => h1⟩
    · refine ⟨fun h => by omega, fun _ => ?_⟩
      obtain ⟨m, rfl⟩ : ∃ m : Nat, maxSize = m := ⟨maxSize.toNat, by omega⟩
      rcases Nat.eq_zero_or_pos m with rfl | hm
      · simp only [shrinkData, if_neg h0, if_neg h1] at h
        simp at h
      · rw [shrink_eq hm (by omega)] at h
        simp only at h
        split_ifs at h
        simp only [Except.ok.injEq] at h
        rw [← h, List.length_map]
        have := List.length_filter_le (fun b : List K => decide (b ≠ [])) ((List.range m).map (fun i =>
          (block (width data.length m) i data).filter (fun x => decide (x ≠ 0))))
        simp only [List.length_map, List.length_range] at this
        exact_mod_cast this

/-- **C95**, when it returns: the limit is not zero (unless there are no data) and, if the data do not fit, some value is
not zero. -/
theorem C95_shrink_returns (data : List K) (maxSize : Int) :
    (∃ r, shrinkData data maxSize = .ok r) ↔
      maxSize < 0 ∨ (data.length : Int) ≤ maxSize ∨ (maxSize ≠ 0 ∧ ∃ x ∈ data, x ≠ 0) := by
  by_cases h0 : maxSize < 0
  · simp [shrinkData, h0]
  · by_cases h1 : (data.length : Int) ≤ maxSize
    · simp [shrinkData, h0, h1]
    · obtain ⟨m, rfl⟩ : ∃ m : Nat, maxSize = m := ⟨maxSize.toNat, by omega⟩
      rcases Nat.eq_zero_or_pos m with rfl | hm
      · simp only [shrinkData, if_neg h0, if_neg h1]
        simp
        intro h; subst h; simp at h1
      · rw [shrink_eq hm (by omega)]
        have hm0 : ((m : Int) ≠ 0) := by omega
        simp only [h0, h1, false_or, hm0, ne_eq, not_false_eq_true, true_and]
        have hcov := width_covers (n := data.length) hm
        have hwp := width_pos (n := data.length) hm (by omega)
        constructor
        · rintro ⟨r, hr⟩
          split_ifs at hr with hb
          by_contra hno
          push Not at hno
          apply hb
          rw [List.filter_eq_nil_iff]
          intro b hb'
          obtain ⟨i, -, rfl⟩ := List.mem_map.1 hb'
          simp only [decide_not, Bool.not_eq_true', decide_eq_false_iff_not, not_not]
          rw [List.filter_eq_nil_iff]
          intro x hx
          have : x ∈ data := List.mem_of_mem_drop (List.mem_of_mem_take hx)
          simp [hno x this]
        · rintro ⟨x, hx, hx0⟩
          obtain ⟨j, hj, rfl⟩ := List.getElem_of_mem hx
          rw [if_neg]
          · exact ⟨_, rfl⟩
          · intro hb
            rw [List.filter_eq_nil_iff] at hb
            have hi : j / width data.length m < m := by
              rw [Nat.div_lt_iff_lt_mul hwp]
              rw [mul_comm] at hcov
              omega
            have := hb _ (List.mem_map.2 ⟨j / width data.length m, List.mem_range.2 hi, rfl⟩)
            simp only [decide_not, Bool.not_eq_true', decide_eq_false_iff_not, not_not] at this
            rw [List.filter_eq_nil_iff] at this
            refine this data[j] ?_ (by simp [hx0])
            unfold block
            rw [List.mem_iff_getElem]
            have hmod := Nat.mod_lt j hwp
            have hdm := Nat.div_add_mod j (width data.length m)
            rw [mul_comm] at hdm
            refine ⟨j % width data.length m, ?_, ?_⟩
            · rw [List.length_take, List.length_drop]
              omega
            · rw [List.getElem_take, List.getElem_drop]
              congr 1

/-- **C121**, positive part: data without zeros are averaged block by block; how many values there are depends only on
the number of data and the limit, so that arrays of the same length stay aligned.
Missing for the full property: data with zeros, see `C121_zeros_break_alignment`. -/
theorem C121_blocks_partial {data : List K} {m : Nat} (hm : 0 < m) (hn : m < data.length) (h0 : ∀ x ∈ data, x ≠ 0) :
    shrinkData data m = .ok ((List.range (width data.length (width data.length m))).map
      (fun i => mean (block (width data.length m) i data))) := by
  have hwp := width_pos hm hn
  have hcov := width_covers (n := data.length) hm
  set w := width data.length m with hw
  have hblock : ∀ i, (block w i data).filter (fun x => decide (x ≠ 0)) = block w i data := by
    intro i
    rw [List.filter_eq_self]
    intro x hx
    simpa using h0 x (List.mem_of_mem_drop (List.mem_of_mem_take hx))
  have hne : ∀ i, block w i data ≠ [] ↔ i < width data.length w := by
    intro i
    have e : block w i data = [] ↔ data.length ≤ i * w := by
      unfold block
      rw [List.take_eq_nil_iff, List.drop_eq_nil_iff]
      constructor
      · rintro (h | h)
        · omega
        · exact h
      · exact .inr
    rw [ne_eq, e, not_le]
    unfold width
    rw [Nat.lt_div_iff_mul_lt hwp]
    omega
  have hlen : width data.length w ≤ m := by
    by_contra hlt
    rw [not_le] at hlt
    have := (hne m).2 hlt
    apply this
    unfold block
    rw [List.take_eq_nil_iff, List.drop_eq_nil_iff]
    right
    rw [mul_comm]
    exact hcov
  have hbs : ((List.range m).map (fun i => (block w i data).filter (fun x => decide (x ≠ 0)))).filter
      (fun b => decide (b ≠ [])) = (List.range (width data.length w)).map (fun i => block w i data) := by
    rw [List.map_congr_left (fun i _ => hblock i), List.filter_map]
    congr 1
    obtain ⟨k, hk⟩ : ∃ k, m = width data.length w + k := ⟨m - width data.length w, by omega⟩
    rw [show List.range m = List.range (width data.length w + k) by rw [← hk], List.range_add, List.filter_append]
    rw [List.filter_eq_self.2, List.filter_eq_nil_iff.2, List.append_nil]
    · intro x hx
      obtain ⟨y, -, rfl⟩ := List.mem_map.1 hx
      have := (hne (width data.length w + y)).not.2 (by omega)
      simpa using this
    · intro x hx
      simpa using (hne x).2 (List.mem_range.1 hx)
  rw [shrink_eq hm hn]
  simp only
  rw [← hw, hbs, if_neg, List.map_map]
  · rfl
  · rw [List.map_eq_nil_iff, List.range_eq_nil]
    have := (hne 0).1 (by
      unfold block
      rw [ne_eq, List.take_eq_nil_iff, List.drop_eq_nil_iff]
      omega)
    omega

/-- **C121 is false of the code**: zeros are taken for missing values.  For every limit and every number of data that do
not fit, there are two arrays of this length of which one is shrunk and the other, zero everywhere, raises; and if at
least two blocks are needed, there are two arrays of this length that are shrunk to different lengths. -/
theorem C121_zeros_break_alignment {m n : Nat} (hm : 0 < m) (hn : m < n) :
    ((∃ r, shrinkData (List.replicate n (1 : K)) m = .ok r) ∧ ¬ ∃ r, shrinkData (List.replicate n (0 : K)) m = .ok r) ∧
    (1 < m → ∃ a b ra rb : List K, a.length = n ∧ b.length = n ∧ shrinkData a m = .ok ra ∧ shrinkData b m = .ok rb ∧
      ra.length ≠ rb.length) := by
  refine ⟨⟨?_, ?_⟩, fun hm1 => ?_⟩
  · rw [C95_shrink_returns]
    refine .inr (.inr ⟨by omega, 1, ?_, one_ne_zero⟩)
    rw [List.mem_replicate]
    exact ⟨by omega, rfl⟩
  · rw [C95_shrink_returns]
    rintro (h | h | ⟨-, x, hx, h⟩)
    · omega
    · rw [List.length_replicate] at h; omega
    · exact h (List.mem_replicate.1 hx).2
  · have hl : m < (List.replicate n (1 : K)).length := by rw [List.length_replicate]; exact hn
    have ha := C121_blocks_partial (data := List.replicate n (1 : K)) hm hl (fun x hx => by
      rw [(List.mem_replicate.1 hx).2]; exact one_ne_zero)
    set w := width n m with hw
    have hwp : 0 < w := width_pos hm hn
    have hcov : n ≤ w * m := width_covers hm
    have hwn : w < n := by
      have h1 := Nat.div_mul_le_self (n + (m - 1)) m
      rw [show (n + (m - 1)) / m = w from rfl] at h1
      by_contra hc
      have : w * 2 ≤ w * m := Nat.mul_le_mul_left w hm1
      omega
    let b : List K := List.replicate w 1 ++ List.replicate (n - w) 0
    have hb : b.length = n := by simp [b]; omega
    have hbr : ∃ rb, shrinkData b m = .ok rb := by
      rw [C95_shrink_returns]
      refine .inr (.inr ⟨by omega, 1, ?_, one_ne_zero⟩)
      simp only [b, List.mem_append, List.mem_replicate]
      exact .inl ⟨by omega, trivial⟩
    obtain ⟨rb, hrb⟩ := hbr
    refine ⟨_, b, _, rb, List.length_replicate, hb, ha, hrb, ?_⟩
    have hrl : rb.length ≤ 1 := by
      rw [shrink_eq hm (by omega)] at hrb
      simp only [hb, ← hw] at hrb
      split_ifs at hrb
      simp only [Except.ok.injEq] at hrb
      rw [← hrb, List.length_map]
      obtain ⟨k, rfl⟩ : ∃ k, m = k + 1 := ⟨m - 1, by omega⟩
      rw [List.range_succ_eq_map, List.map_cons, List.map_map]
      have hz : ∀ x ∈ (List.range k).map ((fun i => (block w i b).filter (fun x => decide (x ≠ 0))) ∘ Nat.succ), x = [] := by
        intro x hx
        obtain ⟨i, -, rfl⟩ := List.mem_map.1 hx
        simp only [Function.comp]
        rw [List.filter_eq_nil_iff]
        intro y hy
        unfold block at hy
        have hy' := List.mem_of_mem_take hy
        rw [List.drop_append, List.drop_eq_nil_of_le (by rw [List.length_replicate, Nat.succ_mul]; omega), List.nil_append] at hy'
        have := (List.mem_replicate.1 (List.mem_of_mem_drop hy')).2
        simp [this]
      rw [List.filter_cons]
      have : ((List.range k).map ((fun i => (block w i b).filter (fun x => decide (x ≠ 0))) ∘ Nat.succ)).filter
          (fun b => decide (b ≠ [])) = [] := by
        rw [List.filter_eq_nil_iff]
        intro x hx
        simp [hz x hx]
      split_ifs <;> rw [this] <;> simp
    rw [List.length_map, List.length_range, List.length_replicate, ← hw]
    have h2 : 2 ≤ width n w := by
      unfold width
      rw [Nat.le_div_iff_mul_le hwp]
      omega
    omega

/-! ### C94, C122, C123: results in reports -/

theorem postInit_run (mm : Bool) {i : Nat} {results : List (AteResult K R)} {r : AteResult K R} (h : results[i]? = some r) :
    postInit mm i results = (.ok (), if mm then results.set i (inUnit 1000 r) else results) := by
  unfold postInit
  rw [h]
  cases mm <;> rfl

theorem inUnit_inUnit (f g : K) (r : AteResult K R) : inUnit f (inUnit g r) = inUnit (f * g) r := by
  unfold inUnit
  simp only [List.map_map]
  congr 1
  · apply List.map_congr_left
    intro v _
    simp [mul_smul]
  · apply List.map_congr_left
    intro v _
    simp [mul_smul]

theorem inUnit_one (r : AteResult K R) : inUnit 1 r = r := by simp [inUnit]

/-- **C94**, positive part: in metres, report data leave all results as they are.
Missing for the full property: millimetres, see `C94_millimetres_change_results`. -/
theorem C94_metres_partial (is : List Nat) (results : List (AteResult K R)) (h : ∀ i ∈ is, i < results.length) :
    postInits false is results = (.ok (), results) := by
  induction is with
  | nil => rfl
  | cons i is ih =>
    obtain ⟨r, hr⟩ : ∃ r, results[i]? = some r := ⟨_, List.getElem?_eq_getElem (h i List.mem_cons_self)⟩
    have h1 := postInit_run false hr
    simp only [Bool.false_eq_true, if_false] at h1
    rw [postInits, SE.run_bind_ok h1]
    exact ih (fun j hj => h j (List.mem_cons_of_mem _ hj))

/-- **C94 is false of the code**: in millimetres, each construction of report data multiplies the deviations of the
result by 1000, for good: after `n` reports they are `1000 ^ n` times as large.  The other results are left alone. -/
theorem C94_millimetres_change_results {i : Nat} {r : AteResult K R} (n : Nat) :
    ∀ {results : List (AteResult K R)}, results[i]? = some r →
      ∃ results', postInits true (List.replicate n i) results = (.ok (), results') ∧
        results'[i]? = some (inUnit (1000 ^ n) r) ∧ ∀ j, j ≠ i → results'[j]? = results[j]? := by
  suffices key : ∀ (n : Nat) (f : K) (results : List (AteResult K R)), results[i]? = some (inUnit f r) →
      ∃ results', postInits true (List.replicate n i) results = (.ok (), results') ∧
        results'[i]? = some (inUnit (1000 ^ n * f) r) ∧ ∀ j, j ≠ i → results'[j]? = results[j]? by
    intro results h
    have := key n 1 results (by rw [inUnit_one]; exact h)
    rwa [mul_one] at this
  intro n
  induction n with
  | zero => intro f results h; exact ⟨results, rfl, by simpa using h, fun _ _ => rfl⟩
  | succ n ih =>
    intro f results h
    have h1 := postInit_run true h
    simp only [if_true, inUnit_inUnit] at h1
    have hl := (List.getElem?_eq_some_iff.1 h).1
    obtain ⟨results', e1, e2, e3⟩ := ih (1000 * f) (results.set i (inUnit (1000 * f) r)) (by
      rw [List.getElem?_set_self hl])
    refine ⟨results', ?_, ?_, fun j hj => ?_⟩
    · rw [List.replicate_succ, postInits, SE.run_bind_ok h1]
      exact e1
    · rw [e2, pow_succ, mul_assoc]
    · rw [e3 j hj, List.getElem?_set_ne (Ne.symm hj)]

variable [IsStrictOrderedRing K]

theorem nrm_smul {nrm : V3 K → K} (hn : IsNorm nrm) {f : K} (hf : 0 ≤ f) (v : V3 K) : nrm (f • v) = f * nrm v := by
  have h1 := hn.nonneg (f • v)
  have h2 := mul_nonneg hf (hn.nonneg v)
  have h3 : nrm (f • v) * nrm (f • v) = (f * nrm v) * (f * nrm v) := by
    rw [hn.sq, mul_mul_mul_comm, hn.sq]
    simp only [V3.normSq, V3.smul_x, V3.smul_y, V3.smul_z]
    ring
  exact (mul_self_inj h1 h2).1 h3

theorem posAte_inUnit {E : EvalLib K} (hE : IsEvalLib E) {f : K} (hf : 0 ≤ f) (r : AteResult K R) {x : K}
    (h : r.posAte E = .ok x) : (inUnit f r).posAte E = .ok (f * x) := by
  unfold AteResult.posAte AteResult.posDevComb npMean at *
  simp only [inUnit, List.map_map, List.length_map] at *
  split_ifs at h ⊢
  simp only [Except.ok.injEq] at h ⊢
  rw [← h, ← mul_div_assoc, ← List.sum_map_mul_left]
  congr 2
  apply List.map_congr_left
  intro v _
  exact nrm_smul hE.nrm hf v

/-- **C122**, positive part: the first report on a result shows its ATE in the chosen unit.
Missing for the full property: further reports, see `C122_later_reports_wrong`. -/
theorem C122_first_report_partial {E : EvalLib K} (hE : IsEvalLib E) (mm : Bool) {i : Nat}
    {results : List (AteResult K R)} {r : AteResult K R} (h : results[i]? = some r) {x : K} (hx : r.posAte E = .ok x) :
    (singleReport E mm i results).1 = .ok (if mm then 1000 * x else x) := by
  unfold singleReport
  rw [postInit_run mm h]
  have hl := (List.getElem?_eq_some_iff.1 h).1
  cases mm
  · simp [h, hx]
  · simp only [if_true, List.getElem?_set_self hl]
    exact posAte_inUnit hE (by norm_num) r hx

/-- **C122 is false of the code**: after `n` reports in millimetres, the next one shows `1000 ^ (n + 1)` times the ATE, in
metres also `1000 ^ n` times. -/
theorem C122_later_reports_wrong {E : EvalLib K} (hE : IsEvalLib E) (mm : Bool) {i : Nat}
    {results results' : List (AteResult K R)} {r : AteResult K R} (h : results[i]? = some r) {x : K}
    (hx : r.posAte E = .ok x) (n : Nat) (hn : postInits true (List.replicate n i) results = (.ok (), results')) :
    (singleReport E mm i results').1 = .ok (1000 ^ n * (if mm then 1000 * x else x)) := by
  obtain ⟨s, e1, e2, -⟩ := C94_millimetres_change_results (K := K) (R := R) n h
  rw [hn] at e1
  obtain ⟨-, rfl⟩ := Prod.mk.inj e1
  rw [C122_first_report_partial hE mm e2 (posAte_inUnit hE (by positivity) r hx)]
  cases mm
  · rfl
  · simp only [if_true]
    congr 1
    ring

/-- **C122 is false of the code** also for one report: a multi report in millimetres in which a result is listed twice
shows a million times its ATE. -/
theorem C122_listed_twice {E : EvalLib K} (hE : IsEvalLib E) {i : Nat} {results : List (AteResult K R)}
    {r : AteResult K R} (h : results[i]? = some r) {x : K} (hx : r.posAte E = .ok x) :
    (multiReport E true [i, i] results).1 = .ok [1000000 * x, 1000000 * x] := by
  obtain ⟨s, e1, e2, -⟩ := C94_millimetres_change_results (K := K) (R := R) 2 h
  have := posAte_inUnit hE (f := (1000 : K) ^ 2) (by positivity) r hx
  unfold multiReport
  rw [show [i, i] = List.replicate 2 i from rfl, e1]
  simp only [List.replicate, List.mapM_cons, List.mapM_nil, e2, this, bind, Except.bind, pure, Except.pure]
  norm_num

/-- **C123 is false of the code**: a report on a result without rotation deviations shows a rotation ATE of zero. -/
theorem C123_zero_without_orientations (E : EvalLib K) (L : RotLib K R) (mm : Bool) {i : Nat}
    {results : List (AteResult K R)} {r : AteResult K R} (h : results[i]? = some r) (hr : r.rotDev = none)
    (hne : r.posDev ≠ []) : (singleReportRot E L mm i results).1 = .ok 0 := by
  have key : ∀ s : AteResult K R, s.rotDev = none → s.posDev ≠ [] → s.rotAte E L = .ok 0 := by
    intro s hs hne
    unfold AteResult.rotAte AteResult.rotDevComb npMean
    rw [hs]
    have : s.posDev.length ≠ 0 := by simpa using hne
    simp [hne]
  unfold singleReportRot
  rw [postInit_run mm h]
  have hl := (List.getElem?_eq_some_iff.1 h).1
  cases mm
  · simpa [h] using key r hr hne
  · simp only [if_true, List.getElem?_set_self hl]
    exact key _ hr (by simpa [inUnit] using hne)

/-- **C123**, positive part: with rotation deviations, the report shows their mean angle, the rotation ATE of the result,
whatever the unit of positions. -/
theorem C123_rotation_ate_partial (E : EvalLib K) (L : RotLib K R) (mm : Bool) {i : Nat}
    {results : List (AteResult K R)} {r : AteResult K R} (h : results[i]? = some r) (hr : r.rotDev.isSome) :
    (singleReportRot E L mm i results).1 = r.rotAte E L := by
  unfold singleReportRot
  rw [postInit_run mm h]
  have hl := (List.getElem?_eq_some_iff.1 h).1
  obtain ⟨q, hq⟩ := Option.isSome_iff_exists.1 hr
  cases mm
  · simp [h]
  · simp only [if_true, List.getElem?_set_self hl]
    simp [AteResult.rotAte, AteResult.rotDevComb, inUnit, hq]

/-! ### C124: short names -/

/-- `vs` occurs in the string -/
def HasVs (s : Str) : Prop := ∃ a b, s = a ++ 'v' :: 's' :: b

theorem beforeVs_cut : ∀ (a b : Str), ¬ HasVs a → beforeVs (a ++ ' ' :: 'v' :: 's' :: b) = a ++ [' ']
  | [], b, _ => by simp [beforeVs]
  | c :: a, b, h => by
    have h' : ¬ HasVs a := fun ⟨x, y, e⟩ => h ⟨c :: x, y, by simp [e]⟩
    have ih := beforeVs_cut a b h'
    rw [List.cons_append]
    unfold beforeVs
    split
    · rename_i heq; simp at heq
    · rename_i t heq
      exfalso
      injection heq with e1 e2
      subst e1
      cases a with
      | nil => simp at e2
      | cons d a =>
        simp only [List.cons_append, List.cons.injEq] at e2
        obtain ⟨rfl, -⟩ := e2
        exact h ⟨[], a, rfl⟩
    · rename_i d t _ heq
      injection heq with e1 e2
      subst e1 e2
      simp [ih]

theorem beforeVs_first : ∀ (a b : Str), ¬ HasVs a → (∀ x, a ≠ x ++ ['v']) → beforeVs (a ++ 'v' :: 's' :: b) = a
  | [], b, _, _ => by simp [beforeVs]
  | c :: a, b, h, hv => by
    have h' : ¬ HasVs a := fun ⟨x, y, e⟩ => h ⟨c :: x, y, by simp [e]⟩
    have ih := beforeVs_first a b h' (fun x e => hv (c :: x) (by simp [e]))
    rw [List.cons_append]
    unfold beforeVs
    split
    · rename_i heq; simp at heq
    · rename_i t heq
      exfalso
      injection heq with e1 e2
      subst e1
      cases a with
      | nil => simp at e2
      | cons d a =>
        simp only [List.cons_append, List.cons.injEq] at e2
        obtain ⟨rfl, -⟩ := e2
        exact h ⟨[], a, rfl⟩
    · rename_i d t _ heq
      injection heq with e1 e2
      subst e1 e2
      simp [ih]

/-- **C124**, positive part: for a comparison of a trajectory whose name has no `vs`, the short name is its name and a
blank.  Missing for the full property: names with `vs`, see `C124_names_confused`. -/
theorem C124_short_name_partial (E : EvalLib K) (L : RotLib K R) {test ref : Traj K R} {r : AteResult K R}
    (h : compareAbsolute E L test ref = .ok r) (hv : ¬ HasVs test.name.toList) :
    shortName r = test.name.toList ++ [' '] := by
  have hn : r.name = test.name ++ " vs. " ++ ref.name := by
    unfold compareAbsolute at h
    simp only [bind, Except.bind, pure, Except.pure] at h
    repeat' split at h
    all_goals first | (simp at h; done) | (simp only [Except.ok.injEq] at h; rw [← h])
  unfold shortName
  rw [hn]
  simp only [String.toList_append]
  have : " vs. ".toList = [' ', 'v', 's', '.', ' '] := by decide
  rw [this, List.append_assoc]
  exact beforeVs_cut _ _ hv

/-- **C124 is false of the code**: trajectories whose names differ only after a `vs` have the same short name. -/
theorem C124_names_confused (E : EvalLib K) (L : RotLib K R) {a b c : Str} {test test' ref ref' : Traj K R}
    {r r' : AteResult K R} (ha : ¬ HasVs a) (ha' : ∀ x, a ≠ x ++ ['v'])
    (h1 : test.name = String.ofList (a ++ 'v' :: 's' :: b)) (h2 : test'.name = String.ofList (a ++ 'v' :: 's' :: c))
    (h : compareAbsolute E L test ref = .ok r) (h' : compareAbsolute E L test' ref' = .ok r') :
    shortName r = a ∧ shortName r' = a := by
  have hn : ∀ {test ref : Traj K R} {r : AteResult K R}, compareAbsolute E L test ref = .ok r →
      r.name = test.name ++ " vs. " ++ ref.name := by
    intro test ref r h
    unfold compareAbsolute at h
    simp only [bind, Except.bind, pure, Except.pure] at h
    repeat' split at h
    all_goals first | (simp at h; done) | (simp only [Except.ok.injEq] at h; rw [← h])
  unfold shortName
  rw [hn h, hn h', h1, h2]
  simp only [String.toList_append, String.toList_ofList, List.append_assoc, List.cons_append]
  exact ⟨beforeVs_first _ _ ha ha', beforeVs_first _ _ ha ha'⟩

/-! ### Examples -/

/-- five values in two blocks of three and two -/
example : (shrinkData [1, 2, 3, 4, (6 : ℚ)] 2).toOption = some [2, 5] := by decide +kernel
/-- a block of zeros disappears, and zeros in other blocks do not count -/
example : (shrinkData [0, 0, 0, 4, (0 : ℚ)] 2).toOption = some [4] := by decide +kernel
example : (shrinkData [0, 0, (0 : ℚ)] 2).toOption = none := by decide +kernel
example : (shrinkData [1, (2 : ℚ)] 0).toOption = none := by decide +kernel
example : (shrinkData [1, (2 : ℚ)] (-1)).toOption = some [1, 2] := by decide +kernel

/-- a result with a deviation of three and one of four metres in height -/
def exShown : AteResult ℚ Unit :=
  ⟨"a vs. b", ⟨[0, 1], [0, 0], none, [0, 0], [0, 0], .time, "a", 0⟩, [⟨0, 0, 3⟩, ⟨0, 0, -4⟩], [⟨0, 0, 3⟩, ⟨0, 0, -4⟩], none, false⟩

/-- the height is the norm of these vectors -/
def exShownLib : EvalLib ℚ := { sqrt := id, acos := id, nrm := fun v => |v.z| }

example : (exShown.posAte exShownLib).toOption = some (7 / 2) := by decide +kernel
/-- the second report in millimetres is wrong -/
example : ((singleReport exShownLib true 0 [exShown]).1).toOption = some 3500 ∧
    ((singleReport exShownLib true 0 (singleReport exShownLib true 0 [exShown]).2).1).toOption = some 3500000 := by
  decide +kernel
example : exShown.rotDev = none ∧ exShown.posDev ≠ [] := by decide +kernel

/-- two trajectories `navsat` and `navsim` are both called `na` -/
example : beforeVs "navsat vs. reference".toList = "na".toList ∧ beforeVs "navsim vs. reference".toList = "na".toList ∧
    beforeVs "gps vs. reference".toList = "gps ".toList := by decide +kernel
example : ¬ HasVs "gps".toList := by
  rintro ⟨a, b, h⟩
  have h1 : 'v' ∈ "gps".toList := by rw [h]; simp
  exact absurd h1 (by decide)

end Report
end TC
