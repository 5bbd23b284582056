import Verif.Spec.Params
import Mathlib.Data.List.Basic
import Mathlib.Tactic.Linarith
/-!
# Assigning to parameters and covariance matrices
-/
namespace TC
set_option linter.unusedSectionVars false
variable {K : Type} [Field K] [LinearOrder K]
namespace PSet

/-! ### the loop of `_set` -/

theorem setLoop_length (upd : Param K → K → Param K) (b : Bool) : ∀ (ps : List (Param K)) (vs : List K),
    (setLoop upd b ps vs).length = ps.length
  | [], _ => rfl
  | p :: ps, vs => by
    unfold setLoop
    split
    · simp [setLoop_length upd b ps vs]
    · cases vs with
      | nil => simp [setLoop_length upd b ps []]
      | cons v vs => simp [setLoop_length upd b ps vs]

/-- with `enabled_only`, disabled parameters are untouched -/
theorem setLoop_disabled (upd : Param K → K → Param K) : ∀ (ps : List (Param K)) (vs : List K) (i : Nat) (p : Param K),
    ps[i]? = some p → p.enabled = false → (setLoop upd true ps vs)[i]? = some p
  | [], _, i, p, h, _ => by simp at h
  | q :: ps, vs, 0, p, h, hp => by
    simp only [List.getElem?_cons_zero, Option.some.injEq] at h
    subst h
    unfold setLoop
    simp [hp]
  | q :: ps, vs, i + 1, p, h, hp => by
    simp only [List.getElem?_cons_succ] at h
    unfold setLoop
    split
    · simp only [List.getElem?_cons_succ]; exact setLoop_disabled upd ps vs i p h hp
    · cases vs with
      | nil => simp only [List.getElem?_cons_succ]; exact setLoop_disabled upd ps [] i p h hp
      | cons v vs => simp only [List.getElem?_cons_succ]; exact setLoop_disabled upd ps vs i p h hp

/-- what is kept by `upd` is kept by the loop -/
theorem setLoop_map {α : Type} (f : Param K → α) {upd : Param K → K → Param K} (hf : ∀ p v, f (upd p v) = f p)
    (b : Bool) : ∀ (ps : List (Param K)) (vs : List K), (setLoop upd b ps vs).map f = ps.map f
  | [], _ => rfl
  | p :: ps, vs => by
    unfold setLoop
    split
    · simp [setLoop_map f hf b ps vs]
    · cases vs with
      | nil => simp [setLoop_map f hf b ps []]
      | cons v vs => simp [setLoop_map f hf b ps vs, hf]

/-- with `enabled_only`, the enabled parameters get the values in order -/
theorem setLoop_enabled (f : Param K → K) {upd : Param K → K → Param K}
    (hf : ∀ p v, p.enabled = true → f (upd p v) = v) (he : ∀ p v, (upd p v).enabled = p.enabled) :
    ∀ (ps : List (Param K)) (vs : List K), (ps.filter (fun p => p.enabled)).length = vs.length →
    ((setLoop upd true ps vs).filter (fun p => p.enabled)).map f = vs
  | [], vs, h => by
    have : vs = [] := List.eq_nil_of_length_eq_zero (by simpa using h.symm)
    subst this; rfl
  | p :: ps, vs, h => by
    unfold setLoop
    cases hp : p.enabled with
    | false =>
      simp only [and_self, if_true, List.filter_cons, hp, Bool.false_eq_true, if_false] at h ⊢
      exact setLoop_enabled f hf he ps vs h
    | true =>
      cases vs with
      | nil => simp [hp] at h
      | cons v vs =>
        simp only [Bool.true_eq_false, false_and, if_false, List.filter_cons, he, hp, if_true, List.map_cons,
          hf p v hp]
        rw [setLoop_enabled f hf he ps vs (by simpa [List.filter_cons, hp] using h)]

/-- without `enabled_only`, every parameter gets its value -/
theorem setLoop_all (upd : Param K → K → Param K) : ∀ (ps : List (Param K)) (vs : List K), ps.length = vs.length →
    setLoop upd false ps vs = List.zipWith upd ps vs
  | [], vs, h => by simp [setLoop]
  | p :: ps, [], h => by simp at h
  | p :: ps, v :: vs, h => by
    unfold setLoop
    simp only [Bool.false_eq_true, and_false, if_false, List.zipWith_cons_cons]
    rw [setLoop_all upd ps vs (by simpa using h)]

theorem numEnabled_eq (s : PSet K) : s.numEnabled = (s.params.filter (fun p => p.enabled)).length := by
  simp [numEnabled, valuesEnabled]

theorem len_eq (s : PSet K) : s.len = s.params.length := by simp [len, values]

theorem set_enabled_ok (s : PSet K) (upd : Param K → K → Param K) {vals : List K} (h : vals.length = s.numEnabled) :
    s.set upd vals true = .ok { s with params := setLoop upd true s.params vals } := by
  unfold set
  simp [h]

theorem set_enabled_error (s : PSet K) (upd : Param K → K → Param K) {vals : List K} (h : vals.length ≠ s.numEnabled) :
    s.set upd vals true = .error .valueError := by
  unfold set
  rw [if_pos ⟨fun e => h e.symm, rfl⟩]

theorem set_all_ok (s : PSet K) (upd : Param K → K → Param K) {vals : List K} (h : vals.length = s.params.length) :
    s.set upd vals false = .ok { s with params := List.zipWith upd s.params vals } := by
  unfold set
  simp [len_eq, h, setLoop_all upd s.params vals h.symm]

theorem set_all_error (s : PSet K) (upd : Param K → K → Param K) {vals : List K} (h : vals.length ≠ s.params.length) :
    s.set upd vals false = .error .valueError := by
  unfold set
  simp [len_eq, Ne.symm h]

/-! ### enabled indices -/

theorem enabledIndices_aux (l : List Bool) (k : Nat) : ∀ i,
    i ∈ ((l.zipIdx k).filter (fun x => x.1)).map (fun x => x.2) ↔ k ≤ i ∧ l[i - k]? = some true := by
  induction l generalizing k with
  | nil => simp
  | cons b l ih =>
    intro i
    have step : (∃ j, i = j ∧ k + 1 ≤ i ∧ l[i - (k + 1)]? = some true) ↔ (k + 1 ≤ i ∧ l[i - (k + 1)]? = some true) := by
      simp
    rw [List.zipIdx_cons, List.filter_cons]
    cases b with
    | true =>
      simp only [if_true, List.map_cons, List.mem_cons, ih]
      constructor
      · rintro (rfl | ⟨h1, h2⟩)
        · simp
        · refine ⟨by omega, ?_⟩
          obtain ⟨m, hm⟩ : ∃ m, i - k = m + 1 := ⟨i - k - 1, by omega⟩
          rw [hm, List.getElem?_cons_succ]
          rwa [show i - (k + 1) = m by omega] at h2
      · rintro ⟨h1, h2⟩
        by_cases e : i = k
        · exact Or.inl e
        · right
          obtain ⟨m, hm⟩ : ∃ m, i - k = m + 1 := ⟨i - k - 1, by omega⟩
          rw [hm, List.getElem?_cons_succ] at h2
          exact ⟨by omega, by rwa [show i - (k + 1) = m by omega]⟩
    | false =>
      simp only [Bool.false_eq_true, if_false, ih]
      constructor
      · rintro ⟨h1, h2⟩
        refine ⟨by omega, ?_⟩
        obtain ⟨m, hm⟩ : ∃ m, i - k = m + 1 := ⟨i - k - 1, by omega⟩
        rw [hm, List.getElem?_cons_succ]
        rwa [show i - (k + 1) = m by omega] at h2
      · rintro ⟨h1, h2⟩
        by_cases e : i = k
        · subst e; simp at h2
        · obtain ⟨m, hm⟩ : ∃ m, i - k = m + 1 := ⟨i - k - 1, by omega⟩
          rw [hm, List.getElem?_cons_succ] at h2
          exact ⟨by omega, by rwa [show i - (k + 1) = m by omega]⟩

theorem mem_enabledIndices (s : PSet K) (i : Nat) :
    i ∈ s.enabledIndices ↔ ∃ p, s.params[i]? = some p ∧ p.enabled = true := by
  unfold enabledIndices
  rw [enabledIndices_aux]
  simp [enabledBoolList]

theorem enabledIndices_nodup (s : PSet K) : s.enabledIndices.Nodup := by
  unfold enabledIndices
  have h : (s.enabledBoolList.zipIdx.map (fun x => x.2)).Nodup := by
    rw [List.zipIdx_map_snd]
    exact List.nodup_range'
  exact h.sublist (List.Sublist.map _ (List.filter_sublist))

theorem enabledIndices_length (s : PSet K) : s.enabledIndices.length = s.numEnabled := by
  rw [numEnabled_eq]
  unfold enabledIndices enabledBoolList
  rw [List.length_map]
  have : ∀ (l : List (Param K)) (k : Nat), (((l.map Param.enabled).zipIdx k).filter (fun x => x.1)).length
      = (l.filter (fun p => p.enabled)).length := by
    intro l
    induction l with
    | nil => simp
    | cons p l ih =>
      intro k
      rw [List.map_cons, List.zipIdx_cons, List.filter_cons, List.filter_cons]
      cases p.enabled <;> simp [ih]
  exact this _ 0

theorem enabledIndices_lt (s : PSet K) {i : Nat} (h : i ∈ s.enabledIndices) : i < s.params.length := by
  obtain ⟨p, hp, -⟩ := (mem_enabledIndices s i).mp h
  exact (List.getElem?_eq_some_iff.mp hp).1

/-! ### matrices -/

theorem entry_eq {n : Nat} {m : List (List K)} (h : IsSquare n m) {i j : Nat} (hi : i < n) (hj : j < n) :
    ∃ row, m[i]? = some row ∧ row[j]? = some (entry m i j) ∧ row.length = n := by
  have hi' : i < m.length := by rw [h.rows]; exact hi
  have hr := h.cols m[i] (List.getElem_mem hi')
  refine ⟨m[i], List.getElem?_eq_getElem hi', ?_, hr⟩
  unfold entry
  simp [List.getD_eq_getElem?_getD, List.getElem?_eq_getElem hi', List.getElem?_eq_getElem (show j < m[i].length by omega)]

theorem matrix_ext {n : Nat} {a b : List (List K)} (ha : IsSquare n a) (hb : IsSquare n b)
    (h : ∀ i < n, ∀ j < n, entry a i j = entry b i j) : a = b := by
  apply List.ext_getElem?
  intro i
  by_cases hi : i < n
  · by_cases hn : n = 0
    · omega
    obtain ⟨ra, ea, -, la⟩ := entry_eq ha hi (show 0 < n by omega)
    obtain ⟨rb, eb, -, lb⟩ := entry_eq hb hi (show 0 < n by omega)
    rw [ea, eb]
    congr 1
    apply List.ext_getElem?
    intro j
    by_cases hj : j < n
    · obtain ⟨ra', ea', va, -⟩ := entry_eq ha hi hj
      obtain ⟨rb', eb', vb, -⟩ := entry_eq hb hi hj
      rw [ea] at ea'; cases ea'
      rw [eb] at eb'; cases eb'
      rw [va, vb, h i hi j hj]
    · rw [List.getElem?_eq_none (by omega), List.getElem?_eq_none (by omega)]
  · rw [List.getElem?_eq_none (by rw [ha.rows]; omega), List.getElem?_eq_none (by rw [hb.rows]; omega)]

theorem entry_table {n k : Nat} (f : Nat → Nat → K) {i j : Nat} (hi : i < n) (hj : j < k) :
    entry ((List.range n).map (fun i => (List.range k).map (fun j => f i j))) i j = f i j := by
  unfold entry
  simp [List.getD_eq_getElem?_getD, List.getElem?_range hi, List.getElem?_range hj]

theorem isSquare_table (n : Nat) (f : Nat → Nat → K) :
    IsSquare n ((List.range n).map (fun i => (List.range n).map (fun j => f i j))) :=
  ⟨by simp, by
    intro row hrow
    obtain ⟨i, -, rfl⟩ := List.mem_map.mp hrow
    simp⟩

theorem scatter_square (n : Nat) (idx : List Nat) (sub : List (List K)) : IsSquare n (scatter n idx sub) :=
  isSquare_table n _

theorem findIdx_getElem {idx : List Nat} (hn : idx.Nodup) {a : Nat} (ha : a < idx.length) :
    idx.findIdx? (fun x => decide (x = idx[a])) = some a := by
  rw [List.findIdx?_eq_some_iff_getElem]
  refine ⟨ha, by simp, fun j hj => ?_⟩
  simp only [decide_eq_true_eq]
  intro e
  have := (List.Nodup.getElem_inj_iff hn (hi := by omega) (hj := ha)).mp e
  omega

theorem findIdx_none {idx : List Nat} {i : Nat} (h : i ∉ idx) : idx.findIdx? (fun x => decide (x = i)) = none := by
  rw [List.findIdx?_eq_none_iff]
  intro x hx
  simp only [decide_eq_false_iff_not]
  rintro rfl
  exact h hx

/-- selecting rows and columns of a scattered matrix -/
theorem select_scatter {n : Nat} {idx : List Nat} {sub : List (List K)} (hn : idx.Nodup) (hlt : ∀ i ∈ idx, i < n)
    (hs : IsSquare idx.length sub) :
    idx.map (fun i => idx.map (fun j => entry (scatter n idx sub) i j)) = sub := by
  have hsq : IsSquare idx.length (idx.map (fun i => idx.map (fun j => entry (scatter n idx sub) i j))) :=
    ⟨by simp, by
      intro row hrow
      obtain ⟨i, -, rfl⟩ := List.mem_map.mp hrow
      simp⟩
  apply matrix_ext hsq hs
  intro a ha b hb
  have e1 : entry (idx.map (fun i => idx.map (fun j => entry (scatter n idx sub) i j))) a b
      = entry (scatter n idx sub) idx[a] idx[b] := by
    rw [entry]
    simp only [List.getD_eq_getElem?_getD, List.getElem?_map, List.getElem?_eq_getElem ha, Option.map_some,
      Option.getD_some, List.getElem?_eq_getElem hb]
  rw [e1]
  unfold scatter
  rw [entry_table _ (hlt _ (List.getElem_mem ha)) (hlt _ (List.getElem_mem hb)), findIdx_getElem hn ha,
    findIdx_getElem hn hb]

theorem scatter_zero {n : Nat} {idx : List Nat} {sub : List (List K)} {i j : Nat} (hi : i < n) (hj : j < n)
    (h : i ∉ idx ∨ j ∉ idx) : entry (scatter n idx sub) i j = 0 := by
  unfold scatter
  rw [entry_table _ hi hj]
  rcases h with h | h
  · rw [findIdx_none h]
  · rw [findIdx_none h]
    cases idx.findIdx? (fun x => decide (x = i)) <;> rfl

theorem diag_length (m : List (List K)) : (diag m).length = m.length := by simp [diag]

theorem diag_getElem {m : List (List K)} {i : Nat} (h : i < m.length) : (diag m)[i]? = some (entry m i i) := by
  simp [diag, List.getElem?_range h]

theorem fillDiag_diag {n : Nat} {m : List (List K)} (h : IsSquare n m) : fillDiag m (diag m) = m := by
  unfold fillDiag
  apply List.ext_getElem?
  intro i
  rw [List.getElem?_mapIdx]
  by_cases hi : i < m.length
  · obtain ⟨row, e1, e2, e3⟩ := entry_eq h (show i < n by rw [← h.rows]; exact hi)
      (show i < n by rw [← h.rows]; exact hi)
    rw [e1, diag_getElem hi]
    simp only [Option.map_some, Option.some.injEq]
    apply List.ext_getElem?
    intro j
    rw [List.getElem?_set]
    by_cases hij : i = j
    · subst hij
      rw [if_pos rfl, e2]
      have : i < row.length := by rw [e3, ← h.rows]; exact hi
      simp [this]
    · rw [if_neg hij]
  · rw [List.getElem?_eq_none (l := m) (by omega)]; rfl

/-- writing the entries that are there -/
theorem foldl_diag {n : Nat} {m : List (List K)} (h : IsSquare n m) : ∀ {l : List (Nat × K)},
    (∀ x ∈ l, x.1 < n ∧ entry m x.1 x.1 = x.2) →
    l.foldl (fun m iv => m.modify iv.1 (fun row => row.set iv.1 iv.2)) m = m
  | [], _ => rfl
  | (i, v) :: l, hl => by
    obtain ⟨hi, hv⟩ := hl (i, v) (by simp)
    simp only at hi hv
    have e : m.modify i (fun row => row.set i v) = m := by
      apply List.ext_getElem?
      intro k
      rw [List.getElem?_modify]
      by_cases hk : i = k
      · subst hk
        obtain ⟨row, e1, e2, e3⟩ := entry_eq h hi hi
        rw [e1]
        simp only [if_true, Option.map_eq_map, Option.map_some, Option.some.injEq]
        apply List.ext_getElem?
        intro j
        rw [List.getElem?_set]
        by_cases hij : i = j
        · subst hij
          have : i < row.length := by rw [e3]; exact hi
          rw [if_pos rfl, e2, hv]
          simp [this]
        · rw [if_neg hij]
      · simp [hk]
    rw [List.foldl_cons]
    simp only
    rw [e]
    exact foldl_diag h (fun x hx => hl x (by simp [hx]))

end PSet
end TC
