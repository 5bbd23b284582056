import Verif.Spec.Observations
import Mathlib.Tactic.Linarith
/-!
Strided access to a vector of epochs.
-/
namespace TC
set_option linter.unusedSectionVars false
variable {K : Type} [Field K] [LinearOrder K]
open Obs

theorem getElem?_filterMap_range {α : Type} (f : Nat → Option α) : ∀ (n : Nat)
    (_ : ∀ k < n, (f k).isSome) (k : Nat),
    ((List.range n).filterMap f)[k]? = if k < n then f k else none := by
  intro n
  induction n with
  | zero => intro h k; simp
  | succ n ih =>
    intro h k
    have hlen : ((List.range n).filterMap f).length = n := by
      clear ih
      have : ∀ m ≤ n, ((List.range m).filterMap f).length = m := by
        intro m
        induction m with
        | zero => intro _; simp
        | succ m im =>
          intro hm
          rw [List.range_succ, List.filterMap_append, List.length_append, im (by omega)]
          obtain ⟨y, hy⟩ := Option.isSome_iff_exists.1 (h m (by omega))
          simp [hy]
      exact this n le_rfl
    rw [List.range_succ, List.filterMap_append]
    obtain ⟨y, hy⟩ := Option.isSome_iff_exists.1 (h n (by omega))
    by_cases hk : k < n
    · rw [List.getElem?_append_left (by omega), ih (fun j hj => h j (by omega)) k, if_pos hk, if_pos (by omega)]
    · rw [List.getElem?_append_right (by omega), hlen]
      by_cases h2 : k = n
      · subst h2
        simp [hy]
      · rw [if_neg (by omega)]
        simp [hy]
        omega

theorem lt_strideLen {n i len k : Nat} (hn : 0 < n) : k < strideLen n i len ↔ i + k * n < len := by
  unfold strideLen
  rw [Nat.lt_iff_add_one_le, Nat.le_div_iff_mul_le hn, Nat.succ_mul]
  omega

theorem stride_getElem? {α : Type} {n i : Nat} (hn : 0 < n) (v : List α) (k : Nat) :
    (stride n i v)[k]? = v[i + k * n]? := by
  unfold stride
  rw [getElem?_filterMap_range]
  · by_cases hk : k < strideLen n i v.length
    · rw [if_pos hk]
    · rw [if_neg hk, List.getElem?_eq_none]
      have := (lt_strideLen (i := i) (len := v.length) (k := k) hn).not.1 hk
      omega
  · intro k hk
    have := (lt_strideLen hn).1 hk
    simp [List.getElem?_eq_getElem this]

theorem strideLen_epochs {n i m : Nat} (hi : i < n) : strideLen n i (m * n) = m := by
  have hn : 0 < n := by omega
  refine Nat.le_antisymm ?_ ?_
  · by_contra h
    have := (lt_strideLen hn).1 (not_le.1 h)
    omega
  · by_contra h
    have := (lt_strideLen (i := i) (len := m * n) (k := strideLen n i (m * n)) hn).not.1 (lt_irrefl _)
    have h2 : strideLen n i (m * n) + 1 ≤ m := by omega
    have h3 := Nat.mul_le_mul_right n h2
    rw [Nat.succ_mul] at h3
    omega

theorem flatten_getElem? {α : Type} {p : Nat} : ∀ (rows : List (List α)) (_ : ∀ r ∈ rows, r.length = p)
    (k i : Nat) (_ : i < p), rows.flatten[k * p + i]? = (rows[k]?).bind (fun r => r[i]?) := by
  intro rows
  induction rows with
  | nil => intro _ k i _; simp
  | cons r rows ih =>
    intro h k i hi
    have hr := h r (by simp)
    rw [List.flatten_cons]
    rcases k with _ | k
    · rw [List.getElem?_append_left (by omega)]
      simp
    · rw [List.getElem?_append_right (by rw [Nat.succ_mul]; omega), hr, Nat.succ_mul]
      rw [show k * p + p + i - p = k * p + i from by omega, ih (fun r hr => h r (by simp [hr])) k i hi]
      simp

theorem flatten_epochs_length {α : Type} {p : Nat} (rows : List (List α)) (h : ∀ r ∈ rows, r.length = p) :
    rows.flatten.length = rows.length * p := by
  induction rows with
  | nil => simp
  | cons r rows ih =>
    rw [List.flatten_cons, List.length_append, h r (by simp), ih (fun r hr => h r (by simp [hr])),
      List.length_cons, Nat.succ_mul]
    omega

theorem stride_flatten {α : Type} {p i : Nat} (hi : i < p) (rows : List (List α)) (h : ∀ r ∈ rows, r.length = p)
    {β : Type} (data : List β) (f : β → α) (hl : data.length = rows.length)
    (hd : ∀ (k : Nat) (r : List α) (d : β), rows[k]? = some r → data[k]? = some d → r[i]? = some (f d)) :
    stride p i rows.flatten = data.map f := by
  refine List.ext_getElem? fun k => ?_
  rw [stride_getElem? (by omega), Nat.add_comm, flatten_getElem? rows h k i hi, List.getElem?_map]
  by_cases hk : k < rows.length
  · rw [List.getElem?_eq_getElem hk, List.getElem?_eq_getElem (by omega : k < data.length)]
    exact hd k _ _ (List.getElem?_eq_getElem hk) (List.getElem?_eq_getElem (by omega : k < data.length))
  · rw [List.getElem?_eq_none (by omega), List.getElem?_eq_none (by omega)]
    rfl

theorem block_flatten {p : Nat} (rows : List (List K)) (h : ∀ r ∈ rows, r.length = p) (k : Nat) (r : List K)
    (hk : rows[k]? = some r) : block p rows.flatten k = r := by
  have hkl : k < rows.length := by
    by_contra hc
    rw [List.getElem?_eq_none (by omega)] at hk
    cases hk
  have hr : r.length = p := h r (List.mem_of_getElem? hk)
  refine List.ext_getElem? fun i => ?_
  unfold block
  rw [List.getElem?_take]
  by_cases hi : i < p
  · rw [if_pos hi, List.getElem?_drop, flatten_getElem? rows h k i hi, hk]
    rfl
  · rw [if_neg hi, List.getElem?_eq_none (by omega)]

/-! ### writing -/

theorem setStride_ok {α : Type} {n i m : Nat} (hi : i < n) (v vals : List α) (hv : v.length = m * n) (hl : vals.length = m) :
    ∃ w, setStride n i v vals = .ok w ∧ w.length = v.length ∧
      ∀ q, w[q]? = if q % n = i ∧ q < v.length then vals[q / n]? else v[q]? := by
  refine ⟨_, by unfold setStride; rw [if_pos (by rw [hv, strideLen_epochs hi, hl])], by simp, fun q => ?_⟩
  have hn : 0 < n := by omega
  rw [List.getElem?_mapIdx]
  by_cases hq : q < v.length
  · rw [List.getElem?_eq_getElem hq]
    simp only [Option.map_some]
    have hm := Nat.mod_add_div q n
    have hqn : q / n < m := by
      rw [Nat.div_lt_iff_lt_mul hn]
      omega
    have hiff : (i ≤ q ∧ (q - i) % n = 0) ↔ q % n = i := by
      constructor
      · rintro ⟨h1, h2⟩
        obtain ⟨c, hc⟩ := Nat.dvd_of_mod_eq_zero h2
        have : q = i + n * c := by omega
        rw [this, Nat.add_mul_mod_self_left, Nat.mod_eq_of_lt hi]
      · intro h1
        have h2 : q - i = n * (q / n) := by omega
        exact ⟨by omega, by rw [h2, Nat.mul_mod_right]⟩
    by_cases h1 : q % n = i
    · rw [if_pos (hiff.2 h1), if_pos ⟨h1, hq⟩]
      have h2 : q - i = n * (q / n) := by omega
      rw [h2, Nat.mul_div_cancel_left _ hn, List.getD_eq_getElem?_getD, List.getElem?_eq_getElem (by omega : q / n < vals.length)]
      rfl
    · rw [if_neg (fun h => h1 (hiff.1 h)), if_neg (fun h => h1 h.1)]
  · rw [List.getElem?_eq_none (by omega), if_neg (fun h => hq h.2)]
    rfl

theorem setLoop_ok {n m : Nat} : ∀ (cols : List (List K)) (v : List K) (i : Nat), i + cols.length ≤ n →
    v.length = m * n → (∀ c ∈ cols, c.length = m) →
    ∃ w, setLoop n v i cols = .ok w ∧ w.length = v.length ∧
      ∀ q, w[q]? = if i ≤ q % n ∧ q % n < i + cols.length ∧ q < v.length
        then (cols[q % n - i]?).bind (fun c => c[q / n]?) else v[q]? := by
  intro cols
  induction cols with
  | nil =>
    intro v i _ _ _
    refine ⟨v, rfl, rfl, fun q => ?_⟩
    rw [if_neg (by simp; omega)]
  | cons c cs ih =>
    intro v i hi hv hc
    simp only [List.length_cons] at hi
    obtain ⟨w, e1, e2, e3⟩ := setStride_ok (n := n) (i := i) (m := m) (by omega) v c hv (hc c (by simp))
    obtain ⟨u, f1, f2, f3⟩ := ih w (i + 1) (by omega) (by omega) (fun d hd => hc d (by simp [hd]))
    refine ⟨u, by simp only [setLoop, e1, bind, Except.bind]; exact f1, by omega, fun q => ?_⟩
    rw [f3 q, e3 q, e2]
    simp only [List.length_cons]
    by_cases h1 : q % n = i
    · rw [if_neg (by omega), h1]
      by_cases h2 : q < v.length
      · rw [if_pos ⟨rfl, h2⟩, if_pos ⟨le_rfl, by omega, h2⟩]
        simp
      · rw [if_neg (fun h => h2 h.2), if_neg (fun h => h2 h.2.2)]
    · rw [if_neg (fun h : q % n = i ∧ _ => h1 h.1)]
      by_cases h2 : i + 1 ≤ q % n ∧ q % n < i + 1 + cs.length ∧ q < v.length
      · rw [if_pos h2, if_pos ⟨by omega, by omega, h2.2.2⟩, show q % n - i = (q % n - (i + 1)) + 1 from by omega,
          List.getElem?_cons_succ]
      · rw [if_neg h2, if_neg (by omega)]

end TC
