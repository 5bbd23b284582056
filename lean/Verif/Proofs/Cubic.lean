import Verif.Model.Cubic
import Verif.Proofs.Index
import Verif.Proofs.Interp
import Verif.Props.Utils
import Mathlib.Tactic.Ring
import Mathlib.Tactic.LinearCombination
/-!
# The loop and the design matrix of the cubic approximation
-/
namespace TC
set_option linter.unusedSectionVars false
variable {K : Type} [Field K] [LinearOrder K] [IsStrictOrderedRing K] [FloorRing K]

theorem pyLast_ne {α : Type} {l : List α} (h : l ≠ []) : pyLast l = .ok (l.getLast h) := by
  rw [pyLast_eq (List.length_pos_of_ne_nil h), List.getLast_eq_getElem]

theorem pyFirst_ne {α : Type} {l : List α} (h : l ≠ []) : pyFirst l = .ok (l.head h) := by
  rw [pyFirst_eq (List.length_pos_of_ne_nil h), List.head_eq_getElem]

/-- an interval and its rows: cubic coefficients with respect to some start and end, which differ if
the samples are strictly ascending and an interval has at least two of them -/
def RowsOf (varRed : List K) (minObs : Nat) (iv : List K) (c : List (C4 K)) : Prop :=
  iv ≠ [] ∧ ∃ a e, c = iv.map (fun x => computeC x a e) ∧ (2 ≤ minObs → StrictAsc varRed → a < e)

/-- the loop invariant before sample `i` -/
structure CubicInv (varRed : List K) (minObs : Nat) (i : Nat) (st : CubicSt K) : Prop where
  flat : st.intervals.flatten ++ st.intList = varRed.take i
  start : st.startIdx = st.intervals.flatten.length
  knots : st.tFinal.length = st.intervals.length
  rows : List.Forall₂ (RowsOf varRed minObs) st.intervals st.coeffs
  asc : 2 ≤ minObs → StrictAsc varRed → StrictAsc st.tFinal ∧
    ∀ t ∈ st.tFinal, ∃ j, varRed[j]? = some t ∧ j + 2 ≤ st.startIdx
  head : ∀ t, st.tFinal.head? = some t → varRed[0]? = some t

theorem forall₂_dropLast {α β : Type} {R : α → β → Prop} {l : List α} {c : List β}
    (h : List.Forall₂ R l c) : List.Forall₂ R l.dropLast c.dropLast := by
  induction h with
  | nil => exact .nil
  | @cons a b l c hab hr ih =>
    cases hr with
    | nil => exact .nil
    | cons h1 h2 => exact .cons hab ih

theorem forall₂_concat {α β : Type} {R : α → β → Prop} {l : List α} {c : List β} {a : α} {b : β}
    (h : List.Forall₂ R l c) (hab : R a b) : List.Forall₂ R (l ++ [a]) (c ++ [b]) := by
  induction h with
  | nil => exact .cons hab .nil
  | cons h1 _ ih => exact .cons h1 ih

theorem take_succ_drop {α : Type} {l ps : List α} {i : Nat} {p : α} (h : l.drop i = p :: ps) :
    l[i]? = some p ∧ l.take (i + 1) = l.take i ++ [p] ∧ l.drop (i + 1) = ps ∧ i < l.length := by
  have hi : i < l.length := by
    by_contra hc
    rw [List.drop_eq_nil_of_le (by omega)] at h
    cases h
  rw [List.drop_eq_getElem_cons hi] at h
  obtain ⟨rfl, rfl⟩ := List.cons.inj h
  exact ⟨by simp [hi], by rw [List.take_append_getElem hi], rfl, hi⟩

theorem strictAsc_lt {l : List K} (h : StrictAsc l) {i j : Nat} {a b : K} (hij : i < j)
    (ha : l[i]? = some a) (hb : l[j]? = some b) : a < b := by
  obtain ⟨hi, rfl⟩ := List.getElem?_eq_some_iff.1 ha
  obtain ⟨hj, rfl⟩ := List.getElem?_eq_some_iff.1 hb
  exact List.pairwise_iff_getElem.1 h i j hi hj hij

/-- an interval that is closed at sample `i` -/
theorem CubicInv.close {varRed : List K} {minObs i : Nat} {st : CubicSt K} {s p : K}
    (h : CubicInv varRed minObs i st) (hp : varRed[i]? = some p)
    (htake : varRed.take (i + 1) = varRed.take i ++ [p]) (hi : i < varRed.length)
    (hs : varRed[st.startIdx]? = some s) (hlen : minObs ≤ (st.intList ++ [p]).length) :
    CubicInv varRed minObs (i + 1)
      { tFinal := st.tFinal ++ [s]
        intervals := st.intervals ++ [st.intList ++ [p]]
        coeffs := st.coeffs ++ [(st.intList ++ [p]).map (fun x => computeC x s p)]
        intList := []
        startIdx := i + 1 } := by
  have hlf : st.intervals.flatten.length + st.intList.length = i := by
    have := congrArg List.length h.flat
    rw [List.length_append, List.length_take] at this
    omega
  refine ⟨?_, ?_, by simp [h.knots], forall₂_concat h.rows ⟨by simp, s, p, rfl, ?_⟩,
    ?_, ?_⟩
  · simp only [List.flatten_append, List.flatten_cons, List.flatten_nil, List.append_nil]
    rw [← List.append_assoc, h.flat, htake]
  · have h0 := h.start
    simp only [List.flatten_append, List.flatten_cons, List.flatten_nil, List.append_nil,
      List.length_append, List.length_singleton]
    omega
  · intro h2 hsa
    have h0 := h.start
    rw [List.length_append, List.length_singleton] at hlen
    exact strictAsc_lt hsa (by omega) hs hp
  · intro h2 hsa
    have h0 := h.start
    rw [List.length_append, List.length_singleton] at hlen
    obtain ⟨a1, a2⟩ := h.asc h2 hsa
    refine ⟨?_, ?_⟩
    · refine List.pairwise_append.2 ⟨a1, List.pairwise_singleton _ _, ?_⟩
      intro t ht u hu
      rw [List.mem_singleton] at hu
      subst hu
      obtain ⟨j, hj, hj2⟩ := a2 t ht
      exact strictAsc_lt hsa (by omega) hj hs
    · intro t ht
      rw [List.mem_append, List.mem_singleton] at ht
      rcases ht with ht | rfl
      · obtain ⟨j, hj, hj2⟩ := a2 t ht
        exact ⟨j, hj, by simp only; omega⟩
      · exact ⟨_, hs, by simp only; omega⟩
  · intro t ht
    have h0 := h.start
    by_cases hn : st.tFinal = []
    · simp only [hn, List.nil_append, List.head?_cons, Option.some.injEq] at ht
      have hk := h.knots
      rw [hn] at hk
      have : st.intervals = [] := List.length_eq_zero_iff.1 hk.symm
      rw [this] at h0
      rw [h0] at hs
      rw [← ht]
      exact hs
    · refine h.head t ?_
      obtain ⟨a, l, hal⟩ := List.exists_cons_of_ne_nil hn
      rw [hal] at ht ⊢
      exact ht

/-- a sample that closes no interval -/
theorem CubicInv.go {varRed : List K} {minObs i : Nat} {st : CubicSt K} {p : K}
    (h : CubicInv varRed minObs i st) (htake : varRed.take (i + 1) = varRed.take i ++ [p]) :
    CubicInv varRed minObs (i + 1)
      { tFinal := st.tFinal
        intervals := st.intervals
        coeffs := st.coeffs
        intList := st.intList ++ [p]
        startIdx := st.startIdx } :=
  ⟨by rw [htake, ← h.flat, List.append_assoc], h.start, h.knots, h.rows, h.asc, h.head⟩

/-- the last interval, too short, joined to the one before -/
theorem CubicInv.merge {varRed : List K} {minObs i : Nat} {st : CubicSt K} {t p : K} {prev : List K}
    (h : CubicInv varRed minObs i st) (hp : varRed[i]? = some p)
    (htake : varRed.take (i + 1) = varRed.take i ++ [p]) (hi : i < varRed.length)
    (ht : npGet varRed ((st.startIdx : Int) - 1) = .ok t) (hprev : pyLast st.intervals = .ok prev) :
    CubicInv varRed minObs (i + 1)
      { tFinal := st.tFinal
        intervals := st.intervals.dropLast ++ [prev ++ (st.intList ++ [p])]
        coeffs := st.coeffs.dropLast ++ [(prev ++ (st.intList ++ [p])).map (fun x => computeC x t p)]
        intList := []
        startIdx := i + 1 } := by
  have hlf : st.intervals.flatten.length + st.intList.length = i := by
    have := congrArg List.length h.flat
    rw [List.length_append, List.length_take] at this
    omega
  have hne : st.intervals ≠ [] := by
    intro hc
    rw [hc] at hprev
    simp [pyLast, npGet, pyPos] at hprev
  have hlast : st.intervals.dropLast ++ [prev] = st.intervals := by
    rw [pyLast_ne hne] at hprev
    rw [← Except.ok.inj hprev]
    exact List.dropLast_append_getLast hne
  have hflat : (st.intervals.dropLast ++ [prev ++ (st.intList ++ [p])]).flatten =
      st.intervals.flatten ++ (st.intList ++ [p]) := by
    conv_rhs => rw [← hlast]
    simp
  have hprevne : prev ≠ [] := by
    have hm : prev ∈ st.intervals := by rw [← hlast]; simp
    obtain ⟨k, hk, rfl⟩ := List.getElem_of_mem hm
    have := (List.forall₂_iff_get.1 h.rows).2 k hk (by rw [← h.rows.length_eq]; exact hk)
    exact this.1
  refine ⟨?_, ?_, ?_, forall₂_concat (forall₂_dropLast h.rows) ⟨by simp, t, p, rfl, ?_⟩,
    fun h2 hsa => ⟨(h.asc h2 hsa).1, fun t ht => ?_⟩, h.head⟩
  · simp only [List.append_nil]
    rw [hflat, ← List.append_assoc, h.flat, htake]
  · have h0 := h.start
    simp only [hflat, List.length_append, List.length_singleton]
    omega
  · have := List.length_pos_of_ne_nil hne
    have h0 := h.knots
    simp only [List.length_append, List.length_dropLast, List.length_singleton]
    omega
  · intro h2 hsa
    have h0 := h.start
    have hpos : 0 < st.intervals.flatten.length := by
      have := List.length_pos_of_ne_nil hprevne
      rw [← hlast]
      simp only [List.flatten_append, List.length_append, List.flatten_cons, List.flatten_nil,
        List.append_nil]
      omega
    have hlt : st.startIdx - 1 < varRed.length := by omega
    have : ((st.startIdx : Int) - 1) = ((st.startIdx - 1 : Nat) : Int) := by omega
    rw [this, npGet_nat hlt] at ht
    have ht' : varRed[st.startIdx - 1]? = some t := by
      rw [List.getElem?_eq_getElem hlt, Except.ok.inj ht]
    exact strictAsc_lt hsa (by omega) ht' hp
  · obtain ⟨j, hj, hj2⟩ := (h.asc h2 hsa).2 t ht
    have h0 := h.start
    exact ⟨j, hj, by simp only; omega⟩

theorem cubicLoop_inv {varRed : List K} {intSize : K} {minObs : Nat} (i : Nat) (ps : List K)
    (st : CubicSt K) (hps : varRed.drop i = ps) (hi : i ≤ varRed.length)
    (h : CubicInv varRed minObs i st)
    {st' : CubicSt K} (hr : cubicLoop varRed intSize minObs i ps st = .ok st') :
    CubicInv varRed minObs varRed.length st' ∧ (ps ≠ [] → st'.intList = []) := by
  induction ps generalizing i st with
  | nil =>
    obtain rfl := Except.ok.inj hr
    rw [List.drop_eq_nil_iff] at hps
    obtain rfl : i = varRed.length := by omega
    exact ⟨h, fun hc => absurd rfl hc⟩
  | cons p ps ih =>
    obtain ⟨e1, e2, e3, e4⟩ := take_succ_drop hps
    have hlf : st.intervals.flatten.length + st.intList.length = i := by
      have := congrArg List.length h.flat
      rw [List.length_append, List.length_take] at this
      omega
    have h0 := h.start
    have hsl : st.startIdx < varRed.length := by omega
    have hs : varRed[st.startIdx]? = some varRed[st.startIdx] := List.getElem?_eq_getElem hsl
    rw [cubicLoop] at hr
    rw [npGet_nat hsl] at hr
    simp only [bind, Except.bind] at hr
    have hfin : ∀ st2 : CubicSt K, st2.intList = [] → CubicInv varRed minObs (i + 1) st2 →
        cubicLoop varRed intSize minObs (i + 1) ps st2 = .ok st' →
        CubicInv varRed minObs varRed.length st' ∧ (p :: ps ≠ [] → st'.intList = []) := by
      intro st2 hst2 hinv hrun
      obtain ⟨a, b⟩ := ih (i + 1) st2 e3 (by omega) hinv hrun
      refine ⟨a, fun _ => ?_⟩
      by_cases hpe : ps = []
      · subst hpe
        obtain rfl := Except.ok.inj hrun
        exact hst2
      · exact b hpe
    by_cases hc : ((st.intList ++ [p]).length ≥ minObs ∧ p - varRed[st.startIdx] ≥ intSize) ∨
        decide (i + 1 = varRed.length) = true
    · rw [if_pos hc] at hr
      by_cases hc2 : decide (i + 1 = varRed.length) = true ∧ (st.intList ++ [p]).length < minObs
      · rw [if_pos hc2] at hr
        cases ht : npGet varRed ((st.startIdx : Int) - 1) with
        | error e => rw [ht] at hr; simp at hr
        | ok t =>
          cases hpv : pyLast st.intervals with
          | error e => rw [ht, hpv] at hr; simp at hr
          | ok prev =>
            rw [ht, hpv] at hr
            exact hfin _ rfl (h.merge e1 e2 e4 ht hpv) hr
      · rw [if_neg hc2] at hr
        refine hfin _ rfl (h.close e1 e2 e4 hs ?_) hr
        by_contra hcon
        rcases hc with hc | hc
        · omega
        · exact hc2 ⟨hc, by omega⟩
    · rw [if_neg hc] at hr
      have hne : ps ≠ [] := by
        rintro rfl
        rw [List.drop_eq_nil_iff] at e3
        exact hc (Or.inr (decide_eq_true (by omega)))
      obtain ⟨a, b⟩ := ih (i + 1) _ e3 (by omega)
        (h.go e2) hr
      exact ⟨a, fun _ => b hne⟩

/-- with enough samples the loop does not raise -/
theorem cubicLoop_ok {varRed : List K} {intSize : K} {minObs : Nat} (hm : minObs ≤ varRed.length)
    (i : Nat) (ps : List K) (st : CubicSt K) (hps : varRed.drop i = ps)
    (h : CubicInv varRed minObs i st) :
    ∃ st', cubicLoop varRed intSize minObs i ps st = .ok st' := by
  induction ps generalizing i st with
  | nil => exact ⟨st, rfl⟩
  | cons p ps ih =>
    obtain ⟨e1, e2, e3, e4⟩ := take_succ_drop hps
    have hlf : st.intervals.flatten.length + st.intList.length = i := by
      have := congrArg List.length h.flat
      rw [List.length_append, List.length_take] at this
      omega
    have h0 := h.start
    have hsl : st.startIdx < varRed.length := by omega
    have hs : varRed[st.startIdx]? = some varRed[st.startIdx] := List.getElem?_eq_getElem hsl
    rw [cubicLoop, npGet_nat hsl]
    simp only [bind, Except.bind]
    by_cases hc : ((st.intList ++ [p]).length ≥ minObs ∧ p - varRed[st.startIdx] ≥ intSize) ∨
        decide (i + 1 = varRed.length) = true
    · rw [if_pos hc]
      by_cases hc2 : decide (i + 1 = varRed.length) = true ∧ (st.intList ++ [p]).length < minObs
      · rw [if_pos hc2]
        have hne : st.intervals ≠ [] := by
          intro hcon
          have hlast := of_decide_eq_true hc2.1
          have := hc2.2
          rw [List.length_append, List.length_singleton] at this
          rw [hcon] at hlf
          simp only [List.flatten_nil, List.length_nil] at hlf
          omega
        have ht : ∃ t, npGet varRed ((st.startIdx : Int) - 1) = .ok t := by
          by_cases hz : st.startIdx = 0
          · rw [hz]
            have : varRed ≠ [] := List.ne_nil_of_length_pos (by omega)
            exact ⟨_, by simpa [pyLast] using pyLast_ne this⟩
          · rw [show ((st.startIdx : Int) - 1) = ((st.startIdx - 1 : Nat) : Int) by omega]
            exact ⟨_, npGet_nat (by omega)⟩
        obtain ⟨t, ht⟩ := ht
        rw [ht, pyLast_ne hne]
        exact ih (i + 1) _ e3 (h.merge e1 e2 e4 ht (pyLast_ne hne))
      · rw [if_neg hc2]
        refine ih (i + 1) _ e3 (h.close e1 e2 e4 hs ?_)
        by_contra hcon
        rcases hc with hc | hc
        · omega
        · exact hc2 ⟨hc, by omega⟩
    · rw [if_neg hc]
      exact ih (i + 1) _ e3 (h.go e2)

/-- with fewer samples than `min_obs` the last interval is too small and there is none to join -/
theorem cubicLoop_few {varRed : List K} {intSize : K} {minObs : Nat} (hm : varRed.length < minObs)
    (i : Nat) (ps : List K) (st : CubicSt K) (hps : varRed.drop i = ps) (hne : ps ≠ [])
    (h : CubicInv varRed minObs i st) (hint : st.intervals = []) :
    cubicLoop varRed intSize minObs i ps st = .error .indexError := by
  induction ps generalizing i st with
  | nil => exact absurd rfl hne
  | cons p ps ih =>
    obtain ⟨e1, e2, e3, e4⟩ := take_succ_drop hps
    have hlf : st.intervals.flatten.length + st.intList.length = i := by
      have := congrArg List.length h.flat
      rw [List.length_append, List.length_take] at this
      omega
    have h0 := h.start
    have hsl : st.startIdx < varRed.length := by omega
    rw [hint] at h0 hlf
    simp only [List.flatten_nil, List.length_nil] at h0 hlf
    rw [cubicLoop, npGet_nat hsl]
    simp only [bind, Except.bind]
    by_cases hlast : i + 1 = varRed.length
    · rw [if_pos (Or.inr (decide_eq_true hlast)), if_pos ⟨decide_eq_true hlast, by
        rw [List.length_append, List.length_singleton]; omega⟩, h0]
      have hv : varRed ≠ [] := List.ne_nil_of_length_pos (by omega)
      have : npGet varRed (((0 : Nat) : Int) - 1) = .ok (varRed.getLast hv) := by
        simpa [pyLast] using pyLast_ne hv
      rw [this, hint]
      rfl
    · rw [if_neg (by
        rintro (⟨hc, -⟩ | hc)
        · rw [List.length_append, List.length_singleton] at hc; omega
        · exact hlast (of_decide_eq_true hc))]
      refine ih (i + 1) _ e3 ?_ (h.go e2) hint
      rintro rfl
      rw [List.drop_eq_nil_iff] at e3
      omega

theorem CubicInv.init (varRed : List K) (minObs : Nat) :
    CubicInv varRed minObs 0 ⟨[], [], [], [], 0⟩ := 
  ⟨by simp, rfl, rfl, .nil, fun _ _ => ⟨List.Pairwise.nil, by simp⟩, by simp⟩

/-! ### The design matrix -/

theorem designRows_length (off : Nat) (cs : List (List (C4 K))) :
    (designRows off cs).length = cs.flatten.length := by
  induction cs generalizing off with
  | nil => rfl
  | cons c cs ih => simp [designRows, ih]

theorem rows_flatten_length {varRed : List K} {minObs : Nat} {iv : List (List K)}
    {cs : List (List (C4 K))} (h : List.Forall₂ (RowsOf varRed minObs) iv cs) :
    cs.flatten.length = iv.flatten.length := by
  induction h with
  | nil => rfl
  | cons h1 _ ih =>
    obtain ⟨_, a, e, rfl, _⟩ := h1
    simp [ih]

/-- every row begins at an even column, ends before the last one, and its two value coefficients
add up to one -/
theorem designRows_mem {varRed : List K} {minObs : Nat} {iv : List (List K)}
    {cs : List (List (C4 K))} (h : List.Forall₂ (RowsOf varRed minObs) iv cs) (off : Nat)
    (hoff : Even off) {r : Nat × C4 K} (hr : r ∈ designRows off cs) :
    Even r.1 ∧ r.1 + 3 < off + 2 * cs.length + 2 ∧ r.2.c0 + r.2.c2 = 1 := by
  induction h generalizing off with
  | nil => simp [designRows] at hr
  | @cons i c iv cs h1 _ ih =>
    obtain ⟨_, a, e, rfl, _⟩ := h1
    rw [designRows, List.mem_append] at hr
    rcases hr with hr | hr
    · simp only [List.map_map, List.mem_map, Function.comp] at hr
      obtain ⟨x, _, rfl⟩ := hr
      refine ⟨hoff, by simp only [List.length_cons]; omega, ?_⟩
      simp only [computeC]
      ring
    · obtain ⟨a1, a2, a3⟩ := ih (off + 2) (hoff.add (by decide)) hr
      refine ⟨a1, ?_, a3⟩
      simp only [List.length_cons]
      omega

theorem row_sum (r : Nat × C4 K) {n : Nat} (h : r.1 + 3 < n) (g : Nat → K) :
    ∑ j : Fin n, rowEntry r j.1 * g j.1 =
      r.2.c0 * g r.1 + r.2.c1 * g (r.1 + 1) + r.2.c2 * g (r.1 + 2) + r.2.c3 * g (r.1 + 3) := by
  rw [Fin.sum_univ_eq_sum_range (fun j => rowEntry r j * g j) n]
  have e : ∀ j, rowEntry r j * g j = (if j = r.1 then r.2.c0 * g j else 0) +
      (if j = r.1 + 1 then r.2.c1 * g j else 0) + (if j = r.1 + 2 then r.2.c2 * g j else 0) +
      (if j = r.1 + 3 then r.2.c3 * g j else 0) := by
    intro j
    unfold rowEntry
    by_cases h0 : j = r.1
    · simp [h0]
    · by_cases h1 : j = r.1 + 1
      · simp [h1]
      · by_cases h2 : j = r.1 + 2
        · simp [h2]
        · by_cases h3 : j = r.1 + 3
          · simp [h3]
          · simp [h0, h1, h2, h3]
  simp only [e, Finset.sum_add_distrib, Finset.sum_ite_eq', Finset.mem_range]
  rw [if_pos (by omega), if_pos (by omega), if_pos (by omega), if_pos h]

/-! ### The whole approximation -/

/-- what a returned approximation consists of -/
structure CubicResult (solve : Solver K) (functionOf values : List K) (intSize : K) (minObs : Nat)
    (r : Cubic K) (st : CubicSt K) (f0 last : K) (x : Fin (2 * st.coeffs.length + 2) → K)
    (l v : Fin (designRows 0 st.coeffs).length → K) : Prop where
  first : functionOf.head? = some f0
  lastEq : (functionOf.map (fun x => x - f0)).getLast? = some last
  loop : cubicLoop (functionOf.map (fun x => x - f0)) intSize minObs 0
    (functionOf.map (fun x => x - f0)) ⟨[], [], [], [], 0⟩ = .ok st
  inv : CubicInv (functionOf.map (fun x => x - f0)) minObs functionOf.length st
  done : st.intList = []
  nonempty : st.coeffs ≠ []
  rowsLen : (designRows 0 st.coeffs).length = functionOf.length
  valuesLen : values.length = functionOf.length
  lsq : sparseLeastSquares solve (designMatrix (designRows 0 st.coeffs) (2 * st.coeffs.length + 2))
    (fun i => values.getD i.1 0) = .ok (x, l, v)
  eq : r = ⟨List.ofFn x, List.ofFn l, List.ofFn v, (st.tFinal ++ [last]).map (fun t => t + f0)⟩

theorem cubicApprox_inv {solve : Solver K} {functionOf values : List K} {intSize : K} {minObs : Nat}
    {r : Cubic K} (h : cubicApprox solve functionOf values intSize minObs = .ok r) :
    ∃ st f0 last x l v, CubicResult solve functionOf values intSize minObs r st f0 last x l v := by
  unfold cubicApprox at h
  have hne : functionOf ≠ [] := by
    rintro rfl
    simp [pyFirst, npGet, pyPos, bind, Except.bind] at h
  have hne' : functionOf.map (fun x => x - functionOf.head hne) ≠ [] := by simpa using hne
  rw [pyFirst_ne hne] at h
  simp only [bind, Except.bind] at h
  rw [pyLast_ne hne'] at h
  simp only at h
  cases hst : arange 0 ((functionOf.map (fun x => x - functionOf.head hne)).getLast hne') intSize with
  | error e => rw [hst] at h; cases h
  | ok steps =>
    simp only [hst] at h
    cases hpl : pyLast steps with
    | error e => rw [hpl] at h; cases h
    | ok s =>
      simp only [hpl] at h
      cases hlp : cubicLoop (functionOf.map (fun x => x - functionOf.head hne)) intSize minObs 0
          (functionOf.map (fun x => x - functionOf.head hne)) ⟨[], [], [], [], 0⟩ with
      | error e => rw [hlp] at h; cases h
      | ok st =>
        simp only [hlp] at h
        split_ifs at h with h1 h2
        push Not at h1 h2
        simp only [pure, Except.pure] at h
        cases hls : sparseLeastSquares solve (designMatrix (designRows 0 st.coeffs)
            (2 * st.coeffs.length + 2)) (fun i => values.getD i.1 0) with
        | error e => rw [hls] at h; cases h
        | ok q =>
          obtain ⟨x, l, v⟩ := q
          simp only [hls, Except.ok.injEq] at h
          obtain ⟨a, b⟩ := cubicLoop_inv 0 _ _ (by simp) (by simp) (CubicInv.init _ _) hlp
          rw [List.length_map] at a
          have hco : st.coeffs ≠ [] := by
            intro hc
            rw [hc] at h1
            simp only [designRows, List.length_nil] at h1
            exact hne (List.length_eq_zero_iff.1 h1.symm)
          exact ⟨st, _, _, x, l, v, by rw [List.head?_eq_some_head hne],
            List.getLast?_eq_some_getLast hne', hlp, a, b hne', hco, h1, h2,
            hls, h.symm⟩

/-- an approximated value in terms of the parameters -/
theorem cubic_est {solve : Solver K} (hs : IsSolver solve) {functionOf values : List K} {intSize : K}
    {minObs : Nat} {r : Cubic K} {st : CubicSt K} {f0 last : K}
    {x : Fin (2 * st.coeffs.length + 2) → K} {l v : Fin (designRows 0 st.coeffs).length → K}
    (h : CubicResult solve functionOf values intSize minObs r st f0 last x l v) {i : Nat}
    {row : Nat × C4 K} (hrow : (designRows 0 st.coeffs)[i]? = some row) :
    r.estObs[i]? = some (row.2.c0 * r.parameters.getD row.1 0
      + row.2.c1 * r.parameters.getD (row.1 + 1) 0 + row.2.c2 * r.parameters.getD (row.1 + 2) 0
      + row.2.c3 * r.parameters.getD (row.1 + 3) 0) := by
  obtain ⟨e1, _, _, _⟩ := C30_least_squares_unweighted solve hs _ _ _ _ _ (Or.inr h.lsq) 0
  obtain ⟨hi, rfl⟩ := List.getElem?_eq_some_iff.1 hrow
  have hm := designRows_mem h.inv.rows 0 (by decide)
    (List.getElem_mem (l := designRows 0 st.coeffs) hi)
  rw [Nat.zero_add] at hm
  have hsum := row_sum (designRows 0 st.coeffs)[i] hm.2.1 (fun j => r.parameters.getD j 0)
  rw [← hsum]
  conv_lhs => rw [h.eq]
  rw [List.getElem?_ofFn, dif_pos hi, e1]
  simp only [Matrix.mulVec, dotProduct, designMatrix, Matrix.of_apply]
  congr 1
  refine Finset.sum_congr rfl (fun j _ => ?_)
  rw [h.eq, List.getD_eq_getElem?_getD, List.getElem?_ofFn, dif_pos j.2]
  rfl

/-- if some parameters reproduce the values, the fit does -/
theorem cubic_exact {solve : Solver K} (hs : IsSolver solve) {functionOf values : List K} {intSize : K}
    {minObs : Nat} {r : Cubic K} {st : CubicSt K} {f0 last : K}
    {x : Fin (2 * st.coeffs.length + 2) → K} {l v : Fin (designRows 0 st.coeffs).length → K}
    (h : CubicResult solve functionOf values intSize minObs r st f0 last x l v) (g : Nat → K)
    (hg : ∀ (i : Nat) row val, (designRows 0 st.coeffs)[i]? = some row → values[i]? = some val →
      row.2.c0 * g row.1 + row.2.c1 * g (row.1 + 1) + row.2.c2 * g (row.1 + 2)
        + row.2.c3 * g (row.1 + 3) = val) : r.estObs = values := by
  obtain ⟨e1, e2, _, e4⟩ := C30_least_squares_unweighted solve hs _ _ _ _ _ (Or.inr h.lsq)
    (fun j : Fin (2 * st.coeffs.length + 2) => g j.1)
  have hz : ∀ i : Fin (designRows 0 st.coeffs).length,
      (Matrix.mulVec (designMatrix (designRows 0 st.coeffs) (2 * st.coeffs.length + 2))
        (fun j : Fin (2 * st.coeffs.length + 2) => g j.1) -
          fun i : Fin (designRows 0 st.coeffs).length => values.getD i.1 0) i = 0 := by
    intro i
    have hi := i.2
    have hval : i.1 < values.length := by rw [h.valuesLen, ← h.rowsLen]; exact hi
    rw [Pi.sub_apply]
    simp only [Matrix.mulVec, dotProduct, designMatrix, Matrix.of_apply]
    have hm := designRows_mem h.inv.rows 0 (by decide)
      (List.getElem_mem (l := designRows 0 st.coeffs) hi)
    rw [Nat.zero_add] at hm
    have := row_sum (designRows 0 st.coeffs)[i] hm.2.1 g
    have hgi := hg i.1 _ values[i.1] (List.getElem?_eq_getElem hi) (List.getElem?_eq_getElem hval)
    rw [this]
    refine sub_eq_zero.2 (hgi.trans ?_)
    simp [List.getD_eq_getElem?_getD, hval]
  have hv : ∀ i, v i = 0 := by
    have h0 : ∑ i, v i * v i = 0 := le_antisymm
      (e4.trans_eq (Finset.sum_eq_zero (fun i _ => by rw [hz i, mul_zero]))) (Finset.sum_nonneg (fun i _ => mul_self_nonneg _))
    intro i
    have := (Finset.sum_eq_zero_iff_of_nonneg (fun i _ => mul_self_nonneg (v i))).1 h0 i (Finset.mem_univ _)
    exact mul_self_eq_zero.1 this
  rw [h.eq]
  apply List.ext_getElem?
  intro k
  rw [List.getElem?_ofFn]
  by_cases hk : k < (designRows 0 st.coeffs).length
  · have hval : k < values.length := by rw [h.valuesLen, ← h.rowsLen]; exact hk
    rw [dif_pos hk, List.getElem?_eq_getElem hval]
    have := congrFun e2 ⟨k, hk⟩
    rw [hv] at this
    have := sub_eq_zero.1 this.symm
    rw [this]
    simp [List.getD_eq_getElem?_getD, hval]
  · rw [dif_neg hk, List.getElem?_eq_none]
    rw [h.valuesLen, ← h.rowsLen]
    omega

end TC
