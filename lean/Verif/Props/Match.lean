import Verif.Proofs.Match
import Mathlib.Algebra.Order.Field.Rat
import Mathlib.Algebra.Order.Group.Abs
import Mathlib.Tactic.Linarith
/-!
# C33 - C37: the nearest-neighbour matcher
-/
namespace TC
set_option linter.unusedSectionVars false
variable {K P : Type} [Field K] [LinearOrder K]

/-- what the query says about the neighbours used by the matcher -/
theorem closestOf_found {dist : P → P → K} {query : KdQuery K P} (hq : IsNearestQuery dist query)
    {ref test : List P} {m : K} (hm : 0 ≤ m) {t r : Nat}
    (h : (closestOf query ref test m)[t]? = some (some r)) :
    ∃ p q, test[t]? = some p ∧ ref[r]? = some q ∧ Nearest dist ref p q ∧ Within dist m p q := by
  unfold closestOf at h
  split_ifs at h with h0
  · have ht : t < test.length := by
      rw [← hq.length ref none test]
      exact (List.getElem?_eq_some_iff.1 h).1
    have hp := List.getElem?_eq_getElem ht
    obtain ⟨q, h1, h2, -⟩ := hq.found ref none test (by simp) t _ r hp h
    exact ⟨_, q, hp, h1, ⟨List.mem_of_getElem? h1, h2⟩, Or.inl h0⟩
  · have ht : t < test.length := by
      rw [← hq.length ref (some m) test]
      exact (List.getElem?_eq_some_iff.1 h).1
    have hp := List.getElem?_eq_getElem ht
    obtain ⟨q, h1, h2, h3⟩ := hq.found ref (some m) test
      (by intro m' hm'; obtain rfl := Option.some.inj hm'; exact lt_of_le_of_ne hm (Ne.symm h0))
      t _ r hp h
    exact ⟨_, q, hp, h1, ⟨List.mem_of_getElem? h1, h2⟩, Or.inr (h3 m rfl)⟩

theorem closestOf_exists {dist : P → P → K} {query : KdQuery K P} (hq : IsNearestQuery dist query)
    {ref test : List P} {m : K} (hm : 0 ≤ m) {t : Nat} {p q : P} (hp : test[t]? = some p)
    (hqr : q ∈ ref) (hw : Within dist m p q) :
    ∃ r, (closestOf query ref test m)[t]? = some (some r) := by
  have ht := (List.getElem?_eq_some_iff.1 hp).1
  unfold closestOf
  split_ifs with h0
  · have hlt : t < (query ref none test).length := by rw [hq.length]; exact ht
    rw [List.getElem?_eq_getElem hlt]
    cases hc : (query ref none test)[t] with
    | some r => exact ⟨r, rfl⟩
    | none =>
      obtain ⟨m', h1, -⟩ := hq.missing ref none test (by simp) t p hp
        (by rw [List.getElem?_eq_getElem hlt, hc]) q hqr
      simp at h1
  · have hlt : t < (query ref (some m) test).length := by rw [hq.length]; exact ht
    rw [List.getElem?_eq_getElem hlt]
    cases hc : (query ref (some m) test)[t] with
    | some r => exact ⟨r, rfl⟩
    | none =>
      obtain ⟨m', h1, h2⟩ := hq.missing ref (some m) test
        (by intro m' hm'; obtain rfl := Option.some.inj hm'; exact lt_of_le_of_ne hm (Ne.symm h0))
        t p hp (by rw [List.getElem?_eq_getElem hlt, hc]) q hqr
      obtain rfl := Option.some.inj h1
      rcases hw with hw | hw
      · exact absurd hw h0
      · exact absurd h2 (not_le.2 hw)

theorem kdMatcher_ok {query : KdQuery K P} {ref test : List P} {m : K} {refs tests : List Nat}
    (h : kdMatcher query ref test m = .ok (refs, tests)) :
    refs ≠ [] ∧ refs.length = tests.length ∧ refs.Pairwise (· < ·) ∧
      (∀ r, r ∈ refs ↔ ∃ t : Nat, (closestOf query ref test m)[t]? = some (some r)) ∧
      ∀ (k r t : Nat), refs[k]? = some r → tests[k]? = some t →
        (closestOf query ref test m)[t]? = some (some r) ∧
        ∀ t' < t, (closestOf query ref test m)[t']? ≠ some (some r) := by
  have hne : test ≠ [] := by
    rintro rfl
    simp [kdMatcher, bind, Except.bind, throw, throwThe, MonadExceptOf.throw] at h
  by_cases hex : ∃ t r : Nat, (closestOf query ref test m)[t]? = some (some r)
  · obtain ⟨refs', tests', h', hrest⟩ := kdMatcher_some query ref test m hne hex
    rw [h] at h'
    obtain ⟨rfl, rfl⟩ := Prod.mk.inj (Except.ok.inj h')
    exact hrest
  · push Not at hex
    rw [kdMatcher_none query ref test m hne hex] at h
    simp at h

/-- **C33.** Every reported pair consists of a test sample and a reference sample that is closest
to it among all reference samples, and within the limit if there is one. -/
theorem C33_matches_are_nearest_within_limit {dist : P → P → K} {query : KdQuery K P}
    (hq : IsNearestQuery dist query) {ref test : List P} {m : K} (hm : 0 ≤ m)
    {refs tests : List Nat} (h : kdMatcher query ref test m = .ok (refs, tests))
    {k r t : Nat} (hr : refs[k]? = some r) (ht : tests[k]? = some t) :
    ∃ p q, test[t]? = some p ∧ ref[r]? = some q ∧ Nearest dist ref p q ∧ Within dist m p q :=
  closestOf_found hq hm ((kdMatcher_ok h).2.2.2.2 k r t hr ht).1

/-- **C34.** The two index lists have equal length, contain no index twice, the reference indices
ascend, and all indices are valid. -/
theorem C34_matches_are_one_to_one {dist : P → P → K} {query : KdQuery K P}
    (hq : IsNearestQuery dist query) {ref test : List P} {m : K} (hm : 0 ≤ m)
    {refs tests : List Nat} (h : kdMatcher query ref test m = .ok (refs, tests)) :
    refs.length = tests.length ∧ refs.Pairwise (· < ·) ∧ tests.Nodup ∧
      (∀ r ∈ refs, r < ref.length) ∧ (∀ t ∈ tests, t < test.length) := by
  obtain ⟨-, h1, h2, h3, h4⟩ := kdMatcher_ok h
  refine ⟨h1, h2, ?_, ?_, ?_⟩
  · rw [List.Nodup, List.pairwise_iff_getElem]
    intro i j hi hj hij he
    have hri : refs[i]? = some refs[i] := List.getElem?_eq_getElem (h1 ▸ hi)
    have hrj : refs[j]? = some refs[j] := List.getElem?_eq_getElem (h1 ▸ hj)
    have hi' := (h4 i _ _ hri (List.getElem?_eq_getElem hi)).1
    have hj' := (h4 j _ _ hrj (List.getElem?_eq_getElem hj)).1
    rw [he, hj'] at hi'
    have := Option.some.inj (Option.some.inj hi')
    have hlt := List.pairwise_iff_getElem.1 h2 i j (h1 ▸ hi) (h1 ▸ hj) hij
    omega
  · intro r hr
    obtain ⟨t, ht⟩ := (h3 r).1 hr
    obtain ⟨_, q, -, hq', -⟩ := closestOf_found hq hm ht
    exact (List.getElem?_eq_some_iff.1 hq').1
  · intro t ht
    obtain ⟨k, hk, rfl⟩ := List.getElem_of_mem ht
    obtain ⟨p, _, hp, -⟩ := closestOf_found hq hm
      (h4 k _ _ (List.getElem?_eq_getElem (h1 ▸ hk)) (List.getElem?_eq_getElem hk)).1
    exact (List.getElem?_eq_some_iff.1 hp).1

/-- **C35**, failure: `ValueError` is raised exactly if no test sample has a reference sample
within the limit; otherwise the call returns. -/
theorem C35_raises_iff_nothing_in_reach {dist : P → P → K} {query : KdQuery K P}
    (hq : IsNearestQuery dist query) {ref test : List P} {m : K} (hm : 0 ≤ m) (hne : test ≠ []) :
    (kdMatcher query ref test m = .error .valueError ↔
      ∀ p ∈ test, ∀ q ∈ ref, ¬ Within dist m p q) ∧
    ((∃ p ∈ test, ∃ q ∈ ref, Within dist m p q) →
      ∃ refs tests, kdMatcher query ref test m = .ok (refs, tests) ∧ refs ≠ []) := by
  have key : (∃ t r : Nat, (closestOf query ref test m)[t]? = some (some r)) ↔
      ∃ p ∈ test, ∃ q ∈ ref, Within dist m p q := by
    constructor
    · rintro ⟨t, r, h⟩
      obtain ⟨p, q, h1, h2, -, h4⟩ := closestOf_found hq hm h
      exact ⟨p, List.mem_of_getElem? h1, q, List.mem_of_getElem? h2, h4⟩
    · rintro ⟨p, hp, q, hq', hw⟩
      obtain ⟨t, ht, rfl⟩ := List.getElem_of_mem hp
      exact ⟨t, closestOf_exists hq hm (List.getElem?_eq_getElem ht) hq' hw⟩
  constructor
  · constructor
    · intro he p hp q hq' hw
      obtain ⟨refs, tests, h, -⟩ := kdMatcher_some query ref test m hne (key.2 ⟨p, hp, q, hq', hw⟩)
      rw [he] at h
      simp at h
    · intro hno
      apply kdMatcher_none _ _ _ _ hne
      intro t r hc
      obtain ⟨p, hp, q, hq', hw⟩ := key.1 ⟨t, r, hc⟩
      exact hno p hp q hq' hw
  · intro hex
    obtain ⟨refs, tests, h, h', -⟩ := kdMatcher_some query ref test m hne (key.2 hex)
    exact ⟨refs, tests, h, h'⟩

/-- **C35**, completeness: for every test sample with a reference sample in reach, a reference
sample closest to it is in the result. -/
theorem C35_no_neighbour_is_forgotten {dist : P → P → K} {query : KdQuery K P}
    (hq : IsNearestQuery dist query) {ref test : List P} {m : K} (hm : 0 ≤ m)
    {refs tests : List Nat} (h : kdMatcher query ref test m = .ok (refs, tests))
    {p : P} (hp : p ∈ test) (hex : ∃ q ∈ ref, Within dist m p q) :
    ∃ r ∈ refs, ∃ q, ref[r]? = some q ∧ Nearest dist ref p q := by
  obtain ⟨t, ht, rfl⟩ := List.getElem_of_mem hp
  obtain ⟨q, hq', hw⟩ := hex
  obtain ⟨r, hr⟩ := closestOf_exists hq hm (List.getElem?_eq_getElem ht) hq' hw
  obtain ⟨p', q', h1, h2, h3, -⟩ := closestOf_found hq hm hr
  rw [List.getElem?_eq_getElem ht] at h1
  obtain rfl := Option.some.inj h1
  exact ⟨r, ((kdMatcher_ok h).2.2.2.1 r).2 ⟨t, hr⟩, q', h2, h3⟩

/-- **C36**, what holds: a test sample stored before the reported one does not have the reported
reference sample as its only closest one; so if the test samples for which a reference sample is
a closest one are stored in order of increasing distance, the reported one is the closest.
Missing: the claim itself, see `C36_closest_candidate_is_not_kept`. -/
theorem C36_first_candidate_is_kept_partial {dist : P → P → K} {query : KdQuery K P}
    (hq : IsNearestQuery dist query) {ref test : List P} {m : K} (hm : 0 ≤ m)
    {refs tests : List Nat} (h : kdMatcher query ref test m = .ok (refs, tests))
    {k r t t' : Nat} {p' q : P} (hr : refs[k]? = some r) (ht : tests[k]? = some t)
    (hp' : test[t']? = some p') (hqr : ref[r]? = some q) (hw : Within dist m p' q)
    (huniq : ∀ (j : Nat) q', ref[j]? = some q' → j ≠ r → dist p' q < dist p' q') :
    t ≤ t' ∧
    ((∀ (i : Nat) (a b : P), i ≤ t' → test[i]? = some a → test[t']? = some b → Nearest dist ref a q →
      dist a q ≤ dist b q) → ∃ p, test[t]? = some p ∧ dist p q ≤ dist p' q) := by
  obtain ⟨-, -, -, -, h4⟩ := kdMatcher_ok h
  obtain ⟨r', hr'⟩ := closestOf_exists hq hm hp' (List.mem_of_getElem? hqr) hw
  obtain ⟨p'', q', h1, h2, h3, -⟩ := closestOf_found hq hm hr'
  rw [hp'] at h1
  obtain rfl := Option.some.inj h1
  have hrr : r' = r := by
    by_contra hne
    exact absurd (h3.2 q (List.mem_of_getElem? hqr)) (not_le.2 (huniq r' q' h2 hne))
  subst hrr
  have hle : t ≤ t' := by
    by_contra hlt
    exact (h4 k r' t hr ht).2 t' (by omega) hr'
  refine ⟨hle, fun hs => ?_⟩
  obtain ⟨p, q'', h5, h6, h7, -⟩ := closestOf_found hq hm (h4 k r' t hr ht).1
  rw [hqr] at h6
  obtain rfl := Option.some.inj h6
  exact ⟨p, h5, hs t p p' hle h5 hp' h7⟩

/-- **C36 is false of the code**: with one reference sample at 0 and test samples at 1 and 0, any
search tree leads to the pair (reference 0, test 1), although the other test sample coincides with
the reference sample. -/
theorem C36_closest_candidate_is_not_kept {K : Type} [Field K] [LinearOrder K]
    [IsStrictOrderedRing K] {query : KdQuery K K}
    (hq : IsNearestQuery (fun a b => |a - b|) query) :
    kdMatcher query [0] [1, 0] 0 = .ok ([0], [0]) := by
  have hex : ∀ t : Nat, t < 2 → (closestOf query [(0:K)] [1, 0] 0)[t]? = some (some 0) := by
    intro t ht
    have hp : ∃ p, ([1, 0] : List K)[t]? = some p := ⟨_, List.getElem?_eq_getElem ht⟩
    obtain ⟨p, hp⟩ := hp
    obtain ⟨r, hr⟩ := closestOf_exists hq (le_refl 0) hp (List.mem_singleton.2 rfl)
      (Or.inl rfl)
    obtain ⟨_, q, -, h2, -⟩ := closestOf_found hq (le_refl 0) hr
    have h3 := (List.getElem?_eq_some_iff.1 h2).1
    rw [List.length_singleton, Nat.lt_one_iff] at h3
    rw [h3] at hr
    exact hr
  obtain ⟨refs, tests, h, h0, h1, h2, h3, h4⟩ := kdMatcher_some query [0] [1, 0] 0 (by simp)
    ⟨0, 0, hex 0 (by omega)⟩
  rw [h]
  have hall : ∀ r ∈ refs, r = 0 := by
    intro r hr
    obtain ⟨t, ht⟩ := (h3 r).1 hr
    obtain ⟨_, q, -, hq', -⟩ := closestOf_found hq (le_refl 0) ht
    have := (List.getElem?_eq_some_iff.1 hq').1
    simpa using this
  match refs, tests, h0, h1, h2, hall, h4 with
  | [a], [b], _, _, _, hall, h4 =>
    obtain rfl := hall a (by simp)
    have := (h4 0 0 b rfl rfl).2
    have hb : b = 0 := by
      by_contra hb
      exact this 0 (by omega) (hex 0 (by omega))
    rw [hb]
  | a :: b :: l, _, _, _, h2, hall, _ =>
    have h5 := (List.pairwise_cons.1 h2).1 b (by simp)
    have h6 := hall b (by simp)
    have h7 := hall a (by simp)
    omega

/-- **C37**, what holds: the matched length is at most the length of either input, and it is the
length of the test trajectory if every test sample has a reference sample in reach and no two
test samples share a closest one.  Missing: the documented claim, which
`C36_closest_candidate_is_not_kept` refutes (two test samples, one match). -/
theorem C37_matched_length_partial {dist : P → P → K} {query : KdQuery K P}
    (hq : IsNearestQuery dist query) {ref test : List P} {m : K} (hm : 0 ≤ m)
    {refs tests : List Nat} (h : kdMatcher query ref test m = .ok (refs, tests)) :
    refs.length = tests.length ∧ tests.length ≤ test.length ∧ refs.length ≤ ref.length ∧
    ((∀ p ∈ test, ∃ q ∈ ref, Within dist m p q) →
      (∀ (i j : Nat) a b (r : Nat) q, test[i]? = some a → test[j]? = some b → ref[r]? = some q →
        Nearest dist ref a q → Nearest dist ref b q → i = j) → tests.length = test.length) := by
  obtain ⟨h1, h2, h3, h4, h5⟩ := C34_matches_are_one_to_one hq hm h
  have hnd : refs.Nodup := h2.imp (fun h => Nat.ne_of_lt h)
  have len_le : ∀ {l : List Nat} {n : Nat}, l.Nodup → (∀ x ∈ l, x < n) → l.length ≤ n := by
    intro l n hl hx
    have := (List.subperm_of_subset hl (fun x hx' => List.mem_range.2 (hx x hx'))).length_le
    simpa using this
  refine ⟨h1, len_le h3 h5, len_le hnd h4, ?_⟩
  intro hall hinj
  apply le_antisymm (len_le h3 h5)
  have hsub : List.range test.length ⊆ tests := by
    intro t ht
    have ht := List.mem_range.1 ht
    obtain ⟨q, hq', hw⟩ := hall test[t] (List.getElem_mem ht)
    obtain ⟨r, hr⟩ := closestOf_exists hq hm (List.getElem?_eq_getElem ht) hq' hw
    have hmem := ((kdMatcher_ok h).2.2.2.1 r).2 ⟨t, hr⟩
    obtain ⟨k, hk, hk'⟩ := List.getElem_of_mem hmem
    have htk := List.getElem?_eq_getElem (h1 ▸ hk : k < tests.length)
    have hc := ((kdMatcher_ok h).2.2.2.2 k r _ (by rw [List.getElem?_eq_getElem hk, hk']) htk).1
    obtain ⟨a, qa, ha1, ha2, ha3, -⟩ := closestOf_found hq hm hr
    obtain ⟨b, qb, hb1, hb2, hb3, -⟩ := closestOf_found hq hm hc
    rw [ha2] at hb2
    obtain rfl := Option.some.inj hb2
    rw [hinj t _ a b r qa ha1 hb1 ha2 ha3 hb3]
    exact List.getElem_mem _
  have := (List.subperm_of_subset List.nodup_range hsub).length_le
  simpa using this

/-- **C37 is false of the code**: here the test trajectory has two samples, the result one. -/
theorem C37_test_length_is_not_kept {K : Type} [Field K] [LinearOrder K] [IsStrictOrderedRing K]
    {query : KdQuery K K} (hq : IsNearestQuery (fun a b => |a - b|) query) :
    ∃ ref test refs tests, kdMatcher query ref test 0 = .ok (refs, tests) ∧
      tests.length < test.length :=
  ⟨[0], [1, 0], [0], [0], C36_closest_candidate_is_not_kept hq, by simp⟩

/-! ### The hypotheses are met: exhaustive search is a nearest-neighbour query -/

/-- position and distance of a closest element -/
def bestFrom (dist : P → P → K) (p : P) : List P → Nat → Option (Nat × K)
  | [], _ => none
  | q :: qs, i =>
    match bestFrom dist p qs (i + 1) with
    | none => some (i, dist p q)
    | some (j, d) => if dist p q ≤ d then some (i, dist p q) else some (j, d)

theorem bestFrom_none {dist : P → P → K} {p : P} {l : List P} {i : Nat}
    (h : bestFrom dist p l i = none) : l = [] := by
  cases l with
  | nil => rfl
  | cons q qs =>
    unfold bestFrom at h
    split at h
    · simp at h
    · split_ifs at h

theorem bestFrom_some {dist : P → P → K} {p : P} {l : List P} {i j : Nat} {d : K}
    (h : bestFrom dist p l i = some (j, d)) :
    i ≤ j ∧ ∃ q, l[j - i]? = some q ∧ dist p q = d ∧ ∀ q' ∈ l, d ≤ dist p q' := by
  induction l generalizing i j d with
  | nil => simp [bestFrom] at h
  | cons q qs ih =>
    unfold bestFrom at h
    split at h
    · next hn =>
      have := bestFrom_none hn
      subst this
      simp only [Option.some.injEq, Prod.mk.injEq] at h
      obtain ⟨rfl, rfl⟩ := h
      exact ⟨le_refl _, q, by simp, rfl, by simp⟩
    · next j' d' hs =>
      obtain ⟨h1, q', h2, h3, h4⟩ := ih hs
      split_ifs at h with hc
      · simp only [Option.some.injEq, Prod.mk.injEq] at h
        obtain ⟨rfl, rfl⟩ := h
        refine ⟨le_refl _, q, by simp, rfl, ?_⟩
        intro x hx
        rcases List.mem_cons.1 hx with rfl | hx
        · exact le_refl _
        · exact le_trans hc (h4 x hx)
      · simp only [Option.some.injEq, Prod.mk.injEq] at h
        obtain ⟨rfl, rfl⟩ := h
        refine ⟨by omega, q', ?_, h3, ?_⟩
        · rw [show j' - i = (j' - (i + 1)) + 1 by omega, List.getElem?_cons_succ]
          exact h2
        · intro x hx
          rcases List.mem_cons.1 hx with rfl | hx
          · exact le_of_lt (not_le.1 hc)
          · exact h4 x hx

/-- the answer to one query point -/
def bestWithin (dist : P → P → K) (ref : List P) (b : Option K) (p : P) : Option Nat :=
  match bestFrom dist p ref 0, b with
  | none, _ => none
  | some (j, _), none => some j
  | some (j, d), some m => if d < m then some j else none

/-- exhaustive search -/
def bruteQuery (dist : P → P → K) : KdQuery K P :=
  fun ref b test => test.map (bestWithin dist ref b)

theorem bruteQuery_isNearest (dist : P → P → K) : IsNearestQuery dist (bruteQuery dist) where
  length ref b test := by simp [bruteQuery]
  found ref b test hb i p r hp h := by
    simp only [bruteQuery, List.getElem?_map, hp, Option.map_some, Option.some.injEq,
      bestWithin] at h
    split at h
    · simp at h
    · next j d hs =>
      simp only [Option.some.injEq] at h
      subst h
      obtain ⟨-, q, h1, h2, h3⟩ := bestFrom_some hs
      exact ⟨q, by simpa using h1, fun q' hq' => by rw [h2]; exact h3 q' hq', by simp⟩
    · next j d m hs =>
      split_ifs at h with hc
      simp only [Option.some.injEq] at h
      subst h
      obtain ⟨-, q, h1, h2, h3⟩ := bestFrom_some hs
      refine ⟨q, by simpa using h1, fun q' hq' => by rw [h2]; exact h3 q' hq', ?_⟩
      intro m' hm'
      obtain rfl := Option.some.inj hm'
      rw [h2]; exact hc
  missing ref b test hb i p hp h := by
    simp only [bruteQuery, List.getElem?_map, hp, Option.map_some, Option.some.injEq,
      bestWithin] at h
    split at h
    · next hs =>
      have := bestFrom_none hs
      subst this
      simp
    · simp at h
    · next j d m hs =>
      split_ifs at h with hc
      obtain ⟨-, q, h1, h2, h3⟩ := bestFrom_some hs
      intro q' hq'
      exact ⟨m, rfl, le_trans (not_lt.1 hc) (h3 q' hq')⟩

/-- the query of the examples -/
def exQuery : KdQuery ℚ ℚ := bruteQuery (fun a b => |a - b|)

example : kdMatcher exQuery [0, 1, 2, 5] [21/10, 1/10, 19/10, 9] 1 = .ok ([0, 2], [1, 0]) := by
  decide +kernel
example : kdMatcher exQuery [0, 1] [7, 9] 1 = .error .valueError := by decide +kernel
/-- all samples matched, in another order (hypothesis of `C37_matched_length_partial`) -/
example : kdMatcher exQuery [0, 1, 2] [2, 0] 1 = .ok ([0, 2], [1, 0]) := by decide +kernel

end TC
