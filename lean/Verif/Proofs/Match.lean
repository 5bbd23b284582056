import Verif.Spec.Match
import Verif.Proofs.Perm
/-!
# The nearest-neighbour matcher in closed form
-/
namespace TC
set_option linter.unusedSectionVars false
variable {K P : Type} [Field K] [LinearOrder K]

theorem mem_foundPairs {c : List (Option Nat)} {i r t : Nat} :
    (r, t) ∈ foundPairs c i ↔ i ≤ t ∧ c[t - i]? = some (some r) := by
  induction c generalizing i with
  | nil => simp [foundPairs]
  | cons a c ih =>
    have hstep : ∀ t, i + 1 ≤ t → (a :: c)[t - i]? = c[t - (i + 1)]? := by
      intro t ht
      rw [show t - i = (t - (i + 1)) + 1 by omega, List.getElem?_cons_succ]
    cases a with
    | none =>
      simp only [foundPairs, ih]
      constructor
      · rintro ⟨h1, h2⟩
        exact ⟨by omega, by rw [hstep t h1]; exact h2⟩
      · rintro ⟨h1, h2⟩
        by_cases h : t = i
        · subst h; simp at h2
        · exact ⟨by omega, by rw [hstep t (by omega)] at h2; exact h2⟩
    | some r' =>
      simp only [foundPairs, List.mem_cons, ih, Prod.mk.injEq]
      constructor
      · rintro (⟨rfl, rfl⟩ | ⟨h1, h2⟩)
        · simp
        · exact ⟨by omega, by rw [hstep t h1]; exact h2⟩
      · rintro ⟨h1, h2⟩
        by_cases h : t = i
        · subst h; simp at h2; exact Or.inl ⟨h2.symm, rfl⟩
        · exact Or.inr ⟨by omega, by rw [hstep t (by omega)] at h2; exact h2⟩

theorem foundPairs_sorted (c : List (Option Nat)) (i : Nat) :
    ((foundPairs c i).map Prod.snd).Pairwise (· < ·) := by
  induction c generalizing i with
  | nil => simp [foundPairs]
  | cons a c ih =>
    cases a with
    | none => exact ih (i + 1)
    | some r =>
      simp only [foundPairs, List.map_cons, List.pairwise_cons]
      refine ⟨?_, ih (i + 1)⟩
      intro t ht
      obtain ⟨⟨r', t'⟩, hm, rfl⟩ := List.mem_map.1 ht
      have := (mem_foundPairs.1 hm).1
      simp only
      omega

theorem uniqueIndex_inRange (l : List Nat) : InRange l.length (uniqueIndex l) := by
  intro i hi
  unfold uniqueIndex at hi
  obtain ⟨v, hv, rfl⟩ := List.mem_map.1 hi
  rw [mem_npSort, List.mem_dedup] at hv
  exact List.findIdx_lt_length_of_exists ⟨v, hv, by simp⟩

theorem findIdx_getElem {l : List Nat} {v : Nat} (hv : v ∈ l) :
    l[l.findIdx (fun u => decide (u = v))]? = some v := by
  have h : l.findIdx (fun u => decide (u = v)) < l.length :=
    List.findIdx_lt_length_of_exists ⟨v, hv, by simp⟩
  rw [List.getElem?_eq_getElem h]
  have := List.findIdx_getElem (w := h)
  simpa using this

theorem sel_uniqueIndex (l : List Nat) : sel l (uniqueIndex l) = npSort l.dedup := by
  unfold sel uniqueIndex
  rw [List.filterMap_map]
  have : ∀ v ∈ npSort l.dedup, ((fun i => l[i]?) ∘ fun v => l.findIdx (fun u => decide (u = v))) v
      = some v := by
    intro v hv
    rw [mem_npSort, List.mem_dedup] at hv
    exact findIdx_getElem hv
  rw [List.filterMap_congr this, List.filterMap_some]

theorem npSort_dedup_strict (l : List Nat) : (npSort l.dedup).Pairwise (· < ·) := by
  have h1 := npSort_sorted l.dedup
  have h2 : (npSort l.dedup).Nodup := (npSort_perm l.dedup).nodup_iff.2 (List.nodup_dedup l)
  exact (h1.and h2).imp (fun h => lt_of_le_of_ne h.1 h.2)

/-- the neighbours found by `kd_matcher` -/
def closestOf (query : KdQuery K P) (ref test : List P) (maxDistance : K) : List (Option Nat) :=
  if maxDistance = 0 then query ref none test else query ref (some maxDistance) test

theorem kdMatcher_none (query : KdQuery K P) (ref test : List P) (m : K) (hne : test ≠ [])
    (hno : ∀ (t r : Nat), (closestOf query ref test m)[t]? ≠ some (some r)) :
    kdMatcher query ref test m = .error .valueError := by
  have hf : foundPairs (closestOf query ref test m) 0 = [] := by
    rw [List.eq_nil_iff_forall_not_mem]
    rintro ⟨r, t⟩ h
    exact hno t r (mem_foundPairs.1 h).2
  have h0 : test.length ≠ 0 := fun h => hne (List.length_eq_zero_iff.1 h)
  unfold kdMatcher
  change (if test.length = 0 then _ else _) = _
  rw [if_neg h0]
  change (if (foundPairs (closestOf query ref test m) 0).length = 0 then _ else _) = _
  rw [if_pos (by rw [hf]; rfl)]
  rfl

theorem kdMatcher_some (query : KdQuery K P) (ref test : List P) (m : K) (hne : test ≠ [])
    (hex : ∃ t r : Nat, (closestOf query ref test m)[t]? = some (some r)) :
    ∃ refs tests, kdMatcher query ref test m = .ok (refs, tests) ∧ refs ≠ [] ∧
      refs.length = tests.length ∧ refs.Pairwise (· < ·) ∧
      (∀ r, r ∈ refs ↔ ∃ t : Nat, (closestOf query ref test m)[t]? = some (some r)) ∧
      ∀ (k r t : Nat), refs[k]? = some r → tests[k]? = some t →
        (closestOf query ref test m)[t]? = some (some r) ∧
        ∀ t' < t, (closestOf query ref test m)[t']? ≠ some (some r) := by
  generalize hc : closestOf query ref test m = c at *
  obtain ⟨t0, r0, h0⟩ := hex
  have hF0 : (r0, t0) ∈ foundPairs c 0 := mem_foundPairs.2 ⟨Nat.zero_le _, h0⟩
  have hF : (foundPairs c 0).length ≠ 0 := by
    intro h
    rw [List.length_eq_zero_iff.1 h] at hF0
    simp at hF0
  have hsnd := foundPairs_sorted c 0
  have hmem : ∀ {r t}, (r, t) ∈ foundPairs c 0 ↔ c[t]? = some (some r) := by
    intro r t
    rw [mem_foundPairs]
    simp
  generalize hFF : foundPairs c 0 = F at *
  have hU := uniqueIndex_inRange (F.map Prod.fst)
  have hU2 : InRange (F.map Prod.snd).length (uniqueIndex (F.map Prod.fst)) := by simpa using hU
  have hUF : InRange F.length (uniqueIndex (F.map Prod.fst)) := by simpa using hU
  have hrefs := sel_uniqueIndex (F.map Prod.fst)
  refine ⟨sel (F.map Prod.fst) (uniqueIndex (F.map Prod.fst)),
    sel (F.map Prod.snd) (uniqueIndex (F.map Prod.fst)), ?_, ?_, ?_, ?_, ?_, ?_⟩
  · have h0 : test.length ≠ 0 := fun h => hne (List.length_eq_zero_iff.1 h)
    unfold kdMatcher
    change (if test.length = 0 then _ else _) = _
    rw [if_neg h0]
    change (if (foundPairs (closestOf query ref test m) 0).length = 0 then _ else
      (do
        let r ← Traj.take ((foundPairs (closestOf query ref test m) 0).map Prod.fst)
          (uniqueIndex ((foundPairs (closestOf query ref test m) 0).map Prod.fst))
        let t ← Traj.take ((foundPairs (closestOf query ref test m) 0).map Prod.snd)
          (uniqueIndex ((foundPairs (closestOf query ref test m) 0).map Prod.fst))
        return (r, t) : Except Err (List Nat × List Nat))) = _
    rw [hc, hFF, if_neg hF, take_eq hU, take_eq hU2]
    rfl
  · rw [hrefs]
    intro h
    have : r0 ∈ npSort (F.map Prod.fst).dedup := by
      rw [mem_npSort, List.mem_dedup]
      exact List.mem_map.2 ⟨_, hF0, rfl⟩
    rw [h] at this
    simp at this
  · rw [sel_length hU, sel_length hU2]
  · rw [hrefs]
    exact npSort_dedup_strict _
  · intro r
    rw [hrefs, mem_npSort, List.mem_dedup, List.mem_map]
    constructor
    · rintro ⟨⟨r', t⟩, h, rfl⟩
      exact ⟨t, hmem.1 h⟩
    · rintro ⟨t, h⟩
      exact ⟨(r, t), hmem.2 h, rfl⟩
  · intro k r t h1 h2
    have h3 := h1
    rw [hrefs] at h3
    rw [sel_getElem? hU2] at h2
    obtain ⟨i, hi, h2⟩ := Option.bind_eq_some_iff.1 h2
    have hi' := hi
    unfold uniqueIndex at hi'
    rw [List.getElem?_map, h3, Option.map_some, Option.some.injEq] at hi'
    have hr : r ∈ F.map Prod.fst := by
      rw [← List.mem_dedup, ← mem_npSort]
      exact List.mem_of_getElem? h3
    have hir : (F.map Prod.fst)[i]? = some r := by rw [← hi']; exact findIdx_getElem hr
    rw [List.getElem?_map] at hir h2
    obtain ⟨⟨a, b⟩, hab, hr'⟩ := Option.map_eq_some_iff.1 hir
    rw [hab] at h2
    simp only [Option.map_some, Option.some.injEq] at h2 hr'
    subst h2 hr'
    refine ⟨hmem.1 (List.mem_of_getElem? hab), ?_⟩
    intro t' ht' hc'
    obtain ⟨j, hj, hjF⟩ := List.getElem_of_mem (hmem.2 hc')
    -- `j` comes before `i`
    have hilt : i < F.length := by
      by_contra hn
      rw [List.getElem?_eq_none (by omega)] at hab
      simp at hab
    have hFi : F[i] = (a, b) := by
      rw [List.getElem?_eq_getElem hilt] at hab
      exact Option.some.inj hab
    have hji : j < i := by
      by_contra hn
      rw [List.pairwise_iff_getElem] at hsnd
      rcases Nat.lt_or_ge i j with h | h
      · have := hsnd i j (by simpa using hilt) (by simpa using hj) h
        simp [hFi, hjF] at this
        omega
      · have : i = j := by omega
        subst this
        rw [hFi] at hjF
        simp at hjF
        omega
    have hnot := List.not_of_lt_findIdx (xs := F.map Prod.fst) (p := fun u => decide (u = a)) (i := j)
      (by rw [hi']; exact hji)
    simp [hjF] at hnot

end TC
