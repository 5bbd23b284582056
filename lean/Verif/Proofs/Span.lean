import Verif.Proofs.Interp
/-!
# Lemmas on time spans and gaps
-/
namespace TC
variable {K R : Type} [Field K] [LinearOrder K]

omit [Field K] in
theorem npSort_first {l : List K} (h : 0 < l.length) :
    ∃ f, pyFirst (npSort l) = .ok f ∧ f ∈ l ∧ ∀ x ∈ l, f ≤ x := by
  have h' : 0 < (npSort l).length := by rw [npSort_length]; exact h
  refine ⟨_, pyFirst_eq h', mem_npSort.1 (List.getElem_mem _), ?_⟩
  intro x hx
  obtain ⟨i, hi, rfl⟩ := List.getElem_of_mem (mem_npSort.2 hx)
  exact sorted_getElem_le (npSort_sorted l) hi (by omega)

omit [Field K] in
theorem npSort_last {l : List K} (h : 0 < l.length) :
    ∃ f, pyLast (npSort l) = .ok f ∧ f ∈ l ∧ ∀ x ∈ l, x ≤ f := by
  have h' : 0 < (npSort l).length := by rw [npSort_length]; exact h
  refine ⟨_, pyLast_eq h', mem_npSort.1 (List.getElem_mem _), ?_⟩
  intro x hx
  obtain ⟨i, hi, rfl⟩ := List.getElem_of_mem (mem_npSort.2 hx)
  exact sorted_getElem_le (npSort_sorted l) (by omega) (by omega)

omit [Field K] in
/-- minimum and maximum description of `commonTimeSpan` -/
theorem commonTimeSpan_eq {a b : List K} (ha : 0 < a.length) (hb : 0 < b.length) :
    ∃ f1 l1 f2 l2, f1 ∈ a ∧ l1 ∈ a ∧ f2 ∈ b ∧ l2 ∈ b ∧ (∀ x ∈ a, f1 ≤ x ∧ x ≤ l1) ∧
      (∀ x ∈ b, f2 ≤ x ∧ x ≤ l2) ∧
      commonTimeSpan a b =
        if max f1 f2 ≤ min l1 l2 then .ok (some (max f1 f2, min l1 l2)) else .ok none := by
  obtain ⟨f1, e1, m1, b1⟩ := npSort_first ha
  obtain ⟨l1, e2, m2, b2⟩ := npSort_last ha
  obtain ⟨f2, e3, m3, b3⟩ := npSort_first hb
  obtain ⟨l2, e4, m4, b4⟩ := npSort_last hb
  refine ⟨f1, l1, f2, l2, m1, m2, m3, m4, fun x hx => ⟨b1 x hx, b2 x hx⟩,
    fun x hx => ⟨b3 x hx, b4 x hx⟩, ?_⟩
  have h1 := b1 l1 m2
  have h2 := b3 l2 m4
  unfold commonTimeSpan
  simp only [e1, e2, e3, e4, bind, Except.bind, pure, Except.pure]
  congr 1
  rw [max_le_iff, le_min_iff, le_min_iff, eq_iff_iff]
  constructor
  · rintro (⟨p, q⟩ | ⟨p, q⟩ | ⟨p, q⟩ | ⟨p, q⟩)
    · exact ⟨⟨h1, le_trans p h2⟩, q, h2⟩
    · exact ⟨⟨h1, p⟩, le_trans h2 q, h2⟩
    · exact ⟨⟨h1, q⟩, le_trans p h1, h2⟩
    · exact ⟨⟨h1, le_trans h1 q⟩, p, h2⟩
  · rintro ⟨⟨_, p⟩, q, _⟩
    rcases le_total f1 f2 with h | h
    · exact Or.inl ⟨h, q⟩
    · exact Or.inr (Or.inr (Or.inl ⟨h, p⟩))

end TC
