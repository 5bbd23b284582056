import Verif.Proofs.Span
import Verif.Spec.Time
import Verif.Props.TrajIndex
/-!
# C27: common time span
-/
namespace TC
variable {K : Type} [LinearOrder K]

/-- **C27.** `None` exactly if no instant is in both ranges. -/
theorem C27_common_time_span_none_iff (a b : List K) (ha : a ≠ []) (hb : b ≠ []) :
    commonTimeSpan a b = .ok none ↔ ¬ Overlap a b := by
  obtain ⟨f1, l1, f2, l2, m1, m2, m3, m4, h1, h2, e⟩ :=
    commonTimeSpan_eq (List.length_pos_of_ne_nil ha) (List.length_pos_of_ne_nil hb)
  rw [e]
  split
  · rename_i h
    simp only [Except.ok.injEq, reduceCtorEq, false_iff, not_not]
    refine ⟨max f1 f2, ⟨⟨f1, m1, le_max_left _ _⟩, l1, m2, le_trans h (min_le_left _ _)⟩,
      ⟨f2, m3, le_max_right _ _⟩, l2, m4, le_trans h (min_le_right _ _)⟩
  · rename_i h
    simp only [true_iff]
    rintro ⟨x, ⟨⟨p, hp, hp'⟩, q, hq, hq'⟩, ⟨r, hr, hr'⟩, s, hs, hs'⟩
    apply h
    have : max f1 f2 ≤ x := max_le (le_trans (h1 p hp).1 hp') (le_trans (h2 r hr).1 hr')
    exact le_trans this (le_min (le_trans hq' (h1 q hq).2) (le_trans hs' (h2 s hs).2))

/-- **C27.** Otherwise the exact intersection of the two ranges. -/
theorem C27_common_time_span_exact (a b : List K) (ha : a ≠ []) (hb : b ≠ [])
    (h : Overlap a b) :
    ∃ s e, commonTimeSpan a b = .ok (some (s, e)) ∧
      ∀ x, (s ≤ x ∧ x ≤ e) ↔ (InSpan a x ∧ InSpan b x) := by
  have hn := mt (C27_common_time_span_none_iff a b ha hb).1 (not_not.2 h)
  obtain ⟨f1, l1, f2, l2, m1, m2, m3, m4, h1, h2, e⟩ :=
    commonTimeSpan_eq (List.length_pos_of_ne_nil ha) (List.length_pos_of_ne_nil hb)
  rw [e] at hn ⊢
  split at hn
  · rename_i hle
    rw [if_pos hle]
    refine ⟨_, _, rfl, ?_⟩
    intro x
    rw [max_le_iff, le_min_iff]
    constructor
    · rintro ⟨⟨p, q⟩, r, s⟩
      exact ⟨⟨⟨f1, m1, p⟩, l1, m2, r⟩, ⟨f2, m3, q⟩, l2, m4, s⟩
    · rintro ⟨⟨⟨p, hp, hp'⟩, q, hq, hq'⟩, ⟨r, hr, hr'⟩, s, hs, hs'⟩
      exact ⟨⟨le_trans (h1 p hp).1 hp', le_trans (h2 r hr).1 hr'⟩,
        le_trans hq' (h1 q hq).2, le_trans hs' (h2 s hs).2⟩
  · exact absurd rfl hn

/-- **C27.** The result does not depend on the order of the timestamps. -/
theorem C27_common_time_span_order_independent (a a' b b' : List K) (ha : a.Perm a')
    (hb : b.Perm b') : commonTimeSpan a b = commonTimeSpan a' b' := by
  unfold commonTimeSpan
  rw [npSort_eq_of_perm ha, npSort_eq_of_perm hb]

/-- **C27.** The function is symmetric. -/
theorem C27_common_time_span_symmetric (a b : List K) (ha : a ≠ []) (hb : b ≠ []) :
    commonTimeSpan a b = commonTimeSpan b a := by
  have comm : ∀ {a b : List K}, Overlap a b ↔ Overlap b a :=
    fun {a b} => ⟨fun ⟨x, h, k⟩ => ⟨x, k, h⟩, fun ⟨x, h, k⟩ => ⟨x, k, h⟩⟩
  by_cases h : Overlap a b
  · obtain ⟨s, e, h1, h2⟩ := C27_common_time_span_exact a b ha hb h
    obtain ⟨s', e', h1', h2'⟩ := C27_common_time_span_exact b a hb ha (comm.1 h)
    have hx : ∀ x, (s ≤ x ∧ x ≤ e) ↔ (s' ≤ x ∧ x ≤ e') := by
      intro x; rw [h2, h2']; exact and_comm
    obtain ⟨x, hx1, hx2⟩ := h
    have hse := (h2 x).2 ⟨hx1, hx2⟩
    have hse' := (hx x).1 hse
    have e1 := (hx s).1 ⟨le_refl _, le_trans hse.1 hse.2⟩
    have e2 := (hx e).1 ⟨le_trans hse.1 hse.2, le_refl _⟩
    have e3 := (hx s').2 ⟨le_refl _, le_trans hse'.1 hse'.2⟩
    have e4 := (hx e').2 ⟨le_trans hse'.1 hse'.2, le_refl _⟩
    rw [h1, h1', le_antisymm e3.1 e1.1, le_antisymm e2.2 e4.2]
  · rw [(C27_common_time_span_none_iff a b ha hb).2 h,
      (C27_common_time_span_none_iff b a hb ha).2 (mt comm.2 h)]

/-- **C27.** Empty timestamp lists are rejected. -/
theorem C27_common_time_span_empty (a b : List K) (h : a = [] ∨ b = []) :
    commonTimeSpan a b = .error .indexError := by
  unfold commonTimeSpan
  by_cases ha : a = []
  · subst ha
    rfl
  · have hb : b = [] := h.resolve_left ha
    subst hb
    obtain ⟨f, e1, _⟩ := npSort_first (List.length_pos_of_ne_nil ha)
    simp only [e1, bind, Except.bind]
    rfl

example : Overlap ([3, 1] : List ℚ) [2, 5] := ⟨2, ⟨⟨1, by decide, by decide⟩, 3, by decide, by decide⟩,
  ⟨2, by decide, by decide⟩, 5, by decide, by decide⟩
example : commonTimeSpan ([3, 1] : List ℚ) [2, 5] = .ok (some (2, 3)) := by decide +kernel
example : commonTimeSpan ([3, 1] : List ℚ) [4, 5] = .ok none := by decide +kernel

end TC
