import Verif.Proofs.Cubic
import Verif.Proofs.Sort
import Mathlib.Analysis.Calculus.Deriv.Add
import Mathlib.Analysis.Calculus.Deriv.Mul
import Mathlib.Analysis.Calculus.Deriv.Pow
import Mathlib.Analysis.Calculus.Deriv.Comp
import Mathlib.Analysis.Real.Sqrt
import Mathlib.Tactic.FieldSimp
/-!
# The function that the cubic approximation evaluates
-/
namespace TC
set_option linter.unusedSectionVars false

/-- a knot: location, value, slope -/
structure Node where
  s : ℝ
  f : ℝ
  d : ℝ

/-- the segment between two knots, as `eval` computes it -/
noncomputable def seg (a e : Node) (x : ℝ) : ℝ :=
  let k := computeC x a.s e.s
  a.f * k.c0 + a.d * k.c1 + e.f * k.c2 + e.d * k.c3

/-- its derivative -/
noncomputable def seg' (a e : Node) (x : ℝ) : ℝ :=
  let h := e.s - a.s
  let u := (x - a.s) / h
  a.f * ((-6 * u + 6 * u ^ 2) / h) + a.d * (1 - 4 * u + 3 * u ^ 2)
    + e.f * ((6 * u - 6 * u ^ 2) / h) + e.d * (3 * u ^ 2 - 2 * u)

theorem seg_hasDerivAt (a e : Node) (h : a.s < e.s) (x : ℝ) : HasDerivAt (seg a e) (seg' a e x) x := by
  have hd : e.s - a.s ≠ 0 := (sub_pos.2 h).ne'
  have hu : HasDerivAt (fun y : ℝ => (y - a.s) / (e.s - a.s)) (1 / (e.s - a.s)) x :=
    ((hasDerivAt_id x).sub_const a.s).div_const _
  have hw : HasDerivAt (fun y : ℝ => y - a.s) 1 x := (hasDerivAt_id x).sub_const a.s
  have h2 := hu.pow 2
  have h3 := hu.pow 3
  have c0 := ((hasDerivAt_const x (1 : ℝ)).sub (h2.const_mul 3)).add (h3.const_mul 2)
  have c2 := (h2.const_mul 3).sub (h3.const_mul 2)
  have c1 := hw.mul (((hasDerivAt_const x (1 : ℝ)).sub (hu.const_mul 2)).add h2)
  have c3 := hw.mul (h2.sub hu)
  have := (((c0.const_mul a.f).add (c1.const_mul a.d)).add (c2.const_mul e.f)).add (c3.const_mul e.d)
  refine (this.congr_deriv ?_).congr_of_eventuallyEq (Filter.Eventually.of_forall fun y => ?_)
  · simp only [seg', Nat.cast_ofNat, Pi.add_apply, Pi.sub_apply, Pi.pow_apply, Nat.reduceSub, pow_one]
    field_simp
    ring
  · simp only [seg, computeC, Pi.add_apply, Pi.sub_apply, Pi.mul_apply, Pi.pow_apply]
    ring

theorem seg'_continuous (a e : Node) : Continuous (seg' a e) := by
  unfold seg'
  fun_prop

theorem seg_left (a e : Node) : seg a e a.s = a.f := by simp [seg, computeC]
theorem seg'_left (a e : Node) : seg' a e a.s = a.d := by simp [seg']

theorem seg_right (a e : Node) (h : a.s < e.s) : seg a e e.s = e.f := by
  have hd : e.s - a.s ≠ 0 := (sub_pos.2 h).ne'
  simp only [seg, computeC, div_self hd]
  field_simp
  ring

theorem seg'_right (a e : Node) (h : a.s < e.s) : seg' a e e.s = e.d := by
  have hd : e.s - a.s ≠ 0 := (sub_pos.2 h).ne'
  simp only [seg', div_self hd]
  field_simp
  ring

/-- two functions glued together at `s` -/
theorem glue_hasDerivAt {p q p' q' : ℝ → ℝ} {s : ℝ} (hp : ∀ x, HasDerivAt p (p' x) x)
    (hq : ∀ x, HasDerivAt q (q' x) x) (h0 : p s = q s) (h1 : p' s = q' s) (x : ℝ) :
    HasDerivAt (fun x => if x ≤ s then p x else q x) (if x ≤ s then p' x else q' x) x := by
  rcases lt_trichotomy x s with h | h | h
  · rw [if_pos h.le]
    refine (hp x).congr_of_eventuallyEq ?_
    filter_upwards [eventually_lt_nhds h] with y hy
    rw [if_pos hy.le]
  · subst h
    rw [if_pos le_rfl]
    have hl : HasDerivWithinAt (fun y => if y ≤ x then p y else q y) (p' x) (Set.Iic x) x := by
      refine (hp x).hasDerivWithinAt.congr (fun y hy => ?_) ?_
      · exact if_pos hy
      · exact if_pos le_rfl
    have hr : HasDerivWithinAt (fun y => if y ≤ x then p y else q y) (p' x) (Set.Ici x) x := by
      rw [h1]
      refine (hq x).hasDerivWithinAt.congr (fun y hy => ?_) ?_
      · by_cases hyx : y ≤ x
        · obtain rfl : y = x := le_antisymm hyx hy
          rw [if_pos le_rfl, h0]
        · rw [if_neg hyx]
      · rw [if_pos le_rfl, h0]
    have := hl.union hr
    rw [Set.Iic_union_Ici] at this
    exact hasDerivWithinAt_univ.1 this
  · rw [if_neg (not_le.2 h)]
    refine (hq x).congr_of_eventuallyEq ?_
    filter_upwards [eventually_gt_nhds h] with y hy
    rw [if_neg (not_le.2 hy)]

/-- all segments glued together -/
noncomputable def glue : Node → List Node → ℝ → ℝ
  | _, [], _ => 0
  | a, [b], x => seg a b x
  | a, b :: c :: l, x => if x ≤ b.s then seg a b x else glue b (c :: l) x

noncomputable def glue' : Node → List Node → ℝ → ℝ
  | _, [], _ => 0
  | a, [b], x => seg' a b x
  | a, b :: c :: l, x => if x ≤ b.s then seg' a b x else glue' b (c :: l) x

theorem glue_spec (a b : Node) (l : List Node) (h : (a :: b :: l).Pairwise (fun m n => m.s < n.s)) :
    (∀ x, HasDerivAt (glue a (b :: l)) (glue' a (b :: l) x) x) ∧ Continuous (glue' a (b :: l)) ∧
      glue a (b :: l) a.s = a.f ∧ glue' a (b :: l) a.s = a.d := by
  induction l generalizing a b with
  | nil =>
    have hab : a.s < b.s := by simpa using h
    exact ⟨seg_hasDerivAt a b hab, seg'_continuous a b, seg_left a b, seg'_left a b⟩
  | cons c l ih =>
    have hab : a.s < b.s := (List.pairwise_cons.1 h).1 b (by simp)
    obtain ⟨i1, i2, i3, i4⟩ := ih b c (List.pairwise_cons.1 h).2
    refine ⟨?_, ?_, ?_, ?_⟩
    · exact glue_hasDerivAt (seg_hasDerivAt a b hab) i1 (by rw [seg_right a b hab, i3])
        (by rw [seg'_right a b hab, i4])
    · refine Continuous.if_le (seg'_continuous a b) i2 continuous_id continuous_const ?_
      intro x hx
      rw [hx, seg'_right a b hab, i4]
    · simp only [glue, if_pos hab.le, seg_left]
    · simp only [glue', if_pos hab.le, seg'_left]

/-- the segment that belongs to a location -/
theorem glue_at (a : Node) (l : List Node) (h : (a :: l).Pairwise (fun m n => m.s < n.s)) (k : Nat)
    (m n : Node) (hm : (a :: l)[k]? = some m) (hn : (a :: l)[k + 1]? = some n) (x : ℝ)
    (h1 : m.s ≤ x) (h2 : x ≤ n.s) : glue a l x = seg m n x ∧ (m.s < x → x < n.s → glue' a l x = seg' m n x) := by
  induction l generalizing a k with
  | nil => simp at hn
  | cons b l ih =>
    have hab : a.s < b.s := (List.pairwise_cons.1 h).1 b (by simp)
    cases l with
    | nil =>
      cases k with
      | zero =>
        simp only [List.getElem?_cons_zero, Option.some.injEq, Nat.zero_add, List.getElem?_cons_succ]
          at hm hn
        subst hm hn
        exact ⟨rfl, fun _ _ => rfl⟩
      | succ k => simp at hn
    | cons c l =>
      have hbc := (List.pairwise_cons.1 h).2
      cases k with
      | zero =>
        simp only [List.getElem?_cons_zero, Option.some.injEq, Nat.zero_add, List.getElem?_cons_succ]
          at hm hn
        subst hm hn
        simp only [glue, glue', if_pos h2]
        exact ⟨trivial, fun _ _ => trivial⟩
      | succ k =>
        rw [List.getElem?_cons_succ] at hm hn
        have hi := ih b hbc k hm hn
        have hbm : b.s ≤ m.s := by
          cases k with
          | zero => simp only [List.getElem?_cons_zero, Option.some.injEq] at hm; rw [hm]
          | succ k =>
            rw [List.getElem?_cons_succ] at hm
            exact ((List.pairwise_cons.1 hbc).1 m (List.mem_of_getElem? hm)).le
        by_cases hxb : x ≤ b.s
        · have hx : x = b.s := le_antisymm hxb (hbm.trans h1)
          have hms : m.s = b.s := le_antisymm (by rw [← hx]; exact h1) hbm
          simp only [glue, glue', if_pos hxb]
          refine ⟨?_, fun hlt _ => absurd hlt (by rw [hx, hms]; exact lt_irrefl _)⟩
          rw [← hi.1, hx, seg_right a b hab]
          exact ((glue_spec b c l hbc).2.2.1).symm
        · simp only [glue, glue', if_neg hxb]
          exact hi


/-- values and slopes at the knots -/
theorem glue_knot (a : Node) (l : List Node) (h : (a :: l).Pairwise (fun m n => m.s < n.s))
    (hl : l ≠ []) (k : Nat) (n : Node) (hn : (a :: l)[k]? = some n) :
    glue a l n.s = n.f ∧ glue' a l n.s = n.d := by
  induction l generalizing a k with
  | nil => exact absurd rfl hl
  | cons b l ih =>
    have hab : a.s < b.s := (List.pairwise_cons.1 h).1 b (by simp)
    have hbc := (List.pairwise_cons.1 h).2
    cases k with
    | zero =>
      simp only [List.getElem?_cons_zero, Option.some.injEq] at hn
      subst hn
      exact (glue_spec a b l h).2.2
    | succ k =>
      rw [List.getElem?_cons_succ] at hn
      cases l with
      | nil =>
        cases k with
        | zero =>
          simp only [List.getElem?_cons_zero, Option.some.injEq] at hn
          subst hn
          exact ⟨seg_right a b hab, seg'_right a b hab⟩
        | succ k => simp at hn
      | cons c l =>
        cases k with
        | zero =>
          simp only [List.getElem?_cons_zero, Option.some.injEq] at hn
          subst hn
          simp only [glue, glue', if_pos le_rfl]
          exact ⟨seg_right a b hab, seg'_right a b hab⟩
        | succ k =>
          have hi := ih b hbc (by simp) (k + 1) hn
          rw [List.getElem?_cons_succ] at hn
          have hbn : b.s < n.s := (List.pairwise_cons.1 hbc).1 n (List.mem_of_getElem? hn)
          simp only [glue, glue', if_neg (not_le.2 hbn)]
          exact hi

theorem everySecond_get {K : Type} (l : List K) (k : Nat) : (everySecond l)[k]? = l[2 * k]? := by
  induction l using everySecond.induct generalizing k with
  | case1 => simp [everySecond]
  | case2 a => cases k <;> simp [everySecond, Nat.mul_add]
  | case3 a b l ih =>
    cases k with
    | zero => rfl
    | succ k => simp [everySecond, ih, Nat.mul_add]

end TC
