import Verif.Proofs.Hermite
import Verif.Props.Cubic
/-!
# C58: the evaluated approximation is continuously differentiable
-/
namespace TC
set_option linter.unusedSectionVars false

/-- the knots of an approximation: ascending, from the first to the last sample -/
theorem C58_knots {K : Type} [Field K] [LinearOrder K] [IsStrictOrderedRing K] [FloorRing K]
    (solve : Solver K) (functionOf values : List K) (intSize : K) (minObs : Nat) (hm : 2 ≤ minObs)
    (hasc : StrictAsc functionOf) (r : Cubic K)
    (h : cubicApprox solve functionOf values intSize minObs = .ok r) :
    StrictAsc r.intervalSteps ∧ r.intervalSteps.head? = functionOf.head? ∧
      r.intervalSteps.getLast? = functionOf.getLast? ∧ 2 ≤ r.intervalSteps.length ∧
      r.parameters.length = 2 * r.intervalSteps.length := by
  obtain ⟨st, f0, last, x, l, v, hr⟩ := cubicApprox_inv h
  have hsa : StrictAsc (functionOf.map (fun x => x - f0)) := by
    unfold StrictAsc
    rw [List.pairwise_map]
    exact hasc.imp (fun h => sub_lt_sub_right h _)
  obtain ⟨a1, a2⟩ := hr.inv.asc hm hsa
  have hstart : st.startIdx = functionOf.length := by
    have h1 := congrArg List.length hr.inv.flat
    rw [hr.done, List.append_nil, List.length_take, List.length_map, Nat.min_self] at h1
    rw [hr.inv.start, h1]
  have hcl : st.coeffs.length = st.tFinal.length := by
    rw [hr.inv.knots, hr.inv.rows.length_eq]
  have hpos : 0 < st.tFinal.length := by rw [← hcl]; exact List.length_pos_of_ne_nil hr.nonempty
  have hlast : functionOf[functionOf.length - 1]? = some (last + f0) := by
    have := hr.lastEq
    rw [List.getLast?_eq_getElem?, List.length_map, List.getElem?_map, Option.map_eq_some_iff] at this
    obtain ⟨w, hw, rfl⟩ := this
    rw [hw, sub_add_cancel]
  rw [hr.eq]
  refine ⟨?_, ?_, ?_, ?_, ?_⟩
  · simp only [StrictAsc, List.pairwise_map, add_lt_add_iff_right]
    refine List.pairwise_append.2 ⟨a1, List.pairwise_singleton _ _, ?_⟩
    intro t ht u hu
    rw [List.mem_singleton] at hu
    subst hu
    obtain ⟨j, hj, hj2⟩ := a2 t ht
    rw [hstart] at hj2
    have hl' : (functionOf.map (fun x => x - f0))[functionOf.length - 1]? = some u := by
      rw [List.getElem?_map, hlast]
      simp
    exact strictAsc_lt hsa (by omega) hj hl'
  · obtain ⟨t, tl, htl⟩ := List.exists_cons_of_ne_nil (List.ne_nil_of_length_pos hpos)
    have h0 := hr.inv.head t (by rw [htl]; rfl)
    rw [List.getElem?_map, Option.map_eq_some_iff] at h0
    obtain ⟨w, hw, rfl⟩ := h0
    rw [htl]
    rw [← List.head?_eq_getElem?] at hw
    simp [hw]
  · simp only [List.map_append, List.map_cons, List.map_nil, List.getLast?_append,
      List.getLast?_singleton, Option.some_or]
    rw [List.getLast?_eq_getElem?, hlast]
  · simp only [List.length_map, List.length_append, List.length_singleton]
    omega
  · simp only [List.length_ofFn, List.length_map, List.length_append, List.length_singleton]
    omega

theorem foldl_min_le_mem {K : Type} [LinearOrder K] (a : K) (l : List K) :
    ∀ y ∈ a :: l, l.foldl min a ≤ y := by
  induction l generalizing a with
  | nil => simp
  | cons b l ih =>
    intro y hy
    rw [List.foldl_cons]
    have h0 := ih (min a b)
    rcases List.mem_cons.1 hy with rfl | hy
    · exact (h0 _ List.mem_cons_self).trans (min_le_left _ _)
    · rcases List.mem_cons.1 hy with rfl | hy
      · exact (h0 _ List.mem_cons_self).trans (min_le_right _ _)
      · exact h0 y (by simp [hy])

theorem mem_le_foldl_max {K : Type} [LinearOrder K] (a : K) (l : List K) :
    ∀ y ∈ a :: l, y ≤ l.foldl max a := by
  induction l generalizing a with
  | nil => simp
  | cons b l ih =>
    intro y hy
    rw [List.foldl_cons]
    have h0 := ih (max a b)
    rcases List.mem_cons.1 hy with rfl | hy
    · exact (le_max_left _ _).trans (h0 _ List.mem_cons_self)
    · rcases List.mem_cons.1 hy with rfl | hy
      · exact (le_max_right _ _).trans (h0 _ List.mem_cons_self)
      · exact h0 y (by simp [hy])

/-- a segment is a cubic polynomial -/
theorem seg_cubic (a e : Node) (h : a.s < e.s) :
    ∃ b0 b1 b2 b3 : ℝ, ∀ x, seg a e x = b0 + b1 * x + b2 * x ^ 2 + b3 * x ^ 3 := by
  have hd : e.s - a.s ≠ 0 := (sub_pos.2 h).ne'
  let c2 := (3 * (e.f - a.f) / (e.s - a.s) - 2 * a.d - e.d) / (e.s - a.s)
  let c3 := (2 * (a.f - e.f) / (e.s - a.s) + a.d + e.d) / (e.s - a.s) ^ 2
  refine ⟨a.f - a.d * a.s + c2 * a.s ^ 2 - c3 * a.s ^ 3, a.d - 2 * c2 * a.s + 3 * c3 * a.s ^ 2,
    c2 - 3 * c3 * a.s, c3, fun x => ?_⟩
  simp only [seg, computeC, c2, c3]
  field_simp
  ring

/-- **C58.** For strictly ascending samples the evaluated approximation is a continuously
differentiable function between the first and the last sample: a cubic polynomial between two
knots, taking the estimated value and slope at each knot. -/
theorem C58_evaluation_is_smooth (solve : Solver ℝ) (functionOf values : List ℝ) (intSize : ℝ)
    (minObs : Nat) (hm : 2 ≤ minObs) (hasc : StrictAsc functionOf) (r : Cubic ℝ)
    (h : cubicApprox solve functionOf values intSize minObs = .ok r) :
    ∃ F : ℝ → ℝ, ContDiff ℝ 1 F ∧
      (∀ xs : List ℝ, xs ≠ [] →
        (∀ x ∈ xs, (∃ a ∈ functionOf, a ≤ x) ∧ (∃ b ∈ functionOf, x ≤ b)) →
        cubicEval r xs = .ok (xs.map F)) ∧
      (∀ (k : Nat) s, r.intervalSteps[k]? = some s →
        r.parameters[2 * k]? = some (F s) ∧ r.parameters[2 * k + 1]? = some (deriv F s)) ∧
      (∀ (k : Nat) s t, r.intervalSteps[k]? = some s → r.intervalSteps[k + 1]? = some t →
        ∃ b0 b1 b2 b3 : ℝ, ∀ x, s ≤ x → x ≤ t → F x = b0 + b1 * x + b2 * x ^ 2 + b3 * x ^ 3) := by
  obtain ⟨k1, k2, k3, k4, k5⟩ := C58_knots solve functionOf values intSize minObs hm hasc r h
  obtain ⟨steps, hsteps⟩ : ∃ steps, r.intervalSteps = steps := ⟨_, rfl⟩
  rw [hsteps] at k1 k2 k3 k4 k5
  let nodes : List Node := (List.range steps.length).map
    (fun k => ⟨steps.getD k 0, r.parameters.getD (2 * k) 0, r.parameters.getD (2 * k + 1) 0⟩)
  have hnode : ∀ k : Nat, ∀ hk : k < steps.length, nodes[k]? =
      some ⟨steps[k], r.parameters[2 * k]'(by omega), r.parameters[2 * k + 1]'(by omega)⟩ := by
    intro k hk
    have h1 : 2 * k < r.parameters.length := by omega
    have h2 : 2 * k + 1 < r.parameters.length := by omega
    simp [nodes, hk, h1, h2, List.getD_eq_getElem?_getD]
  have hnl : nodes.length = steps.length := by simp [nodes]
  have hpw : nodes.Pairwise (fun m n => m.s < n.s) := by
    rw [List.pairwise_iff_getElem]
    intro i j hi hj hij
    have e1 := hnode i (by omega)
    have e2 := hnode j (by omega)
    rw [List.getElem?_eq_getElem hi, Option.some.injEq] at e1
    rw [List.getElem?_eq_getElem hj, Option.some.injEq] at e2
    rw [e1, e2]
    exact List.pairwise_iff_getElem.1 k1 i j (by omega) (by omega) hij
  obtain ⟨a, b, l, hab⟩ : ∃ a b l, nodes = a :: b :: l := by
    match hnd : nodes, hnl with
    | [], hh => simp at hh; omega
    | [_], hh => simp at hh; omega
    | a :: b :: l, _ => exact ⟨a, b, l, rfl⟩
  rw [hab] at hpw hnode
  obtain ⟨g1, g2, g3, g4⟩ := glue_spec a b l hpw
  have hle : steps.Pairwise (· ≤ ·) := k1.imp (fun h => h.le)
  have hone : ∀ x, (∃ a ∈ functionOf, a ≤ x) → (∃ b ∈ functionOf, x ≤ b) →
      cubicEvalOne r x = .ok (glue a (b :: l) x) := by
    rintro x ⟨lo, hlo, hlox⟩ ⟨hi, hhi, hhix⟩
    have hlo' : steps[0] ≤ x := by
      refine le_trans ?_ hlox
      obtain ⟨c, cs, rfl⟩ := List.exists_cons_of_ne_nil (List.ne_nil_of_mem hlo)
      rw [List.head?_eq_getElem?, List.getElem?_eq_getElem (by omega), List.head?_cons,
        Option.some.injEq] at k2
      rw [k2]
      rcases List.mem_cons.1 hlo with rfl | hmem
      · exact le_rfl
      · exact ((List.pairwise_cons.1 hasc).1 _ hmem).le
    have hhi' : x ≤ steps[steps.length - 1] := by
      refine le_trans hhix ?_
      obtain ⟨j, hj, rfl⟩ := List.getElem_of_mem hhi
      rw [List.getLast?_eq_getElem?, List.getLast?_eq_getElem?,
        List.getElem?_eq_getElem (by omega), List.getElem?_eq_getElem (by omega),
        Option.some.injEq] at k3
      rw [k3]
      rcases Nat.lt_or_ge j (functionOf.length - 1) with hlt | hge
      · exact (List.pairwise_iff_getElem.1 hasc j _ hj (by omega) hlt).le
      · have : j = functionOf.length - 1 := by omega
        subst this
        exact le_rfl
    have hf : ∀ k (hk : k < steps.length), npGet (everySecond r.parameters) (k : Int) =
        .ok (r.parameters[2 * k]'(by omega)) := by
      intro k hk
      have hg := (everySecond_get r.parameters k).trans (List.getElem?_eq_getElem (by omega))
      obtain ⟨w, hw⟩ := List.getElem?_eq_some_iff.1 hg
      rw [npGet_nat w, hw]
    have hd : ∀ k (hk : k < steps.length), npGet (everySecond r.parameters.tail) (k : Int) =
        .ok (r.parameters[2 * k + 1]'(by omega)) := by
      intro k hk
      have hg := ((everySecond_get r.parameters.tail k).trans List.getElem?_tail).trans
        (List.getElem?_eq_getElem (by omega))
      obtain ⟨w, hw⟩ := List.getElem?_eq_some_iff.1 hg
      rw [npGet_nat w, hw]
    have hcount : searchLeft steps x < steps.length := by
      by_contra hc
      have h1 : steps.length - 1 < searchLeft steps x := by omega
      rw [searchLeft_lt_iff hle x (by omega)] at h1
      exact absurd hhi' (not_le.2 h1)
    have hx2 : x ≤ steps[searchLeft steps x] := by
      by_contra hc
      have := (searchLeft_lt_iff hle x hcount).2 (not_le.1 hc)
      omega
    have hx1' : ∀ h0 : 0 < searchLeft steps x, steps[searchLeft steps x - 1] < x := fun h0 =>
      (searchLeft_lt_iff hle x (i := searchLeft steps x - 1) (by omega)).1 (by omega)
    unfold cubicEvalOne
    simp only [hsteps]
    obtain ⟨i, hcount, hx2, hx1', hii⟩ : ∃ i, ∃ hc : i < steps.length, x ≤ steps[i] ∧
        (∀ h0 : 0 < i, steps[i - 1]'(by omega) < x) ∧ searchLeft steps x = i :=
      ⟨_, hcount, hx2, hx1', rfl⟩
    rw [hii]
    rw [npGet_nat hcount, hf _ hcount, hd _ hcount]
    rcases Nat.eq_zero_or_pos i with rfl | h0
    · have hx0 : x = steps[0] := by
        refine le_antisymm ?_ hlo'
        simpa using hx2
      have hne : steps.getLast (List.ne_nil_of_length_pos (by omega)) ≠ steps[0] := by
        rw [List.getLast_eq_getElem]
        exact (List.pairwise_iff_getElem.1 k1 0 _ (by omega) (by omega) (by omega)).ne'
      have e1 : npGet steps (((0 : Nat) : Int) - 1) =
          .ok (steps.getLast (List.ne_nil_of_length_pos (by omega))) := by
        simpa [pyLast] using pyLast_ne (l := steps) (List.ne_nil_of_length_pos (by omega))
      have hfl : everySecond r.parameters ≠ [] := by
        intro hc
        have := hf 0 (by omega)
        rw [hc] at this
        simp [npGet, pyPos] at this
      have hdl : everySecond r.parameters.tail ≠ [] := by
        intro hc
        have := hd 0 (by omega)
        rw [hc] at this
        simp [npGet, pyPos] at this
      have e2 : npGet (everySecond r.parameters) (((0 : Nat) : Int) - 1) =
          .ok ((everySecond r.parameters).getLast hfl) := by
        simpa [pyLast] using pyLast_ne hfl
      have e3 : npGet (everySecond r.parameters.tail) (((0 : Nat) : Int) - 1) =
          .ok ((everySecond r.parameters.tail).getLast hdl) := by
        simpa [pyLast] using pyLast_ne hdl
      rw [e1, e2, e3]
      simp only [bind, Except.bind, pure, Except.pure]
      have hn0 := hnode 0 (by omega)
      simp only [List.getElem?_cons_zero, Option.some.injEq, Nat.mul_zero] at hn0
      have hgf : glue a (b :: l) x = r.parameters[0]'(by omega) := by
        have := g3
        rw [hn0] at this ⊢
        rw [hx0]
        exact this
      rw [hgf, hx0]
      have hsub : steps[0] - steps.getLast (List.ne_nil_of_length_pos (by omega)) ≠ 0 :=
        sub_ne_zero.2 hne.symm
      simp only [computeC, div_self hsub]
      congr 1
      field_simp
      ring
    · have hx1 : steps[i - 1] < x := hx1' h0
      rw [show ((i : Int) - 1) = ((i - 1 : Nat) : Int) by omega,
        npGet_nat (by omega), hf _ (by omega), hd _ (by omega)]
      simp only [bind, Except.bind, pure, Except.pure]
      congr 1
      have n1 := hnode (i - 1) (by omega)
      have n2 := hnode (i - 1 + 1) (by omega)
      have := (glue_at a (b :: l) hpw _ _ _ n1 n2 x hx1.le (by
        simp only [Nat.sub_add_cancel h0]; exact hx2)).1
      rw [this]
      simp only [seg, Nat.sub_add_cancel h0]
  refine ⟨glue a (b :: l), ?_, ?_, ?_, ?_⟩
  · rw [contDiff_one_iff_deriv]
    refine ⟨fun x => (g1 x).differentiableAt, ?_⟩
    have : deriv (glue a (b :: l)) = glue' a (b :: l) := funext fun x => (g1 x).deriv
    rw [this]
    exact g2
  · intro xs hxs hin
    have hall : cubicEvalAll r xs = .ok (xs.map (glue a (b :: l))) := by
      clear hxs
      induction xs with
      | nil => rfl
      | cons x xs ih =>
        rw [cubicEvalAll, hone x (hin x (by simp)).1 (hin x (by simp)).2,
          ih (fun y hy => hin y (by simp [hy]))]
        rfl
    obtain ⟨x, xs', rfl⟩ := List.exists_cons_of_ne_nil hxs
    obtain ⟨c, cs, hcs⟩ := List.exists_cons_of_ne_nil
      (List.ne_nil_of_length_pos (l := steps) (by omega))
    obtain ⟨⟨lo, hlo, hlox⟩, hi, hhi, hhix⟩ := hin x (by simp)
    unfold cubicEval
    rw [hsteps, hcs]
    simp only [pyMin, pyMax, bind, Except.bind]
    rw [if_neg, hall]
    have hmem : ∀ y ∈ functionOf, steps[0] ≤ y ∧ y ≤ steps[steps.length - 1] := by
      intro y hy
      refine ⟨?_, ?_⟩
      · obtain ⟨c, cs, rfl⟩ := List.exists_cons_of_ne_nil (List.ne_nil_of_mem hy)
        rw [List.head?_eq_getElem?, List.getElem?_eq_getElem (by omega), List.head?_cons,
          Option.some.injEq] at k2
        rw [k2]
        rcases List.mem_cons.1 hy with rfl | hmem
        · exact le_rfl
        · exact ((List.pairwise_cons.1 hasc).1 _ hmem).le
      · obtain ⟨j, hj, rfl⟩ := List.getElem_of_mem hy
        rw [List.getLast?_eq_getElem?, List.getLast?_eq_getElem?,
          List.getElem?_eq_getElem (by omega), List.getElem?_eq_getElem (by omega),
          Option.some.injEq] at k3
        rw [k3]
        rcases Nat.lt_or_ge j (functionOf.length - 1) with hlt | hge
        · exact (List.pairwise_iff_getElem.1 hasc j _ hj (by omega) hlt).le
        · have : j = functionOf.length - 1 := by omega
          subst this
          exact le_rfl
    have h1 : steps[0] ∈ c :: cs := by rw [← hcs]; exact List.getElem_mem _
    have h2 : steps[steps.length - 1] ∈ c :: cs := by rw [← hcs]; exact List.getElem_mem _
    rintro (hgt | hgt)
    · have a1 := foldl_min_le_mem x xs' x (by simp)
      have a2 := mem_le_foldl_max c cs _ h2
      exact absurd hgt (not_lt.2 (a1.trans ((hhix.trans (hmem hi hhi).2).trans a2)))
    · have a1 := mem_le_foldl_max x xs' x (by simp)
      have a2 := foldl_min_le_mem c cs _ h1
      exact absurd hgt (not_lt.2 (a2.trans (((hmem lo hlo).1.trans hlox).trans a1)))
  · intro k s hs
    rw [hsteps] at hs
    obtain ⟨hk, rfl⟩ := List.getElem?_eq_some_iff.1 hs
    obtain ⟨q1, q2⟩ := glue_knot a (b :: l) hpw (by simp) k _ (hnode k hk)
    refine ⟨?_, ?_⟩
    · rw [q1, List.getElem?_eq_getElem]
    · rw [(g1 _).deriv, q2, List.getElem?_eq_getElem]
  · intro k s t hs ht
    rw [hsteps] at hs ht
    obtain ⟨hk, rfl⟩ := List.getElem?_eq_some_iff.1 hs
    obtain ⟨hk', rfl⟩ := List.getElem?_eq_some_iff.1 ht
    have n1 := hnode k hk
    have n2 := hnode (k + 1) hk'
    have hlt : steps[k] < steps[k + 1] := List.pairwise_iff_getElem.1 k1 _ _ hk hk' (by omega)
    have hseg := fun x h1 h2 => (glue_at a (b :: l) hpw k _ _ n1 n2 x h1 h2).1
    obtain ⟨b0, b1, b2, b3, hb⟩ := seg_cubic ⟨steps[k], _, _⟩ ⟨steps[k + 1], _, _⟩ hlt
    exact ⟨b0, b1, b2, b3, fun x h1 h2 => (hseg x h1 h2).trans (hb x)⟩

/-- the hypotheses hold for a concrete approximation with two intervals -/
example : ∃ r, cubicApprox exactSolver ([0, 1, 2, 3, 4, 5, 6, 7] : List ℝ) [0, 1, 2, 3, 4, 5, 6, 9] 3 4
    = .ok r ∧ StrictAsc ([0, 1, 2, 3, 4, 5, 6, 7] : List ℝ) := by
  have h : StrictAsc ([0, 1, 2, 3, 4, 5, 6, 7] : List ℝ) := by
    unfold StrictAsc
    norm_num
  obtain ⟨r, hr⟩ := C57_returns ([0, 1, 2, 3, 4, 5, 6, 7] : List ℝ) [0, 1, 2, 3, 4, 5, 6, 9] 3 4
    (by norm_num) h (by simp) (by simp) (by simp)
  exact ⟨r, hr, h⟩

end TC
