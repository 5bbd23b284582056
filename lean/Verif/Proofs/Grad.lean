import Verif.Proofs.AdjustMat
import Mathlib.Analysis.SpecialFunctions.Trigonometric.Deriv
/-!
Derivatives of the equations over the real numbers.
-/
namespace TC
open Obs Adjust Equations

@[fun_prop] theorem set_getD_diff (a : List ℝ) (i n : Nat) : Differentiable ℝ (fun t => (a.set i t).getD n 0) := by
  have : (fun t => (a.set i t).getD n 0) = fun t => if i = n ∧ i < a.length then t else a.getD n 0 := by
    funext t
    rw [List.getD_eq_getElem?_getD, List.getElem?_set, List.getD_eq_getElem?_getD]
    by_cases h : i = n
    · subst h
      by_cases hl : i < a.length
      · simp [hl]
      · simp [hl]
    · simp [h]
  rw [this]
  split_ifs <;> fun_prop

theorem rel_diff (ax : Axis3) (a : List ℝ) (i : Nat) : Differentiable ℝ (fun t => rel realTrig ax (a.set i t)) := by
  cases ax <;>
    simp only [rel, funX, funY, funZ, transformedX, transformedY, transformedZ, helmertX, helmertY, helmertZ,
      leverTime, leverTimeX, leverTimeY, leverTimeZ, realTrig] <;> fun_prop

/-- what `autograd` gives for one of the equations -/
theorem rel_grad {D : Grad ℝ} (hD : IsGrad D) (ax : Axis3) (a : List ℝ) (i : Nat) (hi : i < a.length) :
    HasDerivAt (fun t => rel realTrig ax (a.set i t)) (D (rel realTrig ax) i a) (a.getD i 0) := by
  rw [hD _ _ _ hi]
  exact (rel_diff ax a i _).hasDerivAt

theorem list_of_6 {α : Type} (b : List α) (h : b.length = 6) : ∃ b0 b1 b2 b3 b4 b5, b = [b0, b1, b2, b3, b4, b5] := by
  match b, h with
  | [b0, b1, b2, b3, b4, b5], _ => exact ⟨b0, b1, b2, b3, b4, b5, rfl⟩

theorem list_of_9 {α : Type} (b : List α) (h : b.length = 9) : ∃ b0 b1 b2 b3 b4 b5 b6 b7 b8, b = [b0, b1, b2, b3, b4, b5, b6, b7, b8] := by
  match b, h with
  | [b0, b1, b2, b3, b4, b5, b6, b7, b8], _ => exact ⟨b0, b1, b2, b3, b4, b5, b6, b7, b8, rfl⟩

theorem list_of_11 {α : Type} (b : List α) (h : b.length = 11) : ∃ b0 b1 b2 b3 b4 b5 b6 b7 b8 b9 b10, b = [b0, b1, b2, b3, b4, b5, b6, b7, b8, b9, b10] := by
  match b, h with
  | [b0, b1, b2, b3, b4, b5, b6, b7, b8, b9, b10], _ => exact ⟨b0, b1, b2, b3, b4, b5, b6, b7, b8, b9, b10, rfl⟩

theorem list_of_12 {α : Type} (b : List α) (h : b.length = 12) : ∃ b0 b1 b2 b3 b4 b5 b6 b7 b8 b9 b10 b11, b = [b0, b1, b2, b3, b4, b5, b6, b7, b8, b9, b10, b11] := by
  match b, h with
  | [b0, b1, b2, b3, b4, b5, b6, b7, b8, b9, b10, b11], _ => exact ⟨b0, b1, b2, b3, b4, b5, b6, b7, b8, b9, b10, b11, rfl⟩

theorem rel_target (ax : Axis3) (a : List ℝ) (x : ℝ) (ha : 3 < a.length) :
    HasDerivAt (fun t => rel realTrig ax (a.set 3 t)) (-1) x := by
  have h3 : ∀ t : ℝ, (a.set 3 t).getD 3 0 = t := by
    intro t
    simp [List.getD_eq_getElem?_getD, ha]
  have hn : ∀ (n : Nat) (t : ℝ), n ≠ 3 → (a.set 3 t).getD n 0 = a.getD n 0 := by
    intro n t h
    rw [List.getD_eq_getElem?_getD, List.getElem?_set, if_neg (Ne.symm h), ← List.getD_eq_getElem?_getD]
  cases ax <;> simp only [rel, funX, funY, funZ, h3, hn _ _ (by decide : (0 : Nat) ≠ 3), hn _ _ (by decide : 1 ≠ 3),
    hn _ _ (by decide : 2 ≠ 3), hn _ _ (by decide : 4 ≠ 3), hn _ _ (by decide : 5 ≠ 3), hn _ _ (by decide : 6 ≠ 3),
    hn _ _ (by decide : 7 ≠ 3), hn _ _ (by decide : 8 ≠ 3), hn _ _ (by decide : 9 ≠ 3), hn _ _ (by decide : 10 ≠ 3),
    hn _ _ (by decide : 11 ≠ 3), hn _ _ (by decide : 12 ≠ 3), hn _ _ (by decide : 13 ≠ 3), hn _ _ (by decide : 14 ≠ 3),
    hn _ _ (by decide : 15 ≠ 3), hn _ _ (by decide : 16 ≠ 3), hn _ _ (by decide : 17 ≠ 3), hn _ _ (by decide : 18 ≠ 3)] <;>
    exact ((hasDerivAt_id x).neg).add_const _

/-- the equations of one epoch as functions of its numbers -/
theorem condRow_deriv {D : Grad ℝ} (hD : IsGrad D) (e : EstSettings) (q : Params ℝ) (b : List ℝ)
    (hb : b.length = perEpoch e) (c : Nat) (hc : c < 3) (r : Nat) (hr : r < perEpoch e) :
    HasDerivAt (fun t => coord (misfit realTrig q (epochOfNumbers e (b.set r t))) c)
      ((condRow D realTrig e (epochOfNumbers e b) q (axisNo c)).getD r 0) (b.getD r 0) := by
  simp only [← rel_args]
  have hg := fun (a : Arg) (h : argNo (axisNo c) a < (argsOf (epochOfNumbers e b) q (axisNo c)).length) =>
    rel_grad hD (axisNo c) (argsOf (epochOfNumbers e b) q (axisNo c)) (argNo (axisNo c) a) h
  have hneg := fun x => rel_target (axisNo c) (argsOf (epochOfNumbers e b) q (axisNo c)) x
  have h0 : ∀ x : ℝ, HasDerivAt (fun _ => rel realTrig (axisNo c) (argsOf (epochOfNumbers e b) q (axisNo c))) 0 x :=
    fun x => hasDerivAt_const _ _
  unfold condRow epochOfNumbers pointAt
  unfold epochOfNumbers pointAt at hg hneg h0
  unfold perEpoch at hr hb
  rcases hl : e.leverarmEnabled with _ | _ <;> rcases ht : e.timeShiftEnabled with _ | _ <;>
    simp only [hl, ht, if_true, if_false, Bool.false_eq_true, Nat.add_zero, Bool.and_true, Bool.and_false,
      Bool.not_true, Bool.not_false] at hg hneg h0 hb hr ⊢
  · obtain ⟨b0, b1, b2, b3, b4, b5, rfl⟩ := list_of_6 b hb
    rcases c with _ | _ | _ | c
    · interval_cases r
      · exact hg .fromX (by decide : 0 < 19)
      · exact hg .fromY (by decide : 1 < 19)
      · exact hg .fromZ (by decide : 2 < 19)
      · exact hneg _ (by decide : 3 < 19)
      · exact h0 _
      · exact h0 _
    · interval_cases r
      · exact hg .fromX (by decide : 0 < 19)
      · exact hg .fromY (by decide : 1 < 19)
      · exact hg .fromZ (by decide : 2 < 19)
      · exact h0 _
      · exact hneg _ (by decide : 3 < 19)
      · exact h0 _
    · interval_cases r
      · exact hg .fromX (by decide : 0 < 18)
      · exact hg .fromY (by decide : 1 < 18)
      · exact hg .fromZ (by decide : 2 < 18)
      · exact h0 _
      · exact h0 _
      · exact hneg _ (by decide : 3 < 18)
    · omega
  · obtain ⟨b0, b1, b2, b3, b4, b5, b6, b7, b8, rfl⟩ := list_of_9 b hb
    rcases c with _ | _ | _ | c
    · interval_cases r
      · exact hg .fromX (by decide : 0 < 19)
      · exact hg .fromY (by decide : 1 < 19)
      · exact hg .fromZ (by decide : 2 < 19)
      · exact hneg _ (by decide : 3 < 19)
      · exact h0 _
      · exact h0 _
      · exact hg .speedX (by decide : 7 < 19)
      · exact hg .speedY (by decide : 8 < 19)
      · exact hg .speedZ (by decide : 9 < 19)
    · interval_cases r
      · exact hg .fromX (by decide : 0 < 19)
      · exact hg .fromY (by decide : 1 < 19)
      · exact hg .fromZ (by decide : 2 < 19)
      · exact h0 _
      · exact hneg _ (by decide : 3 < 19)
      · exact h0 _
      · exact hg .speedX (by decide : 7 < 19)
      · exact hg .speedY (by decide : 8 < 19)
      · exact hg .speedZ (by decide : 9 < 19)
    · interval_cases r
      · exact hg .fromX (by decide : 0 < 18)
      · exact hg .fromY (by decide : 1 < 18)
      · exact hg .fromZ (by decide : 2 < 18)
      · exact h0 _
      · exact h0 _
      · exact hneg _ (by decide : 3 < 18)
      · exact hg .speedX (by decide : 7 < 18)
      · exact hg .speedY (by decide : 8 < 18)
      · exact hg .speedZ (by decide : 9 < 18)
    · omega
  · obtain ⟨b0, b1, b2, b3, b4, b5, b6, b7, b8, rfl⟩ := list_of_9 b hb
    rcases c with _ | _ | _ | c
    · interval_cases r
      · exact hg .fromX (by decide : 0 < 19)
      · exact hg .fromY (by decide : 1 < 19)
      · exact hg .fromZ (by decide : 2 < 19)
      · exact hneg _ (by decide : 3 < 19)
      · exact h0 _
      · exact h0 _
      · exact hg .eulerX (by decide : 4 < 19)
      · exact hg .eulerY (by decide : 5 < 19)
      · exact hg .eulerZ (by decide : 6 < 19)
    · interval_cases r
      · exact hg .fromX (by decide : 0 < 19)
      · exact hg .fromY (by decide : 1 < 19)
      · exact hg .fromZ (by decide : 2 < 19)
      · exact h0 _
      · exact hneg _ (by decide : 3 < 19)
      · exact h0 _
      · exact hg .eulerX (by decide : 4 < 19)
      · exact hg .eulerY (by decide : 5 < 19)
      · exact hg .eulerZ (by decide : 6 < 19)
    · interval_cases r
      · exact hg .fromX (by decide : 0 < 18)
      · exact hg .fromY (by decide : 1 < 18)
      · exact hg .fromZ (by decide : 2 < 18)
      · exact h0 _
      · exact h0 _
      · exact hneg _ (by decide : 3 < 18)
      · exact hg .eulerX (by decide : 4 < 18)
      · exact hg .eulerY (by decide : 5 < 18)
      · exact hg .eulerZ (by decide : 6 < 18)
    · omega
  · obtain ⟨b0, b1, b2, b3, b4, b5, b6, b7, b8, b9, b10, b11, rfl⟩ := list_of_12 b hb
    rcases c with _ | _ | _ | c
    · interval_cases r
      · exact hg .fromX (by decide : 0 < 19)
      · exact hg .fromY (by decide : 1 < 19)
      · exact hg .fromZ (by decide : 2 < 19)
      · exact hneg _ (by decide : 3 < 19)
      · exact h0 _
      · exact h0 _
      · exact hg .eulerX (by decide : 4 < 19)
      · exact hg .eulerY (by decide : 5 < 19)
      · exact hg .eulerZ (by decide : 6 < 19)
      · exact hg .speedX (by decide : 7 < 19)
      · exact hg .speedY (by decide : 8 < 19)
      · exact hg .speedZ (by decide : 9 < 19)
    · interval_cases r
      · exact hg .fromX (by decide : 0 < 19)
      · exact hg .fromY (by decide : 1 < 19)
      · exact hg .fromZ (by decide : 2 < 19)
      · exact h0 _
      · exact hneg _ (by decide : 3 < 19)
      · exact h0 _
      · exact hg .eulerX (by decide : 4 < 19)
      · exact hg .eulerY (by decide : 5 < 19)
      · exact hg .eulerZ (by decide : 6 < 19)
      · exact hg .speedX (by decide : 7 < 19)
      · exact hg .speedY (by decide : 8 < 19)
      · exact hg .speedZ (by decide : 9 < 19)
    · interval_cases r
      · exact hg .fromX (by decide : 0 < 18)
      · exact hg .fromY (by decide : 1 < 18)
      · exact hg .fromZ (by decide : 2 < 18)
      · exact h0 _
      · exact h0 _
      · exact hneg _ (by decide : 3 < 18)
      · exact hg .eulerX (by decide : 4 < 18)
      · exact hg .eulerY (by decide : 5 < 18)
      · exact hg .eulerZ (by decide : 6 < 18)
      · exact hg .speedX (by decide : 7 < 18)
      · exact hg .speedY (by decide : 8 < 18)
      · exact hg .speedZ (by decide : 9 < 18)
    · omega

/-- the equations of one epoch as functions of the parameters -/
theorem designRow_deriv {D : Grad ℝ} (hD : IsGrad D) (o : Epoch ℝ) (p : List ℝ) (hp : p.length = 11) (c : Nat) (hc : c < 3)
    (j : Nat) (hj : j < 11) :
    HasDerivAt (fun t => coord (misfit realTrig (paramsOf (p.set j t)) o) c)
      ((designRow D realTrig o (paramsOf p) (axisNo c)).getD j 0) (p.getD j 0) := by
  simp only [← rel_args]
  have hg := fun (a : Arg) (h : argNo (axisNo c) a < (argsOf o (paramsOf p) (axisNo c)).length) =>
    rel_grad hD (axisNo c) (argsOf o (paramsOf p) (axisNo c)) (argNo (axisNo c) a) h
  have h0 : ∀ x : ℝ, HasDerivAt (fun _ => rel realTrig (axisNo c) (argsOf o (paramsOf p) (axisNo c))) 0 x :=
    fun x => hasDerivAt_const _ _
  unfold paramsOf
  unfold paramsOf at hg h0
  obtain ⟨p0, p1, p2, p3, p4, p5, p6, p7, p8, p9, p10, rfl⟩ := list_of_11 p hp
  rcases c with _ | _ | _ | c
  · interval_cases j
    · exact hg .trans (by decide : 10 < 19)
    · exact h0 _
    · exact h0 _
    · exact hg .rotX (by decide : 11 < 19)
    · exact hg .rotY (by decide : 12 < 19)
    · exact hg .rotZ (by decide : 13 < 19)
    · exact hg .scale (by decide : 14 < 19)
    · exact hg .time (by decide : 15 < 19)
    · exact hg .leverX (by decide : 16 < 19)
    · exact hg .leverY (by decide : 17 < 19)
    · exact hg .leverZ (by decide : 18 < 19)
  · interval_cases j
    · exact h0 _
    · exact hg .trans (by decide : 10 < 19)
    · exact h0 _
    · exact hg .rotX (by decide : 11 < 19)
    · exact hg .rotY (by decide : 12 < 19)
    · exact hg .rotZ (by decide : 13 < 19)
    · exact hg .scale (by decide : 14 < 19)
    · exact hg .time (by decide : 15 < 19)
    · exact hg .leverX (by decide : 16 < 19)
    · exact hg .leverY (by decide : 17 < 19)
    · exact hg .leverZ (by decide : 18 < 19)
  · interval_cases j
    · exact h0 _
    · exact h0 _
    · exact hg .trans (by decide : 10 < 18)
    · exact hg .rotX (by decide : 11 < 18)
    · exact hg .rotY (by decide : 12 < 18)
    · exact h0 _
    · exact hg .scale (by decide : 13 < 18)
    · exact hg .time (by decide : 14 < 18)
    · exact hg .leverX (by decide : 15 < 18)
    · exact hg .leverY (by decide : 16 < 18)
    · exact hg .leverZ (by decide : 17 < 18)
  · omega

/-! ### one number of the vector -/

theorem block_set {K : Type} {p : Nat} (v : List K) (j k : Nat) (hp : 0 < p) (t : K) :
    block p (v.set j t) k = if j / p = k then (block p v k).set (j % p) t else block p v k := by
  have hj : p * (j / p) + j % p = j := Nat.div_add_mod j p
  have hjm : j % p < p := Nat.mod_lt _ hp
  unfold block
  refine List.ext_getElem? fun i => ?_
  rw [List.getElem?_take, List.getElem?_drop, List.getElem?_set]
  by_cases hk : j / p = k
  · rw [if_pos hk, List.getElem?_set, List.getElem?_take, List.getElem?_drop, List.length_take, List.length_drop]
    by_cases hi : i < p
    · rw [if_pos hi, if_pos hi]
      have hkp : k * p = p * (j / p) := by rw [hk, Nat.mul_comm]
      by_cases hij : j % p = i
      · rw [if_pos hij, if_pos (by omega)]
        by_cases hl : k * p + i < v.length
        · rw [if_pos (by omega), if_pos (by omega)]
        · rw [if_neg (by omega), if_neg (by omega)]
      · rw [if_neg hij, if_neg (by omega)]
    · rw [if_neg hi, if_neg (by omega), if_neg hi]
  · rw [if_neg hk, List.getElem?_take, List.getElem?_drop]
    by_cases hi : i < p
    · rw [if_pos hi, if_pos hi, if_neg]
      intro h
      apply hk
      rw [h, Nat.mul_comm, Nat.mul_add_div hp, Nat.div_eq_of_lt hi, Nat.add_zero]
    · rw [if_neg hi, if_neg hi]

theorem block_length {K : Type} {p E : Nat} (v : List K) (hv : v.length = E * p) (k : Nat) (hk : k < E) :
    (block p v k).length = p := by
  unfold block
  rw [List.length_take, List.length_drop, hv]
  have h1 : (k + 1) * p ≤ E * p := Nat.mul_le_mul_right p hk
  rw [Nat.succ_mul] at h1
  omega

end TC
