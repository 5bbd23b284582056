import Verif.Proofs.Ghm
import Verif.Props.Adjust
/-!
One pass of the adjustment, with solvers that solve.
-/
namespace TC
set_option linter.unusedSectionVars false
variable {K : Type} [Field K] [LinearOrder K] [IsStrictOrderedRing K]
open Obs Adjust Equations Matrix

/-- `spsolve` is right: it solves regular systems, and fills its result with NaN for singular ones -/
structure IsAdjLib (lib : AdjLib K) : Prop where
  regular : ∀ (n : Nat) (M : Matrix (Fin n) (Fin n) K) (b : Fin n → K), M.det ≠ 0 →
    ∃ x, lib.solve n M b = some x ∧ M *ᵥ x = b
  singular : ∀ (n : Nat) (M : Matrix (Fin n) (Fin n) K) (b : Fin n → K), M.det = 0 → lib.solve n M b = none
  many : ∀ (n m : Nat) (M : Matrix (Fin n) (Fin n) K) (B : Matrix (Fin n) (Fin m) K), M.det ≠ 0 →
    ∃ X, lib.solveMany n m M B = .ok X ∧ M * X = B

theorem normalMat_ok {lib : AdjLib K} (hlib : IsAdjLib lib) {m u : Nat} (A : Matrix (Fin m) (Fin u) K)
    (bbt : Matrix (Fin m) (Fin m) K) (hd : bbt.det ≠ 0) :
    ∃ X, bbt * X = A ∧ normalMat lib A bbt = .ok (some (Aᵀ * X)) := by
  unfold normalMat
  by_cases hu : u = 1
  · subst hu
    obtain ⟨x, h1, h2⟩ := hlib.regular m bbt (fun i => A i ⟨0, by omega⟩) hd
    refine ⟨fun i _ => x i, ?_, ?_⟩
    · ext i j
      have h3 := congrFun h2 i
      have hj : j = ⟨0, by omega⟩ := Subsingleton.elim _ _
      rw [hj, ← h3]
      rfl
    · rw [if_pos rfl, dif_pos (by omega), h1]
      rfl
  · obtain ⟨X, h1, h2⟩ := hlib.many m u bbt A hd
    refine ⟨X, h2, ?_⟩
    rw [if_neg hu]
    simp only [h1, bind, Except.bind, pure, Except.pure]

theorem deltas_ok {lib : AdjLib K} (hlib : IsAdjLib lib) {m u : Nat} (w : Fin m → K) (A : Matrix (Fin m) (Fin u) K)
    (bbt : Matrix (Fin m) (Fin m) K) (hd : bbt.det ≠ 0) (N : Matrix (Fin u) (Fin u) K)
    (hN : normalMat lib A bbt = .ok (some N)) :
    ∃ y, bbt *ᵥ y = w ∧ (N.det = 0 ∧ deltas lib w A bbt = .ok none ∨
      N.det ≠ 0 ∧ ∃ δ, deltas lib w A bbt = .ok (some δ) ∧ N *ᵥ δ = -(Aᵀ *ᵥ y)) := by
  obtain ⟨y, h1, h2⟩ := hlib.regular m bbt w hd
  refine ⟨y, h2, ?_⟩
  unfold deltas
  rw [hN, h1]
  simp only [bind, Except.bind, pure, Except.pure]
  by_cases hu : u = 1
  · subst hu
    rw [if_pos rfl, det_fin_one]
    by_cases h0 : N 0 0 = 0
    · exact .inl ⟨h0, by rw [if_pos ⟨0, h0⟩]⟩
    · refine .inr ⟨h0, _, by rw [if_neg]; rintro ⟨j, hj⟩; rw [Subsingleton.elim j 0] at hj; exact h0 hj, ?_⟩
      funext j
      rw [Subsingleton.elim j 0]
      simp only [mulVec, dotProduct, Fin.sum_univ_one, Pi.neg_apply]
      field_simp
  · rw [if_neg hu]
    by_cases h0 : N.det = 0
    · exact .inl ⟨h0, by rw [hlib.singular _ _ _ h0]; rfl⟩
    · obtain ⟨x, h3, h4⟩ := hlib.regular u N (Aᵀ *ᵥ y) h0
      exact .inr ⟨h0, -x, by rw [h3]; rfl, by rw [mulVec_neg, h4]⟩

/-- the target coordinate of an equation occurs in no other equation -/
theorem cond_own (D : Grad K) (τ : Trig K) (e : EstSettings) (eps : List (Epoch K)) (q : Params K) :
    OwnColumn (condMatrix D τ e eps q) := by
  have hp := perEpoch_pos e
  have hcol : ∀ (o : Epoch K) (c c' : Nat), c < 3 → c' < 3 →
      (condRow D τ e o q (axisNo c')).getD (3 + c) 0 = if c' = c then -1 else 0 := by
    intro o c c' hc hc'
    have h1 : ∃ r, condRow D τ e o q (axisNo c') = condFrom D τ o q (axisNo c') ++ (condTo (axisNo c') ++ r) := by
      unfold condRow
      split_ifs
      · exact ⟨condRpy D τ o q (axisNo c'), by simp⟩
      · exact ⟨condSpeed D τ o q (axisNo c'), by simp⟩
      · exact ⟨condRpy D τ o q (axisNo c') ++ condSpeed D τ o q (axisNo c'), by simp⟩
      · exact ⟨[], by simp⟩
    obtain ⟨r, h1⟩ := h1
    rw [h1]
    interval_cases c <;> interval_cases c' <;> rfl
  intro i
  have hi : i.val / 3 < eps.length := by have := i.2; omega
  have hb : i.val / 3 * perEpoch e + (3 + i.val % 3) < eps.length * perEpoch e := by
    have h1 : (i.val / 3 + 1) * perEpoch e ≤ eps.length * perEpoch e := Nat.mul_le_mul_right _ hi
    rw [Nat.succ_mul] at h1
    omega
  have hd : (i.val / 3 * perEpoch e + (3 + i.val % 3)) / perEpoch e = i.val / 3 := by
    rw [Nat.mul_comm, Nat.mul_add_div (by omega), Nat.div_eq_of_lt (a := 3 + i.val % 3) (by omega), Nat.add_zero]
  have hm : (i.val / 3 * perEpoch e + (3 + i.val % 3)) % perEpoch e = 3 + i.val % 3 := by
    rw [Nat.mul_comm, Nat.mul_add_mod, Nat.mod_eq_of_lt (by omega)]
  refine ⟨⟨_, hb⟩, ?_, fun i' hne => ?_⟩
  · rw [condMatrix_entry _ _ _ _ _ _ _ _ (List.getElem?_eq_getElem hi)]
    simp only [hd, hm, if_true]
    rw [hcol _ _ _ (by omega) (by omega), if_pos rfl]
    norm_num
  · have hi' : i'.val / 3 < eps.length := by have := i'.2; omega
    rw [condMatrix_entry _ _ _ _ _ _ _ _ (List.getElem?_eq_getElem hi')]
    simp only [hd, hm]
    split
    · rename_i he
      rw [hcol _ _ _ (by omega) (by omega), if_neg]
      intro hc
      refine hne (Fin.ext ?_)
      omega
    · rfl

/-- the quantities of a pass -/
structure PassParts (c : AdjCfg K) (var : List K) (s : AdjState K) (rows : List (List K)) : Prop where
  singular : step c var s = .ok none ↔
    ∃ δ, δ ≠ 0 ∧ (Direct.toMat ((epochsOf c.e (estObs c.obs s.res)).length * 3)
      (c.e.lqParameterFilter.filter id).length rows) *ᵥ δ = 0
  regular : ∀ t, step c var s = .ok (some t) →
    ∃ (δ : Fin (c.e.lqParameterFilter.filter id).length → K)
      (v : Fin ((epochsOf c.e (estObs c.obs s.res)).length * perEpoch c.e) → K),
      t.delta = .nums (List.ofFn δ) ∧ t.res = List.ofFn v ∧ s.params.addValuesEnabled (List.ofFn δ) = .ok t.params ∧
      (Direct.toVec _ s.w + Direct.toMat _ _ rows *ᵥ δ + condMatrix c.D c.τ c.e
        (epochsOf c.e (estObs c.obs s.res)) (paramsOf s.params.values) *ᵥ v = 0) ∧
      (∀ (δ' : Fin (c.e.lqParameterFilter.filter id).length → K) v', Direct.toVec _ s.w + Direct.toMat _ _ rows *ᵥ δ' + condMatrix c.D c.τ c.e
        (epochsOf c.e (estObs c.obs s.res)) (paramsOf s.params.values) *ᵥ v' = 0 →
        ∑ j, v j ^ 2 / Direct.toVec _ var j ≤ ∑ j, v' j ^ 2 / Direct.toVec _ var j) ∧
      ∃ f, evalRel c.τ (epochsOf c.e (estObs c.obs t.res)) (paramsOf t.params.values) = .ok f ∧
        t.w = List.zipWith (fun a b => a - b) f (List.ofFn (condMatrix c.D c.τ c.e
        (epochsOf c.e (estObs c.obs s.res)) (paramsOf s.params.values) *ᵥ v))

theorem step_parts {c : AdjCfg K} (hlib : IsAdjLib c.lib) (var : List K) (s : AdjState K)
    (hvar : ∀ j : Fin ((epochsOf c.e (estObs c.obs s.res)).length * perEpoch c.e), 0 < Direct.toVec _ var j)
    (rows : List (List K)) (hrows : design c (epochsOf c.e (estObs c.obs s.res)) (paramsOf s.params.values) = .ok rows) :
    PassParts c var s rows := by
  have hB := cond_own c.D c.τ c.e (epochsOf c.e (estObs c.obs s.res)) (paramsOf s.params.values)
  have hd := bbt_det hB hvar
  obtain ⟨X, hX, hN⟩ := normalMat_ok hlib (Direct.toMat ((epochsOf c.e (estObs c.obs s.res)).length * 3)
      (c.e.lqParameterFilter.filter id).length rows) _ hd
  obtain ⟨y, hy, hδ⟩ := deltas_ok hlib (Direct.toVec _ s.w) _ _ hd _ hN
  have hsing := normal_singular hB hvar hX
  rcases hδ with ⟨h1, h2⟩ | ⟨h1, δ, h2, h3⟩
  · have hs : step c var s = .ok none := by
      unfold step
      simp only [hrows, hN, h2, bind, Except.bind, pure, Except.pure]
    exact ⟨⟨fun _ => hsing.1 h1, fun _ => hs⟩, fun t ht => by rw [hs] at ht; cases ht⟩
  · obtain ⟨k, hk1, hk2⟩ := hlib.regular _ _ (Direct.toMat _ _ rows *ᵥ δ + Direct.toVec _ s.w) hd
    obtain ⟨ho1, ho2⟩ := pass_optimal hB hvar hX hy h3 hk2
    have hs := step.eq_1 c var s
    simp only [hrows, hN, h2, hk1, bind, Except.bind, pure, Except.pure] at hs
    refine ⟨⟨fun h => ?_, fun h => absurd (hsing.2 h) h1⟩, fun t ht => ?_⟩
    · exfalso
      rw [h] at hs
      split at hs
      · cases hs
      · split at hs <;> cases hs
    · rw [ht] at hs
      split at hs
      · cases hs
      · rename_i params hparams
        split at hs
        · cases hs
        · rename_i f hf
          cases hs
          exact ⟨δ, _, rfl, rfl, hparams, ho1, ho2, f, hf, rfl⟩

end TC
