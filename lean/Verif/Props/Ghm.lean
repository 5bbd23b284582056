import Verif.Proofs.GhmStep
import Verif.Props.Lever
import Verif.Props.Arc
/-!
# C115: parameters that cannot be determined; C116: what a pass of the adjustment does
-/
namespace TC
set_option linter.unusedSectionVars false
open Obs Adjust Equations Matrix

theorem estObs_length {K : Type} [Field K] [LinearOrder K] {obs res : List K} {n : Nat} (ho : obs.length = n)
    (hr : res.length = n) : (estObs obs res).length = n := by
  unfold estObs
  rw [List.length_zipWith, ho, hr, Nat.min_self]

theorem toVec_pos {K : Type} [Field K] [LinearOrder K] {var : List K} {n : Nat} (hv : var.length = n)
    (hvar : ∀ x ∈ var, 0 < x) (j : Fin n) : 0 < Direct.toVec n var j := by
  unfold Direct.toVec
  have hj : j.val < var.length := by rw [hv]; exact j.2
  rw [List.getD_eq_getElem?_getD, List.getElem?_eq_getElem hj]
  exact hvar _ (List.getElem_mem _)

/-- the matrices that a pass uses are the derivatives -/
theorem linearised {c : AdjCfg ℝ} (hD : IsGrad c.D) (hτ : c.τ = realTrig) (E : Nat) (v p : List ℝ)
    (hv : v.length = E * perEpoch c.e) (hp : p.length = 11) :
    ∃ rows, design c (epochsOf c.e v) (paramsOf p) = .ok rows ∧
      Linearised c.e p v (Direct.toMat ((epochsOf c.e v).length * 3) (c.e.lqParameterFilter.filter id).length rows)
        (condMatrix c.D c.τ c.e (epochsOf c.e v) (paramsOf p)) := by
  obtain ⟨rows, h1, h2, h3⟩ := C80_design_matrix hD hτ E v p hv hp
  refine ⟨rows, h1, ⟨fun i a j ha => ?_, fun i j => ?_⟩⟩
  · have hi : i.val < E * 3 := by
      have := i.2
      have h4 : (epochsOf c.e v).length * 3 = E * 3 := by rw [epochsOf_length v hv]
      omega
    obtain ⟨r, h4, h5, h6⟩ := h3 i.val hi
    have := h6 a.val j ha
    unfold Direct.toMat
    rw [List.getD_eq_getElem?_getD (l := rows), h4]
    exact this
  · rw [hτ]
    exact C79_condition_matrix hD c.e (paramsOf p) E v hv i j

/-- C116: each pass solves the equations, linearised at the current estimates, for corrections of the parameters
and residuals of the observations, and its residuals have the least weighted sum of squares among all solutions. -/
theorem C116_pass_optimal {c : AdjCfg ℝ} (hD : IsGrad c.D) (hτ : c.τ = realTrig) (hlib : IsAdjLib c.lib) (E : Nat)
    (var : List ℝ) (s t : AdjState ℝ) (ho : c.obs.length = E * perEpoch c.e) (hr : s.res.length = E * perEpoch c.e)
    (hp : s.params.values.length = 11) (hv : var.length = E * perEpoch c.e) (hvar : ∀ x ∈ var, 0 < x)
    (h : step c var s = .ok (some t)) :
    ∃ (A : Matrix (Fin (E * 3)) (Fin (estimated c.e).length) ℝ) (B : Matrix (Fin (E * 3)) (Fin (E * perEpoch c.e)) ℝ)
      (δ : Fin (estimated c.e).length → ℝ) (v : Fin (E * perEpoch c.e) → ℝ),
      Linearised c.e s.params.values (List.zipWith (· + ·) c.obs s.res) A B ∧
      t.delta = .nums (List.ofFn δ) ∧ t.res = List.ofFn v ∧
      (∀ i, s.w.getD i.val 0 + (A *ᵥ δ) i + (B *ᵥ v) i = 0) ∧
      (∀ δ' v', (∀ i, s.w.getD i.val 0 + (A *ᵥ δ') i + (B *ᵥ v') i = 0) →
        ∑ j, v j ^ 2 / var.getD j.val 0 ≤ ∑ j, v' j ^ 2 / var.getD j.val 0) ∧
      t.w = List.ofFn (fun i : Fin (E * 3) =>
        equation realTrig c.e (paramsOf t.params.values) (List.zipWith (· + ·) c.obs t.res) i - (B *ᵥ v) i) := by
  have hve := estObs_length ho hr
  have hE := epochsOf_length (e := c.e) _ hve
  have hu := filter_length_estimated c.e
  obtain ⟨rows, h1, h2⟩ := linearised hD hτ E _ _ hve hp
  have key : ∀ m u, m = (epochsOf c.e (estObs c.obs s.res)).length →
      u = (c.e.lqParameterFilter.filter id).length →
      ∃ (A : Matrix (Fin (m * 3)) (Fin u) ℝ) (B : Matrix (Fin (m * 3)) (Fin (m * perEpoch c.e)) ℝ)
      (δ : Fin u → ℝ) (v : Fin (m * perEpoch c.e) → ℝ),
      Linearised c.e s.params.values (List.zipWith (· + ·) c.obs s.res) A B ∧
      t.delta = .nums (List.ofFn δ) ∧ t.res = List.ofFn v ∧
      (∀ i, s.w.getD i.val 0 + (A *ᵥ δ) i + (B *ᵥ v) i = 0) ∧
      (∀ δ' v', (∀ i, s.w.getD i.val 0 + (A *ᵥ δ') i + (B *ᵥ v') i = 0) →
        ∑ j, v j ^ 2 / var.getD j.val 0 ≤ ∑ j, v' j ^ 2 / var.getD j.val 0) ∧
      t.w = List.ofFn (fun i : Fin (m * 3) =>
        equation realTrig c.e (paramsOf t.params.values) (List.zipWith (· + ·) c.obs t.res) i - (B *ᵥ v) i) := by
    rintro _ _ rfl rfl
    have hvar' : ∀ j : Fin ((epochsOf c.e (estObs c.obs s.res)).length * perEpoch c.e), 0 < Direct.toVec _ var j :=
      toVec_pos (by rw [hv, hE]) hvar
    obtain ⟨δ, v, k1, k2, k3, k4, k5, f, k6, k7⟩ := (step_parts hlib var s hvar' rows h1).regular t h
    refine ⟨_, _, δ, v, h2, k1, k2, fun i => congrFun k4 i, fun δ' v' h' => k5 δ' v' (funext h'), ?_⟩
    have hl : (estObs c.obs t.res).length = E * perEpoch c.e := by
      refine estObs_length ho ?_
      rw [k2, List.length_ofFn, hE]
    rw [hτ, evalRel_eq realTrig c.e _ _ hl] at k6
    cases k6
    rw [k7]
    refine List.ext_getElem? fun i => ?_
    rw [List.getElem?_zipWith, List.getElem?_map]
    by_cases hi : i < (epochsOf c.e (estObs c.obs s.res)).length * 3
    · rw [List.getElem?_range (by rw [← hE]; exact hi), List.getElem?_ofFn, List.getElem?_ofFn, dif_pos hi, dif_pos hi]
      rfl
    · rw [List.getElem?_eq_none (l := List.ofFn _) (by rw [List.length_ofFn]; omega),
        List.getElem?_eq_none (l := List.ofFn _) (by rw [List.length_ofFn]; omega)]
      split <;> simp_all
  exact key E _ hE.symm hu.symm

/-- C116: if a pass changes nothing, the adjusted observations satisfy all equations exactly. -/
theorem C116_fixpoint {c : AdjCfg ℝ} (hD : IsGrad c.D) (hτ : c.τ = realTrig) (hlib : IsAdjLib c.lib) (E : Nat)
    (var : List ℝ) (s t : AdjState ℝ) (ho : c.obs.length = E * perEpoch c.e) (hr : s.res.length = E * perEpoch c.e)
    (hp : s.params.values.length = 11) (hv : var.length = E * perEpoch c.e) (hvar : ∀ x ∈ var, 0 < x)
    (h : step c var s = .ok (some t)) (hw : t.w = s.w)
    (hδ : t.delta = .nums (List.replicate (estimated c.e).length 0)) (i : Nat) (hi : i < E * 3) :
    equation realTrig c.e (paramsOf t.params.values) (List.zipWith (· + ·) c.obs t.res) i = 0 := by
  obtain ⟨A, B, δ, v, -, h2, -, h4, -, h6⟩ := C116_pass_optimal hD hτ hlib E var s t ho hr hp hv hvar h
  have h7 : δ = 0 := by
    rw [h2] at hδ
    have h8 : List.ofFn δ = List.replicate (estimated c.e).length 0 := by injection hδ
    funext a
    have := congrArg (fun l : List ℝ => l[a.val]?) h8
    simpa using this
  have h9 := h4 ⟨i, hi⟩
  rw [h7, mulVec_zero, ← hw, h6] at h9
  simp only [List.getD_eq_getElem?_getD, List.getElem?_ofFn, dif_pos hi, Option.getD_some, Pi.zero_apply] at h9
  linarith

/-- C115: a pass ends in NaN exactly if some change of the estimated parameters has no influence on any of the
linearised equations. -/
theorem C115_nan_iff {c : AdjCfg ℝ} (hD : IsGrad c.D) (hτ : c.τ = realTrig) (hlib : IsAdjLib c.lib) (E : Nat)
    (var : List ℝ) (s : AdjState ℝ) (ho : c.obs.length = E * perEpoch c.e) (hr : s.res.length = E * perEpoch c.e)
    (hp : s.params.values.length = 11) (hv : var.length = E * perEpoch c.e) (hvar : ∀ x ∈ var, 0 < x) :
    ∃ (A : Matrix (Fin (E * 3)) (Fin (estimated c.e).length) ℝ) (B : Matrix (Fin (E * 3)) (Fin (E * perEpoch c.e)) ℝ),
      Linearised c.e s.params.values (List.zipWith (· + ·) c.obs s.res) A B ∧
      (step c var s = .ok none ↔ ∃ δ, δ ≠ 0 ∧ A *ᵥ δ = 0) := by
  have hve := estObs_length ho hr
  have hE := epochsOf_length (e := c.e) _ hve
  have hu := filter_length_estimated c.e
  obtain ⟨rows, h1, h2⟩ := linearised hD hτ E _ _ hve hp
  have key : ∀ m u, m = (epochsOf c.e (estObs c.obs s.res)).length →
      u = (c.e.lqParameterFilter.filter id).length →
      ∃ (A : Matrix (Fin (m * 3)) (Fin u) ℝ) (B : Matrix (Fin (m * 3)) (Fin (m * perEpoch c.e)) ℝ),
      Linearised c.e s.params.values (List.zipWith (· + ·) c.obs s.res) A B ∧
      (step c var s = .ok none ↔ ∃ δ, δ ≠ 0 ∧ A *ᵥ δ = 0) := by
    rintro _ _ rfl rfl
    have hvar' : ∀ j : Fin ((epochsOf c.e (estObs c.obs s.res)).length * perEpoch c.e), 0 < Direct.toVec _ var j :=
      toVec_pos (by rw [hv, hE]) hvar
    exact ⟨_, _, h2, (step_parts hlib var s hvar' rows h1).singular⟩
  exact key E _ hE.symm hu.symm

/-! ### a platform that never turns -/

theorem hasDerivAt_affine {f : ℝ → ℝ} (b c x : ℝ) (h : ∀ t, f t = b * t + c) : HasDerivAt f b x := by
  have : f = fun t => b * t + c := funext h
  rw [this]
  have h1 : HasDerivAt (fun t : ℝ => b * t) (b * 1) x := (hasDerivAt_id x).const_mul b
  rw [mul_one] at h1
  exact h1.add_const c

/-- how the misfit changes with the first component of the lever arm, for attitude `a` -/
noncomputable def leverEffect (q : Params ℝ) (a : V3 ℝ) : V3 ℝ :=
  q.scale • mulV (eulerMat realTrig q.rot) (mulV (eulerMat realTrig a) ⟨1, 0, 0⟩)

theorem paramsOf_set_trans (p : List ℝ) (hp : p.length = 11) (e : EstSettings) (v : List ℝ) (i j : Nat) (hj : j < 3)
    (x : ℝ) : HasDerivAt (fun t => equation realTrig e (paramsOf (p.set j t)) v i)
      (if i % 3 = j then 1 else 0) x := by
  obtain ⟨b0, b1, b2, b3, b4, b5, b6, b7, b8, b9, b10, rfl⟩ := list_of_11 p hp
  have hi : i % 3 < 3 := by omega
  unfold equation
  generalize i % 3 = c at *
  generalize epochOfNumbers e (block (perEpoch e) v (i / 3)) = o
  generalize hq : paramsOf [b0, b1, b2, b3, b4, b5, b6, b7, b8, b9, b10] = q
  refine hasDerivAt_affine _ (coord (misfit realTrig q o) c - (if c = j then 1 else 0) * coord q.trans j) _ fun t => ?_
  subst hq
  unfold misfit
  interval_cases j <;> interval_cases c <;>
    simp [coord, paramsOf, V3.add_x, V3.add_y, V3.add_z, V3.sub_x, V3.sub_y, V3.sub_z] <;> ring

theorem paramsOf_set_lever (p : List ℝ) (hp : p.length = 11) (e : EstSettings) (v : List ℝ) (i : Nat) (x : ℝ) :
    HasDerivAt (fun t => equation realTrig e (paramsOf (p.set 8 t)) v i)
      (coord (leverEffect (paramsOf p) (epochOfNumbers e (block (perEpoch e) v (i / 3))).rpy) (i % 3)) x := by
  obtain ⟨b0, b1, b2, b3, b4, b5, b6, b7, b8, b9, b10, rfl⟩ := list_of_11 p hp
  have hi : i % 3 < 3 := by omega
  unfold equation
  generalize i % 3 = c at *
  generalize epochOfNumbers e (block (perEpoch e) v (i / 3)) = o
  generalize hq : paramsOf [b0, b1, b2, b3, b4, b5, b6, b7, b8, b9, b10] = q
  refine hasDerivAt_affine _ (coord (misfit realTrig q o) c - coord (leverEffect q o.rpy) c * b8) _ fun t => ?_
  subst hq
  unfold misfit leverEffect
  simp only [paramsOf, List.set, List.getD_eq_getElem?_getD, List.getElem?_cons_zero, List.getElem?_cons_succ,
    Option.getD_some]
  generalize eulerMat realTrig (⟨b3, b4, b5⟩ : V3 ℝ) = R
  generalize eulerMat realTrig o.rpy = S
  interval_cases c <;>
    simp [coord, mulV, V3.add_x, V3.add_y, V3.add_z, V3.sub_x, V3.sub_y, V3.sub_z, V3.smul_x, V3.smul_y, V3.smul_z] <;> ring

theorem sum_filter_map (l : List Nat) (P : Nat → Bool) (g : Nat → ℝ) :
    ((l.filter P).map g).sum = (l.map (fun j => if P j then g j else 0)).sum := by
  induction l with
  | nil => rfl
  | cons x l ih =>
    rw [List.filter_cons]
    cases h : P x <;> simp [h, ih]

theorem mulVec_estimated (e : EstSettings) {m : Nat} (A : Matrix (Fin m) (Fin (estimated e).length) ℝ) (g d : Nat → ℝ)
    (i : Fin m) (hA : ∀ (a : Fin (estimated e).length) (j : Nat), (estimated e)[a.val]? = some j → A i a * d j = g j) :
    (A *ᵥ fun a => d ((estimated e)[a.val])) i = ((estimated e).map g).sum := by
  unfold mulVec dotProduct
  have h1 : ∀ a : Fin (estimated e).length, A i a * d ((estimated e)[a.val]) = g ((estimated e)[a.val]) :=
    fun a => hA a _ (List.getElem?_eq_getElem a.2)
  rw [Finset.sum_congr rfl fun a _ => h1 a, ← List.sum_ofFn]
  refine congrArg _ (List.ext_getElem (by simp) fun k h2 h3 => by simp)

/-- the first pass ends in NaN -/
theorem nan_reported {i : InitLib ℝ} {c : AdjCfg ℝ} {varEst : Bool} {var : List ℝ} {init : PSet ℝ} {s : AdjState ℝ}
    (hi : initParameters i c.τ c.e c.obs = .ok init) (hd : c.e.allLqDisabled = false)
    (hth : ∃ t, some t ∈ c.thresholds) (hs : start c init = .ok s) (hδ : s.delta = .inf)
    (hn : step c var s = .ok none) : estimate i c varEst var = .ok ⟨none, true⟩ := by
  have h1 : exceeds c.thresholds s.delta = true := by
    obtain ⟨t, ht⟩ := hth
    rw [hδ]
    exact List.any_eq_true.2 ⟨_, ht, rfl⟩
  have h2 : estimateOnce c var init = .ok ⟨none, true, 1⟩ := by
    unfold estimateOnce
    rw [hs]
    simp only [bind, Except.bind, pure, Except.pure]
    rw [loop, if_pos h1, if_neg (by omega), hn]
    rfl
  unfold estimate
  rw [hi]
  simp only [bind, Except.bind, pure, Except.pure, hd, Bool.false_eq_true, if_false]
  rw [outer, h2]
  rfl

/-- C115 (negation, for all data): if the translation and the lever arm are estimated from data of a platform that
never turns, the two cannot be told apart, and the estimation hands out NaN as its result. -/
theorem C115_constant_attitude_reported {i : InitLib ℝ} {c : AdjCfg ℝ} (hD : IsGrad c.D) (hτ : c.τ = realTrig)
    (hlib : IsAdjLib c.lib) (E : Nat) (varEst : Bool) (var : List ℝ) (init : PSet ℝ) (att : V3 ℝ)
    (ho : c.obs.length = E * perEpoch c.e) (hv : var.length = E * perEpoch c.e) (hvar : ∀ x ∈ var, 0 < x)
    (hth : ∃ t, some t ∈ c.thresholds)
    (he : c.e.transX = true ∧ c.e.transY = true ∧ c.e.transZ = true ∧ c.e.leverX = true)
    (hatt : ∀ k, k < E → (epochOfNumbers c.e (block (perEpoch c.e) c.obs k)).rpy = att)
    (hi : initParameters i c.τ c.e c.obs = .ok init) :
    estimate i c varEst var = .ok ⟨none, true⟩ := by
  obtain ⟨e0, e1, e2, e8⟩ := he
  have hlever : c.e.leverarmEnabled = true := by simp [EstSettings.leverarmEnabled, e8]
  have hhel : c.e.helmertEnabled = true := by simp [EstSettings.helmertEnabled, e0]
  have hdis : c.e.allLqDisabled = false := by simp [EstSettings.allLqDisabled, hhel]
  have hsh := initParameters_shape hi
  have hp : init.values.length = 11 := by
    have := hsh.length
    unfold PSet.values
    rw [List.length_map, this]
  have hr : (buildRes c.obs).length = E * perEpoch c.e := by
    unfold buildRes
    rw [List.length_map, ho]
  have hest : estObs c.obs (buildRes c.obs) = c.obs := by
    unfold estObs buildRes
    refine List.ext_getElem? fun k => ?_
    rw [List.getElem?_zipWith, List.getElem?_map]
    rcases c.obs[k]? with _ | x <;> simp
  have hve := estObs_length ho hr
  have hstart : ∃ w, start c init = .ok ⟨init, buildRes c.obs, w, .inf, none⟩ := by
    unfold start
    simp only [evalRel_eq _ _ _ _ hve]
    exact ⟨_, rfl⟩
  obtain ⟨w, hs⟩ := hstart
  refine nan_reported hi hdis hth hs rfl ?_
  obtain ⟨A, B, hL, hn⟩ := C115_nan_iff hD hτ hlib E var ⟨init, buildRes c.obs, w, .inf, none⟩ ho hr hp hv hvar
  rw [hn]
  have hest' : List.zipWith (· + ·) c.obs (buildRes c.obs) = c.obs := hest
  have hLp := hL.params
  simp only [hest'] at hLp
  have hF : c.e.lqParameterFilter = [true, true, true, c.e.rotX, c.e.rotY, c.e.rotZ, c.e.scale, c.e.timeShiftEnabled,
      true, c.e.leverY, c.e.leverZ] := by
    simp [EstSettings.lqParameterFilter, EstSettings.helmertFilter, EstSettings.leverarmFilter, hhel, hlever, e0, e1, e2, e8]
  generalize hM : leverEffect (paramsOf init.values) att = M at *
  let d : Nat → ℝ := fun j => if j = 0 then -M.x else if j = 1 then -M.y else if j = 2 then -M.z else if j = 8 then 1 else 0
  have h8 : 8 ∈ estimated c.e := by
    unfold estimated
    rw [List.mem_filter, hF]
    exact ⟨by simp, rfl⟩
  refine ⟨fun a => d ((estimated c.e)[a.val]), ?_, ?_⟩
  · intro h0
    obtain ⟨k, hk, hk8⟩ := List.mem_iff_getElem.1 h8
    have := congrFun h0 ⟨k, hk⟩
    simp only [hk8] at this
    simp [d] at this
  · funext i'
    rw [mulVec_estimated c.e A (fun j => (if j < 3 then (if i'.val % 3 = j then 1 else 0) else
      if j = 8 then coord M (i'.val % 3) else 0) * d j) d i']
    · unfold estimated
      rw [sum_filter_map, hF]
      have hi3 : i'.val % 3 < 3 := by omega
      generalize i'.val % 3 = r at *
      simp only [List.range, List.range.loop, List.map_cons, List.map_nil, List.getD_cons_zero, List.getD_cons_succ, d]
      interval_cases r <;> simp [coord]
    · intro a j ha
      have hA := hLp i' a j ha
      by_cases hj : j < 3
      · rw [if_pos hj, hA.unique (paramsOf_set_trans _ hp _ _ _ _ hj _)]
      · rw [if_neg hj]
        by_cases hj8 : j = 8
        · subst hj8
          rw [if_pos rfl, hA.unique (paramsOf_set_lever _ hp _ _ _ _), hatt _ (by have := i'.2; omega), hM]
        · have : d j = 0 := by
            simp only [d]
            rw [if_neg (by omega), if_neg (by omega), if_neg (by omega), if_neg hj8]
          rw [this, mul_zero, mul_zero]

/-! ### the hypotheses can be met -/

theorem ratLib_isAdjLib : IsAdjLib ratLib := by
  have hc : ∀ (n : Nat) (M : Matrix (Fin n) (Fin n) ℚ) (b : Fin n → ℚ), M.det ≠ 0 →
      M *ᵥ (fun i => (M.updateCol i b).det / M.det) = b := by
    intro n M b h
    have h1 : (fun i => (M.updateCol i b).det / M.det) = M.det⁻¹ • M.cramer b := by
      funext i
      rw [Pi.smul_apply, cramer_apply, smul_eq_mul, div_eq_inv_mul]
    rw [h1, mulVec_smul, mulVec_cramer, smul_smul, inv_mul_cancel₀ h, one_smul]
  refine ⟨fun n M b h => ?_, fun n M b h => ?_, fun n m M B h => ?_⟩
  · exact ⟨_, if_neg h, hc n M b h⟩
  · exact if_pos h
  · refine ⟨_, if_neg h, ?_⟩
    ext i j
    exact congrFun (hc n M (fun k => B k j) h) i

/-- exact solutions over the reals -/
noncomputable def realAdjLib : AdjLib ℝ where
  solve := fun _ M b => if M.det = 0 then none else some (M⁻¹ *ᵥ b)
  solveMany := fun _ _ M B => if M.det = 0 then .error .valueError else .ok (M⁻¹ * B)
  pinv := fun _ M => M⁻¹

theorem realAdjLib_isAdjLib : IsAdjLib realAdjLib := by
  refine ⟨fun n M b h => ⟨_, if_neg h, ?_⟩, fun n M b h => if_pos h, fun n m M B h => ⟨_, if_neg h, ?_⟩⟩
  · rw [mulVec_mulVec, mul_nonsing_inv _ (Ne.isUnit h), one_mulVec]
  · rw [← Matrix.mul_assoc, mul_nonsing_inv _ (Ne.isUnit h), Matrix.one_mul]

theorem points_length {K : Type} [Field K] [LinearOrder K] {e : EstSettings} {E : Nat} (v : List K)
    (hv : v.length = E * perEpoch e) : (points e v .xyzFrom).length = E ∧ (points e v .xyzTo).length = E ∧
    (points e v .rpy).length = E ∧ (points e v .speed).length = E := by
  have h : ∀ key a, group e key = some (a, a + 3) → a + 3 ≤ perEpoch e → (points e v key).length = E := by
    intro key a h1 h2
    rw [points_some v hv key a h1 h2, List.length_map, List.length_range]
  have h' : ∀ key, group e key = none → (points e v key).length = E := by
    intro key h1
    rw [points_none v hv key h1, List.length_map, List.length_range]
  have hp := perEpoch_pos e
  refine ⟨h _ 0 rfl (by omega), h _ 3 rfl (by omega), ?_, ?_⟩
  · rcases hl : e.leverarmEnabled with _ | _
    · exact h' _ (by simp [group, hl])
    · exact h _ 6 (by simp [group, hl]) (by simp [perEpoch, hl])
  · rcases ht : e.timeShiftEnabled with _ | _
    · exact h' _ (by simp [group, ht])
    · rcases hl : e.leverarmEnabled with _ | _
      · exact h _ 6 (by simp [group, hl, ht]) (by simp [perEpoch, hl, ht])
      · exact h _ 9 (by simp [group, hl, ht]) (by simp [perEpoch, hl, ht])

/-- with a solver that finds solutions there are always initial parameters -/
theorem initParameters_returns {K : Type} [Field K] [LinearOrder K] [IsStrictOrderedRing K] (nrm : V3 K → K)
    (svd : M3 K → M3 K × M3 K) (euler : M3 K → V3 K) (τ : Trig K) (e : EstSettings) (obs : List K) (E : Nat)
    (ho : obs.length = E * perEpoch e) :
    ∃ init, initParameters ⟨nrm, svd, euler, exactSolver⟩ τ e obs = .ok init := by
  obtain ⟨l1, l2, l3, l4⟩ := points_length obs ho
  obtain ⟨hel, h1⟩ : ∃ hel, initHelmert ⟨nrm, svd, euler, exactSolver⟩ e (points e obs .xyzFrom) (points e obs .xyzTo)
      = .ok hel := by
    unfold initHelmert
    split
    · unfold Direct.helmert
      simp only [List.length_nil, if_true, List.length_map, l1, l2, ne_eq, not_true, or_self, if_false]
      exact ⟨_, rfl⟩
    · exact ⟨_, rfl⟩
  have hx : (initXyz τ e hel (points e obs .xyzFrom)).length = E := by
    unfold initXyz
    split
    · rw [List.length_map, l1]
    · exact l1
  obtain ⟨r1, r2, r3⟩ := C113_direct_returns τ (points e obs .xyzTo) (initXyz τ e hel (points e obs .xyzFrom))
    (points e obs .rpy) (points e obs .speed) (by rw [l2, hx]) (by rw [l3, hx]) (by rw [l4, hx])
  obtain ⟨time, h2⟩ : ∃ time, initTime ⟨nrm, svd, euler, exactSolver⟩ e (initXyz τ e hel (points e obs .xyzFrom))
      (points e obs .xyzTo) (points e obs .speed) = .ok time := by
    unfold initTime
    split
    · exact r3
    · exact ⟨_, rfl⟩
  obtain ⟨lt, h3⟩ : ∃ lt, initLever ⟨nrm, svd, euler, exactSolver⟩ τ e (initXyz τ e hel (points e obs .xyzFrom))
      (points e obs .xyzTo) (points e obs .rpy) (points e obs .speed) time = .ok lt := by
    unfold initLever
    split
    · rcases e.timeShiftEnabled
      · exact r1
      · exact r2
    · exact ⟨_, rfl⟩
  unfold initParameters
  simp only [bind, Except.bind, pure, Except.pure, h1, h2, h3]
  have d1 : hel.map (fun p => p.default) = [0, 0, 0, 0, 0, 0, 1] := by
    unfold initHelmert at h1
    split at h1
    · exact helmert_shape h1
    · cases h1
      rfl
  have d3 : lt.1.length = 3 := by
    unfold initLever at h3
    split at h3
    · have := congrArg List.length (leverarm_shape h3).1
      rwa [List.length_map] at this
    · cases h3
      rfl
  rw [postInit_ok _ (by
    have := congrArg List.length d1
    rw [List.length_map] at this
    rw [List.length_append, List.length_append, this, d3]
    rfl)]
  exact ⟨_, rfl⟩

/-- translation and lever arm -/
def exStraight : EstSettings := { EstSettings.fromComponents true false true false false with rotX := false, rotY := false, rotZ := false, scale := false }

/-- two epochs of a platform that drives along x without turning -/
noncomputable def exStraightCfg : AdjCfg ℝ where
  D := realGrad
  τ := realTrig
  lib := realAdjLib
  e := exStraight
  obs := [0, 0, 0, 1, 0, 0, 0, 0, 1, 5, 0, 0, 6, 0, 0, 0, 0, 1]
  thresholds := [some (1 / 1000)]

noncomputable def exRealInit : InitLib ℝ := ⟨realNorm, fun _ => (1, 1), fun _ => 0, exactSolver⟩

/-- for these data the estimation reports NaN as its result -/
example : estimate exRealInit exStraightCfg true (List.replicate 18 1) = .ok ⟨none, true⟩ := by
  have ho : exStraightCfg.obs.length = 2 * perEpoch exStraight := rfl
  have hlen : ∀ k, k < 2 → (epochOfNumbers exStraight (block (perEpoch exStraight) exStraightCfg.obs k)).rpy = ⟨0, 0, 1⟩ := by
    intro k hk
    interval_cases k <;> rfl
  have hi := initParameters_returns realNorm (fun _ => (1, 1)) (fun _ => 0) realTrig exStraight _ 2 ho
  obtain ⟨init, hi⟩ := hi
  exact C115_constant_attitude_reported realGrad_isGrad rfl realAdjLib_isAdjLib 2 true _ init ⟨0, 0, 1⟩ ho rfl
    (by intro x hx; rw [List.eq_of_mem_replicate hx]; norm_num) ⟨_, List.mem_cons_self ..⟩ ⟨rfl, rfl, rfl, rfl⟩ hlen hi

end TC
