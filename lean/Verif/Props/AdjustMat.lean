import Verif.Proofs.Grad
/-!
# C79: the condition matrix; C80: the design matrix
-/
namespace TC
open Obs Adjust Equations

/-- all parameters estimated -/
def exAdjAll : EstSettings := EstSettings.all false false

/-- C79: the vector of contradictions holds the equations, three for each epoch. -/
theorem C79_equations {K : Type} [Field K] [LinearOrder K] (τ : Trig K) (e : EstSettings) (q : Params K) (E : Nat)
    (v : List K) (hv : v.length = E * perEpoch e) :
    evalRel τ (epochsOf e v) q = .ok ((List.range (E * 3)).map (equation τ e q v)) := evalRel_eq τ e q v hv

/-- C79: each entry of the condition matrix is the derivative of its equation with respect to its observation,
for any number of epochs and each of the four layouts. -/
theorem C79_condition_matrix {D : Grad ℝ} (hD : IsGrad D) (e : EstSettings) (q : Params ℝ) (E : Nat) (v : List ℝ)
    (hv : v.length = E * perEpoch e) (i : Fin ((epochsOf e v).length * 3))
    (j : Fin ((epochsOf e v).length * perEpoch e)) :
    HasDerivAt (fun t => equation realTrig e q (v.set j t) i) (condMatrix D realTrig e (epochsOf e v) q i j)
      (v.getD j 0) := by
  have hp := perEpoch_pos e
  have hE := epochsOf_length (e := e) v hv
  have hi : i.val / 3 < E := by
    have h1 := i.2
    have h2 : (epochsOf e v).length * 3 = E * 3 := by rw [hE]
    omega
  have hjm : j.val % perEpoch e < perEpoch e := Nat.mod_lt _ (by omega)
  rw [condMatrix_entry _ _ _ _ _ _ _ _ (epochsOf_getElem? v hv _ hi)]
  unfold equation
  simp only [block_set v _ _ (by omega : 0 < perEpoch e)]
  by_cases h : j.val / perEpoch e = i.val / 3
  · simp only [if_pos h]
    have hx : v.getD j.val 0 = (block (perEpoch e) v (i.val / 3)).getD (j.val % perEpoch e) 0 := by
      have h1 : j.val / perEpoch e * perEpoch e + j.val % perEpoch e = j.val := Nat.div_add_mod' _ _
      rw [block_getD v _ _ hjm, ← h, h1]
    rw [hx]
    exact condRow_deriv hD e q _ (block_length v hv _ hi) _ (by omega) _ hjm
  · simp only [if_neg h]
    exact hasDerivAt_const _ _

/-- C79: an equation does not depend on the observations of other epochs. -/
theorem C79_own_epoch {K : Type} [Field K] [LinearOrder K] (τ : Trig K) (e : EstSettings) (q : Params K)
    (v : List K) (i j : Nat) (h : j / perEpoch e ≠ i / 3) (t : K) :
    equation τ e q (v.set j t) i = equation τ e q v i := by
  have hp := perEpoch_pos e
  unfold equation
  rw [block_set v _ _ (by omega : 0 < perEpoch e), if_neg h]

theorem compress_get {α : Type} : ∀ (mask : List Bool) (r : List α), mask.length = r.length →
    compress mask r = ((List.range r.length).filter (fun j => mask.getD j false)).filterMap (fun j => r[j]?) := by
  intro mask r
  induction r generalizing mask with
  | nil => intro h; simp [compress]
  | cons x r ih =>
    intro h
    obtain _ | ⟨b, mask⟩ := mask
    · simp at h
    have := ih mask (by simpa using h)
    rw [List.length_cons, List.range_succ_eq_map, List.filter_cons, List.filter_map]
    have hc : compress (b :: mask) (x :: r) = if b then x :: compress mask r else compress mask r := by
      cases b <;> rfl
    rw [hc, this]
    have h1 : (List.range r.length).filter ((fun j => (b :: mask).getD j false) ∘ Nat.succ)
        = (List.range r.length).filter (fun j => mask.getD j false) := rfl
    rw [h1]
    cases b <;> simp [List.filterMap_map]

theorem compress_length {α : Type} : ∀ (mask : List Bool) (r : List α), mask.length = r.length →
    (compress mask r).length = (mask.filter id).length := by
  intro mask r
  induction r generalizing mask with
  | nil =>
    intro h
    rw [List.length_nil, List.length_eq_zero_iff] at h
    subst h
    rfl
  | cons x r ih =>
    intro h
    obtain _ | ⟨b, mask⟩ := mask
    · simp at h
    have hc : compress (b :: mask) (x :: r) = if b then x :: compress mask r else compress mask r := by
      cases b <;> rfl
    have := ih mask (by simpa using h)
    rw [hc]
    cases b <;> simp [this]

theorem lqFilter_length (e : EstSettings) : e.lqParameterFilter.length = 11 := by
  unfold EstSettings.lqParameterFilter EstSettings.helmertFilter EstSettings.leverarmFilter
  split_ifs <;> rfl

/-- the columns that are left are those of the estimated parameters -/
theorem compress_estimated {K : Type} [Zero K] (e : EstSettings) (r : List K) (hr : r.length = 11) :
    compress e.lqParameterFilter r = (estimated e).map (fun j => r.getD j 0) := by
  rw [compress_get _ _ (by rw [lqFilter_length, hr]), hr]
  unfold estimated
  have h : ∀ l : List Nat, (∀ j ∈ l, j < 11) → l.filterMap (fun j => r[j]?) = l.map (fun j => r.getD j 0) := by
    intro l hl
    induction l with
    | nil => rfl
    | cons j l ih =>
      have hj : j < r.length := by
        rw [hr]
        exact hl j (by simp)
      rw [List.filterMap_cons, List.getElem?_eq_getElem hj, List.map_cons, ih (fun i hi => hl i (by simp [hi])),
        List.getD_eq_getElem?_getD, List.getElem?_eq_getElem hj]
      rfl
  refine h _ fun j hj => ?_
  have := List.mem_filter.1 hj
  simpa using this.1

theorem filter_length_estimated (e : EstSettings) : (e.lqParameterFilter.filter id).length = (estimated e).length := by
  rw [← compress_length e.lqParameterFilter (List.replicate 11 (0 : ℚ)) (by rw [lqFilter_length]; rfl),
    compress_estimated e _ rfl, List.length_map]

/-- C80: each entry of the (filtered) design matrix is the derivative of its equation with respect to the
parameter of its column: there is one column for each estimated parameter, in their order. -/
theorem C80_design_matrix {c : AdjCfg ℝ} (hD : IsGrad c.D) (hτ : c.τ = realTrig) (E : Nat) (v p : List ℝ)
    (hv : v.length = E * perEpoch c.e) (hp : p.length = 11) :
    ∃ rows, design c (epochsOf c.e v) (paramsOf p) = .ok rows ∧ rows.length = E * 3 ∧
      ∀ i, i < E * 3 → ∃ r, rows[i]? = some r ∧ r.length = (estimated c.e).length ∧
        ∀ a j, (estimated c.e)[a]? = some j →
          HasDerivAt (fun t => equation realTrig c.e (paramsOf (p.set j t)) v i) (r.getD a 0) (p.getD j 0) := by
  obtain ⟨w, h1, h2, h3⟩ := designMatrix_ok c.D c.τ (epochsOf c.e v) (paramsOf p)
  rw [epochsOf_length v hv] at h2
  refine ⟨w.map (compress c.e.lqParameterFilter), by simp only [design, h1, bind, Except.bind, pure, Except.pure],
    by rw [List.length_map, h2], fun i hi => ?_⟩
  have h4 := h3 (i / 3) (i % 3) _ (by omega) (epochsOf_getElem? v hv (i / 3) (by omega))
  rw [show 3 * (i / 3) + i % 3 = i from by omega] at h4
  have hlen : ∀ ax (o : Epoch ℝ), (designRow c.D c.τ o (paramsOf p) ax).length = 11 := by
    intro ax o
    cases ax <;> rfl
  refine ⟨_, by rw [List.getElem?_map, h4]; rfl, ?_, fun a j ha => ?_⟩
  · rw [compress_length _ _ (by rw [lqFilter_length, hlen]), filter_length_estimated]
  · rw [compress_estimated _ _ (hlen _ _), List.getD_eq_getElem?_getD, List.getElem?_map, ha]
    simp only [Option.map_some, Option.getD_some]
    have hj : j < 11 := by
      have := (List.mem_filter.1 (List.mem_of_getElem? ha)).1
      simpa using this
    rw [hτ]
    exact designRow_deriv hD _ p hp _ (by omega) j hj

/-- the derivative itself satisfies the hypothesis of C79 and C80 -/
noncomputable def realGrad : Grad ℝ := fun f i a => deriv (fun t => f (a.set i t)) (a.getD i 0)

theorem realGrad_isGrad : IsGrad realGrad := fun _ _ _ _ => rfl

/-- two epochs with Euler angles and speeds: 24 observations, 6 equations; observation 14 (z of the second source
point) does not enter the equations of the first epoch, and enters the third equation of the second epoch -/
example (v : List ℝ) (hv : v.length = 24) (q : Params ℝ) :
    HasDerivAt (fun t => equation realTrig exAdjAll q (v.set 14 t) 2) 0 (v.getD 14 0) ∧
    ∃ b, HasDerivAt (fun t => equation realTrig exAdjAll q (v.set 14 t) 5) b (v.getD 14 0) := by
  have hv' : v.length = 2 * perEpoch exAdjAll := hv
  have hl := epochsOf_length v hv'
  refine ⟨?_, ?_⟩
  · have h : ∀ t, equation realTrig exAdjAll q (v.set 14 t) 2 = equation realTrig exAdjAll q v 2 :=
      fun t => C79_own_epoch _ _ _ _ _ _ (by decide) t
    simp only [h]
    exact hasDerivAt_const _ _
  · exact ⟨_, C79_condition_matrix realGrad_isGrad exAdjAll q 2 v hv' ⟨5, by rw [hl]; decide⟩ ⟨14, by rw [hl]; decide⟩⟩

/-- with only the scale and the time shift estimated there are two columns, with numbers 6 and 7 -/
example : estimated { EstSettings.fromComponents false true false false false with scale := true } = [6, 7] := by decide

end TC
