import Verif.Props.Ghm
/-!
Data that satisfy the equations at the initial parameters: one pass that changes nothing, or NaN.
-/
namespace TC
set_option linter.unusedSectionVars false
variable {K : Type} [Field K] [LinearOrder K] [IsStrictOrderedRing K]
open Obs Adjust Equations Matrix

theorem values_of_enabled : ∀ (ps qs : List (Param K)),
    ps.map (fun p => (p.default, p.enabled, p.name, p.unit)) = qs.map (fun p => (p.default, p.enabled, p.name, p.unit)) →
    (ps.filter (fun p => p.enabled)).map Param.value = (qs.filter (fun p => p.enabled)).map Param.value →
    ps.map Param.value = qs.map Param.value := by
  intro ps
  induction ps with
  | nil =>
    intro qs h _
    rcases qs with _ | ⟨q, qs⟩
    · rfl
    · simp at h
  | cons p ps ih =>
    intro qs h1 h2
    rcases qs with _ | ⟨q, qs⟩
    · simp at h1
    · simp only [List.map_cons, List.cons.injEq, Prod.mk.injEq] at h1
      obtain ⟨⟨e1, e2, -, -⟩, e3⟩ := h1
      rw [List.filter_cons, List.filter_cons, ← e2] at h2
      rcases hp : p.enabled with _ | _
      · rw [hp] at h2 e2
        simp only [Bool.false_eq_true, if_false] at h2
        rw [List.map_cons, List.map_cons, ih qs e3 h2]
        unfold Param.value
        rw [hp, ← e2, e1]
        rfl
      · rw [hp] at h2
        simp only [if_true, List.map_cons, List.cons.injEq] at h2
        rw [List.map_cons, List.map_cons, ih qs e3 h2.2, h2.1]

theorem add_zeros {e : EstSettings} {s t : PSet K} (hs : Shape e s)
    (h : s.addValuesEnabled (List.replicate (e.lqParameterFilter.filter id).length 0) = .ok t) : t.values = s.values := by
  obtain ⟨t', h1, h2, h3, -⟩ := C74_add_corrections s (List.replicate (e.lqParameterFilter.filter id).length 0)
    (by rw [List.length_replicate, hs.numEnabled])
  rw [h] at h1
  cases h1
  refine values_of_enabled _ _ h3.symm ?_
  change t.valuesEnabled = s.valuesEnabled
  rw [h2]
  refine List.ext_getElem? fun k => ?_
  have hl : s.valuesEnabled.length = (e.lqParameterFilter.filter id).length := by
    rw [← hs.numEnabled]
    unfold PSet.valuesEnabled
    rw [List.length_map]
  rw [List.getElem?_zipWith]
  rcases hk : s.valuesEnabled[k]? with _ | x
  · rfl
  · have : k < (e.lqParameterFilter.filter id).length := by
      rw [← hl]
      exact (List.getElem?_eq_some_iff.1 hk).1
    rw [List.getElem?_replicate, if_pos this]
    simp

/-- with the right number of parameters a pass raises no error -/
theorem step_total {c : AdjCfg K} (hlib : IsAdjLib c.lib) (var : List K) (s : AdjState K)
    (hvar : ∀ j : Fin ((epochsOf c.e (estObs c.obs s.res)).length * perEpoch c.e), 0 < Direct.toVec _ var j)
    (hs : Shape c.e s.params) : ∃ r, step c var s = .ok r := by
  obtain ⟨w, hw, -⟩ := designMatrix_ok c.D c.τ (epochsOf c.e (estObs c.obs s.res)) (paramsOf s.params.values)
  have hrows : design c (epochsOf c.e (estObs c.obs s.res)) (paramsOf s.params.values)
      = .ok (w.map (compress c.e.lqParameterFilter)) := by
    simp only [design, hw, bind, Except.bind, pure, Except.pure]
  generalize w.map (compress c.e.lqParameterFilter) = rows at hrows
  have hB := cond_own c.D c.τ c.e (epochsOf c.e (estObs c.obs s.res)) (paramsOf s.params.values)
  have hd := bbt_det hB hvar
  obtain ⟨X, hX, hN⟩ := normalMat_ok hlib (Direct.toMat ((epochsOf c.e (estObs c.obs s.res)).length * 3)
      (c.e.lqParameterFilter.filter id).length rows) _ hd
  obtain ⟨y, hy, hδ⟩ := deltas_ok hlib (Direct.toVec _ s.w) _ _ hd _ hN
  rcases hδ with ⟨h1, h2⟩ | ⟨h1, δ, h2, h3⟩
  · refine ⟨none, ?_⟩
    unfold step
    simp only [hrows, hN, h2, bind, Except.bind, pure, Except.pure]
  · obtain ⟨k, hk1, hk2⟩ := hlib.regular _ _ (Direct.toMat _ _ rows *ᵥ δ + Direct.toVec _ s.w) hd
    have hst := step.eq_1 c var s
    simp only [hrows, hN, h2, hk1, bind, Except.bind, pure, Except.pure] at hst
    obtain ⟨t', h4, -⟩ := C74_add_corrections s.params (List.ofFn δ) (by rw [List.length_ofFn, hs.numEnabled])
    rw [h4] at hst
    simp only at hst
    obtain ⟨f, hf, -⟩ := evalRel_ok c.τ (epochsOf c.e (estObs c.obs (List.ofFn
      (diagonal (Direct.toVec _ var) *ᵥ ((condMatrix c.D c.τ c.e (epochsOf c.e (estObs c.obs s.res))
        (paramsOf s.params.values))ᵀ *ᵥ (-k)))))) (paramsOf t'.values)
    rw [hf] at hst
    exact ⟨_, hst⟩

/-- a pass that starts with satisfied equations -/
theorem step_exact {c : AdjCfg K} (hlib : IsAdjLib c.lib) (var : List K) (s t : AdjState K)
    (hvar : ∀ j : Fin ((epochsOf c.e (estObs c.obs s.res)).length * perEpoch c.e), 0 < Direct.toVec _ var j)
    (hw : ∀ i : Fin ((epochsOf c.e (estObs c.obs s.res)).length * 3), Direct.toVec _ s.w i = 0)
    (h : step c var s = .ok (some t)) :
    t.delta = .nums (List.replicate (c.e.lqParameterFilter.filter id).length 0) ∧
    s.params.addValuesEnabled (List.replicate (c.e.lqParameterFilter.filter id).length 0) = .ok t.params := by
  obtain ⟨w, hw', -⟩ := designMatrix_ok c.D c.τ (epochsOf c.e (estObs c.obs s.res)) (paramsOf s.params.values)
  have hrows : design c (epochsOf c.e (estObs c.obs s.res)) (paramsOf s.params.values)
      = .ok (w.map (compress c.e.lqParameterFilter)) := by
    simp only [design, hw', bind, Except.bind, pure, Except.pure]
  have hp := step_parts hlib var s hvar _ hrows
  obtain ⟨δ, v, h1, h2, h3, h4, h5, -⟩ := hp.regular t h
  have hw0 : Direct.toVec ((epochsOf c.e (estObs c.obs s.res)).length * 3) s.w = 0 := funext hw
  rw [hw0] at h4 h5
  have h6 := h5 0 0 (by rw [mulVec_zero, mulVec_zero, add_zero, add_zero])
  have hv : v = 0 := by
    have h7 : ∑ j, v j ^ 2 / Direct.toVec _ var j = 0 := by
      refine le_antisymm (le_trans h6 (le_of_eq ?_)) ?_
      · exact Finset.sum_eq_zero fun j _ => by simp
      · exact Finset.sum_nonneg fun j _ => div_nonneg (sq_nonneg _) (hvar j).le
    rw [Finset.sum_eq_zero_iff_of_nonneg fun j _ => div_nonneg (sq_nonneg _) (hvar j).le] at h7
    funext j
    have h8 := h7 j (Finset.mem_univ _)
    rcases div_eq_zero_iff.1 h8 with h9 | h9
    · exact pow_eq_zero_iff (by norm_num) |>.1 h9
    · exact absurd h9 (hvar j).ne'
  rw [hv, mulVec_zero, add_zero, zero_add] at h4
  have hδ : δ = 0 := by
    by_contra hne
    have := hp.singular.2 ⟨δ, hne, h4⟩
    rw [h] at this
    cases this
  have hl : List.ofFn δ = List.replicate (c.e.lqParameterFilter.filter id).length 0 := by
    rw [hδ]
    refine List.ext_getElem (by simp) fun k h1 h2 => by simp
  rw [hl] at h1 h3
  exact ⟨h1, h3⟩

theorem ofFn_square {n : Nat} (P : Matrix (Fin n) (Fin n) K) : IsSquare n (List.ofFn (fun i => List.ofFn (P i))) := by
  constructor
  · simp
  · intro r hr
    obtain ⟨i, rfl⟩ := (List.mem_ofFn' _ _).1 hr
    simp

/-- an adjustment that starts with satisfied equations -/
theorem exact_run {i : InitLib K} {c : AdjCfg K} (hlib : IsAdjLib c.lib) (E : Nat) (var : List K) (init : PSet K)
    (ho : c.obs.length = E * perEpoch c.e) (hv : var.length = E * perEpoch c.e) (hvar : ∀ x ∈ var, 0 < x)
    (hth : ∃ t, some t ∈ c.thresholds) (hpos : ∀ t, some t ∈ c.thresholds → 0 ≤ t)
    (hdis : c.e.allLqDisabled = false) (hsome : ∃ p ∈ init.params, p.enabled = false)
    (hi : initParameters i c.τ c.e c.obs = .ok init)
    (heq : ∀ k, k < E * 3 → equation c.τ c.e (paramsOf init.values) c.obs k = 0) :
    ∃ w, start c init = .ok ⟨init, buildRes c.obs, w, .inf, none⟩ ∧
    (step c var ⟨init, buildRes c.obs, w, .inf, none⟩ = .ok none ∧ estimate i c false var = .ok ⟨none, true⟩ ∨
      step c var ⟨init, buildRes c.obs, w, .inf, none⟩ ≠ .ok none ∧
      ∃ p, estimate i c false var = .ok ⟨some p, true⟩ ∧ p.values = init.values) := by
  have hsh := initParameters_shape hi
  have hr : (buildRes c.obs).length = E * perEpoch c.e := by
    unfold buildRes
    rw [List.length_map, ho]
  have hest : estObs c.obs (buildRes c.obs) = c.obs := by
    unfold estObs buildRes
    refine List.ext_getElem? fun k => ?_
    rw [List.getElem?_zipWith, List.getElem?_map]
    rcases c.obs[k]? with _ | x <;> simp
  have hve := estObs_length ho hr
  have hE := epochsOf_length (e := c.e) _ hve
  have hw : (List.range (E * 3)).map (equation c.τ c.e (paramsOf init.values) (estObs c.obs (buildRes c.obs)))
      = List.replicate (E * 3) 0 := by
    refine List.ext_getElem (by simp) fun k h1 h2 => ?_
    rw [List.getElem_map, List.getElem_range, List.getElem_replicate, hest]
    exact heq k (by simpa using h1)
  have hs : start c init = .ok ⟨init, buildRes c.obs, List.replicate (E * 3) 0, .inf, none⟩ := by
    unfold start
    simp only [evalRel_eq _ _ _ _ hve, hw]
    rfl
  refine ⟨_, hs, ?_⟩
  have hvar' : ∀ j : Fin ((epochsOf c.e (estObs c.obs (buildRes c.obs))).length * perEpoch c.e),
      0 < Direct.toVec _ var j := toVec_pos (by rw [hv, hE]) hvar
  have h1 : exceeds c.thresholds (Upd.inf : Upd K) = true := by
    obtain ⟨t, ht⟩ := hth
    exact List.any_eq_true.2 ⟨_, ht, rfl⟩
  obtain ⟨r, hstep⟩ := step_total hlib var ⟨init, buildRes c.obs, List.replicate (E * 3) 0, .inf, none⟩ hvar' hsh
  rcases r with _ | t
  · refine .inl ⟨hstep, ?_⟩
    have h2 : estimateOnce c var init = .ok ⟨none, true, 1⟩ := by
      unfold estimateOnce
      rw [hs]
      simp only [bind, Except.bind, pure, Except.pure]
      rw [loop, if_pos h1, if_neg (by omega), hstep]
      rfl
    unfold estimate
    rw [hi]
    simp only [bind, Except.bind, pure, Except.pure, hdis, Bool.false_eq_true, if_false]
    rw [outer, h2]
    rfl
  · refine .inr ⟨(by rw [hstep]; intro hc; cases hc), ?_⟩
    obtain ⟨e1, e2⟩ := step_exact hlib var ⟨init, buildRes c.obs, List.replicate (E * 3) 0, .inf, none⟩ t hvar'
      (fun i => by
        unfold Direct.toVec
        rw [List.getD_eq_getElem?_getD, List.getElem?_replicate]
        split <;> rfl) hstep
    have hnot : exceeds c.thresholds t.delta = false := by
      rw [e1, ← Bool.not_eq_true, exceeds_iff]
      rintro ⟨k, d, b, k1, k2, k3⟩
      have k4 : d = 0 := by
        rw [List.getElem?_replicate] at k1
        split at k1
        · cases k1
          rfl
        · cases k1
      have k5 := hpos b (List.mem_of_getElem? k2)
      rw [k4, abs_zero] at k3
      exact absurd k5 (not_le.2 k3)
    have hvals := add_zeros hsh e2
    have hsame := (step_same hstep).1
    have hsht : Shape c.e t.params := hsh.same hsame
    have hnorm : ∃ N : Matrix (Fin (c.e.lqParameterFilter.filter id).length)
        (Fin (c.e.lqParameterFilter.filter id).length) K, t.normal = some ⟨_, N⟩ := by
      have hst := hstep
      unfold step at hst
      simp only [bind, Except.bind, pure, Except.pure] at hst
      split at hst
      · cases hst
      · split at hst
        · cases hst
        · split at hst
          · cases hst
          · split at hst
            · split at hst
              · cases hst
              · split at hst
                · cases hst
                · split at hst
                  · cases hst
                  · cases hst
                    exact ⟨_, rfl⟩
            · cases hst
    obtain ⟨N, hN⟩ := hnorm
    have hvars : ∃ q, Adjust.variances c.lib t = .ok q ∧ q.values = t.params.values := by
      unfold Adjust.variances
      rw [hN]
      simp only
      generalize (if (c.e.lqParameterFilter.filter id).length = 1 then (fun i j => (N i j)⁻¹) else
        c.lib.pinv (c.e.lqParameterFilter.filter id).length N) = P
      obtain ⟨q, h5, -, -, -, -, h6, -⟩ := C110_enabled t.params (List.ofFn (fun i => List.ofFn (P i)))
        (by rw [hsht.numEnabled]; exact ofFn_square P) (by
          obtain ⟨p, hp, hp2⟩ := hsome
          have h7 : (p.default, p.enabled, p.name, p.unit) ∈
              t.params.params.map (fun p => (p.default, p.enabled, p.name, p.unit)) := by
            rw [← hsame]
            exact List.mem_map.2 ⟨p, hp, rfl⟩
          obtain ⟨p', h8, h9⟩ := List.mem_map.1 h7
          simp only [Prod.mk.injEq] at h9
          exact ⟨p', h8, by rw [h9.2.1, hp2]⟩)
      exact ⟨q, h5, h6⟩
    obtain ⟨q, hq, hqv⟩ := hvars
    have h2 : estimateOnce c var init = .ok ⟨some { t with params := q }, true, 1⟩ := by
      unfold estimateOnce
      rw [hs]
      simp only [bind, Except.bind, pure, Except.pure]
      rw [loop, if_pos h1, if_neg (by omega), hstep]
      simp only [bind, Except.bind]
      rw [loop, hnot]
      simp only [Bool.false_eq_true, if_false, hq]
    refine ⟨q, ?_, by rw [hqv, hvals]⟩
    unfold estimate
    rw [hi]
    simp only [bind, Except.bind, pure, Except.pure, hdis, Bool.false_eq_true, if_false]
    rw [outer, h2]
    rfl

end TC
