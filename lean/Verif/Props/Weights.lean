import Verif.Spec.Weights
import Verif.Props.Ghm
/-!
# C181: only the ratios of the standard deviations influence the estimated alignment
-/
namespace TC
set_option linter.unusedSectionVars false
variable {K : Type} [Field K] [LinearOrder K] [IsStrictOrderedRing K]
open Obs Adjust Equations Matrix

/-- a parameter without its variance -/
def bare (a : Param K) : Param K := { a with rawVar := 0 }

/-- the parameters of the two sets differ in their variances only -/
def Alike (p p' : PSet K) : Prop := p'.params.map bare = p.params.map bare

theorem alike_of {α : Type} (f : Param K → α) (hf : ∀ a, f (bare a) = f a) {l l' : List (Param K)} (h : l'.map bare = l.map bare) :
    l'.map f = l.map f := by
  have : ∀ l : List (Param K), l.map f = (l.map bare).map f := by
    intro l
    rw [List.map_map]
    exact List.map_congr_left (fun a _ => (hf a).symm)
  rw [this, this l, h]

theorem Alike.values {p p' : PSet K} (h : Alike p p') : p'.values = p.values := alike_of Param.value (fun _ => rfl) h

theorem Alike.enabled {p p' : PSet K} (h : Alike p p') : p'.enabledBoolList = p.enabledBoolList :=
  alike_of Param.enabled (fun _ => rfl) h

theorem filter_bare (l : List (Param K)) : (l.filter (fun p => p.enabled)).map bare = (l.map bare).filter (fun p => p.enabled) := by
  rw [List.filter_map]
  rfl

theorem Alike.valuesEnabled {p p' : PSet K} (h : Alike p p') : p'.valuesEnabled = p.valuesEnabled := by
  refine alike_of Param.value (fun _ => rfl) ?_
  rw [filter_bare, filter_bare, h]

theorem Alike.numEnabled {p p' : PSet K} (h : Alike p p') : p'.numEnabled = p.numEnabled := by
  unfold PSet.numEnabled
  rw [h.valuesEnabled]

theorem Alike.len {p p' : PSet K} (h : Alike p p') : p'.len = p.len := by
  unfold PSet.len
  rw [h.values]

theorem Alike.names {p p' : PSet K} (h : Alike p p') :
    p'.params.map (fun a => (a.name, a.unit)) = p.params.map (fun a => (a.name, a.unit)) := alike_of _ (fun _ => rfl) h

theorem Alike.indices {p p' : PSet K} (h : Alike p p') : p'.enabledIndices = p.enabledIndices := by
  unfold PSet.enabledIndices
  rw [h.enabled]

theorem Both.bind {α β : Type} {R : α → α → Prop} {S : β → β → Prop} {x y : Except Err α} {f g : α → Except Err β}
    (h : Both R x y) (hf : ∀ a b, R a b → Both S (f a) (g b)) : Both S (x >>= f) (y >>= g) := by
  cases h with
  | error e => exact .error e
  | ok r => exact hf _ _ r

theorem Both.refl {α : Type} {R : α → α → Prop} (hR : ∀ a, R a a) (x : Except Err α) : Both R x x := by
  cases x with
  | error e => exact .error e
  | ok a => exact .ok (hR a)

theorem setLoop_bare (eo : Bool) (ps : List (Param K)) (vs : List K) :
    (PSet.setLoop PSet.updValue eo ps vs).map bare = PSet.setLoop PSet.updValue eo (ps.map bare) vs := by
  induction ps generalizing vs with
  | nil => simp [PSet.setLoop]
  | cons p ps ih =>
    unfold PSet.setLoop
    simp only [List.map_cons]
    have e : (bare p).enabled = p.enabled := rfl
    rw [e]
    by_cases hc : p.enabled = false ∧ eo = true
    · rw [if_pos hc, if_pos hc, List.map_cons, ih]
    · rw [if_neg hc, if_neg hc]
      cases vs with
      | nil => rw [List.map_cons, ih]
      | cons v vs => rw [List.map_cons, ih]; rfl

theorem set_alike {p p' : PSet K} (h : Alike p p') (vs : List K) (eo : Bool) :
    Both Alike (p.set PSet.updValue vs eo) (p'.set PSet.updValue vs eo) := by
  unfold PSet.set
  rw [h.numEnabled, h.len]
  split_ifs
  · exact .error _
  · exact .error _
  · refine .ok ?_
    unfold Alike
    simp only
    rw [setLoop_bare, setLoop_bare]
    unfold Alike at h
    rw [h]

theorem add_alike {p p' : PSet K} (h : Alike p p') (d : List K) : Both Alike (p.addValuesEnabled d) (p'.addValuesEnabled d) := by
  unfold PSet.addValuesEnabled
  rw [h.valuesEnabled]
  split_ifs
  · exact set_alike h _ _
  · cases d with
    | nil => exact .error _
    | cons a t =>
      cases t with
      | nil => exact set_alike h _ _
      | cons _ _ => exact .error _

theorem setLoop_variance (c : K) (eo : Bool) (ps ps' : List (Param K)) (h : ps'.map bare = ps.map bare) (vs : List K)
    (hn : vs.length = if eo then (ps.filter (fun p => p.enabled)).length else ps.length) :
    (PSet.setLoop PSet.updVariance eo ps' (vs.map (fun v => c * v))).map bare = (PSet.setLoop PSet.updVariance eo ps vs).map bare ∧
    (PSet.setLoop PSet.updVariance eo ps' (vs.map (fun v => c * v))).map Param.variance =
      ((PSet.setLoop PSet.updVariance eo ps vs).map Param.variance).map (fun v => c * v) := by
  induction ps generalizing ps' vs with
  | nil =>
    have : ps' = [] := by simpa using h
    subst this
    simp [PSet.setLoop]
  | cons p ps ih =>
    cases ps' with
    | nil => simp at h
    | cons p' ps' =>
      simp only [List.map_cons, List.cons.injEq] at h
      have he : p'.enabled = p.enabled := by
        have := congrArg Param.enabled h.1
        exact this
      unfold PSet.setLoop
      simp only [he]
      by_cases hc : p.enabled = false ∧ eo = true
      · rw [if_pos hc, if_pos hc]
        obtain ⟨k1, k2⟩ := ih ps' h.2 vs (by rw [hn]; simp [hc.1, hc.2])
        refine ⟨by rw [List.map_cons, List.map_cons, k1, h.1], ?_⟩
        rw [List.map_cons, List.map_cons, List.map_cons, k2]
        simp [Param.variance, he, hc.1]
      · rw [if_neg hc, if_neg hc]
        cases vs with
        | nil =>
          exfalso
          cases eo
          · simp at hn
          · have : p.enabled = true := by simpa using hc
            simp [this] at hn
        | cons v vs =>
          obtain ⟨k1, k2⟩ := ih ps' h.2 vs (by
            cases eo
            · simpa using hn
            · have : p.enabled = true := by simpa using hc
              simpa [this] using hn)
          refine ⟨?_, ?_⟩
          · simp only [List.map_cons, k1]
            have : bare (PSet.updVariance p' (c * v)) = bare (PSet.updVariance p v) := h.1
            rw [this]
          · simp only [List.map_cons, k2]
            have : Param.variance (PSet.updVariance p' (c * v)) = c * Param.variance (PSet.updVariance p v) := by
              unfold Param.variance PSet.updVariance
              simp only [he]
              split_ifs <;> ring
            rw [this]

/-- a matrix, multiplied -/
def timesRows (c : K) (m : List (List K)) : List (List K) := m.map (fun row => row.map (fun x => c * x))

theorem entry_times (c : K) (m : List (List K)) (i j : Nat) : PSet.entry (timesRows c m) i j = c * PSet.entry m i j := by
  unfold PSet.entry timesRows
  simp only [List.getD_eq_getElem?_getD, List.getElem?_map]
  cases m[i]? with
  | none => simp
  | some row =>
    simp only [Option.map_some, Option.getD_some, List.getElem?_map]
    cases row[j]? <;> simp

theorem diag_times (c : K) (m : List (List K)) : PSet.diag (timesRows c m) = (PSet.diag m).map (fun v => c * v) := by
  unfold PSet.diag
  rw [List.map_map]
  have : (timesRows c m).length = m.length := by simp [timesRows]
  rw [this]
  exact List.map_congr_left (fun i _ => entry_times c m i i)

theorem scatter_times (c : K) (n : Nat) (idx : List Nat) (m : List (List K)) :
    PSet.scatter n idx (timesRows c m) = timesRows c (PSet.scatter n idx m) := by
  unfold PSet.scatter
  conv_rhs => unfold timesRows
  rw [List.map_map]
  refine List.map_congr_left (fun i _ => ?_)
  simp only [Function.comp, List.map_map]
  refine List.map_congr_left (fun j _ => ?_)
  simp only [Function.comp]
  cases idx.findIdx? (fun x => decide (x = i)) <;> cases idx.findIdx? (fun x => decide (x = j)) <;> simp [entry_times]

theorem fillDiag_times (c : K) (m : List (List K)) (vs : List K) :
    PSet.fillDiag (timesRows c m) (vs.map (fun v => c * v)) = timesRows c (PSet.fillDiag m vs) := by
  unfold PSet.fillDiag timesRows
  refine List.ext_getElem? (fun i => ?_)
  simp only [List.getElem?_mapIdx, List.getElem?_map]
  cases m[i]? with
  | none => rfl
  | some row =>
    simp only [Option.map_some]
    cases vs[i]? with
    | none => rfl
    | some v => simp [List.map_set]

theorem modify_times (c : K) (iv : List (Nat × K)) (m : List (List K)) :
    (iv.map (fun x => (x.1, c * x.2))).foldl (fun m x => m.modify x.1 (fun row => row.set x.1 x.2)) (timesRows c m) =
      timesRows c (iv.foldl (fun m x => m.modify x.1 (fun row => row.set x.1 x.2)) m) := by
  induction iv generalizing m with
  | nil => rfl
  | cons x iv ih =>
    simp only [List.map_cons, List.foldl_cons]
    rw [← ih]
    congr 1
    unfold timesRows
    refine List.ext_getElem? (fun i => ?_)
    simp only [List.getElem?_modify, List.getElem?_map]
    cases m[i]? with
    | none => rfl
    | some row =>
      by_cases h : x.1 = i
      · simp [h, List.map_set]
      · simp [h]

theorem widened_of {c : K} {p p' : PSet K} (h : Alike p p') (hv : p'.variances = p.variances.map (fun v => c * v))
    (hc : p'.cov = timesRows c p.cov) : Alike p p' ∧ Widened c p p' :=
  ⟨h, ⟨h.values, hv, hc, h.enabled, h.names⟩⟩

theorem setCovariance_times (c : K) {p p' : PSet K} (h : Alike p p') (m : List (List K)) :
    Both (fun p p' => Alike p p' ∧ Widened c p p') (p.setCovariance m) (p'.setCovariance (timesRows c m)) := by
  have hlen : (timesRows c m).length = m.length := by simp [timesRows]
  have hw : ((timesRows c m).headD (List.replicate m.length 0)).length = (m.headD (List.replicate m.length 0)).length := by
    cases m <;> simp [timesRows]
  have hdl : ∀ m : List (List K), (PSet.diag m).length = m.length := by
    intro m
    simp [PSet.diag]
  have ha : Alike ({ p with cov := m } : PSet K) { p' with cov := timesRows c m } := h
  have l1 := ha.len
  have l2 := ha.numEnabled
  have l3 : ∀ x y, ({ p' with cov := x } : PSet K).enabledIndices = ({ p with cov := y } : PSet K).enabledIndices := fun x y =>
    Alike.indices (p := { p with cov := y }) (p' := { p' with cov := x }) h
  unfold PSet.setCovariance PSet.validateCovariance
  simp only [hlen, hw, l1, l2]
  by_cases h1 : m.length ≠ (m.headD (List.replicate m.length 0)).length
  · rw [if_pos h1, if_pos h1]
    exact .error _
  rw [if_neg h1, if_neg h1]
  by_cases h2 : m.length = ({ p with cov := m } : PSet K).len
  · rw [if_pos h2, if_pos h2]
    unfold PSet.setVariances PSet.set
    simp only [l1, l2, hdl, diag_times, List.length_map, ← h2, ne_eq, not_true, false_and, Bool.false_eq_true, and_false, if_false]
    obtain ⟨k1, k2⟩ := setLoop_variance c false p.params p'.params h (PSet.diag m) (by
      rw [hdl, h2]
      simp [PSet.len, PSet.values])
    exact .ok (widened_of k1 k2 (fillDiag_times c m _))
  rw [if_neg h2, if_neg h2]
  by_cases h3 : m.length ≠ ({ p with cov := m } : PSet K).numEnabled
  · rw [if_pos h3, if_pos h3]
    exact .error _
  rw [if_neg h3, if_neg h3]
  simp only [l3 (timesRows c m) m, scatter_times]
  have hg : ∀ y, ({ p' with cov := timesRows c y } : PSet K).getCovariance true = timesRows c (({ p with cov := y } : PSet K).getCovariance true) := by
    intro y
    unfold PSet.getCovariance
    rw [if_pos rfl, if_pos rfl, l3 _ y]
    unfold timesRows
    rw [List.map_map]
    refine List.map_congr_left (fun i _ => ?_)
    simp only [Function.comp, List.map_map]
    refine List.map_congr_left (fun j _ => ?_)
    exact entry_times c y i j
  rw [hg, diag_times]
  generalize hvs : PSet.diag (({ p with cov := PSet.scatter ({ p with cov := m } : PSet K).len ({ p with cov := m } : PSet K).enabledIndices m } : PSet K).getCovariance true) = vs
  generalize PSet.scatter ({ p with cov := m } : PSet K).len ({ p with cov := m } : PSet K).enabledIndices m = q
  have l4 : ({ p' with cov := timesRows c q } : PSet K).numEnabled = ({ p with cov := q } : PSet K).numEnabled :=
    Alike.numEnabled (p := { p with cov := q }) (p' := { p' with cov := timesRows c q }) h
  unfold PSet.setVariancesEnabled PSet.set
  simp only [l4, List.length_map, Bool.true_eq_false, and_false, if_false, and_true]
  by_cases h5 : ({ p with cov := q } : PSet K).numEnabled ≠ vs.length
  · rw [if_pos h5, if_pos h5]
    exact .error _
  rw [if_neg h5, if_neg h5]
  have h5' := not_not.1 h5
  obtain ⟨k1, k2⟩ := setLoop_variance c true p.params p'.params h vs (by
    rw [← h5']
    simp [PSet.numEnabled, PSet.valuesEnabled])
  refine .ok (widened_of k1 k2 ?_)
  simp only
  have l6 : ∀ x y, ({ p' with cov := x, params := PSet.setLoop PSet.updVariance true p'.params (vs.map (fun v => c * v)) } : PSet K).enabledIndices =
      ({ p with cov := y, params := PSet.setLoop PSet.updVariance true p.params vs } : PSet K).enabledIndices := fun x y =>
    Alike.indices (p := { p with cov := y, params := PSet.setLoop PSet.updVariance true p.params vs })
      (p' := { p' with cov := x, params := PSet.setLoop PSet.updVariance true p'.params (vs.map (fun v => c * v)) }) k1
  rw [l6 _ q, ← modify_times, List.zip_map_right]
  rfl

/-! ### one run of the adjustment -/

theorem normalMat_times {lib : AdjLib K} (hl : ScaleFree lib) {c : K} (hc : 0 < c) {m u : Nat} (A : Matrix (Fin m) (Fin u) K)
    (bbt : Matrix (Fin m) (Fin m) K) :
    normalMat lib A (c • bbt) = (normalMat lib A bbt).map (fun N => N.map (fun N => c⁻¹ • N)) := by
  unfold normalMat
  by_cases hu : u = 1
  · rw [if_pos hu, if_pos hu]
    have h0 : 0 < u := by omega
    simp only [dif_pos h0, Except.map, hl.left c m bbt _ hc]
    cases lib.solve m bbt (fun i => A i ⟨0, h0⟩) with
    | none => rfl
    | some x =>
      simp only [Option.map_some]
      refine congrArg (fun N : Matrix (Fin u) (Fin u) K => (Except.ok (some N) : Except Err _)) ?_
      funext j k
      show (Aᵀ *ᵥ (c⁻¹ • x)) j = c⁻¹ * (Aᵀ *ᵥ x) j
      rw [Matrix.mulVec_smul]
      rfl
  · rw [if_neg hu, if_neg hu, hl.many c m u bbt A hc]
    cases lib.solveMany m u bbt A with
    | error e => rfl
    | ok X =>
      simp only [Except.map, bind, Except.bind, pure, Except.pure, Option.map_some, Matrix.mul_smul]

theorem deltas_times {lib : AdjLib K} (hl : ScaleFree lib) {c : K} (hc : 0 < c) {m u : Nat} (w : Fin m → K) (A : Matrix (Fin m) (Fin u) K)
    (bbt : Matrix (Fin m) (Fin m) K) : deltas lib w A (c • bbt) = deltas lib w A bbt := by
  have hi : (0 : K) < c⁻¹ := inv_pos.2 hc
  unfold deltas
  rw [normalMat_times hl hc, hl.left c m bbt _ hc]
  cases normalMat lib A bbt with
  | error e => rfl
  | ok N =>
    simp only [Except.map, bind, Except.bind]
    cases N with
    | none => rfl
    | some N =>
      cases lib.solve m bbt w with
      | none => rfl
      | some y =>
        simp only [Option.map_some, Matrix.mulVec_smul]
        by_cases hu : u = 1
        · rw [if_pos hu, if_pos hu]
          have e : (∃ j, (c⁻¹ • N) j j = 0) ↔ ∃ j, N j j = 0 := by
            simp [hc.ne']
          by_cases hz : ∃ j, N j j = 0
          · rw [if_pos hz, if_pos (e.2 hz)]
          · rw [if_neg hz, if_neg (fun h => hz (e.1 h))]
            congr 2
            funext j
            simp only [Pi.smul_apply, Matrix.smul_apply, smul_eq_mul]
            have : N j j ≠ 0 := fun h => hz ⟨j, h⟩
            field_simp
        · rw [if_neg hu, if_neg hu, hl.left _ u N _ hi, hl.right _ u N _ hi]
          cases lib.solve u N (Aᵀ *ᵥ y) with
          | none => rfl
          | some x =>
            simp only [Option.map_some, smul_smul, inv_inv, mul_inv_cancel₀ hc.ne', one_smul]

/-- the matrix of the normal equations, multiplied -/
def timesNormal (c : K) : Option (Sigma fun u : Nat => Matrix (Fin u) (Fin u) K) → Option (Sigma fun u : Nat => Matrix (Fin u) (Fin u) K)
  | none => none
  | some ⟨u, N⟩ => some ⟨u, c⁻¹ • N⟩

/-- the variables of the loops of the two runs -/
structure SameRun (c : K) (s s' : AdjState K) : Prop where
  params : Alike s.params s'.params
  res : s'.res = s.res
  w : s'.w = s.w
  delta : s'.delta = s.delta
  normal : s'.normal = timesNormal c s.normal

theorem toVec_times (c : K) (n : Nat) (var : List K) :
    Matrix.diagonal (Direct.toVec n (var.map (fun v => c * v))) = c • Matrix.diagonal (Direct.toVec n var) := by
  rw [← Matrix.diagonal_smul]
  congr 1
  funext i
  unfold Direct.toVec
  simp only [List.getD_eq_getElem?_getD, List.getElem?_map, Pi.smul_apply, smul_eq_mul]
  cases var[i.val]? <;> simp

theorem step_times {cf : AdjCfg K} (hl : ScaleFree cf.lib) {c : K} (hc : 0 < c) (var : List K) {s s' : AdjState K}
    (h : SameRun c s s') :
    Both (BothSome (SameRun c)) (step cf var s) (step cf (var.map (fun v => c * v)) s') := by
  obtain ⟨p', r', w', d', n'⟩ := s'
  obtain ⟨hp, hr, hw, -, -⟩ := h
  simp only at hp hr hw
  subst hr hw
  unfold step
  simp only [hp.values]
  cases design cf (epochsOf cf.e (estObs cf.obs s.res)) (paramsOf s.params.values) with
  | error e => exact .error e
  | ok rows =>
    simp only [bind, Except.bind]
    generalize (Direct.toMat ((epochsOf cf.e (estObs cf.obs s.res)).length * 3) (cf.e.lqParameterFilter.filter id).length rows) = A
    generalize (condMatrix cf.D cf.τ cf.e (epochsOf cf.e (estObs cf.obs s.res)) (paramsOf s.params.values)) = B
    generalize (Direct.toVec ((epochsOf cf.e (estObs cf.obs s.res)).length * 3) s.w) = w
    rw [toVec_times]
    generalize Matrix.diagonal (Direct.toVec ((epochsOf cf.e (estObs cf.obs s.res)).length * perEpoch cf.e) var) = S
    have e1 : B * (c • S) * Bᵀ = c • (B * S * Bᵀ) := by rw [Matrix.mul_smul, Matrix.smul_mul]
    rw [e1, normalMat_times hl hc, deltas_times hl hc]
    cases normalMat cf.lib A (B * S * Bᵀ) with
    | error e => exact .error e
    | ok N =>
      simp only [Except.map]
      cases deltas cf.lib w A (B * S * Bᵀ) with
      | error e => exact .error e
      | ok δ =>
        cases N with
        | none => exact .ok .none
        | some N =>
          cases δ with
          | none => exact .ok .none
          | some δ =>
            simp only [Option.map_some, hl.left c _ _ _ hc]
            cases cf.lib.solve _ (B * S * Bᵀ) (A *ᵥ δ + w) with
            | none => exact .ok .none
            | some k =>
              simp only [Option.map_some]
              have e2 : (c • S) *ᵥ (Bᵀ *ᵥ (-(c⁻¹ • k))) = S *ᵥ (Bᵀ *ᵥ (-k)) := by
                rw [← smul_neg, Matrix.mulVec_smul, Matrix.mulVec_smul, Matrix.smul_mulVec, smul_smul, inv_mul_cancel₀ hc.ne', one_smul]
              rw [e2]
              have h3 := add_alike hp (List.ofFn δ)
              generalize s.params.addValuesEnabled (List.ofFn δ) = x at h3
              generalize p'.addValuesEnabled (List.ofFn δ) = y at h3
              cases h3 with
              | error e => exact .error e
              | ok h4 =>
                simp only [h4.values]
                cases evalRel cf.τ (epochsOf cf.e (estObs cf.obs (List.ofFn (S *ᵥ (Bᵀ *ᵥ (-k)))))) (paramsOf _) with
                | error e => exact .error e
                | ok f => exact .ok (.some ⟨h4, rfl, rfl, rfl, rfl⟩)

/-- the ends of the loops of the two runs -/
structure SameEnd {α : Type} (R : α → α → Prop) (r r' : LoopEnd α) : Prop where
  state : BothSome R r.state r'.state
  converged : r'.converged = r.converged
  count : r'.count = r.count

theorem loop_times {cf : AdjCfg K} (hl : ScaleFree cf.lib) {c : K} (hc : 0 < c) (var : List K) (it : Nat) {s s' : AdjState K}
    (h : SameRun c s s') :
    Both (SameEnd (SameRun c)) (loop (fun s => exceeds cf.thresholds s.delta) (step cf var) it s)
      (loop (fun s => exceeds cf.thresholds s.delta) (step cf (var.map (fun v => c * v))) it s') := by
  rw [loop, loop]
  rw [h.delta]
  split_ifs with h1 h2
  · exact .ok ⟨.some h, rfl, rfl⟩
  · refine (step_times hl hc var h).bind (fun a b hab => ?_)
    cases hab with
    | none => exact .ok ⟨.none, rfl, rfl⟩
    | some g => exact loop_times hl hc var (it + 1) g
  · exact .ok ⟨.some h, rfl, rfl⟩
termination_by 16 - it

/-- the variables after a run -/
structure SameOutcome (c : K) (s s' : AdjState K) : Prop where
  params : Alike s.params s'.params ∧ Widened c s.params s'.params
  res : s'.res = s.res

theorem variances_times {lib : AdjLib K} (hl : ScaleFree lib) {c : K} (hc : 0 < c) {s s' : AdjState K} (h : SameRun c s s') :
    Both (fun p p' => Alike p p' ∧ Widened c p p') (variances lib s) (variances lib s') := by
  have hi : (0 : K) < c⁻¹ := inv_pos.2 hc
  unfold variances
  rw [h.normal]
  cases hn : s.normal with
  | none => exact .error _
  | some x =>
    obtain ⟨u, N⟩ := x
    simp only [timesNormal]
    have key : ∀ P P' : Fin u → Fin u → K, P' = (fun i j => c * P i j) →
        List.ofFn (fun i => List.ofFn (P' i)) = timesRows c (List.ofFn (fun i => List.ofFn (P i))) := by
      rintro P _ rfl
      unfold timesRows
      rw [List.map_ofFn]
      congr 1
      funext i
      simp only [Function.comp, List.map_ofFn]
      rfl
    have hP : (if u = 1 then (fun i j => ((c⁻¹ • N) i j)⁻¹) else lib.pinv u (c⁻¹ • N) : Matrix (Fin u) (Fin u) K) =
        fun i j => c * (if u = 1 then (fun i j => (N i j)⁻¹) else lib.pinv u N : Matrix (Fin u) (Fin u) K) i j := by
      have aux : ∀ P Q P' Q' : Fin u → Fin u → K, P' = (fun i j => c * P i j) → Q' = (fun i j => c * Q i j) →
          (if u = 1 then P' else Q') = fun i j => c * (if u = 1 then P else Q) i j := by
        rintro P Q _ _ rfl rfl
        by_cases hu : u = 1
        · simp only [if_pos hu]
        · simp only [if_neg hu]
      refine aux _ _ _ _ ?_ ?_
      · funext i j
        show (c⁻¹ * N i j)⁻¹ = c * (N i j)⁻¹
        rw [mul_inv, inv_inv]
      · rw [hl.pinv _ u N hi, inv_inv]
        rfl
    have g := setCovariance_times c h.params (List.ofFn (fun i => List.ofFn
      ((if u = 1 then (fun i j => (N i j)⁻¹) else lib.pinv u N : Matrix (Fin u) (Fin u) K) i)))
    rw [← key _ _ hP] at g
    exact g

theorem once_times {cf : AdjCfg K} (hl : ScaleFree cf.lib) {c : K} (hc : 0 < c) (var : List K) {p p' : PSet K} (h : Alike p p') :
    Both (SameEnd (SameOutcome c)) (estimateOnce cf var p) (estimateOnce cf (var.map (fun v => c * v)) p') := by
  unfold estimateOnce start
  simp only [h.values]
  cases evalRel cf.τ (epochsOf cf.e (estObs cf.obs (buildRes cf.obs))) (paramsOf p.values) with
  | error e => exact .error e
  | ok w =>
    refine (loop_times hl hc var 0 (s := ⟨p, buildRes cf.obs, w, .inf, none⟩) (s' := ⟨p', buildRes cf.obs, w, .inf, none⟩)
      ⟨h, rfl, rfl, rfl, rfl⟩).bind (fun r r' hr => ?_)
    obtain ⟨st, cv, cn⟩ := r
    obtain ⟨st', cv', cn'⟩ := r'
    obtain ⟨h1, h2, h3⟩ := hr
    simp only at h1 h2 h3
    subst h2 h3
    cases h1 with
    | none => exact .ok ⟨.none, rfl, rfl⟩
    | some g =>
      exact (variances_times hl hc g).bind (fun a b hab => .ok ⟨.some ⟨hab, g.res⟩, rfl, rfl⟩)

theorem factor_times {cf : AdjCfg K} {c : K} (hc : 0 < c) (var : List K) {s s' : AdjState K} (h : SameOutcome c s s') :
    varianceFactor cf (var.map (fun v => c * v)) s' = (varianceFactor cf var s).map (fun f => f / c) := by
  unfold varianceFactor redundancy
  rw [h.res, h.params.1.numEnabled]
  have e : (var.map (fun v => c * v)).any (fun x => decide (x = 0)) = var.any (fun x => decide (x = 0)) := by
    rw [List.any_map]
    congr 1
    funext x
    simp [hc.ne']
  rw [e]
  split_ifs
  · rfl
  · rfl
  · simp only [Option.map_some]
    congr 1
    rw [div_div, mul_comm _ c, ← div_div]
    congr 1
    have : List.zipWith (fun r v => r * (r / v)) s.res (var.map (fun v => c * v)) =
        (List.zipWith (fun r v => r * (r / v)) s.res var).map (fun x => x * c⁻¹) := by
      rw [List.zipWith_map_right, List.map_zipWith]
      congr 1
      funext r v
      rw [div_mul_eq_div_div, mul_assoc, div_right_comm, div_eq_mul_inv (r / v)]
    rw [this, List.sum_map_mul_right, List.map_id', div_eq_mul_inv]

/-- with the same variances, the variances of the parameters at the start do not matter -/
theorem outer_alike {cf : AdjCfg K} (hl : ScaleFree cf.lib) (varEst : Bool) (cnt : Nat) (var : List K) {p p' : PSet K} (h : Alike p p') :
    Both (fun r r' : OuterEnd K => SameEnd (SameOutcome 1) r.last r'.last) (outer cf varEst cnt var p) (outer cf varEst cnt var p') := by
  have h1 := once_times hl one_pos var h
  have ev : var.map (fun v => 1 * v) = var := by simp
  rw [ev] at h1
  rw [outer, outer]
  refine h1.bind (fun r r' hr => ?_)
  obtain ⟨st, cv, cn⟩ := r
  obtain ⟨st', cv', cn'⟩ := r'
  obtain ⟨g1, g2, g3⟩ := hr
  simp only at g1 g2 g3
  subst g2 g3
  cases g1 with
  | none => exact .ok ⟨.none, rfl, rfl⟩
  | @some s s' g =>
    simp only
    split_ifs with h2
    · exact .ok ⟨.some g, rfl, rfl⟩
    · have hf := factor_times (cf := cf) one_pos var g
      rw [ev] at hf
      rw [hf]
      cases varianceFactor cf var s with
      | none => exact .ok ⟨.some g, rfl, rfl⟩
      | some f =>
        simp only [Option.map_some, div_one]
        split_ifs with h3
        · exact outer_alike hl varEst (cnt + 1) _ g.params.1
        · exact .ok ⟨.some g, rfl, rfl⟩
termination_by 5 - cnt

/-- **C181.**  Multiplying all variances of the observations by the same number changes nothing but the variances and
covariances of the estimated parameters, which are multiplied by this number (without variance estimation).  Where there is
no result, or an exception, there is none either way. -/
theorem C181_only_ratios_count (i : InitLib K) {cf : AdjCfg K} (hl : ScaleFree cf.lib) {c : K} (hc : 0 < c) (var : List K) :
    Both (fun E E' => E'.hasResults = E.hasResults ∧ (E.hasResults = false → E' = E) ∧
        (E.hasResults = true → BothSome (Widened c) E.params E'.params))
      (estimate i cf false var) (estimate i cf false (var.map (fun v => c * v))) := by
  unfold estimate
  cases initParameters i cf.τ cf.e cf.obs with
  | error e => exact .error e
  | ok init =>
    simp only [bind, Except.bind]
    split_ifs with h0
    · exact .ok ⟨rfl, fun _ => rfl, fun h => by cases h⟩
    · have h1 := once_times hl hc var (p := init) (p' := init) rfl
      rw [outer, outer]
      generalize estimateOnce cf var init = x at h1
      generalize estimateOnce cf (var.map (fun v => c * v)) init = y at h1
      cases h1 with
      | error e => exact .error e
      | @ok r r' hr =>
        obtain ⟨st, cv, cn⟩ := r
        obtain ⟨st', cv', cn'⟩ := r'
        obtain ⟨g1, g2, g3⟩ := hr
        simp only at g1 g2 g3
        subst g2 g3
        cases g1 with
        | none =>
          simp only [bind, Except.bind, pure, Except.pure]
          split_ifs
          · exact .ok ⟨rfl, fun _ => rfl, fun h => by cases h⟩
          · exact .ok ⟨rfl, fun h => (by cases h), fun _ => .none⟩
        | some g =>
          simp only [bind, Except.bind, pure, Except.pure, Bool.not_false, if_true]
          split_ifs
          · exact .ok ⟨rfl, fun _ => rfl, fun h => by cases h⟩
          · exact .ok ⟨rfl, fun h => (by cases h), fun _ => .some g.params.2⟩

/-- **C181.**  The factor by which the residuals differ from what the variances promise is divided by that number. -/
theorem C181_first_factor (i : InitLib K) {cf : AdjCfg K} (hl : ScaleFree cf.lib) {c : K} (hc : 0 < c) {var : List K} {f : K}
    (h : FirstFactor i cf var f) : FirstFactor i cf (var.map (fun v => c * v)) (f / c) := by
  obtain ⟨init, r, s, h1, h2, h3, h4, h5⟩ := h
  have g := once_times hl hc var (p := init) (p' := init) rfl
  rw [h3] at g
  generalize hy : estimateOnce cf (var.map (fun v => c * v)) init = y at g
  cases g with
  | @ok _ r' hr =>
    obtain ⟨g1, -, -⟩ := hr
    rw [h4] at g1
    generalize hz : r'.state = z at g1
    cases g1 with
    | @some _ s' g2 =>
      refine ⟨init, r', s', h1, h2, hy, hz, ?_⟩
      rw [factor_times hc var g2, h5]
      rfl

/-- **C181.**  With variance estimation the size of the given variances does not count at all: if it is wrong by more than
the tolerance, before and after multiplying by the number, then the parameters, their variances and covariances are the same. -/
theorem C181_variance_estimation (i : InitLib K) {cf : AdjCfg K} (hl : ScaleFree cf.lib) {c : K} (hc : 0 < c) {var : List K} {f : K}
    (h : FirstFactor i cf var f) (hf : 1 / 1000 < |f - 1|) (hf' : 1 / 1000 < |f / c - 1|) :
    Both (fun E E' => E'.hasResults = E.hasResults ∧ BothSome (Widened 1) E.params E'.params)
      (estimate i cf true var) (estimate i cf true (var.map (fun v => c * v))) := by
  obtain ⟨init, r', s', h1, h2, h3', h4', h5'⟩ := C181_first_factor i hl hc h
  obtain ⟨init0, r, s, h1', -, h3, h4, h5⟩ := h
  rw [h1] at h1'
  cases h1'
  have ha : Alike s.params s'.params := by
    have g := once_times hl hc var (p := init) (p' := init) rfl
    rw [h3, h3'] at g
    cases g with
    | ok hr =>
      have g1 := hr.state
      rw [h4, h4'] at g1
      cases g1 with
      | some g => exact g.params.1
  have hv : (var.map (fun v => c * v)).map (fun x => x * (f / c)) = var.map (fun x => x * f) := by
    rw [List.map_map]
    refine List.map_congr_left (fun x _ => ?_)
    simp only [Function.comp]
    field_simp
  have hs : BothSome (Widened (1 : K)) (some init) (some init) := by
    refine .some ⟨rfl, by simp, ?_, rfl, rfl⟩
    simp
  have e1 : outer cf true 0 var init = outer cf true 1 (var.map (fun x => x * f)) s.params := by
    rw [outer, h3]
    simp only [bind, Except.bind, h4, h5, Bool.not_true, Bool.false_eq_true, if_false]
    rw [if_pos ⟨hf, by norm_num⟩]
  have e2 : outer cf true 0 (var.map (fun v => c * v)) init = outer cf true 1 (var.map (fun x => x * f)) s'.params := by
    rw [outer, h3']
    simp only [bind, Except.bind, h4', h5', Bool.not_true, Bool.false_eq_true, if_false]
    rw [if_pos ⟨hf', by norm_num⟩, hv]
  have hO := outer_alike hl true 1 (var.map (fun x => x * f)) ha
  rw [← e1, ← e2] at hO
  unfold estimate
  rw [h1]
  simp only [bind, Except.bind, h2, Bool.false_eq_true, if_false]
  generalize outer cf true 0 var init = x at hO
  generalize outer cf true 0 (var.map (fun v => c * v)) init = y at hO
  cases hO with
  | error e => exact .error e
  | @ok R R' hR =>
    obtain ⟨⟨st, cv, cn⟩, n⟩ := R
    obtain ⟨⟨st', cv', cn'⟩, n'⟩ := R'
    obtain ⟨g1, g2, g3⟩ := hR
    simp only at g1 g2 g3
    subst g2 g3
    simp only [pure, Except.pure]
    split_ifs
    · exact .ok ⟨rfl, hs⟩
    · cases g1 with
      | none => exact .ok ⟨rfl, .none⟩
      | some g => exact .ok ⟨rfl, .some g.params.2⟩

/-- routines that solve regular systems, and fail for singular ones in one way, treat multiples so -/
theorem scaleFree_of {lib : AdjLib K} (hlib : IsAdjLib lib) {e : Err}
    (hs : ∀ (n m : Nat) (M : Matrix (Fin n) (Fin n) K) (B : Matrix (Fin n) (Fin m) K), M.det = 0 → lib.solveMany n m M B = .error e)
    (hp : ∀ (c : K) (n : Nat) (M : Matrix (Fin n) (Fin n) K), 0 < c → lib.pinv n (c • M) = c⁻¹ • lib.pinv n M) : ScaleFree lib := by
  have hd : ∀ (c : K) (n : Nat) (M : Matrix (Fin n) (Fin n) K), 0 < c → ((c • M).det = 0 ↔ M.det = 0) := by
    intro c n M hc
    rw [Matrix.det_smul]
    simp [hc.ne']
  have inj : ∀ (n : Nat) (M : Matrix (Fin n) (Fin n) K) (x y : Fin n → K), M.det ≠ 0 → M *ᵥ x = M *ᵥ y → x = y := by
    intro n M x y h hxy
    have := congrArg (fun z => M⁻¹ *ᵥ z) hxy
    simpa [Matrix.mulVec_mulVec, Matrix.nonsing_inv_mul _ (Ne.isUnit h)] using this
  refine ⟨fun c n M b hc => ?_, fun c n M b hc => ?_, fun c n m M B hc => ?_, hp⟩
  · by_cases h : M.det = 0
    · rw [hlib.singular n M b h, hlib.singular n _ b ((hd c n M hc).2 h)]
      rfl
    · obtain ⟨x, e1, e2⟩ := hlib.regular n M b h
      obtain ⟨y, e3, e4⟩ := hlib.regular n (c • M) b (fun g => h ((hd c n M hc).1 g))
      rw [e1, e3]
      congr 1
      refine inj n (c • M) _ _ (fun g => h ((hd c n M hc).1 g)) ?_
      simp only
      rw [e4, Matrix.mulVec_smul, Matrix.smul_mulVec, smul_smul, inv_mul_cancel₀ hc.ne', one_smul, e2]
  · by_cases h : M.det = 0
    · rw [hlib.singular n M b h, hlib.singular n _ _ h]
      rfl
    · obtain ⟨x, e1, e2⟩ := hlib.regular n M b h
      obtain ⟨y, e3, e4⟩ := hlib.regular n M (c • b) h
      rw [e1, e3]
      congr 1
      refine inj n M _ _ h ?_
      simp only
      rw [e4, Matrix.mulVec_smul, e2]
  · by_cases h : M.det = 0
    · rw [hs n m M B h, hs n m _ B ((hd c n M hc).2 h)]
      rfl
    · obtain ⟨x, e1, e2⟩ := hlib.many n m M B h
      obtain ⟨y, e3, e4⟩ := hlib.many n m (c • M) B (fun g => h ((hd c n M hc).1 g))
      rw [e1, e3]
      refine congrArg Except.ok ?_
      have h5 : M * y = M * (c⁻¹ • x) := by
        rw [Matrix.mul_smul, e2, ← e4, Matrix.smul_mul, smul_smul, inv_mul_cancel₀ hc.ne', one_smul]
      have := congrArg (fun z => M⁻¹ * z) h5
      simpa [← Matrix.mul_assoc, Matrix.nonsing_inv_mul _ (Ne.isUnit h)] using this

/-- exact arithmetic over the reals -/
theorem realAdjLib_scaleFree : ScaleFree realAdjLib := by
  refine scaleFree_of realAdjLib_isAdjLib (e := .valueError) (fun n m M B h => if_pos h) (fun c n M hc => ?_)
  show (c • M)⁻¹ = c⁻¹ • M⁻¹
  by_cases h : M.det = 0
  · have h' : (c • M).det = 0 := by rw [Matrix.det_smul, h, mul_zero]
    rw [Matrix.nonsing_inv_apply_not_isUnit _ (by rw [h']; simp), Matrix.nonsing_inv_apply_not_isUnit _ (by rw [h]; simp), smul_zero]
  · have := invertibleOfNonzero hc.ne'
    rw [Matrix.inv_smul (k := c) (A := M) (Ne.isUnit h), invOf_eq_inv]

/-- the example of the time shift (`exShiftCfg`), where no pseudo-inverse is needed -/
def exWeights : AdjCfg ℚ := { exShiftCfg with lib := { ratLib with pinv := fun _ _ => 0 } }

theorem exWeights_scaleFree : ScaleFree exWeights.lib :=
  scaleFree_of (e := .valueError) ⟨ratLib_isAdjLib.regular, ratLib_isAdjLib.singular, ratLib_isAdjLib.many⟩ (fun _ _ _ _ h => if_pos h)
    (fun _ _ _ _ => (smul_zero _).symm)

/-- the factor of the first run -/
def viewFactor (c : AdjCfg ℚ) (var : List ℚ) : Option ℚ :=
  match initParameters ratInit c.τ c.e c.obs with
  | .error _ => none
  | .ok p => match estimateOnce c var p with
    | .error _ => none
    | .ok r => match r.state with
      | none => none
      | some s => varianceFactor c var s

theorem viewFactor_spec {c : AdjCfg ℚ} (he : c.e.allLqDisabled = false) {var : List ℚ} {f : ℚ} (h : viewFactor c var = some f) :
    FirstFactor ratInit c var f := by
  unfold viewFactor at h
  rcases h1 : initParameters ratInit c.τ c.e c.obs with _ | p
  · simp [h1] at h
  rcases h2 : estimateOnce c var p with _ | r
  · simp [h1, h2] at h
  rcases h3 : r.state with _ | s
  · simp [h1, h2, h3] at h
  exact ⟨p, r, s, h1, he, h2, h3, by simpa [h1, h2, h3] using h⟩

/-- the hypotheses of `C181_variance_estimation` are met, for variances that are three times as large -/
example : ∃ f, FirstFactor ratInit exWeights [4, 4, 1, 4, 4, 1, 1, 1, 1] f ∧ 1 / 1000 < |f - 1| ∧ 1 / 1000 < |f / 3 - 1| := by
  have h : (viewFactor exWeights [4, 4, 1, 4, 4, 1, 1, 1, 1]).any
      (fun f => decide (1 / 1000 < |f - 1|) && decide (1 / 1000 < |f / 3 - 1|)) = true := by decide +kernel
  cases hf : viewFactor exWeights [4, 4, 1, 4, 4, 1, 1, 1, 1] with
  | none => rw [hf] at h; cases h
  | some f =>
    rw [hf] at h
    simp only [Option.any_some, Bool.and_eq_true, decide_eq_true_eq] at h
    exact ⟨f, viewFactor_spec (by decide) hf, h.1, h.2⟩

end TC
