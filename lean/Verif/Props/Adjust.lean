import Verif.Proofs.Adjust
import Verif.Props.AdjustMat
import Mathlib.LinearAlgebra.Matrix.Determinant.Basic
/-!
# C81: the adjustment stops; C82: what convergence means; C83: disabled parameters stay neutral
-/
namespace TC
set_option linter.unusedSectionVars false
variable {K : Type} [Field K] [LinearOrder K]
open Obs Adjust Equations

theorem exceeds_iff (ths : List (Option K)) (l : List K) : exceeds ths (.nums l) = true ↔ TooLarge ths l := by
  unfold exceeds TooLarge
  simp only [List.any_eq_true]
  constructor
  · rintro ⟨⟨d, o⟩, hm, ht⟩
    obtain ⟨k, hk⟩ := List.mem_iff_getElem?.1 hm
    rw [List.zip, List.getElem?_zipWith] at hk
    rcases h1 : l[k]? with _ | d' <;> rw [h1] at hk
    · cases hk
    · rcases h2 : ths[k]? with _ | o' <;> rw [h2] at hk
      · cases hk
      · simp only [Option.some.injEq, Prod.mk.injEq] at hk
        obtain ⟨rfl, rfl⟩ := hk
        rcases o' with _ | t
        · cases ht
        · exact ⟨k, d', t, h1, h2, by simpa using ht⟩
  · rintro ⟨k, d, t, h1, h2, h3⟩
    refine ⟨(d, some t), ?_, by simpa using h3⟩
    rw [List.mem_iff_getElem?]
    exact ⟨k, by rw [List.zip, List.getElem?_zipWith, h1, h2]⟩

/-- the run in terms of its passes -/
theorem once_end {c : AdjCfg K} {var : List K} {params : PSet K} {r : LoopEnd (AdjState K)}
    (h : estimateOnce c var params = .ok r) :
    ∃ s, start c params = .ok s ∧
    ((∃ t n q, r.state = some { t with params := q } ∧
      Passes (fun s => exceeds c.thresholds s.delta) (step c var) n s t ∧ variances c.lib t = .ok q ∧ r.count = n ∧
      r.converged = !exceeds c.thresholds t.delta ∧ (r.converged = false → r.count = 16) ∧ r.count ≤ 16) ∨
    (∃ t n, r.state = none ∧ Passes (fun s => exceeds c.thresholds s.delta) (step c var) n s t ∧
      step c var t = .ok none ∧ r.count = n + 1 ∧ r.converged = true ∧ r.count ≤ 16)) := by
  unfold estimateOnce at h
  simp only [bind, Except.bind, pure, Except.pure] at h
  split at h
  · cases h
  · rename_i s hs
    refine ⟨s, hs, ?_⟩
    split at h
    · cases h
    · rename_i r' hr'
      rcases loop_end _ _ 16 0 s r' rfl hr' with ⟨t, n, h1, h2, h3, h4, h5, h6⟩ | ⟨t, n, h1, h2, h3, h4, h5, h6, h7⟩
      · rw [h1] at h
        simp only at h
        split at h
        · cases h
        · rename_i q hq
          cases h
          refine .inl ⟨t, n, q, rfl, h2, hq, by simp only; omega, h4, fun hc => ?_, h6 (by omega)⟩
          have := h5 hc
          have := h6 (by omega)
          simp only
          omega
      · rw [h1] at h
        cases h
        exact .inr ⟨t, n, h1, h2, h4, by omega, h6, h7⟩

/-- the updates after at least one pass are numbers, one for each estimated parameter -/
theorem passes_delta {c : AdjCfg K} {var : List K} {n : Nat} {s t : AdjState K}
    (h : Passes (fun s => exceeds c.thresholds s.delta) (step c var) (n + 1) s t) :
    ∃ l, t.delta = .nums l ∧ l.length = (estimated c.e).length := by
  have key : ∀ {m : Nat} {s t : AdjState K}, Passes (fun s => exceeds c.thresholds s.delta) (step c var) m s t →
      (∃ l, s.delta = .nums l ∧ l.length = (estimated c.e).length) →
      ∃ l, t.delta = .nums l ∧ l.length = (estimated c.e).length := by
    intro m s t hp hs
    refine Passes.keeps (fun s : AdjState K => ∃ l, s.delta = .nums l ∧ l.length = (estimated c.e).length) ?_ hp hs
    intro s t _ hst
    obtain ⟨_, l, h1, h2, -⟩ := step_same hst
    exact ⟨l, h1, by rw [h2, filter_length_estimated]⟩
  rcases h with _ | ⟨h1, h2, h3⟩
  obtain ⟨_, l, h4, h5, -⟩ := step_same h2
  exact key h3 ⟨l, h4, by rw [h5, filter_length_estimated]⟩

/-- C81: a run makes at most 16 passes.  If it reports that it did not converge, it made all 16 and some number of
the last update was above the threshold it was compared with; if it reports convergence, none was. -/
theorem C81_iterations (c : AdjCfg K) (var : List K) (params : PSet K) (r : LoopEnd (AdjState K))
    (h : estimateOnce c var params = .ok r) :
    r.count ≤ 16 ∧
    (r.converged = false → r.count = 16 ∧
      ∃ s l, r.state = some s ∧ s.delta = .nums l ∧ TooLarge c.thresholds l) ∧
    (r.converged = true → ∀ s, r.state = some s → ∃ l, s.delta = .nums l ∧ l.length = (estimated c.e).length ∧
      ¬ TooLarge c.thresholds l) := by
  obtain ⟨s, hs, ⟨t, n, q, h1, h2, h3, h4, h5, h6, h7⟩ | ⟨t, n, h1, h2, h3, h4, h5, h6⟩⟩ := once_end h
  · have hn : ∃ m, n = m + 1 := by
      rcases n with _ | n
      · -- no pass: the design matrix of the last pass is missing
        exfalso
        rcases h2 with _ | _
        unfold start at hs
        simp only [bind, Except.bind, pure, Except.pure] at hs
        split at hs
        · cases hs
        · cases hs
          cases h3
      · exact ⟨n, rfl⟩
    obtain ⟨m, rfl⟩ := hn
    obtain ⟨l, hl, hl2⟩ := passes_delta h2
    refine ⟨h7, fun hc => ⟨h6 hc, _, l, h1, hl, ?_⟩, fun hc s' hs' => ?_⟩
    · rw [hc] at h5
      rw [← exceeds_iff, ← hl]
      simpa using h5.symm
    · rw [h1] at hs'
      cases hs'
      refine ⟨l, hl, hl2, ?_⟩
      rw [hc] at h5
      rw [← exceeds_iff, ← hl]
      simpa using h5.symm
  · refine ⟨h6, fun hc => ?_, fun _ s' hs' => ?_⟩
    · rw [h5] at hc
      cases hc
    · rw [h1] at hs'
      cases hs'

/-- what holds for each run and passes from run to run holds for the last one; there are at most five runs -/
theorem outer_end {c : AdjCfg K} {varEst : Bool} (P : PSet K → Prop)
    (hP : ∀ var params r s, P params → estimateOnce c var params = .ok r → r.state = some s → P s.params) :
    ∀ (k cnt : Nat) (var : List K) (params : PSet K) (r : OuterEnd K), 5 - cnt = k → cnt < 5 → P params →
    outer c varEst cnt var params = .ok r →
    cnt < r.runs ∧ r.runs ≤ 5 ∧ (varEst = false → r.runs = cnt + 1) ∧
    (∃ v p, P p ∧ estimateOnce c v p = .ok r.last) ∧ (∀ s, r.last.state = some s → P s.params) := by
  intro k
  induction k with
  | zero => intro cnt var params r hk hc; omega
  | succ k ih =>
    intro cnt var params r hk hc hp h
    rw [outer] at h
    simp only [bind, Except.bind, pure, Except.pure] at h
    split at h
    · cases h
    · rename_i r' hr'
      split at h
      · rename_i hst
        cases h
        exact ⟨by simp only; omega, by simp only; omega, fun _ => rfl, ⟨_, _, hp, hr'⟩,
          fun s hs => hP _ _ _ _ hp hr' hs⟩
      · rename_i s hst
        split at h
        · cases h
          exact ⟨by simp only; omega, by simp only; omega, fun _ => rfl, ⟨_, _, hp, hr'⟩,
            fun s hs => hP _ _ _ _ hp hr' hs⟩
        · rename_i hv
          split at h
          · cases h
            exact ⟨by simp only; omega, by simp only; omega, fun _ => rfl, ⟨_, _, hp, hr'⟩,
              fun s hs => hP _ _ _ _ hp hr' hs⟩
          · split at h
            · rename_i hf
              obtain ⟨h1, h2, h3, h4, h5⟩ := ih (cnt + 1) _ _ r (by omega) hf.2 (hP _ _ _ _ hp hr' hst) h
              refine ⟨by omega, h2, fun hv' => ?_, h4, h5⟩
              rw [hv'] at hv
              simp at hv
            · cases h
              exact ⟨by simp only; omega, by simp only; omega, fun _ => rfl, ⟨_, _, hp, hr'⟩,
                fun s hs => hP _ _ _ _ hp hr' hs⟩

/-- C81: there are at most five runs, and only one without the estimation of variances; what is kept is what the
last run left. -/
theorem C81_runs (c : AdjCfg K) (varEst : Bool) (var : List K) (params : PSet K) (r : OuterEnd K)
    (h : outer c varEst 0 var params = .ok r) :
    1 ≤ r.runs ∧ r.runs ≤ 5 ∧ (varEst = false → r.runs = 1) ∧
      ∃ v p, estimateOnce c v p = .ok r.last := by
  obtain ⟨h1, h2, h3, ⟨v, p, -, h4⟩, -⟩ :=
    outer_end (varEst := varEst) (fun _ => True) (fun _ _ _ _ _ _ _ => trivial) 5 0 var params r rfl (by omega) trivial h
  exact ⟨h1, h2, h3, v, p, h4⟩

theorem estimate_cases {i : InitLib K} {c : AdjCfg K} {varEst : Bool} {var : List K} {r : EstEnd K}
    (h : estimate i c varEst var = .ok r) :
    ∃ init, initParameters i c.τ c.e c.obs = .ok init ∧
    ((c.e.allLqDisabled = true ∧ r = ⟨some AlignParams.new, false⟩) ∨
    (c.e.allLqDisabled = false ∧ ∃ o, outer c varEst 0 var init = .ok o ∧
      ((o.last.converged = false ∧ r = ⟨some init, false⟩) ∨
       (o.last.converged = true ∧ r = ⟨o.last.state.map (fun s => s.params), true⟩)))) := by
  unfold estimate at h
  simp only [bind, Except.bind, pure, Except.pure] at h
  split at h
  · cases h
  · rename_i init hi
    refine ⟨init, hi, ?_⟩
    by_cases hd : c.e.allLqDisabled = true
    · rw [if_pos hd] at h
      cases h
      exact .inl ⟨hd, rfl⟩
    · rw [if_neg hd] at h
      refine .inr ⟨by simpa using hd, ?_⟩
      split at h
      · cases h
      · rename_i o ho
        refine ⟨o, ho, ?_⟩
        by_cases hc : o.last.converged = true
        · rw [if_neg (by simp [hc])] at h
          cases h
          exact .inr ⟨hc, rfl⟩
        · rw [if_pos (by simp [hc])] at h
          cases h
          exact .inl ⟨by simpa using hc, rfl⟩

/-- C81: the estimation reports results exactly if something is to be estimated and its last run converged;
otherwise it gives back the parameters it started with, or none at all if nothing is to be estimated. -/
theorem C81_reported (i : InitLib K) (c : AdjCfg K) (varEst : Bool) (var : List K) (r : EstEnd K)
    (h : estimate i c varEst var = .ok r) :
    (r.hasResults = true → ∃ v p o, estimateOnce c v p = .ok o ∧ o.converged = true ∧
      r.params = o.state.map (fun s => s.params)) ∧
    (r.hasResults = false → (∀ b ∈ c.e.flags, b = false) ∧ r.params = some AlignParams.new ∨
      ∃ init v p o, initParameters i c.τ c.e c.obs = .ok init ∧ r.params = some init ∧
        estimateOnce c v p = .ok o ∧ o.converged = false) := by
  obtain ⟨init, hi, ⟨h1, rfl⟩ | ⟨-, o, ho, ⟨h1, rfl⟩ | ⟨h1, rfl⟩⟩⟩ := estimate_cases h
  · exact ⟨fun hc => (by cases hc), fun _ => .inl ⟨(C86_all_disabled c.e).1.1 h1, rfl⟩⟩
  · obtain ⟨-, -, -, v, p, h4⟩ := C81_runs c varEst var init o ho
    exact ⟨fun hc => (by cases hc), fun _ => .inr ⟨init, v, p, _, hi, rfl, h4, h1⟩⟩
  · obtain ⟨-, -, -, v, p, h4⟩ := C81_runs c varEst var init o ho
    exact ⟨fun _ => ⟨v, p, _, h4, h1, rfl⟩, fun hc => by cases hc⟩

/-! ### C83 -/

theorem variances_same {lib : AdjLib K} {s : AdjState K} {q : PSet K} (h : variances lib s = .ok q) :
    SameParams s.params q := by
  unfold variances at h
  split at h
  · cases h
  · exact setCovariance_same h

theorem once_shape {c : AdjCfg K} {var : List K} {params : PSet K} {r : LoopEnd (AdjState K)} {s : AdjState K}
    (hp : Shape c.e params) (h : estimateOnce c var params = .ok r) (hs : r.state = some s) : Shape c.e s.params := by
  obtain ⟨s0, h0, ⟨t, n, q, h1, h2, h3, -⟩ | ⟨t, n, h1, -⟩⟩ := once_end h
  · rw [h1] at hs
    cases hs
    have h00 : Shape c.e s0.params := by
      unfold start at h0
      simp only [bind, Except.bind, pure, Except.pure] at h0
      split at h0
      · cases h0
      · cases h0
        exact hp
    have : Shape c.e t.params :=
      Passes.keeps (fun s : AdjState K => Shape c.e s.params) (fun s t hs hst => hs.same (step_same hst).1) h2 h00
    exact this.same (variances_same h3)
  · rw [h1] at hs
    cases hs

theorem new_shape (e : EstSettings) (h : ∀ b ∈ e.flags, b = false) : Shape e (AlignParams.new : PSet K) := by
  refine ⟨rfl, ?_⟩
  have : e.flags = List.replicate 11 false := by
    rw [List.eq_replicate_iff]
    exact ⟨by unfold EstSettings.flags; rfl, h⟩
  rw [this]
  rfl

/-- C83: whatever the data and the routines, in the parameters that the estimation gives back exactly the
parameters that the settings name are enabled, and every other one has its neutral value: 0, or 1 for the scale. -/
theorem C83_disabled_neutral (i : InitLib K) (c : AdjCfg K) (varEst : Bool) (var : List K) (r : EstEnd K) (p : PSet K)
    (h : estimate i c varEst var = .ok r) (hp : r.params = some p) :
    p.enabledBoolList = c.e.flags ∧
    ∀ j, c.e.flags[j]? = some false → p.values[j]? = some (if j = 6 then 1 else 0) := by
  have hs : Shape c.e p := by
    obtain ⟨init, hi, ⟨h1, rfl⟩ | ⟨-, o, ho, ⟨h1, rfl⟩ | ⟨h1, rfl⟩⟩⟩ := estimate_cases h
    · cases hp
      exact new_shape _ ((C86_all_disabled c.e).1.1 h1)
    · cases hp
      exact initParameters_shape hi
    · obtain ⟨-, -, -, -, h5⟩ := outer_end (varEst := varEst) (Shape c.e)
        (fun _ _ _ _ hp h hs => once_shape hp h hs) 5 0 var init o rfl (by omega) (initParameters_shape hi) ho
      rcases hst : o.last.state with _ | s
      · rw [hst] at hp
        cases hp
      · rw [hst] at hp
        cases hp
        exact h5 s hst
  refine ⟨hs.flags, fun j hj => ?_⟩
  rw [hs.neutral j hj]
  have hj11 : j < 11 := by
    by_contra hc
    rw [List.getElem?_eq_none (by unfold EstSettings.flags; simp; omega)] at hj
    cases hj
  interval_cases j <;> rfl

/-! ### C82 -/

/-- C82: if the estimated parameters are the first ones of the eleven (for instance the seven of the similarity
transformation), a run that reports convergence changed no estimated parameter by more than the threshold of that
parameter in its last pass. -/
theorem C82_settled_partial (c : AdjCfg K) (var : List K) (params : PSet K) (r : LoopEnd (AdjState K)) (s : AdjState K)
    (n : Nat) (hn : estimated c.e = List.range n)
    (h : estimateOnce c var params = .ok r) (hc : r.converged = true) (hs : r.state = some s) :
    ∃ l, s.delta = .nums l ∧ l.length = (estimated c.e).length ∧ Settled c.e c.thresholds l := by
  obtain ⟨l, h1, h2, h3⟩ := (C81_iterations c var params r h).2.2 hc s hs
  refine ⟨l, h1, h2, fun a j d t ha hd ht => ?_⟩
  rw [hn] at ha
  have haj : a = j := by
    obtain ⟨_, h⟩ := List.getElem?_eq_some_iff.1 ha
    simpa using h
  subst haj
  by_contra hlt
  exact h3 ⟨a, d, t, hd, ht, by simpa using hlt⟩

/-- C82 (negation, for all data): if only the time shift is estimated, a run reports convergence as soon as the
change of the time shift is within the first threshold, the one for translations (in metres); the threshold for
the time shift is never looked at. -/
theorem C82_time_shift_threshold_ignored (c : AdjCfg K) (var : List K) (params : PSet K) (r : LoopEnd (AdjState K))
    (s : AdjState K) (metric time angle : Option K) (he : estimated c.e = [7])
    (ht : c.thresholds = [metric, metric, metric, angle, angle, angle, angle, time, metric, metric, metric])
    (h : estimateOnce c var params = .ok r) (hs : r.state = some s) :
    ∃ d, s.delta = .nums [d] ∧ (r.converged = true ↔ ∀ t, metric = some t → |d| ≤ t) := by
  obtain ⟨h1, h2, h3⟩ := C81_iterations c var params r h
  have key : ∀ l : List K, l.length = 1 → ∃ d, l = [d] ∧ (TooLarge c.thresholds l ↔ ∃ t, metric = some t ∧ t < |d|) := by
    intro l hl
    obtain ⟨d, rfl⟩ := List.length_eq_one_iff.1 hl
    refine ⟨d, rfl, ?_⟩
    rw [ht]
    constructor
    · rintro ⟨k, d', t, h1, h2, h3⟩
      rcases k with _ | k
      · simp only [List.getElem?_cons_zero, Option.some.injEq] at h1 h2
        subst h1
        exact ⟨t, h2, h3⟩
      · simp at h1
    · rintro ⟨t, h1, h2⟩
      exact ⟨0, d, t, rfl, by rw [h1]; rfl, h2⟩
  rcases hc : r.converged with _ | _
  · obtain ⟨-, s', l, h4, h5, h6⟩ := h2 hc
    rw [hs] at h4
    cases h4
    have hl : l.length = 1 := by
      obtain ⟨s0, h0, ⟨t, n, q, k1, k2, k3, k4, k5, k6, k7⟩ | ⟨t, n, k1, -⟩⟩ := once_end h
      · rw [hs] at k1
        cases k1
        rcases n with _ | n
        · have := k6 hc
          omega
        · obtain ⟨l', e1, e2⟩ := passes_delta k2
          have e3 : t.delta = .nums l := h5
          rw [e1] at e3
          cases e3
          rw [e2, he]
          rfl
      · rw [hs] at k1
        cases k1
    obtain ⟨d, rfl, hd⟩ := key l hl
    refine ⟨d, h5, ⟨fun hf => (by cases hf), fun hall => ?_⟩⟩
    obtain ⟨t, e1, e2⟩ := hd.1 h6
    exact absurd (hall t e1) (not_le.2 e2)
  · obtain ⟨l, h5, h6, h7⟩ := h3 hc s hs
    obtain ⟨d, rfl, hd⟩ := key l (by rw [h6, he]; rfl)
    refine ⟨d, h5, ⟨fun _ t e1 => ?_, fun _ => rfl⟩⟩
    by_contra hlt
    exact h7 (hd.2 ⟨t, e1, not_le.1 hlt⟩)

/-! ### a case to compute -/

/-- a rational cosine and sine: constants, so that no rotation takes place -/
def ratTrig : Trig ℚ := ⟨fun _ => 1, fun _ => 0⟩

theorem ratTrig_isTrig : IsTrig ratTrig := ⟨fun _ => by norm_num [ratTrig], rfl, rfl⟩

/-- the derivative of a function that is quadratic in each argument -/
def ratGrad : Grad ℚ := fun f i a => (f (a.set i (a.getD i 0 + 1)) - f (a.set i (a.getD i 0 - 1))) / 2

/-- Cramer's rule -/
def cramerSolve (n : Nat) (M : Matrix (Fin n) (Fin n) ℚ) (b : Fin n → ℚ) : Option (Fin n → ℚ) :=
  if M.det = 0 then none else some (fun i => (M.updateCol i b).det / M.det)

def ratLib : AdjLib ℚ where
  solve := cramerSolve
  solveMany := fun _ _ M B => if M.det = 0 then .error .valueError
    else .ok (fun i j => (M.updateCol i (fun k => B k j)).det / M.det)
  pinv := fun _ M => M

def ratInit : InitLib ℚ where
  nrm := fun p => |p.x| + |p.y| + |p.z|
  svd := fun _ => (1, 1)
  euler := fun _ => 0
  lsq := fun n M b => match cramerSolve n M b with
    | some x => .ok x
    | none => .error .valueError

/-- only the time shift is estimated -/
def exShift : EstSettings := EstSettings.fromComponents false true false false false

/-- one epoch: the target is one metre away in x, the speed is (1, 0, 1) -/
def exShiftCfg : AdjCfg ℚ where
  D := ratGrad
  τ := ratTrig
  lib := ratLib
  e := exShift
  obs := [0, 0, 0, 1, 0, 0, 1, 0, 1]
  thresholds := [some 1, some 1, some 1, some 1, some 1, some 1, some 1, some (1 / 10000), some 1, some 1, some 1]

/-- what a run shows: initial values, final values (none if NaN), number of passes, convergence, and whether the
last changes exceed given bounds -/
structure RunView where
  init : List ℚ
  final : List ℚ
  count : Nat
  converged : Bool
  larger : List Bool
  deriving DecidableEq

def viewRun (c : AdjCfg ℚ) (var : List ℚ) (bounds : List (List (Option ℚ))) : Except Err RunView := do
  let p ← initParameters ratInit c.τ c.e c.obs
  let r ← estimateOnce c var p
  let final := match r.state with
    | some s => s.params.values
    | none => []
  let larger := match r.state with
    | some s => bounds.map (fun b => exceeds b s.delta)
    | none => []
  return ⟨p.values, final, r.count, r.converged, larger⟩

example : estimated exShift = [7] := by decide

/-- the run converges after one pass that changed the time shift by 3/10, three thousand times its threshold -/
example : viewRun exShiftCfg [4, 4, 1, 4, 4, 1, 0, 0, 0] [[some (3 / 10)], [some (29 / 100)]]
    = .ok ⟨[0, 0, 0, 0, 0, 0, 1, 1 / 2, 0, 0, 0], [0, 0, 0, 0, 0, 0, 1, 1 / 5, 0, 0, 0], 1, true, [false, true]⟩ := by
  decide +kernel

end TC
