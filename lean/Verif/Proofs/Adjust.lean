import Verif.Spec.Adjust
import Verif.Spec.Params
import Verif.Props.AlignSettings
import Verif.Props.Params
/-!
Loops of the adjustment.
-/
namespace TC
set_option linter.unusedSectionVars false
variable {K : Type} [Field K] [LinearOrder K]
open Obs Adjust Equations

/-- `n` passes lead from `s` to `t`, each made because the test asked for it -/
inductive Passes {α : Type} (test : α → Bool) (pass : α → Except Err (Option α)) : Nat → α → α → Prop
  | zero (s : α) : Passes test pass 0 s s
  | succ {n : Nat} {s t u : α} : test s = true → pass s = .ok (some t) → Passes test pass n t u →
      Passes test pass (n + 1) s u

/-- how the loop ends -/
theorem loop_end {α : Type} (test : α → Bool) (pass : α → Except Err (Option α)) :
    ∀ (k it : Nat) (s : α) (r : LoopEnd α), 16 - it = k → loop test pass it s = .ok r →
    (∃ t n, r.state = some t ∧ Passes test pass n s t ∧ r.count = it + n ∧ r.converged = !test t ∧
      (r.converged = false → 15 < r.count) ∧ (it ≤ 16 → r.count ≤ 16)) ∨
    (∃ t n, r.state = none ∧ Passes test pass n s t ∧ test t = true ∧ pass t = .ok none ∧ r.count = it + n + 1 ∧
      r.converged = true ∧ r.count ≤ 16) := by
  intro k
  induction k with
  | zero =>
    intro it s r hk h
    rw [loop] at h
    by_cases ht : test s = true
    · rw [if_pos ht, if_pos (by omega)] at h
      cases h
      exact .inl ⟨s, 0, rfl, .zero s, rfl, by rw [ht]; rfl, fun _ => by simp only; omega, fun h => h⟩
    · rw [if_neg ht] at h
      cases h
      refine .inl ⟨s, 0, rfl, .zero s, rfl, ?_, fun hc => (by cases hc), fun h => h⟩
      cases h : test s
      · rfl
      · exact absurd h ht
  | succ k ih =>
    intro it s r hk h
    rw [loop] at h
    by_cases ht : test s = true
    · rw [if_pos ht, if_neg (by omega)] at h
      simp only [bind, Except.bind] at h
      rcases hp : pass s with x | x
      · rw [hp] at h
        cases h
      · rw [hp] at h
        rcases x with _ | t
        · cases h
          exact .inr ⟨s, 0, rfl, .zero s, ht, hp, rfl, rfl, by simp only; omega⟩
        · rcases ih (it + 1) t r (by omega) h with ⟨u, n, h1, h2, h3, h4, h5, h6⟩ | ⟨u, n, h1, h2, h3, h4, h5, h6⟩
          · exact .inl ⟨u, n + 1, h1, .succ ht hp h2, by omega, h4, h5, fun _ => h6 (by omega)⟩
          · exact .inr ⟨u, n + 1, h1, .succ ht hp h2, h3, h4, by omega, h6⟩
    · rw [if_neg ht] at h
      cases h
      refine .inl ⟨s, 0, rfl, .zero s, rfl, ?_, fun hc => (by cases hc), fun h => h⟩
      cases h : test s
      · rfl
      · exact absurd h ht

/-- what each pass keeps, passes keep -/
theorem Passes.keeps {α : Type} {test : α → Bool} {pass : α → Except Err (Option α)} (P : α → Prop)
    (h : ∀ s t, P s → pass s = .ok (some t) → P t) {n : Nat} {s t : α} (hp : Passes test pass n s t) (hs : P s) : P t := by
  induction hp with
  | zero => exact hs
  | succ _ hp _ ih => exact ih (h _ _ hs hp)

/-! ### what the operations on parameters keep -/

theorem sameParams_trans {s t u : PSet K} (h1 : SameParams s t) (h2 : SameParams t u) : SameParams s u := h1.trans h2

theorem set_same {s t : PSet K} {upd : Param K → K → Param K} {vals : List K} {b : Bool}
    (hu : ∀ p v, ((upd p v).default, (upd p v).enabled, (upd p v).name, (upd p v).unit)
      = (p.default, p.enabled, p.name, p.unit))
    (h : s.set upd vals b = .ok t) : SameParams s t := by
  unfold PSet.set at h
  split at h
  · cases h
  · split at h
    · cases h
    · cases h
      exact (PSet.setLoop_map (fun p : Param K => (p.default, p.enabled, p.name, p.unit)) (upd := upd) hu b _ _).symm

theorem addValues_same {s t : PSet K} {d : List K} (h : s.addValuesEnabled d = .ok t) : SameParams s t := by
  unfold PSet.addValuesEnabled at h
  split at h
  · exact set_same (upd := PSet.updValue) (fun _ _ => rfl) h
  · split at h
    · exact set_same (upd := PSet.updValue) (fun _ _ => rfl) h
    · cases h

theorem setCovariance_same {s t : PSet K} {m : List (List K)} (h : s.setCovariance m = .ok t) : SameParams s t := by
  unfold PSet.setCovariance PSet.validateCovariance at h
  split at h
  · cases h
  · split at h
    · unfold PSet.setVariances at h
      simp only [bind, Except.bind, pure, Except.pure] at h
      split at h
      · cases h
      · rename_i t' ht'
        cases h
        exact (set_same (upd := PSet.updVariance) (fun _ _ => rfl) ht' : SameParams _ t')
    · split at h
      · cases h
      · unfold PSet.setVariancesEnabled at h
        simp only [bind, Except.bind, pure, Except.pure] at h
        split at h
        · cases h
        · rename_i t' ht'
          cases h
          exact (set_same (upd := PSet.updVariance) (fun _ _ => rfl) ht' : SameParams _ t')

/-- neutral values as defaults and exactly the parameters of the settings enabled -/
structure Shape (e : EstSettings) (s : PSet K) : Prop where
  defaults : s.params.map (fun p => p.default) = alignDefaults
  flags : s.enabledBoolList = e.flags

theorem Shape.same {e : EstSettings} {s t : PSet K} (h : Shape e s) (hs : SameParams s t) : Shape e t := by
  constructor
  · rw [← h.defaults]
    have := congrArg (List.map (fun x : K × Bool × String × MUnit => x.1)) hs
    simpa [List.map_map, Function.comp_def] using this.symm
  · rw [← h.flags]
    unfold PSet.enabledBoolList
    have := congrArg (List.map (fun x : K × Bool × String × MUnit => x.2.1)) hs
    simpa [List.map_map, Function.comp_def] using this.symm

theorem Shape.length {e : EstSettings} {s : PSet K} (h : Shape e s) : s.params.length = 11 := by
  have := congrArg List.length h.defaults
  rwa [List.length_map] at this

theorem Shape.numEnabled {e : EstSettings} {s : PSet K} (h : Shape e s) :
    (s.params.filter (fun p => p.enabled)).length = (e.lqParameterFilter.filter id).length := by
  rw [C86_filter, ← h.flags]
  unfold PSet.enabledBoolList
  rw [List.filter_map, List.length_map]
  rfl

/-- the values of disabled parameters are neutral -/
theorem Shape.neutral {e : EstSettings} {s : PSet K} (h : Shape e s) (j : Nat)
    (hf : e.flags[j]? = some false) : s.values[j]? = alignDefaults[j]? := by
  rw [← h.flags] at hf
  rw [← h.defaults]
  unfold PSet.enabledBoolList at hf
  unfold PSet.values
  rw [List.getElem?_map] at hf ⊢
  rw [List.getElem?_map]
  rcases hp : s.params[j]? with _ | p
  · rfl
  · rw [hp] at hf
    simp only [Option.map_some, Option.some.injEq] at hf ⊢
    unfold Param.value
    rw [hf]
    rfl

/-! ### initial parameters -/

theorem leverarm_shape {τ : Trig K} {solve : Solver K} {target source rpy : List (V3 K)} {speed : Option (List (V3 K))}
    {r : List (Param K) × Param K} (h : Direct.leverarm τ solve target source rpy speed = .ok r) :
    r.1.map (fun p => p.default) = [0, 0, 0] ∧ r.2.default = 0 := by
  unfold Direct.leverarm at h
  split at h
  · cases h
  · simp only [bind, Except.bind, pure, Except.pure] at h
    split at h
    · cases h
    · split at h
      · cases h
      · cases h
        exact ⟨rfl, rfl⟩

theorem timeshift_shape {solve : Solver K} {target source speed : List (V3 K)}
    {r : Param K} (h : Direct.timeshift solve target source speed = .ok r) : r.default = 0 := by
  unfold Direct.timeshift at h
  split at h
  · cases h
  · simp only at h
    split at h
    · cases h
    · simp only [bind, Except.bind, pure, Except.pure] at h
      split at h
      · cases h
      · cases h
        rfl

theorem helmert_shape {nrm : V3 K → K} {svd : M3 K → M3 K × M3 K} {euler : M3 K → V3 K} {w : List K}
    {source target : List (V3 K)} {r : List (Param K)} (h : Direct.helmert nrm svd euler w source target = .ok r) :
    r.map (fun p => p.default) = [0, 0, 0, 0, 0, 0, 1] := by
  unfold Direct.helmert at h
  generalize (if w.length = 0 then source.map (fun _ => (1 : K)) else w) = w' at h
  simp only at h
  split at h
  · cases h
  · cases h
    rfl

theorem postInit_ok (ps : List (Param K)) (hl : ps.length = 11) :
    PSet.postInit { cov := [], params := ps } = .ok { cov := zeroRows 11, params := ps } := by
  have h : ({ cov := [], params := ps } : PSet K).len = 11 := by rw [PSet.len_eq]; exact hl
  unfold PSet.postInit
  rw [if_neg (by rw [h]; exact (by decide : ¬ 0 = 11)), h]

theorem applySettings_shape (s : PSet K) (e : EstSettings) (h : s.params.map (fun p => p.default) = alignDefaults) :
    Shape e (AlignParams.applySettings s e) := by
  have hl : s.params.length = 11 := by
    have := congrArg List.length h
    rwa [List.length_map] at this
  obtain ⟨h1, h2, -⟩ := C75_apply_settings s e hl
  refine ⟨?_, h1⟩
  rw [← h]
  have := congrArg (List.map (fun x : K × K × K × String => x.2.2.1)) h2
  simpa [List.map_map, Function.comp_def] using this

theorem initParameters_shape {i : InitLib K} {τ : Trig K} {e : EstSettings} {obs : List K} {s : PSet K}
    (h : initParameters i τ e obs = .ok s) : Shape e s := by
  unfold initParameters at h
  simp only [bind, Except.bind, pure, Except.pure] at h
  split at h
  · cases h
  · rename_i hel hhel
    have d1 : hel.map (fun p => p.default) = [0, 0, 0, 0, 0, 0, 1] := by
      unfold initHelmert at hhel
      split at hhel
      · exact helmert_shape hhel
      · cases hhel
        rfl
    split at h
    · cases h
    · rename_i time htime
      have d2 : time.default = 0 := by
        unfold initTime at htime
        split at htime
        · exact timeshift_shape htime
        · cases htime
          rfl
      split at h
      · cases h
      · rename_i lt hlt
        have d3 : lt.1.map (fun p => p.default) = [0, 0, 0] ∧ lt.2.default = 0 := by
          unfold initLever at hlt
          split at hlt
          · exact leverarm_shape hlt
          · cases hlt
            exact ⟨rfl, d2⟩
        have d4 : (hel ++ [lt.2] ++ lt.1).map (fun p => p.default) = alignDefaults := by
          rw [List.map_append, List.map_append, d1, d3.1, List.map_cons, List.map_nil, d3.2]
          rfl
        rw [postInit_ok _ (by have := congrArg List.length d4; rwa [List.length_map] at this)] at h
        cases h
        exact applySettings_shape _ _ d4

/-! ### the passes -/

theorem step_same {c : AdjCfg K} {var : List K} {s t : AdjState K} (h : step c var s = .ok (some t)) :
    SameParams s.params t.params ∧ ∃ l, t.delta = .nums l ∧ l.length = (c.e.lqParameterFilter.filter id).length ∧
      s.params.addValuesEnabled l = .ok t.params ∧ t.normal ≠ none := by
  unfold step at h
  simp only [bind, Except.bind, pure, Except.pure] at h
  split at h
  · cases h
  split at h
  · cases h
  split at h
  · cases h
  split at h
  · split at h
    · cases h
    · split at h
      · cases h
      · split at h
        · cases h
        · rename_i _ _ _ hp _ _ _
          cases h
          exact ⟨addValues_same hp, _, rfl, by rw [List.length_ofFn], hp, by simp⟩
  · cases h

end TC
