import Verif.Props.Weights
import Verif.Props.Observations
import Verif.Props.ExactAte
/-!
# C181 for the settings of an alignment and for the absolute error
-/
namespace TC
set_option linter.unusedSectionVars false
variable {K R : Type} [Field K] [LinearOrder K] [IsStrictOrderedRing K]
open Obs

theorem epochNumbers_times (c : K) (e : EstSettings) (a b r v a' b' r' v' : V3 K) (ha : a' = c • a) (hb : b' = c • b) (hr : r' = c • r)
    (hv : v' = c • v) : epochNumbers e a' b' r' v' = (epochNumbers e a b r v).map (fun x => c * x) := by
  subst ha hb hr hv
  unfold epochNumbers
  cases e.leverarmEnabled <;> cases e.timeShiftEnabled <;> rfl

/-- the variances belong to the squares of the standard deviations -/
theorem buildVar_times (e : EstSettings) (s : Stochastics K) (k : K) (n : Nat) (obs : List K) (hobs : obs.length = n * perEpoch e) :
    buildVar e (s.times k) obs = (buildVar e s obs).map (fun v => v.map (fun x => k ^ 2 * x)) := by
  obtain ⟨v, h1, h2, h3⟩ := C78_variances e s n obs hobs
  obtain ⟨v', h1', h2', h3'⟩ := C78_variances e (s.times k) n obs hobs
  have hp : 0 < perEpoch e := by unfold perEpoch; omega
  rw [h1, h1']
  refine congrArg Except.ok ?_
  refine List.ext_getElem? (fun q => ?_)
  by_cases hq : q < n * perEpoch e
  · have hk : q / perEpoch e < n := Nat.div_lt_of_lt_mul (by rwa [Nat.mul_comm])
    have hb : ∀ l : List K, l[q]? = (block (perEpoch e) l (q / perEpoch e))[q % perEpoch e]? := by
      intro l
      unfold block
      rw [List.getElem?_take, if_pos (Nat.mod_lt _ hp), List.getElem?_drop]
      congr 1
      rw [Nat.mul_comm]
      exact (Nat.div_add_mod q (perEpoch e)).symm
    have hm : (v.map (fun x => k ^ 2 * x))[q]? = ((block (perEpoch e) v (q / perEpoch e)).map (fun x => k ^ 2 * x))[q % perEpoch e]? := by
      rw [List.getElem?_map, List.getElem?_map, hb v]
    rw [hm, hb v', h3 _ hk, h3' _ hk]
    rw [epochNumbers_times (k ^ 2) e ⟨s.stdXyFrom ^ 2, s.stdXyFrom ^ 2, s.stdZFrom ^ 2⟩ ⟨s.stdXyTo ^ 2, s.stdXyTo ^ 2, s.stdZTo ^ 2⟩
        ⟨s.stdRollPitch ^ 2, s.stdRollPitch ^ 2, s.stdYaw ^ 2⟩ ⟨s.stdSpeed ^ 2, s.stdSpeed ^ 2, s.stdSpeed ^ 2⟩]
    all_goals
      simp only [Stochastics.times, mul_pow]
      rfl
  · rw [List.getElem?_eq_none (by omega), List.getElem?_eq_none (by rw [List.length_map]; omega)]

/-- a function applied to the result -/
def post {σ α β : Type} (h : α → β) (r : Except Err α × σ) : Except Err β × σ := (r.1.map h, r.2)

theorem post_bind {σ α β γ : Type} (h : β → γ) (m : SE σ α) (f : α → SE σ β) (g : α → SE σ γ) (hg : ∀ a st, g a st = post h (f a st))
    (st : σ) : (m >>= g) st = post h ((m >>= f) st) := by
  obtain ⟨x, s, hm⟩ : ∃ x s, m st = (x, s) := ⟨_, _, rfl⟩
  cases x with
  | error e => rw [SE.run_bind_error hm, SE.run_bind_error hm]; rfl
  | ok a => rw [SE.run_bind_ok hm, SE.run_bind_ok hm, hg]

open H
variable [FloorRing K]

theorem tail_times (e : EstSettings) (st : Stochastics K) (k : K) (obs : List K) (σ : Heap K R) :
    (do
      let obs ← SE.lift (checkLength e obs)
      let var ← SE.lift (buildVar e (st.times k) obs)
      let var ← SE.lift (checkLength e var)
      return (obs, var) : SE (Heap K R) (List K × List K)) σ =
    post (fun v : List K × List K => (v.1, v.2.map (fun x => k ^ 2 * x))) ((do
      let obs ← SE.lift (checkLength e obs)
      let var ← SE.lift (buildVar e st obs)
      let var ← SE.lift (checkLength e var)
      return (obs, var) : SE (Heap K R) (List K × List K)) σ) := by
  by_cases h : obs.length % perEpoch e ≠ 0
  · have : checkLength e obs = .error .valueError := by unfold checkLength; rw [if_pos h]
    rw [this]
    rfl
  · have h0 : checkLength e obs = .ok obs := by unfold checkLength; rw [if_neg h]
    have hn : obs.length = (obs.length / perEpoch e) * perEpoch e := by
      have := Nat.div_add_mod obs.length (perEpoch e)
      rw [not_not.1 h] at this
      rw [Nat.mul_comm]
      omega
    rw [h0]
    show (do
      let var ← SE.lift (buildVar e (st.times k) obs)
      let var ← SE.lift (checkLength e var)
      return (obs, var) : SE (Heap K R) (List K × List K)) σ =
      post (fun v : List K × List K => (v.1, v.2.map (fun x => k ^ 2 * x))) ((do
      let var ← SE.lift (buildVar e st obs)
      let var ← SE.lift (checkLength e var)
      return (obs, var) : SE (Heap K R) (List K × List K)) σ)
    rw [buildVar_times e st k _ obs hn]
    cases buildVar e st obs with
    | error x => rfl
    | ok v =>
      show (do
        let var ← SE.lift (checkLength e (v.map (fun x => k ^ 2 * x)))
        return (obs, var) : SE (Heap K R) (List K × List K)) σ =
        post (fun v : List K × List K => (v.1, v.2.map (fun x => k ^ 2 * x))) ((do
        let var ← SE.lift (checkLength e v)
        return (obs, var) : SE (Heap K R) (List K × List K)) σ)
      unfold checkLength
      rw [List.length_map]
      split_ifs <;> rfl

theorem setup_times (lib : MetricLib K R) (counter : Nat) (s : AlignSettings K) (k : K) (ms : MatchingSettings K) (f t : Nat) (σ : Heap K R) :
    setup lib counter (s.times k) ms f t σ =
      post (fun v : List K × List K => (v.1, v.2.map (fun x => k ^ 2 * x))) (setup lib counter s ms f t σ) := by
  unfold setup
  refine post_bind _ _ _ _ (fun _ σ => ?_) σ
  refine post_bind _ _ _ _ (fun _ σ => ?_) σ
  refine post_bind _ _ _ _ (fun _ σ => ?_) σ
  refine post_bind _ _ _ _ (fun o σ => ?_) σ
  refine post_bind _ _ _ _ (fun p σ => ?_) σ
  split_ifs
  · rfl
  · refine post_bind _ _ _ _ (fun _ σ => ?_) σ
    refine post_bind _ _ _ _ (fun _ σ => ?_) σ
    refine post_bind _ _ _ _ (fun _ σ => ?_) σ
    refine post_bind _ _ _ _ (fun _ σ => ?_) σ
    refine post_bind _ _ _ _ (fun obs σ => ?_) σ
    exact tail_times s.est s.stoch k obs σ

theorem alignData_times (lib : MetricLib K R) (counter : Nat) (s : AlignSettings K) (k : K) (ms : MatchingSettings K) (f t : Nat)
    (σ : Heap K R) : alignData lib counter (s.times k) ms f t σ =
      post (fun d : AlignData K => { d with var := d.var.map (fun x => k ^ 2 * x) }) (alignData lib counter s ms f t σ) := by
  unfold alignData
  refine post_bind _ _ _ _ (fun f' σ => ?_) σ
  refine post_bind _ _ _ _ (fun t' σ => ?_) σ
  obtain ⟨x, σ', hx⟩ : ∃ x σ', setup lib counter s ms f' t' σ = (x, σ') := ⟨_, _, rfl⟩
  have hy := setup_times lib counter s k ms f' t' σ
  rw [hx] at hy
  cases x with
  | error e => rw [SE.run_bind_error hx, SE.run_bind_error hy]; rfl
  | ok v => rw [SE.run_bind_ok hx, SE.run_bind_ok hy]; rfl

theorem sensorRotation_values (lib : MetricLib K R) (s : AlignSettings K) (k : K) (d : AlignData K) (var : List K) {p p' : PSet K}
    (h : p'.values = p.values) : sensorRotation lib (s.times k) { d with var := var } p' = sensorRotation lib s d p := by
  unfold sensorRotation
  rw [h]
  rfl

/-- both leave the same objects; the results are related -/
def BothRuns {σ α : Type} (Q : α → α → Prop) (x y : Except Err α × σ) : Prop := y.2 = x.2 ∧ Both Q x.1 y.1

theorem BothRuns.bind {σ α β : Type} {Q : α → α → Prop} {S : β → β → Prop} {m m' : SE σ α} {f g : α → SE σ β} {st : σ}
    (h : BothRuns Q (m st) (m' st)) (hf : ∀ a b st, Q a b → BothRuns S (f a st) (g b st)) :
    BothRuns S ((m >>= f) st) ((m' >>= g) st) := by
  obtain ⟨x, s, hm⟩ : ∃ x s, m st = (x, s) := ⟨_, _, rfl⟩
  obtain ⟨y, s', hm'⟩ : ∃ x s, m' st = (x, s) := ⟨_, _, rfl⟩
  rw [hm, hm'] at h
  obtain ⟨h1, h2⟩ := h
  simp only at h1 h2
  subst h1
  cases h2 with
  | error e => rw [SE.run_bind_error hm, SE.run_bind_error hm']; exact ⟨rfl, .error e⟩
  | ok r => rw [SE.run_bind_ok hm, SE.run_bind_ok hm']; exact hf _ _ _ r

theorem BothRuns.self {σ α : Type} (m : SE σ α) (st : σ) : BothRuns (fun a b => b = a) (m st) (m st) :=
  ⟨rfl, Both.refl (R := fun a b => b = a) (fun _ => rfl) _⟩

theorem bothRuns_post {σ α : Type} (h : α → α) (r : Except Err α × σ) : BothRuns (fun a b => b = h a) r (post h r) := by
  obtain ⟨x, s⟩ := r
  refine ⟨rfl, ?_⟩
  cases x with
  | error e => exact .error e
  | ok a => exact .ok rfl

theorem bothRuns_lift {σ α : Type} {Q : α → α → Prop} {x y : Except Err α} (h : Both Q x y) {st : σ} :
    BothRuns Q (SE.lift x st) (SE.lift y st) := by
  cases h with
  | error e => exact ⟨rfl, .error e⟩
  | ok r => exact ⟨rfl, .ok r⟩

/-- **C181**, as a user sees it: with all standard deviations multiplied by `k`, the estimated alignment has the same
values, and variances and covariances that are multiplied by `k ^ 2`. -/
theorem C181_alignment {lib : MetricLib K R} (hl : ScaleFree lib.adj) {k : K} (hk : k ≠ 0) (counter : Nat) (s : AlignSettings K)
    (hv : s.stoch.varianceEstimation = false) (ms : MatchingSettings K) (f t : Nat) (σ : Heap K R) :
    BothRuns (BothSome (SameUpToWeights (k ^ 2))) (estimateAlignment lib counter s ms f t σ)
      (estimateAlignment lib counter (s.times k) ms f t σ) := by
  have hc : 0 < k ^ 2 := by positivity
  unfold estimateAlignment
  refine BothRuns.bind (Q := fun d d' => d' = { d with var := d.var.map (fun x => k ^ 2 * x) }) ?_ ?_
  · rw [alignData_times]
    exact bothRuns_post _ _
  rintro d _ σ rfl
  have hE : Both (fun E E' : Adjust.EstEnd K => E'.hasResults = E.hasResults ∧ (E.hasResults = false → E' = E) ∧
        (E.hasResults = true → BothSome (Widened (k ^ 2)) E.params E'.params)) (runEstimation lib s d)
      (runEstimation lib (s.times k) { d with var := d.var.map (fun x => k ^ 2 * x) }) := by
    have e1 : (s.times k).stoch.varianceEstimation = false := hv
    unfold runEstimation
    refine (Both.refl (R := fun a b => b = a) (fun _ => rfl) _).bind ?_
    rintro _ ths rfl
    rw [hv, e1]
    exact C181_only_ratios_count lib.init (cf := ⟨lib.grad, lib.trig, lib.adj, s.est, d.obs, ths⟩) hl hc d.var
  refine BothRuns.bind (Q := fun E E' : Adjust.EstEnd K => E'.hasResults = E.hasResults ∧ (E.hasResults = false → E' = E) ∧
        (E.hasResults = true → BothSome (Widened (k ^ 2)) E.params E'.params)) (bothRuns_lift hE) ?_
  rintro ⟨p, b⟩ ⟨p', b'⟩ σ ⟨h1, h2, h3⟩
  simp only at h1 h2 h3
  subst h1
  have hp : BothSome (fun p p' : PSet K => p'.values = p.values ∧ (b' = true → Widened (k ^ 2) p p') ∧ (b' = false → p' = p)) p p' := by
    cases b' with
    | false =>
      have := h2 rfl
      injection this with e1 e2
      subst e1
      cases p' with
      | none => exact .none
      | some q => exact .some ⟨rfl, fun h => (by cases h), fun _ => rfl⟩
    | true =>
      have := h3 rfl
      cases this with
      | none => exact .none
      | some w => exact .some ⟨w.values, fun _ => w, fun h => by cases h⟩
  cases hp with
  | none => exact ⟨rfl, .ok .none⟩
  | @some p p' hq =>
    obtain ⟨q1, q2, q3⟩ := hq
    simp only
    refine BothRuns.bind (Q := fun a b => b = a) ?_ ?_
    · rw [sensorRotation_values lib s k d _ q1]
      exact .self _ _
    rintro q _ σ rfl
    refine BothRuns.bind (.self _ _) ?_
    rintro o _ σ rfl
    refine BothRuns.bind (.self _ _) ?_
    rintro u _ σ rfl
    exact ⟨rfl, .ok (.some ⟨rfl, rfl, rfl, rfl, q1, q2, q3⟩)⟩

/-- **C181**: and the absolute error is the same. -/
theorem C181_ate {lib : MetricLib K R} (hl : ScaleFree lib.adj) {k : K} (hk : k ≠ 0) (counter : Nat) (s : ProcSettings K)
    (hv : s.align.stoch.varianceEstimation = false) (gt est : Nat) (σ : Heap K R) :
    BothRuns (BothSome (fun x y => y.1 = x.1 ∧ SameUpToWeights (k ^ 2) x.2 y.2)) (ate lib counter s gt est σ)
      (ate lib counter { s with align := s.align.times k } gt est σ) := by
  unfold ate
  refine BothRuns.bind (.self _ _) ?_
  rintro _ _ σ -
  refine BothRuns.bind (C181_alignment hl hk counter s.align hv s.matching est gt σ) ?_
  intro a b σ hab
  cases hab with
  | none => exact ⟨rfl, .ok .none⟩
  | @some a a' h =>
    have e1 : sensorOf lib a' = sensorOf lib a := by
      unfold sensorOf
      rw [h.rotation]
    simp only [h.values, e1]
    refine BothRuns.bind (.self _ _) ?_
    rintro t _ σ rfl
    refine BothRuns.bind (.self _ _) ?_
    rintro o _ σ rfl
    refine BothRuns.bind (.self _ _) ?_
    rintro u _ σ rfl
    refine BothRuns.bind (.self _ _) ?_
    rintro r _ σ rfl
    exact ⟨rfl, .ok (.some ⟨rfl, h⟩)⟩

/-- the hypotheses are met by exact arithmetic and the default settings, for twice the standard deviations -/
example (m : MatchingMethod) : ScaleFree exactMetricLib.adj ∧ (exDefaults m).align.stoch.varianceEstimation = false ∧
    ((exDefaults m).align.times 2).stoch = ⟨2, 2, 2, 2, 2 * (Real.pi / 180), 2 * (Real.pi / 180), 2, false⟩ :=
  ⟨realAdjLib_scaleFree, rfl, by simp [AlignSettings.times, Stochastics.times, exDefaults]⟩

end TC
