import Verif.Spec.RpePlots
import Verif.Props.Compare
import Verif.Props.PlotData
import Verif.Props.Plots
import Verif.Props.RpeFile
/-!
# C148: the plots of the relative error
-/
set_option linter.unusedSectionVars false
namespace TC
namespace Plot
variable {K R : Type} [Field K] [LinearOrder K] [IsStrictOrderedRing K]

theorem mapE_forall₂ {α β : Type} {f : α → Except Err β} : ∀ {l : List α} {r : List β}, mapE f l = .ok r →
    List.Forall₂ (fun a b => f a = .ok b) l r
  | [], r, h => by cases h; exact .nil
  | a :: l, r, h => by
    obtain ⟨b, bs, h1, h2, rfl⟩ := mapE_cons_inv h
    exact .cons h1 (mapE_forall₂ h2)

theorem filled_eq {r : RpeResult K} {sel : RpeGroup K → List (Option K)}
    (hl : ∀ g ∈ r.groups, (sel g).length = g.pairDist.length) :
    r.groups.filter (fun g => !(sel g).isEmpty) = r.filled := by
  unfold RpeResult.filled
  apply List.filter_congr
  intro g hg
  have := hl g hg
  cases h1 : sel g <;> cases h2 : g.pairDist <;> simp_all

theorem filled_ne {r : RpeResult K} {g : RpeGroup K} (h : g ∈ r.filled) : g.pairDist ≠ [] := by
  have := (List.mem_filter.1 h).2
  simpa using this

theorem forall₂_imp_mem {α β : Type} {p q : α → β → Prop} : ∀ {l : List α} {l' : List β},
    (∀ a ∈ l, ∀ b, p a b → q a b) → List.Forall₂ p l l' → List.Forall₂ q l l'
  | _, _, _, .nil => .nil
  | _, _, h, .cons h1 h2 => .cons (h _ (by simp) _ h1) (forall₂_imp_mem (fun a ha b hb => h a (by simp [ha]) b hb) h2)

/-- what `compute_metric` gives, bin by bin -/
theorem metric_bins {r : RpeResult K} {sel : RpeGroup K → List (Option K)} {f : List K → Except Err K} {g : List K → K}
    {c : K} {out : List K} (hl : ∀ g ∈ r.groups, (sel g).length = g.pairDist.length)
    (hf : ∀ xs : List K, xs ≠ [] → f xs = .ok (g xs)) (h : r.computeMetric sel f c = .ok out) :
    List.Forall₂ (fun b v => ∃ xs : List K, sel b = xs.map some ∧ v = g xs * c) r.filled out := by
  unfold RpeResult.computeMetric at h
  rw [filter_map_isEmpty, filled_eq hl] at h
  have h2 := mapE_forall₂ h
  rw [List.forall₂_map_left_iff] at h2
  refine forall₂_imp_mem ?_ h2
  intro b hb v hv
  cases hn : numbers (sel b) with
  | error e => rw [hn] at hv; cases hv
  | ok xs =>
    rw [hn] at hv
    have hs := numbers_inv hn
    have hne : xs ≠ [] := by
      rintro rfl
      have h1 := hl b (List.mem_filter.1 hb).1
      rw [hs] at h1
      exact filled_ne hb (List.length_eq_zero_iff.1 h1.symm)
    simp only [bind, Except.bind, hf xs hne, pure, Except.pure, Except.ok.injEq] at hv
    exact ⟨xs, hs, hv.symm⟩

theorem npMean_meanOf (xs : List K) (h : xs ≠ []) : npMean xs = .ok (meanOf xs) := npMean_ne h

theorem npStd_stdOf (E : EvalLib K) (xs : List K) (h : xs ≠ []) : npStd E xs = .ok (stdOf E xs) := by
  rw [npStd_ne E h]
  unfold stdOf meanOf
  simp

theorem distances_filled {r : RpeResult K} {x : List K} (h : r.meanPairDistances = .ok x) : x = r.filled.map RpeGroup.mean :=
  meanPairDistances_eq h

theorem hasRot_iff (r : RpeResult K) : r.hasRotDev = true ↔ HasRotations r := by
  unfold RpeResult.hasRotDev HasRotations
  simp [List.any_eq_true]

theorem posTrace_bins {E : EvalLib K} {name : Str} {r : RpeResult K} {t : BarTrace K} (hc : PairsComplete r)
    (h : rpePosTrace E name r = .ok t) : PosBins E r name t := by
  unfold rpePosTrace at h
  cases hx : r.meanPairDistances with
  | error e => rw [hx] at h; cases h
  | ok x =>
    cases hy : r.posDevMean with
    | error e => rw [hx, hy] at h; cases h
    | ok y =>
      cases he : r.posStd E with
      | error e => rw [hx, hy, he] at h; cases h
      | ok e =>
        rw [hx, hy, he] at h
        cases h
        exact ⟨rfl, rfl, ⟨distances_filled hx, metric_bins hc.pos npMean_meanOf hy⟩,
          ⟨distances_filled hx, metric_bins hc.pos (npStd_stdOf E) he⟩⟩

theorem forall₂_map_deg {α : Type} {p : α → K → Prop} {q : α → K → Prop} {f : K → K} {l : List α} {l' : List K}
    (h : List.Forall₂ p l l') (hq : ∀ a b, p a b → q a (f b)) : List.Forall₂ q l (l'.map f) := by
  rw [List.forall₂_map_right_iff]
  exact h.imp hq

theorem rotTrace_bins {P : PlotLib K R} {name : Str} {r : RpeResult K} {ts : List (BarTrace K)} (hc : PairsComplete r)
    (h : rpeRotTrace P name r = .ok ts) :
    (HasRotations r ∧ ∃ q, ts = [q] ∧ RotBins P r name q) ∨ (¬ HasRotations r ∧ ts = []) := by
  unfold rpeRotTrace RpeResult.rotDevMean RpeResult.rotStd at h
  by_cases hr : r.hasRotDev = true
  · left
    rw [if_pos hr, if_pos hr, if_pos hr] at h
    refine ⟨(hasRot_iff r).1 hr, ?_⟩
    have hl := hc.rot ((hasRot_iff r).1 hr)
    cases hx : r.meanPairDistances with
    | error e => rw [hx] at h; cases h
    | ok x =>
      cases hy : r.computeMetric RpeGroup.rotDev npMean r.driftFactor with
      | error e => rw [hx, hy] at h; cases h
      | ok y =>
        cases he : r.computeMetric RpeGroup.rotDev (npStd P.eval) r.driftFactor with
        | error e => rw [hx, hy, he] at h; cases h
        | ok e =>
          rw [hx, hy, he] at h
          cases h
          refine ⟨_, rfl, rfl, rfl, ⟨distances_filled hx, ?_⟩, ⟨distances_filled hx, ?_⟩⟩
          · refine forall₂_map_deg (metric_bins hl npMean_meanOf hy) ?_
            rintro g v ⟨xs, h1, rfl⟩
            exact ⟨xs, h1, rfl⟩
          · refine forall₂_map_deg (metric_bins hl (npStd_stdOf P.eval) he) ?_
            rintro g v ⟨xs, h1, rfl⟩
            exact ⟨xs, h1, rfl⟩
  · right
    rw [if_neg hr] at h
    cases h
    exact ⟨fun hh => hr ((hasRot_iff r).2 hh), rfl⟩

theorem ownBins {P : PlotLib K R} {m n : Str} {r : RpeResult K} {p : BarTrace K} {q : List (BarTrace K)} (hc : PairsComplete r)
    (hp : rpePosTrace P.eval m r = .ok p) (hq : rpeRotTrace P n r = .ok q) : OwnBins P m n r (p :: q) := by
  rcases rotTrace_bins hc hq with ⟨h1, t, rfl, h2⟩ | ⟨h1, rfl⟩
  · exact Or.inl ⟨h1, p, t, rfl, posTrace_bins hc hp, h2⟩
  · exact Or.inr ⟨h1, p, rfl, posTrace_bins hc hp⟩

theorem rpePlot_inv {P : PlotLib K R} {items : List (RpeResult K)} {fig : RpeFigure K} (h : rpePlot P items = .ok fig) :
    ∃ axes ts, rpeAxes items = .ok axes ∧ mapE (fun r => do
      let p ← rpePosTrace P.eval (rpeShortName r) r
      let q ← rpeRotTrace P (rpeShortName r) r
      return p :: q) items = .ok ts ∧
      fig = { xRow := axes.1, xLabel := axes.2.1, yLabels := axes.2.2, traces := ts.flatten } := by
  unfold rpePlot at h
  cases ha : rpeAxes items with
  | error e => rw [ha] at h; cases h
  | ok axes =>
    rw [ha] at h
    simp only [bind, Except.bind] at h
    split at h
    · cases h
    · rename_i ts hts
      cases h
      exact ⟨axes, ts, rfl, hts, rfl⟩

/-- **C148**: in the figure of several relative errors every result has its own curves, one result after the other: over the
mean distance of each bin the mean deviation of the bin with its standard deviation as the error bar; rotations in the
second subplot, if there are some. -/
theorem C148_curves {P : PlotLib K R} {items : List (RpeResult K)} {fig : RpeFigure K} (hc : ∀ r ∈ items, PairsComplete r)
    (h : rpePlot P items = .ok fig) :
    ∃ tss, fig.traces = tss.flatten ∧
      List.Forall₂ (fun r ts => OwnBins P (rpeShortName r) (rpeShortName r) r ts) items tss := by
  obtain ⟨axes, ts, -, hts, rfl⟩ := rpePlot_inv h
  refine ⟨ts, rfl, forall₂_imp_mem ?_ (mapE_forall₂ hts)⟩
  intro r hr t ht
  cases hp : rpePosTrace P.eval (rpeShortName r) r with
  | error e => rw [hp] at ht; cases ht
  | ok p =>
    cases hq : rpeRotTrace P (rpeShortName r) r with
    | error e => rw [hp] at ht; simp only [bind, Except.bind, hq] at ht; cases ht
    | ok q =>
      rw [hp] at ht
      simp only [bind, Except.bind, hq] at ht
      cases ht
      exact ownBins (hc r hr) hp hq

theorem distLabel (r : RpeResult K) :
    poseDistance r.distUnit = (if r.unit = .meter then "Pose Distance [m]" else "Pose Distance [s]").toList := by
  unfold RpeResult.distUnit
  split_ifs <;> decide

theorem posLabel (r : RpeResult K) : bracket r.posUnit = (if r.unit = .meter then "[%]" else "[m/s]").toList := by
  unfold RpeResult.posUnit
  split_ifs <;> decide

theorem rotLabel (r : RpeResult K) : bracket r.rotUnit = (if r.unit = .meter then "[deg/100m]" else "[deg/s]").toList := by
  unfold RpeResult.rotUnit
  split_ifs <;> decide

/-- **C148**: the figure of one relative error shows it, with the right texts at the axes. -/
theorem C148_single {P : PlotLib K R} {r : RpeResult K} {fig : RpeFigure K} (hc : PairsComplete r)
    (h : rpeSinglePlot P r = .ok fig) :
    OwnBins P "position".toList "rotation".toList r fig.traces ∧ RightUnits r fig.xLabel fig.yLabels := by
  unfold rpeSinglePlot at h
  cases hp : rpePosTrace P.eval "position".toList r with
  | error e => rw [hp] at h; cases h
  | ok p =>
    cases hq : rpeRotTrace P "rotation".toList r with
    | error e => rw [hp] at h; simp only [bind, Except.bind, hq] at h; cases h
    | ok q =>
      rw [hp] at h
      simp only [bind, Except.bind, hq] at h
      split_ifs at h with hr
      · cases h
        exact ⟨ownBins hc hp hq, distLabel r, congrArg some (posLabel r), fun _ => congrArg some (rotLabel r)⟩
      · cases h
        exact ⟨ownBins hc hp hq, distLabel r, congrArg some (posLabel r), fun hh => absurd ((hasRot_iff r).2 hh) hr⟩

theorem metric_exists {r : RpeResult K} {sel : RpeGroup K → List (Option K)} {f : List K → Except Err K} {g : List K → K} (c : K)
    (hs : ∀ b ∈ r.groups, ∃ xs : List K, sel b = xs.map some) (hf : ∀ xs : List K, xs ≠ [] → f xs = .ok (g xs)) :
    ∃ out, r.computeMetric sel f c = .ok out := by
  obtain ⟨out, h, -⟩ := computeMetric_ok r sel f c hs (fun xs h => ⟨_, hf xs h⟩)
  exact ⟨out, h⟩

/-- all deviations are numbers -/
def AllNumbers (r : RpeResult K) : Prop :=
  ∀ g ∈ r.groups, (∃ xs : List K, g.posDev = xs.map some) ∧ ∃ xs : List K, g.rotDev = xs.map some

theorem posTrace_exists (E : EvalLib K) (name : Str) {r : RpeResult K} (hn : AllNumbers r) :
    ∃ t, rpePosTrace E name r = .ok t := by
  obtain ⟨x, hx⟩ := metric_exists (r := r) (sel := fun g => g.pairDist.map some) 1 (fun b _ => ⟨_, rfl⟩) npMean_meanOf
  obtain ⟨y, hy⟩ := metric_exists (r := r) (sel := RpeGroup.posDev) r.driftFactor (fun b hb => (hn b hb).1) npMean_meanOf
  obtain ⟨e, he⟩ := metric_exists (r := r) (sel := RpeGroup.posDev) r.driftFactor (fun b hb => (hn b hb).1) (npStd_stdOf E)
  unfold rpePosTrace RpeResult.meanPairDistances RpeResult.posDevMean RpeResult.posStd
  rw [hx, hy, he]
  exact ⟨_, rfl⟩

theorem rotTrace_exists (P : PlotLib K R) (name : Str) {r : RpeResult K} (hn : AllNumbers r) :
    ∃ t, rpeRotTrace P name r = .ok t := by
  obtain ⟨x, hx⟩ := metric_exists (r := r) (sel := fun g => g.pairDist.map some) 1 (fun b _ => ⟨_, rfl⟩) npMean_meanOf
  obtain ⟨y, hy⟩ := metric_exists (r := r) (sel := RpeGroup.rotDev) r.driftFactor (fun b hb => (hn b hb).2) npMean_meanOf
  obtain ⟨e, he⟩ := metric_exists (r := r) (sel := RpeGroup.rotDev) r.driftFactor (fun b hb => (hn b hb).2) (npStd_stdOf P.eval)
  unfold rpeRotTrace RpeResult.meanPairDistances RpeResult.rotDevMean RpeResult.rotStd
  split_ifs
  · rw [hx, hy, he]
    exact ⟨_, rfl⟩
  · exact ⟨_, rfl⟩

/-- **C148**: the figure of several results exists if there is a result and all deviations are numbers. -/
theorem C148_exists (P : PlotLib K R) {items : List (RpeResult K)} (hne : items ≠ []) (hn : ∀ r ∈ items, AllNumbers r) :
    ∃ fig, rpePlot P items = .ok fig := by
  obtain ⟨d, rest, rfl⟩ := List.exists_cons_of_ne_nil hne
  have ha : ∃ axes, rpeAxes (d :: rest) = .ok axes := by
    unfold rpeAxes
    simp only [first, bind, Except.bind]
    split <;> exact ⟨_, rfl⟩
  obtain ⟨axes, ha⟩ := ha
  obtain ⟨ts, hts⟩ := mapE_isOk (f := fun r => do
      let p ← rpePosTrace P.eval (rpeShortName r) r
      let q ← rpeRotTrace P (rpeShortName r) r
      return p :: q) (l := d :: rest) (by
    intro r hr
    obtain ⟨p, hp⟩ := posTrace_exists P.eval (rpeShortName r) (hn r hr)
    obtain ⟨q, hq⟩ := rotTrace_exists P (rpeShortName r) (hn r hr)
    simp only [bind, Except.bind, hp, hq]
    exact ⟨_, rfl⟩)
  unfold rpePlot
  rw [ha]
  simp only [bind, Except.bind] at hts ⊢
  rw [hts]
  exact ⟨_, rfl⟩

theorem rpeAxes_eq (d : RpeResult K) (rest : List (RpeResult K)) :
    ((∀ r ∈ d :: rest, r.hasRotDev = false) ∧ rpeAxes (d :: rest) = .ok (1, poseDistance d.distUnit, [bracket d.posUnit])) ∨
    ∃ r ∈ d :: rest, r.hasRotDev = true ∧
      rpeAxes (d :: rest) = .ok (2, poseDistance r.distUnit, [bracket d.posUnit, bracket r.rotUnit]) := by
  unfold rpeAxes
  simp only [first, bind, Except.bind]
  cases hf : (d :: rest).filter RpeResult.hasRotDev with
  | nil =>
    left
    refine ⟨?_, rfl⟩
    intro r hr
    have := List.filter_eq_nil_iff.1 hf r hr
    simpa using this
  | cons r l =>
    right
    have hm : r ∈ (d :: rest).filter RpeResult.hasRotDev := by rw [hf]; simp
    obtain ⟨h1, h2⟩ := List.mem_filter.1 hm
    exact ⟨r, h1, h2, rfl⟩

/-- **C148**: the texts at the axes are right for every result if all results have the same unit. -/
theorem C148_units_partial {P : PlotLib K R} {items : List (RpeResult K)} {fig : RpeFigure K} {u : MUnit}
    (hu : ∀ r ∈ items, r.unit = u) (h : rpePlot P items = .ok fig) :
    ∀ r ∈ items, RightUnits r fig.xLabel fig.yLabels := by
  obtain ⟨axes, ts, ha, -, rfl⟩ := rpePlot_inv h
  intro r hr
  cases items with
  | nil => simp at hr
  | cons d rest =>
    have hd := hu d (by simp)
    have hru := hu r hr
    rcases rpeAxes_eq d rest with ⟨h1, h2⟩ | ⟨q, hq, h1, h2⟩
    · rw [ha] at h2
      cases h2
      refine ⟨(distLabel d).trans (by rw [hd, hru]), congrArg some ((posLabel d).trans (by rw [hd, hru])), ?_⟩
      · intro hh
        rw [← hasRot_iff, h1 r hr] at hh
        cases hh
    · rw [ha] at h2
      cases h2
      have hqu := hu q hq
      exact ⟨(distLabel q).trans (by rw [hqu, hru]), congrArg some ((posLabel d).trans (by rw [hd, hru])),
        fun _ => congrArg some ((rotLabel q).trans (by rw [hqu, hru]))⟩

/-- **C148**: in general the text at the x axis is the one of some result of the figure, and right exactly for the results
with its unit. -/
theorem C148_label_of_one {P : PlotLib K R} {items : List (RpeResult K)} {fig : RpeFigure K} (h : rpePlot P items = .ok fig) :
    ∃ d ∈ items, ∀ r : RpeResult K,
      fig.xLabel = (if r.unit = .meter then "Pose Distance [m]" else "Pose Distance [s]").toList ↔ (r.unit = .meter ↔ d.unit = .meter) := by
  obtain ⟨axes, ts, ha, -, rfl⟩ := rpePlot_inv h
  have key : ∀ d : RpeResult K, ∀ r : RpeResult K, poseDistance d.distUnit =
      (if r.unit = .meter then "Pose Distance [m]" else "Pose Distance [s]").toList ↔ (r.unit = .meter ↔ d.unit = .meter) := by
    intro d r
    rw [distLabel]
    by_cases h1 : d.unit = .meter <;> by_cases h2 : r.unit = .meter <;> simp only [h1, h2, if_true, if_false] <;> decide
  cases items with
  | nil => cases ha
  | cons d rest =>
    rcases rpeAxes_eq d rest with ⟨h1, h2⟩ | ⟨q, hq, h1, h2⟩
    · rw [ha] at h2
      cases h2
      exact ⟨d, by simp, key d⟩
    · rw [ha] at h2
      cases h2
      exact ⟨q, hq, key q⟩

/-- **C148** does not hold for several units: whenever results over metres and over seconds are shown together, the texts
are wrong for some of them. -/
theorem C148_units_wrong {P : PlotLib K R} {items : List (RpeResult K)} {fig : RpeFigure K} {a b : RpeResult K}
    (ha : a ∈ items) (hb : b ∈ items) (hma : a.unit = .meter) (hsb : b.unit = .second) (h : rpePlot P items = .ok fig) :
    ∃ r ∈ items, ¬ RightUnits r fig.xLabel fig.yLabels := by
  obtain ⟨d, -, hd⟩ := C148_label_of_one h
  by_cases hm : d.unit = .meter
  · refine ⟨b, hb, fun hr => ?_⟩
    have := (hd b).1 hr.distance
    rw [hsb, hm] at this
    revert this
    decide
  · refine ⟨a, ha, fun hr => ?_⟩
    have := (hd a).1 hr.distance
    exact hm (this.1 hma)

/-! ### matplotlib -/

theorem crowded_iff (devs : List (RpeResult K)) : crowded devs = true ↔ ¬ (devs.map RpeResult.unit).Nodup := by
  unfold crowded
  rw [decide_eq_true_iff]
  have hs := (List.dedup_sublist (devs.map RpeResult.unit)).length_le
  rw [List.length_map] at hs
  constructor
  · intro h hn
    rw [List.Nodup.dedup hn, List.length_map] at h
    exact absurd h (lt_irrefl _)
  · intro h
    rcases lt_or_eq_of_le hs with h1 | h1
    · exact h1
    · exfalso
      apply h
      rw [← List.dedup_eq_self]
      exact (List.dedup_sublist _).eq_of_length (by rw [h1, List.length_map])

theorem zipWith_forall₂ {α β γ : Type} {f : α → β → γ} {p : γ → α → β → Prop} : ∀ {l : List α} {l' : List β},
    l.length = l'.length → (∀ a b, p (f a b) a b) → List.Forall₂ (fun ab c => p c ab.1 ab.2) (l.zip l') (List.zipWith f l l')
  | [], [], _, _ => .nil
  | a :: l, b :: l', h, hp => .cons (hp a b) (zipWith_forall₂ (by simpa using h) hp)

theorem violins_bins : ∀ {gs : List (RpeGroup K)} {vals : List (List K)} {p : RpeGroup K → List K → Prop},
    List.Forall₂ p gs vals →
    List.Forall₂ (fun g (v : Violin K) => v.position = g.mean ∧ p g v.values) gs
      (List.zipWith Violin.mk (gs.map RpeGroup.mean) vals)
  | _, _, _, .nil => .nil
  | _, _, _, .cons h1 h2 => .cons ⟨rfl, h1⟩ (violins_bins h2)

theorem binValues_bins {r : RpeResult K} {sel : RpeGroup K → List (Option K)} {conv : K → K} {vals : List (List K)}
    (hl : ∀ g ∈ r.groups, (sel g).length = g.pairDist.length) (h : binValues r sel conv = .ok vals) :
    List.Forall₂ (fun b v => ∃ xs : List K, sel b = xs.map some ∧ v = xs.map (fun d => conv d * perUnit r)) r.filled vals := by
  unfold binValues at h
  rw [filter_map_isEmpty, filled_eq hl] at h
  have h2 := mapE_forall₂ h
  rw [List.forall₂_map_left_iff] at h2
  refine h2.imp ?_
  intro b v hv
  cases hn : numbers (sel b) with
  | error e => rw [hn] at hv; cases hv
  | ok xs =>
    rw [hn] at hv
    cases hv
    exact ⟨xs, numbers_inv hn, rfl⟩

theorem violinsOf_bins {devs : List (RpeResult K)} {r : RpeResult K} {sel : RpeGroup K → List (Option K)} {conv : K → K}
    {x : List K} {v : K × List (Violin K)} (hl : ∀ g ∈ r.groups, (sel g).length = g.pairDist.length)
    (hx : x = r.filled.map RpeGroup.mean) (h : violinsOf devs r sel conv x = .ok v) :
    (¬ (devs.map RpeResult.unit).Nodup → v.2 = []) ∧
    ((devs.map RpeResult.unit).Nodup → List.Forall₂ (fun g (v : Violin K) => v.position = g.mean ∧ ∃ xs : List K,
      sel g = xs.map some ∧ v.values = xs.map (fun d => conv d * perUnit r)) r.filled v.2) := by
  unfold violinsOf at h
  by_cases hc : crowded devs = true
  · rw [if_pos hc] at h
    cases h
    exact ⟨fun _ => rfl, fun hn => absurd hn ((crowded_iff devs).1 hc)⟩
  · rw [if_neg hc] at h
    refine ⟨fun hn => absurd ((crowded_iff devs).2 hn) hc, fun _ => ?_⟩
    cases hv : binValues r sel conv with
    | error e => rw [hv] at h; cases h
    | ok vals =>
      cases hs : r.step with
      | error e => rw [hv, hs] at h; cases h
      | ok s =>
        rw [hv, hs] at h
        simp only [bind, Except.bind] at h
        unfold violins at h
        split_ifs at h with h1 h2
        cases h
        subst hx
        exact violins_bins (binValues_bins hl hv)

theorem posLine_shows {devs : List (RpeResult K)} {r : RpeResult K} {al : RpeAxis × RpeLine K} (hc : PairsComplete r)
    (h : rpePosLine devs r = .ok al) :
    rpeAxisOf r.unit = .ok al.1 ∧ ShowsResult (devs.map RpeResult.unit) RpeGroup.posDev id id r al.2 := by
  unfold rpePosLine at h
  cases ha : rpeAxisOf r.unit with
  | error e => rw [ha] at h; cases h
  | ok a =>
    cases hx : r.meanPairDistances with
    | error e => rw [ha, hx] at h; cases h
    | ok x =>
      cases hy : r.posDevMean with
      | error e => rw [ha, hx, hy] at h; cases h
      | ok y =>
        cases hv : violinsOf devs r RpeGroup.posDev id x with
        | error e => rw [ha, hx, hy] at h; simp only [bind, Except.bind, hv] at h; cases h
        | ok v =>
          rw [ha, hx, hy] at h
          simp only [bind, Except.bind, hv] at h
          cases h
          obtain ⟨h1, h2⟩ := violinsOf_bins hc.pos (distances_filled hx) hv
          exact ⟨rfl, rfl, ⟨distances_filled hx, metric_bins hc.pos npMean_meanOf hy⟩, h1, h2⟩

theorem rotLine_shows {deg : K → K} {devs : List (RpeResult K)} {r : RpeResult K} {al : RpeAxis × RpeLine K}
    (hc : PairsComplete r) (hr : r.hasRotDev = true) (h : rpeRotLine deg devs r = .ok al) :
    rpeAxisOf r.unit = .ok al.1 ∧ ShowsResult (devs.map RpeResult.unit) RpeGroup.rotDev deg deg r al.2 := by
  have hl := hc.rot ((hasRot_iff r).1 hr)
  unfold rpeRotLine RpeResult.rotDevMean at h
  rw [if_pos hr] at h
  cases ha : rpeAxisOf r.unit with
  | error e => rw [ha] at h; cases h
  | ok a =>
    cases hx : r.meanPairDistances with
    | error e => rw [ha, hx] at h; cases h
    | ok x =>
      cases hy : r.computeMetric RpeGroup.rotDev npMean r.driftFactor with
      | error e => rw [ha, hx, hy] at h; cases h
      | ok y =>
        cases hv : violinsOf devs r RpeGroup.rotDev deg x with
        | error e => rw [ha, hx, hy] at h; simp only [bind, Except.bind, hv] at h; cases h
        | ok v =>
          rw [ha, hx, hy] at h
          simp only [bind, Except.bind, hv] at h
          cases h
          obtain ⟨h1, h2⟩ := violinsOf_bins hl (distances_filled hx) hv
          refine ⟨rfl, rfl, ⟨distances_filled hx, ?_⟩, h1, h2⟩
          refine forall₂_map_deg (metric_bins hl npMean_meanOf hy) ?_
          rintro g v ⟨xs, h1, rfl⟩
          exact ⟨xs, h1, rfl⟩

theorem axisOf_metric {u : MUnit} {a : RpeAxis} (h : rpeAxisOf u = .ok a) :
    (a = .metric ↔ u = .meter) ∧ (a = .time ↔ u = .second) := by
  cases u <;> cases h <;> decide

theorem lines_of {p : RpeResult K → RpeLine K → Prop} {a : RpeAxis} {u : MUnit}
    (hau : ∀ v b, rpeAxisOf v = .ok b → (b = a ↔ v = u)) : ∀ {rs : List (RpeResult K)} {ls : List (RpeAxis × RpeLine K)},
    List.Forall₂ (fun r al => rpeAxisOf r.unit = .ok al.1 ∧ p r al.2) rs ls →
    List.Forall₂ p (rs.filter (fun r => decide (r.unit = u))) ((ls.filter (fun e => decide (e.1 = a))).map Prod.snd)
  | _, _, .nil => .nil
  | _, _, .cons (a := r) (b := al) h1 h2 => by
    have ih := lines_of hau h2
    by_cases hu : r.unit = u
    · rw [List.filter_cons_of_pos (by simpa using hu), List.filter_cons_of_pos (by simpa using (hau _ _ h1.1).2 hu), List.map_cons]
      exact .cons h1.2 ih
    · rw [List.filter_cons_of_neg (by simpa using hu),
        List.filter_cons_of_neg (by simpa using fun h => hu ((hau _ _ h1.1).1 h))]
      exact ih

/-- **C148**: matplotlib shows results over metres and over seconds in different figures, each result with its own bins, and
there is a figure exactly for the units that occur. -/
theorem C148_matplotlib {deg : K → K} {devs : List (RpeResult K)} {metric time : Option (RpePair K)}
    (hc : ∀ r ∈ devs, PairsComplete r) (h : rpeMpl deg devs = .ok (metric, time)) :
    (∀ r ∈ devs, r.unit = .meter ∨ r.unit = .second) ∧
    (metric.isSome ↔ ∃ r ∈ devs, r.unit = .meter) ∧ (time.isSome ↔ ∃ r ∈ devs, r.unit = .second) ∧
    (∀ f, metric = some f →
      f.xLabel = "pair distance [m]".toList ∧ f.posLabel = "Position RPE [%]".toList ∧ f.rotLabel = "Rotation RPE [deg / 100m]".toList ∧
      List.Forall₂ (ShowsResult (devs.map RpeResult.unit) RpeGroup.posDev id id) (devs.filter (fun r => decide (r.unit = .meter))) f.pos ∧
      List.Forall₂ (ShowsResult (devs.map RpeResult.unit) RpeGroup.rotDev deg deg)
        ((devs.filter RpeResult.hasRotDev).filter (fun r => decide (r.unit = .meter))) f.rot) ∧
    (∀ f, time = some f →
      f.xLabel = "pair distance [s]".toList ∧ f.posLabel = "Position RPE [m/s]".toList ∧ f.rotLabel = "Rotation RPE [deg/s]".toList ∧
      List.Forall₂ (ShowsResult (devs.map RpeResult.unit) RpeGroup.posDev id id) (devs.filter (fun r => decide (r.unit = .second))) f.pos ∧
      List.Forall₂ (ShowsResult (devs.map RpeResult.unit) RpeGroup.rotDev deg deg)
        ((devs.filter RpeResult.hasRotDev).filter (fun r => decide (r.unit = .second))) f.rot) := by
  unfold rpeMpl at h
  cases hp : mapE (rpePosLine devs) devs with
  | error e => rw [hp] at h; cases h
  | ok pos =>
    cases hq : mapE (rpeRotLine deg devs) (devs.filter RpeResult.hasRotDev) with
    | error e => rw [hp, hq] at h; cases h
    | ok rot =>
      rw [hp, hq] at h
      simp only [bind, Except.bind, pure, Except.pure, Except.ok.injEq, Prod.mk.injEq] at h
      obtain ⟨rfl, rfl⟩ := h
      have h1 : List.Forall₂ (fun r al => rpeAxisOf r.unit = .ok al.1 ∧
          ShowsResult (devs.map RpeResult.unit) RpeGroup.posDev id id r al.2) devs pos :=
        forall₂_imp_mem (fun r hr al hal => posLine_shows (hc r hr) hal) (mapE_forall₂ hp)
      have h2 : List.Forall₂ (fun r al => rpeAxisOf r.unit = .ok al.1 ∧
          ShowsResult (devs.map RpeResult.unit) RpeGroup.rotDev deg deg r al.2) (devs.filter RpeResult.hasRotDev) rot :=
        forall₂_imp_mem (fun r hr al hal => rotLine_shows (hc r (List.mem_filter.1 hr).1) (List.mem_filter.1 hr).2 hal)
          (mapE_forall₂ hq)
      have hm : ∀ v b, rpeAxisOf v = .ok b → (b = .metric ↔ v = .meter) := fun v b hb => (axisOf_metric hb).1
      have ht : ∀ v b, rpeAxisOf v = .ok b → (b = .time ↔ v = .second) := fun v b hb => (axisOf_metric hb).2
      refine ⟨?_, ?_, ?_, ?_, ?_⟩
      · intro r hr
        obtain ⟨i, hi⟩ := List.mem_iff_getElem?.1 hr
        obtain ⟨al, hal, -⟩ := mapE_getElem? hp hi
        have := (posLine_shows (hc r hr) hal).1
        cases hu : r.unit <;> rw [hu] at this <;> first | exact Or.inl rfl | exact Or.inr rfl | cases this
      · rw [← decide_eq_true_iff (p := ∃ r ∈ devs, r.unit = .meter)]
        split_ifs with hh
        · simp only [Option.isSome_some, decide_eq_true_eq, true_iff]
          simpa using hh
        · simp only [Option.isSome_none, Bool.false_eq_true, decide_eq_true_eq, false_iff]
          simpa using hh
      · rw [← decide_eq_true_iff (p := ∃ r ∈ devs, r.unit = .second)]
        split_ifs with hh
        · simp only [Option.isSome_some, decide_eq_true_eq, true_iff]
          simpa using hh
        · simp only [Option.isSome_none, Bool.false_eq_true, decide_eq_true_eq, false_iff]
          simpa using hh
      · intro f hf
        split_ifs at hf
        cases hf
        exact ⟨rfl, rfl, rfl, lines_of hm h1, lines_of hm h2⟩
      · intro f hf
        split_ifs at hf
        cases hf
        exact ⟨rfl, rfl, rfl, lines_of ht h1, lines_of ht h2⟩

/-! ### A case -/

/-- two bins with pairs in metres, one without, and rotations -/
def exMetres : RpeResult ℚ :=
  { name := "a vs b"
    groups := [⟨1, [some (1 / 10), some (3 / 10)], [some 1, some 2], [1, 2]⟩, ⟨5, [], [], []⟩, ⟨7, [some 2], [some 3], [7]⟩]
    unit := .meter }

/-- a bin with pairs in seconds, without rotations -/
def exSeconds : RpeResult ℚ := { name := "c", groups := [⟨1, [some 4], [], [1]⟩], unit := .second }

theorem exMetres_complete : PairsComplete exMetres := ⟨by decide, fun _ => by decide⟩
theorem exSeconds_complete : PairsComplete exSeconds :=
  ⟨by decide, fun h => by
    obtain ⟨g, hg, hr⟩ := h
    simp only [exSeconds, List.mem_singleton] at hg
    subst hg
    exact absurd rfl hr⟩

example : AllNumbers exMetres ∧ AllNumbers exSeconds := by
  constructor
  · intro g hg
    fin_cases hg
    · exact ⟨⟨[1 / 10, 3 / 10], rfl⟩, ⟨[1, 2], rfl⟩⟩
    · exact ⟨⟨[], rfl⟩, ⟨[], rfl⟩⟩
    · exact ⟨⟨[2], rfl⟩, ⟨[3], rfl⟩⟩
  · intro g hg
    fin_cases hg
    exact ⟨⟨[4], rfl⟩, ⟨[], rfl⟩⟩

/-- the two together: the seconds are shown under metres -/
example : (rpePlot exPlotLib [exMetres, exSeconds]).toOption.map (fun f => f.xLabel) =
    some "Pose Distance [m]".toList := by decide +kernel
example : (rpePlot exPlotLib [exMetres, exSeconds]).toOption.map (fun f => f.traces.map (fun t => (t.name, t.x, t.y))) =
    some [("a ".toList, [3 / 2, 7], [20, 200]), ("a ".toList, [3 / 2, 7], [8550, 17100]), ("c".toList, [1], [4])] := by
  decide +kernel

/-- matplotlib separates them, and shows the distributions -/
example : ((rpeMpl (fun x => 60 * x) [exMetres, exSeconds]).toOption.bind Prod.fst).map (fun f => f.pos.map (fun l => (l.x, l.violins))) =
    some [([3 / 2, 7], [⟨3 / 2, [10, 30]⟩, ⟨7, [200]⟩])] := by decide +kernel

end Plot
end TC
