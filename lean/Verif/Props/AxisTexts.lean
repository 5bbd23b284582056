import Verif.Spec.AxisTexts
import Verif.Props.PlotUnits
import Verif.Props.TrajPlots

/-!
# C148, C154, C183: the abscissas of the reports, the width of the violins, the symbols of units
-/

set_option linter.unusedSectionVars false

namespace TC
namespace Plot

variable {K R : Type} [Field K] [LinearOrder K] [IsStrictOrderedRing K]

/-! ### abscissas -/

theorem functionOfLabel_eq (d : AteResult K R) : functionOfLabel d = quantityText d.trajectory := by
  unfold functionOfLabel quantityText
  cases d.trajectory.sorting <;> rfl

theorem sharedX_label {xs : List (List K)} {ys : List (List (Option (List K)))} {names : List Str} {l : Str} {yl : List Str}
    {f : Figure K} (h : sharedX xs ys names l yl = .ok f) : f.xLabel = l := by
  unfold sharedX at h
  split at h
  · cases h; rfl
  · cases h

/-- **C183, one result**: in the figures of a report about one trajectory the text at the abscissa names the quantity the
curves are drawn over. -/
theorem C183_one {P : PlotLib K R} (ha : IsArgsort P.argsort) (s : Names K) (d : AteResult K R) {f : Figure K}
    (h : devComb1 P s d = .ok f ∨ devPos1 P s d = .ok f ∨ devRot1 P s d = .ok f) :
    f.xLabel = quantityText d.trajectory ∧ ∀ t ∈ f.traces, t.x = npSort (abscissas d.trajectory) := by
  have hx : functionOf P d = .ok (npSort (abscissas d.trajectory)) := functionOf_sorted ha _
  rw [← functionOfLabel_eq]
  have h3 : ∀ (x : List K) (ys : List (List K)) (n : List Str) (l : Str) (yl : List Str),
      ∀ t ∈ (three x ys n l yl).traces, t.x = x := by
    intro x ys n l yl t ht
    simp only [three, List.mem_map] at ht
    obtain ⟨_, _, rfl⟩ := ht
    rfl
  rcases h with h | h | h
  · unfold devComb1 at h
    rw [hx] at h
    simp only [bind, Except.bind] at h
    split at h
    · split at h
      · cases h
      · cases h; simp
    · cases h; simp
  · unfold devPos1 at h
    rw [hx] at h
    cases h
    exact ⟨rfl, h3 _ _ _ _ _⟩
  · unfold devRot1 at h
    rw [hx] at h
    simp only [bind, Except.bind] at h
    split at h
    · cases h
    · cases h
      exact ⟨rfl, h3 _ _ _ _ _⟩

theorem several_label {P : PlotLib K R} {s : Names K} {d0 : AteResult K R} {rest : List (AteResult K R)} {f : Figure K}
    (h : devCombPlot P s (d0 :: rest) = .ok f ∨ devPosPlot P s (d0 :: rest) = .ok f ∨ devRotPlot P s (d0 :: rest) = .ok f) :
    f.xLabel = quantityText d0.trajectory := by
  rw [← functionOfLabel_eq]
  rcases h with h | h | h
  · unfold devCombPlot at h
    simp only [first, bind, Except.bind] at h
    split at h
    · cases h
    · split at h
      · cases h
      · exact sharedX_label h
  · unfold devPosPlot at h
    simp only [first, bind, Except.bind] at h
    split at h
    · cases h
    · exact sharedX_label h
  · unfold devRotPlot at h
    simp only [first, bind, Except.bind] at h
    split at h
    · cases h
    · split at h
      · cases h
      · exact sharedX_label h

/-- **C183, several results**: in the figures of a report about several trajectories that are all plotted over the same
quantity, the text at the abscissa names this quantity. -/
theorem C183_several_partial {P : PlotLib K R} {s : Names K} {items : List (AteResult K R)} {f : Figure K} (hne : items ≠ [])
    (hs : ∀ d ∈ items, ∀ e ∈ items, d.trajectory.sorting = e.trajectory.sorting)
    (h : devCombPlot P s items = .ok f ∨ devPosPlot P s items = .ok f ∨ devRotPlot P s items = .ok f) :
    ∀ d ∈ items, f.xLabel = quantityText d.trajectory := by
  obtain ⟨d0, rest, rfl⟩ := List.exists_cons_of_ne_nil hne
  intro d hd
  rw [several_label h]
  unfold quantityText
  rw [hs d hd d0 (by simp)]

/-- **C183 does not hold for the reports**: as soon as a trajectory is plotted over another quantity than the first one,
the text at the abscissa is wrong for it. -/
theorem C183_several_mixed {P : PlotLib K R} {s : Names K} {d0 d : AteResult K R} {rest : List (AteResult K R)} {f : Figure K}
    (hs : d.trajectory.sorting ≠ d0.trajectory.sorting)
    (h : devCombPlot P s (d0 :: rest) = .ok f ∨ devPosPlot P s (d0 :: rest) = .ok f ∨ devRotPlot P s (d0 :: rest) = .ok f) :
    f.xLabel ≠ quantityText d.trajectory := by
  rw [several_label h]
  unfold quantityText
  cases h1 : d0.trajectory.sorting <;> cases h2 : d.trajectory.sorting
  · rw [h1, h2] at hs; exact absurd rfl hs
  · decide
  · decide
  · rw [h1, h2] at hs; exact absurd rfl hs

/-- the same result over time and over length: both curves are drawn under the text of the first -/
example : let b := exBack "a vs. b" none
    let c := { b with trajectory := { b.trajectory with sorting := .time } }
    c.trajectory.sorting ≠ b.trajectory.sorting ∧
    ((devPosPlot exPlotLib exNames [b, c]).map (fun f => (f.xLabel, f.traces.length))).toOption =
      some ("arc length [m]".toList, 6) ∧
    ((devPosPlot exPlotLib exNames [c, c]).map (fun f => (f.xLabel, f.traces.length))).toOption =
      some ("time [s]".toList, 6) := by
  refine ⟨by decide +kernel, by decide +kernel, by decide +kernel⟩

/-! ### the width of violins -/

theorem sum_diff (a : K) (l : List K) : ((a :: l).tail.zipWith (· - ·) (a :: l)).sum = (a :: l).getLast (by simp) - a := by
  induction l generalizing a with
  | nil => simp
  | cons b l ih =>
    simp only [List.tail_cons, List.zipWith_cons_cons, List.sum_cons] at ih ⊢
    rw [ih b]
    simp

/-- **C148, the distance of the bins**: `step` is the distance of the last from the first bin, shared equally among the
gaps; with one bin it is zero. -/
theorem C148_step {r : RpeResult K} {m : List K} (hm : r.meanPairDistances = .ok m) :
    (m.length ≤ 1 → r.step = .ok 0) ∧
    ∀ a b, m.head? = some a → m.getLast? = some b → 1 < m.length → ∃ s, r.step = .ok s ∧
      s * ((m.length - 1 : Nat) : K) = b - a := by
  unfold RpeResult.step
  rw [hm]
  simp only [bind, Except.bind]
  refine ⟨fun h => by rw [if_neg (by omega)]; rfl, fun a b ha hb hl => ?_⟩
  rw [if_pos hl]
  match m, ha, hl with
  | a' :: c :: l, ha, hl =>
    cases ha
    have hlen : ((a :: c :: l).tail.zipWith (· - ·) (a :: c :: l)).length = l.length + 1 := by simp
    refine ⟨_, by rw [npMean, if_neg (by rw [hlen]; omega)], ?_⟩
    rw [sum_diff, hlen]
    have hb' : (a :: c :: l).getLast (by simp) = b := by
      rw [List.getLast?_eq_some_getLast (by simp)] at hb; exact Option.some.inj hb
    have hl : ((a :: c :: l).length - 1 : Nat) = l.length + 1 := by simp
    rw [hb', hl, div_mul_cancel₀]
    exact Nat.cast_ne_zero.mpr (by omega)

/-- **C148, the width of the violins**: a quarter of the mean distance of two neighbouring bins, so that violins do not
overlap when the bins are equally spaced, but at least one half. -/
theorem C148_width {devs : List (RpeResult K)} {r : RpeResult K} {ax : RpeAxis} {l : RpeLine K}
    (h : rpePosLine devs r = .ok (ax, l)) (hv : l.violins ≠ []) {a b : K} (ha : l.x.head? = some a)
    (hb : l.x.getLast? = some b) (hl : 1 < l.x.length) :
    l.width = max (1 / 2) ((b - a) / ((l.x.length - 1 : Nat) : K) / 4) := by
  unfold rpePosLine at h
  cases h1 : rpeAxisOf r.unit with
  | error e => rw [h1] at h; cases h
  | ok ax' =>
  cases h2 : r.meanPairDistances with
  | error e => rw [h1, h2] at h; cases h
  | ok m =>
  cases h3 : r.posDevMean with
  | error e => rw [h1, h2, h3] at h; cases h
  | ok y =>
  cases h4 : violinsOf devs r RpeGroup.posDev id m with
  | error e => rw [h1, h2, h3] at h; simp only [bind, Except.bind, h4] at h; cases h
  | ok v =>
    rw [h1, h2, h3] at h
    simp only [bind, Except.bind, h4] at h
    cases h
    obtain ⟨s, hs, hse⟩ := (C148_step h2).2 a b ha hb hl
    unfold violinsOf at h4
    split at h4
    · cases h4; exact absurd rfl hv
    · cases h5 : binValues r RpeGroup.posDev id with
      | error e => rw [h5] at h4; cases h4
      | ok vals =>
        cases h6 : violins vals m with
        | error e => rw [h5, hs] at h4; simp only [bind, Except.bind, h6] at h4; cases h4
        | ok vs =>
          rw [h5, hs] at h4
          simp only [bind, Except.bind, h6] at h4
          cases h4
          show max (1 / 2) (s / 4) = _
          have : ((m.length - 1 : Nat) : K) ≠ 0 := Nat.cast_ne_zero.mpr (by simp only at hl; omega)
          rw [show (b - a) / ((m.length - 1 : Nat) : K) = s by rw [← hse]; field_simp]

/-- two bins at 3/2 and 7 -/
example : (rpePosLine [exMetres] exMetres).toOption.map (fun l => (l.2.x, l.2.width)) = some ([3 / 2, 7], 11 / 8) ∧
    (rpePosLine [exMetres] exMetres).toOption.map (fun l => l.2.violins.length) = some 2 := by
  constructor <;> decide +kernel

/-! ### symbols of units -/

theorem occurs_prefix {old s : Str} (h : old.isPrefixOf s = true) : Occurs old s := by
  obtain ⟨b, rfl⟩ := List.isPrefixOf_iff_prefix.mp h
  exact ⟨[], b, by simp⟩

theorem replace_none {old new s : Str} (h : ¬ Occurs old s) : pyReplaceAux old new 0 s = s := by
  induction s with
  | nil => rfl
  | cons c s ih =>
    rw [pyReplaceAux, if_neg (fun hp => h (occurs_prefix hp)), ih]
    rintro ⟨a, b, rfl⟩
    exact h ⟨c :: a, b, by simp⟩

theorem replace_skip (old new : Str) (a s : Str) : pyReplaceAux old new a.length (a ++ s) = pyReplaceAux old new 0 s := by
  induction a with
  | nil => rfl
  | cons c a ih => simpa [pyReplaceAux] using ih

theorem replace_found {old new a b : Str} (ho : old ≠ []) (h : ¬ Occurs old (a ++ old.dropLast)) :
    pyReplaceAux old new 0 (a ++ old ++ b) = a ++ new ++ pyReplaceAux old new 0 b := by
  induction a with
  | nil =>
    obtain ⟨c, o, rfl⟩ := List.exists_cons_of_ne_nil ho
    have hp : (c :: o).isPrefixOf (c :: (o ++ b)) = true := by
      rw [List.isPrefixOf_iff_prefix]; exact ⟨b, by simp⟩
    simp only [List.nil_append, List.cons_append, pyReplaceAux]
    rw [if_pos hp]
    simp only [List.length_cons, Nat.add_sub_cancel]
    rw [replace_skip]
  | cons c a ih =>
    have hn : ¬ old.isPrefixOf (c :: (a ++ old ++ b)) = true := by
      intro hp
      rw [List.isPrefixOf_iff_prefix] at hp
      apply h
      -- a prefix of this length lies within the shorter text
      have h2 : (c :: a ++ old.dropLast) <+: (c :: (a ++ old ++ b)) := by
        refine ⟨old.getLast ho :: b, ?_⟩
        have := List.dropLast_append_getLast ho
        calc c :: a ++ old.dropLast ++ old.getLast ho :: b = c :: (a ++ (old.dropLast ++ [old.getLast ho]) ++ b) := by simp
          _ = _ := by rw [this]
      have h3 : old <+: (c :: a ++ old.dropLast) := by
        refine List.prefix_of_prefix_length_le hp h2 ?_
        have := List.length_pos_of_ne_nil ho
        simp
        omega
      obtain ⟨t, ht⟩ := h3
      exact ⟨[], t, by rw [← ht]; simp⟩
    have e : c :: a ++ old ++ b = c :: (a ++ old ++ b) := by simp
    rw [e, pyReplaceAux, if_neg hn, ih]
    · simp
    · rintro ⟨x, y, hxy⟩
      exact h ⟨c :: x, y, by simp [← hxy]⟩

/-- the model of `str.replace` does what `Replaced` says -/
theorem replaced_iff {old new : Str} (ho : old ≠ []) {s t : Str} :
    Replaced old new s t ↔ pyReplaceAux old new 0 s = t := by
  constructor
  · intro h
    induction h with
    | none h => exact replace_none h
    | found h _ ih => rw [replace_found ho h, ih]
  · rintro rfl
    induction hn : s.length using Nat.strong_induction_on generalizing s with
    | _ n ih =>
      by_cases h : Occurs old s
      · -- the leftmost occurrence
        have : ∃ k, ∃ a b, s = a ++ old ++ b ∧ a.length = k := by
          obtain ⟨a, b, e⟩ := h; exact ⟨_, a, b, e, rfl⟩
        classical
        obtain ⟨a, b, e, hk⟩ := Nat.find_spec this
        have hmin : ¬ Occurs old (a ++ old.dropLast) := by
          rintro ⟨x, y, hxy⟩
          have hlt : x.length < Nat.find this := by
            rw [← hk]
            have h1 := congrArg List.length hxy
            have := List.length_pos_of_ne_nil ho
            simp at h1
            omega
          refine Nat.find_min this hlt ⟨x, y ++ old.getLast ho :: b, ?_, rfl⟩
          have := List.dropLast_append_getLast ho
          calc s = a ++ (old.dropLast ++ [old.getLast ho]) ++ b := by rw [this, e]
            _ = (a ++ old.dropLast) ++ (old.getLast ho :: b) := by simp
            _ = _ := by rw [hxy]; simp
        rw [e, replace_found ho hmin]
        refine .found hmin (ih b.length ?_ rfl)
        have := List.length_pos_of_ne_nil ho
        rw [← hn, e]; simp; omega
      · rw [replace_none h]; exact .none h

/-- **C154, symbols**: the unit at an axis is the name of the unit with `metre` replaced by `m` and `degree` by `°`. -/
theorem C154_symbols (u v w : Str) (h1 : Replaced "metre".toList "m".toList u v) (h2 : Replaced "degree".toList "°".toList v w) :
    shortUnit u = w := by
  unfold shortUnit
  rw [(replaced_iff (by decide)).mp h1, (replaced_iff (by decide)).mp h2]

/-- kilometres and degrees per metre -/
example : shortUnit "kilometre".toList = "kilom".toList ∧ shortUnit "degree per metre".toList = "° per m".toList := by decide

end Plot
end TC
