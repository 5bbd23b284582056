import Verif.Model.BarPlots
import Verif.Props.PlotData
import Verif.Props.PlotUnits
/-!
# C182: the unit at the axis of the bar plots
-/
set_option linter.unusedSectionVars false
namespace TC
namespace Plot
variable {K R : Type} [Field K] [LinearOrder K] [IsStrictOrderedRing K]

/-- **C182, the bars**: the bars of the statistics of the position deviations stand at an axis with the unit of lengths, the bars of the
rotation deviations, in degrees, at one with the unit named in the settings; there is a plot of the rotation deviations exactly if
there are some. -/
theorem C182_bars (P : PlotLib K R) (s : Names K) {items : List (AteResult K R)} (hne : items ≠ []) (h : ∀ d ∈ items, d.posDev ≠ [])
    (hr : ∀ d ∈ items, ∀ r, d.rotDev = some r → r ≠ []) :
    (∃ f, posBarPlot P.eval s items = .ok f ∧ posBars P.eval items = .ok f.bars ∧
      f.yLabel = "Value ".toList ++ inBrackets (lengthUnit s.ateMm)) ∧
    ((∃ d ∈ items, d.rotDev ≠ none) → ∃ f, rotBarPlot P s items = .ok f ∧ rotBars P items = .ok f.bars ∧
      f.yLabel = "Value ".toList ++ inBrackets s.rotUnit) ∧
    ((∀ d ∈ items, d.rotDev = none) → rotBarPlot P s items = .error .valueError) := by
  obtain ⟨⟨a, ha⟩, b, hb⟩ := C138_bars_exist P h hr
  refine ⟨?_, ?_, ?_⟩
  · obtain ⟨d, rest, rfl⟩ := List.exists_cons_of_ne_nil hne
    refine ⟨_, by simp only [posBarPlot, ha]; rfl, ha, ?_⟩
    cases hm : s.ateMm <;> simp [inBrackets, ateUnit, lengthUnit, hm]
  · rintro ⟨d, hd, hr⟩
    have : items.any hasRot = true := by
      rw [List.any_eq_true]; exact ⟨d, hd, by unfold hasRot; rw [Option.isSome_iff_ne_none]; exact hr⟩
    refine ⟨_, by simp only [rotBarPlot, hb, this]; rfl, hb, ?_⟩
    simp [inBrackets]
  · intro hn
    have : items.any hasRot = false := by
      rw [List.any_eq_false]; intro d hd; simp [hasRot, hn d hd]
    simp only [rotBarPlot, hb, this]
    rfl

/-- **C182 does not hold** of the bars either: naming another unit of angles changes the text at the axis, but no bar. -/
theorem C182_bars_unit_ignored (P : PlotLib K R) {s s' : Names K} (hu : s'.rotUnit ≠ s.rotUnit) {items : List (AteResult K R)}
    (h : ∀ d ∈ items, d.posDev ≠ []) (hr : ∀ d ∈ items, ∀ r, d.rotDev = some r → r ≠ []) (hrot : ∃ d ∈ items, d.rotDev ≠ none) :
    ∃ f f', rotBarPlot P s items = .ok f ∧ rotBarPlot P s' items = .ok f' ∧ f'.bars = f.bars ∧ f'.yLabel ≠ f.yLabel := by
  have hne : items ≠ [] := by rintro rfl; obtain ⟨d, hd, -⟩ := hrot; cases hd
  obtain ⟨f, h1, h2, h3⟩ := (C182_bars P s hne h hr).2.1 hrot
  obtain ⟨f', k1, k2, k3⟩ := (C182_bars P s' hne h hr).2.1 hrot
  refine ⟨f, f', h1, k1, ?_, ?_⟩
  · rw [h2] at k2; exact (Except.ok.inj k2).symm
  · rw [h3, k3]
    intro e
    apply hu
    have := List.append_cancel_left e
    unfold inBrackets at this
    exact List.append_cancel_left (List.append_cancel_right this)

example : (∀ d ∈ [exBack "a vs. b" (some [(), (), ()])], d.posDev ≠ []) ∧
    (∀ d ∈ [exBack "a vs. b" (some [(), (), ()])], ∀ r, d.rotDev = some r → r ≠ []) ∧
    ((rotBarPlot exPlotLib { exNames with rotUnit := "rad".toList } [exBack "a vs. b" (some [(), (), ()])]).map (fun f => f.yLabel)).toOption
      = some "Value [rad]".toList := by
  refine ⟨by simp [exBack], by simp [exBack], by decide +kernel⟩

end Plot
end TC
