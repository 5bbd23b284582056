import Verif.Spec.PlotUnits
import Verif.Props.Plots

/-!
# C182: the unit at the axis of a curve
-/

set_option linter.unusedSectionVars false

namespace TC
namespace Plot

variable {K R : Type} [Field K] [LinearOrder K] [IsStrictOrderedRing K]

theorem inBrackets_eq (u : Str) : inBrackets u = bracket u := by simp [inBrackets, bracket]

/-- **C182, the combined deviations**: the position deviations are drawn under the unit of lengths and, if there are
rotation deviations, these are drawn in degrees in a subplot of their own, under the unit named in the settings. -/
theorem C182_combined {P : PlotLib K R} (ha : IsArgsort P.argsort) (s : Names K) (d : AteResult K R) :
    ∃ f, devComb1 P s d = .ok f ∧
      (d.rotDev = none → Draws f [(d.posDev.map (fun v => P.eval.nrm v), inBrackets (lengthUnit s.ateMm))]) ∧
      (∀ r, d.rotDev = some r → Draws f [(d.posDev.map (fun v => P.eval.nrm v), inBrackets (lengthUnit s.ateMm)),
        (r.map (fun q => P.deg (rotAngle P.eval (P.rot.toMat q))), inBrackets s.rotUnit)]) := by
  have hx : functionOf P d = .ok (npSort (abscissas d.trajectory)) := functionOf_sorted ha _
  rcases hr : d.rotDev with _ | r
  · refine ⟨_, by simp only [devComb1, hx, hasRot, hr]; rfl, fun _ => ?_, by simp⟩
    refine ⟨.cons ⟨rfl, le_rfl, ?_⟩ .nil, by simp⟩
    simp [inBrackets_eq, ateUnit, lengthUnit]
  · refine ⟨_, by simp only [devComb1, hx, hasRot, hr, combDevRot_some hr]; rfl, by simp, ?_⟩
    rintro _ ⟨⟩
    refine ⟨.cons ⟨rfl, le_rfl, ?_⟩ (.cons ⟨rfl, one_le_two, ?_⟩ .nil), by simp⟩
    · simp [inBrackets_eq, ateUnit, lengthUnit]
    · simp [inBrackets_eq]

/-- **C182, the deviations by direction**: the three components of the position deviations, along the axes or along the
path, are drawn in three subplots under the unit of lengths. -/
theorem C182_directions {P : PlotLib K R} (ha : IsArgsort P.argsort) (s : Names K) (d : AteResult K R) :
    ∃ f, devPos1 P s d = .ok f ∧
      Draws f (if s.directed then
        [(d.directed.map (fun v => v.x), inBrackets (lengthUnit s.ateMm)), (d.directed.map (fun v => v.y), inBrackets (lengthUnit s.ateMm)),
          (d.directed.map (fun v => v.z), inBrackets (lengthUnit s.ateMm))]
        else [(d.posDev.map (fun v => v.x), inBrackets (lengthUnit s.ateMm)), (d.posDev.map (fun v => v.y), inBrackets (lengthUnit s.ateMm)),
          (d.posDev.map (fun v => v.z), inBrackets (lengthUnit s.ateMm))]) := by
  have hx : functionOf P d = .ok (npSort (abscissas d.trajectory)) := functionOf_sorted ha _
  refine ⟨_, by simp only [devPos1, hx]; rfl, ?_⟩
  cases hd : s.directed <;>
    simp [Draws, DrawnAs, three, posDevs, posDevNames, hd, inBrackets_eq, ateUnit, lengthUnit]

/-- **C182, the rotations by axis**: the angles about the three axes are drawn in degrees in three subplots, under the
unit named in the settings. -/
theorem C182_axes {P : PlotLib K R} (ha : IsArgsort P.argsort) (s : Names K) {d : AteResult K R} {r : List R}
    (hr : d.rotDev = some r) :
    ∃ f, devRot1 P s d = .ok f ∧
      Draws f [(r.map (fun q => P.deg (P.euler q).x), inBrackets s.rotUnit), (r.map (fun q => P.deg (P.euler q).y), inBrackets s.rotUnit),
        (r.map (fun q => P.deg (P.euler q).z), inBrackets s.rotUnit)] := by
  have hx : functionOf P d = .ok (npSort (abscissas d.trajectory)) := functionOf_sorted ha _
  refine ⟨_, by simp only [devRot1, hx, rotDevs, hr]; rfl, ?_⟩
  simp [Draws, DrawnAs, three, inBrackets_eq]

/-- **C182, several results**: the first subplot, where the position deviations of all results are (`C134_combined`), has
the unit of lengths at its axis; if a result has orientations, the second one, where their rotation deviations are, has
the unit named in the settings. -/
theorem C182_several {P : PlotLib K R} (ha : IsArgsort P.argsort) (s : Names K) {items : List (AteResult K R)}
    (hne : items ≠ []) : ∃ f, devCombPlot P s items = .ok f ∧ ShowsOwn P (combined P) items f.traces ∧
      ((∀ d ∈ items, d.rotDev = none) → f.yLabels = [inBrackets (lengthUnit s.ateMm)]) ∧
      ((∃ d ∈ items, d.rotDev ≠ none) → f.yLabels = [inBrackets (lengthUnit s.ateMm), inBrackets s.rotUnit]) := by
  obtain ⟨f, h1, h2⟩ := C134_combined ha s hne
  refine ⟨f, h1, h2, ?_⟩
  have key : f.yLabels = if items.any hasRot then [bracket (ateUnit s), bracket s.rotUnit] else [bracket (ateUnit s)] := by
    unfold devCombPlot sharedX at h1
    obtain ⟨d0, rest, rfl⟩ := List.exists_cons_of_ne_nil hne
    simp only [first, bind, Except.bind] at h1
    split at h1
    · cases h1
    · split at h1
      · cases h1
      · by_cases ha' : (d0 :: rest).any hasRot = true
        · simp only [if_pos ha'] at h1 ⊢
          split at h1
          · cases h1; rfl
          · cases h1
        · simp only [if_neg ha'] at h1 ⊢
          split at h1
          · cases h1; rfl
          · cases h1
  constructor
  · intro h
    have : items.any hasRot = false := by
      rw [List.any_eq_false]; intro d hd; simp [hasRot, h d hd]
    rw [key, this, inBrackets_eq]; rfl
  · rintro ⟨d, hd, hr⟩
    have : items.any hasRot = true := by
      rw [List.any_eq_true]; exact ⟨d, hd, by unfold hasRot; rw [Option.isSome_iff_ne_none]; exact hr⟩
    rw [key, this, inBrackets_eq, inBrackets_eq]; rfl

theorem curves_unit {s s' : Names K} (h : s' = { s with rotUnit := s'.rotUnit }) (P : PlotLib K R) (d : AteResult K R) {f f' : Figure K} :
    (devComb1 P s d = .ok f → devComb1 P s' d = .ok f' → f'.traces = f.traces) ∧
    (devRot1 P s d = .ok f → devRot1 P s' d = .ok f' → f'.traces = f.traces) := by
  generalize s'.rotUnit = u at h
  subst h
  constructor
  · intro h1 h2
    unfold devComb1 at h1 h2
    cases hx : functionOf P d with
    | error e => rw [hx] at h1; cases h1
    | ok x =>
      rw [hx] at h1 h2
      simp only [bind, Except.bind] at h1 h2
      split at h1
      · rename_i hr
        rw [if_pos hr] at h2
        cases hc : combDevRot P d with
        | error e => rw [hc] at h1; cases h1
        | ok r => rw [hc] at h1 h2; cases h1; cases h2; rfl
      · rename_i hr
        rw [if_neg hr] at h2
        cases h1; cases h2; rfl
  · intro h1 h2
    unfold devRot1 at h1 h2
    cases hx : functionOf P d with
    | error e => rw [hx] at h1; cases h1
    | ok x =>
      rw [hx] at h1 h2
      simp only [bind, Except.bind] at h1 h2
      cases hc : rotDevs P d with
      | error e => rw [hc] at h1; cases h1
      | ok r => rw [hc] at h1 h2; cases h1; cases h2; rfl

/-- **C182 does not hold: the unit of angles is a mere text.** Naming another unit of angles in the settings changes the
text at the axes, but not the numbers that are drawn: for every result with orientations. -/
theorem C182_unit_ignored {P : PlotLib K R} (ha : IsArgsort P.argsort) {s s' : Names K}
    (h : s' = { s with rotUnit := s'.rotUnit }) (hu : s'.rotUnit ≠ s.rotUnit) {d : AteResult K R} (hr : d.rotDev ≠ none) :
    ∃ f f', devComb1 P s d = .ok f ∧ devComb1 P s' d = .ok f' ∧ f'.traces = f.traces ∧ f'.yLabels ≠ f.yLabels ∧
    ∃ g g', devRot1 P s d = .ok g ∧ devRot1 P s' d = .ok g' ∧ g'.traces = g.traces ∧ g'.yLabels ≠ g.yLabels := by
  obtain ⟨r, hr⟩ := Option.ne_none_iff_exists'.mp hr
  obtain ⟨f, h1, -, h2⟩ := C182_combined ha s d
  obtain ⟨f', h1', -, h2'⟩ := C182_combined ha s' d
  obtain ⟨g, k1, k2⟩ := C182_axes ha s hr
  obtain ⟨g', k1', k2'⟩ := C182_axes ha s' hr
  have hb : inBrackets s'.rotUnit ≠ inBrackets s.rotUnit := by
    intro e
    apply hu
    unfold inBrackets at e
    exact List.append_cancel_left (List.append_cancel_right e)
  have ef := (curves_unit h P d).1 h1 h1'
  have eg := (curves_unit h P d).2 k1 k1'
  refine ⟨f, f', h1, h1', ef, ?_, g, g', k1, k1', eg, ?_⟩
  · intro e
    apply hb
    have a := h2 r hr
    have a' := h2' r hr
    unfold Draws at a a'
    rw [ef] at a'
    obtain ⟨a, -⟩ := a
    obtain ⟨a', -⟩ := a'
    generalize f.traces = ts at a a'
    rcases a with _ | ⟨-, _ | ⟨⟨-, -, b⟩, -⟩⟩
    rcases a' with _ | ⟨-, _ | ⟨⟨-, -, b'⟩, -⟩⟩
    rw [e, b] at b'
    simpa using b'.symm
  · intro e
    apply hb
    unfold Draws at k2 k2'
    rw [eg] at k2'
    obtain ⟨a, -⟩ := k2
    obtain ⟨a', -⟩ := k2'
    generalize g.traces = ts at a a'
    rcases a with _ | ⟨⟨-, -, b⟩, -⟩
    rcases a' with _ | ⟨⟨-, -, b'⟩, -⟩
    rw [e, b] at b'
    simpa using b'.symm

/-- angles in radians are asked for; the numbers are those for degrees -/
example : IsArgsort exPlotLib.argsort ∧ ({ exNames with rotUnit := "rad".toList } : Names ℚ).rotUnit ≠ exNames.rotUnit ∧
    (exBack "a vs. b" (some [(), (), ()])).rotDev ≠ none :=
  ⟨stableArgsort_isArgsort, by decide +kernel, by simp [exBack]⟩

example : ((devComb1 exPlotLib { exNames with rotUnit := "rad".toList } (exBack "a vs. b" (some [(), (), ()]))).map
    (fun f => f.yLabels)).toOption = some ["[m]".toList, "[rad]".toList] := by decide +kernel

/-- **C134**, no results: every figure of several results raises `IndexError` if there are none. -/
theorem C134_no_results (P : PlotLib K R) (s : Names K) : devCombPlot P s [] = .error .indexError ∧
    devPosPlot P s [] = .error .indexError ∧ devRotPlot P s [] = .error .indexError ∧
    devEdf P s [] = .error .indexError := ⟨rfl, rfl, rfl, rfl⟩

end Plot
end TC
