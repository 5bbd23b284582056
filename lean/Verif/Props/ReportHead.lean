import Verif.Spec.ReportHead
import Verif.Props.Report
import Verif.Props.RpeStats
import Verif.Props.Summary
/-!
# C179: the head of the report on one comparison
-/
namespace TC
namespace Report
set_option linter.unusedSectionVars false
variable {K R : Type} [Field K] [LinearOrder K] [IsStrictOrderedRing K] [FloorRing K]

/-- a number in the text is the number rounded -/
theorem textOf_fmt (x : K) : TextOf (fmtFixed 3 x) x := by
  have hc := roundTo_close 3 x
  refine ⟨roundTo 3 x, if x < 0 then -(roundEven (|x| * 10 ^ 3) : ℤ) else (roundEven (|x| * 10 ^ 3) : ℤ), parseNum_fmtFixed 3 x, ?_, ?_⟩
  · unfold roundTo
    split_ifs
    · push_cast
      norm_num
      ring
    · push_cast
      norm_num
  · norm_num at hc ⊢
    exact hc

theorem npMean_isMean {l : List K} (h : l ≠ []) : ∃ m, npMean l = .ok m ∧ IsMean l m := by
  unfold npMean IsMean
  have : (l.length : K) ≠ 0 := by simpa using h
  rw [if_neg (by simpa using h)]
  exact ⟨_, rfl, by field_simp⟩

theorem label_append (q : String) (u v : Str) (h : q.toList ++ " [".toList ++ u ++ "]:".toList = v) : label q u = v := h

theorem rpeRows_ok (E : EvalLib K) (hE : IsEvalLib E) (deg : K → K) {p : RpeResult K} (hp : AllNumbers p)
    (h1 : withErrors RpeGroup.posDev p ≠ []) (h2 : withErrors RpeGroup.rotDev p ≠ []) :
    RelativeRows deg p (rpeRows deg (some p)) := by
  obtain ⟨means, _, _, _, _, _, _, _, _, _, hs, hm⟩ := C166_position_statistics E hE p hp.pos
  obtain ⟨rmeans, _, _, _, _, _, _, _, _, _, hrs, hrm⟩ := C166_rotation_statistics E hE p hp.rot
  have n1 : means ≠ [] := by
    intro e
    have := hs.means.1
    rw [e] at this
    exact h1 (List.length_eq_zero_iff.1 this.symm)
  have n2 : rmeans ≠ [] := by
    intro e
    have := hrs.means.1
    rw [e] at this
    exact h2 (List.length_eq_zero_iff.1 this.symm)
  obtain ⟨y, ey, hy⟩ := hm n1
  obtain ⟨z, ez, hz⟩ := hrm n2
  refine ⟨fmtFixed 3 y, fmtFixed 3 (deg z), ?_, ⟨y, ⟨means, hs.means, hy⟩, textOf_fmt y⟩,
    ⟨z, ⟨rmeans, hrs.means, hz⟩, textOf_fmt _⟩⟩
  unfold rpeRows
  dsimp only
  rw [ey, ez]
  by_cases hu : p.unit = .meter
  · simp only [RpeResult.posUnit, RpeResult.rotUnit, if_pos hu]
    rfl
  · simp only [RpeResult.posUnit, RpeResult.rotUnit, if_neg hu]
    rfl

/-- **C179**, positive part.  The report on an absolute and, if there is one, a relative error of trajectories with
orientations: the title is the name of the absolute result; the first row shows the mean position deviation in metres or
millimetres, as the label says, the second one the mean rotation deviation in degrees, and the other two the mean
drifts, with three decimals.
Missing for the full property: results without orientations (`C179_zero_without_orientations`, `C179_nan_without_rotations`),
another unit of angles in the settings (`C179_unit_of_angles_ignored`) and repeated reports (`C122_later_reports_wrong`). -/
theorem C179_head_partial {E : EvalLib K} (hE : IsEvalLib E) (L : RotLib K R) (deg : K → K) (mm : Bool) (rotUnit : Str) {i : Nat}
    {results : List (AteResult K R)} {r : AteResult K R} (h : results[i]? = some r) (hp : r.posDev ≠ []) {q : List R}
    (hq : r.rotDev = some q) (hne : q ≠ []) (rpe : Option (RpeResult K))
    (hrpe : ∀ p ∈ rpe, AllNumbers p ∧ withErrors RpeGroup.posDev p ≠ [] ∧ withErrors RpeGroup.rotDev p ≠ []) :
    ∃ tp tr rows, (singleHead E L deg mm rotUnit (some i) rpe results).1 = .ok ⟨r.name.toList,
        (if mm then "ATE Position [mm]:".toList else "ATE Position [m]:".toList, tp) ::
        ("ATE Rotation [".toList ++ rotUnit ++ "]:".toList, tr) :: rows⟩ ∧
      (∃ x, IsPositionAte E.nrm r mm x ∧ TextOf tp x) ∧
      (∃ x, IsRotationAte (fun a => rotAngle E (L.toMat a)) deg q x ∧ TextOf tr x) ∧
      (rpe = none → rows = []) ∧ ∀ p ∈ rpe, RelativeRows deg p rows := by
  obtain ⟨m, em, hm⟩ := npMean_isMean (l := r.posDev.map E.nrm) (by simpa using hp)
  obtain ⟨a, ea, ha⟩ := npMean_isMean (l := q.map (fun a => rotAngle E (L.toMat a))) (by simpa using hne)
  have hl := (List.getElem?_eq_some_iff.1 h).1
  have hpos : r.posAte E = .ok m := em
  have hrot : ∀ s : AteResult K R, s.rotDev = some q → s.rotAte E L = .ok a := by
    intro s hs
    unfold AteResult.rotAte AteResult.rotDevComb
    rw [hs]
    exact ea
  refine ⟨fmtFixed 3 (if mm then 1000 * m else m), fmtFixed 3 (deg a), rpeRows deg rpe, ?_,
    ⟨_, ⟨m, hm, rfl⟩, textOf_fmt _⟩, ⟨_, ⟨a, ha, rfl⟩, textOf_fmt _⟩, ?_, ?_⟩
  · unfold singleHead
    dsimp only
    rw [postInit_run mm h]
    cases mm
    · simp only [Bool.false_eq_true, if_false, h, ateRows, hpos, hrot r hq]
      rfl
    · have e1 := posAte_inUnit hE (f := (1000 : K)) (by norm_num) r hpos
      simp only [if_true, List.getElem?_set_self hl, ateRows, e1, hrot (inUnit 1000 r) hq]
      rfl
  · rintro rfl
    rfl
  · intro p hp'
    cases rpe with
    | none => exact absurd hp' (by simp)
    | some p' =>
      cases Option.mem_some_iff.1 hp'
      obtain ⟨k1, k2, k3⟩ := hrpe _ rfl
      exact rpeRows_ok E hE deg k1 k2 k3

/-- **C179 is false of the code**: for a result without orientations the row of the rotation error says `0.000`. -/
theorem C179_zero_without_orientations (E : EvalLib K) (L : RotLib K R) {deg : K → K} (hd : deg 0 = 0) (mm : Bool) (rotUnit : Str)
    {i : Nat} {results : List (AteResult K R)} {r : AteResult K R} (h : results[i]? = some r) (hp : r.posDev ≠ [])
    (hr : r.rotDev = none) (rpe : Option (RpeResult K)) :
    ∃ head, (singleHead E L deg mm rotUnit (some i) rpe results).1 = .ok head ∧
      head.rows[1]? = some ("ATE Rotation [".toList ++ rotUnit ++ "]:".toList, "0.000".toList) := by
  have key : ∀ s : AteResult K R, s.rotDev = none → s.posDev ≠ [] → s.rotAte E L = .ok 0 := by
    intro s hs hne
    unfold AteResult.rotAte AteResult.rotDevComb npMean
    rw [hs]
    have : s.posDev.length ≠ 0 := by simpa using hne
    simp [hne]
  have hz : numberText (Except.ok (deg 0)) = "0.000".toList := by
    rw [hd]
    have e0 : roundEven (|(0 : K)| * 10 ^ 3) = 0 := by simp [roundEven]
    unfold numberText fmtFixed
    simp only [e0, lt_irrefl, if_false]
    decide
  have hl := (List.getElem?_eq_some_iff.1 h).1
  unfold singleHead
  dsimp only
  rw [postInit_run mm h]
  cases mm
  · simp only [Bool.false_eq_true, if_false, h]
    exact ⟨_, rfl, by simp [ateRows, key r hr hp, Except.map, hz, label]⟩
  · simp only [if_true, List.getElem?_set_self hl]
    refine ⟨_, rfl, ?_⟩
    have := key (inUnit 1000 r) hr (by simpa [inUnit] using hp)
    simp [ateRows, this, Except.map, hz, label]

/-- **C179 is false of the code**: for a relative error without rotations the row of the rotation error says `nan`. -/
theorem C179_nan_without_rotations (E : EvalLib K) (L : RotLib K R) (deg : K → K) (mm : Bool) (rotUnit : Str)
    {i : Nat} {results : List (AteResult K R)} {r : AteResult K R} (h : results[i]? = some r) {p : RpeResult K}
    (hp : ∀ g ∈ p.groups, g.rotDev = []) :
    ∃ head row, (singleHead E L deg mm rotUnit (some i) (some p) results).1 = .ok head ∧ head.rows[3]? = some row ∧
      row.2 = "nan".toList := by
  have hn : p.hasRotDev = false := by
    unfold RpeResult.hasRotDev
    rw [List.any_eq_false]
    intro g hg
    simp [hp g hg]
  have e : p.rotRpe = .error .valueError := by
    unfold RpeResult.rotRpe RpeResult.rotDevMean
    rw [if_neg (by simp [hn])]
    rfl
  have hl := (List.getElem?_eq_some_iff.1 h).1
  unfold singleHead
  dsimp only
  rw [postInit_run mm h]
  cases mm
  · simp only [Bool.false_eq_true, if_false, h]
    exact ⟨_, _, rfl, rfl, by rw [e]; rfl⟩
  · simp only [if_true, List.getElem?_set_self hl]
    exact ⟨_, _, rfl, rfl, by rw [e]; rfl⟩

/-- **C179 is false of the code**: the unit of angles that is set only changes the label, the number is the same (degrees). -/
theorem C179_unit_of_angles_ignored (E : EvalLib K) (L : RotLib K R) (deg : K → K) (mm : Bool) (unit unit' : Str)
    (i : Nat) (rpe : Option (RpeResult K)) (results : List (AteResult K R)) {head : Head}
    (h : (singleHead E L deg mm unit (some i) rpe results).1 = .ok head) :
    ∃ head', (singleHead E L deg mm unit' (some i) rpe results).1 = .ok head' ∧ head'.rows.map Prod.snd = head.rows.map Prod.snd ∧
      (head'.rows[1]?).map Prod.fst = some ("ATE Rotation [".toList ++ unit' ++ "]:".toList) := by
  unfold singleHead at h ⊢
  obtain ⟨x, s, hpi⟩ : ∃ x s, postInit mm i results = (x, s) := ⟨_, _, rfl⟩
  simp only [hpi] at h ⊢
  cases x with
  | error e => cases h
  | ok u =>
    simp only at h ⊢
    cases hs : s[i]? with
    | none => rw [hs] at h; cases h
    | some r =>
      rw [hs] at h
      cases h
      exact ⟨_, rfl, by simp [ateRows], rfl⟩

/-- **C179.**  A report on a relative error alone has its name as title and dashes for the absolute error; there is no report
on nothing. -/
theorem C179_relative_only {E : EvalLib K} (hE : IsEvalLib E) (L : RotLib K R) (deg : K → K) (mm : Bool) (rotUnit : Str)
    (results : List (AteResult K R)) :
    singleHead E L deg mm rotUnit none none results = (.error .valueError, results) ∧
    ∀ p : RpeResult K, AllNumbers p → withErrors RpeGroup.posDev p ≠ [] → withErrors RpeGroup.rotDev p ≠ [] →
      ∃ rows, singleHead E L deg mm rotUnit none (some p) results = (.ok ⟨p.name.toList,
        (if mm then "ATE Position [mm]:".toList else "ATE Position [m]:".toList, "-".toList) ::
        ("ATE Rotation [".toList ++ rotUnit ++ "]:".toList, "-".toList) :: rows⟩, results) ∧ RelativeRows deg p rows := by
  refine ⟨rfl, fun p h1 h2 h3 => ⟨rpeRows deg (some p), ?_, rpeRows_ok E hE deg h1 h2 h3⟩⟩
  unfold singleHead
  cases mm <;> rfl

/-- positions and rotations at two distances -/
def exDrifts : RpeResult ℚ :=
  { unit := .meter, name := "a vs. b", groups := [⟨1, [some (1 / 10), some (3 / 10)], [some (1 / 100)], [1, 1]⟩, ⟨2, [some (4 / 10)], [some (3 / 100)], [2]⟩] }

example : AllNumbers exDrifts ∧ withErrors RpeGroup.posDev exDrifts ≠ [] ∧ withErrors RpeGroup.rotDev exDrifts ≠ [] := by
  refine ⟨⟨?_, ?_⟩, by decide +kernel, by decide +kernel⟩
  all_goals
    intro g hg
    simp only [exDrifts, List.mem_cons, List.not_mem_nil, or_false] at hg
    rcases hg with rfl | rfl
  exacts [⟨[1 / 10, 3 / 10], rfl⟩, ⟨[4 / 10], rfl⟩, ⟨[1 / 100], rfl⟩, ⟨[3 / 100], rfl⟩]

/-- a result without orientations and a relative error, in millimetres; `id` in place of the conversion to degrees -/
example : (singleHead exShownLib ⟨(), fun _ _ => (), fun _ => (), fun _ => 1, fun _ => (), fun _ _ _ => ()⟩ id true ['°'] (some 0) (some exDrifts)
      [exShown]).1.toOption =
    some ⟨"a vs. b".toList, [("ATE Position [mm]:".toList, "3500.000".toList), ("ATE Rotation [°]:".toList, "0.000".toList),
      ("RPE Position [%]:".toList, "30.000".toList), ("RPE Rotation [deg/100m]:".toList, "2.000".toList)]⟩ := by decide +kernel

/-- without rotations -/
example : (singleHead exShownLib ⟨(), fun _ _ => (), fun _ => (), fun _ => 1, fun _ => (), fun _ _ _ => ()⟩ id false ['°'] none (some exBins)
      ([] : List (AteResult ℚ Unit))).1.toOption =
    some ⟨[], [("ATE Position [m]:".toList, "-".toList), ("ATE Rotation [°]:".toList, "-".toList),
      ("RPE Position [%]:".toList, "35.000".toList), ("RPE Rotation [deg/100m]:".toList, "nan".toList)]⟩ := by decide +kernel
example : ∀ g ∈ exBins.groups, g.rotDev = [] := by decide +kernel

end Report
end TC
