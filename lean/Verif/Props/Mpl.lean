import Verif.Spec.Mpl
import Verif.Props.PlotData
/-!
# C136, C137, C139, C140, C147, C149: matplotlib plots
-/
namespace TC
namespace Plot
set_option linter.unusedSectionVars false
variable {K R : Type} [Field K] [LinearOrder K]

/-! ### C136: histograms -/

/-- **C136**, positive part: for deviations along and across the track every histogram counts the component its label names -
those of its values that are larger than a micrometre.
Missing: the coordinate directions (`C136_labels_swapped`) and the small values (`C136_small_values_missing`). -/
theorem C136_directed_partial (s : MplSettings K) (d : AteResult K R) (hs : s.directed = true) :
    (posHist s d).map Hist.label = ["vertical".toList, "horizontal".toList, "along".toList] ∧
    ∀ h ∈ posHist s d, ∃ l, component d h.label = some l ∧ h.values = l.filter (fun x => decide (1 / 1000000 < |x|)) ∧
      h.factor = if s.mm then 1000 else 1 := by
  have e : posHist s d = [⟨"vertical".toList, histValues (d.directed.map V3.z), unitFactor s⟩,
      ⟨"horizontal".toList, histValues (d.directed.map V3.y), unitFactor s⟩,
      ⟨"along".toList, histValues (d.directed.map V3.x), unitFactor s⟩] := by
    unfold posHist; rw [hs]; rfl
  rw [e]
  refine ⟨rfl, ?_⟩
  intro h hm
  simp only [List.mem_cons, List.not_mem_nil, or_false] at hm
  rcases hm with rfl | rfl | rfl
  · exact ⟨_, rfl, rfl, rfl⟩
  · exact ⟨_, rfl, rfl, rfl⟩
  · exact ⟨_, rfl, rfl, rfl⟩

/-- **C136 is false of the code** for the coordinate directions: the histogram called `x` counts the deviations in `z`, the
one called `z` those in `x`. -/
theorem C136_labels_swapped (s : MplSettings K) (d : AteResult K R) (hs : s.directed = false) :
    (∃ h ∈ posHist s d, h.label = "x".toList ∧ h.values = (d.posDev.map V3.z).filter (fun x => decide (1 / 1000000 < |x|))) ∧
    (∃ h ∈ posHist s d, h.label = "z".toList ∧ h.values = (d.posDev.map V3.x).filter (fun x => decide (1 / 1000000 < |x|))) ∧
    ((d.posDev.map V3.x).filter (fun x => decide (1 / 1000000 < |x|))
        ≠ (d.posDev.map V3.z).filter (fun x => decide (1 / 1000000 < |x|)) →
      ∀ h ∈ posHist s d, h.label = "x".toList ∨ h.label = "z".toList → ∀ l, component d h.label = some l →
        h.values ≠ l.filter (fun x => decide (1 / 1000000 < |x|))) := by
  have e : posHist s d = [⟨"x".toList, histValues (d.posDev.map V3.z), unitFactor s⟩,
      ⟨"y".toList, histValues (d.posDev.map V3.y), unitFactor s⟩,
      ⟨"z".toList, histValues (d.posDev.map V3.x), unitFactor s⟩] := by
    unfold posHist; rw [hs]; rfl
  rw [e]
  refine ⟨⟨⟨"x".toList, histValues (d.posDev.map V3.z), unitFactor s⟩, by simp, rfl, rfl⟩, ⟨⟨"z".toList, histValues (d.posDev.map V3.x), unitFactor s⟩, by simp, rfl, rfl⟩, ?_⟩
  intro hne h hm hl l hc
  simp only [List.mem_cons, List.not_mem_nil, or_false] at hm
  rcases hm with rfl | rfl | rfl
  · have : l = d.posDev.map V3.x := (Option.some.inj hc).symm
    subst this
    exact fun h => hne h.symm
  · rcases hl with hl | hl <;> exact absurd hl (by simp)
  · have : l = d.posDev.map V3.z := (Option.some.inj hc).symm
    subst this
    exact hne

/-- **C136 is false of the code** for small values: a histogram of the matplotlib plots does not count values up to a
micrometre; so it counts fewer values than there are exactly if there is such a value. -/
theorem C136_small_values_missing (l : List K) :
    (∀ v, v ∈ histValues l ↔ v ∈ l ∧ 1 / 1000000 < |v|) ∧
    ((histValues l).length < l.length ↔ ∃ v ∈ l, |v| ≤ 1 / 1000000) := by
  constructor
  · intro v; simp [histValues]
  · unfold histValues
    rw [List.length_filter_lt_length_iff_exists]
    simp

/-- The histograms of the rotation deviations have the right labels. -/
theorem C136_rotations (P : PlotLib K R) (r : List R) :
    rotHist P r = [⟨"yaw".toList, histValues (r.map (fun q => P.deg (P.euler q).z)), 1⟩,
      ⟨"pitch".toList, histValues (r.map (fun q => P.deg (P.euler q).y)), 1⟩,
      ⟨"roll".toList, histValues (r.map (fun q => P.deg (P.euler q).x)), 1⟩] := rfl

/-- The histograms of the reports count all values, each component under its own name. -/
theorem C136_reports (P : PlotLib K R) (s : Names K) (d : AteResult K R) :
    posHistReport s d = (if s.directed
      then [⟨s.dirX, d.directed.map V3.x, 1⟩, ⟨s.dirY, d.directed.map V3.y, 1⟩, ⟨s.dirZ, d.directed.map V3.z, 1⟩]
      else [⟨s.posX, d.posDev.map V3.x, 1⟩, ⟨s.posY, d.posDev.map V3.y, 1⟩, ⟨s.posZ, d.posDev.map V3.z, 1⟩]) ∧
    ∀ r, d.rotDev = some r → rotHistReport P s d = .ok
      [⟨s.rotX, r.map (fun q => P.deg (P.euler q).x), 1⟩, ⟨s.rotY, r.map (fun q => P.deg (P.euler q).y), 1⟩,
       ⟨s.rotZ, r.map (fun q => P.deg (P.euler q).z), 1⟩] := by
  constructor
  · cases hs : s.directed <;> simp [posHistReport, posDevNames, posDevs, hs]
  · intro r hr
    simp only [rotHistReport, rotDevs, hr]; rfl

/-! ### C137: deviations over time or length -/

theorem argsort_sorted {argsort : List K → List Nat} (ha : IsArgsort argsort) (l : List K) :
    Traj.take (npSort l) (argsort (npSort l)) = .ok (npSort l) := by
  rw [take_eq (ha _).inRange, (ha _).sel, npSort_eq_self (npSort_sorted l)]

theorem take_any {α : Type} {argsort : List K → List Nat} (ha : IsArgsort argsort) (l : List K) {v : List α}
    (hv : v.length = l.length) : Traj.take v (argsort (npSort l)) = .ok (sel v (argsort (npSort l))) := by
  apply take_eq
  have := (ha (npSort l)).inRange
  rwa [npSort_length, ← hv] at this

theorem devLines_eq {P : PlotLib K R} (ha : IsArgsort P.argsort) (s : MplSettings K) (anyRot : Bool) {d : AteResult K R}
    (hd : FullResult d) (hne : d.trajectory.tstamps ≠ []) :
    devLines P s anyRot d = .ok ([{ row := 1, x := npSort (abscissas d.trajectory)
                                    y := (sel (d.posDevComb P.eval) (P.argsort (npSort (abscissas d.trajectory)))).map (fun v => v * unitFactor s) }],
      if anyRot then (match d.rotDev with
        | some r => [{ row := 2, x := npSort (abscissas d.trajectory)
                       y := (sel (r.map (fun q => rotAngle P.eval (P.rot.toMat q)))
              (P.argsort (npSort (abscissas d.trajectory)))).map P.deg }]
        | none => List.replicate 3 { row := 2, x := npSort (abscissas d.trajectory)
                                     y := List.replicate d.posDev.length (P.deg 0) }) else []) := by
  have hx : functionOf P d = .ok (npSort (abscissas d.trajectory)) := functionOf_sorted ha _
  have hl := abscissas_length hd.traj
  have hne' : ¬ (npSort (abscissas d.trajectory)).length = 0 := by
    rw [npSort_length, hl]; simpa using hne
  have hy : Traj.take (d.posDevComb P.eval) (P.argsort (npSort (abscissas d.trajectory)))
      = .ok (sel (d.posDevComb P.eval) (P.argsort (npSort (abscissas d.trajectory)))) :=
    take_any ha _ (by rw [hl]; simpa [AteResult.posDevComb] using hd.pos)
  unfold devLines
  rw [hx]
  simp only [bind, Except.bind, if_neg hne', argsort_sorted ha, hy]
  cases anyRot
  · rfl
  · simp only [if_true]
    rcases hr : d.rotDev with _ | r
    · have hz : Traj.take (List.replicate d.posDev.length (0 : K)) (P.argsort (npSort (abscissas d.trajectory)))
          = .ok (sel (List.replicate d.posDev.length (0 : K)) (P.argsort (npSort (abscissas d.trajectory)))) :=
        take_any ha _ (by rw [hl, List.length_replicate]; exact hd.pos)
      simp only [hz]
      have hin : InRange (List.replicate d.posDev.length (0 : K)).length (P.argsort (npSort (abscissas d.trajectory))) := by
        have := (ha (npSort (abscissas d.trajectory))).inRange
        rwa [npSort_length, hl, ← hd.pos, ← List.length_replicate (n := d.posDev.length) (a := (0 : K))] at this
      have hrep : sel (List.replicate d.posDev.length (0 : K)) (P.argsort (npSort (abscissas d.trajectory)))
          = List.replicate d.posDev.length 0 := by
        rw [List.eq_replicate_iff]
        refine ⟨?_, ?_⟩
        · rw [sel_length hin, (ha _).length, npSort_length, hl, hd.pos]
        · intro b hb
          obtain ⟨k, hk⟩ := List.getElem?_of_mem hb
          rw [sel_getElem? hin] at hk
          rcases hp : (P.argsort (npSort (abscissas d.trajectory)))[k]? with _ | j
          · rw [hp] at hk; cases hk
          · rw [hp] at hk
            simp only [Option.bind_some] at hk
            exact List.eq_of_mem_replicate (List.mem_of_getElem? hk)
      rw [hrep, List.map_replicate]
      rfl
    · have hz : Traj.take (d.rotDevComb P.eval P.rot) (P.argsort (npSort (abscissas d.trajectory)))
          = .ok (sel (r.map (fun q => rotAngle P.eval (P.rot.toMat q))) (P.argsort (npSort (abscissas d.trajectory)))) := by
        have : d.rotDevComb P.eval P.rot = r.map (fun q => rotAngle P.eval (P.rot.toMat q)) := by
          unfold AteResult.rotDevComb; rw [hr]
        rw [this]
        exact take_any ha _ (by rw [hl, List.length_map]; exact hd.rot r hr)
      simp only [hz]
      rfl

theorem devLines_empty {P : PlotLib K R} (ha : IsArgsort P.argsort) (s : MplSettings K) (anyRot : Bool) {d : AteResult K R}
    (hd : Coherent d.trajectory) (he : d.trajectory.tstamps = []) : devLines P s anyRot d = .ok ([], []) := by
  have hx : functionOf P d = .ok (npSort (abscissas d.trajectory)) := functionOf_sorted ha _
  unfold devLines
  rw [hx]
  have : (npSort (abscissas d.trajectory)).length = 0 := by
    rw [npSort_length, abscissas_length hd, he]; rfl
  simp only [bind, Except.bind, if_pos this]
  rfl

/-- **C137 is false of the code**: for results without orientations there is never a figure. -/
theorem C137_no_figure_without_rotations (P : PlotLib K R) (s : MplSettings K) {items : List (AteResult K R)}
    (h : ∀ d ∈ items, d.rotDev = none) : ∀ f, plotDeviations P s items ≠ .ok f := by
  intro f hf
  have hany : items.any hasRot = false := by
    rw [List.any_eq_false]
    intro d hd
    simp [hasRot, h d hd]
  unfold plotDeviations at hf
  rw [hany] at hf
  simp only [bind, Except.bind] at hf
  split at hf
  · cases hf
  · split at hf
    · cases hf
    · cases hf

/-- ... but an `AttributeError`, if there is data. -/
theorem C137_attribute_error {P : PlotLib K R} (ha : IsArgsort P.argsort) (s : MplSettings K) {items : List (AteResult K R)}
    (h : ∀ d ∈ items, d.rotDev = none) (hfull : ∀ d ∈ items, FullResult d) (hne : ∃ d ∈ items, d.trajectory.tstamps ≠ []) :
    plotDeviations P s items = .error .attributeError := by
  have hany : items.any hasRot = false := by
    rw [List.any_eq_false]
    intro d hd
    simp [hasRot, h d hd]
  obtain ⟨ls, hls⟩ := mapE_isOk (f := devLines P s false) (l := items) (by
    intro d hd
    by_cases he : d.trajectory.tstamps = []
    · exact ⟨_, devLines_empty ha s false (hfull d hd).traj he⟩
    · exact ⟨_, devLines_eq ha s false (hfull d hd) he⟩)
  unfold plotDeviations
  rw [hany]
  simp only [bind, Except.bind, hls]
  rw [if_neg]
  · rfl
  · obtain ⟨d, hd, hde⟩ := hne
    obtain ⟨k, hk⟩ := List.getElem?_of_mem hd
    obtain ⟨b, hb, hb'⟩ := mapE_getElem? hls hk
    rw [devLines_eq ha s false (hfull d hd) hde] at hb
    cases hb
    intro h0
    rw [List.length_eq_zero_iff, List.flatten_eq_nil_iff] at h0
    have := h0 _ (List.mem_map_of_mem (f := Prod.fst) (List.mem_of_getElem? hb'))
    simp at this

theorem plotDeviations_ok {P : PlotLib K R} {s : MplSettings K} {items : List (AteResult K R)} {g : AteResult K R → List (Line K) × List (Line K)}
    (hany : items.any hasRot = true) (hg : ∀ d ∈ items, devLines P s true d = .ok (g d))
    (hne : ∃ d ∈ items, (g d).1 ≠ []) :
    plotDeviations P s items = .ok { xLabel := xLabelOf (items.map (fun d => d.trajectory.sorting))
                                     lines := items.flatMap (fun d => (g d).1) ++ items.flatMap (fun d => (g d).2)
                                     legend := (items.map (fun d => d.name.toList)).zip
                                       (items.flatMap (fun d => (g d).1) ++ items.flatMap (fun d => (g d).2)) } := by
  have e1 : ((items.map g).map Prod.fst).flatten = items.flatMap (fun d => (g d).1) := by
    rw [List.map_map]; rfl
  have e2 : ((items.map g).map Prod.snd).flatten = items.flatMap (fun d => (g d).2) := by
    rw [List.map_map]; rfl
  have h0 : ¬ (items.flatMap (fun d => (g d).1)).length = 0 := by
    intro h0
    rw [List.length_eq_zero_iff, List.flatMap_eq_nil_iff] at h0
    obtain ⟨d, hd, hde⟩ := hne
    exact hde (h0 d hd)
  unfold plotDeviations
  rw [hany]
  simp only [bind, Except.bind, mapE_ok hg, e1, e2, if_neg h0]
  rfl

theorem strict_sel {α : Type} {argsort : List K → List Nat} (ha : IsArgsort argsort) {l : List K} (hs : l.Pairwise (· < ·))
    {v : List α} (hv : v.length = l.length) : npSort l = l ∧ sel v (argsort (npSort l)) = v := by
  have h1 : npSort l = l := npSort_eq_self (hs.imp le_of_lt)
  refine ⟨h1, ?_⟩
  rw [h1, argsort_strict (ha l) hs, ← hv, sel_range]

theorem zip_prefix {α β : Type} {l : List α} {m m' : List β} (h : l.length = m.length) : l.zip (m ++ m') = l.zip m := by
  have := List.zip_append (l₁ := l) (r₁ := []) (l₂ := m) (r₂ := m') h
  simpa using this

/-- **C137**, positive part: for results with orientations whose samples are stored in ascending order of the abscissa, the
figure shows the deviations of every result over its own abscissas, and the legend gives each name to the line of its result.
Missing: results without orientations (`C137_no_figure_without_rotations`, `C137_zero_curves`), without samples
(`C137_names_shifted`) and other orders. -/
theorem C137_figure_partial {P : PlotLib K R} (ha : IsArgsort P.argsort) (s : MplSettings K) {items : List (AteResult K R)}
    (hne : items ≠ []) (hfull : ∀ d ∈ items, FullResult d) (hrot : ∀ d ∈ items, d.rotDev ≠ none)
    (hdata : ∀ d ∈ items, d.trajectory.tstamps ≠ []) (hs : ∀ d ∈ items, (abscissas d.trajectory).Pairwise (· < ·)) :
    ∃ f, plotDeviations P s items = .ok f ∧
      f.legend = items.map (fun d => (d.name.toList, ownLine P.eval s d)) ∧
      f.lines = items.map (ownLine P.eval s) ++ items.map (fun d => ownRotLine P d (d.rotDev.getD [])) := by
  have hany : items.any hasRot = true := by
    obtain ⟨d, rest, rfl⟩ := List.exists_cons_of_ne_nil hne
    rw [List.any_eq_true]
    refine ⟨d, by simp, ?_⟩
    rcases hr : d.rotDev with _ | r
    · exact absurd hr (hrot d (by simp))
    · simp [hasRot, hr]
  have hg : ∀ d ∈ items, devLines P s true d
      = .ok ([ownLine P.eval s d], [ownRotLine P d (d.rotDev.getD [])]) := by
    intro d hd
    have hl := abscissas_length (hfull d hd).traj
    rw [devLines_eq ha s true (hfull d hd) (hdata d hd)]
    rcases hr : d.rotDev with _ | r
    · exact absurd hr (hrot d hd)
    · have h1 := strict_sel ha (hs d hd) (v := d.posDevComb P.eval)
        (by rw [hl]; simpa [AteResult.posDevComb] using (hfull d hd).pos)
      have h2 := strict_sel ha (hs d hd) (v := r.map (fun q => rotAngle P.eval (P.rot.toMat q)))
        (by rw [hl, List.length_map]; exact (hfull d hd).rot r hr)
      simp only [h1.2, h2.2, if_true, Option.getD_some]
      simp only [h1.1, ownLine, ownRotLine, AteResult.posDevComb, List.map_map, unitFactor]
      rfl
  have e := plotDeviations_ok (g := fun d => ([ownLine P.eval s d], [ownRotLine P d (d.rotDev.getD [])])) hany hg (by
    obtain ⟨d, rest, rfl⟩ := List.exists_cons_of_ne_nil hne
    exact ⟨d, by simp, by simp⟩)
  have hsingle : ∀ (g : AteResult K R → Line K) (l : List (AteResult K R)), l.flatMap (fun d => [g d]) = l.map g := by
    intro g l
    induction l with
    | nil => rfl
    | cons a l ih => rw [List.flatMap_cons, ih]; rfl
  refine ⟨_, e, ?_, ?_⟩
  · simp only [hsingle]
    rw [zip_prefix (by simp), List.zip_map']
  · simp only [hsingle]

/-- the lines of any result -/
def linesOf (P : PlotLib K R) (s : MplSettings K) (d : AteResult K R) : List (Line K) × List (Line K) :=
  match devLines P s true d with
  | .ok l => l
  | .error _ => ([], [])

theorem linesOf_ok {P : PlotLib K R} (ha : IsArgsort P.argsort) (s : MplSettings K) {d : AteResult K R} (hd : FullResult d) :
    devLines P s true d = .ok (linesOf P s d) := by
  unfold linesOf
  by_cases he : d.trajectory.tstamps = []
  · rw [devLines_empty ha s true hd.traj he]
  · rw [devLines_eq ha s true hd he]

/-- **C137**, negation: beside a result with orientations, a result without gets three curves of rotation deviations,
though it has none. -/
theorem C137_zero_curves {P : PlotLib K R} (ha : IsArgsort P.argsort) (s : MplSettings K) {items : List (AteResult K R)}
    (hfull : ∀ d ∈ items, FullResult d) (hrot : ∃ d ∈ items, d.rotDev ≠ none) {d : AteResult K R} (hd : d ∈ items)
    (hn : d.rotDev = none) (hdata : d.trajectory.tstamps ≠ []) :
    ∃ f, plotDeviations P s items = .ok f ∧ ∃ before after, f.lines = before ++ List.replicate 3
      { row := 2, x := npSort (abscissas d.trajectory), y := List.replicate d.posDev.length (P.deg 0) } ++ after := by
  have hany : items.any hasRot = true := by
    obtain ⟨e, he, hr⟩ := hrot
    rw [List.any_eq_true]
    refine ⟨e, he, ?_⟩
    rcases hq : e.rotDev with _ | r
    · exact absurd hq hr
    · simp [hasRot, hq]
  have hl : (linesOf P s d).1 ≠ [] ∧ (linesOf P s d).2 = List.replicate 3
      { row := 2, x := npSort (abscissas d.trajectory), y := List.replicate d.posDev.length (P.deg 0) } := by
    unfold linesOf
    rw [devLines_eq ha s true (hfull d hd) hdata, hn]
    exact ⟨by simp, rfl⟩
  refine ⟨_, plotDeviations_ok (g := linesOf P s) hany (fun e he => linesOf_ok ha s (hfull e he)) ⟨d, hd, hl.1⟩, ?_⟩
  obtain ⟨a, b, hab⟩ := List.append_of_mem hd
  refine ⟨items.flatMap (fun d => (linesOf P s d).1) ++ a.flatMap (fun d => (linesOf P s d).2),
    b.flatMap (fun d => (linesOf P s d).2), ?_⟩
  simp only
  have : items.flatMap (fun d => (linesOf P s d).2) = a.flatMap (fun d => (linesOf P s d).2) ++ (linesOf P s d).2 ++
      b.flatMap (fun d => (linesOf P s d).2) := by
    rw [hab]; simp
  rw [this, hl.2]
  simp only [List.append_assoc]

/-- **C137**, negation: a result without samples is skipped, its name is not; so the name goes to the line of the next
result. -/
theorem C137_names_shifted {P : PlotLib K R} (ha : IsArgsort P.argsort) (s : MplSettings K) {empty d : AteResult K R}
    {rest : List (AteResult K R)} (hfull : ∀ e ∈ empty :: d :: rest, FullResult e)
    (hrot : ∃ e ∈ empty :: d :: rest, e.rotDev ≠ none) (he : empty.trajectory.tstamps = [])
    (hdata : d.trajectory.tstamps ≠ []) (hs : (abscissas d.trajectory).Pairwise (· < ·)) :
    ∃ f, plotDeviations P s (empty :: d :: rest) = .ok f ∧
      f.legend.head? = some (empty.name.toList, ownLine P.eval s d) := by
  have hany : (empty :: d :: rest).any hasRot = true := by
    obtain ⟨e, he, hr⟩ := hrot
    rw [List.any_eq_true]
    refine ⟨e, he, ?_⟩
    rcases hq : e.rotDev with _ | r
    · exact absurd hq hr
    · simp [hasRot, hq]
  have hl : (linesOf P s d).1 = [ownLine P.eval s d] := by
    have hd := hfull d (by simp)
    have hl := abscissas_length hd.traj
    unfold linesOf
    rw [devLines_eq ha s true hd hdata]
    have h1 := strict_sel ha hs (v := d.posDevComb P.eval) (by rw [hl]; simpa [AteResult.posDevComb] using hd.pos)
    simp only [h1.2]
    simp only [h1.1, ownLine, AteResult.posDevComb, List.map_map, unitFactor]
    rfl
  have hl0 : (linesOf P s empty).1 = [] := by
    unfold linesOf
    rw [devLines_empty ha s true (hfull empty (by simp)).traj he]
  refine ⟨_, plotDeviations_ok (g := linesOf P s) hany (fun e he => linesOf_ok ha s (hfull e he))
    ⟨d, by simp, by rw [hl]; simp⟩, ?_⟩
  simp only [List.flatMap_cons, hl0, hl, List.map_cons, List.nil_append, List.cons_append]
  rfl

/-- For ascending abscissas or not, the position lines of the matplotlib plot are drawn over the sorted abscissas; the values
follow the order of the sorted abscissas, which is not that of the samples: **C133** fails there, too. -/
theorem C133_matplotlib_mispairs {P : PlotLib K R} (ha : IsArgsort P.argsort) (s : MplSettings K) {d : AteResult K R}
    (hd : FullResult d) (hdata : d.trajectory.tstamps ≠ []) (hdistinct : (abscissas d.trajectory).Nodup)
    (hs : ¬ (abscissas d.trajectory).Pairwise (· ≤ ·)) :
    ∃ l rot, devLines P s true d = .ok ([l], rot) ∧ l.x = npSort (abscissas d.trajectory) ∧
      l.y = d.posDev.map (fun v => P.eval.nrm v * (if s.mm then 1000 else 1)) ∧
      ∃ (k : Nat) (a b : K), l.x[k]? = some a ∧ (abscissas d.trajectory)[k]? = some b ∧ a ≠ b := by
  have hl := abscissas_length hd.traj
  have hstrict : (npSort (abscissas d.trajectory)).Pairwise (· < ·) := by
    have h1 := npSort_sorted (abscissas d.trajectory)
    have h2 : (npSort (abscissas d.trajectory)).Nodup := (npSort_perm _).nodup_iff.2 hdistinct
    exact List.Pairwise.imp₂ (fun _ _ h hn => lt_of_le_of_ne h hn) h1 h2
  refine ⟨_, _, devLines_eq ha s true hd hdata, rfl, ?_, ?_⟩
  · simp only
    have hp := argsort_strict (ha (npSort (abscissas d.trajectory))) hstrict
    rw [hp, npSort_length, hl]
    have : d.trajectory.tstamps.length = (d.posDevComb P.eval).length := by
      simp [AteResult.posDevComb, hd.pos]
    rw [this, sel_range]
    simp [AteResult.posDevComb, unitFactor]
  · simp only
    exact exists_ne_of_ne (npSort_length _) (fun e => hs (e ▸ npSort_sorted _))

/-! ### C147: text at the abscissa -/

/-- **C147**: the text at the abscissa says time if all trajectories are sorted by time, length if all are sorted by length,
and both if they differ. -/
theorem C147_abscissa (l : List Sorting) (hne : l ≠ []) :
    ((∀ s ∈ l, s = .time) → xLabelOf l = "time [s]".toList) ∧
    ((∀ s ∈ l, s = .arcLength) → xLabelOf l = "trajectory length [m]".toList) ∧
    (Sorting.time ∈ l ∧ Sorting.arcLength ∈ l → xLabelOf l = "time [s] / trajectory length [m]".toList) := by
  obtain ⟨a, rest, rfl⟩ := List.exists_cons_of_ne_nil hne
  refine ⟨fun h => ?_, fun h => ?_, fun h => ?_⟩
  · have ha := h a (by simp)
    unfold xLabelOf
    rw [if_neg, if_pos]
    · rw [List.all_eq_true]; intro s hs; simpa using h s hs
    · rw [List.all_eq_true]; intro hc; have := hc a (by simp); rw [ha] at this; simp at this
  · unfold xLabelOf
    rw [if_pos]
    rw [List.all_eq_true]; intro s hs; simpa using h s hs
  · unfold xLabelOf
    rw [if_neg, if_neg]
    · rw [List.all_eq_true]; intro hc; have := hc _ h.2; simp at this
    · rw [List.all_eq_true]; intro hc; have := hc _ h.1; simp at this

/-! ### C149: trajectories -/

theorem sel_zip {α β : Type} {a : List α} {b : List β} {p : List Nat} (hl : b.length = a.length) (h : InRange a.length p) :
    sel (a.zip b) p = (sel a p).zip (sel b p) := by
  induction p with
  | nil => rfl
  | cons i p ih =>
    have hi : i < a.length := h i (by simp)
    have hib : i < b.length := by omega
    have ih := ih (fun j hj => h j (by simp [hj]))
    unfold sel at *
    rw [List.filterMap_cons_some (List.getElem?_eq_getElem (by simp; omega)),
      List.filterMap_cons_some (List.getElem?_eq_getElem hi), List.filterMap_cons_some (List.getElem?_eq_getElem hib), ih,
      List.zip_cons_cons, List.getElem_zip]

/-- **C149**: the plot of the coordinates exists for all trajectories; it has for each of them three curves with its name,
and their points are the samples: for every sample the point of time or length and coordinate, in ascending order. -/
theorem C149_positions {argsort : List K → List Nat} (ha : IsArgsort argsort) {ts : List (Traj K R)}
    (hT : ∀ T ∈ ts, Coherent T) :
    ∃ label curves, xyzPlot argsort ts = .ok (label, curves.flatten) ∧ label = xLabelOf (ts.map (fun T => T.sorting)) ∧
      List.Forall₂ (fun T c => ∃ x ys, c = [⟨1, T.name.toList, x, (ys : List (V3 K)).map V3.x⟩, ⟨2, T.name.toList, x, ys.map V3.y⟩,
          (⟨3, T.name.toList, x, ys.map V3.z⟩ : Trace K)] ∧ x.Pairwise (· ≤ ·) ∧ x.length = ys.length ∧
          (x.zip ys).Perm ((abscissas T).zip T.pos)) ts curves := by
  unfold xyzPlot
  rw [mapE_ok (g := fun T : Traj K R => [⟨1, T.name.toList, npSort (abscissas T), (sel T.pos (T.sortingIndex argsort)).map V3.x⟩,
    ⟨2, T.name.toList, npSort (abscissas T), (sel T.pos (T.sortingIndex argsort)).map V3.y⟩,
    ⟨3, T.name.toList, npSort (abscissas T), (sel T.pos (T.sortingIndex argsort)).map V3.z⟩])]
  · refine ⟨_, _, rfl, rfl, forall₂_map_self ?_⟩
    intro T h
    have hp := sortingIndex_argsort ha T
    have hl := abscissas_length (hT T h)
    have hin : InRange T.pos.length (T.sortingIndex argsort) := by rw [(hT T h).pos, ← hl]; exact hp.inRange
    refine ⟨_, _, rfl, npSort_sorted _, ?_, ?_⟩
    · rw [npSort_length, sel_length hin, hp.length]
    · rw [← hp.sel, ← sel_zip (by rw [(hT T h).pos, hl]) hp.inRange]
      apply sel_perm_self
      rw [List.length_zip, (hT T h).pos, hl, min_self, ← hl]
      exact hp.1
  · intro T h
    rw [functionOf_sorted ha, xyz_sel ha (hT T h)]
    rfl

/-- **C149**, orientations: the same for roll, pitch and yaw in degrees of trajectories with orientations. -/
theorem C149_orientations {P : PlotLib K R} (ha : IsArgsort P.argsort) {ts : List (Traj K R)}
    (hT : ∀ T ∈ ts, Coherent T) (hrot : ∀ T ∈ ts, T.rot ≠ none) :
    ∃ label curves, rpyPlot P ts = .ok (label, curves.flatten) ∧ label = xLabelOf (ts.map (fun T => T.sorting)) ∧
      List.Forall₂ (fun T c => ∃ r x qs, T.rot = some r ∧
          c = [⟨1, T.name.toList, x, (qs : List R).map (fun q => P.deg (P.euler q).x)⟩,
            ⟨2, T.name.toList, x, qs.map (fun q => P.deg (P.euler q).y)⟩,
            (⟨3, T.name.toList, x, qs.map (fun q => P.deg (P.euler q).z)⟩ : Trace K)] ∧
          x.Pairwise (· ≤ ·) ∧ x.length = qs.length ∧ (x.zip qs).Perm ((abscissas T).zip r)) ts curves := by
  unfold rpyPlot
  rw [mapE_ok (g := fun T : Traj K R =>
    [⟨1, T.name.toList, npSort (abscissas T), (sel (T.rot.getD []) (T.sortingIndex P.argsort)).map (fun q => P.deg (P.euler q).x)⟩,
    ⟨2, T.name.toList, npSort (abscissas T), (sel (T.rot.getD []) (T.sortingIndex P.argsort)).map (fun q => P.deg (P.euler q).y)⟩,
    ⟨3, T.name.toList, npSort (abscissas T), (sel (T.rot.getD []) (T.sortingIndex P.argsort)).map (fun q => P.deg (P.euler q).z)⟩])]
  · refine ⟨_, _, rfl, rfl, forall₂_map_self ?_⟩
    intro T h
    have hp := sortingIndex_argsort ha T
    have hl := abscissas_length (hT T h)
    rcases hr : T.rot with _ | r
    · exact absurd hr (hrot T h)
    have hrl := (hT T h).rot r hr
    have hin : InRange r.length (T.sortingIndex P.argsort) := by rw [hrl, ← hl]; exact hp.inRange
    refine ⟨r, _, _, rfl, rfl, npSort_sorted _, ?_, ?_⟩
    · rw [npSort_length, Option.getD_some, sel_length hin, hp.length]
    · rw [← hp.sel, Option.getD_some, ← sel_zip (by rw [hrl, hl]) hp.inRange]
      apply sel_perm_self
      rw [List.length_zip, hrl, hl, min_self, ← hl]
      exact hp.1
  · intro T h
    have hp := sortingIndex_argsort ha T
    rcases hr : T.rot with _ | r
    · exact absurd hr (hrot T h)
    · have hq : T.quat P.argsort = .ok (some (sel r (T.sortingIndex P.argsort))) := by
        unfold Traj.quat
        rw [hr]
        simp only
        rw [take_eq (by rw [(hT T h).rot r hr, ← abscissas_length (hT T h)]; exact hp.inRange)]
        rfl
      rw [functionOf_sorted ha, hq, Option.getD_some]
      rfl

/-! ### C139: bars side by side -/
section
variable [IsStrictOrderedRing K]

theorem barWidth_pos {n : Nat} (h : 0 < n) : (0 : K) < barWidth n := by
  unfold barWidth
  have : (0 : K) < (n : K) := by exact_mod_cast h
  positivity

theorem barWidth_mul {n : Nat} (h : 0 < n) : barWidth n * (n : K) = 9 / 10 := by
  unfold barWidth
  have : (n : K) ≠ 0 := by exact_mod_cast (by omega : n ≠ 0)
  field_simp

/-- the middle of the bars of result `i` -/
theorem spacing_eq {n i : Nat} (hi : i < n) :
    (npLinspace (-(barWidth n * ((n : K) - 1) / 2)) (barWidth n * ((n : K) - 1) / 2) n)[i]?
      = some ((i : K) * barWidth n - barWidth n * ((n : K) - 1) / 2) := by
  unfold npLinspace
  rw [List.getElem?_map, List.getElem?_range hi]
  simp only [Option.map_some, Option.some.injEq]
  by_cases h1 : n = 1
  · rw [if_pos h1]
    have : i = 0 := by omega
    subst this h1
    push_cast; ring
  · rw [if_neg h1]
    have : (n : K) - 1 ≠ 0 := by
      rw [sub_ne_zero]
      exact_mod_cast h1
    field_simp
    ring

/-- a bar belongs to result `i` of `n` -/
def BarOf (n i : Nat) (b : PlacedBar K) : Prop :=
  b.left = (b.group : K) + ((i : K) * barWidth n - barWidth n * ((n : K) - 1) / 2) - barWidth n / 2 ∧ b.right = b.left + barWidth n

theorem placed_barOf {n i : Nat} {spacing : K} (hs : spacing = (i : K) * barWidth n - barWidth n * ((n : K) - 1) / 2) (name : Str)
    (data : List K) : ∀ b ∈ placed (barWidth n) spacing name data, BarOf n i b := by
  intro b hb
  unfold placed at hb
  obtain ⟨t, ht, rfl⟩ := List.mem_map.1 hb
  refine ⟨by rw [hs], ?_⟩
  simp only
  ring

theorem barOf_within {n i : Nat} (hi : i < n) {b : PlacedBar K} (h : BarOf n i b) :
    (b.group : K) - 9 / 20 ≤ b.left ∧ b.right ≤ (b.group : K) + 9 / 20 ∧ b.left < b.right := by
  have hp : (0 : K) < barWidth n := barWidth_pos (by omega)
  have hm : barWidth n * (n : K) = 9 / 10 := barWidth_mul (by omega)
  have hi' : (i : K) + 1 ≤ (n : K) := by exact_mod_cast hi
  have h0 : (0 : K) ≤ (i : K) := by positivity
  obtain ⟨h1, h2⟩ := h
  have h3 : 0 ≤ (i : K) * barWidth n := mul_nonneg h0 hp.le
  have h4 : ((i : K) + 1) * barWidth n ≤ (n : K) * barWidth n := mul_le_mul_of_nonneg_right hi' hp.le
  refine ⟨?_, ?_, by linarith⟩
  · rw [h1]; nlinarith
  · rw [h2, h1]; nlinarith

/-- the second bar is not drawn over the first -/
def Apart (b c : PlacedBar K) : Prop := b.right ≤ c.left ∨ c.right ≤ b.left

theorem apart_groups {n i j : Nat} (hi : i < n) (hj : j < n) {b c : PlacedBar K} (hb : BarOf n i b) (hc : BarOf n j c)
    (hg : b.group ≠ c.group) : Apart b c := by
  obtain ⟨h1, h2, h3⟩ := barOf_within hi hb
  obtain ⟨h4, h5, h6⟩ := barOf_within hj hc
  rcases Nat.lt_or_gt_of_ne hg with h | h
  · left
    have : (b.group : K) + 1 ≤ (c.group : K) := by exact_mod_cast h
    linarith
  · right
    have : (c.group : K) + 1 ≤ (b.group : K) := by exact_mod_cast h
    linarith

theorem apart_results {n i j : Nat} (hij : i < j) (hj : j < n) {b c : PlacedBar K} (hb : BarOf n i b) (hc : BarOf n j c) :
    Apart b c := by
  by_cases hg : b.group = c.group
  · left
    have hp : (0 : K) < barWidth n := barWidth_pos (by omega)
    have hij' : (i : K) + 1 ≤ (j : K) := by exact_mod_cast hij
    rw [hb.2, hb.1, hc.1, hg]
    nlinarith
  · exact apart_groups (by omega) hj hb hc hg

theorem placed_pairwise (n i : Nat) (hi : i < n) {spacing : K} (hs : spacing = (i : K) * barWidth n - barWidth n * ((n : K) - 1) / 2)
    (name : Str) (data : List K) : (placed (barWidth n) spacing name data).Pairwise Apart := by
  have hall := placed_barOf hs name data
  rw [List.pairwise_iff_getElem]
  intro a b ha hb hab
  apply apart_groups hi hi (hall _ (List.getElem_mem ha)) (hall _ (List.getElem_mem hb))
  simp only [placed, List.getElem_map, List.getElem_zipIdx]
  omega

/-- what one result contributes to the bars -/
theorem plotBars_inv {P : PlotLib K R} {s : MplSettings K} {mode : BarMode} {items : List (AteResult K R)} {bars : List (PlacedBar K)}
    (h : plotBars P s mode items = .ok bars) :
    ∃ groups : List (List (PlacedBar K)), bars = groups.flatten ∧ groups.length = items.length ∧
      ∀ (i : Nat) d, items[i]? = some d → ∃ g data, groups[i]? = some g ∧ barData P s mode d = .ok data ∧
        g = (match data with
          | some l => placed (barWidth items.length) ((i : K) * barWidth items.length - barWidth items.length * ((items.length : K) - 1) / 2)
              d.name.toList l
          | none => []) := by
  unfold plotBars at h
  simp only [bind, Except.bind] at h
  split_ifs at h with h0
  split at h
  · cases h
  rename_i groups hg
  cases h
  have hll : (npLinspace (-(barWidth items.length * ((items.length : K) - 1) / 2)) (barWidth items.length * ((items.length : K) - 1) / 2)
    items.length).length = items.length := by simp [npLinspace]
  refine ⟨groups, rfl, ?_, ?_⟩
  · rw [mapE_length hg, List.length_zip, hll, min_self]
  · intro i d hd
    have hi := (List.getElem?_eq_some_iff.1 hd).1
    obtain ⟨g, hg1, hg2⟩ := mapE_getElem? hg (i := i)
      (a := (d, (i : K) * barWidth items.length - barWidth items.length * ((items.length : K) - 1) / 2))
      (List.getElem?_zip_eq_some.2 ⟨hd, spacing_eq (K := K) hi⟩)
    simp only at hg1
    split at hg1
    · cases hg1
    · rename_i data hdata
      refine ⟨g, data, hg2, hdata, ?_⟩
      split at hg1 <;> cases hg1 <;> rfl

/-- **C139**: in the bar plot no bar covers another one, whatever the number of results; the bars of every characteristic stay
within nine twentieths of its tick. -/
theorem C139_bars_do_not_overlap {P : PlotLib K R} {s : MplSettings K} {mode : BarMode} {items : List (AteResult K R)}
    {bars : List (PlacedBar K)} (h : plotBars P s mode items = .ok bars) :
    bars.Pairwise Apart ∧ ∀ b ∈ bars, b.left < b.right ∧ (b.group : K) - 9 / 20 ≤ b.left ∧ b.right ≤ (b.group : K) + 9 / 20 := by
  obtain ⟨groups, rfl, hlen, hall⟩ := plotBars_inv h
  have key : ∀ (i : Nat) g, groups[i]? = some g → i < items.length ∧ g.Pairwise Apart ∧ ∀ b ∈ g, BarOf items.length i b := by
    intro i g hg
    have hi : i < items.length := by rw [← hlen]; exact (List.getElem?_eq_some_iff.1 hg).1
    obtain ⟨g', data, h1, h2, h3⟩ := hall i _ (List.getElem?_eq_getElem hi)
    rw [hg] at h1
    cases h1
    refine ⟨hi, ?_⟩
    rcases data with _ | l
    · rw [h3]; simp
    · simp only at h3
      subst h3
      exact ⟨placed_pairwise _ i hi rfl _ _, placed_barOf rfl _ _⟩
  constructor
  · rw [List.pairwise_flatten]
    constructor
    · intro g hg
      obtain ⟨i, hi⟩ := List.getElem?_of_mem hg
      exact (key i g hi).2.1
    · rw [List.pairwise_iff_getElem]
      intro i j hi hj hij b hb c hc
      exact apart_results hij (key j _ (List.getElem?_eq_getElem hj)).1
        ((key i _ (List.getElem?_eq_getElem hi)).2.2 b hb) ((key j _ (List.getElem?_eq_getElem hj)).2.2 c hc)
  · intro b hb
    obtain ⟨g, hg, hb⟩ := List.mem_flatten.1 hb
    obtain ⟨i, hi⟩ := List.getElem?_of_mem hg
    obtain ⟨h1, -, h3⟩ := key i g hi
    obtain ⟨h4, h5, h6⟩ := barOf_within h1 (h3 b hb)
    exact ⟨h6, h4, h5⟩

/-- **C139**, heights: result `i` has one bar for each characteristic, with its own name and statistics; in a plot of rotations
a result without orientations has none. -/
theorem C139_heights {P : PlotLib K R} {s : MplSettings K} {items : List (AteResult K R)}
    {bars : List (PlacedBar K)} (h : plotBars P s .positions items = .ok bars) :
    ∃ groups : List (List (PlacedBar K)), bars = groups.flatten ∧ List.Forall₂ (fun d g =>
      (∀ b ∈ g, b.name = d.name.toList) ∧ g.map PlacedBar.group = List.range 6 ∧
      ∃ lo hi m md rt sd, d.posDevMin P.eval = .ok lo ∧ d.posDevMax P.eval = .ok hi ∧ d.posAte P.eval = .ok m ∧
        d.posDevMedian P.eval = .ok md ∧ d.posDevRms P.eval = .ok rt ∧ d.posDevStd P.eval = .ok sd ∧
        characteristics.zip (g.map PlacedBar.height) =
          [("Min".toList, lo * unitFactor s), ("Max".toList, hi * unitFactor s), ("Mean".toList, m * unitFactor s),
           ("Median".toList, md * unitFactor s), ("RMS".toList, rt * unitFactor s), ("STD".toList, sd * unitFactor s)])
      items groups := by
  obtain ⟨groups, rfl, hlen, hall⟩ := plotBars_inv h
  refine ⟨groups, rfl, ?_⟩
  rw [List.forall₂_iff_get]
  refine ⟨hlen.symm, ?_⟩
  intro i hi hi'
  obtain ⟨g, data, h1, h2, h3⟩ := hall i _ (List.getElem?_eq_getElem hi)
  have hg : groups.get ⟨i, hi'⟩ = g := by
    rw [List.getElem?_eq_getElem hi'] at h1
    exact Option.some.inj h1
  rw [hg]
  have hd : items.get ⟨i, hi⟩ = items[i] := rfl
  rw [hd]
  generalize items[i] = d at *
  unfold barData at h2
  simp only [bind, Except.bind] at h2
  split at h2; · cases h2
  rename_i lo e1
  split at h2; · cases h2
  rename_i hi e2
  split at h2; · cases h2
  rename_i m e3
  split at h2; · cases h2
  rename_i md e4
  split at h2; · cases h2
  rename_i rt e5
  split at h2; · cases h2
  rename_i sd e6
  cases h2
  simp only at h3
  subst h3
  refine ⟨?_, rfl, lo, hi, m, md, rt, sd, e1, e2, e3, e4, e5, e6, rfl⟩
  intro b hb
  unfold placed at hb
  obtain ⟨t, ht, rfl⟩ := List.mem_map.1 hb
  rfl

/-- **C139**, heights of rotations: a result without orientations has no bars; every other result has one bar for each
characteristic, with its own name and the statistics of its rotations in degrees. -/
theorem C139_heights_of_rotations {P : PlotLib K R} {s : MplSettings K} {items : List (AteResult K R)}
    {bars : List (PlacedBar K)} (h : plotBars P s .rotations items = .ok bars) :
    ∃ groups : List (List (PlacedBar K)), bars = groups.flatten ∧ List.Forall₂ (fun d g =>
      (d.rotDev = none → g = []) ∧ (d.rotDev ≠ none →
      (∀ b ∈ g, b.name = d.name.toList) ∧ g.map PlacedBar.group = List.range 6 ∧
      ∃ lo hi m md rt sd, d.rotDevMin P.eval P.rot = .ok lo ∧ d.rotDevMax P.eval P.rot = .ok hi ∧ d.rotAte P.eval P.rot = .ok m ∧
        d.rotDevMedian P.eval P.rot = .ok md ∧ d.rotDevRms P.eval P.rot = .ok rt ∧ d.rotDevStd P.eval P.rot = .ok sd ∧
        characteristics.zip (g.map PlacedBar.height) =
          [("Min".toList, P.deg lo), ("Max".toList, P.deg hi), ("Mean".toList, P.deg m),
           ("Median".toList, P.deg md), ("RMS".toList, P.deg rt), ("STD".toList, P.deg sd)]))
      items groups := by
  obtain ⟨groups, rfl, hlen, hall⟩ := plotBars_inv h
  refine ⟨groups, rfl, ?_⟩
  rw [List.forall₂_iff_get]
  refine ⟨hlen.symm, ?_⟩
  intro i hi hi'
  obtain ⟨g, data, h1, h2, h3⟩ := hall i _ (List.getElem?_eq_getElem hi)
  have hg : groups.get ⟨i, hi'⟩ = g := by
    rw [List.getElem?_eq_getElem hi'] at h1
    exact Option.some.inj h1
  rw [hg]
  have hd : items.get ⟨i, hi⟩ = items[i] := rfl
  rw [hd]
  generalize items[i] = d at *
  unfold barData at h2
  simp only [bind, Except.bind] at h2
  split at h2
  · rename_i hr
    refine ⟨fun h0 => by simp [hasRot, h0] at hr, fun _ => ?_⟩
    split at h2; · cases h2
    rename_i lo e1
    split at h2; · cases h2
    rename_i hi e2
    split at h2; · cases h2
    rename_i m e3
    split at h2; · cases h2
    rename_i md e4
    split at h2; · cases h2
    rename_i rt e5
    split at h2; · cases h2
    rename_i sd e6
    cases h2
    simp only at h3
    subst h3
    refine ⟨?_, rfl, lo, hi, m, md, rt, sd, e1, e2, e3, e4, e5, e6, rfl⟩
    intro b hb
    unfold placed at hb
    obtain ⟨t, ht, rfl⟩ := List.mem_map.1 hb
    rfl
  · rename_i hr
    cases h2
    simp only at h3
    refine ⟨fun _ => h3, fun h0 => ?_⟩
    exact absurd (Option.isSome_iff_ne_none.2 h0) hr

/-- without results there is no plot, but a division by zero -/
theorem C139_no_results (P : PlotLib K R) (s : MplSettings K) (mode : BarMode) :
    plotBars P s mode [] = .error .zeroDivision := rfl

/-! ### C140: colours of positions -/

theorem mean_between {l : List K} (hne : l ≠ []) {lo hi : K} (h1 : ∀ x ∈ l, lo ≤ x) (h2 : ∀ x ∈ l, x ≤ hi) :
    lo ≤ l.sum / (l.length : K) ∧ l.sum / (l.length : K) ≤ hi := by
  have hp : (0 : K) < (l.length : K) := by exact_mod_cast List.length_pos_of_ne_nil hne
  exact ⟨(le_div_iff₀ hp).2 (mul_le_sum h1), (div_le_iff₀ hp).2 (sum_le_mul h2)⟩

variable [FloorRing K]

/-- the limits of the colours -/
def limits (s : MplSettings K) (lo hi m sd : K) : K × K :=
  if s.sigma = 0 then (lo, hi) else (max lo (m - s.sigma * sd), min hi (m + s.sigma * sd))

/-- a text at the colour bar: the number at its place, with a mark only at the ends -/
def TickText (lower upper : K) (e : K × Str) : Prop :=
  (e.1 = 0 ∧ e.2 = "0".toList) ∨ e.2 = fmtFixed 2 e.1 ∨ (e.1 = lower ∧ e.2 = "$\\leq$".toList ++ fmtFixed 2 e.1) ∨
    (e.1 = upper ∧ e.2 = "$\\geq$".toList ++ fmtFixed 2 e.1)

theorem mem_dictSet {β : Type} {d : List (K × β)} {k : K} {v : β} {e : K × β} (h : e ∈ dictSet d k v) : e = (k, v) ∨ e ∈ d := by
  unfold dictSet at h
  split_ifs at h
  · obtain ⟨e', h1, h2⟩ := List.mem_map.1 h
    split_ifs at h2
    · exact .inl h2.symm
    · exact .inr (h2 ▸ h1)
  · rcases List.mem_append.1 h with h | h
    · exact .inr h
    · exact .inl (by simpa using h)

theorem dictSet_keeps {β : Type} (d : List (K × β)) (k : K) (v : β) :
    k ∈ (dictSet d k v).map Prod.fst ∧ ∀ k' ∈ d.map Prod.fst, k' ∈ (dictSet d k v).map Prod.fst := by
  unfold dictSet
  split_ifs with h
  · have hk : ∀ l : List (K × β), (l.map (fun e => if e.1 = k then (k, v) else e)).map Prod.fst = l.map Prod.fst := by
      intro l
      rw [List.map_map]
      apply List.map_congr_left
      intro e _
      simp only [Function.comp]
      split_ifs with he
      · exact he.symm
      · rfl
    rw [hk]
    refine ⟨?_, fun _ h => h⟩
    rw [List.any_eq_true] at h
    obtain ⟨e, he, hek⟩ := h
    exact List.mem_map.2 ⟨e, he, by simpa using hek⟩
  · rw [List.map_append]
    exact ⟨by simp, fun k' hk => List.mem_append_left _ hk⟩

theorem tickAt_mem {lower upper : K} (h : lower ≤ upper) {steps i : Nat} (hs : steps ≠ 0) (hi : i ≤ steps) :
    lower ≤ tickAt lower |upper - lower| steps i ∧ tickAt lower |upper - lower| steps i ≤ upper ∧
      tickAt lower |upper - lower| steps 0 = lower ∧ tickAt lower |upper - lower| steps steps = upper := by
  have hp : (0 : K) < (steps : K) := by exact_mod_cast Nat.pos_of_ne_zero hs
  have hi' : (i : K) ≤ (steps : K) := by exact_mod_cast hi
  have h0 : (0 : K) ≤ (i : K) := by positivity
  unfold tickAt
  rw [abs_of_nonneg (sub_nonneg.2 h)]
  have h1 : (i : K) / (steps : K) ≤ 1 := (div_le_one hp).2 hi'
  have h2 : 0 ≤ (i : K) / (steps : K) := div_nonneg h0 hp.le
  refine ⟨?_, ?_, by simp, by rw [div_self hp.ne']; ring⟩
  · nlinarith [sub_nonneg.2 h]
  · nlinarith [sub_nonneg.2 h]

/-- **C140**, matplotlib: with values and a positive number of steps there is a colour bar.  Its limits are, with a sigma
factor, the mean plus and minus that many standard deviations, but not beyond the least and the greatest value; all colours are
between the limits and those that were there are not changed; all ticks are between the limits, and their texts are the numbers
at their places, marked as open ends only at the ends.  Unless zero is shown, both ends have ticks. -/
theorem C140_colour_bar (E : EvalLib K) (hE : ∀ x, 0 ≤ E.sqrt x) (s : MplSettings K) (hsig : 0 ≤ s.sigma) (hsteps : s.steps ≠ 0)
    {c : List K} (hne : c ≠ []) :
    ∃ b lo hi m sd, colourBar E s c = .ok b ∧ pyMin c = .ok lo ∧ pyMax c = .ok hi ∧ npMean c = .ok m ∧ npStd E c = .ok sd ∧
      (b.lower, b.upper) = limits s lo hi m sd ∧ b.lower ≤ b.upper ∧
      b.colours.length = c.length ∧ (∀ v ∈ b.colours, b.lower ≤ v ∧ v ≤ b.upper) ∧
      (∀ (i : Nat) v, c[i]? = some v → b.lower ≤ v → v ≤ b.upper → b.colours[i]? = some v) ∧
      (∀ e ∈ b.ticks, b.lower ≤ e.1 ∧ e.1 ≤ b.upper ∧ TickText b.lower b.upper e) ∧
      (¬ (b.lower < 0 ∧ 0 < b.upper ∧ s.showZero = true) →
        b.lower ∈ b.ticks.map Prod.fst ∧ b.upper ∈ b.ticks.map Prod.fst) ∧
      (b.lower < 0 ∧ 0 < b.upper ∧ s.showZero = true → (0 : K) ∈ b.ticks.map Prod.fst) := by
  obtain ⟨lo, hlo, hlo1, hlo2⟩ := pyMin_spec hne
  obtain ⟨hi, hhi, hhi1, hhi2⟩ := pyMax_spec hne
  have hm := npMean_ne hne
  have hsd := npStd_ne E hne
  set m := c.sum / (c.length : K) with hmdef
  obtain ⟨hlm, hmh⟩ := mean_between hne hlo2 hhi2
  have hsd0 := hE ((c.map (fun x => (x - m) ^ 2)).sum / (c.length : K))
  set sd := E.sqrt ((c.map (fun x => (x - m) ^ 2)).sum / (c.length : K)) with hsddef
  set lower := if s.sigma = 0 then lo else max lo (m - s.sigma * sd) with hlower
  set upper := if s.sigma = 0 then hi else min hi (m + s.sigma * sd) with hupper
  have hss : 0 ≤ s.sigma * sd := mul_nonneg hsig hsd0
  have hle : lower ≤ upper := by
    rw [hlower, hupper]
    split_ifs
    · exact hlo2 _ hhi1
    · rw [le_min_iff, max_le_iff, max_le_iff]
      exact ⟨⟨hlo2 _ hhi1, by linarith⟩, by linarith, by linarith⟩
  set ticks0 := (List.range (s.steps + 1)).foldl (fun d i => dictSet d (tickAt lower |upper - lower| s.steps i)
    (tickMark s.sigma s.steps i ++ fmtFixed 2 (tickAt lower |upper - lower| s.steps i))) [] with hticks0
  have inv : ∀ n ≤ s.steps + 1, ∀ t, t = (List.range n).foldl (fun d i => dictSet d (tickAt lower |upper - lower| s.steps i)
      (tickMark s.sigma s.steps i ++ fmtFixed 2 (tickAt lower |upper - lower| s.steps i))) ([] : List (K × Str)) →
      (∀ e ∈ t, lower ≤ e.1 ∧ e.1 ≤ upper ∧ TickText lower upper e) ∧
      ∀ i < n, tickAt lower |upper - lower| s.steps i ∈ t.map Prod.fst := by
    intro n
    induction n with
    | zero => intro _ t ht; subst ht; simp
    | succ n ih =>
      intro hn t ht
      rw [List.range_succ, List.foldl_append] at ht
      simp only [List.foldl_cons, List.foldl_nil] at ht
      obtain ⟨ih1, ih2⟩ := ih (by omega) _ rfl
      have hmem := tickAt_mem hle hsteps (show n ≤ s.steps by omega)
      have hk := dictSet_keeps ((List.range n).foldl (fun d i => dictSet d (tickAt lower |upper - lower| s.steps i)
        (tickMark s.sigma s.steps i ++ fmtFixed 2 (tickAt lower |upper - lower| s.steps i))) ([] : List (K × Str)))
        (tickAt lower |upper - lower| s.steps n)
        (tickMark s.sigma s.steps n ++ fmtFixed 2 (tickAt lower |upper - lower| s.steps n))
      rw [← ht] at hk
      refine ⟨?_, ?_⟩
      · intro e he
        rw [ht] at he
        rcases mem_dictSet he with rfl | he
        · refine ⟨hmem.1, hmem.2.1, ?_⟩
          unfold tickMark
          split_ifs with h1 h2 h3
          · exact .inr (.inl rfl)
          · subst h2; exact .inr (.inr (.inr ⟨hmem.2.2.2, rfl⟩))
          · subst h3; exact .inr (.inr (.inl ⟨hmem.2.2.1, rfl⟩))
          · exact .inr (.inl rfl)
        · exact ih1 e he
      · intro i hi
        rcases Nat.lt_succ_iff_lt_or_eq.1 hi with hi | rfl
        · exact hk.2 _ (ih2 i hi)
        · exact hk.1
  obtain ⟨inv1, inv2⟩ := inv (s.steps + 1) le_rfl ticks0 rfl
  set ticks := if lower < 0 ∧ 0 < upper ∧ s.showZero = true then
      dictSet (ticks0.filter (fun e => decide (1 / 2 / (s.steps : K) * |upper - lower| < |e.1|))) 0 "0".toList
    else ticks0 with hticks
  refine ⟨{ colours := c.map (fun v => min (max v lower) upper), lower := lower, upper := upper, ticks := ticks },
    lo, hi, m, sd, ?_, hlo, hhi, hm, hsd, ?_, hle, by simp, ?_, ?_, ?_, ?_, ?_⟩
  · unfold colourBar
    rw [hlo, hhi, hm, hsd]
    simp only [bind, Except.bind]
    rw [if_neg hsteps]
    rfl
  · simp only [limits, hlower, hupper]
    split_ifs <;> rfl
  · intro v hv
    obtain ⟨w, -, rfl⟩ := List.mem_map.1 hv
    exact ⟨le_min (le_max_right _ _) hle, min_le_right _ _⟩
  · intro i v hv h1 h2
    rw [List.getElem?_map, hv, Option.map_some, max_eq_left h1, min_eq_left h2]
  · intro e he
    simp only at he ⊢
    rw [hticks] at he
    split_ifs at he with hz
    · rcases mem_dictSet he with rfl | he
      · exact ⟨hz.1.le, hz.2.1.le, .inl ⟨rfl, rfl⟩⟩
      · exact inv1 e (List.mem_filter.1 he).1
    · exact inv1 e he
  · intro hz
    simp only at hz ⊢
    rw [hticks, if_neg hz]
    have hmem := tickAt_mem hle hsteps (Nat.zero_le s.steps)
    have h1 := inv2 0 (by omega)
    have h2 := inv2 s.steps (by omega)
    rw [hmem.2.2.1] at h1
    rw [hmem.2.2.2] at h2
    exact ⟨h1, h2⟩
  · intro hz
    simp only at hz ⊢
    rw [hticks, if_pos hz]
    exact (dictSet_keeps _ _ _).1

/-- **C140 is false of the code** for `scatter_deviations`: of the user's settings only the unit has an effect; the factor, the
number of steps and the choice about zero are ignored. -/
theorem C140_settings_ignored (P : PlotLib K R) (s s' : MplSettings K) (d : AteResult K R) (h : s.mm = s'.mm) :
    scatterDeviations P s d = scatterDeviations P s' d := by
  unfold scatterDeviations unitFactor
  rw [h]

/-- Whenever `scatter_deviations` returns, every deviation is shown at the position of its own sample, in whatever order the
samples are stored. -/
theorem C133_matplotlib_scatter {P : PlotLib K R} {s : MplSettings K} {d : AteResult K R} {l : List (ColouredPoints K)}
    (h : scatterDeviations P s d = .ok l) : ∀ p ∈ l, p.points = d.trajectory.pos.map (fun v => (v.x, v.y)) := by
  have hc : ∀ {E : EvalLib K} {s : MplSettings K} {pos : List (V3 K)} {c : List K} {t : Str} {p : ColouredPoints K},
      colouredScatter E s pos c t = .ok p → p.points = pos.map (fun v => (v.x, v.y)) := by
    intro E s pos c t p h
    unfold colouredScatter at h
    simp only [bind, Except.bind] at h
    split at h
    · cases h
    · cases h; rfl
  unfold scatterDeviations at h
  simp only [bind, Except.bind] at h
  split at h
  · cases h
  rename_i a ha
  split_ifs at h
  · split at h
    · cases h
    rename_i b hb
    cases h
    intro p hp
    simp only [List.mem_cons, List.not_mem_nil, or_false] at hp
    rcases hp with rfl | rfl
    · exact hc ha
    · exact hc hb
  · cases h
    intro p hp
    simp only [List.mem_cons, List.not_mem_nil, or_false] at hp
    subst hp
    exact hc ha

end

/-! ### Examples -/

/-- a result with two samples and orientations -/
def exFwd (name : String) (rot : Option (List Unit)) : AteResult ℚ Unit :=
  ⟨name, ⟨[0, 1], [⟨5, 0, 0⟩, ⟨6, 0, 0⟩], none, [0, 1], [0, 0], .time, "a", 0⟩,
    [⟨1, 0, 3⟩, ⟨2, 0, 4⟩], [⟨1, 0, 3⟩, ⟨0, 0, 4⟩], rot, false⟩

/-- the histogram `x` counts the deviations in height, the zeros in `y` are not counted at all -/
example : ((posHist mplDefaults (exFwd "a" none)).map (fun h => (h.label, h.values)))
    = [("x".toList, [3, 4]), ("y".toList, []), ("z".toList, [1, 2])] := by decide +kernel
example : ((exFwd "a" none).posDev.map V3.x).filter (fun x => decide (1 / 1000000 < |x|))
    ≠ ((exFwd "a" none).posDev.map V3.z).filter (fun x => decide (1 / 1000000 < |x|)) := by decide +kernel
example : FullResult (exFwd "a" (some [(), ()])) :=
  ⟨⟨rfl, rfl, rfl, by rintro r ⟨⟩⟩, rfl, rfl, by rintro r h; cases h; rfl⟩
example : (abscissas (exFwd "a" (some [(), ()])).trajectory).Pairwise (· < ·) ∧ (exFwd "a" (some [(), ()])).rotDev ≠ none ∧
    (exFwd "a" (some [(), ()])).trajectory.tstamps ≠ [] := by decide +kernel
example : (plotDeviations exPlotLib mplDefaults [exFwd "a" none]).toOption = none := by decide +kernel
/-- the second result has no orientations, but three curves in the second subplot -/
example : ((plotDeviations exPlotLib mplDefaults [exFwd "a" (some [(), ()]), exFwd "b" none]).map
    (fun f => (f.lines.map Line.row, f.legend.map (fun l => (l.1, l.2.y))))).toOption
    = some ([1, 1, 2, 2, 2, 2], [("a".toList, [3, 4]), ("b".toList, [3, 4])]) := by decide +kernel
/-- a result without samples -/
def exNothing (name : String) : AteResult ℚ Unit :=
  ⟨name, ⟨[], [], none, [], [], .time, "a", 0⟩, [], [], none, false⟩
example : FullResult (exNothing "a") := ⟨⟨rfl, rfl, rfl, by rintro r ⟨⟩⟩, rfl, rfl, by rintro r ⟨⟩⟩
/-- the deviations of `b` are called `a` -/
example : ((plotDeviations exPlotLib mplDefaults [exNothing "a", exFwd "b" (some [(), ()])]).map
    (fun f => f.legend.map (fun l => (l.1, l.2.row)))).toOption = some [("a".toList, 1), ("b".toList, 2)] := by decide +kernel
/-- deviations of a trajectory that was recorded backwards -/
example : (abscissas (exBack "a" none).trajectory).Nodup ∧ ¬ (abscissas (exBack "a" none).trajectory).Pairwise (· ≤ ·) ∧
    (exBack "a" none).trajectory.tstamps ≠ [] := by decide +kernel
/-- two results with bars of width 9/20 -/
example : ((plotBars exPlotLib mplDefaults .positions [exFwd "a" none, exFwd "b" none]).map
    (fun l => l.map (fun b => (b.left, b.right)))).toOption.map (fun l => (l.getD 0 (0, 0), l.getD 6 (0, 0)))
    = some ((-9 / 20, 0), (0, 9 / 20)) := by decide +kernel
/-- a colour bar from -2 to 2 with a tick at zero -/
example : ((colourBar exPlotLib.eval { (mplDefaults (K := ℚ)) with sigma := 0, steps := 2 } [-2, 0, (2 : ℚ)]).map
    (fun b => (b.lower, b.upper, b.ticks))).toOption
    = some (-2, 2, [(-2, "-2.00".toList), (2, "2.00".toList), (0, "0".toList)]) := by decide +kernel
example : (0 : ℚ) ≤ (mplDefaults (K := ℚ)).sigma ∧ (mplDefaults (K := ℚ)).steps ≠ 0 := by decide +kernel
/-- with a factor of 1 instead of the default 3 the colour bar would be another one -/
example : ((colourBar exPlotLib.eval { (mplDefaults (K := ℚ)) with sigma := 1 } [0, 0, (3 : ℚ)]).map (fun b => b.upper)).toOption
    ≠ ((colourBar exPlotLib.eval { (mplDefaults (K := ℚ)) with sigma := 1 / 2 } [0, 0, (3 : ℚ)]).map (fun b => b.upper)).toOption := by
  decide +kernel
/-- a trajectory with orientations, stored against its time stamps -/
def exTurnedBack : Traj ℚ Unit := ⟨[1, 0], [⟨5, 0, 0⟩, ⟨6, 0, 0⟩], some [(), ()], [0, 1], [0, 0], .time, "a", 0⟩
example : Coherent exTurnedBack ∧ exTurnedBack.rot = some [(), ()] :=
  ⟨⟨rfl, rfl, rfl, by rintro r h; cases h; rfl⟩, rfl⟩

end Plot
end TC
