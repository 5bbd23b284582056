import Verif.Spec.Plots
import Verif.Proofs.Perm
import Verif.Proofs.Eval
import Verif.Props.Report
/-!
# C133, C134, C135: curves in the plots of reports
-/
namespace TC
namespace Plot
set_option linter.unusedSectionVars false
variable {K R : Type} [Field K] [LinearOrder K]

/-! ### C133: deviations over their own sample -/

theorem abscissas_length {T : Traj K R} (h : Coherent T) : (abscissas T).length = T.tstamps.length := by
  unfold abscissas
  rcases hs : T.sorting
  · rfl
  · exact h.arc

theorem sortingIndex_argsort {argsort : List K → List Nat} (ha : IsArgsort argsort) (T : Traj K R) :
    IsArgsortOf (abscissas T) (T.sortingIndex argsort) := by
  unfold abscissas Traj.sortingIndex
  rcases hs : T.sorting
  · exact ha _
  · exact ha _

theorem functionOf_sorted {argsort : List K → List Nat} (ha : IsArgsort argsort) (T : Traj K R) :
    T.functionOf argsort = .ok (npSort (abscissas T)) := by
  have h := sortingIndex_argsort ha T
  have e : T.functionOf argsort = Traj.take (abscissas T) (T.sortingIndex argsort) := by
    unfold Traj.functionOf abscissas
    rcases hs : T.sorting <;> rfl
  rw [e, take_eq h.inRange, h.sel]

/-- the plots of deviations over time or arc length of one result -/
def LinePlot (P : PlotLib K R) (s : Names K) (d : AteResult K R) (f : Figure K) : Prop :=
  devComb1 P s d = .ok f ∨ devPos1 P s d = .ok f ∨ devRot1 P s d = .ok f

theorem combDevRot_some {P : PlotLib K R} {d : AteResult K R} {r : List R} (h : d.rotDev = some r) :
    combDevRot P d = .ok (r.map (fun q => P.deg (rotAngle P.eval (P.rot.toMat q)))) := by
  unfold combDevRot AteResult.rotDevComb
  rw [h]
  simp

theorem devComb1_eq {P : PlotLib K R} (ha : IsArgsort P.argsort) (s : Names K) (d : AteResult K R) :
    ∃ f, devComb1 P s d = .ok f ∧ (∀ t ∈ f.traces, t.x = npSort (abscissas d.trajectory)) ∧
      f.traces.map Trace.y = combined P d := by
  have hx : functionOf P d = .ok (npSort (abscissas d.trajectory)) := functionOf_sorted ha _
  rcases hr : d.rotDev with _ | r
  · refine ⟨_, by simp only [devComb1, hx, hasRot, hr]; rfl, ?_, ?_⟩
    · simp
    · simp [combined, hr]
  · refine ⟨_, by simp only [devComb1, hx, hasRot, hr, combDevRot_some hr]; rfl, ?_, ?_⟩
    · simp
    · simp [combined, hr]

theorem devPos1_eq {P : PlotLib K R} (ha : IsArgsort P.argsort) (s : Names K) (d : AteResult K R) :
    ∃ f, devPos1 P s d = .ok f ∧ (∀ t ∈ f.traces, t.x = npSort (abscissas d.trajectory)) ∧
      f.traces.map Trace.y = posDevs s d := by
  have hx : functionOf P d = .ok (npSort (abscissas d.trajectory)) := functionOf_sorted ha _
  refine ⟨_, by simp only [devPos1, hx]; rfl, ?_, ?_⟩
  · cases hd : s.directed <;> simp [three, posDevs, posDevNames, hd]
  · cases hd : s.directed <;> simp [three, posDevs, posDevNames, hd]

theorem devRot1_eq {P : PlotLib K R} (ha : IsArgsort P.argsort) (s : Names K) {d : AteResult K R} {r : List R}
    (hr : d.rotDev = some r) :
    ∃ f, devRot1 P s d = .ok f ∧ (∀ t ∈ f.traces, t.x = npSort (abscissas d.trajectory)) ∧
      f.traces.map Trace.y = rotComponents P d := by
  have hx : functionOf P d = .ok (npSort (abscissas d.trajectory)) := functionOf_sorted ha _
  refine ⟨_, by simp only [devRot1, hx, rotDevs, hr]; rfl, ?_, ?_⟩
  · simp [three]
  · simp [three, rotComponents, hr]

theorem linePlot_spec {P : PlotLib K R} (ha : IsArgsort P.argsort) {s : Names K} {d : AteResult K R} {f : Figure K}
    (h : LinePlot P s d f) :
    (∀ t ∈ f.traces, t.x = npSort (abscissas d.trajectory)) ∧
    (f.traces.map Trace.y = combined P d ∨ f.traces.map Trace.y = posDevs s d ∨
      (d.rotDev ≠ none ∧ f.traces.map Trace.y = rotComponents P d)) := by
  rcases h with h | h | h
  · obtain ⟨g, h1, h2, h3⟩ := devComb1_eq ha s d
    rw [h1] at h; cases h
    exact ⟨h2, .inl h3⟩
  · obtain ⟨g, h1, h2, h3⟩ := devPos1_eq ha s d
    rw [h1] at h; cases h
    exact ⟨h2, .inr (.inl h3)⟩
  · rcases hr : d.rotDev with _ | r
    · have hx : functionOf P d = .ok (npSort (abscissas d.trajectory)) := functionOf_sorted ha _
      simp only [devRot1, hx, rotDevs, hr] at h
      cases h
    · obtain ⟨g, h1, h2, h3⟩ := devRot1_eq ha s hr
      rw [h1] at h; cases h
      exact ⟨h2, .inr (.inr ⟨by simp, h3⟩)⟩

/-- What each line plot shows: its curves are the deviations of the result in the order in which they are stored, so that
value `k` of a curve belongs to sample `k`. -/
theorem C133_values {P : PlotLib K R} (ha : IsArgsort P.argsort) (s : Names K) (d : AteResult K R) :
    (∃ f, devComb1 P s d = .ok f ∧ f.traces.map Trace.y = combined P d) ∧
    (∃ f, devPos1 P s d = .ok f ∧ f.traces.map Trace.y = posDevs s d) ∧
    (∀ r, d.rotDev = some r → ∃ f, devRot1 P s d = .ok f ∧ f.traces.map Trace.y = rotComponents P d) := by
  refine ⟨?_, ?_, fun r hr => ?_⟩
  · obtain ⟨f, h1, -, h2⟩ := devComb1_eq ha s d; exact ⟨f, h1, h2⟩
  · obtain ⟨f, h1, -, h2⟩ := devPos1_eq ha s d; exact ⟨f, h1, h2⟩
  · obtain ⟨f, h1, -, h2⟩ := devRot1_eq ha s hr; exact ⟨f, h1, h2⟩

/-- **C133**, positive part: if the samples are stored in ascending order of the abscissa, every curve is drawn over the
abscissas of its own samples.
Missing for the full property: other orders, see `C133_unsorted_mispairs`. -/
theorem C133_ascending_partial {P : PlotLib K R} (ha : IsArgsort P.argsort) {s : Names K} {d : AteResult K R}
    (hs : (abscissas d.trajectory).Pairwise (· ≤ ·)) {f : Figure K} (h : LinePlot P s d f) :
    ∀ t ∈ f.traces, t.x = abscissas d.trajectory := by
  intro t ht
  rw [(linePlot_spec ha h).1 t ht, npSort_eq_self hs]

theorem exists_ne_of_ne {l m : List K} (hl : l.length = m.length) (h : l ≠ m) :
    ∃ (k : Nat) (a b : K), l[k]? = some a ∧ m[k]? = some b ∧ a ≠ b := by
  by_contra hc
  push Not at hc
  apply h
  apply List.ext_getElem hl
  intro k h1 h2
  exact hc k _ _ (List.getElem?_eq_getElem h1) (List.getElem?_eq_getElem h2)

theorem curve_length {P : PlotLib K R} (ha : IsArgsort P.argsort) {s : Names K} {d : AteResult K R} (hd : FullResult d)
    {f : Figure K} (h : LinePlot P s d f) : ∀ t ∈ f.traces, t.y.length = d.trajectory.tstamps.length := by
  intro t ht
  have hy := (linePlot_spec ha h).2
  have hm := List.mem_map_of_mem (f := Trace.y) ht
  rcases hy with e | e | ⟨-, e⟩
  · rw [e] at hm
    unfold combined at hm
    rcases hr : d.rotDev with _ | r
    · rw [hr] at hm
      simp only [List.mem_singleton] at hm
      rw [hm]; simpa [AteResult.posDevComb] using hd.pos
    · rw [hr] at hm
      simp only [List.mem_cons, List.not_mem_nil, or_false] at hm
      rcases hm with hm | hm
      · rw [hm]; simpa [AteResult.posDevComb] using hd.pos
      · rw [hm]; simpa using hd.rot r hr
  · rw [e] at hm
    unfold posDevs at hm
    split_ifs at hm <;>
    · simp only [List.mem_cons, List.not_mem_nil, or_false] at hm
      rcases hm with hm | hm | hm <;> rw [hm] <;> simp [hd.pos, hd.directed]
  · rw [e] at hm
    unfold rotComponents at hm
    rcases hr : d.rotDev with _ | r
    · rw [hr] at hm; simp at hm
    · rw [hr] at hm
      simp only [List.mem_cons, List.not_mem_nil, or_false] at hm
      have := hd.rot r hr
      rcases hm with hm | hm | hm <;> rw [hm] <;> simpa using this

/-- **C133 is false of the code**: the abscissas are sorted, the deviations are not.  For every result whose samples are
not stored in ascending order of the abscissa - any result of a spatially sorted trajectory that turns back, for example -
every curve of every line plot is drawn over wrong abscissas: some value `k` is not over the abscissa of sample `k`.  If
the values of the curve are different from each other, some sample's point is missing from the curve altogether. -/
theorem C133_unsorted_mispairs {P : PlotLib K R} (ha : IsArgsort P.argsort) {s : Names K} {d : AteResult K R}
    (hd : FullResult d) (hs : ¬ (abscissas d.trajectory).Pairwise (· ≤ ·)) {f : Figure K} (h : LinePlot P s d f) :
    ∀ t ∈ f.traces,
      (∃ (k : Nat) (a b v : K), t.x[k]? = some a ∧ t.y[k]? = some v ∧ (abscissas d.trajectory)[k]? = some b ∧ a ≠ b) ∧
      (t.y.Nodup → ∃ (k : Nat) (b v : K), t.y[k]? = some v ∧ (abscissas d.trajectory)[k]? = some b ∧ (b, v) ∉ t.x.zip t.y) := by
  intro t ht
  have hx := (linePlot_spec ha h).1 t ht
  have hne : npSort (abscissas d.trajectory) ≠ abscissas d.trajectory := fun e => hs (e ▸ npSort_sorted _)
  obtain ⟨k, a, b, h1, h2, h3⟩ := exists_ne_of_ne (npSort_length _) hne
  have hlen := curve_length ha hd h t ht
  have hk : k < t.y.length := by
    rw [hlen, ← abscissas_length hd.traj]
    exact (List.getElem?_eq_some_iff.1 h2).1
  refine ⟨⟨k, a, b, t.y[k], by rw [hx]; exact h1, List.getElem?_eq_getElem hk, h2, h3⟩, fun hnd => ?_⟩
  refine ⟨k, b, t.y[k], List.getElem?_eq_getElem hk, h2, fun hm => ?_⟩
  obtain ⟨j, hj⟩ := List.getElem?_of_mem hm
  rw [List.getElem?_zip_eq_some] at hj
  have hjl := (List.getElem?_eq_some_iff.1 hj.2).1
  have : t.y[j] = t.y[k] := by
    have := hj.2
    rw [List.getElem?_eq_getElem hjl] at this
    exact Option.some.inj this
  have hjk : j = k := (List.Nodup.getElem_inj_iff hnd).1 this
  subst hjk
  rw [hx, h1] at hj
  exact h3 (Option.some.inj hj.1)

/-! the scatter plots -/

theorem argsort_strict {l : List K} {p : List Nat} (h : IsArgsortOf l p) (hs : l.Pairwise (· < ·)) :
    p = List.range l.length := by
  apply eq_range_of_sorted h.1
  rw [List.pairwise_iff_getElem]
  intro i j hi hj hij
  have h2 := h.2
  rw [show p.filterMap (fun i => l[i]?) = sel l p from rfl, List.pairwise_iff_getElem] at h2
  have hlen := sel_length h.inRange
  have := h2 i j (by omega) (by omega) hij
  have e : ∀ (k : Nat) (hk : k < p.length), (sel l p)[k]'(by omega) = l[p[k]]'(h.inRange _ (List.getElem_mem hk)) := by
    intro k hk
    have := sel_getElem? h.inRange k
    rw [List.getElem?_eq_getElem (by omega : k < (sel l p).length), List.getElem?_eq_getElem hk] at this
    simp only [Option.bind_some] at this
    rw [List.getElem?_eq_getElem (h.inRange _ (List.getElem_mem hk))] at this
    exact Option.some.inj this
  rw [e i hi, e j hj] at this
  by_contra hc
  rw [not_le] at hc
  exact absurd (List.pairwise_iff_getElem.1 hs _ _ (h.inRange _ (List.getElem_mem hj)) (h.inRange _ (List.getElem_mem hi)) hc)
    (not_lt.2 this)

theorem xyz_sel {argsort : List K → List Nat} (ha : IsArgsort argsort) {T : Traj K R} (hT : Coherent T) :
    T.xyz argsort = .ok (sel T.pos (T.sortingIndex argsort)) := by
  have h := sortingIndex_argsort ha T
  apply take_eq
  rw [hT.pos, ← abscissas_length hT]
  exact h.inRange

theorem scatter_inv {E : EvalLib K} {s : Names K} {labels : List Str} {pos : List (V3 K)} {colours : List K}
    {t bt : Str} {c : Cloud K} (h : scatter E s labels pos colours t bt = .ok c) :
    ∃ idx, mapE Geo.axisIndex s.axisOrder = .ok idx ∧ (idx.length = 2 ∨ idx.length = 3) ∧
      c.points = pos.map (fun v => idx.map (fun i => Geo.coordinate i v)) ∧ c.colours = colours ∧
      c.labels = idx.map (fun i => labels.getD i []) ∧ c.title = t ∧ c.barTitle = bt ∧
      markerRange E s.maxStd colours = .ok (c.lower, c.upper) := by
  unfold scatter at h
  rcases hr : markerRange E s.maxStd colours with e | r
  · rw [hr] at h; cases h
  rcases hi : mapE Geo.axisIndex s.axisOrder with e | idx
  · rw [hr, hi] at h; cases h
  rw [hr, hi] at h
  simp only [bind, Except.bind] at h
  split_ifs at h with hl
  · cases h
    exact ⟨idx, rfl, hl, rfl, rfl, rfl, rfl, rfl, rfl⟩

/-- the plots of deviations as colours of the positions of one result -/
def ScatterPlot (P : PlotLib K R) (s : Names K) (labels : List Str) (d : AteResult K R) (c : Cloud K) : Prop :=
  posDevCloud P s labels d = .ok c ∨ (∃ i, posDevCloudOf i P s labels d = .ok c) ∨ rotDevCloud P s labels d = .ok c

theorem scatterPlot_points {P : PlotLib K R} (ha : IsArgsort P.argsort) {s : Names K} {labels : List Str}
    {d : AteResult K R} (hd : FullResult d) {c : Cloud K} (h : ScatterPlot P s labels d c) :
    ∃ idx, mapE Geo.axisIndex s.axisOrder = .ok idx ∧
      c.points = (sel d.trajectory.pos (d.trajectory.sortingIndex P.argsort)).map
        (fun v => idx.map (fun i => Geo.coordinate i v)) := by
  have hx := xyz_sel ha hd.traj
  rcases h with h | ⟨i, h⟩ | h
  · simp only [posDevCloud, hx, bind, Except.bind] at h
    obtain ⟨idx, h1, -, h2, -⟩ := scatter_inv h
    exact ⟨idx, h1, h2⟩
  · simp only [posDevCloudOf, hx, bind, Except.bind] at h
    obtain ⟨idx, h1, -, h2, -⟩ := scatter_inv h
    exact ⟨idx, h1, h2⟩
  · rcases hc : combDevRot P d with e | r
    · simp only [rotDevCloud, hc, bind, Except.bind] at h; cases h
    · simp only [rotDevCloud, hc, hx, bind, Except.bind] at h
      obtain ⟨idx, h1, -, h2, -⟩ := scatter_inv h
      exact ⟨idx, h1, h2⟩

/-- **C133**, positive part for the scatter plots: samples stored in strictly ascending order of the abscissa are coloured
at their own positions. -/
theorem C133_scatter_partial {P : PlotLib K R} (ha : IsArgsort P.argsort) {s : Names K} {labels : List Str}
    {d : AteResult K R} (hd : FullResult d) (hs : (abscissas d.trajectory).Pairwise (· < ·)) {c : Cloud K}
    (h : ScatterPlot P s labels d c) :
    ∃ idx, mapE Geo.axisIndex s.axisOrder = .ok idx ∧
      c.points = d.trajectory.pos.map (fun v => idx.map (fun i => Geo.coordinate i v)) := by
  obtain ⟨idx, h1, h2⟩ := scatterPlot_points ha hd h
  refine ⟨idx, h1, ?_⟩
  rw [h2, argsort_strict (sortingIndex_argsort ha _) hs, abscissas_length hd.traj, ← hd.traj.pos, sel_range]

/-- **C133 is false of the code**, scatter plots: if the samples are not stored in ascending order of the abscissa, some
colour `k`, which is the deviation of sample `k`, is drawn at the position of another sample. -/
theorem C133_scatter_mispairs {P : PlotLib K R} (ha : IsArgsort P.argsort) {s : Names K} {labels : List Str}
    {d : AteResult K R} (hd : FullResult d) (hs : ¬ (abscissas d.trajectory).Pairwise (· ≤ ·)) {c : Cloud K}
    (h : ScatterPlot P s labels d c) :
    ∃ (idx : List Nat) (k j : Nat) (v : V3 K), mapE Geo.axisIndex s.axisOrder = .ok idx ∧ k < d.trajectory.tstamps.length ∧ j ≠ k ∧
      d.trajectory.pos[j]? = some v ∧ c.points[k]? = some (idx.map (fun i => Geo.coordinate i v)) := by
  obtain ⟨idx, h1, h2⟩ := scatterPlot_points ha hd h
  have hp := sortingIndex_argsort ha d.trajectory
  have hlen := abscissas_length hd.traj
  have hne : d.trajectory.sortingIndex P.argsort ≠ List.range (abscissas d.trajectory).length := by
    intro e
    have h2 := hp.sel
    rw [e, sel_range] at h2
    apply hs
    rw [h2]
    exact npSort_sorted _
  have hpl := hp.length
  have hdiff : ∃ (k : Nat) (hk : k < (d.trajectory.sortingIndex P.argsort).length),
      (d.trajectory.sortingIndex P.argsort)[k] ≠ k := by
    by_contra hc
    push Not at hc
    apply hne
    apply List.ext_getElem (by rw [hpl, List.length_range])
    intro k hk _
    rw [hc k hk, List.getElem_range]
  obtain ⟨k, hk, hkj⟩ := hdiff
  have hj : (d.trajectory.sortingIndex P.argsort)[k] < d.trajectory.pos.length := by
    rw [hd.traj.pos, ← hlen]
    exact hp.inRange _ (List.getElem_mem hk)
  refine ⟨idx, k, _, d.trajectory.pos[(d.trajectory.sortingIndex P.argsort)[k]], h1, by omega, hkj,
    List.getElem?_eq_getElem hj, ?_⟩
  rw [h2, List.getElem?_map, sel_getElem?, List.getElem?_eq_getElem hk]
  · simp only [Option.bind_some, List.getElem?_eq_getElem hj, Option.map_some]
  · rw [hd.traj.pos, ← hlen]
    exact hp.inRange

/-! ### C134: names in plots of several results -/

theorem mem_ownCurves {x : List K} {name : Str} {ys : List (List K)} {t : Trace K} :
    t ∈ curves x name (ys.map some) ↔ ∃ i y, ys[i]? = some y ∧ t = { row := i + 1, name := name, x := x, y := y } := by
  unfold curves
  simp only [List.mem_filterMap, Option.map_eq_some_iff, Prod.exists, List.mem_zipIdx_iff_getElem?, List.getElem?_map]
  constructor
  · rintro ⟨o, i, ⟨y, h1, rfl⟩, y', h2, rfl⟩
    cases h2
    exact ⟨i, y, h1, rfl⟩
  · rintro ⟨i, y, h1, rfl⟩
    exact ⟨some y, i, ⟨y, h1, rfl⟩, y, rfl, rfl⟩

theorem curves_append {x : List K} {name : Str} (ys : List (Option (List K))) :
    curves x name (ys ++ [none]) = curves x name ys := by
  unfold curves
  rw [List.zipIdx_append]
  simp

theorem curves_some (x : List K) (name : Str) (ys : List (List K)) :
    curves x name (ys.map some) = ys.zipIdx.map (fun yi => { row := yi.2 + 1, name := name, x := x, y := yi.1 }) := by
  unfold curves
  rw [List.zipIdx_map, List.filterMap_map]
  rw [← List.filterMap_eq_map]
  rfl

theorem ownCurves_curves {P : PlotLib K R} (ha : IsArgsort P.argsort) (d : AteResult K R) (ys : List (List K)) :
    OwnCurves P d ys (curves (npSort (abscissas d.trajectory)) (Report.shortName d) (ys.map some)) := by
  refine ⟨_, functionOf_sorted ha _, ?_, ?_⟩
  · rw [curves_some, List.length_map, List.length_zipIdx]
  · intro i y hy
    rw [curves_some, List.getElem?_map, List.getElem?_zipIdx, hy]
    simp

theorem forall₂_map_self {α β : Type} {p : α → β → Prop} {g : α → β} {l : List α} (h : ∀ a ∈ l, p a (g a)) :
    List.Forall₂ p l (l.map g) := by
  induction l with
  | nil => exact .nil
  | cons a l ih => exact .cons (h a (by simp)) (ih (fun b hb => h b (by simp [hb])))

theorem zip3_map {α β γ δ : Type} (f : α → β) (g : α → γ) (h : α → δ) (l : List α) :
    (l.map f).zip ((l.map g).zip (l.map h)) = l.map (fun a => (f a, g a, h a)) := by
  induction l with
  | nil => rfl
  | cons a l ih => simp [ih]

theorem xs_eq {P : PlotLib K R} (ha : IsArgsort P.argsort) (items : List (AteResult K R)) :
    mapE (functionOf P) items = .ok (items.map (fun d => npSort (abscissas d.trajectory))) :=
  mapE_ok (fun _ _ => functionOf_sorted ha _)

theorem combDevRot_none {P : PlotLib K R} {d : AteResult K R} (h : d.rotDev = none) :
    combDevRot P d = .error .valueError := by
  unfold combDevRot; rw [h]

/-- **C134**, position and angle: the figure exists for every list of results, and its curves are those of each result,
over its own abscissas, under its own name, in the order of the list. -/
theorem C134_combined {P : PlotLib K R} (ha : IsArgsort P.argsort) (s : Names K) {items : List (AteResult K R)}
    (hne : items ≠ []) : ∃ f, devCombPlot P s items = .ok f ∧ ShowsOwn P (combined P) items f.traces := by
  obtain ⟨d0, rest, rfl⟩ := List.exists_cons_of_ne_nil hne
  rcases hany : (d0 :: rest).any hasRot with _ | _
  · have hr : ∀ d ∈ d0 :: rest, d.rotDev = none := by
      intro d hd
      have := List.any_eq_false.1 hany d hd
      simpa [hasRot] using this
    have e : devCombPlot P s (d0 :: rest) = .ok
        { xLabel := functionOfLabel d0, yLabels := [bracket (ateUnit s)],
          traces := (((d0 :: rest).map (fun d => npSort (abscissas d.trajectory))).zip
            (((d0 :: rest).map (fun d => [some (d.posDevComb P.eval)])).zip ((d0 :: rest).map Report.shortName))).flatMap
              (fun t => curves t.1 t.2.2 t.2.1) } := by
      unfold devCombPlot
      rw [hany, xs_eq ha]
      simp only [first, bind, Except.bind]
      rw [mapE_ok (g := fun d : AteResult K R => [some (d.posDevComb P.eval)])]
      · rfl
      · intro d _; rfl
    refine ⟨_, e, ?_⟩
    rw [zip3_map, List.flatMap_map]
    refine ⟨_, rfl, forall₂_map_self ?_⟩
    intro d hd
    have := ownCurves_curves ha d (combined P d)
    simp only [combined, hr d hd] at this ⊢
    exact this
  · have e : devCombPlot P s (d0 :: rest) = .ok
        { xLabel := functionOfLabel d0, yLabels := [bracket (ateUnit s), bracket s.rotUnit],
          traces := (((d0 :: rest).map (fun d => npSort (abscissas d.trajectory))).zip
            (((d0 :: rest).map (fun d => [some (d.posDevComb P.eval), d.rotDev.map
              (fun r => r.map (fun q => P.deg (rotAngle P.eval (P.rot.toMat q))))])).zip
              ((d0 :: rest).map Report.shortName))).flatMap
              (fun t => curves t.1 t.2.2 t.2.1) } := by
      unfold devCombPlot
      rw [hany, xs_eq ha]
      simp only [first, bind, Except.bind]
      rw [mapE_ok (g := fun d : AteResult K R => [some (d.posDevComb P.eval), d.rotDev.map
              (fun r => r.map (fun q => P.deg (rotAngle P.eval (P.rot.toMat q))))])]
      · rfl
      · intro d _
        rcases hr : d.rotDev with _ | r
        · simp only [hasRot, hr]; rfl
        · simp only [hasRot, hr, combDevRot_some hr]; rfl
    refine ⟨_, e, ?_⟩
    rw [zip3_map, List.flatMap_map]
    refine ⟨_, rfl, forall₂_map_self ?_⟩
    intro d hd
    have := ownCurves_curves ha d (combined P d)
    rcases hr : d.rotDev with _ | r
    · simp only [combined, hr, List.map_cons, List.map_nil] at this ⊢
      simp only [Option.map_none]
      rw [show [some (d.posDevComb P.eval), none] = [some (d.posDevComb P.eval)] ++ [none] from rfl, curves_append]
      exact this
    · simp only [combined, hr] at this ⊢
      exact this

/-- **C134**, the three components of the position deviation -/
theorem C134_position {P : PlotLib K R} (ha : IsArgsort P.argsort) (s : Names K) {items : List (AteResult K R)}
    (hne : items ≠ []) : ∃ f, devPosPlot P s items = .ok f ∧ ShowsOwn P (posDevs s) items f.traces := by
  obtain ⟨d0, rest, rfl⟩ := List.exists_cons_of_ne_nil hne
  have hl : ((posDevNames s).map (fun n => withUnit n (ateUnit s))).length = 3 := by
    unfold posDevNames; cases s.directed <;> rfl
  have e : devPosPlot P s (d0 :: rest) = .ok
      { xLabel := functionOfLabel d0, yLabels := (posDevNames s).map (fun n => withUnit n (ateUnit s)),
        traces := (((d0 :: rest).map (fun d => npSort (abscissas d.trajectory))).zip
          (((d0 :: rest).map (fun d => (posDevs s d).map some)).zip ((d0 :: rest).map Report.shortName))).flatMap
            (fun t => curves t.1 t.2.2 t.2.1) } := by
    unfold devPosPlot
    rw [xs_eq ha]
    simp only [first, bind, Except.bind, sharedX]
    rw [if_pos (by omega)]
  refine ⟨_, e, ?_⟩
  rw [zip3_map, List.flatMap_map]
  exact ⟨_, rfl, forall₂_map_self (fun d _ => ownCurves_curves ha d (posDevs s d))⟩

theorem rotDevs_some {P : PlotLib K R} {d : AteResult K R} (h : hasRot d = true) : rotDevs P d = .ok (rotComponents P d) := by
  unfold rotDevs rotComponents
  unfold hasRot at h
  rcases hr : d.rotDev with _ | r
  · rw [hr] at h; cases h
  · rfl

theorem devRotPlot_eq {P : PlotLib K R} (ha : IsArgsort P.argsort) (s : Names K) {items : List (AteResult K R)}
    (hne : items ≠ []) : ∃ f, devRotPlot P s items = .ok f ∧
      f.traces = ((items.map (fun d => npSort (abscissas d.trajectory))).zip
        (((items.filter hasRot).map (fun d => (rotComponents P d).map some)).zip (items.map Report.shortName))).flatMap
          (fun t => curves t.1 t.2.2 t.2.1) := by
  obtain ⟨d0, rest, rfl⟩ := List.exists_cons_of_ne_nil hne
  unfold devRotPlot
  rw [xs_eq ha, mapE_ok (f := rotDevs P) (g := rotComponents P)]
  · refine ⟨_, rfl, ?_⟩
    simp only [List.map_map]
    rfl
  · intro d hd
    exact rotDevs_some (List.mem_filter.1 hd).2

/-- **C134**, positive part for the three components of the rotation deviation: if the results with orientations come first
in the list, their curves have the right names and abscissas.
Missing for the full property: other orders, see `C134_rotation_mispairs`. -/
theorem C134_rotation_partial {P : PlotLib K R} (ha : IsArgsort P.argsort) (s : Names K)
    {items without : List (AteResult K R)} (h1 : ∀ d ∈ items, d.rotDev ≠ none) (h2 : ∀ d ∈ without, d.rotDev = none)
    (hne : items ++ without ≠ []) :
    ∃ f, devRotPlot P s (items ++ without) = .ok f ∧ ShowsOwn P (rotComponents P) (items ++ without) f.traces := by
  obtain ⟨f, e, hf⟩ := devRotPlot_eq ha s hne
  refine ⟨f, e, ?_⟩
  have hfil : (items ++ without).filter hasRot = items := by
    rw [List.filter_append, List.filter_eq_self.2, List.filter_eq_nil_iff.2, List.append_nil]
    · intro d hd; simp [hasRot, h2 d hd]
    · intro d hd
      rcases hr : d.rotDev with _ | r
      · exact absurd hr (h1 d hd)
      · simp [hasRot, hr]
  rw [hfil] at hf
  have hz : ((items ++ without).map (fun d => npSort (abscissas d.trajectory))).zip
        ((items.map (fun d => (rotComponents P d).map some)).zip ((items ++ without).map Report.shortName))
      = items.map (fun d => (npSort (abscissas d.trajectory), (rotComponents P d).map some, Report.shortName d)) := by
    rw [List.map_append, List.map_append]
    have : (items.map (fun d => (rotComponents P d).map some)).zip
        (items.map Report.shortName ++ without.map Report.shortName)
        = (items.map (fun d => (rotComponents P d).map some)).zip (items.map Report.shortName) := by
      have := List.zip_append (l₁ := items.map (fun d => (rotComponents P d).map some)) (r₁ := ([] : List (List (Option (List K)))))
        (l₂ := items.map Report.shortName) (r₂ := without.map Report.shortName) (by simp)
      simpa using this
    rw [this]
    have h3 := List.zip_append (l₁ := items.map (fun d => npSort (abscissas d.trajectory)))
      (r₁ := without.map (fun d => npSort (abscissas d.trajectory)))
      (l₂ := (items.map (fun d => (rotComponents P d).map some)).zip (items.map Report.shortName))
      (r₂ := []) (by simp)
    rw [List.append_nil] at h3
    rw [h3, zip3_map]
    simp
  rw [hz, List.flatMap_map] at hf
  refine ⟨items.map (fun d => curves (npSort (abscissas d.trajectory)) (Report.shortName d) ((rotComponents P d).map some))
    ++ without.map (fun _ => []), ?_, ?_⟩
  · rw [hf, List.flatten_append]
    simp [List.flatMap]
  · apply List.rel_append
    · exact forall₂_map_self (fun d _ => ownCurves_curves ha d (rotComponents P d))
    · apply forall₂_map_self
      intro d hd
      refine ⟨_, functionOf_sorted ha _, ?_, ?_⟩
      · simp [rotComponents, h2 d hd]
      · intro i y hy
        simp [rotComponents, h2 d hd] at hy

/-- **C134 is false of the code** for the rotation deviations: whenever a result without orientations comes before one with
orientations, some result without orientations gives its name and its abscissas to the curves of a later one. -/
theorem C134_rotation_mispairs {P : PlotLib K R} (ha : IsArgsort P.argsort) (s : Names K)
    {before after : List (AteResult K R)} {d : AteResult K R} (hd : d.rotDev = none) (hafter : ∃ e ∈ after, e.rotDev ≠ none) :
    ∃ f before' d' after' e, devRotPlot P s (before ++ d :: after) = .ok f ∧
      before ++ d :: after = before' ++ d' :: after' ∧ d'.rotDev = none ∧ e ∈ after' ∧ e.rotDev ≠ none ∧
      (rotComponents P e).length = 3 ∧
      ∀ (i : Nat) y, (rotComponents P e)[i]? = some y →
        { row := i + 1, name := Report.shortName d', x := npSort (abscissas d'.trajectory), y := y } ∈ f.traces := by
  have hsplit : ∃ before' d' after', before ++ d :: after = before' ++ d' :: after' ∧ (∀ b ∈ before', b.rotDev ≠ none) ∧
      d'.rotDev = none ∧ ∃ e ∈ after', e.rotDev ≠ none := by
    induction before with
    | nil => exact ⟨[], d, after, rfl, by simp, hd, hafter⟩
    | cons b before ih =>
      rcases hb : b.rotDev with _ | r
      · obtain ⟨e, he, hr⟩ := hafter
        exact ⟨[], b, before ++ d :: after, rfl, by simp, hb, e, by simp [he], hr⟩
      · obtain ⟨b', d', a', h1, h2, h3, h4⟩ := ih
        refine ⟨b :: b', d', a', by rw [List.cons_append, h1]; rfl, ?_, h3, h4⟩
        intro c hc
        rcases List.mem_cons.1 hc with rfl | hc
        · rw [hb]; simp
        · exact h2 c hc
  obtain ⟨b', d', a', h1, h2, h3, e0, he0, hr0⟩ := hsplit
  obtain ⟨f, e, hf⟩ := devRotPlot_eq ha s (items := before ++ d :: after) (by simp)
  have hfil : (before ++ d :: after).filter hasRot = b' ++ a'.filter hasRot := by
    rw [h1, List.filter_append, List.filter_eq_self.2, List.filter_cons_of_neg]
    · simp [hasRot, h3]
    · intro c hc
      rcases hr : c.rotDev with _ | r
      · exact absurd hr (h2 c hc)
      · simp [hasRot, hr]
  have hmem : e0 ∈ a'.filter hasRot := by
    rw [List.mem_filter]
    refine ⟨he0, ?_⟩
    rcases hr : e0.rotDev with _ | r
    · exact absurd hr hr0
    · simp [hasRot, hr]
  obtain ⟨e1, rest, hrest⟩ := List.exists_cons_of_ne_nil (List.ne_nil_of_mem hmem)
  have he1 : e1 ∈ a'.filter hasRot := by rw [hrest]; simp
  have hr1 : e1.rotDev ≠ none := by
    have := (List.mem_filter.1 he1).2
    intro hn
    simp [hasRot, hn] at this
  refine ⟨f, b', d', a', e1, e, h1, h3, (List.mem_filter.1 he1).1, hr1, ?_, ?_⟩
  · unfold rotComponents
    rcases hr : e1.rotDev with _ | r
    · exact absurd hr hr1
    · rfl
  · intro i y hy
    rw [hf, hfil, hrest, h1, List.mem_flatMap]
    refine ⟨(npSort (abscissas d'.trajectory), (rotComponents P e1).map some, Report.shortName d'), ?_, ?_⟩
    · rw [List.mem_iff_getElem?]
      refine ⟨b'.length, ?_⟩
      rw [List.getElem?_zip_eq_some, List.getElem?_zip_eq_some]
      simp
    · exact mem_ownCurves.2 ⟨i, y, hy, rfl⟩

/-- In particular the figure does not show each result's own curves, if the results have different names. -/
theorem C134_rotation_false {P : PlotLib K R} (ha : IsArgsort P.argsort) (s : Names K)
    {before after : List (AteResult K R)} {d : AteResult K R} (hd : d.rotDev = none) (hafter : ∃ e ∈ after, e.rotDev ≠ none)
    (hnames : ((before ++ d :: after).map Report.shortName).Nodup) :
    ∃ f, devRotPlot P s (before ++ d :: after) = .ok f ∧ ¬ ShowsOwn P (rotComponents P) (before ++ d :: after) f.traces := by
  obtain ⟨f, b', d', a', e, h1, h2, h3, h4, h5, h6, h7⟩ := C134_rotation_mispairs ha s hd hafter
  refine ⟨f, h1, ?_⟩
  rintro ⟨tss, ht, hall⟩
  obtain ⟨y, hy⟩ : ∃ y, (rotComponents P e)[0]? = some y := ⟨_, List.getElem?_eq_getElem (by omega)⟩
  have hm := h7 0 y hy
  rw [ht, List.mem_flatten] at hm
  obtain ⟨ts, hts, hm⟩ := hm
  obtain ⟨k, hk⟩ := List.getElem?_of_mem hts
  have hkl : k < (before ++ d :: after).length := by
    rw [hall.length_eq]; exact (List.getElem?_eq_some_iff.1 hk).1
  have hown := (List.forall₂_iff_get.1 hall).2 k hkl (List.getElem?_eq_some_iff.1 hk).1
  have hk' : tss.get ⟨k, (List.getElem?_eq_some_iff.1 hk).1⟩ = ts := by
    simpa using (List.getElem?_eq_some_iff.1 hk).2
  rw [hk'] at hown
  obtain ⟨x, hx, hlen, hown⟩ := hown
  obtain ⟨i, hi⟩ := List.getElem?_of_mem hm
  have hil : i < (rotComponents P ((before ++ d :: after).get ⟨k, hkl⟩)).length := by
    rw [← hlen]; exact (List.getElem?_eq_some_iff.1 hi).1
  have := hown i _ (List.getElem?_eq_getElem hil)
  rw [hi] at this
  have hname : Report.shortName d' = Report.shortName ((before ++ d :: after).get ⟨k, hkl⟩) := by
    have := Option.some.inj this
    exact congrArg Trace.name this
  have hd' : d' ∈ before ++ d :: after := by rw [h2]; simp
  have heq := List.inj_on_of_nodup_map hnames hd' (List.get_mem _ _) hname
  rw [← heq] at hil
  simp [rotComponents, h3] at hil

/-! ### C135: cumulative curves -/

variable [IsStrictOrderedRing K]

theorem countP_lt_le {l : List K} (hs : l.Pairwise (· ≤ ·)) {i : Nat} {v : K} (h : l[i]? = some v) :
    l.countP (fun x => decide (x < v)) ≤ i ∧ i + 1 ≤ l.countP (fun x => decide (x ≤ v)) := by
  obtain ⟨hi, hv⟩ := List.getElem?_eq_some_iff.1 h
  rw [List.pairwise_iff_getElem] at hs
  constructor
  · rw [← List.take_append_drop i l, List.countP_append]
    have h0 : (l.drop i).countP (fun x => decide (x < v)) = 0 := by
      rw [List.countP_eq_zero]
      intro x hx
      obtain ⟨j, hj, rfl⟩ := List.getElem_of_mem hx
      rw [List.getElem_drop]
      simp only [decide_eq_true_eq, not_lt]
      rcases Nat.eq_zero_or_pos j with rfl | hp
      · simp [hv]
      · rw [← hv]
        exact hs i (i + j) hi (by simp at hj; omega) (by omega)
    have := List.countP_le_length (p := fun x => decide (x < v)) (l := l.take i)
    rw [h0]
    simp only [List.length_take] at this
    omega
  · rw [← List.take_append_drop (i + 1) l, List.countP_append]
    have h0 : (l.take (i + 1)).countP (fun x => decide (x ≤ v)) = (l.take (i + 1)).length := by
      rw [List.countP_eq_length]
      intro x hx
      obtain ⟨j, hj, rfl⟩ := List.getElem_of_mem hx
      rw [List.getElem_take]
      simp only [List.length_take] at hj
      simp only [decide_eq_true_eq]
      rcases Nat.lt_or_ge j i with hlt | hge
      · rw [← hv]; exact hs j i (by omega) hi hlt
      · have : j = i := by omega
        subst this; rw [hv]
    rw [h0, List.length_take]
    omega

theorem edf_point {dev : List K} {i : Nat} {v p : K} (hx : (edf dev).1[i]? = some v) (hy : (edf dev).2[i]? = some p) :
    p = (i : K) / (dev.length : K) ∧ i < dev.length ∧ (npSort dev)[i]? = some v := by
  have hi := (List.getElem?_eq_some_iff.1 hx).1
  simp only [edf] at hx hy hi
  rw [List.getElem?_map, List.getElem?_range hi] at hy
  rw [npSort_length] at hi hy
  exact ⟨(Option.some.inj hy).symm, hi, hx⟩

/-- the curve of some deviations: one point for each, from left to right -/
theorem C135_shape (dev : List K) :
    (edf dev).1.Perm dev ∧ (edf dev).1.Pairwise (· ≤ ·) ∧ (edf dev).2.length = dev.length ∧
      (edf dev).2.Pairwise (· < ·) ∧ ∀ p ∈ (edf dev).2, 0 ≤ p ∧ p < 1 := by
  refine ⟨npSort_perm _, npSort_sorted _, by simp [edf, npSort_length], ?_, ?_⟩
  · simp only [edf, npSort_length, List.pairwise_map]
    rcases Nat.eq_zero_or_pos dev.length with h | h
    · simp [h]
    · have hp : (0 : K) < (dev.length : K) := by exact_mod_cast h
      exact List.pairwise_lt_range.imp (fun hab => by
        rw [div_lt_div_iff_of_pos_right hp]; exact_mod_cast hab)
  · intro p hp
    simp only [edf, npSort_length, List.mem_map, List.mem_range] at hp
    obtain ⟨i, hi, rfl⟩ := hp
    have hp : (0 : K) < (dev.length : K) := by exact_mod_cast (by omega : 0 < dev.length)
    refine ⟨by positivity, ?_⟩
    rw [div_lt_one hp]
    exact_mod_cast hi

/-- **C135**, positive part: the height of the curve at a deviation lies between the share of the smaller deviations and the
share of those that are not greater, less one deviation.
Missing for the full property: the height should be the latter share itself; `C135_too_low` shows that it never is. -/
theorem C135_between_partial (dev : List K) {i : Nat} {v p : K} (hx : (edf dev).1[i]? = some v) (hy : (edf dev).2[i]? = some p) :
    share dev (fun x => x < v) ≤ p ∧ p ≤ share dev (fun x => x ≤ v) - 1 / (dev.length : K) := by
  obtain ⟨rfl, hi, hv⟩ := edf_point hx hy
  obtain ⟨h1, h2⟩ := countP_lt_le (npSort_sorted dev) hv
  rw [(npSort_perm dev).countP_eq] at h1 h2
  have hp : (0 : K) < (dev.length : K) := by exact_mod_cast (by omega : 0 < dev.length)
  unfold share
  constructor
  · rw [div_le_div_iff_of_pos_right hp]
    exact_mod_cast h1
  · rw [← sub_div, div_le_div_iff_of_pos_right hp]
    have : ((i + 1 : Nat) : K) ≤ ((dev.countP (fun x => decide (x ≤ v)) : Nat) : K) := by exact_mod_cast h2
    push_cast at this
    linarith

/-- **C135 is false of the code**: at no deviation is the height of the curve the share of the deviations up to it; it is
always too low, and the curve ends below one. -/
theorem C135_too_low (dev : List K) {i : Nat} {v p : K} (hx : (edf dev).1[i]? = some v) (hy : (edf dev).2[i]? = some p) :
    p < share dev (fun x => x ≤ v) := by
  have h := (C135_between_partial dev hx hy).2
  obtain ⟨-, hi, -⟩ := edf_point hx hy
  have hp : (0 : K) < 1 / (dev.length : K) := by
    have : (0 : K) < (dev.length : K) := by exact_mod_cast (by omega : 0 < dev.length)
    positivity
  linarith

/-- The curves of a figure with several results are the cumulative curves of each result, under its own name: the position
deviations in the first subplot, the rotation deviations, if there are any, in the second. -/
theorem C135_figure {P : PlotLib K R} (s : Names K) {items : List (AteResult K R)} (hne : items ≠ []) :
    ∃ f tss, devEdf P s items = .ok f ∧ f.traces = tss.flatten ∧
      List.Forall₂ (fun d ts => ts.length = (combined P d).length ∧
        ∀ (i : Nat) y, (combined P d)[i]? = some y →
          ts[i]? = some { row := i + 1, name := Report.shortName d, x := (edf y).1, y := (edf y).2 }) items tss := by
  obtain ⟨d0, rest, rfl⟩ := List.exists_cons_of_ne_nil hne
  unfold devEdf
  rw [mapE_ok (g := fun d => (combined P d).zipIdx.map
    (fun yi => { row := yi.2 + 1, name := Report.shortName d, x := (edf yi.1).1, y := (edf yi.1).2 }))]
  · refine ⟨_, _, rfl, rfl, forall₂_map_self ?_⟩
    intro d _
    refine ⟨by simp, fun i y hy => ?_⟩
    rw [List.getElem?_map, List.getElem?_zipIdx, hy]
    simp
  · intro d _
    rcases hr : d.rotDev with _ | r
    · simp only [hasRot, hr, combined]; rfl
    · simp only [hasRot, hr, combined, combDevRot_some hr]; rfl

/-! ### Examples -/

/-- a trajectory that is sorted by arc length and was recorded backwards -/
def exBack (name : String) (rot : Option (List Unit)) : AteResult ℚ Unit :=
  ⟨name, ⟨[0, 1, 2], [⟨2, 0, 0⟩, ⟨1, 0, 0⟩, ⟨0, 0, 0⟩], none, [2, 1, 0], [0, 0, 0], .arcLength, "a", 0⟩,
    [⟨0, 0, 3⟩, ⟨0, 0, 4⟩, ⟨0, 0, 5⟩], [⟨0, 0, 3⟩, ⟨0, 0, 4⟩, ⟨0, 0, 5⟩], rot, false⟩

/-- numeric routines of the examples -/
def exPlotLib : PlotLib ℚ Unit :=
  { eval := Report.exShownLib
    rot := { one := (), mul := fun _ _ => (), inv := id, toMat := fun _ => 1, fromMat := fun _ => (), slerp := fun _ _ _ => () }
    euler := fun _ => ⟨1, 2, 3⟩, deg := fun x => 57 * x, argsort := stableArgsort }

/-- settings of the examples -/
def exNames : Names ℚ :=
  { ateMm := false, directed := false, posX := "x".toList, posY := "y".toList, posZ := "z".toList,
    dirX := "along".toList, dirY := "cross-h".toList, dirZ := "cross-v".toList,
    rotX := "roll".toList, rotY := "pitch".toList, rotZ := "yaw".toList, rotUnit := "°".toList, maxStd := 3,
    axisOrder := "xy".toList, detailed := false }

example : IsArgsort exPlotLib.argsort := stableArgsort_isArgsort
example : FullResult (exBack "a vs. b" none) := ⟨⟨rfl, rfl, rfl, by rintro r ⟨⟩⟩, rfl, rfl, by rintro r ⟨⟩⟩
example : ¬ (abscissas (exBack "a vs. b" none).trajectory).Pairwise (· ≤ ·) := by decide +kernel
/-- the deviation 3 belongs to arc length 2, and is drawn at arc length 0 -/
example : ((devComb1 exPlotLib exNames (exBack "a vs. b" none)).map (fun f => f.traces.map (fun t => (t.x, t.y)))).toOption
    = some [([0, 1, 2], [3, 4, 5])] := by decide +kernel
/-- and at the position of the last sample -/
example : ((posDevCloud exPlotLib exNames ["x".toList, "y".toList, "z".toList] (exBack "a vs. b" none)).map
    (fun c => (c.points, c.colours))).toOption = some ([[0, 0], [1, 0], [2, 0]], [3, 4, 5]) := by decide +kernel

/-- the rotations of `imu` are shown as those of `gps` -/
example : ((devRotPlot exPlotLib exNames [exBack "gps vs. b" none, exBack "imu vs. b" (some [(), (), ()])]).map
    (fun f => f.traces.map (fun t => (t.row, t.name)))).toOption
    = some [(1, "gps ".toList), (2, "gps ".toList), (3, "gps ".toList)] := by decide +kernel
example : ([exBack "gps vs. b" none, exBack "imu vs. b" (some [(), (), ()])].map Report.shortName).Nodup := by
  decide +kernel
/-- in the other order they are not -/
example : ((devRotPlot exPlotLib exNames [exBack "imu vs. b" (some [(), (), ()]), exBack "gps vs. b" none]).map
    (fun f => f.traces.map (fun t => (t.row, t.name)))).toOption
    = some [(1, "imu ".toList), (2, "imu ".toList), (3, "imu ".toList)] := by decide +kernel

/-- half of the deviations are at most 2; the curve says a quarter -/
example : edf [4, 1, 2, (7 : ℚ)] = ([1, 2, 4, 7], [0, 1 / 4, 1 / 2, 3 / 4]) ∧
    share [4, 1, 2, (7 : ℚ)] (fun x => x ≤ 2) = 1 / 2 := by decide +kernel

end Plot
end TC
