import Verif.Spec.TrajPlots
import Verif.Props.Plots
import Verif.Props.Mpl
import Verif.Props.RpePlots
/-!
# C154: axis labels; C156: paths of trajectories
-/
set_option linter.unusedSectionVars false
namespace TC
namespace Plot
variable {K R : Type} [Field K] [LinearOrder K] [IsStrictOrderedRing K]

/-! ### Labels -/

theorem shortUnit_symbol {u : Str} (h : UsualUnit u) : shortUnit u = symbol u := by
  rcases h with rfl | rfl <;> decide

theorem axisText_eq (a : AxisInfo) (h : UsualUnit a.unit) : axisText a.name (shortUnit a.unit) = axisName a := by
  unfold axisText axisName bracket
  rw [shortUnit_symbol h]
  have : " [".toList = [' ', '['] := by decide
  have : "]".toList = [']'] := by decide
  simp [*]

/-- **C154**: local coordinates are labelled in metres. -/
theorem C154_local (crs : Int → Option (List AxisInfo)) {ts : List (Traj K R)} (h : ∀ T ∈ ts, T.epsg = 0) :
    axisLabels crs ts = .ok ["x [m]".toList, "y [m]".toList, "z [m]".toList] := by
  unfold axisLabels
  rw [if_pos]
  rw [List.all_eq_true]
  intro T hT
  simpa using h T hT

/-- a coordinate system as pyproj describes it: two or more axes, the first two with the same unit -/
structure UsualSystem (axes : List AxisInfo) : Prop where
  two : 2 ≤ axes.length
  units : ∀ a ∈ axes, UsualUnit a.unit
  same : ∀ a b, axes[0]? = some a → axes[1]? = some b → a.unit = b.unit

theorem dedup_replicate {u : Str} {l : List Str} (hne : l ≠ []) (h : ∀ v ∈ l, v = u) : l.dedup = [u] := by
  induction l with
  | nil => exact absurd rfl hne
  | cons a l ih =>
    have ha := h a (by simp)
    subst ha
    by_cases hl : l = []
    · subst hl; rfl
    · have := ih hl (fun v hv => h v (by simp [hv]))
      rw [List.dedup_cons_of_mem, this]
      obtain ⟨b, l', rfl⟩ := List.exists_cons_of_ne_nil hl
      rw [h b (by simp)]
      simp

theorem labelsOf_usual {axes : List AxisInfo} (hs : UsualSystem axes) {u : Str} (hu : ∃ a, axes[0]? = some a ∧ a.unit = u) :
    labelsOf (some axes) u = .ok ((threeAxes axes).map axisName) := by
  obtain ⟨a0, ha0, rfl⟩ := hu
  match axes, hs, ha0 with
  | [], hs, ha0 => cases ha0
  | [a], hs, _ => exact absurd hs.two (by simp)
  | [a, b], hs, ha0 =>
    cases ha0
    have hab := hs.same a0 b rfl rfl
    have hz : axisText "z".toList "m".toList = axisName ⟨"z".toList, "metre".toList⟩ := by decide
    simp only [labelsOf, threeAxes, List.length_cons, List.length_nil, List.map_append, List.map_cons, List.map_nil, if_true, hz]
    rw [axisText_eq a0 (hs.units a0 (by simp))]
    conv_lhs => rw [hab]
    rw [axisText_eq b (hs.units b (by simp))]
    rfl
  | a :: b :: c :: rest, hs, ha0 =>
    cases ha0
    have hab := hs.same a0 b rfl rfl
    have hl : ¬ (a0 :: b :: c :: rest).length = 2 := by simp
    simp only [labelsOf, threeAxes, if_neg hl]
    rw [axisText_eq a0 (hs.units a0 (by simp)), axisText_eq c (hs.units c (by simp))]
    conv_lhs => rw [hab]
    rw [axisText_eq b (hs.units b (by simp))]
    rfl

theorem not_all_local {ts : List (Traj K R)} (h : ∃ T ∈ ts, T.epsg ≠ 0) : ¬ ts.all (fun T => decide (T.epsg = 0)) = true := by
  obtain ⟨T, hT, hne⟩ := h
  rw [List.all_eq_true]
  intro hall
  have := hall T hT
  simp [hne] at this

/-- **C154**: trajectories in one coordinate system are labelled with its axes and units. -/
theorem C154_one_system_partial {crs : Int → Option (List AxisInfo)} {ts : List (Traj K R)} {e : Int} {axes : List AxisInfo}
    (hne : ts ≠ []) (he : e ≠ 0) (hts : ∀ T ∈ ts, T.epsg = e) (hc : crs e = some axes) (hs : UsualSystem axes) :
    ∃ labels, axisLabels crs ts = .ok labels ∧ ∀ T ∈ ts, LabelsOf crs labels T := by
  obtain ⟨T, rest, rfl⟩ := List.exists_cons_of_ne_nil hne
  refine ⟨(threeAxes axes).map axisName, ?_, ?_⟩
  · unfold axisLabels
    rw [if_neg (not_all_local ⟨T, by simp, by rw [hts T (by simp)]; exact he⟩)]
    obtain ⟨a, l, rfl⟩ := List.exists_cons_of_ne_nil (l := axes) (by rintro rfl; exact absurd hs.two (by simp))
    rw [mapE_ok (g := fun _ => a.unit)]
    · simp only [bind, Except.bind]
      rw [dedup_replicate (u := a.unit) (by simp) (by simp)]
      simp only
      rw [hts T (by simp), hc]
      exact labelsOf_usual hs ⟨a, rfl, rfl⟩
    · intro S hS
      unfold firstUnit
      rw [hts S hS, hc]
  · intro S hS ax hax
    rw [hts S hS, hc] at hax
    cases hax
    rfl

/-- **C154**: trajectories whose first axes have different units are labelled without units. -/
theorem C154_several_units {crs : Int → Option (List AxisInfo)} {ts : List (Traj K R)} {S T : Traj K R} {u v : Str}
    (hn : ∀ U ∈ ts, crs U.epsg ≠ some []) (hg : ∃ U ∈ ts, U.epsg ≠ 0) (hS : S ∈ ts) (hT : T ∈ ts)
    (hu : firstUnit crs S = .ok u) (hv : firstUnit crs T = .ok v) (huv : u ≠ v) :
    axisLabels crs ts = .ok ["x".toList, "y".toList, "z".toList] := by
  have hex : ∀ U ∈ ts, ∃ w, firstUnit crs U = .ok w := by
    intro U hU
    unfold firstUnit
    cases hc : crs U.epsg with
    | none => exact ⟨_, rfl⟩
    | some l =>
      cases l with
      | nil => exact absurd hc (hn U hU)
      | cons a l => exact ⟨_, rfl⟩
  obtain ⟨units, hunits⟩ := mapE_isOk hex
  unfold axisLabels
  rw [if_neg (not_all_local hg), hunits]
  simp only [bind, Except.bind]
  have hm : ∀ {U w}, U ∈ ts → firstUnit crs U = .ok w → w ∈ units.dedup := by
    intro U w hU hw
    rw [List.mem_dedup]
    obtain ⟨i, hi⟩ := List.mem_iff_getElem?.1 hU
    obtain ⟨b, hb, hb'⟩ := mapE_getElem? hunits hi
    rw [hw] at hb
    cases hb
    exact List.mem_of_getElem? hb'
  have h1 := hm hS hu
  have h2 := hm hT hv
  split
  · rename_i w _ _ hd
    rw [hd] at h1 h2
    exact absurd ((List.mem_singleton.1 h1).trans (List.mem_singleton.1 h2).symm) huv
  · rfl

/-- **C154** does not hold for several coordinate systems with the same unit: the labels are those of the first trajectory,
and wrong for every trajectory whose axes have other names. -/
theorem C154_labels_of_first {crs : Int → Option (List AxisInfo)} {T : Traj K R} {rest : List (Traj K R)} {u : Str}
    {axes : List AxisInfo} (hg : T.epsg ≠ 0) (hu : ∀ S ∈ T :: rest, firstUnit crs S = .ok u) (hc : crs T.epsg = some axes)
    (hs : UsualSystem axes) :
    ∃ labels, axisLabels crs (T :: rest) = .ok labels ∧ LabelsOf crs labels T ∧
      ∀ S ∈ T :: rest, ∀ axes', crs S.epsg = some axes' →
        (threeAxes axes').map axisName ≠ (threeAxes axes).map axisName → ¬ LabelsOf crs labels S := by
  refine ⟨(threeAxes axes).map axisName, ?_, ?_, ?_⟩
  · unfold axisLabels
    rw [if_neg (not_all_local ⟨T, by simp, hg⟩), mapE_ok (g := fun _ => u) hu]
    simp only [bind, Except.bind]
    rw [dedup_replicate (u := u) (by simp) (by simp)]
    simp only
    rw [hc]
    refine labelsOf_usual hs ?_
    have := hu T (by simp)
    unfold firstUnit at this
    rw [hc] at this
    cases axes with
    | nil => cases this
    | cons a l =>
      cases this
      exact ⟨a, rfl, rfl⟩
  · intro ax hax
    rw [hc] at hax
    cases hax
    rfl
  · intro S _ axes' hS hne hl
    exact hne (hl axes' hS).symm

/-! ### Paths -/

theorem mapE_axisIndex : ∀ {order : Str} {idx : List Nat}, mapE Geo.axisIndex order = .ok idx →
    idx.length = order.length ∧ ∀ v : V3 K, idx.map (fun i => Geo.coordinate i v) = coordsAlong order v
  | [], idx, h => by cases h; exact ⟨rfl, fun _ => rfl⟩
  | c :: order, idx, h => by
    obtain ⟨i, is, h1, h2, rfl⟩ := mapE_cons_inv h
    obtain ⟨h3, h4⟩ := mapE_axisIndex h2
    refine ⟨by simp [h3], fun v => ?_⟩
    rw [List.map_cons, h4 v]
    unfold coordsAlong Geo.axisIndex at *
    rw [List.filterMap_cons]
    split_ifs at h1 <;> cases h1 <;> simp_all [Geo.coordinate]

theorem ascending_xyz {argsort : List K → List Nat} (ha : IsArgsort argsort) {T : Traj K R} (hT : Coherent T) :
    Ascending T (sel T.pos (T.sortingIndex argsort)) := by
  have hp := sortingIndex_argsort ha T
  have hl := abscissas_length hT
  have hin : InRange T.pos.length (T.sortingIndex argsort) := by rw [hT.pos, ← hl]; exact hp.inRange
  refine ⟨npSort (abscissas T), npSort_sorted _, ?_, ?_⟩
  · rw [npSort_length, sel_length hin, hp.length]
  · rw [← hp.sel, ← sel_zip (by rw [hT.pos, hl]) hp.inRange]
    apply sel_perm_self
    rw [List.length_zip, hT.pos, hl, min_self, ← hl]
    exact hp.1

/-- **C156**: in a report every trajectory is drawn under its name as the path through its positions in ascending order of
time or length, projected onto the chosen axes. -/
theorem C156_report_path {crs : Int → Option (List AxisInfo)} {argsort : List K → List Nat} (ha : IsArgsort argsort)
    {order : Str} {ts : List (Traj K R)} {fig : PathFigure K} (hT : ∀ T ∈ ts, Coherent T)
    (h : pathPlot crs argsort order ts = .ok fig) :
    List.Forall₂ (fun T p => p.1 = T.name.toList ∧ ∃ ps, Ascending T ps ∧ p.2 = ps.map (coordsAlong order)) ts fig.paths := by
  unfold pathPlot at h
  cases hl : axisLabels crs ts with
  | error e => rw [hl] at h; cases h
  | ok labels =>
    cases hi : mapE Geo.axisIndex order with
    | error e => rw [hl, hi] at h; cases h
    | ok idx =>
      rw [hl, hi] at h
      simp only [bind, Except.bind] at h
      split at h
      · cases h
      · rename_i paths hp
        split at h
        · cases h
        · cases h
          obtain ⟨h1, h2⟩ := mapE_axisIndex (K := K) hi
          refine forall₂_imp_mem ?_ (mapE_forall₂ hp)
          intro T hTm p hpp
          rw [xyz_sel ha (hT T hTm)] at hpp
          simp only at hpp
          split_ifs at hpp
          cases hpp
          refine ⟨rfl, _, ascending_xyz ha (hT T hTm), ?_⟩
          simp only [h2]

/-- **C156**: the figure exists for two or three axes, whenever there are labels. -/
theorem C156_report_path_exists {crs : Int → Option (List AxisInfo)} {argsort : List K → List Nat} (ha : IsArgsort argsort)
    {order : Str} {ts : List (Traj K R)} (hT : ∀ T ∈ ts, Coherent T) (ho : ∀ c ∈ order, c = 'x' ∨ c = 'y' ∨ c = 'z')
    (hlen : order.length = 2 ∨ order.length = 3) {a b c : Str} (hl : axisLabels crs ts = .ok [a, b, c]) :
    ∃ fig, pathPlot crs argsort order ts = .ok fig ∧
      fig.labels = order.map (fun ch => if ch = 'x' then a else if ch = 'y' then b else c) := by
  obtain ⟨idx, hi⟩ : ∃ idx, mapE Geo.axisIndex order = .ok idx := by
    apply mapE_isOk
    intro ch hch
    unfold Geo.axisIndex
    rcases ho ch hch with rfl | rfl | rfl
    · exact ⟨0, rfl⟩
    · exact ⟨1, rfl⟩
    · exact ⟨2, rfl⟩
  have hlen' : idx.length = order.length := (mapE_axisIndex (K := K) hi).1
  have hlab : ∀ i < idx.length, pickLabel [a, b, c] idx i = .ok ((order.map (fun ch => if ch = 'x' then a else if ch = 'y' then b else c)).getD i []) := by
    intro i hlt
    have hlt' : i < order.length := by omega
    obtain ⟨k, hk, hk'⟩ := mapE_getElem? hi (List.getElem?_eq_getElem hlt')
    unfold pickLabel
    rw [hk', List.getD_eq_getElem?_getD, List.getElem?_map, List.getElem?_eq_getElem hlt']
    unfold Geo.axisIndex at hk
    rcases ho _ (List.getElem_mem hlt') with h | h | h <;> rw [h] at hk ⊢ <;> cases hk <;> rfl
  have hpaths : ∃ paths, mapE (fun T : Traj K R => do
      let p ← T.xyz argsort
      if idx.length = 2 ∨ idx.length = 3 then return (T.name.toList, p.map (fun v => idx.map (fun i => Geo.coordinate i v)))
      else throw Err.valueError) ts = .ok paths := by
    apply mapE_isOk
    intro T hTm
    rw [xyz_sel ha (hT T hTm)]
    simp only [bind, Except.bind]
    rw [if_pos (by omega)]
    exact ⟨_, rfl⟩
  obtain ⟨paths, hpaths⟩ := hpaths
  unfold pathPlot
  rw [hl, hi]
  simp only [bind, Except.bind] at hpaths ⊢
  rw [hpaths]
  simp only
  rcases hlen with h2 | h3
  · rw [if_neg (by omega), mapE_ok (g := fun i => (order.map (fun ch => if ch = 'x' then a else if ch = 'y' then b else c)).getD i [])]
    · refine ⟨_, rfl, ?_⟩
      match order, h2 with
      | [p, q], _ => rfl
    · intro i hm
      apply hlab
      simp at hm
      omega
  · rw [if_pos (by omega), mapE_ok (g := fun i => (order.map (fun ch => if ch = 'x' then a else if ch = 'y' then b else c)).getD i [])]
    · refine ⟨_, rfl, ?_⟩
      match order, h3 with
      | [p, q, r], _ => rfl
    · intro i hm
      apply hlab
      simp at hm
      omega

theorem zip_perm_unique {α β : Type} : ∀ {x y : List α} {p : List β}, x.length = p.length → y.length = p.length → p.Nodup →
    (x.zip p).Perm (y.zip p) → x = y := by
  intro x y p hx hy hp h
  apply List.ext_getElem (by omega)
  intro i h1 h2
  have hi : i < p.length := by omega
  have hm : (x[i], p[i]) ∈ y.zip p := by
    rw [← h.mem_iff, ← List.getElem_zip (h := by rw [List.length_zip]; omega)]
    exact List.getElem_mem _
  obtain ⟨j, hj, hje⟩ := List.getElem_of_mem hm
  rw [List.getElem_zip, Prod.mk.injEq] at hje
  have hj' : j < p.length := by rw [List.length_zip] at hj; omega
  have : j = i := (List.Nodup.getElem_inj_iff hp).1 hje.2
  subst this
  exact hje.1.symm

/-- **C156** does not hold for matplotlib: the positions are joined in the order in which they are stored.  If they are
different, that is a path in ascending order only if the trajectory is stored in ascending order. -/
theorem C156_matplotlib_stored_order {crs : Int → Option (List AxisInfo)} {dim : Nat} {ts : List (Traj K R)}
    {fig : PathFigure K} (h : mplPath crs dim ts = .ok fig) {i : Nat} {T : Traj K R} (hi : ts[i]? = some T) (hT : Coherent T)
    (hd : (T.pos.map (fun v => if dim = 2 then [v.x, v.y] else [v.x, v.y, v.z])).Nodup)
    (hs : ¬ (abscissas T).Pairwise (· ≤ ·)) :
    ∃ path, fig.paths[i]? = some (T.name.toList, path) ∧
      ¬ ∃ ps, Ascending T ps ∧ path = ps.map (fun v => if dim = 2 then [v.x, v.y] else [v.x, v.y, v.z]) := by
  refine ⟨T.pos.map (fun v => if dim = 2 then [v.x, v.y] else [v.x, v.y, v.z]), ?_, ?_⟩
  · unfold mplPath at h
    cases hl : axisLabels crs ts with
    | error e => rw [hl] at h; cases h
    | ok labels =>
      rw [hl] at h
      simp only [bind, Except.bind] at h
      split_ifs at h with h2 h3
      · cases h
        simp only [List.getElem?_map, hi, Option.map_some, if_pos h2]
      · cases h
        simp only [List.getElem?_map, hi, Option.map_some, if_neg h2]
  · rintro ⟨ps, ⟨x, hx, hxl, hperm⟩, he⟩
    apply hs
    have hlen : (abscissas T).length = T.pos.length := by rw [abscissas_length hT, hT.pos]
    have hpl : ps.length = T.pos.length := by
      have := congrArg List.length he
      simpa using this.symm
    have hperm' := hperm.map (Prod.map id (fun v : V3 K => if dim = 2 then [v.x, v.y] else [v.x, v.y, v.z]))
    rw [← List.zip_map_right, ← List.zip_map_right, ← he] at hperm'
    have := zip_perm_unique (by simp [hxl, hpl]) (by simp [hlen]) hd hperm'
    rw [← this]
    exact hx

/-- **C156**: for matplotlib, the path is right if the trajectory is stored in ascending order. -/
theorem C156_matplotlib_partial {crs : Int → Option (List AxisInfo)} {dim : Nat} (hdim : dim = 2 ∨ dim = 3)
    {ts : List (Traj K R)} {fig : PathFigure K} (h : mplPath crs dim ts = .ok fig) (hT : ∀ T ∈ ts, Coherent T)
    (hs : ∀ T ∈ ts, (abscissas T).Pairwise (· ≤ ·)) :
    List.Forall₂ (fun T p => p.1 = T.name.toList ∧ ∃ ps, Ascending T ps ∧
      p.2 = ps.map (coordsAlong (if dim = 2 then ['x', 'y'] else ['x', 'y', 'z']))) ts fig.paths := by
  unfold mplPath at h
  cases hl : axisLabels crs ts with
  | error e => rw [hl] at h; cases h
  | ok labels =>
    rw [hl] at h
    simp only [bind, Except.bind] at h
    have asc : ∀ T ∈ ts, Ascending T T.pos := fun T hTm =>
      ⟨abscissas T, hs T hTm, by rw [abscissas_length (hT T hTm), (hT T hTm).pos], List.Perm.refl _⟩
    rcases hdim with rfl | rfl
    · cases h
      refine forall₂_map_self ?_
      intro T hTm
      exact ⟨rfl, T.pos, asc T hTm, rfl⟩
    · cases h
      refine forall₂_map_self ?_
      intro T hTm
      exact ⟨rfl, T.pos, asc T hTm, rfl⟩

/-- **C156**: the report has a map or a path and the coordinates of all trajectories, and the angles of exactly those that
have orientations. -/
theorem C156_report_figures (mapbox : Bool) (ts : List (Traj K R)) :
    let names := ts.map (fun T => T.name.toList)
    ∃ first, (first = (if mapbox then TrajFig.map names else TrajFig.path names)) ∧
      (trajFigures mapbox ts = [first, .coordinates names] ∧ (∀ T ∈ ts, T.rot = none ∨ T.rot = some []) ∨
        ∃ rs, trajFigures mapbox ts = [first, .coordinates names, .angles (rs.map (fun T => T.name.toList))] ∧ rs ≠ [] ∧
          rs.Sublist ts ∧ ∀ T, T ∈ rs ↔ T ∈ ts ∧ ∃ q r, T.rot = some (q :: r)) := by
  refine ⟨_, rfl, ?_⟩
  unfold trajFigures
  have ho : ∀ T : Traj K R, T.hasOrientation = true ↔ ∃ q r, T.rot = some (q :: r) := by
    intro T
    unfold Traj.hasOrientation
    rcases T.rot with _ | _ | ⟨q, r⟩ <;> simp
  cases hf : ts.filter (fun T => T.hasOrientation) with
  | nil =>
    left
    refine ⟨rfl, ?_⟩
    intro T hTm
    have := List.filter_eq_nil_iff.1 hf T hTm
    rw [ho] at this
    rcases hr : T.rot with _ | _ | ⟨q, r⟩
    · exact Or.inl rfl
    · exact Or.inr rfl
    · exact absurd ⟨q, r, hr⟩ this
  | cons r rs =>
    right
    refine ⟨r :: rs, rfl, by simp, hf ▸ List.filter_sublist, ?_⟩
    intro T
    rw [← hf, List.mem_filter, ho]

/-- **C156**: the report about one trajectory has its name as the title; others have a title that names none. -/
theorem C156_report_title (ts : List (Traj K R)) :
    (∀ T, ts = [T] → trajTitle ts = T.name.toList) ∧ (ts.length ≠ 1 → trajTitle ts = "Trajectory Plot".toList) := by
  refine ⟨by rintro T rfl; rfl, ?_⟩
  intro h
  match ts, h with
  | [], _ => rfl
  | [_], h => exact absurd rfl h
  | _ :: _ :: _, _ => rfl

/-! ### A case -/

/-- two systems with the same unit whose axes are in a different order (as EPSG 25832 and 3035), and one in degrees -/
def exSystems (e : Int) : Option (List AxisInfo) :=
  if e = 25832 then some [⟨"Easting".toList, "metre".toList⟩, ⟨"Northing".toList, "metre".toList⟩]
  else if e = 3035 then some [⟨"Northing".toList, "metre".toList⟩, ⟨"Easting".toList, "metre".toList⟩]
  else if e = 4326 then some [⟨"Geodetic latitude".toList, "degree".toList⟩, ⟨"Geodetic longitude".toList, "degree".toList⟩]
  else none

/-- a trajectory that is stored backwards -/
def exStored (e : Int) : Traj ℚ Unit :=
  { tstamps := [3, 2, 1], pos := [⟨2, 0, 0⟩, ⟨0, 1, 0⟩, ⟨1, 0, 5⟩], rot := none, arc := [0, 1, 2], speed := [0, 0, 0],
    sorting := .time, name := "t", epsg := e }

theorem exStored_coherent (e : Int) : Coherent (exStored e) := ⟨rfl, rfl, rfl, by rintro r ⟨⟩⟩

example : ∀ e ∈ [25832, 3035, 4326], ∀ axes ∈ exSystems e, UsualSystem axes := by
  intro e he axes ha
  fin_cases he <;> cases ha <;> refine ⟨by decide, ?_, ?_⟩
  all_goals first
    | (intro a hm; fin_cases hm <;> first | exact Or.inl rfl | exact Or.inr rfl)
    | (rintro a b ⟨⟩ ⟨⟩; rfl)

/-- the northings of the second trajectory are drawn over "Easting" -/
example : (axisLabels exSystems [exStored 25832, exStored 3035]).toOption =
    some ["Easting [m]".toList, "Northing [m]".toList, "z [m]".toList] := by decide +kernel
example : firstUnit exSystems (exStored 25832) = firstUnit exSystems (exStored 3035) := by rfl
example : (axisLabels exSystems [exStored 25832, exStored 4326]).toOption = some ["x".toList, "y".toList, "z".toList] := by
  decide +kernel
example : (pathPlot exSystems stableArgsort "zx".toList [exStored 0]).toOption.map (fun f => f.paths) =
    some [("t".toList, [[5, 1], [0, 0], [0, 2]])] := by decide +kernel
example : (mplPath exSystems 2 [exStored 0]).toOption.map (fun f => f.paths) =
    some [("t".toList, [[2, 0], [0, 1], [1, 0]])] := by decide +kernel
example : ((exStored 0).pos.map (fun v => if 2 = 2 then [v.x, v.y] else [v.x, v.y, v.z])).Nodup ∧
    ¬ (abscissas (exStored 0)).Pairwise (· ≤ ·) := by decide +kernel

end Plot
end TC
