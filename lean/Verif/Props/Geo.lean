import Verif.Spec.Geo
import Verif.Proofs.ApplyIndex
import Verif.Proofs.TrajFile
import Verif.Proofs.ParamsFile
import Verif.Props.Utils
import Verif.Props.TrajIndex
import Verif.Proofs.Eval
/-!
# Properties of KML export and maps
-/
set_option linter.unusedSectionVars false
namespace TC
namespace Geo

section indices
variable {α : Type} [DecidableEq α]

theorem firstIndices_append (rows : List α) (a : α) :
    firstIndices (rows ++ [a]) = firstIndices rows ++ (if a ∈ rows then [] else [rows.length]) := by
  unfold firstIndices
  rw [List.length_append, List.length_singleton, List.range_succ, List.filter_append]
  congr 1
  · apply List.filter_congr
    intro i hi
    rw [List.mem_range] at hi
    rw [List.getElem?_append_left hi, List.take_append_of_le_length (by omega)]
  · by_cases h : a ∈ rows <;> simp [h]

theorem eraseDups_snoc [BEq α] [LawfulBEq α] (rows : List α) (a : α) :
    (rows ++ [a]).eraseDups = rows.eraseDups ++ (if a ∈ rows then [] else [a]) := by
  rw [List.eraseDups_append]
  congr 1
  by_cases h : a ∈ rows <;> simp [List.removeAll, h, List.eraseDups_cons]

theorem mem_firstIndices_lt {rows : List α} {i : Nat} (h : i ∈ firstIndices rows) : i < rows.length :=
  (mem_firstIndices.mp h).1

theorem pyPos_nat {n i : Nat} (h : i < n) : pyPos n (i : Int) = some i := by
  unfold pyPos; simp; omega

theorem indexValid_firstIndices (rows : List α) {n : Nat} (hn : rows.length = n) :
    IndexValid n (.ints ((firstIndices rows).map (fun i : Nat => (i : Int)))) := by
  intro i hi
  obtain ⟨j, hj, rfl⟩ := List.mem_map.mp hi
  rw [pyPos_nat (hn ▸ mem_firstIndices_lt hj)]
  simp

theorem pick_firstIndices [BEq α] [LawfulBEq α] (rows : List α) :
    pick (.ints ((firstIndices rows).map (fun i : Nat => (i : Int)))) rows = rows.eraseDups := by
  have e : ∀ (l : List α), pick (.ints ((firstIndices l).map (fun i : Nat => (i : Int)))) l =
      (firstIndices l).filterMap (fun i => l[i]?) := by
    intro l
    simp only [pick, List.filterMap_map]
    apply List.filterMap_congr
    intro i hi
    simp only [Function.comp, pyPos_nat (mem_firstIndices_lt hi)]
    rfl
  rw [e]
  induction rows using List.reverseRecOn with
  | nil => rfl
  | append_singleton rows a ih =>
    rw [firstIndices_append, eraseDups_snoc, List.filterMap_append, ← ih]
    congr 1
    · apply List.filterMap_congr
      intro i hi
      rw [List.getElem?_append_left (mem_firstIndices_lt hi)]
    · by_cases h : a ∈ rows <;> simp [h]

end indices

variable {K R : Type} [Field K] [LinearOrder K] [IsStrictOrderedRing K] [FloorRing K]

theorem fmt_no (d : Nat) (x : K) {c : Char} (hc : numChar c = false) : c ∉ fmtFixed d x := fun h => by
  rw [fmtFixed_chars d x c h] at hc; cases hc

theorem cellVal_indent (d : Nat) (x : K) : cellVal ([' ', ' '] ++ fmtFixed d x) = .ok (roundTo d x) := by
  rw [← cellVal_fmt]
  have : pyStrip ([' ', ' '] ++ fmtFixed d x) = pyStrip (fmtFixed d x) := by
    unfold pyStrip
    simp [List.dropWhile, pySpace]
  unfold cellVal cellNum
  rw [this]

theorem kmlLine_join (p : V3 K) :
    kmlLine p = pyJoin [','] [[' ', ' '] ++ fmtFixed 9 p.y, fmtFixed 9 p.x, fmtFixed 3 (0 : K)] := by
  simp [kmlLine, pyJoin]

theorem kmlLine_shows (p : V3 K) : ShowsPosition (p.x, p.y) ((pySplitOn ',' (kmlLine p)).map (cellVal (K := K))) := by
  have h := pySplitOn_join (sep := ',') (parts := [[' ', ' '] ++ fmtFixed 9 p.y, fmtFixed 9 p.x, fmtFixed 3 (0 : K)])
    (by simp) (by
      intro q hq
      simp only [List.mem_cons, List.not_mem_nil, or_false] at hq
      rcases hq with rfl | rfl | rfl
      · intro h
        rw [List.mem_append] at h
        rcases h with h | h
        · simp at h
        · exact fmt_no 9 p.y (by decide) h
      · exact fmt_no 9 p.x (by decide)
      · exact fmt_no 3 0 (by decide))
  rw [kmlLine_join, h]
  refine ⟨roundTo 9 p.y, roundTo 9 p.x, ?_, roundTo_close 9 p.y, roundTo_close 9 p.x⟩
  have h0 : roundTo 3 (0 : K) = 0 := by
    have := roundTo_nat (K := K) 3 0
    simpa using this
  simp only [List.map_cons, List.map_nil, cellVal_indent, cellVal_fmt, h0]

theorem kmlLine_line (p : V3 K) : '\n' ∉ kmlLine p := by
  intro h
  simp only [kmlLine, List.mem_append, List.mem_cons, List.not_mem_nil, or_false] at h
  rcases h with ((h | h) | h | h) | h | h
  · exact absurd h (by decide)
  · exact fmt_no 9 p.y (by decide) h
  · exact absurd h (by decide)
  · exact fmt_no 9 p.x (by decide) h
  · exact absurd h (by decide)
  · exact fmt_no 3 0 (by decide) h

/-- the rounded trajectory whose rows are selected -/
def rounded (conv : Int → V3 K → V3 K) (rnd : V3 K → V3 K) (T : Traj K R) : Traj K R :=
  { T with pos := (T.pos.map (conv T.epsg)).map rnd, epsg := 4326 }

theorem createKml_eq {conv : Int → V3 K → V3 K} {rnd : K → V3 K → V3 K} {prec : K} {T : Traj K R} (hT : Coherent T)
    (hne : T.pos ≠ []) :
    ∃ idx : Index, idx = .ints ((firstIndices (roundedLatLon conv (rnd prec) T)).map (fun i : Nat => (i : Int))) ∧
      createKml (some conv) rnd prec T =
        (.ok { name := T.name, coordinates := pyJoin ['\n'] ((pick idx (rounded conv (rnd prec) T).pos).map kmlLine) },
          pickTraj idx (rounded conv (rnd prec) T)) := by
  refine ⟨_, rfl, ?_⟩
  have hrows : (rounded conv (rnd prec) T).pos.map (fun p => (p.x, p.y)) = roundedLatLon conv (rnd prec) T := by
    simp [rounded, roundedLatLon, List.map_map, Function.comp_def]
  have hco : Coherent (rounded conv (rnd prec) T) := ⟨by simp [rounded, hT.pos], hT.arc, hT.speed, hT.rot⟩
  have hlen : (roundedLatLon conv (rnd prec) T).length = (rounded conv (rnd prec) T).tstamps.length := by
    simp [roundedLatLon, rounded, hT.pos]
  have hpick : pick (.ints ((firstIndices (roundedLatLon conv (rnd prec) T)).map (fun i : Nat => (i : Int))))
      (rounded conv (rnd prec) T).tstamps ≠ [] := by
    intro h
    have h2 := pick_length (index := .ints ((firstIndices (roundedLatLon conv (rnd prec) T)).map (fun i : Nat => (i : Int))))
      (l := roundedLatLon conv (rnd prec) T) (l' := (rounded conv (rnd prec) T).tstamps) hlen
    rw [h, pick_firstIndices, List.length_nil, List.length_eq_zero_iff] at h2
    obtain ⟨p, l, hp⟩ : ∃ p l, T.pos = p :: l := List.exists_cons_of_ne_nil hne
    simp [roundedLatLon, hp, List.eraseDups_cons] at h2
  have happ := applyIndex_eq hco (indexValid_firstIndices _ hlen) (.inr hpick)
  have hk : createKml (some conv) rnd prec T =
      ((do
        Traj.applyIndex (.ints ((firstIndices ((rounded conv (rnd prec) T).pos.map (fun p => (p.x, p.y)))).map
          (fun i : Nat => (i : Int))))
        let T ← SE.get
        return { name := T.name, coordinates := pyJoin ['\n'] (T.pos.map kmlLine) } : SE (Traj K R) KmlDoc))
      (rounded conv (rnd prec) T) := rfl
  rw [hk, hrows, SE.run_bind_ok happ]
  rfl

/-- **C96**, without transformer: `ValueError`, nothing is written or changed. -/
theorem C96_needs_transformer (rnd : K → V3 K → V3 K) (prec : K) (T : Traj K R) :
    createKml none rnd prec T = (.error .valueError, T) := rfl

/-- **C96**: for every trajectory with a transformer and at least one position the file carries its name and shows, as
longitude, latitude and height 0 with nine decimals, each distinct rounded horizontal position once, in the order of
first occurrence. -/
theorem C96_distinct_positions_in_order (conv : Int → V3 K → V3 K) (rnd : K → V3 K → V3 K) (prec : K) {T : Traj K R}
    (hT : Coherent T) (hne : T.pos ≠ []) :
    ∃ doc T', createKml (some conv) rnd prec T = (.ok doc, T') ∧ doc.name = T.name ∧
      List.Forall₂ ShowsPosition (roundedLatLon conv (rnd prec) T).eraseDups (readCoordinates doc.coordinates) := by
  obtain ⟨idx, hidx, he⟩ := createKml_eq (conv := conv) (rnd := rnd) (prec := prec) hT hne
  refine ⟨_, _, he, rfl, ?_⟩
  have hrows : (pick idx (rounded conv (rnd prec) T).pos).map (fun p => (p.x, p.y)) =
      (roundedLatLon conv (rnd prec) T).eraseDups := by
    rw [← pick_firstIndices, ← hidx, ← pick_map]
    simp [rounded, roundedLatLon, List.map_map, Function.comp_def]
  have hne' : pick idx (rounded conv (rnd prec) T).pos ≠ [] := by
    intro h
    rw [h] at hrows
    obtain ⟨p, l, hp⟩ : ∃ p l, T.pos = p :: l := List.exists_cons_of_ne_nil hne
    simp [roundedLatLon, hp, List.eraseDups_cons] at hrows
  unfold readCoordinates
  rw [pySplitOn_join (by simpa using hne') (by
    intro q hq
    obtain ⟨p, -, rfl⟩ := List.mem_map.mp hq
    exact kmlLine_line p), ← hrows, List.map_map, List.forall₂_map_left_iff, List.forall₂_map_right_iff]
  exact List.forall₂_same.mpr (fun p _ => kmlLine_shows p)

/-- two of four positions agree after rounding to whole units -/
def exKml : Traj ℚ Nat :=
  { tstamps := [0, 1, 2, 3], pos := [⟨50, 7, 1⟩, ⟨51, 8, 2⟩, ⟨50, 7, 3⟩, ⟨51, 7, 4⟩], rot := none,
    arc := [0, 1, 2, 3], speed := [0, 0, 0, 0], sorting := .time, name := "ex", epsg := 25832 }

example : Coherent exKml ∧ exKml.pos ≠ [] ∧
    ((createKml (some (fun _ p => p)) (fun _ p => p) 1 exKml).1.toOption.map (fun d => String.ofList d.coordinates)) =
      some "  7.000000000,50.000000000,0.000\n  8.000000000,51.000000000,0.000\n  7.000000000,51.000000000,0.000" :=
  ⟨⟨rfl, rfl, rfl, by rintro r ⟨⟩⟩, by simp [exKml], by decide +kernel⟩

/-! ### side effects -/

/-- **C125**, negation: whatever the conversion and the precision, exporting a trajectory that is not yet in
geographic coordinates replaces its coordinates by geographic, rounded ones and drops all samples whose rounded
horizontal position occurred before. -/
theorem C125_export_changes_trajectory (conv : Int → V3 K → V3 K) (rnd : K → V3 K → V3 K) (prec : K) {T : Traj K R}
    (hT : Coherent T) (hne : T.pos ≠ []) (he : T.epsg ≠ 4326) :
    ∃ doc T', createKml (some conv) rnd prec T = (.ok doc, T') ∧ T' ≠ T ∧ T'.epsg = 4326 ∧
      T'.pos.map (fun p => (p.x, p.y)) = (roundedLatLon conv (rnd prec) T).eraseDups ∧
      T'.tstamps.length = (roundedLatLon conv (rnd prec) T).eraseDups.length := by
  obtain ⟨idx, hidx, hk⟩ := createKml_eq (conv := conv) (rnd := rnd) (prec := prec) hT hne
  have hrows : (pick idx (rounded conv (rnd prec) T).pos).map (fun p => (p.x, p.y)) =
      (roundedLatLon conv (rnd prec) T).eraseDups := by
    rw [← pick_firstIndices, ← hidx, ← pick_map]
    simp [rounded, roundedLatLon, List.map_map, Function.comp_def]
  refine ⟨_, _, hk, fun h => he (by rw [← h]; rfl), rfl, hrows, ?_⟩
  rw [← hrows, List.length_map]
  exact pick_length (by simp [rounded, hT.pos])

example : Coherent exKml ∧ exKml.pos ≠ [] ∧ exKml.epsg ≠ 4326 ∧
    (createKml (some (fun _ p => p)) (fun _ p => p) 1 exKml).2.tstamps = [0, 1, 3] :=
  ⟨⟨rfl, rfl, rfl, by rintro r ⟨⟩⟩, by simp [exKml], by decide, by decide +kernel⟩

theorem firstIndices_nodup {α : Type} [DecidableEq α] {rows : List α} (h : rows.Nodup) :
    firstIndices rows = List.range rows.length := by
  unfold firstIndices
  rw [List.filter_eq_self]
  intro i hi
  rw [List.mem_range] at hi
  simp only [decide_eq_true_eq, List.mem_map, not_exists, not_and]
  intro a ha he
  rw [List.getElem?_eq_getElem hi, Option.some.injEq] at he
  subst he
  obtain ⟨j, hj, hji⟩ := List.mem_iff_getElem.mp ha
  simp only [List.length_take] at hj
  rw [List.getElem_take] at hji
  have := (List.Nodup.getElem_inj_iff h).mp hji
  omega

theorem filterMap_range {α : Type} (l : List α) : (List.range l.length).filterMap (fun i => l[i]?) = l := by
  induction l using List.reverseRecOn with
  | nil => rfl
  | append_singleton l a ih =>
    rw [List.length_append, List.length_singleton, List.range_succ, List.filterMap_append]
    congr 1
    · conv_rhs => rw [← ih]
      apply List.filterMap_congr
      intro i hi
      rw [List.getElem?_append_left (List.mem_range.mp hi)]
    · simp

theorem pick_range {α : Type} {n : Nat} {l : List α} (h : l.length = n) :
    pick (.ints ((List.range n).map (fun i : Nat => (i : Int)))) l = l := by
  subst h
  conv_rhs => rw [← filterMap_range l]
  simp only [pick, List.filterMap_map]
  apply List.filterMap_congr
  intro i hi
  simp only [Function.comp, pyPos_nat (List.mem_range.mp hi)]
  rfl

/-- **C125**, positive part: a trajectory that is already in geographic coordinates, rounded and without repeated
horizontal positions is not changed. -/
theorem C125_export_keeps_partial {conv : Int → V3 K → V3 K} {rnd : K → V3 K → V3 K} {prec : K} {T : Traj K R}
    (hT : Coherent T) (hne : T.pos ≠ []) (he : T.epsg = 4326) (hconv : ∀ p, conv 4326 p = p)
    (hrnd : ∀ p ∈ T.pos, rnd prec p = p) (hnd : (T.pos.map (fun p => (p.x, p.y))).Nodup) :
    (createKml (some conv) rnd prec T).2 = T := by
  obtain ⟨idx, hidx, hk⟩ := createKml_eq (conv := conv) (rnd := rnd) (prec := prec) hT hne
  rw [hk]
  have hpos : (T.pos.map (conv T.epsg)).map (rnd prec) = T.pos := by
    rw [List.map_map]
    conv_rhs => rw [← List.map_id T.pos]
    apply List.map_congr_left
    intro p hp
    simp [he, hconv, hrnd p hp]
  have hr : rounded conv (rnd prec) T = T := by
    unfold rounded
    rw [hpos, ← he]
  have hrows : roundedLatLon conv (rnd prec) T = T.pos.map (fun p => (p.x, p.y)) := by
    unfold roundedLatLon
    apply List.map_congr_left
    intro p hp
    simp [he, hconv, hrnd p hp]
  rw [hrows, firstIndices_nodup hnd, List.length_map] at hidx
  simp only [hr, hidx]
  unfold pickTraj
  rw [pick_range rfl, pick_range (by rw [hT.pos]), pick_range (by rw [hT.arc, hT.pos]),
    pick_range (by rw [hT.speed, hT.pos])]
  cases h : T.rot with
  | none => cases T; simp_all
  | some r =>
    have := pick_range (l := r) (n := T.pos.length) (by rw [hT.rot r h, hT.pos])
    simp only [Option.map_some, this]
    cases T; simp_all

/-! ### maps -/

section maps
variable {K R : Type} [Field K] [LinearOrder K]

theorem convertAll_run (l : List (Nat × (Int → V3 K → V3 K))) (h : Heap K R) (hb : ∀ s ∈ l, s.1 < h.length)
    (hn : (l.map Prod.fst).Nodup) :
    ∃ h', convertAll l h = (.ok (), h') ∧ h'.length = h.length ∧
      (∀ s ∈ l, ∀ T, h[s.1]? = some T → h'[s.1]? = some (inWgs84 s.2 T)) ∧
      ∀ r, r ∉ l.map Prod.fst → h'[r]? = h[r]? := by
  induction l generalizing h with
  | nil => exact ⟨h, rfl, rfl, by simp, by simp⟩
  | cons s l ih =>
    obtain ⟨r, conv⟩ := s
    have hr : r < h.length := hb (r, conv) (by simp)
    simp only [List.map_cons, List.nodup_cons] at hn
    have h1 : onRef r (toWgs84 conv) h = (.ok (), h.set r (inWgs84 conv h[r])) := by
      unfold onRef
      rw [List.getElem?_eq_getElem hr]
      rfl
    obtain ⟨h', he, hl, hs, ho⟩ := ih (h.set r (inWgs84 conv h[r]))
      (fun s hs => by simpa using hb s (by simp [hs])) hn.2
    refine ⟨h', ?_, by simpa using hl, ?_, ?_⟩
    · unfold convertAll
      rw [SE.run_bind_ok h1, he]
    · intro s hs' T hT
      rcases List.mem_cons.mp hs' with rfl | hs'
      · rw [ho _ hn.1, List.getElem?_set_self hr]
        rw [List.getElem?_eq_getElem hr, Option.some.injEq] at hT
        rw [← hT]
      · refine hs s hs' T ?_
        have hrs : r ≠ s.1 := fun e => hn.1 (e ▸ List.mem_map_of_mem hs')
        rw [List.getElem?_set_ne hrs]
        exact hT
    · intro k hk
      simp only [List.map_cons, List.mem_cons, not_or] at hk
      rw [ho k hk.2, List.getElem?_set_ne (fun e => hk.1 e.symm)]

theorem readAll_run (refs : List Nat) (T : Nat → Traj K R) (h : Heap K R) (hT : ∀ r ∈ refs, h[r]? = some (T r)) :
    readAll refs h = (.ok (refs.map (fun r => ((T r).name, (T r).pos))), h) := by
  induction refs with
  | nil => rfl
  | cons r refs ih =>
    unfold readAll
    have h1 : rd r h = (.ok (T r), h) := by simp [rd, hT r (by simp)]
    rw [SE.run_bind_ok h1, SE.run_bind_ok (ih (fun r hr => hT r (by simp [hr])))]
    rfl

/-- the trajectories all have transformers -/
theorem plotable_all (refs : List Nat) (conv : Nat → Int → V3 K → V3 K) :
    (refs.map (fun r => (r, some (conv r)))).filterMap (fun s => s.2.map (fun c => (s.1, c))) =
      refs.map (fun r => (r, conv r)) := by
  rw [List.filterMap_map]
  induction refs with
  | nil => rfl
  | cons r refs ih => simp

theorem renderMap_run {order : Str} (refs : List Nat) (conv : Nat → Int → V3 K → V3 K) (T : Nat → Traj K R)
    (h : Heap K R) (hT : ∀ r ∈ refs, h[r]? = some (T r)) (hn : refs.Nodup) (hne : refs ≠ []) {a b : Nat} {axes : List Nat}
    (hax : mapE axisIndex order = .ok (a :: b :: axes)) :
    ∃ fig h', renderMap order (refs.map (fun r => (r, some (conv r)))) h = (.ok (some fig), h') ∧
      (∀ r ∈ refs, h'[r]? = some (inWgs84 (conv r) (T r))) ∧ (∀ r, r ∉ refs → h'[r]? = h[r]?) ∧
      fig.traces = refs.map (fun r => ((T r).name, ((inWgs84 (conv r) (T r)).pos).map (coordinate a),
        ((inWgs84 (conv r) (T r)).pos).map (coordinate b))) ∧
      fig.centre = (((refs.flatMap (fun r => (inWgs84 (conv r) (T r)).pos)).map (fun p => p.x)).sum /
          (refs.flatMap (fun r => (inWgs84 (conv r) (T r)).pos)).length,
        ((refs.flatMap (fun r => (inWgs84 (conv r) (T r)).pos)).map (fun p => p.y)).sum /
          (refs.flatMap (fun r => (inWgs84 (conv r) (T r)).pos)).length) := by
  obtain ⟨h', hc, hl, hs, ho⟩ := convertAll_run (refs.map (fun r => (r, conv r))) h
    (by
      intro s hs
      obtain ⟨r, hr, rfl⟩ := List.mem_map.mp hs
      exact (List.getElem?_eq_some_iff.mp (hT r hr)).1)
    (by simpa [List.map_map, Function.comp_def] using hn)
  have hs' : ∀ r ∈ refs, h'[r]? = some (inWgs84 (conv r) (T r)) := fun r hr =>
    hs (r, conv r) (List.mem_map_of_mem hr) (T r) (hT r hr)
  have hread := readAll_run refs (fun r => inWgs84 (conv r) (T r)) h' hs'
  refine ⟨⟨(_, _), _⟩, h', ?_, hs', fun r hr => ho r (by simpa [List.map_map, Function.comp_def] using hr), rfl, rfl⟩
  unfold renderMap
  rw [plotable_all]
  simp only [List.length_map, ne_eq, not_true, if_false]
  rw [SE.run_bind_ok hc, hax, SE.run_bind_ok (SE.run_lift _ _), List.map_map,
    show ((fun s : Nat × (Int → V3 K → V3 K) => s.1) ∘ fun r => (r, conv r)) = id from rfl, List.map_id,
    SE.run_bind_ok hread, if_neg (by simpa using hne)]
  simp [List.map_map, Function.comp_def, List.flatMap]
  exact fun _ _ => rfl

theorem mapE_axis_cons {c d : Char} {rest : Str} {a b : Nat} (ha : axisIndex c = .ok a) (hb : axisIndex d = .ok b)
    (hr : ∀ c ∈ rest, c = 'x' ∨ c = 'y' ∨ c = 'z') : ∃ axes, mapE axisIndex (c :: d :: rest) = .ok (a :: b :: axes) := by
  have : ∃ axes, mapE axisIndex rest = .ok axes := by
    induction rest with
    | nil => exact ⟨[], rfl⟩
    | cons e rest ih =>
      obtain ⟨axes, h⟩ := ih (fun c hc => hr c (by simp [hc]))
      rcases hr e (by simp) with rfl | rfl | rfl
      · exact ⟨0 :: axes, mapE_cons rfl h⟩
      · exact ⟨1 :: axes, mapE_cons rfl h⟩
      · exact ⟨2 :: axes, mapE_cons rfl h⟩
  obtain ⟨axes, h⟩ := this
  exact ⟨axes, mapE_cons ha (mapE_cons hb h)⟩

/-- **C127**, positive part: with the axis order beginning with `xy` the map shows every trajectory at its latitudes
and longitudes and is centred at their mean, whatever the trajectories, systems and conversions. -/
theorem C127_map_shows_positions_partial {rest : Str} (hr : ∀ c ∈ rest, c = 'x' ∨ c = 'y' ∨ c = 'z') (refs : List Nat)
    (conv : Nat → Int → V3 K → V3 K) (T : Nat → Traj K R) (h : Heap K R) (hT : ∀ r ∈ refs, h[r]? = some (T r))
    (hn : refs.Nodup) (hne : refs ≠ []) :
    ∃ fig h', renderMap ('x' :: 'y' :: rest) (refs.map (fun r => (r, some (conv r)))) h = (.ok (some fig), h') ∧
      ShowsMap refs conv T fig := by
  obtain ⟨axes, hax⟩ := mapE_axis_cons (c := 'x') (d := 'y') rfl rfl hr
  obtain ⟨fig, h', he, -, -, ht, hc⟩ := renderMap_run refs conv T h hT hn hne hax
  refine ⟨fig, h', he, ?_, ?_⟩
  · rw [ht]
    simp [inWgs84, List.map_map, Function.comp_def, coordinate]
  · rw [hc]
    simp [inWgs84, List.map_flatMap, List.map_map, Function.comp_def, List.length_flatMap]

/-- **C127**, negation: with the axis order beginning with `yx`, latitudes and longitudes of every trajectory are
exchanged while the centre of the map stays where it was: as soon as one position has different latitude and longitude
the map is wrong. -/
theorem C127_axis_order_swaps_map {rest : Str} (hr : ∀ c ∈ rest, c = 'x' ∨ c = 'y' ∨ c = 'z') (refs : List Nat)
    (conv : Nat → Int → V3 K → V3 K) (T : Nat → Traj K R) (h : Heap K R) (hT : ∀ r ∈ refs, h[r]? = some (T r))
    (hn : refs.Nodup) {r : Nat} (hm : r ∈ refs) {p : V3 K} (hp : p ∈ (T r).pos)
    (hd : (conv r (T r).epsg p).x ≠ (conv r (T r).epsg p).y) :
    ∃ fig h', renderMap ('y' :: 'x' :: rest) (refs.map (fun r => (r, some (conv r)))) h = (.ok (some fig), h') ∧
      ¬ ShowsMap refs conv T fig := by
  obtain ⟨axes, hax⟩ := mapE_axis_cons (c := 'y') (d := 'x') rfl rfl hr
  obtain ⟨fig, h', he, -, -, ht, hc⟩ := renderMap_run refs conv T h hT hn (List.ne_nil_of_mem hm) hax
  refine ⟨fig, h', he, ?_⟩
  rintro ⟨hs, -⟩
  rw [ht, List.map_inj_left] at hs
  have := hs r hm
  simp only [inWgs84, Prod.mk.injEq, true_and, List.map_map, List.map_inj_left] at this
  exact hd (this.1 p hp).symm

/-- **C126**, negation: rendering a map of trajectories that all have transformers converts every one of them to
geographic coordinates; a trajectory in another system is changed. -/
theorem C126_rendering_changes_trajectories {c d : Char} {rest : Str} (hc : c = 'x' ∨ c = 'y' ∨ c = 'z')
    (hd : d = 'x' ∨ d = 'y' ∨ d = 'z') (hr : ∀ c ∈ rest, c = 'x' ∨ c = 'y' ∨ c = 'z') (refs : List Nat)
    (conv : Nat → Int → V3 K → V3 K) (T : Nat → Traj K R) (h : Heap K R) (hT : ∀ r ∈ refs, h[r]? = some (T r))
    (hn : refs.Nodup) {r : Nat} (hm : r ∈ refs) (he : (T r).epsg ≠ 4326) :
    ∃ fig h', renderMap (c :: d :: rest) (refs.map (fun r => (r, some (conv r)))) h = (.ok (some fig), h') ∧
      h'[r]? = some (inWgs84 (conv r) (T r)) ∧ h'[r]? ≠ h[r]? := by
  have hax : ∃ a b axes, mapE axisIndex (c :: d :: rest) = .ok (a :: b :: axes) := by
    have key : ∀ c : Char, c = 'x' ∨ c = 'y' ∨ c = 'z' → ∃ a, axisIndex c = .ok a := by
      rintro c (rfl | rfl | rfl)
      exacts [⟨0, rfl⟩, ⟨1, rfl⟩, ⟨2, rfl⟩]
    obtain ⟨a, ha⟩ := key c hc
    obtain ⟨b, hb⟩ := key d hd
    obtain ⟨axes, h⟩ := mapE_axis_cons ha hb hr
    exact ⟨a, b, axes, h⟩
  obtain ⟨a, b, axes, hax⟩ := hax
  obtain ⟨fig, h', hrun, hs, -, -, -⟩ := renderMap_run refs conv T h hT hn (List.ne_nil_of_mem hm) hax
  refine ⟨fig, h', hrun, hs r hm, ?_⟩
  rw [hs r hm, hT r hm]
  intro e
  rw [Option.some.injEq] at e
  exact he (by rw [← e]; rfl)

/-- **C126**, positive part: if one of the trajectories has no transformer nothing is drawn and nothing changes. -/
theorem C126_local_trajectory_keeps_partial (order : Str) (trajs : List (Nat × Transformer K)) (h : Heap K R)
    {s : Nat × Transformer K} (hs : s ∈ trajs) (hn : s.2 = none) : renderMap order trajs h = (.ok none, h) := by
  have hlt : (trajs.filterMap (fun s => s.2.map (fun conv => (s.1, conv)))).length < trajs.length := by
    refine lt_of_le_of_ne (List.length_filterMap_le _ _) ?_
    intro e
    have := List.filterMap_length_eq_length.mp e s hs
    simp [hn] at this
  unfold renderMap
  rw [if_pos (Nat.ne_of_lt hlt)]
  rfl

/-- **C126**, positive part: trajectories that are not drawn are not touched. -/
theorem C126_others_keep_partial {c d : Char} {rest : Str} (hc : c = 'x' ∨ c = 'y' ∨ c = 'z')
    (hd : d = 'x' ∨ d = 'y' ∨ d = 'z') (hr : ∀ c ∈ rest, c = 'x' ∨ c = 'y' ∨ c = 'z') (refs : List Nat)
    (conv : Nat → Int → V3 K → V3 K) (T : Nat → Traj K R) (h : Heap K R) (hT : ∀ r ∈ refs, h[r]? = some (T r))
    (hn : refs.Nodup) (hne : refs ≠ []) {k : Nat} (hk : k ∉ refs) :
    (renderMap (c :: d :: rest) (refs.map (fun r => (r, some (conv r)))) h).2[k]? = h[k]? := by
  have key : ∀ c : Char, c = 'x' ∨ c = 'y' ∨ c = 'z' → ∃ a, axisIndex c = .ok a := by
    rintro c (rfl | rfl | rfl)
    exacts [⟨0, rfl⟩, ⟨1, rfl⟩, ⟨2, rfl⟩]
  obtain ⟨a, ha⟩ := key c hc
  obtain ⟨b, hb⟩ := key d hd
  obtain ⟨axes, hax⟩ := mapE_axis_cons ha hb hr
  obtain ⟨fig, h', hrun, -, ho, -, -⟩ := renderMap_run refs conv T h hT hn hne hax
  rw [hrun]
  exact ho k hk

example : (∀ r ∈ [0], [exKml][r]? = some ((fun _ => exKml) r)) ∧ [0].Nodup ∧ (⟨50, 7, 1⟩ : V3 ℚ) ∈ exKml.pos ∧
    exKml.epsg ≠ 4326 ∧
    ((renderMap ['x', 'y'] [(0, some (fun _ p => p))] [exKml]).1.toOption.map (fun f => f.map (fun f => f.traces))) =
      some (some [("ex", [50, 51, 50, 51], [7, 8, 7, 7])]) ∧
    ((renderMap ['y', 'x'] [(0, some (fun _ p => p))] [exKml]).1.toOption.map (fun f => f.map (fun f => f.centre))) =
      some (some (101 / 2, 29 / 4)) :=
  ⟨by simp, by simp, by simp [exKml], by decide, by decide +kernel, by decide +kernel⟩

end maps

end Geo
end TC
