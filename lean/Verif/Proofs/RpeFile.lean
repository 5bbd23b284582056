import Verif.Spec.ResultIO
import Verif.Proofs.TrajFile
/-!
# Reading back a written RPE result
-/
namespace TC
set_option linter.unusedSectionVars false
variable {K R : Type} [Field K] [LinearOrder K] [IsStrictOrderedRing K] [FloorRing K]

/-! ### lines of a file -/

/-- the lines pandas looks at -/
def csvLines (ls : List Str) : List Str := (ls.map stripComment).filter (fun l => !l.all pySpace)

theorem dataLines_eq (s : Str) : dataLines s = csvLines (fileLines s) := rfl

theorem csvLines_append (a b : List Str) : csvLines (a ++ b) = csvLines a ++ csvLines b := by
  simp [csvLines]

theorem csvLines_comments {ls : List Str} (h : ∀ l ∈ ls, ∃ r, l = '#' :: r) : csvLines ls = [] := by
  unfold csvLines
  rw [List.filter_eq_nil_iff]
  intro l hl
  obtain ⟨x, hx, rfl⟩ := List.mem_map.mp hl
  obtain ⟨r, rfl⟩ := h x hx
  simp [stripComment_comment]

theorem csvLines_rows {rows : List (List Str)} (hr : ∀ row ∈ rows, 2 ≤ row.length ∧ ∀ c ∈ row, PlainCell c) :
    csvLines (rows.map (pyJoin [','])) = rows.map (pyJoin [',']) := by
  unfold csvLines
  have h2 : (rows.map (pyJoin [','])).map stripComment = rows.map (pyJoin [',']) := by
    rw [List.map_map]
    apply List.map_congr_left
    intro row hrow
    exact stripComment_none (join_noHash (hr row hrow).2)
  rw [h2]
  apply List.filter_eq_self.mpr
  intro l hl
  obtain ⟨row, hrow, rfl⟩ := List.mem_map.mp hl
  rw [join_notBlank (hr row hrow).1]; rfl

theorem split_rows {rows : List (List Str)} (hr : ∀ row ∈ rows, 2 ≤ row.length ∧ ∀ c ∈ row, PlainCell c) :
    (rows.map (pyJoin [','])).map (pySplitOn ',') = rows := by
  rw [List.map_map]
  conv_rhs => rw [← List.map_id rows]
  apply List.map_congr_left
  intro row h
  exact pySplitOn_join (by intro e; have := (hr row h).1; rw [e] at this; simp at this)
    (fun c hc => ((hr row h).2 c hc).noComma)

theorem fileLines_csvRows {rows : List (List Str)} (hr : ∀ row ∈ rows, ∀ c ∈ row, PlainCell c) (rest : Str) :
    fileLines (csvRows rows ++ rest) = rows.map (pyJoin [',']) ++ fileLines rest := by
  rw [csvRows_eq]
  exact fileLines_linesText (by
    intro l hl
    obtain ⟨row, hrow, rfl⟩ := List.mem_map.mp hl
    exact join_oneLine (hr row hrow)) rest

theorem handleLines_rows {rows : List (List Str)} (hr : ∀ row ∈ rows, ∀ c ∈ row, PlainCell c) (m : HMeta K) :
    handleLines m (rows.map (pyJoin [','])) = .ok m := by
  apply handleLines_data
  intro l hl c r e
  obtain ⟨row, hrow, rfl⟩ := List.mem_map.mp hl
  rintro rfl
  have hh := join_noHash (hr row hrow)
  rw [e] at hh
  simp at hh

/-- a column of a table of formatted cells -/
theorem column_eq {σ : Type} {d : Nat} {S : List σ} {f : σ → List (Option K)} {g : σ → Option K}
    {cols : List Str} {name : Str} {i : Nat} (hi : cols.findIdx? (fun c => decide (c = name)) = some i)
    (hg : ∀ s ∈ S, (f s)[i]? = some (g s)) :
    column (cols, S.map (fun s => (f s).map (fmtCell d))) name
      = .ok (S.map (fun s => (g s).map (roundTo d))) := by
  unfold column
  simp only [hi]
  apply mapE_map_ok
  intro s hs
  simp only [List.getElem?_map, hg s hs, Option.map_some]
  exact cellNum_fmtCell d (g s)

/-! ### groups -/

/-- what a group looks like after writing and reading -/
def roundGroup (d : Nat) (g : RpeGroup K) : RpeGroup K :=
  { key := (g.pairDist.map (roundTo d)).sum / (g.pairDist.length : K)
    posDev := g.posDev.map (Option.map (roundTo d))
    rotDev := g.rotDev.map (Option.map (roundTo d))
    pairDist := g.pairDist.map (roundTo d) }

/-- the rows of a group -/
def groupRows (w : Bool) (g : RpeGroup K) : List (List (Option K)) :=
  if w then ((g.pairDist.map some).zip (g.posDev.zip g.rotDev)).map (fun s => [s.1, s.2.1, s.2.2])
  else ((g.pairDist.map some).zip g.posDev).map (fun s => [s.1, s.2])

/-- the column names -/
def rpeCols (w : Bool) : List Str :=
  if w then ["pair_distance", "pos_dev", "rot_dev"].map String.toList
  else ["pair_distance", "pos_dev"].map String.toList

/-- a group whose lists fit -/
def GroupOk (w : Bool) (g : RpeGroup K) : Prop :=
  g.posDev.length = g.pairDist.length ∧ (if w then g.rotDev.length = g.pairDist.length else g.rotDev = [])

theorem flatten_zip {α β : Type} {γ : Type} (a : γ → List α) (b : γ → List β) : ∀ (l : List γ),
    (∀ g ∈ l, (a g).length = (b g).length) →
    ((l.map a).flatten).zip ((l.map b).flatten) = (l.map (fun g => (a g).zip (b g))).flatten
  | [], _ => rfl
  | g :: l, h => by
    simp only [List.map_cons, List.flatten_cons]
    rw [List.zip_append (h g (by simp)), flatten_zip a b l (fun x hx => h x (by simp [hx]))]

theorem flatten_length {α β γ : Type} (a : γ → List α) (b : γ → List β) : ∀ (l : List γ),
    (∀ g ∈ l, (a g).length = (b g).length) → ((l.map a).flatten).length = ((l.map b).flatten).length
  | [], _ => rfl
  | g :: l, h => by
    simp only [List.map_cons, List.flatten_cons, List.length_append]
    rw [h g (by simp), flatten_length a b l (fun x hx => h x (by simp [hx]))]

theorem frameRows_eq {r : RpeResult K} {w : Bool} (hw : r.hasRotDev = w) (hg : ∀ g ∈ r.groups, GroupOk w g) :
    r.frameRows = .ok ((r.groups.map (groupRows w)).flatten) := by
  unfold RpeResult.frameRows RpeResult.getAll
  simp only [hw]
  have hp := flatten_length RpeGroup.posDev (fun g : RpeGroup K => g.pairDist.map some) r.groups
    (fun g h => by rw [(hg g h).1, List.length_map])
  cases w with
  | false =>
    simp only [Bool.false_eq_true, if_false]
    rw [if_pos hp, flatten_zip _ _ _ (fun g h => by rw [(hg g h).1, List.length_map]), List.map_flatten,
      List.map_map]
    rfl
  | true =>
    have hr : ∀ g ∈ r.groups, g.rotDev.length = g.pairDist.length := fun g h => by
      have := (hg g h).2
      simpa using this
    have hq := flatten_length RpeGroup.rotDev (fun g : RpeGroup K => g.pairDist.map some) r.groups
      (fun g h => by rw [hr g h, List.length_map])
    simp only [if_true]
    rw [if_pos ⟨hp, hq⟩, flatten_zip _ _ _ (fun g h => by rw [(hg g h).1, hr g h]),
      flatten_zip _ (fun g : RpeGroup K => g.posDev.zip g.rotDev) _
        (fun g h => by rw [List.length_map, List.length_zip, (hg g h).1, hr g h, min_self]), List.map_flatten,
      List.map_map]
    rfl

theorem groupRows_length {w : Bool} {g : RpeGroup K} (h : GroupOk w g) :
    (groupRows w g).length = g.pairDist.length := by
  unfold groupRows
  obtain ⟨h1, h2⟩ := h
  cases w with
  | false => simp [h1]
  | true =>
    simp only [if_true] at h2 ⊢
    simp [h1, h2]

theorem groupRows_row {w : Bool} {g : RpeGroup K} : ∀ row ∈ groupRows w g, row.length = (rpeCols w).length := by
  intro row hrow
  unfold groupRows at hrow
  cases w with
  | false =>
    simp only [Bool.false_eq_true, if_false, List.mem_map] at hrow
    obtain ⟨s, -, rfl⟩ := hrow; rfl
  | true =>
    simp only [if_true, List.mem_map] at hrow
    obtain ⟨s, -, rfl⟩ := hrow; rfl

theorem numbers_mapSome (l : List K) : numbers (l.map some) = .ok l := by
  unfold numbers
  induction l with
  | nil => rfl
  | cons a l ih => simp only [List.map_cons, mapE, ih, bind, Except.bind]; rfl

theorem readGroup_eq {w : Bool} {d : Nat} {g : RpeGroup K} (hg : GroupOk w g) (hne : g.pairDist ≠ [])
    {pre post : List (List Str)} {start : Nat} (hs : start = pre.length) :
    readGroup (rpeCols w, pre ++ ((groupRows w g).map (fun c => c.map (fmtCell d)) ++ post)) start
      g.pairDist.length = .ok (roundGroup d g) := by
  have hblock : ((pre ++ ((groupRows w g).map (fun c => c.map (fmtCell d)) ++ post)).drop start).take
      g.pairDist.length = (groupRows w g).map (fun c => c.map (fmtCell d)) := by
    rw [hs, List.drop_left, List.take_append_of_le_length (by rw [List.length_map, groupRows_length hg]),
      List.take_of_length_le (by rw [List.length_map, groupRows_length hg])]
  have hmean : npMean (g.pairDist.map (roundTo d))
      = .ok ((g.pairDist.map (roundTo d)).sum / (g.pairDist.length : K)) := by
    unfold npMean
    rw [if_neg (by simpa using hne), List.length_map]
  unfold readGroup
  simp only [hblock]
  obtain ⟨h1, h2⟩ := hg
  have fstZip : ∀ {β : Type} (b : List β), b.length = g.pairDist.length →
      ((g.pairDist.map some).zip b).map (fun s => s.1.map (roundTo d)) = (g.pairDist.map (roundTo d)).map some := by
    intro β b hb
    have : ((g.pairDist.map some).zip b).map (fun s => s.1.map (roundTo d))
        = (((g.pairDist.map some).zip b).map Prod.fst).map (Option.map (roundTo d)) := by
      rw [List.map_map]; rfl
    rw [this, List.map_fst_zip (by simp [hb]), List.map_map, List.map_map]; rfl
  cases w with
  | false =>
    simp only [Bool.false_eq_true, if_false] at h2
    have hrows : (groupRows false g) = ((g.pairDist.map some).zip g.posDev).map (fun s => [s.1, s.2]) := rfl
    have c1 : column (rpeCols false, (groupRows false g).map (fun c => c.map (fmtCell d))) "pair_distance".toList
        = .ok ((g.pairDist.map (roundTo d)).map some) := by
      rw [hrows, List.map_map]
      have := column_eq (d := d) (S := (g.pairDist.map some).zip g.posDev) (f := fun s => [s.1, s.2])
        (g := fun s => s.1) (cols := rpeCols false) (name := "pair_distance".toList) (i := 0) (by decide)
        (fun s _ => rfl)
      rw [fstZip _ h1] at this
      exact this
    have c2 : column (rpeCols false, (groupRows false g).map (fun c => c.map (fmtCell d))) "pos_dev".toList
        = .ok (g.posDev.map (Option.map (roundTo d))) := by
      rw [hrows, List.map_map]
      have := column_eq (d := d) (S := (g.pairDist.map some).zip g.posDev) (f := fun s => [s.1, s.2])
        (g := fun s => s.2) (cols := rpeCols false) (name := "pos_dev".toList) (i := 1) (by decide)
        (fun s _ => rfl)
      have e : ((g.pairDist.map some).zip g.posDev).map (fun s => s.2.map (roundTo d))
          = (((g.pairDist.map some).zip g.posDev).map Prod.snd).map (Option.map (roundTo d)) := by
        rw [List.map_map]; rfl
      rw [e, List.map_snd_zip (by simp [h1])] at this
      exact this
    rw [c1, c2]
    simp only [bind, Except.bind]
    rw [if_neg (by decide), numbers_mapSome]
    simp only [hmean]
    simp only [roundGroup, h2, List.map_nil]
    rfl
  | true =>
    simp only [if_true] at h2
    have hrows : (groupRows true g) = ((g.pairDist.map some).zip (g.posDev.zip g.rotDev)).map
      (fun s => [s.1, s.2.1, s.2.2]) := rfl
    have hz : (g.posDev.zip g.rotDev).length = g.pairDist.length := by simp [h1, h2]
    have c1 : column (rpeCols true, (groupRows true g).map (fun c => c.map (fmtCell d))) "pair_distance".toList
        = .ok ((g.pairDist.map (roundTo d)).map some) := by
      rw [hrows, List.map_map]
      have := column_eq (d := d) (S := (g.pairDist.map some).zip (g.posDev.zip g.rotDev))
        (f := fun s => [s.1, s.2.1, s.2.2])
        (g := fun s => s.1) (cols := rpeCols true) (name := "pair_distance".toList) (i := 0) (by decide)
        (fun s _ => rfl)
      rw [fstZip _ hz] at this
      exact this
    have c2 : column (rpeCols true, (groupRows true g).map (fun c => c.map (fmtCell d))) "pos_dev".toList
        = .ok (g.posDev.map (Option.map (roundTo d))) := by
      rw [hrows, List.map_map]
      have := column_eq (d := d) (S := (g.pairDist.map some).zip (g.posDev.zip g.rotDev))
        (f := fun s => [s.1, s.2.1, s.2.2])
        (g := fun s => s.2.1) (cols := rpeCols true) (name := "pos_dev".toList) (i := 1) (by decide)
        (fun s _ => rfl)
      have e : ((g.pairDist.map some).zip (g.posDev.zip g.rotDev)).map (fun s => s.2.1.map (roundTo d))
          = ((((g.pairDist.map some).zip (g.posDev.zip g.rotDev)).map Prod.snd).map Prod.fst).map
            (Option.map (roundTo d)) := by
        rw [List.map_map, List.map_map]; rfl
      rw [e, List.map_snd_zip (by simp [h1, h2]), List.map_fst_zip (by simp [h1, h2])] at this
      exact this
    have c3 : column (rpeCols true, (groupRows true g).map (fun c => c.map (fmtCell d))) "rot_dev".toList
        = .ok (g.rotDev.map (Option.map (roundTo d))) := by
      rw [hrows, List.map_map]
      have := column_eq (d := d) (S := (g.pairDist.map some).zip (g.posDev.zip g.rotDev))
        (f := fun s => [s.1, s.2.1, s.2.2])
        (g := fun s => s.2.2) (cols := rpeCols true) (name := "rot_dev".toList) (i := 2) (by decide)
        (fun s _ => rfl)
      have e : ((g.pairDist.map some).zip (g.posDev.zip g.rotDev)).map (fun s => s.2.2.map (roundTo d))
          = ((((g.pairDist.map some).zip (g.posDev.zip g.rotDev)).map Prod.snd).map Prod.snd).map
            (Option.map (roundTo d)) := by
        rw [List.map_map, List.map_map]; rfl
      rw [e, List.map_snd_zip (by simp [h1, h2]), List.map_snd_zip (by simp [h1, h2])] at this
      exact this
    rw [c1, c2, c3]
    simp only [bind, Except.bind]
    rw [if_pos (by decide), numbers_mapSome]
    simp only [hmean]
    rfl

/-- the loop over the groups of a written file -/
theorem readGroups_eq {w : Bool} {d : Nat} : ∀ (gs : List (RpeGroup K)), (∀ g ∈ gs, GroupOk w g ∧ g.pairDist ≠ []) →
    ∀ (pre post : List (List Str)) (acc : List (RpeGroup K)),
    readGroups (rpeCols w, pre ++ (((gs.map (groupRows w)).flatten).map (fun c => c.map (fmtCell d)) ++ post))
      pre.length (gs.map (fun g => (g.pairDist.length : Int))) acc
      = .ok (gs.foldl (fun a g => setGroup (roundGroup d g) a) acc)
  | [], _, _, _, _ => rfl
  | g :: gs, h, pre, post, acc => by
    obtain ⟨hg, hne⟩ := h g (by simp)
    have hr := readGroup_eq (d := d) hg hne (pre := pre)
      (post := ((gs.map (groupRows w)).flatten).map (fun c => c.map (fmtCell d)) ++ post) rfl
    simp only [List.map_cons, List.flatten_cons, List.map_append, List.append_assoc, readGroups]
    rw [if_neg (by omega)]
    simp only [Int.toNat_natCast]
    rw [hr]
    simp only [bind, Except.bind, List.foldl_cons]
    have ih := readGroups_eq (d := d) gs (fun x hx => h x (by simp [hx]))
      (pre ++ (groupRows w g).map (fun c => c.map (fmtCell d))) post (setGroup (roundGroup d g) acc)
    rw [List.length_append, List.length_map, groupRows_length hg, List.append_assoc] at ih
    exact ih

theorem setGroup_new {g : RpeGroup K} : ∀ {l : List (RpeGroup K)}, (∀ h ∈ l, h.key ≠ g.key) →
    setGroup g l = l ++ [g]
  | [], _ => rfl
  | h :: l, hk => by
    simp only [setGroup, hk h (by simp), if_false, List.cons_append]
    rw [setGroup_new (fun x hx => hk x (by simp [hx]))]

theorem foldl_setGroup {d : Nat} : ∀ (gs acc : List (RpeGroup K)),
    gs.Pairwise (fun a b => (roundGroup d a).key ≠ (roundGroup d b).key) →
    (∀ h ∈ acc, ∀ g ∈ gs, h.key ≠ (roundGroup d g).key) →
    gs.foldl (fun a g => setGroup (roundGroup d g) a) acc = acc ++ gs.map (roundGroup d)
  | [], acc, _, _ => by simp
  | g :: gs, acc, hp, ha => by
    simp only [List.foldl_cons, List.map_cons]
    rw [setGroup_new (fun h hh => ha h hh g (by simp))]
    rw [List.pairwise_cons] at hp
    rw [foldl_setGroup gs _ hp.2 (by
      intro h hh x hx
      rcases List.mem_append.mp hh with hh | hh
      · exact ha h hh x (by simp [hx])
      · simp only [List.mem_singleton] at hh
        subst hh
        exact hp.1 x hx)]
    simp

/-! ### the whole file -/

/-- the header lines of an RPE file -/
def rpeHeader (r : RpeResult K) : List Str :=
  ['#' :: "relative_dist_unit".toList ++ ' ' :: r.unit.name, '#' :: "name".toList ++ ' ' :: r.name.toList,
   '#' :: "num_pairs".toList ++ ' ' :: pyJoin [','] (r.numPairs.map natStr)]

theorem unitName_word (u : MUnit) : NoSpace u.name ∧ u.name ≠ [] := by
  cases u <;> exact ⟨by unfold NoSpace; decide, by decide⟩

theorem numPairs_word (r : RpeResult K) : NoSpace (pyJoin [','] (r.numPairs.map natStr)) := by
  intro c hc
  rcases mem_pyJoin hc with hc | ⟨p, hp, hc⟩
  · simp at hc; subst hc; rfl
  · obtain ⟨n, -, rfl⟩ := List.mem_map.mp hp
    exact natStr_noSpace n c hc

theorem rpeHeader_lines {r : RpeResult K} (hname : OneLine r.name.toList) :
    ∀ l ∈ rpeHeader r, OneLine l ∧ ∃ t, l = '#' :: t := by
  have one : ∀ {a b : Str}, OneLine a → OneLine b → OneLine (a ++ ' ' :: b) := by
    intro a b ha hb
    rw [oneLine_append]
    refine ⟨ha, fun c hc => ?_⟩
    rcases List.mem_cons.mp hc with rfl | hc
    · exact ⟨by decide, by decide⟩
    · exact hb c hc
  intro l hl
  simp only [rpeHeader, List.mem_cons, List.not_mem_nil, or_false] at hl
  rcases hl with rfl | rfl | rfl
  · exact ⟨one (by unfold OneLine; decide) (unitName_word _).1.oneLine, _, rfl⟩
  · exact ⟨one (by unfold OneLine; decide) hname, _, rfl⟩
  · exact ⟨one (by unfold OneLine; decide) (numPairs_word r).oneLine, _, rfl⟩

/-- the lines of a written result, followed by more -/
theorem fileLines_rpeHeader {r : RpeResult K} (hname : OneLine r.name.toList) (rest : Str) :
    fileLines (r.fileHeader ++ rest) = rpeHeader r ++ fileLines rest := by
  have e1 : "#relative_dist_unit ".toList = '#' :: "relative_dist_unit".toList ++ [' '] := by decide
  have e2 : "#name ".toList = '#' :: "name".toList ++ [' '] := by decide
  have e3 : "#num_pairs ".toList = '#' :: "num_pairs".toList ++ [' '] := by decide
  have hl := rpeHeader_lines hname
  have e : r.fileHeader ++ rest = ('#' :: "relative_dist_unit".toList ++ ' ' :: r.unit.name) ++ '\n' ::
      (('#' :: "name".toList ++ ' ' :: r.name.toList) ++ '\n' ::
      (('#' :: "num_pairs".toList ++ ' ' :: pyJoin [','] (r.numPairs.map natStr)) ++ '\r' :: '\n' :: rest)) := by
    unfold RpeResult.fileHeader
    rw [e1, e2, e3]
    simp
  rw [e, fileLines_cons (hl _ (by simp [rpeHeader])).1, fileLines_cons (hl _ (by simp [rpeHeader])).1,
    fileLines_cons_crlf (hl _ (by simp [rpeHeader])).1]
  rfl

/-- the metadata of a written result -/
def rpeMeta (r : RpeResult K) : HMeta K :=
  [("num_pairs".toList, .str (pyJoin [','] (r.numPairs.map natStr))), ("name".toList, .str r.name.toList),
   ("relative_dist_unit".toList, .str r.unit.name)]

theorem headerLine_pairs (s : Str) (hs : NoSpace s) :
    HeaderLine "num_pairs".toList ('#' :: "num_pairs".toList ++ ' ' :: s) ∧
    lineHandler (K := K) "num_pairs".toList ('#' :: "num_pairs".toList ++ ' ' :: s) = .ok (.str s) := by
  constructor
  · exact ⟨by unfold NoSpace; decide, ' ' :: s, rfl, by intro c r h; cases h; rfl⟩
  · have hs' : pySplit ('#' :: "num_pairs".toList ++ ' ' :: s) = ('#' :: "num_pairs".toList) :: pySplit s := by
      rw [pySplit_space rfl, pySplit_word (by unfold NoSpace; decide) (by decide)]
      rfl
    have hj : pyJoin [' '] (pySplit s) = s := by
      by_cases h : s = []
      · subst h; rfl
      · rw [pySplit_word hs h]; rfl
    unfold lineHandler
    rw [if_neg (by decide), if_neg (by decide), if_neg (by decide)]
    unfold defaultLineHandler
    rw [hs']
    simp only [List.tail_cons, hj]

theorem handleLines_rpeHeader {r : RpeResult K} (hname : CleanName r.name.toList) (m : HMeta K) :
    handleLines m (rpeHeader r) = .ok (rpeMeta r ++ m) := by
  obtain ⟨h1, v1⟩ := headerLine_text (K := K) (key := "relative_dist_unit".toList) (by decide) (by decide)
    (cleanName_word (unitName_word r.unit).2 (unitName_word r.unit).1)
  obtain ⟨h2, v2⟩ := headerLine_text (K := K) (key := "name".toList) (by decide) (by decide) hname
  obtain ⟨h3, v3⟩ := headerLine_pairs (K := K) _ (numPairs_word r)
  unfold rpeHeader
  simp only [handleLines]
  rw [handleLine_key (by decide) h1 v1]
  simp only [bind, Except.bind]
  rw [handleLine_key (by decide) h2 v2]
  simp only
  rw [handleLine_key (by decide) h3 v3]
  rfl

theorem natStr_noComma (n : Nat) : ',' ∉ natStr n := by
  intro h
  have := List.all_eq_true.mp (natStr_dig n) ',' h
  exact absurd this (by decide)

theorem rpeMeta_numPairs {r : RpeResult K} (h : r.numPairs ≠ []) (m : HMeta K) :
    (rpeMeta r ++ m).numPairs = .ok (r.numPairs.map (fun n : Nat => (n : Int))) := by
  have e : (rpeMeta r ++ m).numPairs = mapE pyInt (pySplitOn ',' (pyJoin [','] (r.numPairs.map natStr))) := rfl
  rw [e, pySplitOn_join (by simpa using h) (by
    intro p hp
    obtain ⟨n, -, rfl⟩ := List.mem_map.mp hp
    exact natStr_noComma n)]
  exact mapE_map_ok (fun n _ => pyInt_natStr n)

theorem unit_readable {u : MUnit} (h : u ≠ .none) : unitFromStr u.name = .ok u := by
  cases u <;> first | exact absurd rfl h | decide

end TC
