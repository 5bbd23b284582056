import Verif.Spec.Columns
import Verif.Props.ReadFile
import Verif.Props.HeaderValues
/-!
# Reading a file by the names of its columns: C171, C172
-/
namespace TC
set_option linter.unusedSectionVars false
variable {K R : Type} [Field K] [LinearOrder K] [IsStrictOrderedRing K] [FloorRing K]

/-! ### the table -/

theorem intercalate_pyJoin (sep : Str) : ∀ (row : List Str), List.intercalate sep row = pyJoin sep row
  | [] => rfl
  | [a] => by simp [pyJoin, List.intercalate]
  | a :: b :: r => by
    have := intercalate_pyJoin sep (b :: r)
    simp only [pyJoin, ← this]
    simp [List.intercalate]

theorem oneLine_join {sep : Char} (hs : sep ≠ '\n' ∧ sep ≠ '\r') {row : List Str} (h : ∀ c ∈ row, OneLine c) :
    OneLine (pyJoin [sep] row) := by
  intro a ha
  rcases mem_pyJoin ha with h1 | ⟨c, hc, h1⟩
  · simp only [List.mem_singleton] at h1; subst h1; exact hs
  · exact h c hc a h1

theorem mem_join {sep : Str} {c : Str} {a : Char} (ha : a ∈ c) : ∀ {row : List Str}, c ∈ row → a ∈ pyJoin sep row
  | [], h => by cases h
  | [b], h => by
    simp only [List.mem_singleton] at h; subst h; exact ha
  | b :: d :: r, h => by
    simp only [pyJoin, List.mem_append]
    rcases List.mem_cons.mp h with rfl | h
    · exact Or.inl (by simp [ha])
    · exact Or.inr (mem_join ha h)

theorem readCsv_table {content : Str} {sep : Char} {rows : List (List Str)} (h : TableFile content sep rows) :
    readCsv sep content = .ok rows := by
  obtain ⟨⟨hdr, hh, e⟩, hne, ⟨w, h2, hw⟩, hc, hb, hs⟩ := h
  have hjoin : rows.map (List.intercalate [sep]) = rows.map (pyJoin [sep]) :=
    List.map_congr_left (fun r _ => intercalate_pyJoin _ r)
  have hline : ∀ l ∈ rows.map (pyJoin [sep]), OneLine l := by
    intro l hl
    obtain ⟨row, hrow, rfl⟩ := List.mem_map.mp hl
    exact oneLine_join ⟨hs.2.1, hs.2.2⟩ (fun c hcc => (hc row hrow c hcc).2.2)
  have hd : dataLines content = rows.map (pyJoin [sep]) := by
    unfold dataLines
    rw [e, hjoin, fileLines_linesText (fun l hl => (hh l hl).1)]
    have e' := fileLines_linesText hline []
    rw [List.append_nil, fileLines_nil, List.append_nil] at e'
    rw [e', List.map_append, List.filter_append]
    have h1 : (hdr.map stripComment).filter (fun l => !l.all pySpace) = [] := by
      rw [List.filter_eq_nil_iff]
      intro l hl
      obtain ⟨x, hx, rfl⟩ := List.mem_map.mp hl
      obtain ⟨-, r, rfl⟩ := hh x hx
      simp [stripComment_comment]
    have h3 : (rows.map (pyJoin [sep])).map stripComment = rows.map (pyJoin [sep]) := by
      rw [List.map_map]
      apply List.map_congr_left
      intro row hrow
      refine stripComment_none (fun hm => ?_)
      rcases mem_pyJoin hm with h1 | ⟨c, hcc, h1⟩
      · simp only [List.mem_singleton] at h1; exact hs.1 h1.symm
      · exact (hc row hrow c hcc).2.1 h1
    rw [h1, List.nil_append, h3]
    apply List.filter_eq_self.mpr
    intro l hl
    obtain ⟨row, hrow, rfl⟩ := List.mem_map.mp hl
    obtain ⟨c, hcc, a, ha, hsp⟩ := hb row hrow
    rw [Bool.not_eq_true', List.all_eq_false]
    exact ⟨a, mem_join ha hcc, by simp [hsp]⟩
  unfold readCsv
  rw [hd, List.map_map]
  have hsplit : rows.map ((pySplitOn sep) ∘ (pyJoin [sep])) = rows := by
    conv_rhs => rw [← List.map_id rows]
    apply List.map_congr_left
    intro row hrow
    have hne' : row ≠ [] := by
      rintro rfl
      have := hw [] hrow
      simp at this; omega
    exact pySplitOn_join hne' (fun c hcc => (hc row hrow c hcc).1)
  rw [hsplit]
  exact rectangular_ok hne hw

/-- what is read from such a file -/
theorem readData_table {content : Str} {rows : List (List Str)} {m : HMeta K}
    (hm : headerFromFile content = .ok m) (ht : TableFile content m.delimiter rows) :
    readData content = .ok (m, rows) := by
  have hw : tableWidth rows ≠ 1 := by
    obtain ⟨w, h2, hw⟩ := ht.width
    cases rows with
    | nil => exact absurd rfl ht.some_row
    | cons r rs =>
      have := hw r (by simp)
      simp only [tableWidth]; omega
  unfold readData
  simp only [hm, bind, Except.bind, readCsv_table ht, if_neg hw, pure, Except.pure, orElse]

/-! ### cells and columns -/

theorem fieldIndex_column {names : List Str} {name : String} {i : Nat} (h : Column names name i) :
    fieldIndex names name = .ok i := by
  unfold fieldIndex
  have : names.findIdx? (fun f => decide (f = name.toList)) = some i := by
    rw [List.findIdx?_eq_some_iff_getElem]
    obtain ⟨h1, h2⟩ := h
    obtain ⟨hi, he⟩ := List.getElem?_eq_some_iff.mp h1
    refine ⟨hi, by simp [he], fun j hj => ?_⟩
    have := h2 j hj
    rw [List.getElem?_eq_getElem (by omega)] at this
    simpa using this
  rw [this]

theorem column_exists {names : List Str} {name : String} (h : name.toList ∈ names) : ∃ i, Column names name i := by
  classical
  have : ∃ i, names[i]? = some name.toList := List.mem_iff_getElem?.mp h
  exact ⟨Nat.find this, Nat.find_spec this, fun j hj => Nat.find_min this hj⟩

theorem Column.mem {names : List Str} {name : String} {i : Nat} (h : Column names name i) : name.toList ∈ names :=
  List.mem_iff_getElem?.mpr ⟨i, h.1⟩

theorem Column.unique {names : List Str} {name : String} {i j : Nat} (h : Column names name i)
    (h' : Column names name j) : i = j := by
  rcases lt_trichotomy i j with hlt | rfl | hlt
  · exact absurd h.1 (h'.2 i hlt)
  · rfl
  · exact absurd h'.1 (h.2 j hlt)

theorem NumText.chars {s : Str} {x : K} (h : NumText s x) :
    s ≠ [] ∧ ∀ c ∈ s, isDig c = true ∨ c ∈ ['.', 'e', 'E', '+', '-'] := by
  have hd : ∀ {ds : Str}, Digits ds → ∀ c ∈ ds, isDig c = true := fun h c hc =>
    List.all_eq_true.mp h.all c hc
  have hi : ∀ {s : Str} {n : Int}, IntText s n → ∀ c ∈ s, isDig c = true ∨ c ∈ ['.', 'e', 'E', '+', '-'] := by
    intro s n h c hc
    cases h with
    | plain h => exact Or.inl (hd h c hc)
    | plus h =>
      rcases List.mem_cons.mp hc with rfl | hc
      · exact Or.inr (by decide)
      · exact Or.inl (hd h c hc)
    | minus h =>
      rcases List.mem_cons.mp hc with rfl | hc
      · exact Or.inr (by decide)
      · exact Or.inl (hd h c hc)
  have hdec : ∀ {s : Str} {x : K}, DecText s x → ∀ c ∈ s, isDig c = true ∨ c ∈ ['.', 'e', 'E', '+', '-'] := by
    intro s x h c hc
    cases h with
    | int h => exact Or.inl (hd h c hc)
    | dot h =>
      rcases List.mem_append.mp hc with hc | hc
      · exact Or.inl (hd h c hc)
      · simp only [List.mem_singleton] at hc; subst hc; exact Or.inr (by decide)
    | frac h1 h2 =>
      rcases List.mem_append.mp hc with hc | hc
      · rcases h1 with rfl | h1
        · cases hc
        · exact Or.inl (hd h1 c hc)
      · rcases List.mem_cons.mp hc with rfl | hc
        · exact Or.inr (by decide)
        · exact Or.inl (hd h2 c hc)
  have hexp : ∀ {s : Str} {x : K}, ExpText s x → ∀ c ∈ s, isDig c = true ∨ c ∈ ['.', 'e', 'E', '+', '-'] := by
    intro s x h c hc
    cases h with
    | plain h => exact hdec h c hc
    | exp h1 h2 h3 =>
      rcases List.mem_append.mp hc with hc | hc
      · exact hdec h1 c hc
      · rcases List.mem_cons.mp hc with rfl | hc
        · rcases h2 with rfl | rfl <;> exact Or.inr (by decide)
        · exact hi h3 c hc
  cases h with
  | plain h =>
    refine ⟨?_, hexp h⟩
    cases h with
    | plain h => exact h.ne
    | exp h => simp
  | plus h =>
    refine ⟨by simp, fun c hc => ?_⟩
    rcases List.mem_cons.mp hc with rfl | hc
    · exact Or.inr (by decide)
    · exact hexp h c hc
  | minus h =>
    refine ⟨by simp, fun c hc => ?_⟩
    rcases List.mem_cons.mp hc with rfl | hc
    · exact Or.inr (by decide)
    · exact hexp h c hc

theorem NumText.noSpace {s : Str} {x : K} (h : NumText s x) : NoSpace s := by
  intro c hc
  rcases h.chars.2 c hc with h | h
  · exact dig_not_space h
  · have : ∀ c ∈ ['.', 'e', 'E', '+', '-'], pySpace c = false := by decide
    exact this c h

theorem pyStrip_around {g w g' : Str} (hg : ∀ a ∈ g ++ g', pySpace a = true) (hw : NoSpace w) (hne : w ≠ []) :
    pyStrip (g ++ w ++ g') = w := by
  have h1 : (g ++ w ++ g').dropWhile pySpace = w ++ g' := by
    cases w with
    | nil => exact absurd rfl hne
    | cons a w =>
      rw [List.append_assoc, List.cons_append]
      exact dropWhile_append_stop _ (fun c hc => hg c (by simp [hc])) (hw a (by simp))
  have h2 : (w ++ g').reverse.dropWhile pySpace = w.reverse := by
    rw [List.reverse_append]
    cases hr : w.reverse with
    | nil => exact absurd (List.reverse_eq_nil_iff.mp hr) hne
    | cons a r =>
      have : a ∈ w := by rw [← List.mem_reverse, hr]; simp
      exact dropWhile_append_stop _ (fun c hc => hg c (by simp at hc; simp [hc])) (hw a this)
  unfold pyStrip
  rw [h1, h2, List.reverse_reverse]

theorem cellVal_holds {c w : Str} {x : K} (hx : NumText w x)
    (h : ∃ g g' : Str, (∀ a ∈ g ++ g', pySpace a = true) ∧ c = g ++ w ++ g') : (cellVal c : Except Err K) = .ok x := by
  obtain ⟨g, g', hg, rfl⟩ := h
  unfold cellVal cellNum
  rw [pyStrip_around hg hx.noSpace hx.chars.1]
  have hna : w ∉ naStrings := by
    intro hmem
    have : ∀ s ∈ naStrings, s = [] ∨ ∃ c ∈ s, ¬ (isDig c = true ∨ c ∈ ['.', 'e', 'E', '+', '-']) := by decide
    rcases this w hmem with h | ⟨c, hc, h⟩
    · exact hx.chars.1 h
    · exact h (hx.chars.2 c hc)
  rw [if_neg hna, hx.parse]
  rfl

/-- the numbers of a column, row by row -/
theorem numCol_rows {h : HMeta K} {rows : List (List Str)} {name : String} {xs : List K}
    (hc : numCol h rows name = .ok xs) : xs.length = rows.length ∧ ∀ (k : Nat) (row : List Str), rows[k]? = some row →
      ∀ x : K, Holds h.fields row name x → xs[k]? = some x := by
  unfold numCol at hc
  obtain ⟨i, h1, hc⟩ := ok_bind_inv hc
  obtain ⟨cs, h2, hc⟩ := ok_bind_inv hc
  unfold cellsAt at h2
  split_ifs at h2
  refine ⟨by rw [mapE_length hc, mapE_length h2], fun k row hk x hx => ?_⟩
  obtain ⟨j, c, w, hj, hrow, hn, hg⟩ := hx
  rw [fieldIndex_column hj] at h1
  cases h1
  obtain ⟨b, hb, hbk⟩ := mapE_getElem? h2 hk
  rw [hrow] at hb
  cases hb
  obtain ⟨y, hy, hyk⟩ := mapE_getElem? hc hbk
  rw [cellVal_holds hn hg] at hy
  cases hy
  exact hyk

theorem numCol_ok {h : HMeta K} {rows : List (List Str)} (hne : rows ≠ []) {name : String}
    (hall : ∀ row ∈ rows, ∃ x : K, Holds h.fields row name x) : ∃ xs : List K, numCol h rows name = .ok xs := by
  have ⟨i, hi⟩ : ∃ i, Column h.fields name i := by
    cases rows with
    | nil => exact absurd rfl hne
    | cons r rs => obtain ⟨_, i, _, _, hi, _⟩ := hall r (by simp); exact ⟨i, hi⟩
  unfold numCol
  simp only [fieldIndex_column hi, bind, Except.bind]
  have hcell : ∀ row ∈ rows, ∃ c, row[i]? = some c ∧ ∃ x : K, cellVal c = .ok x := by
    intro row hrow
    obtain ⟨x, j, c, w, hj, hc, hn, hg⟩ := hall row hrow
    rw [hj.unique hi] at hc
    exact ⟨c, hc, x, cellVal_holds hn hg⟩
  obtain ⟨cs, hcs⟩ : ∃ cs, cellsAt rows i = .ok cs := by
    unfold cellsAt
    rw [if_neg hne]
    refine mapE_isOk (fun row hrow => ?_)
    obtain ⟨c, hc, -⟩ := hcell row hrow
    exact ⟨c, by rw [hc]⟩
  rw [hcs]
  refine mapE_isOk (fun c hc => ?_)
  unfold cellsAt at hcs
  rw [if_neg hne] at hcs
  obtain ⟨row, hrow, e⟩ := mapE_mem hcs hc
  obtain ⟨c', h1, h2⟩ := hcell row hrow
  rw [h1] at e
  cases e
  exact h2

theorem numCol3_rows {h : HMeta K} {rows : List (List Str)} {a b c : String} {xs : List (V3 K)}
    (hc : numCol3 h rows a b c = .ok xs) : xs.length = rows.length ∧
      ∀ (k : Nat) (row : List Str), rows[k]? = some row → ∀ x y z : K, Holds h.fields row a x →
        Holds h.fields row b y → Holds h.fields row c z → xs[k]? = some ⟨x, y, z⟩ := by
  unfold numCol3 at hc
  obtain ⟨as, h1, hc⟩ := ok_bind_inv hc
  obtain ⟨bs, h2, hc⟩ := ok_bind_inv hc
  obtain ⟨cs, h3, hc⟩ := ok_bind_inv hc
  cases hc
  obtain ⟨l1, e1⟩ := numCol_rows h1
  obtain ⟨l2, e2⟩ := numCol_rows h2
  obtain ⟨l3, e3⟩ := numCol_rows h3
  refine ⟨by simp [l1, l2, l3], fun k row hk x y z hx hy hz => ?_⟩
  rw [List.getElem?_map]
  have hz' : (as.zip (bs.zip cs))[k]? = some (x, y, z) := by
    rw [List.getElem?_zip_eq_some]
    exact ⟨e1 k row hk x hx, List.getElem?_zip_eq_some.mpr ⟨e2 k row hk y hy, e3 k row hk z hz⟩⟩
  rw [hz']; rfl

theorem numCol3_ok {h : HMeta K} {rows : List (List Str)} (hne : rows ≠ []) {a b c : String}
    (ha : ∀ row ∈ rows, ∃ x : K, Holds h.fields row a x) (hb : ∀ row ∈ rows, ∃ x : K, Holds h.fields row b x)
    (hc : ∀ row ∈ rows, ∃ x : K, Holds h.fields row c x) : ∃ xs : List (V3 K), numCol3 h rows a b c = .ok xs := by
  obtain ⟨as, h1⟩ := numCol_ok hne ha
  obtain ⟨bs, h2⟩ := numCol_ok hne hb
  obtain ⟨cs, h3⟩ := numCol_ok hne hc
  unfold numCol3
  simp only [h1, h2, h3, bind, Except.bind]
  exact ⟨_, rfl⟩

/-! ### the constructor -/

/-- what the constructor does with its arguments -/
theorem new_fields {nrm : V3 K → K} {counter : Nat} {a : TrajArgs K R} {T : Traj K R}
    (h : Traj.new nrm counter a = .ok T) :
    T.pos = a.pos ∧ T.rot = a.rot ∧ T.epsg = a.epsg ∧ T.sorting = a.sorting ∧
    (∀ ts, a.tstamps = some ts → T.tstamps = ts) ∧
    (∀ l, a.arc = some l → l.length = a.pos.length → T.arc = l) ∧
    (a.arc = none → T.arc = lengthsFromXyz nrm a.pos) ∧
    (∀ v, a.speed = some v → v.length = a.pos.length → T.speed = v) ∧
    (a.speed = none → gradient3d a.pos T.tstamps = .ok T.speed) ∧
    (a.name ≠ "" → T.name = a.name) := by
  unfold Traj.new at h
  simp only [bind, Except.bind, pure, Except.pure, throw, throwThe, MonadExceptOf.throw] at h
  obtain ⟨pos, epsg, rot, tst, name, arc, speed, srt⟩ := a
  cases rot <;> cases tst <;> cases arc <;> cases speed <;> simp only at h <;>
  · repeat' split at h
    all_goals first
      | (cases h; done)
      | (cases h
         refine ⟨rfl, rfl, rfl, rfl, ?_, ?_, ?_, ?_, ?_, ?_⟩ <;> simp_all)

/-- the parts of a trajectory read from a table -/
theorem fromTable_inv {io : IoLib K R} {counter : Nat} {h : HMeta K} {data : List (List Str)} {T : Traj K R}
    (hr : Traj.fromTable io counter h data = .ok T) :
    extractTimestamps io h data = .ok T.tstamps ∧ extractPositions h data = .ok T.pos ∧
    extractRotations io h data = .ok T.rot ∧ T.epsg = h.epsg ∧ T.sorting = .time ∧
    (h.name ≠ [] → T.name = String.ofList h.name) ∧
    (∃ arc, extractArc h data = .ok arc ∧ (∀ l, arc = some l → l.length = T.pos.length → T.arc = l) ∧
      (arc = none → T.arc = lengthsFromXyz io.nrm T.pos)) ∧
    (∃ speed, extractSpeed h data = .ok speed ∧ (∀ v, speed = some v → v.length = T.pos.length → T.speed = v) ∧
      (speed = none → gradient3d T.pos T.tstamps = .ok T.speed)) := by
  unfold Traj.fromTable at hr
  obtain ⟨ts, h1, hr⟩ := ok_bind_inv hr
  obtain ⟨pos, h2, hr⟩ := ok_bind_inv hr
  obtain ⟨arc, h3, hr⟩ := ok_bind_inv hr
  obtain ⟨speed, h4, hr⟩ := ok_bind_inv hr
  obtain ⟨rot, h5, hr⟩ := ok_bind_inv hr
  obtain ⟨e1, e2, e3, e4, e5, e6, e7, e8, e9, e10⟩ := new_fields hr
  simp only at e1 e2 e3 e4 e6 e7 e8 e9 e10
  have e5' := e5 ts rfl
  refine ⟨by rw [h1, e5'], by rw [h2, e1], by rw [h5, e2], e3, e4, fun hn => e10 ?_, ⟨arc, h3, ?_, ?_⟩,
    ⟨speed, h4, ?_, ?_⟩⟩
  · intro hs
    apply hn
    have := congrArg String.toList hs
    simpa using this
  · intro l hl hlen; exact e6 l hl (by rw [← e1]; exact hlen)
  · intro hl; rw [e7 hl, e1]
  · intro l hl hlen; exact e8 l hl (by rw [← e1]; exact hlen)
  · intro hl; rw [e1]; exact e9 hl

theorem hasFields_iff {h : HMeta K} {names : List String} :
    hasFields h names = true ↔ ∀ n ∈ names, n.toList ∈ h.fields := by
  simp [hasFields]

/-! ### C171 -/

/-- a file whose rows lie below its header lines, with the settings `m` -/
theorem fromFile_table {io : IoLib K R} {counter : Nat} {content : Str} {rows : List (List Str)} {m : HMeta K}
    (hm : headerFromFile content = .ok m) (ht : TableFile content m.delimiter rows) :
    Traj.fromFile io counter content = Traj.fromTable io counter m rows := by
  unfold Traj.fromFile
  simp only [readData_table hm ht, bind, Except.bind]

/-- **C171.** Positions, arc lengths and speeds: whatever the order of the columns, every row gives one sample,
whose position is the numbers in the columns `px`, `py` and `pz`, whose arc length is the number in the column
`l` and whose speed is the numbers in the columns `vx`, `vy` and `vz`; EPSG code and name are those of the header. -/
theorem C171_numbers {io : IoLib K R} {counter : Nat} {content : Str} {rows : List (List Str)} {m : HMeta K}
    {T : Traj K R} (hm : headerFromFile content = .ok m) (ht : TableFile content m.delimiter rows)
    (hr : Traj.fromFile io counter content = .ok T) :
    T.pos.length = rows.length ∧ T.epsg = m.epsg ∧ (m.name ≠ [] → T.name.toList = m.name) ∧
    ∀ (k : Nat) (row : List Str), rows[k]? = some row →
      (∀ x y z : K, Holds m.fields row "px" x → Holds m.fields row "py" y → Holds m.fields row "pz" z →
        T.pos[k]? = some ⟨x, y, z⟩) ∧
      (∀ x : K, Holds m.fields row "l" x → T.arc[k]? = some x) ∧
      (∀ x y z : K, Holds m.fields row "vx" x → Holds m.fields row "vy" y → Holds m.fields row "vz" z →
        T.speed[k]? = some ⟨x, y, z⟩) := by
  rw [fromFile_table hm ht] at hr
  obtain ⟨-, h2, -, he, -, hname, ⟨arc, h3, h3', -⟩, ⟨speed, h4, h4', -⟩⟩ := fromTable_inv hr
  obtain ⟨hl, hp⟩ := numCol3_rows h2
  refine ⟨hl, he, fun hn => by rw [hname hn]; simp, fun k row hk => ⟨hp k row hk, ?_, ?_⟩⟩
  · intro x hx
    have hf : hasFields m ["l"] = true := by
      rw [hasFields_iff]
      obtain ⟨i, _, _, hi, _⟩ := hx
      simp only [List.mem_singleton, forall_eq]
      exact hi.mem
    unfold extractArc at h3
    rw [if_pos hf] at h3
    obtain ⟨l, h5, h3⟩ := ok_bind_inv h3
    cases h3
    obtain ⟨hl5, h5'⟩ := numCol_rows h5
    rw [h3' l rfl (by rw [hl5, hl])]
    exact h5' k row hk x hx
  · intro x y z hx hy hz
    have hf : hasFields m ["vx", "vy", "vz"] = true := by
      rw [hasFields_iff]
      obtain ⟨i, _, _, hi, _⟩ := hx
      obtain ⟨j, _, _, hj, _⟩ := hy
      obtain ⟨n, _, _, hn, _⟩ := hz
      intro f hf
      simp only [List.mem_cons, List.not_mem_nil, or_false] at hf
      rcases hf with rfl | rfl | rfl
      · exact hi.mem
      · exact hj.mem
      · exact hn.mem
    unfold extractSpeed at h4
    rw [if_pos hf] at h4
    obtain ⟨l, h5, h4⟩ := ok_bind_inv h4
    cases h4
    obtain ⟨hl5, h5'⟩ := numCol3_rows h5
    rw [h4' l rfl (by rw [hl5, hl])]
    exact h5' k row hk x y z hx hy hz

theorem timeColumns_length (m : HMeta K) : (timeColumns m).length = m.fields.count "t".toList := by
  unfold timeColumns
  rw [List.length_map]
  generalize m.fields = fs
  generalize "t".toList = t
  have : ∀ n, (List.filter (fun f => decide (f.1 = t)) (fs.zipIdx n)).length = fs.count t := by
    induction fs with
    | nil => simp
    | cons a fs ih =>
      intro n
      rw [List.zipIdx_cons, List.filter_cons, List.count_cons]
      by_cases h : a = t
      · subst h; simp [ih]
      · simp [h, ih]
  exact this 0

/-- **C171.** Time stamps: with one column `t` of numbers the time of a sample is its number plus the time
offset. -/
theorem C171_times {io : IoLib K R} {counter : Nat} {content : Str} {rows : List (List Str)} {m : HMeta K}
    {T : Traj K R} (hm : headerFromFile content = .ok m) (ht : TableFile content m.delimiter rows)
    (hf : m.timeFormat = .ok .unix) (hone : m.fields.count "t".toList = 1)
    (hr : Traj.fromFile io counter content = .ok T) :
    T.tstamps.length = rows.length ∧
    ∀ (k : Nat) (row : List Str), rows[k]? = some row → ∀ x : K, Holds m.fields row "t" x →
      T.tstamps[k]? = some (x + m.timeOffset) := by
  rw [fromFile_table hm ht] at hr
  obtain ⟨h1, -⟩ := fromTable_inv hr
  unfold extractTimestamps at h1
  simp only [hf, bind, Except.bind, timeColumns_length, hone, and_self, if_true] at h1
  cases hc : numCol m rows "t" with
  | error e => rw [hc] at h1; cases h1
  | ok ts =>
    rw [hc] at h1
    simp only [pure, Except.pure, Except.ok.injEq] at h1
    obtain ⟨hl, hx⟩ := numCol_rows hc
    rw [← h1]
    refine ⟨by simp [hl], fun k row hk x hxx => ?_⟩
    rw [List.getElem?_map, hx k row hk x hxx]; rfl

/-- **C171.** Without a column `t`, and with several of them in a file of Unix times, the samples are numbered
from zero and the time offset is ignored. -/
theorem C171_no_times {io : IoLib K R} {counter : Nat} {content : Str} {rows : List (List Str)} {m : HMeta K}
    {T : Traj K R} (hm : headerFromFile content = .ok m) (ht : TableFile content m.delimiter rows)
    (h : m.fields.count "t".toList = 0 ∨ m.timeFormat = .ok .unix ∧ 2 ≤ m.fields.count "t".toList)
    (hr : Traj.fromFile io counter content = .ok T) :
    T.tstamps = (List.range rows.length).map (fun k : Nat => (k : K)) := by
  rw [fromFile_table hm ht] at hr
  obtain ⟨h1, -⟩ := fromTable_inv hr
  unfold extractTimestamps at h1
  obtain ⟨fmt, hfmt, h1⟩ := ok_bind_inv h1
  have hlen := timeColumns_length m
  have hnil : timeColumns m = [] ↔ m.fields.count "t".toList = 0 := by
    rw [← hlen, List.length_eq_zero_iff]
  rcases h with h0 | ⟨hu, h2⟩
  · rw [if_neg (by rw [hlen]; omega), if_neg (by simp [hnil.mpr h0]), if_neg (by simp [hnil.mpr h0])] at h1
    injection h1 with h1; exact h1.symm
  · rw [hu] at hfmt
    cases hfmt
    rw [if_neg (by rw [hlen]; omega), if_neg (by simp), if_neg (by simp)] at h1
    injection h1 with h1; exact h1.symm

/-- **C171.** Orientations: with the columns `qx`, `qy`, `qz`, `qw` they are these quaternions, otherwise with
`ex`, `ey`, `ez` these Euler angles (in degrees exactly if the unit is `deg`), converted from the frame of the
header; without these columns the trajectory has no orientations. -/
theorem C171_orientations {io : IoLib K R} {counter : Nat} {content : Str} {rows : List (List Str)} {m : HMeta K}
    {T : Traj K R} (hm : headerFromFile content = .ok m) (ht : TableFile content m.delimiter rows)
    (hr : Traj.fromFile io counter content = .ok T) :
    (∀ rs, T.rot = some rs → rs.length = rows.length ∧
      ∃ a b c, m.nframe.map Char.toLower = [a, b, c] ∧ [a, b, c] ∈ frames ∧
      ∀ (k : Nat) (row : List Str), rows[k]? = some row →
        (∀ x y z w : K, Holds m.fields row "qx" x → Holds m.fields row "qy" y → Holds m.fields row "qz" z →
          Holds m.fields row "qw" w → ∃ q, io.fromQuat ⟨x, y, z, w⟩ = .ok q ∧
            rs[k]? = some (io.rot.mul (io.rot.fromMat (rowsMat (axisDir a) (axisDir b) (axisDir c))) q)) ∧
        (¬ (∀ n ∈ ["qx", "qy", "qz", "qw"], String.toList n ∈ m.fields) →
          ∀ x y z : K, Holds m.fields row "ex" x → Holds m.fields row "ey" y → Holds m.fields row "ez" z →
            rs[k]? = some (io.rot.mul (io.rot.fromMat (rowsMat (axisDir a) (axisDir b) (axisDir c)))
              (io.fromEuler (decide (m.rotUnit = "deg".toList)) ⟨x, y, z⟩)))) ∧
    (T.rot = none ↔ ¬ (∀ n ∈ ["qx", "qy", "qz", "qw"], String.toList n ∈ m.fields) ∧
      ¬ (∀ n ∈ ["ex", "ey", "ez"], String.toList n ∈ m.fields)) := by
  rw [fromFile_table hm ht] at hr
  obtain ⟨-, -, h, -⟩ := fromTable_inv hr
  unfold extractRotations at h
  by_cases hq : hasFields m ["qx", "qy", "qz", "qw"] = true
  · rw [if_pos hq] at h
    have hq' := hasFields_iff.mp hq
    obtain ⟨q, h1, h⟩ := ok_bind_inv h
    change (getRotMatrix m.nframe >>= fun M => pure (some (q.map (io.rot.mul (io.rot.fromMat M))))) = _ at h
    obtain ⟨M, hM, h⟩ := ok_bind_inv h
    obtain ⟨a, b, c, hs, hfr, rfl⟩ := (C90_accepted m.nframe).1 M hM
    unfold extractQuaternions at h1
    obtain ⟨xyz, h2, h1⟩ := ok_bind_inv h1
    obtain ⟨ws, h3, h1⟩ := ok_bind_inv h1
    obtain ⟨l2, e2⟩ := numCol3_rows h2
    obtain ⟨l3, e3⟩ := numCol_rows h3
    have hl := mapE_length h1
    have hrot : T.rot = some (q.map (io.rot.mul (io.rot.fromMat (rowsMat (axisDir a) (axisDir b) (axisDir c))))) := by
      injection h with h; exact h.symm
    rw [hrot]
    refine ⟨?_, ⟨fun hh => (by cases hh), fun hh => absurd hq' hh.1⟩⟩
    intro rs hrs
    cases hrs
    refine ⟨by simp [hl, l2, l3], a, b, c, hs, hfr, fun k row hk => ⟨fun x y z w hx hy hz hw => ?_, fun hn => absurd hq' hn⟩⟩
    have hz' : ((xyz.zip ws).map (fun s => (⟨s.1.x, s.1.y, s.1.z, s.2⟩ : Q4 K)))[k]? = some ⟨x, y, z, w⟩ := by
      have hzip : (xyz.zip ws)[k]? = some ((⟨x, y, z⟩ : V3 K), w) :=
        List.getElem?_zip_eq_some.mpr ⟨e2 k row hk x y z hx hy hz, e3 k row hk w hw⟩
      rw [List.getElem?_map, hzip]; rfl
    obtain ⟨p, hp, hpk⟩ := mapE_getElem? h1 hz'
    exact ⟨p, hp, by rw [List.getElem?_map, hpk]; rfl⟩
  · rw [if_neg hq] at h
    have hq' : ¬ ∀ n ∈ ["qx", "qy", "qz", "qw"], String.toList n ∈ m.fields := fun hh => hq (hasFields_iff.mpr hh)
    by_cases he : hasFields m ["ex", "ey", "ez"] = true
    · rw [if_pos he] at h
      have he' := hasFields_iff.mp he
      obtain ⟨q, h1, h⟩ := ok_bind_inv h
      change (getRotMatrix m.nframe >>= fun M => pure (some (q.map (io.rot.mul (io.rot.fromMat M))))) = _ at h
      obtain ⟨M, hM, h⟩ := ok_bind_inv h
      obtain ⟨a, b, c, hs, hfr, rfl⟩ := (C90_accepted m.nframe).1 M hM
      unfold extractEuler at h1
      obtain ⟨es, h2, h1⟩ := ok_bind_inv h1
      obtain ⟨l2, e2⟩ := numCol3_rows h2
      cases h1
      have hrot : T.rot = some ((es.map (io.fromEuler (decide (m.rotUnit = "deg".toList)))).map
          (io.rot.mul (io.rot.fromMat (rowsMat (axisDir a) (axisDir b) (axisDir c))))) := by
        injection h with h; exact h.symm
      rw [hrot]
      refine ⟨?_, ⟨fun hh => (by cases hh), fun hh => absurd he' hh.2⟩⟩
      intro rs hrs
      cases hrs
      refine ⟨by simp [l2], a, b, c, hs, hfr, fun k row hk => ⟨fun x y z w hx hy hz hw => ?_, fun _ x y z hx hy hz => ?_⟩⟩
      · exfalso
        apply hq'
        obtain ⟨i1, _, _, hi1, _⟩ := hx
        obtain ⟨i2, _, _, hi2, _⟩ := hy
        obtain ⟨i3, _, _, hi3, _⟩ := hz
        obtain ⟨i4, _, _, hi4, _⟩ := hw
        intro n hn
        simp only [List.mem_cons, List.not_mem_nil, or_false] at hn
        rcases hn with rfl | rfl | rfl | rfl
        · exact hi1.mem
        · exact hi2.mem
        · exact hi3.mem
        · exact hi4.mem
      · rw [List.getElem?_map, List.getElem?_map, e2 k row hk x y z hx hy hz]; rfl
    · rw [if_neg he] at h
      have he' : ¬ ∀ n ∈ ["ex", "ey", "ez"], String.toList n ∈ m.fields := fun hh => he (hasFields_iff.mpr hh)
      have hrot : T.rot = none := by injection h with h; exact h.symm
      rw [hrot]
      exact ⟨fun rs hrs => (by cases hrs), fun _ => ⟨hq', he'⟩, fun _ => rfl⟩

/-- **C171.** Date times: the texts of all columns `t`, joined by blanks, are converted with the format and the
time zone of the header (Greenwich time minus 18 seconds for GPS time) and the time offset is added. -/
theorem C171_dates {io : IoLib K R} {counter : Nat} {content : Str} {rows : List (List Str)} {m : HMeta K}
    {T : Traj K R} (hm : headerFromFile content = .ok m) (ht : TableFile content m.delimiter rows)
    (hf : m.timeFormat = .ok .datetime) (hsome : "t".toList ∈ m.fields)
    (hr : Traj.fromFile io counter content = .ok T) :
    T.tstamps.length = rows.length ∧
    ∀ (k : Nat) (row : List Str), rows[k]? = some row →
      ∃ (cells : List Str) (t : K),
        List.Forall₂ (fun (i : Nat) c => row[i]? = some c)
          ((List.range m.fields.length).filter (fun i => decide (m.fields[i]? = some "t".toList))) cells ∧
        (m.datetimeTimezone.map Char.toUpper = "GPS".toList →
          io.datetime m.datetimeFormat "UTC".toList (List.intercalate [' '] cells) = .ok t ∧
          T.tstamps[k]? = some (t - 18 + m.timeOffset)) ∧
        (m.datetimeTimezone.map Char.toUpper ≠ "GPS".toList →
          io.datetime m.datetimeFormat m.datetimeTimezone (List.intercalate [' '] cells) = .ok t ∧
          T.tstamps[k]? = some (t + m.timeOffset)) := by
  rw [fromFile_table hm ht] at hr
  obtain ⟨h1, -⟩ := fromTable_inv hr
  unfold extractTimestamps at h1
  have hne : timeColumns m ≠ [] := by
    intro h0
    have := timeColumns_length m
    rw [h0] at this
    exact absurd this.symm (by simpa [List.count_eq_zero] using hsome)
  have hcols : timeColumns m =
      (List.range m.fields.length).filter (fun i => decide (m.fields[i]? = some "t".toList)) := by
    unfold timeColumns
    generalize m.fields = fs
    generalize "t".toList = t
    have : ∀ n, ((fs.zipIdx n).filter (fun f => decide (f.1 = t))).map (fun f => f.2) =
        ((List.range fs.length).filter (fun i => decide (fs[i]? = some t))).map (fun i => i + n) := by
      induction fs with
      | nil => simp
      | cons a fs ih =>
        intro n
        rw [List.zipIdx_cons, List.length_cons, List.range_succ_eq_map, List.filter_cons, List.filter_cons,
          List.filter_map]
        have e : (List.filter ((fun i => decide ((a :: fs)[i]? = some t)) ∘ Nat.succ) (List.range fs.length)) =
            (List.range fs.length).filter (fun i => decide (fs[i]? = some t)) := by
          apply List.filter_congr; intro i _; simp
        rw [e]
        have e2 : ((List.range fs.length).filter (fun i => decide (fs[i]? = some t))).map (fun i => i + (n + 1)) =
            (((List.range fs.length).filter (fun i => decide (fs[i]? = some t))).map Nat.succ).map (fun i => i + n) := by
          rw [List.map_map]; apply List.map_congr_left; intro i _; simp; omega
        by_cases h : a = t
        · simp [h, ih, e2]
        · simp [h, ih, e2]
    simpa using this 0
  simp only [hf, bind, Except.bind, reduceCtorEq, false_and, if_false, hne, ne_eq, not_false_eq_true, and_self,
    if_true] at h1
  cases hp : parseDatetime io m rows with
  | error e => rw [hp] at h1; cases h1
  | ok ts =>
    rw [hp] at h1
    simp only [pure, Except.pure, Except.ok.injEq] at h1
    unfold parseDatetime at hp
    obtain ⟨cs, h2, hp⟩ := ok_bind_inv hp
    obtain ⟨us, h3, hp⟩ := ok_bind_inv hp
    unfold cellsRows at h2
    rw [if_neg ht.some_row] at h2
    have hlu : us.length = rows.length := by rw [mapE_length h3, mapE_length h2]
    have hts : ts.length = us.length := by
      simp only [pure, Except.pure, Except.ok.injEq] at hp
      rw [← hp]
      split <;> simp
    rw [← h1]
    refine ⟨by simp [hts, hlu], fun k row hk => ?_⟩
    obtain ⟨cells, hc, hck⟩ := mapE_getElem? h2 hk
    obtain ⟨t, htt, htk⟩ := mapE_getElem? h3 hck
    refine ⟨cells, t, ?_, ?_, ?_⟩
    · rw [← hcols]
      clear hcols hck hne h1 h2 htt
      revert hc
      generalize timeColumns m = cols
      intro hc
      induction cols generalizing cells with
      | nil => cases hc; exact .nil
      | cons i cols ih =>
        obtain ⟨b, bs, hb, hbs, rfl⟩ := mapE_cons_inv hc
        refine .cons ?_ (ih bs hbs)
        cases hri : row[i]? with
        | none => rw [hri] at hb; cases hb
        | some d => rw [hri] at hb; cases hb; rfl
    · intro hg
      have hg' : decide (m.datetimeTimezone.map Char.toUpper = "GPS".toList) = true := by simp only [hg, decide_true]
      rw [hg', if_pos rfl] at htt
      rw [hg', if_pos rfl] at hp
      injection hp with hp
      rw [intercalate_pyJoin]
      refine ⟨htt, ?_⟩
      rw [← hp, List.getElem?_map, List.getElem?_map, htk]; rfl
    · intro hg
      have hg' : decide (m.datetimeTimezone.map Char.toUpper = "GPS".toList) = false := by simp only [hg, decide_false]
      rw [hg', if_neg (by simp)] at htt
      rw [hg', if_neg (by simp)] at hp
      injection hp with hp
      rw [intercalate_pyJoin]
      refine ⟨htt, ?_⟩
      rw [← hp, List.getElem?_map, htk]; rfl

/-- **C171.** A file of Unix times in which every row holds a number in each of its columns is read: it needs one
column `t` and the columns of the positions; the frame must be one of the twelve and the quaternions must not be
zero if there are orientations. -/
theorem C171_readable {io : IoLib K R} (hio : IsIoLib io) (counter : Nat) {content : Str} {rows : List (List Str)}
    {m : HMeta K} (hm : headerFromFile content = .ok m) (ht : TableFile content m.delimiter rows)
    (hf : m.timeFormat = .ok .unix) (hone : m.fields.count "t".toList = 1)
    (hpos : ∀ n ∈ ["px", "py", "pz"], String.toList n ∈ m.fields)
    (hnum : ∀ row ∈ rows, ∀ n ∈ ["t", "l", "px", "py", "pz", "qx", "qy", "qz", "qw", "ex", "ey", "ez", "vx", "vy", "vz"],
      String.toList n ∈ m.fields → ∃ x : K, Holds m.fields row n x)
    (hframe : m.nframe.map Char.toLower ∈ frames)
    (hzero : ∀ row ∈ rows, ∀ x y z w : K, Holds m.fields row "qx" x → Holds m.fields row "qy" y →
      Holds m.fields row "qz" z → Holds m.fields row "qw" w → (x, y, z, w) ≠ (0, 0, 0, 0)) :
    ∃ T : Traj K R, Traj.fromFile io counter content = .ok T ∧ Coherent T := by
  rw [fromFile_table hm ht]
  have hne := ht.some_row
  have col : ∀ n ∈ ["t", "l", "px", "py", "pz", "qx", "qy", "qz", "qw", "ex", "ey", "ez", "vx", "vy", "vz"],
      String.toList n ∈ m.fields → ∀ row ∈ rows, ∃ x : K, Holds m.fields row n x :=
    fun n hn hin row hrow => hnum row hrow n hn hin
  obtain ⟨ts, h1⟩ := numCol_ok hne (col "t" (by decide) (List.count_pos_iff.mp (by omega)))
  obtain ⟨pos, h2⟩ := numCol3_ok hne (col "px" (by decide) (hpos _ (by decide)))
    (col "py" (by decide) (hpos _ (by decide))) (col "pz" (by decide) (hpos _ (by decide)))
  have hts : extractTimestamps io m rows = .ok (ts.map (fun t => t + m.timeOffset)) := by
    unfold extractTimestamps
    simp only [hf, bind, Except.bind, timeColumns_length, hone, and_self, if_true, h1]; rfl
  obtain ⟨arc, h3, h3'⟩ : ∃ arc, extractArc m rows = .ok arc ∧ ∀ l, arc = some l → l.length = rows.length := by
    unfold extractArc
    by_cases hl : hasFields m ["l"] = true
    · obtain ⟨l, hl'⟩ := numCol_ok hne (col "l" (by decide) (hasFields_iff.mp hl _ (by simp)))
      rw [if_pos hl]
      simp only [hl', bind, Except.bind]
      exact ⟨_, rfl, fun l' e => by cases e; exact (numCol_rows hl').1⟩
    · rw [if_neg hl]; exact ⟨none, rfl, by simp⟩
  obtain ⟨speed, h4, h4'⟩ : ∃ v, extractSpeed m rows = .ok v ∧ ∀ l, v = some l → l.length = rows.length := by
    unfold extractSpeed
    by_cases hl : hasFields m ["vx", "vy", "vz"] = true
    · have hl' := hasFields_iff.mp hl
      obtain ⟨l, hl''⟩ := numCol3_ok hne (col "vx" (by decide) (hl' _ (by simp)))
        (col "vy" (by decide) (hl' _ (by simp))) (col "vz" (by decide) (hl' _ (by simp)))
      rw [if_pos hl]
      simp only [hl'', bind, Except.bind]
      exact ⟨_, rfl, fun l' e => by cases e; exact (numCol3_rows hl'').1⟩
    · rw [if_neg hl]; exact ⟨none, rfl, by simp⟩
  obtain ⟨M, hM⟩ := (C90_accepted (K := K) m.nframe).2.1 hframe
  obtain ⟨rot, h5, h5'⟩ : ∃ r, extractRotations io m rows = .ok r ∧ ∀ l, r = some l → l.length = rows.length := by
    unfold extractRotations
    by_cases hq : hasFields m ["qx", "qy", "qz", "qw"] = true
    · have hq' := hasFields_iff.mp hq
      obtain ⟨l, hl⟩ := numCol3_ok hne (col "qx" (by decide) (hq' _ (by simp)))
        (col "qy" (by decide) (hq' _ (by simp))) (col "qz" (by decide) (hq' _ (by simp)))
      obtain ⟨w, hw⟩ := numCol_ok hne (col "qw" (by decide) (hq' _ (by simp)))
      obtain ⟨ll, hl'⟩ := numCol3_rows hl
      obtain ⟨lw, hw'⟩ := numCol_rows hw
      obtain ⟨r, hr⟩ : ∃ r, extractQuaternions io m rows = .ok r := by
        unfold extractQuaternions
        simp only [hl, hw, bind, Except.bind]
        refine mapE_isOk (fun q hqm => ?_)
        obtain ⟨k, hk⟩ := List.mem_iff_getElem?.mp hqm
        rw [List.getElem?_map, Option.map_eq_some_iff] at hk
        obtain ⟨s, hs, rfl⟩ := hk
        obtain ⟨hs1, hs2⟩ := List.getElem?_zip_eq_some.mp hs
        have hklt : k < rows.length := by rw [← ll]; exact (List.getElem?_eq_some_iff.mp hs1).1
        have hrow : rows[k]? = some rows[k] := List.getElem?_eq_getElem hklt
        have hmem : rows[k] ∈ rows := List.getElem_mem hklt
        obtain ⟨x, hx⟩ := col "qx" (by decide) (hq' _ (by simp)) _ hmem
        obtain ⟨y, hy⟩ := col "qy" (by decide) (hq' _ (by simp)) _ hmem
        obtain ⟨z, hz⟩ := col "qz" (by decide) (hq' _ (by simp)) _ hmem
        obtain ⟨v, hv⟩ := col "qw" (by decide) (hq' _ (by simp)) _ hmem
        rw [hl' k _ hrow x y z hx hy hz] at hs1
        rw [hw' k _ hrow v hv] at hs2
        injection hs1 with hs1
        injection hs2 with hs2
        rw [← hs1, ← hs2]
        have hnz := hzero _ hmem x y z v hx hy hz hv
        obtain ⟨r, hr, -⟩ := hio.fromQuat ⟨x, y, z, v⟩ (by
          intro h0
          apply hnz
          simp only [Q4.normSq] at h0
          have hx0 : x = 0 := by nlinarith [sq_nonneg x, sq_nonneg y, sq_nonneg z, sq_nonneg v]
          have hy0 : y = 0 := by nlinarith [sq_nonneg x, sq_nonneg y, sq_nonneg z, sq_nonneg v]
          have hz0 : z = 0 := by nlinarith [sq_nonneg x, sq_nonneg y, sq_nonneg z, sq_nonneg v]
          have hw0 : v = 0 := by nlinarith [sq_nonneg x, sq_nonneg y, sq_nonneg z, sq_nonneg v]
          rw [hx0, hy0, hz0, hw0])
        exact ⟨r, hr⟩
      rw [if_pos hq]
      refine ⟨some (r.map (io.rot.mul (io.rot.fromMat M))), ?_, ?_⟩
      · simp only [hr, hM, bind, Except.bind, pure, Except.pure]
      · intro l' e
        cases e
        unfold extractQuaternions at hr
        simp only [hl, hw, bind, Except.bind] at hr
        rw [List.length_map, mapE_length hr]
        simp [ll, lw]
    · rw [if_neg hq]
      by_cases he : hasFields m ["ex", "ey", "ez"] = true
      · have he' := hasFields_iff.mp he
        obtain ⟨l, hl⟩ := numCol3_ok hne (col "ex" (by decide) (he' _ (by simp)))
          (col "ey" (by decide) (he' _ (by simp))) (col "ez" (by decide) (he' _ (by simp)))
        rw [if_pos he]
        refine ⟨some ((l.map (io.fromEuler (decide (m.rotUnit = "deg".toList)))).map
          (io.rot.mul (io.rot.fromMat M))), ?_, ?_⟩
        · unfold extractEuler
          simp only [hl, hM, bind, Except.bind, pure, Except.pure]
        · intro l' e
          cases e
          simp [(numCol3_rows hl).1]
      · rw [if_neg he]
        exact ⟨none, rfl, by simp⟩
  have lt := (numCol_rows h1).1
  have lp := (numCol3_rows h2).1
  unfold Traj.fromTable
  have hp : extractPositions m rows = .ok pos := h2
  simp only [hts, hp, h3, h4, h5, bind, Except.bind]
  have hgrad := gradient3d_ok (xyz := pos) (ts := ts.map (fun t => t + m.timeOffset)) (by simp [lt, lp])
  have hgl : (List.zipWith (fun (v : V3 K) s => s⁻¹ • v) (diffs pos) (diffs (ts.map (fun t => t + m.timeOffset)))
      ++ [0]).length = pos.length := by
    have : 0 < rows.length := List.length_pos_iff.mpr hne
    simp [diffs_length, lp, lt]; omega
  have hrl : ∀ l, rot = some l → l.length = pos.length := fun l e => by rw [h5' l e, lp]
  have hal : ∀ l, arc = some l → l.length = pos.length := fun l e => by rw [h3' l e, lp]
  have hvl : ∀ l, speed = some l → l.length = pos.length := fun l e => by rw [h4' l e, lp]
  have hlen : (lengthsFromXyz io.nrm pos).length = pos.length :=
    lengthsFromXyz_length _ (fun h0 => hne (List.length_eq_zero_iff.mp (by rw [← lp, h0]; rfl)))
  have tl : ∀ {n : Nat}, n = pos.length → n = (ts.map (fun t => t + m.timeOffset)).length := by
    intro n hn; rw [hn]; simp [lp, lt]
  unfold Traj.new
  simp only [bind, Except.bind, pure, Except.pure, throw, throwThe, MonadExceptOf.throw, hgrad]
  cases rot with
  | none =>
    cases arc with
    | none =>
      cases speed with
      | none => exact ⟨_, rfl, tl rfl, tl hlen, tl hgl, by simp⟩
      | some v =>
        simp only [hvl v rfl, if_true]
        exact ⟨_, rfl, tl rfl, tl hlen, tl (hvl v rfl), by simp⟩
    | some l =>
      simp only [hal l rfl, if_true]
      cases speed with
      | none => exact ⟨_, rfl, tl rfl, tl (hal l rfl), tl hgl, by simp⟩
      | some v =>
        simp only [hvl v rfl, if_true]
        exact ⟨_, rfl, tl rfl, tl (hal l rfl), tl (hvl v rfl), by simp⟩
  | some r =>
    have hr := hrl r rfl
    simp only [hr, ne_eq, not_true_eq_false, if_false]
    cases arc with
    | none =>
      cases speed with
      | none => exact ⟨_, rfl, tl rfl, tl hlen, tl hgl, by rintro _ ⟨⟩; exact tl hr⟩
      | some v =>
        simp only [hvl v rfl, if_true]
        exact ⟨_, rfl, tl rfl, tl hlen, tl (hvl v rfl), by rintro _ ⟨⟩; exact tl hr⟩
    | some l =>
      simp only [hal l rfl, if_true]
      cases speed with
      | none => exact ⟨_, rfl, tl rfl, tl (hal l rfl), tl hgl, by rintro _ ⟨⟩; exact tl hr⟩
      | some v =>
        simp only [hvl v rfl, if_true]
        exact ⟨_, rfl, tl rfl, tl (hal l rfl), tl (hvl v rfl), by rintro _ ⟨⟩; exact tl hr⟩

/-! ### C172 -/

/-- **C172 does not hold.** Whatever the header says, and whatever the columns are, a trajectory read from a file
or from a string is in chronological order: the setting `#sorting spatial` has no effect. -/
theorem C172_always_chronological (io : IoLib K R) (counter : Nat) (content : Str) :
    (∀ T, Traj.fromFile io counter content = .ok T → T.sorting = .time) ∧
    (∀ T, Traj.fromStream io counter content = .ok T → T.sorting = .time) := by
  constructor
  · intro T h
    unfold Traj.fromFile at h
    obtain ⟨⟨m, data⟩, -, h⟩ := ok_bind_inv h
    exact (fromTable_inv h).2.2.2.2.1
  · intro T h
    unfold Traj.fromStream at h
    obtain ⟨⟨m, data⟩, -, h⟩ := ok_bind_inv h
    exact (fromTable_inv h).2.2.2.2.1

/-! ### examples -/

/-- a file with its columns in an unusual order, separated by semicolons, in degrees and with an offset -/
def exColumns : Str :=
  "#name odd one\n#fields pz,t,ez,px,l,ex,py,ey\n#delimiter ';'\n#rot_unit deg\n#nframe ned\n#time_offset 100\n#sorting spatial\n3;0.5;90;1;0;30;2;60\n-3; 1.5;90;1e1;7;30;2;60\n".toList

/-- its rows -/
def exColumnRows : List (List Str) :=
  [["3", "0.5", "90", "1", "0", "30", "2", "60"].map String.toList,
   ["-3", " 1.5", "90", "1e1", "7", "30", "2", "60"].map String.toList]

set_option maxRecDepth 8000 in
theorem exColumns_table : TableFile exColumns ';' exColumnRows where
  text := ⟨["#name odd one", "#fields pz,t,ez,px,l,ex,py,ey", "#delimiter ';'", "#rot_unit deg", "#nframe ned",
    "#time_offset 100", "#sorting spatial"].map String.toList, by
      intro l hl
      simp only [List.mem_map, List.mem_cons, List.not_mem_nil, or_false] at hl
      obtain ⟨s, hs, rfl⟩ := hl
      rcases hs with rfl | rfl | rfl | rfl | rfl | rfl | rfl <;>
      exact ⟨by unfold OneLine; decide, _, rfl⟩, by decide⟩
  some_row := by simp [exColumnRows]
  width := ⟨8, by decide, by decide⟩
  cell := by unfold OneLine; decide
  not_blank := by decide
  sep_plain := by decide

set_option maxRecDepth 8000 in
example : ∃ m : HMeta ℚ, headerFromFile exColumns = .ok m ∧ m.delimiter = ';' ∧ m.timeFormat = .ok .unix ∧
    m.fields.count "t".toList = 1 ∧ m.timeOffset = 100 ∧
    Holds m.fields (exColumnRows[1]) "px" (10 : ℚ) ∧ Holds m.fields (exColumnRows[1]) "t" (1.5 : ℚ) ∧
    Holds m.fields (exColumnRows[1]) "l" (7 : ℚ) := by
  have hd : ∀ c ∈ ['0', '1', '2', '3', '4', '5', '6', '7', '8', '9'], Digits [c] := by
    unfold Digits; decide
  have d1 : decimal ['1'] = 1 := by decide
  have d5 : decimal ['5'] = 5 := by decide
  have d7 : decimal ['7'] = 7 := by decide
  refine ⟨_, rfl, by decide, by decide, by decide, by decide +kernel, ?_, ?_, ?_⟩
  · refine ⟨3, "1e1".toList, "1e1".toList, ⟨rfl, by decide⟩, rfl, ?_, [], [], by simp, by simp⟩
    have := NumText.plain (K := ℚ) (ExpText.exp (s := ['1']) (c := 'e') (DecText.int (hd '1' (by decide))) (Or.inl rfl)
      (IntText.plain (hd '1' (by decide))))
    have e : ((decimal ['1'] : ℚ) * 10 ^ ((decimal ['1'] : Int))) = 10 := by norm_num [d1]
    rw [e] at this
    exact this
  · refine ⟨1, " 1.5".toList, "1.5".toList, ⟨rfl, by decide⟩, rfl, ?_, [' '], [], by decide, by decide⟩
    have := NumText.plain (K := ℚ) (ExpText.plain (DecText.frac (Or.inr (hd '1' (by decide))) (hd '5' (by decide))))
    have e : ((decimal ['1'] : ℚ) + (decimal ['5'] : ℚ) / 10 ^ ['5'].length) = 1.5 := by
      norm_num [d1, d5]
    rw [e] at this
    exact this
  · refine ⟨4, "7".toList, "7".toList, ⟨rfl, by decide⟩, rfl, ?_, [], [], by simp, by simp⟩
    have := NumText.plain (K := ℚ) (ExpText.plain (DecText.int (hd '7' (by decide))))
    have e : (decimal ['7'] : ℚ) = 7 := by norm_num [d7]
    rw [e] at this
    exact this

example : (Traj.fromFile ratIo 0 exColumns).toOption.map (fun T => (T.tstamps, T.pos, T.arc)) =
    some ([100.5, 101.5], [⟨1, 2, 3⟩, ⟨10, 2, -3⟩], [0, 7]) := by decide +kernel

example : (Traj.fromFile ratIo 0 exColumns).toOption.map (fun T => (T.name, T.rot, T.sorting)) =
    some ("odd one", some [0, 0], .time) := by decide +kernel

end TC
