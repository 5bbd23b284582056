import Verif.Props.TrajFile
/-!
# Reading trajectory files: C92, C107
-/
namespace TC
set_option linter.unusedSectionVars false
variable {K R : Type} [Field K] [LinearOrder K] [IsStrictOrderedRing K] [FloorRing K]

theorem ok_bind_inv {α β : Type} {x : Except Err α} {f : α → Except Err β} {b : β} (h : (x >>= f) = .ok b) :
    ∃ a, x = .ok a ∧ f a = .ok b := by
  cases x with
  | error e => cases h
  | ok a => exact ⟨a, rfl, h⟩

/-! ### C92 -/

/-- the time stamps given to the constructor are those of the trajectory -/
theorem new_tstamps {nrm : V3 K → K} {counter : Nat} {a : TrajArgs K R} {T : Traj K R} {ts : List K}
    (hts : a.tstamps = some ts) (hnew : Traj.new nrm counter a = .ok T) : T.tstamps = ts := by
  unfold Traj.new at hnew
  simp only [hts, bind, Except.bind, pure, Except.pure, throw, throwThe, MonadExceptOf.throw] at hnew
  repeat' split at hnew
  all_goals first
  | cases hnew; rfl
  | cases hnew

theorem fromTable_tstamps {io : IoLib K R} {counter : Nat} {h : HMeta K} {data : List (List Str)} {T : Traj K R}
    (hr : Traj.fromTable io counter h data = .ok T) : extractTimestamps io h data = .ok T.tstamps := by
  unfold Traj.fromTable at hr
  obtain ⟨ts, h1, hr⟩ := ok_bind_inv hr
  obtain ⟨_, _, hr⟩ := ok_bind_inv hr
  obtain ⟨_, _, hr⟩ := ok_bind_inv hr
  obtain ⟨_, _, hr⟩ := ok_bind_inv hr
  obtain ⟨_, _, hr⟩ := ok_bind_inv hr
  rw [h1, new_tstamps rfl hr]

theorem cellsRows_one {data : List (List Str)} {i : Nat} {rows : List (List Str)}
    (h : cellsRows data [i] = .ok rows) : ∃ cs : List Str, rows = cs.map (fun c => [c]) ∧ cs.length = data.length ∧
      ∀ (k : Nat) row, data[k]? = some row → ∃ c, row[i]? = some c ∧ cs[k]? = some c := by
  unfold cellsRows at h
  split_ifs at h
  clear * - h
  induction data generalizing rows with
  | nil => cases h; exact ⟨[], rfl, rfl, by simp⟩
  | cons r data ih =>
    obtain ⟨b, bs, h1, h2, rfl⟩ := mapE_cons_inv h
    obtain ⟨cs, rfl, hl, hc⟩ := ih h2
    obtain ⟨c, _, h3, h4, rfl⟩ := mapE_cons_inv h1
    cases h4
    have h3' : r[i]? = some c := by
      cases hri : r[i]? with
      | none => rw [hri] at h3; cases h3
      | some d => rw [hri] at h3; cases h3; rfl
    refine ⟨c :: cs, rfl, by simp [hl], fun k row hk => ?_⟩
    cases k with
    | zero => cases hk; exact ⟨c, h3', rfl⟩
    | succ k => exact hc k row hk

theorem mapE_single {cs : List Str} {nums : List (List K)}
    (h : mapE (mapE cellVal) (cs.map (fun c => [c])) = .ok nums) :
    nums.flatten.length = cs.length ∧
    ∀ (k : Nat) c, cs[k]? = some c → ∃ x, cellVal c = .ok x ∧ nums.flatten[k]? = some x := by
  induction cs generalizing nums with
  | nil => cases h; exact ⟨rfl, by simp⟩
  | cons c cs ih =>
    obtain ⟨b, bs, h1, h2, rfl⟩ := mapE_cons_inv h
    obtain ⟨hl, hc⟩ := ih h2
    obtain ⟨x, _, h3, h4, rfl⟩ := mapE_cons_inv h1
    cases h4
    refine ⟨by simp [hl], fun k d hk => ?_⟩
    cases k with
    | zero => cases hk; exact ⟨x, h3, rfl⟩
    | succ k => exact hc k d hk

/-- **C92.** Reading a table with one time column `i` in the format `gps_sow`: every row gives one
time stamp, which is the number in the time column plus 604800 seconds for each GPS week, the time
of the GPS epoch and the time offset, minus 18 leap seconds. -/
theorem C92_conversion {io : IoLib K R} {counter : Nat} {content : Str} {T : Traj K R} {h : HMeta K}
    {data : List (List Str)} {i : Nat} (hread : readData content = .ok (h, data))
    (hf : h.timeFormat = .ok .gpsSow) (hi : timeColumns h = [i])
    (hr : Traj.fromFile io counter content = .ok T) :
    T.tstamps.length = data.length ∧
    ∀ (k : Nat) row, data[k]? = some row → ∃ c x, row[i]? = some c ∧
      (cellNum c : Except Err (Option K)) = .ok (some x) ∧
      T.tstamps[k]? = some (io.gpsEpoch + (h.gpsWeek io.gpsWeekNow : K) * 604800 + x - 18 + h.timeOffset) := by
  unfold Traj.fromFile at hr
  rw [hread] at hr
  have ht := fromTable_tstamps hr
  unfold extractTimestamps at ht
  rw [hf, hi] at ht
  simp only [bind, Except.bind] at ht
  rw [if_neg (by simp), if_neg (by simp), if_pos (by simp)] at ht
  unfold parseGpsSow at ht
  rw [hi] at ht
  cases hrows : cellsRows data [i] with
  | error e => rw [hrows] at ht; cases ht
  | ok rows =>
    obtain ⟨cs, rfl, hl, hc⟩ := cellsRows_one hrows
    rw [hrows] at ht
    simp only [bind, Except.bind] at ht
    cases hn : mapE (mapE (cellVal (K := K))) (cs.map (fun c => [c])) with
    | error e => rw [hn] at ht; cases ht
    | ok nums =>
      rw [hn] at ht
      obtain ⟨hl', hx⟩ := mapE_single hn
      simp only [pure, Except.pure, Except.ok.injEq] at ht
      rw [← ht]
      refine ⟨by rw [List.length_map, List.length_map, hl', hl], fun k row hk => ?_⟩
      obtain ⟨c, h1, h2⟩ := hc k row hk
      obtain ⟨x, h3, h4⟩ := hx k c h2
      refine ⟨c, x, h1, ?_, ?_⟩
      · unfold cellVal at h3
        obtain ⟨v, h5, h6⟩ := ok_bind_inv h3
        cases v with
        | none => cases h6
        | some y => cases h6; exact h5
      · simp only [List.getElem?_map, h4, Option.map_some, Option.some.injEq]
        ring

/-- **C92.** The conversion keeps the order: of two rows the one with the larger number of seconds
gets the larger time stamp, and equal differences of seconds give equal differences of time. -/
theorem C92_strict_order {io : IoLib K R} {counter : Nat} {content : Str} {T : Traj K R} {h : HMeta K}
    {data : List (List Str)} {i : Nat} (hread : readData content = .ok (h, data))
    (hf : h.timeFormat = .ok .gpsSow) (hi : timeColumns h = [i])
    (hr : Traj.fromFile io counter content = .ok T) {k m : Nat} {row row' : List Str} {c c' : Str} {x x' : K}
    (hk : data[k]? = some row) (hm : data[m]? = some row') (hc : row[i]? = some c) (hc' : row'[i]? = some c')
    (hx : (cellNum c : Except Err (Option K)) = .ok (some x))
    (hx' : (cellNum c' : Except Err (Option K)) = .ok (some x')) :
    ∃ t t', T.tstamps[k]? = some t ∧ T.tstamps[m]? = some t' ∧ t' - t = x' - x ∧ (x < x' ↔ t < t') := by
  obtain ⟨-, hall⟩ := C92_conversion hread hf hi hr
  obtain ⟨d, y, h1, h2, h3⟩ := hall k row hk
  obtain ⟨d', y', h1', h2', h3'⟩ := hall m row' hm
  rw [hc] at h1; cases h1
  rw [hc'] at h1'; cases h1'
  rw [hx] at h2; cases h2
  rw [hx'] at h2'; cases h2'
  refine ⟨_, _, h3, h3', by ring, ?_⟩
  constructor <;> intro hlt <;> linarith

/-- a library for computing examples: no orientations -/
def ratIo : IoLib ℚ Nat where
  rot := { one := 0, mul := fun a _ => a, inv := id, toMat := fun _ => 1, fromMat := fun _ => 0, slerp := fun a _ _ => a }
  asQuat _ := ⟨0, 0, 0, 1⟩
  fromQuat _ := .ok 0
  fromEuler _ _ := 0
  datetime _ _ _ := .error .valueError
  gpsEpoch := 315964800
  gpsWeekNow := 2400
  nrm v := |v.x| + |v.y| + |v.z|

/-- a file with GPS times -/
def exGps : Str :=
  "#time_format gps_sow\n#gps_week 2200\n#fields t,px,py,pz\n10.5,1,2,3\n11,1,2,4\n".toList

example : ∃ h data, readData exGps = .ok (h, data) ∧ (h : HMeta ℚ).timeFormat = .ok .gpsSow ∧
    timeColumns h = [0] ∧ (Traj.fromFile ratIo 0 exGps).map (fun T => T.tstamps) =
      .ok [315964800 + 2200 * 604800 + 10.5 - 18, 315964800 + 2200 * 604800 + 11 - 18] := by
  refine ⟨[("fields".toList, .str "t,px,py,pz".toList), ("gps_week".toList, .int 2200),
    ("time_format".toList, .str "gps_sow".toList)], [["10.5", "1", "2", "3"].map String.toList,
      ["11", "1", "2", "4"].map String.toList], ?_, ?_, ?_, ?_⟩
  · rfl
  · decide
  · decide
  · decide +kernel

/-! ### C107 -/

/-- the text contains no end of line other than the line feed -/
def OnlyLineFeeds (s : Str) : Prop := ∀ c ∈ s, lineBreak c = true → c = '\n'

theorem newlines_lf : ∀ (s : Str) (_ : OnlyLineFeeds s), newlines false s = s
  | [], _ => rfl
  | c :: cs, h => by
    have hc : c ≠ '\r' := by
      rintro rfl
      have := h '\r' (by simp) (by decide)
      exact absurd this (by decide)
    simp only [newlines, hc, if_false, Bool.false_eq_true, and_false]
    rw [newlines_lf cs (fun d hd => h d (by simp [hd]))]

theorem linesAux_lf : ∀ (s acc : Str) (_ : OnlyLineFeeds s),
    linesAux lineBreak s acc = linesAux (fun c => c == '\n') s acc
  | [], _, _ => rfl
  | c :: cs, acc, h => by
    have hc : lineBreak c = (c == '\n') := by
      by_cases e : c = '\n'
      · subst e; decide
      · have : lineBreak c ≠ true := fun hb => e (h c (by simp) hb)
        simp only [Bool.not_eq_true] at this
        simp [this, e]
    simp only [linesAux, hc]
    rw [linesAux_lf cs [] (fun d hd => h d (by simp [hd])), linesAux_lf cs _ (fun d hd => h d (by simp [hd]))]

theorem header_same {s : Str} (h : OnlyLineFeeds s) :
    (headerFromString s : Except Err (HMeta K)) = headerFromFile s := by
  unfold headerFromString headerFromFile splitLines fileLines
  rw [newlines_lf s h, linesAux_lf s [] h]

/-- **C107.** Text whose only line ends are line feeds and whose rows, split at the delimiter, form
a table of more than one column is read from a string as from a file. -/
theorem C107_string_partial (io : IoLib K R) (counter : Nat) {content : Str} (hlf : OnlyLineFeeds content)
    (htab : ∀ h : HMeta K, headerFromFile content = .ok h →
      ∃ rows, readCsv h.delimiter content = .ok rows ∧ tableWidth rows ≠ 1) :
    Traj.fromStream io counter content = Traj.fromFile io counter content := by
  unfold Traj.fromStream Traj.fromFile readString readData
  rw [header_same hlf]
  cases hh : (headerFromFile content : Except Err (HMeta K)) with
  | error e => rfl
  | ok h =>
    obtain ⟨rows, h1, h2⟩ := htab h hh
    simp only [bind, Except.bind, h1, if_neg h2, pure, Except.pure, orElse]

/-- **C107 does not hold.** Text with columns separated by blanks is read from a file but not from a
string. -/
theorem C107_blanks_not_from_string (io : IoLib K R) (counter : Nat) :
    (∃ T, Traj.fromFile io counter "#fields t,px,py,pz\n0 1 2 3\n1 2 3 4\n".toList = .ok T) ∧
    Traj.fromStream io counter "#fields t,px,py,pz\n0 1 2 3\n1 2 3 4\n".toList = .error .indexError := by
  constructor
  · exact ⟨_, rfl⟩
  · rfl

/-- the ends of lines of `str.splitlines` besides `\n` and `\r`: vertical tab, form feed, the separators of files, groups
and records, next line, line separator, paragraph separator -/
def otherLineEnds : List Char := [11, 12, 28, 29, 30, 0x85, 0x2028, 0x2029].map Char.ofNat

/-- a name with such a character in it -/
def nameWith (c : Char) : Str := "#name a".toList ++ c :: "b\n#fields t,px,py,pz\n0,1,2,3\n1,2,3,4\n".toList

/-- **C107 does not hold** for other ends of lines within a header either: read from a file the trajectory is named `a b`,
read from a string it is named `a`. -/
theorem C107_other_line_ends (io : IoLib K R) (counter : Nat) : ∀ c ∈ otherLineEnds,
    (Traj.fromFile io counter (nameWith c)).map Traj.name = .ok "a b" ∧
    (Traj.fromStream io counter (nameWith c)).map Traj.name = .ok "a" := by
  intro c hc
  simp only [otherLineEnds, List.map_cons, List.map_nil, List.mem_cons, List.not_mem_nil, or_false] at hc
  rcases hc with rfl | rfl | rfl | rfl | rfl | rfl | rfl | rfl <;> exact ⟨rfl, rfl⟩

/-- a written file has no line ends other than line feeds -/
theorem written_lf (io : IoLib K R) {T : Traj K R} (hname : CleanName T.name.toList) :
    OnlyLineFeeds (linesText (trajHeader T) ++ csvRows (trajTable io T)) := by
  have brk : ∀ c : Char, lineBreak c = true → pySpace c = true := by
    intro c h
    simp only [lineBreak, pySpace, Bool.or_eq_true, Bool.and_eq_true, decide_eq_true_eq, beq_iff_eq] at h ⊢
    omega
  have blank : lineBreak ' ' ≠ true := by decide
  have words : ∀ {s : Str}, CleanName s → ∀ c ∈ s, lineBreak c ≠ true := by
    rintro s ⟨ws, -, hw, rfl⟩ c hc hb
    rw [← pyJoin_intercalate] at hc
    rcases mem_pyJoin hc with hc | ⟨p, hp, hc⟩
    · simp at hc; subst hc; exact blank hb
    · have := (hw p hp).2 c hc
      rw [brk c hb] at this; cases this
  have noSp : ∀ {s : Str}, NoSpace s → ∀ c ∈ s, lineBreak c ≠ true := by
    intro s hs c hc hb
    have := hs c hc
    rw [brk c hb] at this; cases this
  intro c hc hb
  rcases List.mem_append.mp hc with hc | hc
  · unfold linesText at hc
    obtain ⟨l, hl, hc⟩ := List.mem_flatten.mp hc
    obtain ⟨l0, h0, rfl⟩ := List.mem_map.mp hl
    rcases List.mem_append.mp hc with hc | hc
    · exfalso
      simp only [trajHeader, List.mem_cons, List.not_mem_nil, or_false] at h0
      have split : ∀ {a b : Str}, (∀ c ∈ a, lineBreak c ≠ true) → (∀ c ∈ b, lineBreak c ≠ true) →
          c ∈ a ++ ' ' :: b → False := by
        intro a b ha hb' hc
        rcases List.mem_append.mp hc with hc | hc
        · exact ha c hc hb
        · rcases List.mem_cons.mp hc with rfl | hc
          · exact blank hb
          · exact hb' c hc hb
      rcases h0 with rfl | rfl | rfl | rfl
      · exact split (by decide) (noSp (intStr_noSpace _)) hc
      · exact split (by decide) (words hname) hc
      · exact split (by decide) (by decide) hc
      · exact split (by decide) (words (fieldsStr_clean _)) hc
    · simpa using hc
  · unfold csvRows at hc
    obtain ⟨l, hl, hc⟩ := List.mem_flatten.mp hc
    obtain ⟨row, hrow, rfl⟩ := List.mem_map.mp hl
    unfold csvRow at hc
    rcases List.mem_append.mp hc with hc | hc
    · exfalso
      rcases mem_pyJoin hc with hc | ⟨p, hp, hc⟩
      · simp at hc; subst hc; exact absurd hb (by decide)
      · obtain ⟨s, -, rfl⟩ := List.mem_map.mp hrow
        obtain ⟨x, -, rfl⟩ := List.mem_map.mp hp
        exact noSp (fmtFixed_noSpace 9 x) c hc hb
    · simpa using hc

/-- **C107.** The content of a written file is read from a string as from the file. -/
theorem C107_written (io : IoLib K R) (counter : Nat) {T : Traj K R} (hT : Coherent T)
    (hne : T.tstamps ≠ []) (hname : CleanName T.name.toList) (old : Str) :
    ∃ content, T.toFile io false old = .ok content ∧
      Traj.fromStream io counter content = Traj.fromFile io counter content := by
  refine ⟨_, toFile_eq io hT false old, ?_⟩
  simp only [openMode, Bool.false_eq_true, if_false, List.nil_append]
  have hread := readData_written io hT hne hname
  apply C107_string_partial io counter (written_lf io hname)
  intro h hh
  unfold readData at hread
  rw [hh] at hread
  simp only [bind, Except.bind] at hread
  have hm : h = trajMeta T := by
    split at hread
    · cases hread
    · cases hread; rfl
  subst hm
  rw [trajMeta_delimiter]
  refine ⟨trajTable io T, readCsv_trajTable io hT hne hname.oneLine, ?_⟩
  have hwid := trajTable_width io T
  match h : trajTable io T, trajTable_ne io hT hne with
  | row :: rows, _ =>
    have := hwid row (by rw [h]; simp)
    simp only [tableWidth]; omega

example : OnlyLineFeeds exGps := by unfold OnlyLineFeeds exGps; decide
example : Traj.fromStream ratIo 0 exGps = Traj.fromFile ratIo 0 exGps :=
  C107_string_partial ratIo 0 (by unfold OnlyLineFeeds exGps; decide) (by
    intro h hh
    refine ⟨[["10.5", "1", "2", "3"].map String.toList, ["11", "1", "2", "4"].map String.toList], ?_, by decide⟩
    have : (headerFromFile exGps : Except Err (HMeta ℚ)) = .ok [("fields".toList, .str "t,px,py,pz".toList),
      ("gps_week".toList, .int 2200), ("time_format".toList, .str "gps_sow".toList)] := rfl
    rw [this] at hh
    cases hh
    rfl)

end TC
