import Verif.Model.Crash
import Verif.Spec.Crash
import Verif.Props.TrajFile
import Verif.Props.AteFile

/-!
# Saving that is interrupted: C167, C168
-/

namespace TC

set_option linter.unusedSectionVars false

variable {K R : Type} [Field K] [LinearOrder K] [IsStrictOrderedRing K] [FloorRing K]

/-! ### the beginning of a header holds no data -/

theorem fileLines_oneLine {l : Str} (h : OneLine l) : fileLines l = if l = [] then [] else [l] := by
  have h1 := newlines_oneLine' l [] h
  have h2 : newlines false [] = [] := rfl
  unfold fileLines
  rw [List.append_nil, h2, List.append_nil] at h1
  rw [h1]
  have : ∀ (l acc : Str), (∀ c ∈ l, c ≠ '\n') →
      linesAux (fun c => c == '\n') l acc = if acc ++ l = [] then [] else [acc ++ l] := by
    intro l
    induction l with
    | nil => intro acc _; simp [linesAux]
    | cons c l ih =>
      intro acc hc
      have : (c == '\n') = false := by simpa using hc c (by simp)
      simp only [linesAux, this, Bool.false_eq_true, if_false]
      rw [ih _ (fun x hx => hc x (by simp [hx]))]
      simp
  simpa using this l [] (fun c hc => (h c hc).1)

/-- the lines of a beginning of some comment lines are comments -/
theorem fileLines_prefix : ∀ {ls : List Str} {p : Str}, (∀ l ∈ ls, OneLine l ∧ ∃ r, l = '#' :: r) →
    p <+: linesText ls → ∀ l ∈ fileLines p, ∃ r, l = '#' :: r
  | [], p, _, hp => by
    have : p = [] := by simpa [linesText] using hp
    rw [this, fileLines_nil]; simp
  | l :: ls, p, h, hp => by
    have e : linesText (l :: ls) = (l ++ ['\n']) ++ linesText ls := by simp [linesText]
    rw [e] at hp
    obtain ⟨h1, r, hr⟩ := h l (by simp)
    rcases List.prefix_or_prefix_of_prefix hp (List.prefix_append (l ++ ['\n']) (linesText ls)) with h2 | h2
    · -- within the first line
      rcases List.prefix_concat_iff.mp h2 with rfl | h3
      · rw [show l ++ ['\n'] = l ++ '\n' :: [] from rfl, fileLines_cons h1, fileLines_nil]
        intro x hx
        rw [List.mem_singleton.mp hx]
        exact ⟨r, hr⟩
      · have h4 : OneLine p := fun c hc => h1 c (h3.subset hc)
        rw [fileLines_oneLine h4]
        intro x hx
        by_cases hp0 : p = []
        · simp [hp0] at hx
        · rw [if_neg hp0] at hx
          rw [List.mem_singleton.mp hx]
          cases p with
          | nil => exact absurd rfl hp0
          | cons c q =>
            rw [hr] at h3
            obtain ⟨t, ht⟩ := h3
            injection ht with hc _
            exact ⟨q, by rw [hc]⟩
    · obtain ⟨q, rfl⟩ := h2
      have h3 : q <+: linesText ls := (List.prefix_append_right_inj _).mp hp
      have ih := fileLines_prefix (fun x hx => h x (by simp [hx])) h3
      rw [List.append_assoc, List.singleton_append, fileLines_cons h1]
      intro x hx
      rcases List.mem_cons.mp hx with rfl | hx
      · exact ⟨r, hr⟩
      · exact ih x hx

theorem dataLines_comments {p : Str} (h : ∀ l ∈ fileLines p, ∃ r, l = '#' :: r) : dataLines p = [] := by
  unfold dataLines
  rw [List.filter_eq_nil_iff]
  intro l hl
  obtain ⟨l', h1, rfl⟩ := List.mem_map.mp hl
  obtain ⟨r, rfl⟩ := h l' h1
  simp [stripComment]

theorem fromTable_nil (io : IoLib K R) (counter : Nat) (h : HMeta K) :
    ∃ e, Traj.fromTable io counter h [] = .error e := by
  have key : ∃ e, extractPositions h ([] : List (List Str)) = .error e := by
    unfold extractPositions numCol3 numCol cellsAt
    cases fieldIndex h.fields "px" with
    | error e => exact ⟨e, rfl⟩
    | ok i => exact ⟨.indexError, rfl⟩
  obtain ⟨e, he⟩ := key
  unfold Traj.fromTable
  cases extractTimestamps io h ([] : List (List Str)) with
  | error e => exact ⟨e, rfl⟩
  | ok ts =>
    refine ⟨e, ?_⟩
    simp only [bind, Except.bind, he]

theorem fromFile_no_data (io : IoLib K R) (counter : Nat) {p : Str} (h : dataLines p = []) :
    ∃ e, Traj.fromFile io counter p = .error e := by
  unfold Traj.fromFile readData
  cases hh : (headerFromFile p : Except Err (HMeta K)) with
  | error e => exact ⟨e, rfl⟩
  | ok m =>
    have e1 : ∀ c, readCsv c p = .error .valueError := fun c => by simp [readCsv, h, rectangular]
    have e2 : readCsvSpace p = .error .valueError := by simp [readCsvSpace, h, rectangular]
    have e3 : loadtxt p = .ok [] := by simp [loadtxt, h]
    simp only [bind, Except.bind, e1, e2, e3, orElse, pure, Except.pure]
    exact fromTable_nil io counter m

/-- **C167.** If saving a trajectory to a new file is interrupted before the first row of numbers
begins, at whatever character, reading the file raises. -/
theorem C167_header_only {io : IoLib K R} (counter : Nat) {T : Traj K R} (hT : Coherent T)
    (hname : OneLine T.name.toList) (old : Str) {p : Str} (hp : p <+: T.fileHeader) :
    Traj.Interrupted io T false old p ∧ ∃ e, Traj.fromFile io counter p = .error e := by
  refine ⟨?_, fromFile_no_data io counter (dataLines_comments ?_)⟩
  · have := Traj.Interrupted.during (append := false) (old := old) (fileRows_eq io hT)
      (hp.trans (List.prefix_append _ _))
    simpa [openMode] using this
  · rw [fileHeader_eq] at hp
    exact fileLines_prefix (trajHeader_lines hname) hp

/-! ### the first samples -/

theorem Traj.first_coherent {T : Traj K R} (hT : Coherent T) (k : Nat) : Coherent (T.first k) := by
  refine ⟨?_, ?_, ?_, ?_⟩
  · simp [Traj.first, hT.pos]
  · simp [Traj.first, hT.arc]
  · simp [Traj.first, hT.speed]
  · intro r hr
    simp only [Traj.first, Option.map_eq_some_iff] at hr
    obtain ⟨q, hq, rfl⟩ := hr
    simp [Traj.first, hT.rot q hq]

theorem zip_take {α β : Type} (k : Nat) : ∀ (a : List α) (b : List β), (a.take k).zip (b.take k) = (a.zip b).take k := by
  induction k with
  | zero => simp
  | succ k ih => intro a b; cases a <;> cases b <;> simp [ih]

theorem quatColumn_take (io : IoLib K R) (k n : Nat) (o : Option (List R)) :
    quatColumn io (min k n) (o.map (List.take k)) = (quatColumn io n o).take k := by
  cases o with
  | none => simp [quatColumn, List.take_replicate]
  | some q => simp [quatColumn, List.map_take]

theorem samples_first (T : Traj K R) (k : Nat) : samples (T.first k) = (samples T).take k := by
  have hr : rotColumn (min k T.tstamps.length) (T.rot.map (List.take k)) = (rotColumn T.tstamps.length T.rot).take k := by
    cases T.rot with
    | none => simp [rotColumn, List.take_replicate]
    | some q => simp [rotColumn, List.map_take]
  unfold samples
  simp only [Traj.first, List.length_take, hr, zip_take, List.map_take]

theorem trajRows_first (io : IoLib K R) (T : Traj K R) (k : Nat) :
    trajRows io (T.first k) = (trajRows io T).take k := by
  unfold trajRows
  simp only [Traj.first, List.length_take, quatColumn_take, zip_take]

theorem trajHeader_first (T : Traj K R) (k : Nat) : trajHeader (T.first k) = trajHeader T := by
  unfold trajHeader fieldsStr
  cases h : T.rot <;> simp [Traj.first, h]

theorem csvRows_take_prefix (k : Nat) (rows : List (List Str)) : csvRows (rows.take k) <+: csvRows rows := by
  conv_rhs => rw [← List.take_append_drop k rows]
  unfold csvRows
  rw [List.map_append, List.flatten_append]
  exact List.prefix_append _ _

/-- the file of the first `k` samples is what is there after `k` rows were written -/
theorem C167_after_rows {io : IoLib K R} {T : Traj K R} (hT : Coherent T) (old : Str) (k : Nat) :
    ∃ content, (T.first k).toFile io false old = .ok content ∧ Traj.Interrupted io T false old content := by
  refine ⟨_, toFile_eq io (Traj.first_coherent hT k) false old, ?_⟩
  rw [trajHeader_first, trajRows_first]
  refine Traj.Interrupted.during (fileRows_eq io hT) ?_
  rw [fileHeader_eq, List.map_map, List.map_take]
  exact (List.prefix_append_right_inj _).mpr (csvRows_take_prefix k _)

/-- **C167.** If it is interrupted after `k ≥ 1` whole rows, reading the file gives the first `k`
samples, as precisely as the whole file would.  (Missing: an interruption within a row.) -/
theorem C167_first_samples_partial {io : IoLib K R} (hio : IsIoLib io) (counter : Nat) {T : Traj K R}
    (hT : Coherent T) (hne : T.tstamps ≠ []) (hname : CleanName T.name.toList) (old : Str) {k : Nat} (hk : 1 ≤ k) :
    ∃ content T', Traj.Interrupted io T false old content ∧ Traj.fromFile io counter content = .ok T' ∧
      T'.name = T.name ∧ T'.epsg = T.epsg ∧
      List.Forall₂ (CloseSample io.rot (1 / (2 * 10 ^ 9)) (1 / 10 ^ 8)) ((samples T).take k) (samples T') := by
  obtain ⟨content, h1, h2⟩ := C167_after_rows (io := io) hT old k
  have hne' : (T.first k).tstamps ≠ [] := by
    intro e
    rcases List.take_eq_nil_iff.mp e with h | h
    · omega
    · exact hne h
  obtain ⟨c, T', h3, h4, -, h5, h6, -, -, h7⟩ :=
    C91_round_trip hio counter (Traj.first_coherent hT k) hne' (T := T.first k) hname old
  rw [h1] at h3
  cases h3
  rw [samples_first] at h7
  exact ⟨content, T', h2, h4, h5, h6, h7⟩

/-- **C167 does not hold: an interrupted save can go unnoticed.** For every trajectory of at least two
samples there is a moment at which the file can be read without any error, but holds fewer samples
than the trajectory. -/
theorem C167_unnoticed {io : IoLib K R} (hio : IsIoLib io) (counter : Nat) {T : Traj K R} (hT : Coherent T)
    (htwo : 2 ≤ T.tstamps.length) (hname : CleanName T.name.toList) (old : Str) :
    ∃ content T', Traj.Interrupted io T false old content ∧ Traj.fromFile io counter content = .ok T' ∧
      T'.name = T.name ∧ (samples T').length < (samples T).length := by
  have hne : T.tstamps ≠ [] := by intro e; rw [e] at htwo; simp at htwo
  obtain ⟨content, T', h1, h2, h3, -, h4⟩ := C167_first_samples_partial hio counter hT hne hname old le_rfl
  refine ⟨content, T', h1, h2, h3, ?_⟩
  rw [← h4.length_eq]
  have : (samples T).length = T.tstamps.length := samples_length hT
  rw [List.length_take]
  omega

/-- **C167 does not hold: the old file is lost.** Saving over the file of another trajectory opens it
for writing, which empties it: if the program is stopped then, neither trajectory can be read. -/
theorem C167_old_file_lost {io : IoLib K R} (hio : IsIoLib io) (counter : Nat) {T0 T : Traj K R} (hT0 : Coherent T0)
    (hne0 : T0.tstamps ≠ []) (hname0 : CleanName T0.name.toList) (hT : Coherent T) :
    ∃ old T0', T0.toFile io false [] = .ok old ∧ Traj.fromFile io counter old = .ok T0' ∧
      ∃ content, Traj.Interrupted io T false old content ∧ ∃ e, Traj.fromFile io counter content = .error e := by
  obtain ⟨old, T0', h1, h2, -⟩ := C91_round_trip hio counter hT0 hne0 hname0 []
  refine ⟨old, T0', h1, h2, [], ?_, fromFile_no_data io counter rfl⟩
  have := Traj.Interrupted.during (append := false) (old := old) (p := []) (fileRows_eq io hT) List.nil_prefix
  simpa [openMode] using this

example : IsIoLib realIo ∧ Coherent exFile ∧ exFile.tstamps ≠ [] ∧ 2 ≤ exFile.tstamps.length ∧
    CleanName exFile.name.toList :=
  ⟨realIo_ok, ⟨rfl, rfl, rfl, by rintro r ⟨⟩; rfl⟩, by simp [exFile], by simp [exFile],
    ⟨["my".toList, "run".toList], by simp, by unfold NoSpace; decide, by decide⟩⟩

/-! ### results -/

theorem AteResult.first_fits {r : AteResult K R} (h : AteFits r) {k : Nat} (hk : 1 ≤ k) : AteFits (r.first k) := by
  refine ⟨Traj.first_coherent h.traj k, ?_, ?_, ?_, ?_⟩
  · intro e
    rcases List.take_eq_nil_iff.mp e with h' | h'
    · omega
    · exact h.ne h'
  · simp [AteResult.first, Traj.first, h.pos]
  · simp [AteResult.first, Traj.first, h.dir]
  · intro q hq
    simp only [AteResult.first, Option.map_eq_some_iff] at hq
    obtain ⟨q', h1, rfl⟩ := hq
    simp [AteResult.first, Traj.first, h.rot q' h1]

theorem ateBlock_first {io : IoLib K R} {r : AteResult K R} (h : AteFits r) {k : Nat} (hk : 1 ≤ k) :
    ateBlock io (r.first k) = (ateBlock io r).take (k + 1) := by
  have e0 := (AteResult.first_fits h hk).trajRot_eq
  have e1 := h.trajRot_eq
  have e2 : (r.first k).trajectory.rot = r.trajectory.rot.map (List.take k) := rfl
  have hrows : ateRows io (r.first k) = (ateRows io r).take k := by
    unfold ateRows
    rw [e0, e1, e2]
    simp only [AteResult.first, Traj.first, List.length_take, quatColumn_take, zip_take]
  unfold ateBlock ateTable
  rw [hrows, List.take_succ_cons, e2]
  simp [AteResult.first, List.map_take]

/-- **C168.** If saving an absolute error to a new file is interrupted after `k ≥ 1` rows, reading the
file gives the first `k` samples and their deviations, under the same name. -/
theorem C168_first_samples_partial {io : IoLib K R} (hio : IsIoLib io) (counter : Nat) {r : AteResult K R}
    (h : AteFits r) (hname : CleanName r.name.toList) (old : Str) {k : Nat} (hk : 1 ≤ k) :
    ∃ content r', AteResult.Interrupted io r false old content ∧ AteResult.fromFile io counter content = .ok r' ∧
      CloseAte io.rot (1 / (2 * 10 ^ 12)) (1 / 10 ^ 11) (r.first k) r' := by
  obtain ⟨content, r', h1, h2, h3, -⟩ :=
    C68_round_trip_partial hio counter (AteResult.first_fits h hk) (r := r.first k) hname old
  refine ⟨content, r', ?_, h2, h3⟩
  rw [ateToFile_eq (AteResult.first_fits h hk)] at h1
  cases h1
  refine AteResult.Interrupted.table (ateFrame_eq h) ?_
  rw [ateBlock_first h hk]
  have e2 := ateColumns_eq r
  rw [h.trajRot_eq] at e2
  have e3 : (((ateRows io r).map ateCells).map (fun c => c.map (fmtFixed 12))) = ateTable io r := by
    rw [List.map_map]; rfl
  rw [e2, e3]
  exact (List.prefix_append_right_inj (ateHead r)).mpr (csvRows_take_prefix (k + 1) (ateBlock io r))

/-- **C168 does not hold: a partly written result is read as a result.** For every result of at least
two samples there is a moment at which the file is read without error, as a result of the same name
with fewer samples. -/
theorem C168_unnoticed {io : IoLib K R} (hio : IsIoLib io) (counter : Nat) {r : AteResult K R}
    (h : AteFits r) (htwo : 2 ≤ r.posDev.length) (hname : CleanName r.name.toList) (old : Str) :
    ∃ content r', AteResult.Interrupted io r false old content ∧ AteResult.fromFile io counter content = .ok r' ∧
      r'.name = r.name ∧ r'.posDev.length < r.posDev.length := by
  obtain ⟨content, r', h1, h2, h3⟩ := C168_first_samples_partial hio counter h hname old le_rfl
  refine ⟨content, r', h1, h2, h3.name, ?_⟩
  have := h3.posDev.length_eq
  simp [AteResult.first] at this
  omega

/-- a result under the name and with the EPSG code of another one -/
def AteResult.relabelled (r r2 : AteResult K R) : AteResult K R :=
  { r with name := r2.name, trajectory := { r.trajectory with epsg := r2.trajectory.epsg } }

/-- **C168 does not hold: an interrupted save changes the results already in the file.** `to_file`
appends by default.  If it is stopped after the header, the file still holds the rows of the earlier
result, and they are read without error under the name and the EPSG code of the new one. -/
theorem C168_other_result_relabelled {io : IoLib K R} (hio : IsIoLib io) (counter : Nat) {r r2 : AteResult K R}
    (h : AteFits r) (hname : CleanName r.name.toList) (hname2 : CleanName r2.name.toList) :
    ∃ old content r', r.toFile io true [] = .ok old ∧ AteResult.Interrupted io r2 true old content ∧
      AteResult.fromFile io counter content = .ok r' ∧ r'.name = r2.name ∧
      r'.trajectory.epsg = r2.trajectory.epsg ∧
      List.Forall₂ (fun a b => Close3 (1 / (2 * 10 ^ 12)) b a) r.posDev r'.posDev ∧
      List.Forall₂ (fun a b => Close3 (1 / (2 * 10 ^ 12)) b a) r.trajectory.pos r'.trajectory.pos := by
  have h3 : AteFits (r.relabelled r2) := ⟨⟨h.traj.pos, h.traj.arc, h.traj.speed, h.traj.rot⟩, h.ne, h.pos, h.dir, h.rot⟩
  obtain ⟨rot', rotDev', h4, -, -⟩ := ate_fromFile (io := io) h3 hio counter hname2
  have hread : AteResult.fromFile io counter (ateHead r ++ csvRows (ateBlock io r) ++ ateHead r2) =
      AteResult.fromFile io counter (ateHead (r.relabelled r2) ++ csvRows (ateBlock io (r.relabelled r2))) := by
    have hl := ate_fileLines (io := io) h hname.oneLine (ateHead r2)
    have hl2 := fileLines_ateHead hname2.oneLine ([] : Str)
    rw [List.append_nil, fileLines_nil, List.append_nil] at hl2
    rw [hl2] at hl
    have hhead : (headerFromFile (ateHead r ++ csvRows (ateBlock io r) ++ ateHead r2) : Except Err (HMeta K))
        = .ok (ateMeta r2 ++ ateMeta r) := by
      unfold headerFromFile
      rw [hl, ← List.append_assoc, handleLines_append, ate_header h hname]
      simp only [bind, Except.bind, List.append_nil]
      exact handleLines_ateHeader hname2 _
    have hframe : readFrame (ateHead r ++ csvRows (ateBlock io r) ++ ateHead r2) =
        readFrame (ateHead r ++ csvRows (ateBlock io r)) := by
      have hl0 := ate_fileLines (io := io) h hname.oneLine ([] : Str)
      rw [List.append_nil, fileLines_nil] at hl0
      unfold readFrame readCsv
      rw [dataLines_eq, dataLines_eq, hl, hl0, ate_csvLines h hname.oneLine, ate_csvLines h hname.oneLine,
        csvLines_comments (fun l hl => (ateHeader_lines hname2.oneLine l hl).2)]
      rfl
    unfold AteResult.fromFile
    rw [hhead, hframe, ate_readFrame h hname.oneLine, ate_headerFromFile h3 hname2, ate_readFrame h3 hname2.oneLine]
    rfl
  have close3 : ∀ p : V3 K, Close3 (1 / (2 * 10 ^ 12)) (round3 12 p) p := fun p =>
    ⟨roundTo_close 12 _, roundTo_close 12 _, roundTo_close 12 _⟩
  have hc : AteResult.Interrupted io r2 true (openMode true [] ++ (ateHead r ++ csvRows (ateBlock io r)))
      (ateHead r ++ csvRows (ateBlock io r) ++ ateHead r2) :=
    AteResult.Interrupted.header (append := true) (List.prefix_refl (ateHead r2))
  exact ⟨_, _, _, ateToFile_eq h true [], hc, hread.trans h4, rfl, rfl, forall₂_map_self _ _ close3,
    forall₂_map_self _ _ close3⟩

example : IsIoLib realIo ∧ AteFits exAteFile ∧ 2 ≤ exAteFile.posDev.length ∧ CleanName exAteFile.name.toList ∧
    CleanName ({ exAteFile with name := "other" } : AteResult ℝ (RotM ℝ)).name.toList :=
  ⟨realIo_ok, ⟨⟨rfl, rfl, rfl, by rintro r ⟨⟩; rfl⟩, by simp [exAteFile, exFile], rfl, rfl, by rintro r ⟨⟩; rfl⟩,
    by simp [exAteFile], ⟨["my".toList, "run".toList], by simp, by unfold NoSpace; decide, by decide⟩,
    ⟨["other".toList], by simp, by unfold NoSpace; decide, by decide⟩⟩

/-! ### relative errors -/

/-- a group without its last pair -/
def RpeGroup.butLast (g : RpeGroup K) : RpeGroup K :=
  { g with posDev := g.posDev.dropLast, rotDev := g.rotDev.dropLast, pairDist := g.pairDist.dropLast }

theorem RpeGroup.butLast_ok {w : Bool} {g : RpeGroup K} (h : GroupOk w g) : GroupOk w g.butLast := by
  obtain ⟨h1, h2⟩ := h
  refine ⟨by simp [RpeGroup.butLast, h1], ?_⟩
  cases w with
  | false => simp only [Bool.false_eq_true, if_false] at h2 ⊢; simp [RpeGroup.butLast, h2]
  | true => simp only [if_true] at h2 ⊢; simp [RpeGroup.butLast, h2]

theorem zip_dropLast {α β : Type} {a : List α} {b : List β} (h : a.length = b.length) :
    a.dropLast.zip b.dropLast = (a.zip b).dropLast := by
  rw [List.dropLast_eq_take, List.dropLast_eq_take, List.dropLast_eq_take, List.length_zip, h, min_self, zip_take]

theorem groupRows_butLast {w : Bool} {g : RpeGroup K} (h : GroupOk w g) :
    groupRows w g.butLast = (groupRows w g).dropLast := by
  obtain ⟨h1, h2⟩ := h
  cases w with
  | false =>
    simp only [groupRows, Bool.false_eq_true, if_false, RpeGroup.butLast, ← List.map_dropLast]
    rw [List.map_dropLast, zip_dropLast (by simp [h1])]
  | true =>
    simp only [if_true] at h2
    simp only [groupRows, if_true, RpeGroup.butLast, ← List.map_dropLast]
    rw [zip_dropLast (by rw [h1, h2]), List.map_dropLast, zip_dropLast (by simp [h1, h2])]

theorem readGroups_append (f : List Str × List (List Str)) : ∀ (ns : List Nat) (start : Nat) (more : List Int)
    (acc : List (RpeGroup K)), readGroups f start (ns.map (fun n : Nat => (n : Int)) ++ more) acc =
      (readGroups f start (ns.map (fun n : Nat => (n : Int))) acc).bind (readGroups f (start + ns.sum) more)
  | [], start, more, acc => by simp [readGroups, Except.bind]
  | n :: ns, start, more, acc => by
    simp only [List.map_cons, List.cons_append, readGroups]
    rw [if_neg (by omega), if_neg (by omega)]
    cases (readGroup f start (n : Int).toNat : Except Err (RpeGroup K)) with
    | error e => rfl
    | ok g =>
      simp only [bind, Except.bind, List.sum_cons]
      have := readGroups_append f ns (start + (n : Int).toNat) more (setGroup g acc)
      simp only [Except.bind, Int.toNat_natCast] at this ⊢
      rw [this, Nat.add_assoc]

/-- asking for more rows than there are -/
theorem readGroup_more {f : List Str × List (List Str)} {start a b : Nat} (hab : a ≤ b) (h : f.2.length ≤ start + a) :
    (readGroup f start b : Except Err (RpeGroup K)) = readGroup f start a := by
  have : (f.2.drop start).take b = (f.2.drop start).take a := by
    rw [List.take_of_length_le (by rw [List.length_drop]; omega),
      List.take_of_length_le (by rw [List.length_drop]; omega)]
  unfold readGroup
  simp only [this]

/-- the number of pairs of some groups -/
def pairCount (gs : List (RpeGroup K)) : Nat := (gs.map (fun g => g.pairDist.length)).sum

theorem setGroup_count (g : RpeGroup K) : ∀ l, pairCount (setGroup g l) ≤ pairCount l + g.pairDist.length
  | [] => by simp [setGroup, pairCount]
  | h :: t => by
    unfold setGroup
    split
    · simp only [pairCount, List.map_cons, List.sum_cons]; omega
    · have := setGroup_count g t
      simp only [pairCount, List.map_cons, List.sum_cons] at this ⊢; omega

theorem foldl_count (d : Nat) : ∀ (gs acc : List (RpeGroup K)),
    pairCount (gs.foldl (fun a g => setGroup (roundGroup d g) a) acc) ≤ pairCount acc + pairCount gs
  | [], acc => by simp [pairCount]
  | g :: gs, acc => by
    have h1 := foldl_count d gs (setGroup (roundGroup d g) acc)
    have h2 := setGroup_count (roundGroup d g) acc
    have h3 : (roundGroup d g).pairDist.length = g.pairDist.length := by simp [roundGroup]
    have h4 : pairCount (g :: gs) = g.pairDist.length + pairCount gs := by simp [pairCount]
    rw [List.foldl_cons, h4]
    omega

/-- **C168 does not hold for relative errors.** The header says how many pairs each group has, but
that is not compared with the rows: if the last group has at least two pairs there is a moment at which
the file is read without error, as a result of the same name and unit with fewer pairs. -/
theorem C168_relative_unnoticed {r : RpeResult K} (h : PairsComplete r) {gs : List (RpeGroup K)} {g : RpeGroup K}
    (hr : r.filled = gs ++ [g]) (htwo : 2 ≤ g.pairDist.length) (hname : CleanName r.name.toList)
    (hu : r.unit ≠ .none) (old : Str) :
    ∃ (content : Str) (r' : RpeResult K), RpeResult.Interrupted r false old content ∧
      RpeResult.fromFile content = .ok r' ∧ r'.name = r.name ∧ r'.unit = r.unit ∧ r'.len < r.len := by
  have hok := filled_ok h
  have hgok := (hok g (by rw [hr]; simp))
  have hblen : g.butLast.pairDist.length = g.pairDist.length - 1 := by simp [RpeGroup.butLast]
  have hbne : g.butLast.pairDist ≠ [] := by
    intro e; rw [e, List.length_nil] at hblen; omega
  have hbok : GroupOk r.hasRotDev g.butLast := RpeGroup.butLast_ok hgok.1
  have hall : ∀ x ∈ gs ++ [g.butLast], GroupOk r.hasRotDev x ∧ x.pairDist ≠ [] := by
    intro x hx
    rcases List.mem_append.mp hx with hx | hx
    · exact hok x (by rw [hr]; exact List.mem_append_left _ hx)
    · rw [List.mem_singleton.mp hx]; exact ⟨hbok, hbne⟩
  -- the rows that are there
  have htable : ((gs ++ [g.butLast]).map (groupRows r.hasRotDev)).flatten.map (fun c => c.map (fmtCell 12))
      = (rpeTable r).dropLast := by
    unfold rpeTable
    rw [hr, ← List.map_dropLast]
    refine congrArg _ ?_
    simp only [List.map_append, List.flatten_append, List.map_cons, List.map_nil, List.flatten_cons,
      List.flatten_nil, List.append_nil]
    rw [groupRows_butLast hgok.1, List.dropLast_append_of_ne_nil]
    intro e
    have := groupRows_length hgok.1
    rw [e, List.length_nil] at this
    omega
  have hsub : ∀ row ∈ rpeCols r.hasRotDev :: (rpeTable r).dropLast, row ∈ rpeCols r.hasRotDev :: rpeTable r := by
    intro row hrow
    rcases List.mem_cons.mp hrow with rfl | hrow
    · exact List.mem_cons_self
    · exact List.mem_cons_of_mem _ (List.dropLast_subset _ hrow)
  have hlines : fileLines (r.fileHeader ++ csvRows (rpeCols r.hasRotDev :: (rpeTable r).dropLast))
      = rpeHeader r ++ (rpeCols r.hasRotDev :: (rpeTable r).dropLast).map (pyJoin [',']) := by
    have h1 := fileLines_csvRows (rows := rpeCols r.hasRotDev :: (rpeTable r).dropLast)
      (fun row hr' => (rpeBlock_rows r row (hsub row hr')).2) []
    rw [List.append_nil, fileLines_nil, List.append_nil] at h1
    rw [fileLines_rpeHeader hname.oneLine, h1]
  have hhead : (headerFromFile (r.fileHeader ++ csvRows (rpeCols r.hasRotDev :: (rpeTable r).dropLast))
      : Except Err (HMeta K)) = .ok (rpeMeta r) := by
    unfold headerFromFile
    rw [hlines, handleLines_append, handleLines_rpeHeader hname]
    simp only [bind, Except.bind, List.append_nil]
    exact handleLines_rows (fun row hr' => (rpeBlock_rows r row (hsub row hr')).2) _
  have hframe : readFrame (r.fileHeader ++ csvRows (rpeCols r.hasRotDev :: (rpeTable r).dropLast))
      = .ok (rpeCols r.hasRotDev, (rpeTable r).dropLast) := by
    unfold readFrame readCsv
    rw [dataLines_eq, hlines, csvLines_append,
      csvLines_comments (fun l hl => (rpeHeader_lines hname.oneLine l hl).2), List.nil_append,
      csvLines_rows (fun row hr' => rpeBlock_ok r row (hsub row hr')),
      split_rows (fun row hr' => rpeBlock_ok r row (hsub row hr')),
      rectangular_ok (by simp) (fun row hr' => (rpeBlock_rows r row (hsub row hr')).1)]
    rfl
  -- the groups
  have hn : r.numPairs ≠ [] := by rw [numPairs_filled, hr]; simp
  have hp := rpeMeta_numPairs hn []
  rw [List.append_nil] at hp
  have hcut := readGroups_eq (d := 12) (gs ++ [g.butLast]) hall [] [] []
  rw [List.append_nil, List.nil_append, htable] at hcut
  have hlen : (rpeTable r).dropLast.length = pairCount gs + g.butLast.pairDist.length := by
    rw [← htable, List.length_map, List.length_flatten, List.map_map]
    have : (gs ++ [g.butLast]).map (List.length ∘ groupRows r.hasRotDev)
        = (gs ++ [g.butLast]).map (fun x => x.pairDist.length) :=
      List.map_congr_left (fun x hx => groupRows_length (hall x hx).1)
    rw [this]
    simp [pairCount]
  have hgroups : readGroups (rpeCols r.hasRotDev, (rpeTable r).dropLast) 0
      (r.numPairs.map (fun n : Nat => (n : Int))) ([] : List (RpeGroup K))
      = .ok ((gs ++ [g.butLast]).foldl (fun a g => setGroup (roundGroup 12 g) a) []) := by
    have e1 : ∀ x : RpeGroup K, (gs ++ [x]).map (fun g => (g.pairDist.length : Int)) =
        (gs.map (fun g => g.pairDist.length)).map (fun n : Nat => (n : Int)) ++ [(x.pairDist.length : Int)] := by
      intro x; simp
    rw [← hcut, numPairs_int, hr, e1, e1, readGroups_append, readGroups_append]
    refine congrArg _ ?_
    funext acc
    simp only [readGroups]
    rw [if_neg (by omega), if_neg (by omega)]
    simp only [Int.toNat_natCast, List.length_nil, Nat.zero_add]
    rw [readGroup_more (a := g.butLast.pairDist.length) (by omega) (by
      show (rpeTable r).dropLast.length ≤ _
      exact hlen.le)]
  have hnm : String.ofList (rpeMeta r).name = r.name := by
    have : (rpeMeta r).name = r.name.toList := rfl
    rw [this, String.ofList_toList]
  have hun : (rpeMeta r).relativeDistUnit = unitFromStr r.unit.name := rfl
  refine ⟨r.fileHeader ++ csvRows (rpeCols r.hasRotDev :: (rpeTable r).dropLast),
    { name := r.name
      groups := (gs ++ [g.butLast]).foldl (fun a g => setGroup (roundGroup 12 g) a) []
      unit := r.unit }, ?_, ?_, rfl, rfl, ?_⟩
  · have hpre : r.fileHeader ++ csvRows (rpeCols r.hasRotDev :: (rpeTable r).dropLast) <+:
        r.fileHeader ++ csvRows (r.columns :: ((r.groups.map (groupRows r.hasRotDev)).flatten).map
          (fun c => c.map (fmtCell 12))) := by
      rw [flatten_filled (fun g hg => h.ok g hg)]
      refine (List.prefix_append_right_inj _).mpr ?_
      rw [columns_eq, List.dropLast_eq_take, ← List.take_succ_cons]
      exact csvRows_take_prefix _ _
    have := RpeResult.Interrupted.table (append := false) (old := old) (frameRows_eq rfl h.ok) hpre
    exact this
  · unfold RpeResult.fromFile
    rw [hhead, hframe]
    simp only [bind, Except.bind, hp, hgroups, hun, unit_readable hu, hnm]
    rfl
  · have h1 := foldl_count 12 (gs ++ [g.butLast]) []
    have h2 : pairCount r.filled = pairCount r.groups := by
      unfold pairCount RpeResult.filled
      generalize r.groups = l
      induction l with
      | nil => rfl
      | cons x l ih =>
        rw [List.filter_cons]
        split
        · simp only [List.map_cons, List.sum_cons, ih]
        · rename_i hx
          have : x.pairDist = [] := by simpa using hx
          simp [ih, this]
    have h3 : pairCount (gs ++ [g.butLast]) + 1 = pairCount r.filled := by
      rw [hr]; simp [pairCount, RpeGroup.butLast]; omega
    have h4 : pairCount ([] : List (RpeGroup K)) = 0 := rfl
    show pairCount _ < pairCount r.groups
    simp only
    omega

/-- a result whose last group has two pairs -/
def exTwoPairs : RpeResult ℚ :=
  { name := "run 1"
    groups := [⟨1, [some 2], [], [1]⟩, ⟨5, [some 2, some 1], [], [5, 6]⟩]
    unit := .second }

example : PairsComplete exTwoPairs ∧ exTwoPairs.filled = [⟨1, [some 2], [], [1]⟩] ++ [⟨5, [some 2, some 1], [], [5, 6]⟩] ∧
    CleanName exTwoPairs.name.toList ∧ exTwoPairs.unit ≠ .none :=
  ⟨by
    constructor
    · intro g hg
      simp only [exTwoPairs, List.mem_cons, List.not_mem_nil, or_false] at hg
      rcases hg with rfl | rfl <;> rfl
    · rintro ⟨g, hg, hx⟩
      simp only [exTwoPairs, List.mem_cons, List.not_mem_nil, or_false] at hg
      rcases hg with rfl | rfl <;> exact absurd rfl hx, rfl,
    ⟨["run".toList, "1".toList], by simp, by unfold NoSpace; decide, by decide⟩, by simp [exTwoPairs]⟩

end TC
