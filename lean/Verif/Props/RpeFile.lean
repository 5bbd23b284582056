import Verif.Proofs.RpeFile
import Verif.Props.TrajFile
/-!
# RPE result files: C67, C109
-/
namespace TC
set_option linter.unusedSectionVars false
variable {K R : Type} [Field K] [LinearOrder K] [IsStrictOrderedRing K] [FloorRing K]

theorem PairsComplete.ok {r : RpeResult K} (h : PairsComplete r) : ∀ g ∈ r.groups, GroupOk r.hasRotDev g := by
  intro g hg
  refine ⟨h.pos g hg, ?_⟩
  cases hw : r.hasRotDev with
  | false =>
    simp only [Bool.false_eq_true, if_false]
    unfold RpeResult.hasRotDev at hw
    rw [List.any_eq_false] at hw
    have := hw g hg
    simpa using this
  | true =>
    simp only [if_true]
    unfold RpeResult.hasRotDev at hw
    obtain ⟨x, hx, hxe⟩ := List.any_eq_true.mp hw
    exact h.rot ⟨x, hx, by simpa using hxe⟩ g hg

theorem flatten_filled {w : Bool} : ∀ {gs : List (RpeGroup K)}, (∀ g ∈ gs, GroupOk w g) →
    (gs.map (groupRows w)).flatten = ((gs.filter (fun g => !g.pairDist.isEmpty)).map (groupRows w)).flatten
  | [], _ => rfl
  | g :: gs, h => by
    have ih := flatten_filled (w := w) (gs := gs) (fun x hx => h x (by simp [hx]))
    by_cases he : g.pairDist = []
    · have : groupRows w g = [] := by
        apply List.eq_nil_of_length_eq_zero
        rw [groupRows_length (h g (by simp)), he]; rfl
      simp [this, he, ih]
    · simp [he, ih]

theorem numPairs_filled (r : RpeResult K) : r.numPairs = r.filled.map (fun g => g.pairDist.length) := by
  unfold RpeResult.numPairs RpeResult.filled
  induction r.groups with
  | nil => rfl
  | cons g gs ih =>
    by_cases he : g.pairDist = []
    · simp only [List.map_cons, List.filter_cons, he, List.isEmpty_nil, Bool.not_true, Bool.false_eq_true, if_false]
      exact ih
    · have : g.pairDist.isEmpty = false := by simpa using he
      simp only [List.map_cons, List.filter_cons, this, Bool.not_false, if_true]
      rw [ih]

theorem columns_eq (r : RpeResult K) : r.columns = rpeCols r.hasRotDev := rfl

/-- the rows of a written result -/
def rpeTable (r : RpeResult K) : List (List Str) :=
  ((r.filled.map (groupRows r.hasRotDev)).flatten).map (fun c => c.map (fmtCell 12))

theorem rpeToFile_eq {r : RpeResult K} (h : PairsComplete r) (append : Bool) (old : Str) :
    r.toFile append old = .ok (openMode append old ++ (r.fileHeader ++
      csvRows (rpeCols r.hasRotDev :: rpeTable r))) := by
  unfold RpeResult.toFile
  rw [frameRows_eq rfl h.ok, flatten_filled h.ok]
  simp only [bind, Except.bind, pure, Except.pure, columns_eq, List.append_assoc]
  rfl

theorem rpeCols_plain (w : Bool) : ∀ c ∈ rpeCols w, PlainCell c := by
  cases w
  · intro c hc
    simp only [rpeCols, Bool.false_eq_true, if_false, List.map_cons, List.map_nil, List.mem_cons,
      List.not_mem_nil, or_false] at hc
    rcases hc with rfl | rfl <;> exact ⟨by unfold NoSpace; decide, by decide, by decide⟩
  · intro c hc
    simp only [rpeCols, if_true, List.map_cons, List.map_nil, List.mem_cons,
      List.not_mem_nil, or_false] at hc
    rcases hc with rfl | rfl | rfl <;> exact ⟨by unfold NoSpace; decide, by decide, by decide⟩

theorem rpeCols_length (w : Bool) : 2 ≤ (rpeCols w).length := by cases w <;> decide

theorem rpeTable_rows (r : RpeResult K) : ∀ row ∈ rpeTable r, row.length = (rpeCols r.hasRotDev).length ∧
    ∀ c ∈ row, PlainCell c := by
  intro row hrow
  obtain ⟨c, hc, rfl⟩ := List.mem_map.mp hrow
  obtain ⟨l, hl, hcl⟩ := List.mem_flatten.mp hc
  obtain ⟨g, -, rfl⟩ := List.mem_map.mp hl
  refine ⟨by rw [List.length_map, groupRows_row _ hcl], fun s hs => ?_⟩
  obtain ⟨x, -, rfl⟩ := List.mem_map.mp hs
  exact plain_fmtCell 12 x

theorem rpeBlock_rows (r : RpeResult K) : ∀ row ∈ rpeCols r.hasRotDev :: rpeTable r,
    row.length = (rpeCols r.hasRotDev).length ∧ ∀ c ∈ row, PlainCell c := by
  intro row hrow
  rcases List.mem_cons.mp hrow with rfl | hrow
  · exact ⟨rfl, rpeCols_plain _⟩
  · exact rpeTable_rows r row hrow

theorem rpe_fileLines {r : RpeResult K} (hname : OneLine r.name.toList) (rest : Str) :
    fileLines (r.fileHeader ++ csvRows (rpeCols r.hasRotDev :: rpeTable r) ++ rest)
      = rpeHeader r ++ ((rpeCols r.hasRotDev :: rpeTable r).map (pyJoin [',']) ++ fileLines rest) := by
  rw [List.append_assoc, fileLines_rpeHeader hname,
    fileLines_csvRows (fun row hr => (rpeBlock_rows r row hr).2)]

theorem rpe_header {r : RpeResult K} (hname : CleanName r.name.toList) (m : HMeta K) :
    handleLines m (rpeHeader r ++ (rpeCols r.hasRotDev :: rpeTable r).map (pyJoin [','])) = .ok (rpeMeta r ++ m) := by
  rw [handleLines_append, handleLines_rpeHeader hname]
  simp only [bind, Except.bind]
  exact handleLines_rows (fun row hr => (rpeBlock_rows r row hr).2) _

theorem rpe_csvLines {r : RpeResult K} (hname : OneLine r.name.toList) (ls : List Str) :
    csvLines (rpeHeader r ++ ((rpeCols r.hasRotDev :: rpeTable r).map (pyJoin [',']) ++ ls))
      = (rpeCols r.hasRotDev :: rpeTable r).map (pyJoin [',']) ++ csvLines ls := by
  rw [csvLines_append, csvLines_comments (fun l hl => (rpeHeader_lines hname l hl).2), List.nil_append,
    csvLines_append, csvLines_rows (fun row hr => ⟨by
      rw [(rpeBlock_rows r row hr).1]; exact rpeCols_length _, (rpeBlock_rows r row hr).2⟩)]

theorem rpeBlock_ok (r : RpeResult K) : ∀ row ∈ rpeCols r.hasRotDev :: rpeTable r,
    2 ≤ row.length ∧ ∀ c ∈ row, PlainCell c := fun row hr =>
  ⟨by rw [(rpeBlock_rows r row hr).1]; exact rpeCols_length _, (rpeBlock_rows r row hr).2⟩

theorem rpe_readFrame {r : RpeResult K} (hname : OneLine r.name.toList) :
    readFrame (r.fileHeader ++ csvRows (rpeCols r.hasRotDev :: rpeTable r))
      = .ok (rpeCols r.hasRotDev, rpeTable r) := by
  have hl := rpe_fileLines hname ([] : Str)
  rw [List.append_nil, fileLines_nil] at hl
  unfold readFrame readCsv
  rw [dataLines_eq, hl, rpe_csvLines hname]
  have e : csvLines [] = [] := rfl
  rw [e, List.append_nil, split_rows (rpeBlock_ok r),
    rectangular_ok (by simp) (fun row hr => (rpeBlock_rows r row hr).1)]
  rfl

theorem rpe_headerFromFile {r : RpeResult K} (hname : CleanName r.name.toList) :
    headerFromFile (r.fileHeader ++ csvRows (rpeCols r.hasRotDev :: rpeTable r)) = .ok (rpeMeta r) := by
  have hl := rpe_fileLines hname.oneLine ([] : Str)
  rw [List.append_nil, fileLines_nil, List.append_nil] at hl
  unfold headerFromFile
  rw [hl, rpe_header hname, List.append_nil]

theorem filled_ok {r : RpeResult K} (h : PairsComplete r) :
    ∀ g ∈ r.filled, GroupOk r.hasRotDev g ∧ g.pairDist ≠ [] := by
  intro g hg
  obtain ⟨h1, h2⟩ := List.mem_filter.mp hg
  exact ⟨h.ok g h1, by simpa using h2⟩

theorem numPairs_int (r : RpeResult K) :
    r.numPairs.map (fun n : Nat => (n : Int)) = r.filled.map (fun g => (g.pairDist.length : Int)) := by
  rw [numPairs_filled, List.map_map]; rfl

/-- reading a written result: the groups are entered one after the other under the mean of their
rounded distances -/
theorem rpe_fromFile {r : RpeResult K} (h : PairsComplete r) (hne : r.filled ≠ [])
    (hname : CleanName r.name.toList) :
    RpeResult.fromFile (r.fileHeader ++ csvRows (rpeCols r.hasRotDev :: rpeTable r)) =
      (unitFromStr r.unit.name).map (fun u =>
        { name := r.name, groups := r.filled.foldl (fun a g => setGroup (roundGroup 12 g) a) [], unit := u }) := by
  have hn : r.numPairs ≠ [] := by rw [numPairs_filled]; simpa using hne
  have hp := rpeMeta_numPairs hn []
  rw [List.append_nil] at hp
  have hg := readGroups_eq (d := 12) r.filled (filled_ok h) [] [] []
  rw [List.append_nil, List.nil_append] at hg
  have hu : (rpeMeta r).relativeDistUnit = unitFromStr r.unit.name := rfl
  have hnm : String.ofList (rpeMeta r).name = r.name := by
    have : (rpeMeta r).name = r.name.toList := rfl
    rw [this, String.ofList_toList]
  unfold RpeResult.fromFile
  rw [rpe_headerFromFile hname, rpe_readFrame hname.oneLine]
  simp only [bind, Except.bind, hp, numPairs_int]
  unfold rpeTable
  simp only [List.length_nil] at hg
  rw [hg]
  simp only [hu, hnm]
  cases unitFromStr r.unit.name <;> rfl

/-! ### closeness -/

theorem sum_close {f : K → K} {ε : K} (hf : ∀ x, |f x - x| ≤ ε) : ∀ l : List K,
    |(l.map f).sum - l.sum| ≤ (l.length : K) * ε
  | [] => by simp
  | a :: l => by
    have ih := sum_close hf l
    have h := hf a
    simp only [List.map_cons, List.sum_cons, List.length_cons]
    push_cast
    have e : f a + (l.map f).sum - (a + l.sum) = (f a - a) + ((l.map f).sum - l.sum) := by ring
    rw [e]
    calc _ ≤ |f a - a| + |(l.map f).sum - l.sum| := abs_add_le _ _
      _ ≤ ε + (l.length : K) * ε := add_le_add h ih
      _ = _ := by ring

theorem key_close (d : Nat) {g : RpeGroup K} (hne : g.pairDist ≠ []) :
    |(roundGroup d g).key - g.mean| ≤ 1 / (2 * 10 ^ d) := by
  have hl : (0 : K) < (g.pairDist.length : K) := by
    have : 0 < g.pairDist.length := List.length_pos_iff.mpr hne
    exact_mod_cast this
  have h := sum_close (roundTo_close (K := K) d) g.pairDist
  have e : (roundGroup d g).key - g.mean
      = ((g.pairDist.map (roundTo d)).sum - g.pairDist.sum) / (g.pairDist.length : K) := by
    simp only [roundGroup, RpeGroup.mean, sub_div]
  rw [e, abs_div, abs_of_pos hl, div_le_iff₀ hl]
  linarith

theorem roundGroup_close (g : RpeGroup K) : CloseGroup (1 / (2 * 10 ^ 12)) g (roundGroup 12 g) where
  dist := forall₂_map_self _ _ (roundTo_close 12)
  pos := forall₂_map_self _ _ (fun x => by
    cases x with
    | none => trivial
    | some a => exact roundTo_close 12 a)
  rot := forall₂_map_self _ _ (fun x => by
    cases x with
    | none => trivial
    | some a => exact roundTo_close 12 a)

/-- **C67.** Writing an RPE result with at least one pair whose groups have mean distances more than
`1e-12` apart and reading the file gives the same name and unit and, in the same order, the groups
that contain pairs, with every distance and deviation within half a unit of the twelfth decimal.
(Groups without pairs are dropped; a group is now filed under the mean of its distances.) -/
theorem C67_round_trip_partial {r : RpeResult K} (h : PairsComplete r) (hne : r.filled ≠ [])
    (hname : CleanName r.name.toList) (hu : r.unit ≠ .none)
    (hmean : r.filled.Pairwise (fun a b => 1 / 10 ^ 12 < |a.mean - b.mean|)) (old : Str) :
    ∃ content r', r.toFile false old = .ok content ∧ RpeResult.fromFile content = .ok r' ∧
      r'.name = r.name ∧ r'.unit = r.unit ∧
      List.Forall₂ (CloseGroup (1 / (2 * 10 ^ 12))) r.filled r'.groups ∧
      ∀ g ∈ r'.groups, g.key = g.mean := by
  have hkeys : r.filled.Pairwise (fun a b => (roundGroup 12 a).key ≠ (roundGroup 12 b).key) := by
    apply List.Pairwise.imp_of_mem _ hmean
    intro a b ha hb hab e
    have ka := abs_le.mp (key_close 12 (filled_ok h a ha).2)
    have kb := abs_le.mp (key_close 12 (filled_ok h b hb).2)
    rw [e] at ka
    have : |a.mean - b.mean| ≤ 1 / 10 ^ 12 := by
      have e2 : (1 : K) / 10 ^ 12 = 1 / (2 * 10 ^ 12) + 1 / (2 * 10 ^ 12) := by norm_num
      rw [abs_le, e2]
      constructor <;> linarith [ka.1, ka.2, kb.1, kb.2]
    exact absurd hab (not_lt.mpr this)
  refine ⟨_, { name := r.name, groups := r.filled.map (roundGroup 12), unit := r.unit },
    rpeToFile_eq h false old, ?_, rfl, rfl, ?_, ?_⟩
  · simp only [openMode, Bool.false_eq_true, if_false, List.nil_append]
    rw [rpe_fromFile h hne hname, unit_readable hu, foldl_setGroup _ _ hkeys (by simp), List.nil_append]
    rfl
  · exact forall₂_map_self _ _ roundGroup_close
  · intro g hg
    obtain ⟨x, -, rfl⟩ := List.mem_map.mp hg
    simp [roundGroup, RpeGroup.mean]

/-- **C67 does not hold.** Two groups with the same distances become one. -/
theorem C67_equal_means_merge (p q : K) : ∃ (r : RpeResult K) (content : Str) (r' : RpeResult K),
    PairsComplete r ∧ r.filled.length = 2 ∧ r.toFile false [] = .ok content ∧
    RpeResult.fromFile content = .ok r' ∧ r'.groups.length = 1 ∧ r'.len = 1 ∧ r.len = 2 := by
  let r : RpeResult K :=
    { name := "x"
      groups := [⟨1, [some p], [], [1]⟩, ⟨2, [some q], [], [1]⟩]
      unit := .meter }
  have h : PairsComplete r := by
    constructor
    · intro g hg
      simp only [r, List.mem_cons, List.not_mem_nil, or_false] at hg
      rcases hg with rfl | rfl <;> rfl
    · rintro ⟨g, hg, hx⟩
      simp only [r, List.mem_cons, List.not_mem_nil, or_false] at hg
      rcases hg with rfl | rfl <;> exact absurd rfl hx
  have hf : r.filled = r.groups := rfl
  have hr := rpe_fromFile h (by rw [hf]; simp [r])
    (show CleanName "x".toList from ⟨["x".toList], by simp, by unfold NoSpace; decide, by decide⟩)
  have hu : unitFromStr r.unit.name = .ok .meter := (by decide : unitFromStr MUnit.meter.name = .ok .meter)
  rw [hu] at hr
  refine ⟨r, _, _, h, rfl, rpeToFile_eq h false [], hr, ?_, ?_, rfl⟩
  · simp [hf, r, setGroup, roundGroup]
  · simp [hf, r, setGroup, roundGroup, RpeResult.len]

theorem setGroup_keys (g : RpeGroup K) : ∀ l : List (RpeGroup K),
    (setGroup g l).map (fun x => x.key) = if g.key ∈ l.map (fun x => x.key) then l.map (fun x => x.key)
      else l.map (fun x => x.key) ++ [g.key]
  | [] => by simp [setGroup]
  | h :: t => by
    by_cases hk : h.key = g.key
    · simp [setGroup, hk]
    · have hk' : g.key ≠ h.key := fun e => hk e.symm
      rw [setGroup, if_neg hk, List.map_cons, setGroup_keys g t]
      by_cases hm : g.key ∈ t.map (fun x => x.key)
      · simp only [if_pos hm, List.map_cons, List.mem_cons, hk', false_or]
      · simp only [if_neg hm, List.map_cons, List.mem_cons, hk', false_or, List.cons_append]

theorem setGroup_mem {g x : RpeGroup K} : ∀ {l : List (RpeGroup K)}, (l.map (fun x => x.key)).Nodup →
    (x ∈ setGroup g l ↔ x = g ∨ (x ∈ l ∧ x.key ≠ g.key))
  | [], _ => by simp [setGroup]
  | h :: t, hn => by
    rw [List.map_cons, List.nodup_cons] at hn
    by_cases hk : h.key = g.key
    · simp only [setGroup, if_pos hk, List.mem_cons]
      constructor
      · rintro (rfl | hx)
        · exact Or.inl rfl
        · refine Or.inr ⟨Or.inr hx, fun e => hn.1 ?_⟩
          rw [hk, ← e]
          exact List.mem_map_of_mem hx
      · rintro (rfl | ⟨rfl | hx, hne⟩)
        · exact Or.inl rfl
        · exact absurd hk hne
        · exact Or.inr hx
    · simp only [setGroup, if_neg hk, List.mem_cons, setGroup_mem hn.2]
      constructor
      · rintro (rfl | rfl | ⟨hx, hne⟩)
        · exact Or.inr ⟨Or.inl rfl, hk⟩
        · exact Or.inl rfl
        · exact Or.inr ⟨Or.inr hx, hne⟩
      · rintro (rfl | ⟨rfl | hx, hne⟩)
        · exact Or.inr (Or.inl rfl)
        · exact Or.inl rfl
        · exact Or.inr (Or.inr ⟨hx, hne⟩)

theorem foldl_setGroup_last (f : RpeGroup K → RpeGroup K) (gs : List (RpeGroup K)) :
    ((gs.foldl (fun a g => setGroup (f g) a) []).map (fun x => x.key)).Nodup ∧
    ∀ x, x ∈ gs.foldl (fun a g => setGroup (f g) a) [] ↔
      ∃ pre g post, gs = pre ++ g :: post ∧ x = f g ∧ ∀ y ∈ post, (f y).key ≠ (f g).key := by
  induction gs using List.reverseRecOn with
  | nil => simp
  | append_singleton gs g ih =>
    rw [List.foldl_append]
    simp only [List.foldl_cons, List.foldl_nil]
    refine ⟨?_, fun x => ?_⟩
    · rw [setGroup_keys]
      split
      · exact ih.1
      · next hm => exact List.nodup_append.2 ⟨ih.1, by simp, by
          intro a ha b hb e
          rw [List.mem_singleton.1 hb] at e
          exact hm (e ▸ ha)⟩
    · rw [setGroup_mem ih.1, ih.2]
      constructor
      · rintro (rfl | ⟨⟨pre, g', post, rfl, rfl, hp⟩, hne⟩)
        · exact ⟨gs, g, [], by simp, rfl, by simp⟩
        · refine ⟨pre, g', post ++ [g], by simp, rfl, fun y hy => ?_⟩
          rcases List.mem_append.1 hy with h | h
          · exact hp y h
          · rw [List.mem_singleton.1 h]; exact hne.symm
      · rintro ⟨pre, g', post, he, rfl, hp⟩
        rcases List.eq_nil_or_concat post with rfl | ⟨q, z, rfl⟩
        · have := List.append_inj' he rfl
          left
          rw [List.cons.inj this.2 |>.1]
        · right
          have he' : gs ++ [g] = (pre ++ g' :: q) ++ [z] := by simpa using he
          have := List.append_inj' he' rfl
          have hz : g = z := (List.cons.inj this.2).1
          subst hz
          exact ⟨⟨pre, g', q, this.1, rfl, fun y hy => hp y (by simp [hy])⟩, fun e => hp g (by simp) e.symm⟩

/-- **C67**, which groups are left, for every result with pairs: of groups with the same distances only the last one.
Every group read is the rounded copy of a group of the result, and no group after it has the same distances; every
group without a later one whose mean is within `1e-12` of its own is read. -/
theorem C67_last_of_equal_means {r : RpeResult K} (h : PairsComplete r) (hne : r.filled ≠ [])
    (hname : CleanName r.name.toList) (hu : r.unit ≠ .none) (old : Str) :
    ∃ content r', r.toFile false old = .ok content ∧ RpeResult.fromFile content = .ok r' ∧
      (∀ g' ∈ r'.groups, ∃ pre g post, r.filled = pre ++ g :: post ∧ CloseGroup (1 / (2 * 10 ^ 12)) g g' ∧
        ∀ y ∈ post, y.pairDist ≠ g.pairDist) ∧
      ∀ pre g post, r.filled = pre ++ g :: post → (∀ y ∈ post, 1 / 10 ^ 12 < |y.mean - g.mean|) →
        ∃ g' ∈ r'.groups, CloseGroup (1 / (2 * 10 ^ 12)) g g' := by
  obtain ⟨-, hl⟩ := foldl_setGroup_last (roundGroup 12) r.filled
  refine ⟨_, { name := r.name, groups := r.filled.foldl (fun a g => setGroup (roundGroup 12 g) a) [], unit := r.unit },
    rpeToFile_eq h false old, ?_, ?_, ?_⟩
  · simp only [openMode, Bool.false_eq_true, if_false, List.nil_append]
    rw [rpe_fromFile h hne hname, unit_readable hu]
    rfl
  · intro g' hg'
    obtain ⟨pre, g, post, e, rfl, hp⟩ := (hl g').1 hg'
    refine ⟨pre, g, post, e, roundGroup_close g, fun y hy hd => hp y hy ?_⟩
    simp only [roundGroup, hd]
  · intro pre g post e hp
    refine ⟨roundGroup 12 g, (hl _).2 ⟨pre, g, post, e, rfl, fun y hy ek => ?_⟩, roundGroup_close g⟩
    have ka := abs_le.mp (key_close 12 (filled_ok h y (by rw [e]; simp [hy])).2)
    have kb := abs_le.mp (key_close 12 (filled_ok h g (by rw [e]; simp)).2)
    rw [ek] at ka
    refine absurd (hp y hy) (not_lt.mpr ?_)
    have e2 : (1 : K) / 10 ^ 12 = 1 / (2 * 10 ^ 12) + 1 / (2 * 10 ^ 12) := by norm_num
    rw [abs_le, e2]
    constructor <;> linarith [ka.1, ka.2, kb.1, kb.2]

/-- **C67 does not hold.** The file of a result without pairs cannot be read. -/
theorem C67_no_pairs_unreadable {r : RpeResult K} (h : PairsComplete r) (hne : r.filled = [])
    (hname : CleanName r.name.toList) (old : Str) :
    ∃ content, r.toFile false old = .ok content ∧
      (RpeResult.fromFile content : Except Err (RpeResult K)) = .error .valueError := by
  refine ⟨_, rpeToFile_eq h false old, ?_⟩
  simp only [openMode, Bool.false_eq_true, if_false, List.nil_append]
  have hn : r.numPairs = [] := by rw [numPairs_filled, hne]; rfl
  have hp : (rpeMeta r).numPairs = .error .valueError := by
    have e : (rpeMeta r).numPairs = mapE pyInt (pySplitOn ',' (pyJoin [','] (r.numPairs.map natStr))) := rfl
    rw [e, hn]; rfl
  unfold RpeResult.fromFile
  rw [rpe_headerFromFile hname, rpe_readFrame hname.oneLine]
  simp only [bind, Except.bind, hp]

/-- a result with two groups of different distances, one of them with two pairs -/
def exRpe : RpeResult ℚ :=
  { name := "run 1"
    groups := [⟨1, [some (1 / 10), some (1 / 3)], [some 0, none], [1, 2]⟩, ⟨5, [], [], []⟩,
      ⟨7, [some 2], [some (1 / 7)], [7]⟩]
    unit := .second }

example : PairsComplete exRpe ∧ exRpe.filled ≠ [] ∧ CleanName exRpe.name.toList ∧ exRpe.unit ≠ .none ∧
    exRpe.filled.Pairwise (fun a b => 1 / 10 ^ 12 < |a.mean - b.mean|) :=
  ⟨⟨by decide, fun _ => by decide⟩, by decide, ⟨["run".toList, "1".toList], by simp, by unfold NoSpace; decide, by decide⟩,
    by decide, by decide +kernel⟩

example : exRpe.toFile false [] = .ok ("#relative_dist_unit SECOND\n#name run 1\n#num_pairs 2,1\r\n" ++
    "pair_distance,pos_dev,rot_dev\n1.000000000000,0.100000000000,0.000000000000\n" ++
    "2.000000000000,0.333333333333,\n7.000000000000,2.000000000000,0.142857142857\n").toList := by decide +kernel

/-! ### C109 -/

/-- **C109 does not hold.** The default mode of `to_file` appends.  Reading a file to which a second
result with the same numbers of pairs was appended gives the name and unit of the second result with
the distances and deviations of the first. -/
theorem C109_append_mixes {r s : RpeResult K} (hr : PairsComplete r) (hs : PairsComplete s) (hne : r.filled ≠ [])
    (hnr : CleanName r.name.toList) (hns : CleanName s.name.toList) (hu : s.unit ≠ .none)
    (hw : s.hasRotDev = r.hasRotDev) (hn : s.numPairs = r.numPairs)
    (hmean : r.filled.Pairwise (fun a b => 1 / 10 ^ 12 < |a.mean - b.mean|)) :
    ∃ c1 c2 t, r.toFile true [] = .ok c1 ∧ s.toFile true c1 = .ok c2 ∧
      RpeResult.fromFile c2 = .ok t ∧ t.name = s.name ∧ t.unit = s.unit ∧
      List.Forall₂ (CloseGroup (1 / (2 * 10 ^ 12))) r.filled t.groups := by
  have hkeys : r.filled.Pairwise (fun a b => (roundGroup 12 a).key ≠ (roundGroup 12 b).key) := by
    apply List.Pairwise.imp_of_mem _ hmean
    intro a b ha hb hab e
    have ka := abs_le.mp (key_close 12 (filled_ok hr a ha).2)
    have kb := abs_le.mp (key_close 12 (filled_ok hr b hb).2)
    rw [e] at ka
    have : |a.mean - b.mean| ≤ 1 / 10 ^ 12 := by
      have e2 : (1 : K) / 10 ^ 12 = 1 / (2 * 10 ^ 12) + 1 / (2 * 10 ^ 12) := by norm_num
      rw [abs_le, e2]
      constructor <;> linarith [ka.1, ka.2, kb.1, kb.2]
    exact absurd hab (not_lt.mpr this)
  refine ⟨_, _, { name := s.name, groups := r.filled.map (roundGroup 12), unit := s.unit }, rpeToFile_eq hr true [],
    rpeToFile_eq hs true _, ?_, rfl, rfl, forall₂_map_self _ _ roundGroup_close⟩
  simp only [openMode, if_true, List.nil_append]
  have hlines : fileLines (r.fileHeader ++ csvRows (rpeCols r.hasRotDev :: rpeTable r) ++
      (s.fileHeader ++ csvRows (rpeCols s.hasRotDev :: rpeTable s)))
      = rpeHeader r ++ ((rpeCols r.hasRotDev :: rpeTable r).map (pyJoin [',']) ++
        (rpeHeader s ++ ((rpeCols s.hasRotDev :: rpeTable s).map (pyJoin [',']) ++ []))) := by
    rw [rpe_fileLines hnr.oneLine]
    have := rpe_fileLines hns.oneLine ([] : Str)
    rw [List.append_nil, fileLines_nil] at this
    rw [this]
  have hh : headerFromFile (r.fileHeader ++ csvRows (rpeCols r.hasRotDev :: rpeTable r) ++
      (s.fileHeader ++ csvRows (rpeCols s.hasRotDev :: rpeTable s))) = .ok (rpeMeta s ++ rpeMeta r) := by
    unfold headerFromFile
    rw [hlines, ← List.append_assoc, handleLines_append, rpe_header hnr, List.append_nil]
    simp only [bind, Except.bind]
    rw [List.append_nil, rpe_header hns]
  have hf : readFrame (r.fileHeader ++ csvRows (rpeCols r.hasRotDev :: rpeTable r) ++
      (s.fileHeader ++ csvRows (rpeCols s.hasRotDev :: rpeTable s)))
      = .ok (rpeCols r.hasRotDev, rpeTable r ++ (rpeCols s.hasRotDev :: rpeTable s)) := by
    unfold readFrame readCsv
    rw [dataLines_eq, hlines, rpe_csvLines hnr.oneLine, rpe_csvLines hns.oneLine]
    have e : csvLines [] = [] := rfl
    rw [e, List.append_nil, List.map_append, split_rows (rpeBlock_ok r), split_rows (rpeBlock_ok s),
      rectangular_ok (w := (rpeCols r.hasRotDev).length) (by simp) (by
        intro row hrow
        rcases List.mem_append.mp hrow with hrow | hrow
        · exact (rpeBlock_rows r row hrow).1
        · rw [(rpeBlock_rows s row hrow).1, hw])]
    rfl
  have hn' : s.numPairs ≠ [] := by rw [hn, numPairs_filled]; simpa using hne
  have hp := rpeMeta_numPairs hn' (rpeMeta r)
  rw [hn, numPairs_int] at hp
  have hg := readGroups_eq (d := 12) r.filled (filled_ok hr) [] (rpeCols s.hasRotDev :: rpeTable s) []
  rw [List.nil_append, foldl_setGroup _ _ hkeys (by simp), List.nil_append] at hg
  simp only [List.length_nil] at hg
  have hu' : (rpeMeta s ++ rpeMeta r).relativeDistUnit = unitFromStr s.unit.name := rfl
  have hnm : String.ofList (rpeMeta s ++ rpeMeta r).name = s.name := by
    have : (rpeMeta s ++ rpeMeta r).name = s.name.toList := rfl
    rw [this, String.ofList_toList]
  unfold RpeResult.fromFile
  rw [hh, hf]
  simp only [bind, Except.bind, hp]
  unfold rpeTable
  unfold rpeTable at hg
  rw [hg]
  simp only [hu', hnm, unit_readable hu]
  rfl

/-- another result with the same numbers of pairs -/
def exRpe2 : RpeResult ℚ :=
  { exRpe with
    name := "run 2"
    groups := [⟨1, [some 9, some 9], [some 9, some 9], [1, 2]⟩, ⟨7, [some 9], [some 9], [7]⟩] }

example : PairsComplete exRpe2 ∧ exRpe2.hasRotDev = exRpe.hasRotDev ∧ exRpe2.numPairs = exRpe.numPairs :=
  ⟨⟨by decide, fun _ => by decide⟩, by decide, by decide⟩

end TC
