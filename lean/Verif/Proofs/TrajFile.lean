import Verif.Proofs.QuatClose
/-!
# Reading back a written trajectory
-/
namespace TC
set_option linter.unusedSectionVars false
variable {K R : Type} [Field K] [LinearOrder K] [IsStrictOrderedRing K] [FloorRing K]

/-! ### the header -/

theorem pyJoin_intercalate : ∀ l : List Str, pyJoin [' '] l = List.intercalate [' '] l
  | [] => rfl
  | [a] => by simp [pyJoin, List.intercalate]
  | a :: b :: l => by
    simp only [pyJoin, pyJoin_intercalate (b :: l)]
    simp [List.intercalate]

theorem CleanName.ne {s : Str} (h : CleanName s) : s ≠ [] := by
  obtain ⟨ws, hne, hw, rfl⟩ := h
  cases ws with
  | nil => exact absurd rfl hne
  | cons a as =>
    rw [← pyJoin_intercalate]
    cases as with
    | nil => exact (hw a (by simp)).1
    | cons b bs => simp [pyJoin]

theorem CleanName.oneLine {s : Str} (h : CleanName s) : OneLine s := by
  obtain ⟨ws, hne, hw, rfl⟩ := h
  intro c hc
  rw [← pyJoin_intercalate] at hc
  rcases mem_pyJoin hc with hc | ⟨p, hp, hc⟩
  · simp at hc; subst hc; exact ⟨by decide, by decide⟩
  · exact (hw p hp).2.oneLine c hc

/-- a text header line for a clean value -/
theorem headerLine_text {key : Str} (hkey : key ∈ headerKeys)
    (hk : key ∉ ["epsg", "gps_week", "time_offset", "delimiter"].map String.toList)
    {s : Str} (hs : CleanName s) :
    HeaderLine key ('#' :: key ++ ' ' :: s) ∧
    lineHandler (K := K) key ('#' :: key ++ ' ' :: s) = .ok (.str s) := by
  obtain ⟨ws, hne, hw, rfl⟩ := hs
  have := C89_text_value (K := K) hkey hk ws hw
  have e : List.intercalate [' '] (('#' :: key) :: ws) = '#' :: key ++ ' ' :: List.intercalate [' '] ws := by
    cases ws with
    | nil => exact absurd rfl hne
    | cons a as =>
      rw [← pyJoin_intercalate, ← pyJoin_intercalate]
      simp [pyJoin]
  rw [e] at this
  exact this

theorem headerLine_epsg (i : Int) :
    HeaderLine "epsg".toList ('#' :: "epsg".toList ++ ' ' :: intStr i) ∧
    lineHandler (K := K) "epsg".toList ('#' :: "epsg".toList ++ ' ' :: intStr i) = .ok (.int i) := by
  constructor
  · exact ⟨by unfold NoSpace; decide, ' ' :: intStr i, rfl, by intro c r h; cases h; rfl⟩
  · unfold lineHandler
    rw [if_pos (Or.inl rfl)]
    have hs : pySplit ('#' :: "epsg".toList ++ ' ' :: intStr i) = ['#' :: "epsg".toList, intStr i] := by
      rw [pySplit_space rfl, pySplit_word (intStr_noSpace i) (intStr_ne i),
        pySplit_word (by unfold NoSpace; decide) (by decide)]
      rfl
    unfold integerLineHandler secondToken
    rw [hs]
    simp only [List.getElem?_cons_succ, List.getElem?_cons_zero, bind, Except.bind, pyInt_intStr]
    rfl

/-- a clean word -/
theorem cleanName_word {s : Str} (hne : s ≠ []) (h : NoSpace s) : CleanName s :=
  ⟨[s], by simp, by simp [hne, h], by simp [List.intercalate]⟩

/-- a line that does not start with `#` says nothing -/
theorem handleLines_data : ∀ {ls : List Str} (m : HMeta K), (∀ l ∈ ls, ∀ c r, l = c :: r → c ≠ '#') →
    handleLines m ls = .ok m
  | [], m, _ => rfl
  | l :: ls, m, h => by
    have h1 : handleLine m l = .ok m := by
      apply handleLine_other
      rintro k - ⟨-, rest, e, -⟩
      exact h l (by simp) '#' (k ++ rest) (by simpa using e) rfl
    simp only [handleLines, h1]
    exact handleLines_data m (fun x hx => h x (by simp [hx]))

/-- the fields line -/
def fieldsStr (o : Option (List R)) : Str :=
  match o with
  | none => "t,l,px,py,pz,vx,vy,vz".toList
  | some _ => "t,l,px,py,pz,qx,qy,qz,qw,vx,vy,vz".toList

/-- the header lines of a trajectory file -/
def trajHeader (T : Traj K R) : List Str :=
  ['#' :: "epsg".toList ++ ' ' :: intStr T.epsg, '#' :: "name".toList ++ ' ' :: T.name.toList,
   '#' :: "nframe".toList ++ ' ' :: "enu".toList, '#' :: "fields".toList ++ ' ' :: fieldsStr T.rot]

theorem fileHeader_eq (T : Traj K R) : T.fileHeader = linesText (trajHeader T) := by
  have e1 : "#epsg ".toList = '#' :: "epsg".toList ++ [' '] := by decide
  have e2 : "#name ".toList = '#' :: "name".toList ++ [' '] := by decide
  have e3 : "#nframe enu\n".toList = '#' :: "nframe".toList ++ ' ' :: "enu".toList ++ ['\n'] := by decide
  have e4 : "#fields ".toList = '#' :: "fields".toList ++ [' '] := by decide
  unfold Traj.fileHeader linesText trajHeader fieldsStr
  rw [e1, e2, e3, e4]
  cases T.rot <;> simp

theorem fieldsStr_clean (o : Option (List R)) : CleanName (fieldsStr o) := by
  cases o with
  | none =>
    exact cleanName_word (s := "t,l,px,py,pz,vx,vy,vz".toList) (by decide) (by unfold NoSpace; decide)
  | some _ =>
    exact cleanName_word (s := "t,l,px,py,pz,qx,qy,qz,qw,vx,vy,vz".toList) (by decide)
      (by unfold NoSpace; decide)

/-- the metadata of a trajectory file -/
def trajMeta (T : Traj K R) : HMeta K :=
  [("fields".toList, .str (fieldsStr T.rot)), ("nframe".toList, .str "enu".toList),
   ("name".toList, .str T.name.toList), ("epsg".toList, .int T.epsg)]

/-- the trajectory with another name -/
def Traj.named (T : Traj K R) (n : Str) : Traj K R := { T with name := String.ofList n }

theorem pySplit_blanks : ∀ {g : Str} (s : Str), (∀ c ∈ g, pySpace c = true) → pySplit (g ++ s) = pySplit s
  | [], s, _ => rfl
  | c :: g, s, h => by
    have := pySplit_space (h c (by simp)) [] (g ++ s)
    simp only [List.nil_append] at this
    rw [List.cons_append, this, pySplit_blanks s (fun d hd => h d (by simp [hd]))]
    rfl

theorem words_split {s : Str} {ws : List Str} (h : Words s ws) : pySplit s = ws := by
  induction h with
  | @blank g h =>
    have := pySplit_blanks [] h
    rw [List.append_nil] at this
    rw [this]; rfl
  | @word g w rest ws hg hne hns hr _ ih =>
    rw [List.append_assoc, pySplit_blanks _ hg]
    cases rest with
    | nil =>
      have : ws = [] := by rw [← ih]; rfl
      rw [List.append_nil, pySplit_word hns hne, this]
    | cons c r =>
      have hc := hr c r rfl
      have := pySplit_space hc [] r
      simp only [List.nil_append] at this
      rw [pySplit_space hc, pySplit_word hns hne]
      rw [this] at ih
      rw [← ih]; rfl

theorem cleanName_split {s : Str} (h : CleanName s) : pySplit s ≠ [] ∧ pyJoin [' '] (pySplit s) = s := by
  obtain ⟨ws, hne, hw, rfl⟩ := h
  have key : ∀ ws : List Str, (∀ w ∈ ws, w ≠ [] ∧ NoSpace w) → pySplit (pyJoin [' '] ws) = ws := by
    intro ws
    induction ws with
    | nil => intro _; rfl
    | cons a as ih =>
      intro h
      cases as with
      | nil => exact pySplit_word (h a (by simp)).2 (h a (by simp)).1
      | cons b bs =>
        simp only [pyJoin, List.append_assoc, List.singleton_append]
        rw [pySplit_space rfl, pySplit_word (h a (by simp)).2 (h a (by simp)).1,
          ih (fun w hw => h w (by simp at hw ⊢; tauto))]
        rfl
  rw [← pyJoin_intercalate, key ws hw]
  exact ⟨hne, rfl⟩

/-- the value of the name line -/
theorem headerLine_name (n : Str) :
    HeaderLine "name".toList ('#' :: "name".toList ++ ' ' :: n) ∧
    lineHandler (K := K) "name".toList ('#' :: "name".toList ++ ' ' :: n)
      = .ok (.str (pyJoin [' '] (pySplit n))) := by
  constructor
  · exact ⟨by unfold NoSpace; decide, ' ' :: n, rfl, by intro c r h; cases h; rfl⟩
  · have hs : pySplit ('#' :: "name".toList ++ ' ' :: n) = ('#' :: "name".toList) :: pySplit n := by
      rw [pySplit_space rfl, pySplit_word (by unfold NoSpace; decide) (by decide)]
      rfl
    unfold lineHandler
    rw [if_neg (by decide), if_neg (by decide), if_neg (by decide)]
    unfold defaultLineHandler
    rw [hs]
    rfl

theorem handleLines_trajHeader' (T : Traj K R) :
    handleLines [] (trajHeader T) = .ok (trajMeta (T.named (pyJoin [' '] (pySplit T.name.toList)))) := by
  obtain ⟨h1, v1⟩ := headerLine_epsg (K := K) T.epsg
  obtain ⟨h2, v2⟩ := headerLine_name (K := K) T.name.toList
  obtain ⟨h3, v3⟩ := headerLine_text (K := K) (key := "nframe".toList) (by decide) (by decide)
    (s := "enu".toList) (cleanName_word (by decide) (by unfold NoSpace; decide))
  obtain ⟨h4, v4⟩ := headerLine_text (K := K) (key := "fields".toList) (by decide) (by decide)
    (fieldsStr_clean T.rot)
  unfold trajHeader
  simp only [handleLines]
  rw [handleLine_key (by decide) h1 v1]
  simp only [bind, Except.bind]
  rw [handleLine_key (by decide) h2 v2]
  simp only
  rw [handleLine_key (by decide) h3 v3]
  simp only
  rw [handleLine_key (by decide) h4 v4]
  simp only [trajMeta, Traj.named, String.toList_ofList]

theorem named_self {T : Traj K R} (hname : CleanName T.name.toList) :
    T.named (pyJoin [' '] (pySplit T.name.toList)) = T := by
  rw [(cleanName_split hname).2]
  simp [Traj.named]

theorem trajHeader_lines {T : Traj K R} (hname : OneLine T.name.toList) :
    ∀ l ∈ trajHeader T, OneLine l ∧ ∃ r, l = '#' :: r := by
  have one : ∀ {a b : Str}, OneLine a → OneLine b → OneLine (a ++ ' ' :: b) := by
    intro a b ha hb
    rw [oneLine_append]
    refine ⟨ha, fun c hc => ?_⟩
    rcases List.mem_cons.mp hc with rfl | hc
    · exact ⟨by decide, by decide⟩
    · exact hb c hc
  intro l hl
  simp only [trajHeader, List.mem_cons, List.not_mem_nil, or_false] at hl
  rcases hl with rfl | rfl | rfl | rfl
  · exact ⟨one (by unfold OneLine; decide) (intStr_noSpace _).oneLine, _, rfl⟩
  · exact ⟨one (by unfold OneLine; decide) hname, _, rfl⟩
  · exact ⟨by unfold OneLine; decide, _, rfl⟩
  · exact ⟨one (by unfold OneLine; decide) (fieldsStr_clean _).oneLine, _, rfl⟩

/-! ### the values of the header -/

theorem trajMeta_name (T : Traj K R) : (trajMeta T).name = T.name.toList := rfl
theorem trajMeta_epsg (T : Traj K R) : (trajMeta T).epsg = T.epsg := rfl
theorem trajMeta_delimiter (T : Traj K R) : (trajMeta T).delimiter = ',' := rfl
theorem trajMeta_nframe (T : Traj K R) : (trajMeta T).nframe = "enu".toList := rfl
theorem trajMeta_offset (T : Traj K R) : (trajMeta T).timeOffset = 0 := rfl
theorem trajMeta_format (T : Traj K R) : (trajMeta T).timeFormat = .ok .unix := rfl

/-- the columns of a file, in order -/
def fieldList : Option (List R) → List Str
  | none => ["t", "l", "px", "py", "pz", "vx", "vy", "vz"].map String.toList
  | some _ => ["t", "l", "px", "py", "pz", "qx", "qy", "qz", "qw", "vx", "vy", "vz"].map String.toList

theorem trajMeta_fields (T : Traj K R) : (trajMeta T).fields = fieldList T.rot := by
  have h : (trajMeta T).fields = pySplitOn ',' (fieldsStr T.rot) := rfl
  rw [h]
  cases T.rot with
  | none =>
    exact (by decide : pySplitOn ',' "t,l,px,py,pz,vx,vy,vz".toList
      = ["t", "l", "px", "py", "pz", "vx", "vy", "vz"].map String.toList)
  | some r =>
    exact (by decide : pySplitOn ',' "t,l,px,py,pz,qx,qy,qz,qw,vx,vy,vz".toList
      = ["t", "l", "px", "py", "pz", "qx", "qy", "qz", "qw", "vx", "vy", "vz"].map String.toList)

/-! ### columns -/

theorem mapE_map_ok {α β γ : Type} {f : β → Except Err γ} {g : α → β} {k : α → γ} :
    ∀ {l : List α}, (∀ a ∈ l, f (g a) = .ok (k a)) → mapE f (l.map g) = .ok (l.map k)
  | [], _ => rfl
  | a :: l, h => by
    have ih := mapE_map_ok (f := f) (g := g) (k := k) (l := l) (fun x hx => h x (by simp [hx]))
    simp only [List.map_cons, mapE, h a (by simp), ih, bind, Except.bind]
    rfl

theorem cellVal_fmt (d : Nat) (x : K) : cellVal (fmtFixed d x) = .ok (roundTo d x) := by
  unfold cellVal
  rw [cellNum_fmtFixed]; rfl

/-- reading a column of a table of formatted numbers -/
theorem numCol_eq {σ : Type} {h : HMeta K} {name : String} {i : Nat} {S : List σ} {f : σ → List K} {g : σ → K}
    (hi : fieldIndex h.fields name = .ok i) (hne : S ≠ []) (hg : ∀ s ∈ S, (f s)[i]? = some (g s)) :
    numCol h (S.map (fun s => (f s).map (fmtFixed 9))) name = .ok (S.map (fun s => roundTo 9 (g s))) := by
  unfold numCol
  rw [hi]
  simp only [bind, Except.bind]
  have hc : cellsAt (S.map (fun s => (f s).map (fmtFixed 9))) i
      = .ok (S.map (fun s => fmtFixed 9 (g s))) := by
    unfold cellsAt
    rw [if_neg (by simp [hne])]
    apply mapE_map_ok
    intro s hs
    simp [hg s hs]
  rw [hc]
  exact mapE_map_ok (fun s _ => cellVal_fmt 9 (g s))

/-- coordinatewise rounding -/
def round3 (d : Nat) (v : V3 K) : V3 K := ⟨roundTo d v.x, roundTo d v.y, roundTo d v.z⟩

theorem zip3_map {σ : Type} (S : List σ) (a b c : σ → K) :
    ((S.map a).zip ((S.map b).zip (S.map c))).map (fun s => (⟨s.1, s.2.1, s.2.2⟩ : V3 K))
      = S.map (fun s => ⟨a s, b s, c s⟩) := by
  induction S with
  | nil => rfl
  | cons s S ih => simp [ih]

theorem numCol3_eq {σ : Type} {h : HMeta K} {na nb nc : String} {i j k : Nat} {S : List σ} {f : σ → List K}
    {g : σ → V3 K}
    (hi : fieldIndex h.fields na = .ok i) (hj : fieldIndex h.fields nb = .ok j)
    (hk : fieldIndex h.fields nc = .ok k) (hne : S ≠ [])
    (hx : ∀ s ∈ S, (f s)[i]? = some (g s).x) (hy : ∀ s ∈ S, (f s)[j]? = some (g s).y)
    (hz : ∀ s ∈ S, (f s)[k]? = some (g s).z) :
    numCol3 h (S.map (fun s => (f s).map (fmtFixed 9))) na nb nc = .ok (S.map (fun s => round3 9 (g s))) := by
  unfold numCol3
  rw [numCol_eq hi hne hx, numCol_eq hj hne hy, numCol_eq hk hne hz]
  simp only [bind, Except.bind, pure, Except.pure]
  rw [zip3_map]; rfl

/-! ### the rows written -/

/-- one row of data: time, arc length, position, quaternion cells, speed -/
abbrev RowData (K : Type) := K × K × V3 K × List K × V3 K

/-- the cells of a row -/
def rowCells (s : RowData K) : List K := s.1 :: s.2.1 :: (s.2.2.1.cells ++ s.2.2.2.1 ++ s.2.2.2.2.cells)

/-- the rows of a trajectory -/
def trajRows (io : IoLib K R) (T : Traj K R) : List (RowData K) :=
  T.tstamps.zip (T.arc.zip (T.pos.zip ((quatColumn io T.tstamps.length T.rot).zip T.speed)))

theorem quatColumn_length (io : IoLib K R) {T : Traj K R} (hT : Coherent T) :
    (quatColumn io T.tstamps.length T.rot).length = T.tstamps.length := by
  cases h : T.rot with
  | none => simp [quatColumn]
  | some r => simp [quatColumn, hT.rot r h]

theorem fileRows_eq (io : IoLib K R) {T : Traj K R} (hT : Coherent T) :
    T.fileRows io = .ok ((trajRows io T).map rowCells) := by
  unfold Traj.fileRows
  simp only
  rw [if_neg]
  · rfl
  · rw [quatColumn_length io hT, hT.arc, hT.pos, hT.speed]; simp

theorem toFile_eq (io : IoLib K R) {T : Traj K R} (hT : Coherent T) (append : Bool) (old : Str) :
    T.toFile io append old = .ok (openMode append old ++ (linesText (trajHeader T)
      ++ csvRows ((trajRows io T).map (fun s => (rowCells s).map (fmtFixed 9))))) := by
  unfold Traj.toFile
  rw [fileRows_eq io hT]
  simp only [bind, Except.bind, pure, Except.pure, List.map_map, fileHeader_eq, List.append_assoc]
  rfl

/-- length of the quaternion cells -/
def quatWidth : Option (List R) → Nat
  | none => 0
  | some _ => 4

theorem trajRows_width (io : IoLib K R) (T : Traj K R) :
    ∀ s ∈ trajRows io T, s.2.2.2.1.length = quatWidth T.rot := by
  intro s hs
  have h1 := (List.of_mem_zip hs).2
  have h2 := (List.of_mem_zip h1).2
  have h3 := (List.of_mem_zip h2).2
  have h4 := (List.of_mem_zip h3).1
  cases h : T.rot with
  | none =>
    rw [h] at h4
    simp only [quatColumn] at h4
    rw [List.eq_of_mem_replicate h4]; rfl
  | some r =>
    rw [h] at h4
    simp only [quatColumn, List.mem_map] at h4
    obtain ⟨q, -, e⟩ := h4
    rw [← e]; rfl

theorem zip_map_fst {α β : Type} : ∀ (a : List α) (b : List β), a.length = b.length →
    (a.zip b).map (fun s => s.1) = a
  | [], _, _ => by simp
  | x :: a, [], h => by simp at h
  | x :: a, y :: b, h => by simp [zip_map_fst a b (by simpa using h)]

theorem zip_map_snd {α β : Type} : ∀ (a : List α) (b : List β), a.length = b.length →
    (a.zip b).map (fun s => s.2) = b
  | [], [], _ => by simp
  | [], y :: b, h => by simp at h
  | x :: a, [], h => by simp at h
  | x :: a, y :: b, h => by simp [zip_map_snd a b (by simpa using h)]

/-- the channels of the rows -/
theorem trajRows_channels (io : IoLib K R) {T : Traj K R} (hT : Coherent T) :
    (trajRows io T).map (fun s => s.1) = T.tstamps ∧
    (trajRows io T).map (fun s => s.2.1) = T.arc ∧
    (trajRows io T).map (fun s => s.2.2.1) = T.pos ∧
    (trajRows io T).map (fun s => s.2.2.2.1) = quatColumn io T.tstamps.length T.rot ∧
    (trajRows io T).map (fun s => s.2.2.2.2) = T.speed := by
  have hq := quatColumn_length io hT
  set Q := quatColumn io T.tstamps.length T.rot
  have l4 : (Q.zip T.speed).length = T.tstamps.length := by simp [hq, hT.speed]
  have l3 : (T.pos.zip (Q.zip T.speed)).length = T.tstamps.length := by rw [List.length_zip, l4, hT.pos, min_self]
  have l2 : (T.arc.zip (T.pos.zip (Q.zip T.speed))).length = T.tstamps.length := by
    rw [List.length_zip, l3, hT.arc, min_self]
  have e1 := zip_map_snd T.tstamps _ l2.symm
  have e2 := zip_map_snd T.arc (T.pos.zip (Q.zip T.speed)) (by rw [l3, hT.arc])
  have e3 := zip_map_snd T.pos (Q.zip T.speed) (by rw [l4, hT.pos])
  have e4 := zip_map_snd Q T.speed (by rw [hq, hT.speed])
  have c1 : ∀ {β : Type} (f : K × V3 K × List K × V3 K → β),
      (trajRows io T).map (fun s => f s.2) = (T.arc.zip (T.pos.zip (Q.zip T.speed))).map f := by
    intro β f
    conv_rhs => rw [← e1]
    rw [List.map_map]; rfl
  have c2 : ∀ {β : Type} (f : V3 K × List K × V3 K → β),
      (trajRows io T).map (fun s => f s.2.2) = (T.pos.zip (Q.zip T.speed)).map f := by
    intro β f
    rw [c1 (fun s => f s.2)]
    conv_rhs => rw [← e2]
    rw [List.map_map]; rfl
  have c3 : ∀ {β : Type} (f : List K × V3 K → β),
      (trajRows io T).map (fun s => f s.2.2.2) = (Q.zip T.speed).map f := by
    intro β f
    rw [c2 (fun s => f s.2)]
    conv_rhs => rw [← e3]
    rw [List.map_map]; rfl
  refine ⟨zip_map_fst _ _ l2.symm, ?_, ?_, ?_, ?_⟩
  · rw [c1 (fun s => s.1)]; exact zip_map_fst _ _ (by rw [l3, hT.arc])
  · rw [c2 (fun s => s.1)]; exact zip_map_fst _ _ (by rw [l4, hT.pos])
  · rw [c3 (fun s => s.1)]; exact zip_map_fst _ _ (by rw [hq, hT.speed])
  · rw [c3 (fun s => s.2)]; exact e4

/-! ### reading the written rows -/

/-- rounding a quaternion -/
def roundQ (d : Nat) (q : Q4 K) : Q4 K := ⟨roundTo d q.x, roundTo d q.y, roundTo d q.z, roundTo d q.w⟩

/-- the table of a written file -/
def trajTable (io : IoLib K R) (T : Traj K R) : List (List Str) :=
  (trajRows io T).map (fun s => (rowCells s).map (fmtFixed 9))

theorem fieldIndex_none (r : Option (List R)) (hr : r = none) :
    fieldIndex (fieldList r) "t" = .ok 0 ∧ fieldIndex (fieldList r) "l" = .ok 1 ∧
    fieldIndex (fieldList r) "px" = .ok 2 ∧ fieldIndex (fieldList r) "py" = .ok 3 ∧
    fieldIndex (fieldList r) "pz" = .ok 4 ∧ fieldIndex (fieldList r) "vx" = .ok (5 + quatWidth r) ∧
    fieldIndex (fieldList r) "vy" = .ok (6 + quatWidth r) ∧ fieldIndex (fieldList r) "vz" = .ok (7 + quatWidth r) := by
  subst hr
  exact ⟨rfl, rfl, rfl, rfl, rfl, rfl, rfl, rfl⟩

theorem fieldIndex_some (r : Option (List R)) (q : List R) (hr : r = some q) :
    fieldIndex (fieldList r) "t" = .ok 0 ∧ fieldIndex (fieldList r) "l" = .ok 1 ∧
    fieldIndex (fieldList r) "px" = .ok 2 ∧ fieldIndex (fieldList r) "py" = .ok 3 ∧
    fieldIndex (fieldList r) "pz" = .ok 4 ∧ fieldIndex (fieldList r) "vx" = .ok (5 + quatWidth r) ∧
    fieldIndex (fieldList r) "vy" = .ok (6 + quatWidth r) ∧ fieldIndex (fieldList r) "vz" = .ok (7 + quatWidth r) := by
  subst hr
  exact ⟨rfl, rfl, rfl, rfl, rfl, rfl, rfl, rfl⟩

theorem fieldIndex_all (r : Option (List R)) :
    fieldIndex (fieldList r) "t" = .ok 0 ∧ fieldIndex (fieldList r) "l" = .ok 1 ∧
    fieldIndex (fieldList r) "px" = .ok 2 ∧ fieldIndex (fieldList r) "py" = .ok 3 ∧
    fieldIndex (fieldList r) "pz" = .ok 4 ∧ fieldIndex (fieldList r) "vx" = .ok (5 + quatWidth r) ∧
    fieldIndex (fieldList r) "vy" = .ok (6 + quatWidth r) ∧ fieldIndex (fieldList r) "vz" = .ok (7 + quatWidth r) := by
  cases h : r with
  | none => exact fieldIndex_none _ rfl
  | some q => exact fieldIndex_some _ q rfl

theorem rowCells_get {s : RowData K} {w : Nat} (hw : s.2.2.2.1.length = w) :
    (rowCells s)[0]? = some s.1 ∧ (rowCells s)[1]? = some s.2.1 ∧ (rowCells s)[2]? = some s.2.2.1.x ∧
    (rowCells s)[3]? = some s.2.2.1.y ∧ (rowCells s)[4]? = some s.2.2.1.z ∧
    (rowCells s)[5 + w]? = some s.2.2.2.2.x ∧ (rowCells s)[6 + w]? = some s.2.2.2.2.y ∧
    (rowCells s)[7 + w]? = some s.2.2.2.2.z ∧ (rowCells s).length = 8 + w ∧
    ∀ i, i < w → (rowCells s)[5 + i]? = s.2.2.2.1[i]? := by
  obtain ⟨t, l, p, q, v⟩ := s
  simp only at hw
  subst hw
  have key : ∀ i, ([t, l, p.x, p.y, p.z] ++ (q ++ [v.x, v.y, v.z]))[5 + i]? = (q ++ [v.x, v.y, v.z])[i]? := by
    intro i
    rw [List.getElem?_append_right (by simp)]
    congr 1; simp
  have e : rowCells (t, l, p, q, v) = [t, l, p.x, p.y, p.z] ++ (q ++ [v.x, v.y, v.z]) := by
    simp [rowCells, V3.cells]
  have kv : ∀ i, (q ++ [v.x, v.y, v.z])[i + q.length]? = [v.x, v.y, v.z][i]? := by
    intro i
    rw [List.getElem?_append_right (by omega)]
    congr 1; omega
  rw [e]
  refine ⟨rfl, rfl, rfl, rfl, rfl, ?_, ?_, ?_, ?_, ?_⟩
  · rw [key, show q.length = 0 + q.length by omega, kv]; rfl
  · rw [show 6 + q.length = 5 + (1 + q.length) by omega, key, kv]; rfl
  · rw [show 7 + q.length = 5 + (2 + q.length) by omega, key, kv]; rfl
  · simp; omega
  · intro i hi
    rw [key, List.getElem?_append_left hi]

theorem trajRows_ne (io : IoLib K R) {T : Traj K R} (hT : Coherent T) (hne : T.tstamps ≠ []) :
    trajRows io T ≠ [] := by
  intro h
  have := (trajRows_channels io hT).1
  rw [h] at this
  exact hne this.symm

theorem read_timestamps (io : IoLib K R) {T : Traj K R} (hT : Coherent T) (hne : T.tstamps ≠ []) :
    extractTimestamps io (trajMeta T) (trajTable io T) = .ok (T.tstamps.map (roundTo 9)) := by
  have hcols : timeColumns (trajMeta T) = [0] := by
    unfold timeColumns
    rw [trajMeta_fields]
    cases T.rot <;> rfl
  unfold extractTimestamps
  rw [trajMeta_format]
  simp only [bind, Except.bind, hcols]
  rw [if_pos (by simp)]
  have := numCol_eq (h := trajMeta T) (name := "t") (i := 0) (S := trajRows io T) (f := rowCells)
    (g := fun s => s.1) (by rw [trajMeta_fields]; exact (fieldIndex_all _).1) (trajRows_ne io hT hne)
    (fun s hs => (rowCells_get (trajRows_width io T s hs)).1)
  unfold trajTable
  rw [this]
  simp only [pure, Except.pure, trajMeta_offset, List.map_map]
  congr 1
  conv_rhs => rw [← (trajRows_channels io hT).1]
  rw [List.map_map]
  apply List.map_congr_left
  intro s _
  simp

theorem read_arc (io : IoLib K R) {T : Traj K R} (hT : Coherent T) (hne : T.tstamps ≠ []) :
    extractArc (trajMeta T) (trajTable io T) = .ok (some (T.arc.map (roundTo 9))) := by
  have hf : hasFields (trajMeta T) ["l"] = true := by
    unfold hasFields
    rw [trajMeta_fields]
    cases T.rot <;> rfl
  unfold extractArc
  rw [if_pos hf]
  have := numCol_eq (h := trajMeta T) (name := "l") (i := 1) (S := trajRows io T) (f := rowCells)
    (g := fun s => s.2.1) (by rw [trajMeta_fields]; exact (fieldIndex_all _).2.1) (trajRows_ne io hT hne)
    (fun s hs => (rowCells_get (trajRows_width io T s hs)).2.1)
  unfold trajTable
  rw [this]
  simp only [bind, Except.bind, pure, Except.pure]
  congr 2
  conv_rhs => rw [← (trajRows_channels io hT).2.1]
  rw [List.map_map]; rfl

theorem read_positions (io : IoLib K R) {T : Traj K R} (hT : Coherent T) (hne : T.tstamps ≠ []) :
    extractPositions (trajMeta T) (trajTable io T) = .ok (T.pos.map (round3 9)) := by
  obtain ⟨-, -, hi, hj, hk, -⟩ := fieldIndex_all T.rot
  unfold extractPositions
  have := numCol3_eq (h := trajMeta T) (na := "px") (nb := "py") (nc := "pz") (i := 2) (j := 3) (k := 4)
    (S := trajRows io T) (f := rowCells) (g := fun s => s.2.2.1) (by rw [trajMeta_fields]; exact hi)
    (by rw [trajMeta_fields]; exact hj) (by rw [trajMeta_fields]; exact hk) (trajRows_ne io hT hne)
    (fun s hs => (rowCells_get (trajRows_width io T s hs)).2.2.1)
    (fun s hs => (rowCells_get (trajRows_width io T s hs)).2.2.2.1)
    (fun s hs => (rowCells_get (trajRows_width io T s hs)).2.2.2.2.1)
  unfold trajTable
  rw [this]
  congr 1
  conv_rhs => rw [← (trajRows_channels io hT).2.2.1]
  rw [List.map_map]; rfl

theorem read_speed (io : IoLib K R) {T : Traj K R} (hT : Coherent T) (hne : T.tstamps ≠ []) :
    extractSpeed (trajMeta T) (trajTable io T) = .ok (some (T.speed.map (round3 9))) := by
  have hf : hasFields (trajMeta T) ["vx", "vy", "vz"] = true := by
    unfold hasFields
    rw [trajMeta_fields]
    cases T.rot <;> rfl
  obtain ⟨-, -, -, -, -, hi, hj, hk⟩ := fieldIndex_all T.rot
  unfold extractSpeed
  rw [if_pos hf]
  have := numCol3_eq (h := trajMeta T) (na := "vx") (nb := "vy") (nc := "vz")
    (S := trajRows io T) (f := rowCells) (g := fun s => s.2.2.2.2) (by rw [trajMeta_fields]; exact hi)
    (by rw [trajMeta_fields]; exact hj) (by rw [trajMeta_fields]; exact hk) (trajRows_ne io hT hne)
    (fun s hs => (rowCells_get (trajRows_width io T s hs)).2.2.2.2.2.1)
    (fun s hs => (rowCells_get (trajRows_width io T s hs)).2.2.2.2.2.2.1)
    (fun s hs => (rowCells_get (trajRows_width io T s hs)).2.2.2.2.2.2.2.1)
  unfold trajTable
  rw [this]
  simp only [bind, Except.bind, pure, Except.pure]
  congr 2
  conv_rhs => rw [← (trajRows_channels io hT).2.2.2.2]
  rw [List.map_map]; rfl

theorem read_rotations_none (io : IoLib K R) {T : Traj K R} (hr : T.rot = none) (data : List (List Str)) :
    extractRotations io (trajMeta T) data = .ok none := by
  have h1 : hasFields (trajMeta T) ["qx", "qy", "qz", "qw"] = false := by
    unfold hasFields
    rw [trajMeta_fields, hr]
    rfl
  have h2 : hasFields (trajMeta T) ["ex", "ey", "ez"] = false := by
    unfold hasFields
    rw [trajMeta_fields, hr]
    rfl
  unfold extractRotations
  simp only [h1, h2]; rfl

theorem list_exists_map {α β : Type} {P : α → β → Prop} : ∀ {l : List α}, (∀ a ∈ l, ∃ b, P a b) →
    ∃ l' : List β, List.Forall₂ P l l'
  | [], _ => ⟨[], .nil⟩
  | a :: l, h => by
    obtain ⟨b, hb⟩ := h a (by simp)
    obtain ⟨l', hl⟩ := list_exists_map (P := P) (l := l) (fun x hx => h x (by simp [hx]))
    exact ⟨b :: l', .cons hb hl⟩

theorem mapE_of_forall₂ {α β : Type} {f : α → Except Err β} : ∀ {l : List α} {l' : List β},
    List.Forall₂ (fun a b => f a = .ok b) l l' → mapE f l = .ok l'
  | _, _, .nil => rfl
  | _, _, .cons h hs => by
    simp only [mapE, h, mapE_of_forall₂ hs, bind, Except.bind]; rfl

theorem getRotMatrix_enu : getRotMatrix "enu".toList = .ok (1 : M3 K) := by
  have h : getRotMatrix ['e', 'n', 'u'] = .ok (rowsMat (axisDir 'e') (axisDir 'n') (axisDir 'u') : M3 K) :=
    getRotMatrix_rows (by decide)
  have e : (rowsMat (axisDir 'e') (axisDir 'n') (axisDir 'u') : M3 K) = 1 := by
    ext i j
    fin_cases i <;> fin_cases j <;> simp [rowsMat, axisDir]
  rw [e] at h
  exact h

/-- quaternions come back rounded, as rotations -/
theorem read_rotations_some {io : IoLib K R} (hio : IsIoLib io) {T : Traj K R} (hT : Coherent T)
    (hne : T.tstamps ≠ []) {r : List R} (hr : T.rot = some r) :
    ∃ r', extractRotations io (trajMeta T) (trajTable io T) = .ok (some r') ∧
      List.Forall₂ (fun a b => (roundQ 9 (io.asQuat a)).normSq ≠ 0 ∧
        io.rot.toMat b = quatMat (roundQ 9 (io.asQuat a))) r r' := by
  have h1 : hasFields (trajMeta T) ["qx", "qy", "qz", "qw"] = true := by
    unfold hasFields
    rw [trajMeta_fields, hr]
    rfl
  have ix : fieldIndex (trajMeta T).fields "qx" = .ok 5 := by rw [trajMeta_fields, hr]; rfl
  have iy : fieldIndex (trajMeta T).fields "qy" = .ok 6 := by rw [trajMeta_fields, hr]; rfl
  have iz : fieldIndex (trajMeta T).fields "qz" = .ok 7 := by rw [trajMeta_fields, hr]; rfl
  have iw : fieldIndex (trajMeta T).fields "qw" = .ok 8 := by rw [trajMeta_fields, hr]; rfl
  have hwidth : ∀ s ∈ trajRows io T, s.2.2.2.1.length = 4 := by
    intro s hs
    have := trajRows_width io T s hs
    rw [hr] at this
    exact this
  have cell : ∀ s ∈ trajRows io T, ∀ i, i < 4 → (rowCells s)[5 + i]? = some (s.2.2.2.1.getD i 0) := by
    intro s hs i hi
    have hw := hwidth s hs
    rw [(rowCells_get hw).2.2.2.2.2.2.2.2.2 i hi]
    rw [List.getElem?_eq_getElem (by omega)]
    simp [List.getD, List.getElem?_eq_getElem (show i < s.2.2.2.1.length by omega)]
  have hxyz := numCol3_eq (h := trajMeta T) (na := "qx") (nb := "qy") (nc := "qz") (S := trajRows io T)
    (f := rowCells) (g := fun s => ⟨s.2.2.2.1.getD 0 0, s.2.2.2.1.getD 1 0, s.2.2.2.1.getD 2 0⟩) ix iy iz
    (trajRows_ne io hT hne) (fun s hs => cell s hs 0 (by norm_num)) (fun s hs => cell s hs 1 (by norm_num))
    (fun s hs => cell s hs 2 (by norm_num))
  have hw := numCol_eq (h := trajMeta T) (name := "qw") (S := trajRows io T) (f := rowCells)
    (g := fun s => s.2.2.2.1.getD 3 0) iw (trajRows_ne io hT hne) (fun s hs => cell s hs 3 (by norm_num))
  have zipEq : ∀ S : List (RowData K),
      ((S.map (fun s => round3 9 (⟨s.2.2.2.1.getD 0 0, s.2.2.2.1.getD 1 0, s.2.2.2.1.getD 2 0⟩ : V3 K))).zip
        (S.map (fun s => roundTo 9 (s.2.2.2.1.getD 3 0)))).map (fun s => (⟨s.1.x, s.1.y, s.1.z, s.2⟩ : Q4 K))
      = (S.map (fun s => s.2.2.2.1)).map
        (fun c => roundQ 9 (⟨c.getD 0 0, c.getD 1 0, c.getD 2 0, c.getD 3 0⟩ : Q4 K)) := by
    intro S
    induction S with
    | nil => rfl
    | cons s S ih => simp only [List.map_cons, List.zip_cons_cons, ih]; rfl
  have hquats : ((r.map (fun q => (io.asQuat q).cells)).map
      (fun c => roundQ 9 (⟨c.getD 0 0, c.getD 1 0, c.getD 2 0, c.getD 3 0⟩ : Q4 K)))
      = r.map (fun q => roundQ 9 (io.asQuat q)) := by
    rw [List.map_map]
    apply List.map_congr_left
    intro q _
    rfl
  have hcol : (trajRows io T).map (fun s => s.2.2.2.1) = r.map (fun q => (io.asQuat q).cells) := by
    rw [(trajRows_channels io hT).2.2.2.1, hr]; rfl
  have hε : (1 : K) / (2 * 10 ^ 9) ≤ 1 / 1000 := by norm_num
  have nz : ∀ a ∈ r, (roundQ 9 (io.asQuat a)).normSq ≠ 0 := fun a _ =>
    (quatMat_close (hio.unit a) hε (roundTo_close 9 _) (roundTo_close 9 _) (roundTo_close 9 _)
      (roundTo_close 9 _)).1
  obtain ⟨r1, hr1⟩ := list_exists_map (P := fun a b => io.fromQuat (roundQ 9 (io.asQuat a)) = .ok b ∧
      (roundQ 9 (io.asQuat a)).normSq ≠ 0 ∧ io.rot.toMat b = quatMat (roundQ 9 (io.asQuat a))) (l := r)
    (fun a ha => by
      obtain ⟨b, hb, hm⟩ := hio.fromQuat _ (nz a ha)
      exact ⟨b, hb, nz a ha, hm⟩)
  have hmap : mapE io.fromQuat (r.map (fun q => roundQ 9 (io.asQuat q))) = .ok r1 := by
    apply mapE_of_forall₂
    rw [List.forall₂_map_left_iff]
    exact hr1.imp (fun a b h => h.1)
  have hq : extractQuaternions io (trajMeta T) (trajTable io T) = .ok r1 := by
    unfold extractQuaternions trajTable
    rw [hxyz, hw]
    simp only [bind, Except.bind]
    rw [zipEq, hcol, hquats, hmap]
  refine ⟨r1.map (io.rot.mul (io.rot.fromMat 1)), ?_, ?_⟩
  · unfold extractRotations
    rw [if_pos h1, hq, trajMeta_nframe, getRotMatrix_enu]
    rfl
  · rw [List.forall₂_map_right_iff]
    refine hr1.imp (fun a b h => ⟨h.2.1, ?_⟩)
    rw [hio.rot.toMat_mul, hio.rot.toMat_fromMat 1 isRot_one, one_mul, h.2.2]

/-- the trajectory read from the table of a written file -/
theorem fromTable_written {io : IoLib K R} (hio : IsIoLib io) (counter : Nat) {T : Traj K R} (hT : Coherent T)
    (hne : T.tstamps ≠ []) (hname : CleanName T.name.toList) :
    ∃ rot', Traj.fromTable io counter (trajMeta T) (trajTable io T) = .ok
        { tstamps := T.tstamps.map (roundTo 9)
          pos := T.pos.map (round3 9)
          rot := rot'
          arc := T.arc.map (roundTo 9)
          speed := T.speed.map (round3 9)
          sorting := .time
          name := T.name
          epsg := T.epsg } ∧
      match T.rot, rot' with
      | none, none => True
      | some r, some r' => List.Forall₂ (fun a b => (roundQ 9 (io.asQuat a)).normSq ≠ 0 ∧
          io.rot.toMat b = quatMat (roundQ 9 (io.asQuat a))) r r'
      | _, _ => False := by
  have hnm : ¬ T.name = "" := by
    intro h
    apply hname.ne
    rw [h]; rfl
  have hlen : (T.speed.map (round3 9)).length = (T.pos.map (round3 9)).length := by
    simp [hT.speed, hT.pos]
  have hlen' : (T.arc.map (roundTo 9)).length = (T.pos.map (round3 9)).length := by
    simp [hT.arc, hT.pos]
  cases hr : T.rot with
  | none =>
    refine ⟨none, ?_, trivial⟩
    unfold Traj.fromTable
    rw [read_timestamps io hT hne, read_positions io hT hne, read_arc io hT hne, read_speed io hT hne,
      read_rotations_none io hr]
    simp only [bind, Except.bind, trajMeta_epsg, trajMeta_name, Traj.new, pure, Except.pure,
      String.ofList_toList, hnm, if_false, hlen, hlen', if_true]
  | some r =>
    obtain ⟨r', h1, h2⟩ := read_rotations_some hio hT hne hr
    refine ⟨some r', ?_, h2⟩
    have hl : r'.length = (T.pos.map (round3 9)).length := by
      rw [← h2.length_eq, hT.rot r hr, List.length_map, hT.pos]
    unfold Traj.fromTable
    rw [read_timestamps io hT hne, read_positions io hT hne, read_arc io hT hne, read_speed io hT hne, h1]
    simp only [bind, Except.bind, trajMeta_epsg, trajMeta_name, Traj.new, pure, Except.pure, hl,
      String.ofList_toList, hnm, if_false, hlen, hlen', if_true, ne_eq, not_true]

theorem trajTable_plain (io : IoLib K R) (T : Traj K R) : ∀ row ∈ trajTable io T, ∀ c ∈ row, PlainCell c := by
  intro row hrow c hc
  obtain ⟨s, -, rfl⟩ := List.mem_map.mp hrow
  obtain ⟨x, -, rfl⟩ := List.mem_map.mp hc
  exact plain_fmtCell 9 (some x)

theorem trajTable_width (io : IoLib K R) (T : Traj K R) :
    ∀ row ∈ trajTable io T, row.length = 8 + quatWidth T.rot := by
  intro row hrow
  obtain ⟨s, hs, rfl⟩ := List.mem_map.mp hrow
  rw [List.length_map, (rowCells_get (trajRows_width io T s hs)).2.2.2.2.2.2.2.2.1]

theorem trajTable_ne (io : IoLib K R) {T : Traj K R} (hT : Coherent T) (hne : T.tstamps ≠ []) :
    trajTable io T ≠ [] := by
  unfold trajTable
  simp [trajRows_ne io hT hne]

theorem readCsv_trajTable (io : IoLib K R) {T : Traj K R} (hT : Coherent T) (hne : T.tstamps ≠ [])
    (hname : OneLine T.name.toList) :
    readCsv ',' (linesText (trajHeader T) ++ csvRows (trajTable io T)) = .ok (trajTable io T) :=
  readCsv_file (trajHeader_lines hname) (by omega) (trajTable_ne io hT hne) (trajTable_width io T)
    (trajTable_plain io T)

/-- the data read from a written file -/
theorem readData_written' (io : IoLib K R) {T : Traj K R} (hT : Coherent T) (hne : T.tstamps ≠ [])
    (hname : OneLine T.name.toList) :
    readData (linesText (trajHeader T) ++ csvRows (trajTable io T)) =
      .ok (trajMeta (T.named (pyJoin [' '] (pySplit T.name.toList))), trajTable io T) := by
  have hcell := trajTable_plain io T
  have hwid := trajTable_width io T
  have htne := trajTable_ne io hT hne
  have hhead : headerFromFile (linesText (trajHeader T) ++ csvRows (trajTable io T))
      = .ok (trajMeta (T.named (pyJoin [' '] (pySplit T.name.toList)))) := by
    unfold headerFromFile
    rw [fileLines_linesText (fun l hl => (trajHeader_lines hname l hl).1), handleLines_append,
      handleLines_trajHeader']
    simp only [bind, Except.bind]
    apply handleLines_data
    intro l hl c r e
    rw [csvRows_eq] at hl
    have e2 := fileLines_linesText (ls := (trajTable io T).map (pyJoin [',']))
      (by intro l hl; obtain ⟨row, hrow, rfl⟩ := List.mem_map.mp hl; exact join_oneLine (hcell row hrow)) []
    rw [List.append_nil, fileLines_nil, List.append_nil] at e2
    rw [e2] at hl
    obtain ⟨row, hrow, rfl⟩ := List.mem_map.mp hl
    rintro rfl
    have hh := join_noHash (hcell row hrow)
    rw [e] at hh
    simp at hh
  have hcsv := readCsv_trajTable io hT hne hname
  unfold readData
  rw [hhead]
  simp only [bind, Except.bind, trajMeta_delimiter, hcsv]
  have hw1 : ¬ tableWidth (trajTable io T) = 1 := by
    match h : trajTable io T, htne with
    | row :: rows, _ =>
      have := hwid row (by rw [h]; simp)
      simp only [tableWidth]; omega
  rw [if_neg hw1]
  rfl

theorem readData_written (io : IoLib K R) {T : Traj K R} (hT : Coherent T) (hne : T.tstamps ≠ [])
    (hname : CleanName T.name.toList) :
    readData (linesText (trajHeader T) ++ csvRows (trajTable io T)) = .ok (trajMeta T, trajTable io T) := by
  rw [readData_written' io hT hne hname.oneLine, named_self hname]

end TC
