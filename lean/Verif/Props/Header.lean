import Verif.Proofs.Header
import Verif.Spec.Rot
import Mathlib.Tactic.FinCases
import Mathlib.Algebra.Order.Field.Rat
import Mathlib.Data.Rat.Floor
/-!
# C89, C90, C106: file headers and navigation frames
-/
namespace TC
set_option linter.unusedSectionVars false
set_option linter.unusedTactic false
variable {K : Type} [Field K] [LinearOrder K]

/-! ### C89 -/

/-- **C89.** Reading the header of a file: a known key gets the value of its last header line; a
known key without header line and every unknown key get no value (so the default is used); the
other lines of the file do not matter. -/
theorem C89_last_value {content : Str} {m : HMeta K} (h : headerFromFile content = .ok m) (key : Str) :
    (key ∉ headerKeys → m.get key = none) ∧
    ((∀ l ∈ fileLines content, ¬ HeaderLine key l) → m.get key = none) ∧
    (key ∈ headerKeys → ∀ pre l post, fileLines content = pre ++ l :: post → HeaderLine key l →
      (∀ x ∈ post, ¬ HeaderLine key x) → ∃ v, lineHandler key l = .ok v ∧ m.get key = some v) := by
  refine ⟨?_, fun hn => ?_, ?_⟩
  · intro hk
    have : ∀ {ls : List Str} {m0 m' : HMeta K}, handleLines m0 ls = .ok m' → m'.get key = m0.get key := by
      intro ls
      induction ls with
      | nil => intro m0 m' h; cases h; rfl
      | cons l ls ih =>
        intro m0 m' h
        simp only [handleLines] at h
        cases h1 : handleLine m0 l with
        | error e => rw [h1] at h; cases h
        | ok m1 =>
          rw [h1] at h
          rw [ih h]
          rcases handleLine_inv h1 with ⟨rfl, -⟩ | ⟨k', v, hk', -, -, rfl⟩
          · rfl
          · exact HMeta.get_cons_ne _ _ (fun e => hk (e ▸ hk'))
    exact this h
  · exact handleLines_get_other h hn
  · intro hk pre l post e hl hpost
    unfold headerFromFile at h
    rw [e] at h
    exact handleLines_get_last hk h hl hpost

/-- **C89.** What a header line says: the words after the key, joined by blanks, for text keys; an
integer for `epsg` and `gps_week`; the header is read exactly if all known lines can be interpreted. -/
theorem C89_interpretation (content : Str) :
    (∃ m : HMeta K, headerFromFile content = .ok m) ↔
      ∀ l ∈ fileLines content, ∀ k ∈ headerKeys, HeaderLine k l → ∃ v : HVal K, lineHandler k l = .ok v :=
  handleLines_ok_iff

/-- **C89.** The value of a text key is the rest of its line, white space normalised: for words
`ws` after the key it is the words joined by single blanks. -/
theorem C89_text_value {key : Str} (hkey : key ∈ headerKeys)
    (hk : key ∉ ["epsg", "gps_week", "time_offset", "delimiter"].map String.toList)
    (ws : List Str) (hws : ∀ w ∈ ws, w ≠ [] ∧ NoSpace w) :
    HeaderLine key (List.intercalate [' '] (('#' :: key) :: ws)) ∧
    lineHandler (K := K) key (List.intercalate [' '] (('#' :: key) :: ws))
      = .ok (.str (List.intercalate [' '] ws)) := by
  have hns : NoSpace key := by
    have : ∀ k ∈ headerKeys, ∀ c ∈ k, pySpace c = false := by decide
    exact this key hkey
  have joinEq : ∀ l : List Str, pyJoin [' '] l = List.intercalate [' '] l := by
    intro l
    induction l with
    | nil => rfl
    | cons a as ih =>
      cases as with
      | nil => simp [pyJoin, List.intercalate]
      | cons b bs =>
        simp only [pyJoin, ih]
        simp [List.intercalate]
  have splitEq : ∀ (w : Str) (l : List Str), w ≠ [] → NoSpace w → (∀ x ∈ l, x ≠ [] ∧ NoSpace x) →
      pySplit (pyJoin [' '] (w :: l)) = w :: l := by
    intro w l
    induction l generalizing w with
    | nil => intro hw hs _; exact pySplit_word hs hw
    | cons b bs ih =>
      intro hw hs hl
      simp only [pyJoin, List.append_assoc, List.singleton_append]
      rw [pySplit_space rfl, pySplit_word hs hw, ih b (hl b (by simp)).1 (hl b (by simp)).2
        (fun x hx => hl x (by simp [hx]))]
      rfl
  have hhash : NoSpace ('#' :: key) := by
    intro c hc
    rcases List.mem_cons.mp hc with rfl | hc
    · rfl
    · exact hns c hc
  constructor
  · refine ⟨hns, ?_⟩
    cases ws with
    | nil => exact ⟨[], by simp [List.intercalate], by intro c r h; cases h⟩
    | cons b bs =>
      refine ⟨' ' :: pyJoin [' '] (b :: bs), ?_, ?_⟩
      · rw [← joinEq]; simp [pyJoin]
      · intro c r h; cases h; rfl
  · simp only [List.map_cons, List.map_nil, List.mem_cons, List.not_mem_nil, or_false, not_or] at hk
    unfold lineHandler
    rw [if_neg (by tauto), if_neg (by tauto), if_neg (by tauto)]
    unfold defaultLineHandler
    rw [← joinEq, splitEq _ _ (by simp) hhash hws, List.tail_cons, joinEq]

/-- **C89.** The order of lines of different keys does not matter: if two files have, for each known
key, the same header lines in the same order, then one header is read exactly if the other is, and
all values agree. -/
theorem C89_order {c c' : Str}
    (h : ∀ k ∈ headerKeys, (fileLines c).filter (fun l => decide (lineKeyword l = some k))
      = (fileLines c').filter (fun l => decide (lineKeyword l = some k))) :
    ((∃ m : HMeta K, headerFromFile c = .ok m) ↔ ∃ m : HMeta K, headerFromFile c' = .ok m) ∧
    ∀ m m' : HMeta K, headerFromFile c = .ok m → headerFromFile c' = .ok m' →
      ∀ k, m.get k = m'.get k := by
  have mem : ∀ {c c' : Str}, (∀ k ∈ headerKeys, (fileLines c).filter (fun l => decide (lineKeyword l = some k))
      = (fileLines c').filter (fun l => decide (lineKeyword l = some k))) →
      ∀ k ∈ headerKeys, ∀ l, l ∈ fileLines c → HeaderLine k l → l ∈ fileLines c' := by
    intro c c' h k hk l hl hh
    have : l ∈ (fileLines c).filter (fun l => decide (lineKeyword l = some k)) := by
      simp [hl, (lineKeyword_iff k l).mpr hh]
    rw [h k hk] at this
    exact (List.mem_filter.mp this).1
  constructor
  · rw [C89_interpretation, C89_interpretation]
    constructor
    · intro H l hl k hk hh
      exact H l (mem (fun k hk => (h k hk).symm) k hk l hl hh) k hk hh
    · intro H l hl k hk hh
      exact H l (mem h k hk l hl hh) k hk hh
  · intro m m' hm hm' k
    by_cases hk : k ∈ headerKeys
    · -- the last line of the key, if any
      have split : ∀ (ls : List Str), (ls.filter (fun l => decide (lineKeyword l = some k))).getLast? = none ∧
            (∀ l ∈ ls, ¬ HeaderLine k l) ∨
          ∃ pre l post, ls = pre ++ l :: post ∧ HeaderLine k l ∧ (∀ x ∈ post, ¬ HeaderLine k x) ∧
            (ls.filter (fun l => decide (lineKeyword l = some k))).getLast? = some l := by
        intro ls
        induction ls with
        | nil => exact Or.inl ⟨rfl, by simp⟩
        | cons a as ih =>
          rcases ih with ⟨h1, h2⟩ | ⟨pre, l, post, e, hl, hp, hlast⟩
          · by_cases ha : HeaderLine k a
            · refine Or.inr ⟨[], a, as, rfl, ha, h2, ?_⟩
              have : as.filter (fun l => decide (lineKeyword l = some k)) = [] := by
                simpa using h1
              rw [List.filter_cons]
              simp [(lineKeyword_iff k a).mpr ha, this]
            · refine Or.inl ⟨?_, ?_⟩
              · have hne : lineKeyword a ≠ some k := fun e => ha ((lineKeyword_iff k a).mp e)
                rw [List.filter_cons]; simpa [hne] using h1
              · intro l hl
                rcases List.mem_cons.mp hl with rfl | hl
                · exact ha
                · exact h2 l hl
          · refine Or.inr ⟨a :: pre, l, post, by rw [e]; rfl, hl, hp, ?_⟩
            rw [List.filter_cons]
            split
            · rw [List.getLast?_cons, hlast]; rfl
            · exact hlast
      have e := h k hk
      rcases split (fileLines c) with ⟨h1, h2⟩ | ⟨pre, l, post, e1, hl, hp, hlast⟩
      · rcases split (fileLines c') with ⟨h3, h4⟩ | ⟨pre', l', post', e1', hl', hp', hlast'⟩
        · rw [(C89_last_value hm k).2.1 h2, (C89_last_value hm' k).2.1 h4]
        · rw [e] at h1; rw [h1] at hlast'; cases hlast'
      · rcases split (fileLines c') with ⟨h3, h4⟩ | ⟨pre', l', post', e1', hl', hp', hlast'⟩
        · rw [← e] at h3; rw [h3] at hlast; cases hlast
        · rw [e, hlast'] at hlast
          obtain rfl := Option.some.inj hlast
          obtain ⟨v, hv, hg⟩ := (C89_last_value hm k).2.2 hk pre _ post e1 hl hp
          obtain ⟨v', hv', hg'⟩ := (C89_last_value hm' k).2.2 hk pre' _ post' e1' hl' hp'
          rw [hv] at hv'; cases hv'
          rw [hg, hg']
    · rw [(C89_last_value hm k).1 hk, (C89_last_value hm' k).1 hk]

/-- a header with a repeated key, an unknown key, a data line and another line end -/
def exHeader : Str := "#name a\n#epsg 25832\r\n#foo x\n1,2,3\n#name  my   run \n".toList

example : ((headerFromFile exHeader : Except Err (HMeta ℚ)).toOption.map
    (fun m => (m.name, m.epsg, m.fields.length, m.get "foo".toList))) =
    some ("my run".toList, 25832, 8, none) := by decide +kernel

example : (headerFromFile "#epsg x\n".toList : Except Err (HMeta ℚ)) = .error .valueError := by
  decide +kernel

/-! ### C90 -/

/-- the twelve names of navigation frames the conversion accepts -/
def frames : List Str :=
  [['e', 'n', 'u'], ['e', 'u', 'n'], ['n', 'e', 'u'], ['n', 'u', 'e'],
   ['u', 'e', 'n'], ['u', 'n', 'e'], ['e', 'n', 'd'], ['e', 'd', 'n'],
   ['n', 'e', 'd'], ['n', 'd', 'e'], ['d', 'e', 'n'], ['d', 'n', 'e']]

theorem rotMatrixLoop_long (flip : Bool) : ∀ (s : Str) (M : M3 K) (i : Nat), 3 < i + s.length → i ≤ 3 →
    ∃ e, rotMatrixLoop flip M i s = .error e
  | [], M, i, h, hi => by simp at h; omega
  | c :: cs, M, i, h, hi => by
    simp only [rotMatrixLoop, rotMatrixSet]
    by_cases h3 : i < 3
    · rw [dif_pos h3]
      simp only [bind, Except.bind]
      exact rotMatrixLoop_long flip cs _ (i + 1) (by simp at h; omega) (by omega)
    · rw [dif_neg h3]
      exact ⟨.indexError, rfl⟩

theorem frames_iff (f : Str) : f ∈ frames ↔
    f.length = 3 ∧ 'e' ∈ f ∧ 'n' ∈ f ∧ ('u' ∈ f ∨ 'd' ∈ f) := by
  constructor
  · intro h
    have : ∀ f ∈ frames, f.length = 3 ∧ 'e' ∈ f ∧ 'n' ∈ f ∧ ('u' ∈ f ∨ 'd' ∈ f) := by decide
    exact this f h
  · rintro ⟨hl, he, hn, hu⟩
    match f, hl with
    | [a, b, c], _ =>
      simp only [List.mem_cons, List.not_mem_nil, or_false] at he hn hu
      rcases he with rfl | rfl | rfl <;> rcases hn with h | h | h <;>
        first
        | (exact absurd h (by decide))
        | (subst h
           rcases hu with (h | h | h) | (h | h | h) <;>
             first
             | (exact absurd h (by decide))
             | (subst h; decide))

theorem mem_three_short {f : Str} (hl : f.length < 3) : ¬('e' ∈ f ∧ 'n' ∈ f ∧ ('u' ∈ f ∨ 'd' ∈ f)) := by
  rintro ⟨he, hn, hu⟩
  match f, hl with
  | [], _ => simp at he
  | [a], _ =>
    simp only [List.mem_cons, List.not_mem_nil, or_false] at he hn
    subst he; exact absurd hn (by decide)
  | [a, b], _ =>
    simp only [List.mem_cons, List.not_mem_nil, or_false] at he hn hu
    rcases he with rfl | rfl <;> rcases hn with h | h <;>
      first
      | (exact absurd h (by decide))
      | (subst h; rcases hu with (h | h) | (h | h) <;> exact absurd h (by decide))

/-- the direction of an axis, in east/north/up coordinates: `e`ast, `n`orth, `u`p, `d`own -/
def axisDir (c : Char) : V3 K :=
  if c = 'e' then ⟨1, 0, 0⟩ else if c = 'n' then ⟨0, 1, 0⟩ else if c = 'u' then ⟨0, 0, 1⟩ else ⟨0, 0, -1⟩

/-- the matrix with three given rows -/
def rowsMat (a b c : V3 K) : M3 K := !![a.x, a.y, a.z; b.x, b.y, b.z; c.x, c.y, c.z]

theorem getRotMatrix_rows {a b c : Char} (h : [a, b, c] ∈ frames) :
    getRotMatrix [a, b, c] = .ok (rowsMat (axisDir a) (axisDir b) (axisDir c) : M3 K) := by
  have key : ∃ M : M3 K, getRotMatrix [a, b, c] = .ok M ∧
      M = rowsMat (axisDir a) (axisDir b) (axisDir c) := by
    simp only [frames, List.mem_cons, List.not_mem_nil, or_false] at h
    rcases h with h | h | h | h | h | h | h | h | h | h | h | h <;>
    · cases h
      refine ⟨_, rfl, ?_⟩
      funext i j
      fin_cases i <;> fin_cases j <;> rfl
  obtain ⟨M, h, rfl⟩ := key
  exact h

theorem pyLower_frames {f : Str} (h : f ∈ frames) : pyLower f = f := by
  have : ∀ f ∈ frames, pyLower f = f := by decide
  exact this f h

theorem getRotMatrix_lower (f : Str) (h : pyLower f ∈ frames) :
    (getRotMatrix f : Except Err (M3 K)) = getRotMatrix (pyLower f) := by
  unfold getRotMatrix
  simp only [pyLower_frames h]

/-- a matrix with exactly one entry different from zero in each row and column, all of them `±1` -/
structure SignedPermutation (M : M3 K) : Prop where
  row : ∀ i, ∃! j, M i j ≠ 0
  col : ∀ j, ∃! i, M i j ≠ 0
  entry : ∀ i j, M i j = 0 ∨ M i j = 1 ∨ M i j = -1

theorem rowsMat_signed {a b c : Char} (h : [a, b, c] ∈ frames) :
    SignedPermutation (rowsMat (axisDir a) (axisDir b) (axisDir c) : M3 K) ∧
    (rowsMat (axisDir a) (axisDir b) (axisDir c) : M3 K)
      * (rowsMat (axisDir a) (axisDir b) (axisDir c) : M3 K).transpose = 1 := by
  simp only [frames, List.mem_cons, List.not_mem_nil, or_false] at h
  rcases h with h | h | h | h | h | h | h | h | h | h | h | h <;>
  · cases h
    simp only [axisDir, Char.reduceEq, if_true, if_false, rowsMat]
    refine ⟨⟨?_, ?_, ?_⟩, ?_⟩
    · intro i
      fin_cases i <;> first
        | (refine ⟨0, ?_, ?_⟩ <;> [simp; (intro j hj; fin_cases j <;> simp_all)]; done)
        | (refine ⟨1, ?_, ?_⟩ <;> [simp; (intro j hj; fin_cases j <;> simp_all)]; done)
        | (refine ⟨2, ?_, ?_⟩ <;> [simp; (intro j hj; fin_cases j <;> simp_all)]; done)
    · intro i
      fin_cases i <;> first
        | (refine ⟨0, ?_, ?_⟩ <;> [simp; (intro j hj; fin_cases j <;> simp_all)]; done)
        | (refine ⟨1, ?_, ?_⟩ <;> [simp; (intro j hj; fin_cases j <;> simp_all)]; done)
        | (refine ⟨2, ?_, ?_⟩ <;> [simp; (intro j hj; fin_cases j <;> simp_all)]; done)
    · intro i j
      fin_cases i <;> fin_cases j <;> simp
    · ext i j
      fin_cases i <;> fin_cases j <;> simp [Matrix.mul_apply, Fin.sum_univ_three]

/-- **C90.** The conversion accepts exactly the names of the twelve frames with an `e`ast, a `n`orth
and an `u`p or `d`own axis, in any order and in upper or lower case; row `i` of the matrix is the
direction of axis `i`. -/
theorem C90_accepted (s : Str) :
    (∀ M : M3 K, getRotMatrix s = .ok M → ∃ a b c, pyLower s = [a, b, c] ∧ [a, b, c] ∈ frames ∧
      M = rowsMat (axisDir a) (axisDir b) (axisDir c)) ∧
    (pyLower s ∈ frames → ∃ M : M3 K, getRotMatrix s = .ok M) ∧
    (pyLower s ∉ frames → ∃ e, (getRotMatrix s : Except Err (M3 K)) = .error e) := by
  have h2 : pyLower s ∈ frames → ∃ a b c, pyLower s = [a, b, c] ∧ [a, b, c] ∈ frames ∧
      getRotMatrix s = .ok (rowsMat (axisDir a) (axisDir b) (axisDir c) : M3 K) := by
    intro hf
    have hl := ((frames_iff _).mp hf).1
    match e : pyLower s, hl with
    | [a, b, c], _ =>
      rw [e] at hf
      refine ⟨a, b, c, rfl, hf, ?_⟩
      rw [getRotMatrix_lower s (by rw [e]; exact hf), e, getRotMatrix_rows hf]
  have h3 : pyLower s ∉ frames → ∃ e, (getRotMatrix s : Except Err (M3 K)) = .error e := by
    intro hf
    unfold getRotMatrix
    simp only
    split
    · exact ⟨_, rfl⟩
    · rename_i hc
      have hc' : 'e' ∈ pyLower s ∧ 'n' ∈ pyLower s ∧ ('u' ∈ pyLower s ∨ 'd' ∈ pyLower s) := by
        by_contra hcon
        exact hc (by tauto)
      have h3 : ¬ (pyLower s).length < 3 := fun h => mem_three_short h hc'
      have hne : (pyLower s).length ≠ 3 := fun h => hf ((frames_iff _).mpr ⟨h, hc'⟩)
      exact rotMatrixLoop_long _ _ _ 0 (by rw [List.length_map]; omega) (by omega)
  refine ⟨?_, fun h => ?_, h3⟩
  · intro M hM
    by_cases hf : pyLower s ∈ frames
    · obtain ⟨a, b, c, e, hm, h⟩ := h2 hf
      rw [h] at hM; cases hM
      exact ⟨a, b, c, e, hm, rfl⟩
    · obtain ⟨e, h⟩ := h3 hf
      rw [h] at hM; cases hM
  · obtain ⟨a, b, c, -, -, h⟩ := h2 h
    exact ⟨_, h⟩

/-- **C90.** Whatever the frame string: if a conversion matrix is returned, it has exactly one entry
`±1` per row and column and zeros elsewhere, and it is orthogonal. -/
theorem C90_signed_permutation {s : Str} {M : M3 K} (h : getRotMatrix s = .ok M) :
    SignedPermutation M ∧ M * M.transpose = 1 := by
  obtain ⟨a, b, c, -, hm, rfl⟩ := (C90_accepted s).1 M h
  exact rowsMat_signed hm

example : (getRotMatrix "NED".toList : Except Err (M3 ℚ)) = .ok !![0, 1, 0; 1, 0, 0; 0, 0, -1] := by
  have h := (C90_accepted (K := ℚ) "NED".toList).2.1 (by decide)
  obtain ⟨M, h⟩ := h
  obtain ⟨a, b, c, e, -, rfl⟩ := (C90_accepted "NED".toList).1 M h
  have e' : pyLower "NED".toList = ['n', 'e', 'd'] := by decide
  rw [e'] at e
  cases e
  rw [h]
  simp [rowsMat, axisDir]

/-! ### C106 -/

/-- the vector with the coordinates `v` in the frame `[a, b, c]`, in east/north/up coordinates -/
def enuVector (a b c : Char) (v : V3 K) : V3 K :=
  v.x • axisDir a + v.y • axisDir b + v.z • axisDir c

/-- the statement of C106 for one frame: the conversion turns every orientation given in frame
coordinates into the same orientation in east/north/up coordinates -/
def FrameConverted (K : Type) [Field K] [LinearOrder K] (a b c : Char) : Prop :=
  ∀ (R : Type) (L : RotLib K R), IsRotLib L → ∀ (M : M3 K), getRotMatrix [a, b, c] = .ok M →
    ∀ (r : R) (v : V3 K),
      mulV (L.toMat (L.mul (L.fromMat M) r)) v = enuVector a b c (mulV (L.toMat r) v)

/-- the right-handed frames -/
def rightHanded : List Str :=
  [['e', 'n', 'u'], ['n', 'e', 'd'], ['n', 'u', 'e'], ['u', 'e', 'n'], ['e', 'd', 'n'], ['d', 'n', 'e']]

theorem rightHanded_isRot {a b c : Char} (h : [a, b, c] ∈ rightHanded) :
    IsRot (rowsMat (axisDir a) (axisDir b) (axisDir c) : M3 K) ∧ [a, b, c] ∈ frames := by
  simp only [rightHanded, List.mem_cons, List.not_mem_nil, or_false] at h
  rcases h with h | h | h | h | h | h <;>
  · cases h
    refine ⟨⟨(rowsMat_signed (by decide)).2, ?_⟩, by decide⟩
    simp [rowsMat, axisDir, Matrix.det_fin_three]

/-- **C106, what holds and what does not.** Of the six right-handed frames the conversion is right
for east/north/up and north/east/down and wrong for the other four, where the matrix is the
inverse of the one needed.  (The six left-handed frames cannot be converted by a rotation.) -/
theorem C106_frame_conversion_partial [IsStrictOrderedRing K] {a b c : Char} (h : [a, b, c] ∈ rightHanded) :
    FrameConverted K a b c ↔ [a, b, c] = ['e', 'n', 'u'] ∨ [a, b, c] = ['n', 'e', 'd'] := by
  have hrot := (rightHanded_isRot (K := K) h).1
  have hrow := getRotMatrix_rows (K := K) (rightHanded_isRot (K := K) h).2
  constructor
  · intro H
    -- the rotation `1` and the three unit vectors
    have test : ∀ v, mulV (rowsMat (axisDir a) (axisDir b) (axisDir c)) v = enuVector (K := K) a b c v := by
      intro v
      have hL := matLib_isRotLib (K := K) (fun a _ _ => a)
      have := H _ _ hL _ hrow (matLib (fun a _ _ => a)).one v
      rw [hL.toMat_mul, hL.toMat_fromMat _ hrot, hL.toMat_one, mul_one] at this
      rw [this]
      congr 1
      simp [mulV]
    simp only [rightHanded, List.mem_cons, List.not_mem_nil, or_false] at h
    have hx := test ⟨1, 0, 0⟩
    have hy := test ⟨0, 1, 0⟩
    rcases h with h | h | h | h | h | h
    · exact Or.inl h
    · exact Or.inr h
    · exfalso; cases h; have h2 := congrArg V3.y hx; simp [mulV, rowsMat, axisDir, enuVector] at h2
    · exfalso; cases h; have h2 := congrArg V3.y hx; simp [mulV, rowsMat, axisDir, enuVector] at h2
    · exfalso; cases h
      have h2 := congrArg V3.z hy
      simp [mulV, rowsMat, axisDir, enuVector] at h2
      linarith
    · exfalso; cases h
      have h2 := congrArg V3.z hx
      simp [mulV, rowsMat, axisDir, enuVector] at h2
      linarith
  · intro hab R L hL M hM r v
    rw [hrow] at hM
    cases hM
    rw [hL.toMat_mul, hL.toMat_fromMat _ hrot]
    have e : ∀ A B : M3 K, mulV (A * B) v = mulV A (mulV B v) := by
      intro A B
      ext <;> simp only [mulV, Matrix.mul_apply, Fin.sum_univ_three] <;> ring
    rw [e]
    generalize mulV (L.toMat r) v = w
    rcases hab with h | h <;>
    · cases h
      ext <;> simp [mulV, rowsMat, axisDir, enuVector]

/-- **C106 is false**: a right-handed frame, north/up/east, whose orientations are converted wrongly. -/
theorem C106_not_all_frames [IsStrictOrderedRing K] :
    ∃ a b c, [a, b, c] ∈ rightHanded ∧ ¬ FrameConverted K a b c :=
  ⟨'n', 'u', 'e', by decide, by rw [C106_frame_conversion_partial (by decide)]; decide⟩

end TC
