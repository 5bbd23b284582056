import Verif.Model.Text
import Verif.Spec.Text
import Verif.Proofs.Eval
import Mathlib.Tactic.Linarith
import Mathlib.Tactic.Ring
import Mathlib.Tactic.FieldSimp
import Mathlib.Tactic.LinearCombination
import Mathlib.Tactic.Positivity
import Mathlib.Algebra.Order.Floor.Ring
/-!
# Facts about text, number formatting and csv
-/
namespace TC
set_option linter.unusedSectionVars false

/-! ### digits -/

theorem digitChar_toNat {d : Nat} (h : d < 10) : (digitChar d).toNat = 48 + d := by
  revert d; decide

theorem isDig_digitChar {d : Nat} (h : d < 10) : isDig (digitChar d) = true := by
  simp [isDig, digitChar_toNat h]; omega

theorem digitsVal_snoc (s : Str) (c : Char) :
    digitsVal (s ++ [c]) = 10 * digitsVal s + (c.toNat - 48) := by
  simp [digitsVal]

theorem natStrAux_spec : ∀ (k n : Nat), n ≤ k →
    digitsVal (natStrAux k n) = n ∧ (natStrAux k n).all isDig = true ∧ natStrAux k n ≠ [] := by
  intro k
  induction k with
  | zero =>
    intro n hn
    obtain rfl : n = 0 := by omega
    refine ⟨rfl, rfl, by simp [natStrAux]⟩
  | succ k ih =>
    intro n hn
    unfold natStrAux
    split
    · rename_i h
      refine ⟨?_, ?_, by simp⟩
      · simp [digitsVal, digitChar_toNat h]
      · simp [isDig_digitChar h]
    · rename_i h
      obtain ⟨h1, h2, h3⟩ := ih (n / 10) (by omega)
      have hm : n % 10 < 10 := Nat.mod_lt _ (by norm_num)
      refine ⟨?_, ?_, by simp⟩
      · rw [digitsVal_snoc, h1, digitChar_toNat hm]; omega
      · rw [List.all_append, h2]; simp [isDig_digitChar hm]

theorem digitsVal_natStr (n : Nat) : digitsVal (natStr n) = n := (natStrAux_spec n n le_rfl).1
theorem natStr_dig (n : Nat) : (natStr n).all isDig = true := (natStrAux_spec n n le_rfl).2.1
theorem natStr_ne (n : Nat) : natStr n ≠ [] := (natStrAux_spec n n le_rfl).2.2

theorem fixStr_length : ∀ d n, (fixStr d n).length = d
  | 0, _ => rfl
  | d + 1, n => by simp [fixStr, fixStr_length d]

theorem fixStr_dig : ∀ d n, (fixStr d n).all isDig = true
  | 0, _ => rfl
  | d + 1, n => by
    rw [fixStr, List.all_append, fixStr_dig d]
    simp [isDig_digitChar (Nat.mod_lt n (by norm_num : 10 > 0))]

theorem digitsVal_fixStr : ∀ d n, digitsVal (fixStr d n) = n % 10 ^ d
  | 0, n => by simp [fixStr, digitsVal, Nat.mod_one]
  | d + 1, n => by
    rw [fixStr, digitsVal_snoc, digitsVal_fixStr d,
      digitChar_toNat (Nat.mod_lt n (by norm_num : 10 > 0)), pow_succ']
    rw [Nat.mod_mul]; omega

/-! ### white space -/

theorem dig_not_space {c : Char} (h : isDig c = true) : pySpace c = false := by
  simp only [isDig, Bool.and_eq_true, decide_eq_true_eq] at h
  simp only [pySpace]
  obtain ⟨h1, h2⟩ := h
  simp only [Bool.or_eq_false_iff, Bool.and_eq_false_iff, decide_eq_false_iff_not, beq_eq_false_iff_ne]
  omega

theorem dropWhile_none {α : Type} {p : α → Bool} {l : List α} (h : ∀ c ∈ l, p c = false) :
    l.dropWhile p = l := by
  cases l with
  | nil => rfl
  | cons a as => simp [List.dropWhile, h a (by simp)]

theorem takeWhile_all {α : Type} {p : α → Bool} {l : List α} (h : ∀ c ∈ l, p c = true) :
    l.takeWhile p = l := by
  induction l with
  | nil => rfl
  | cons a as ih =>
    simp only [List.takeWhile, h a (by simp)]
    rw [ih (fun c hc => h c (by simp [hc]))]

theorem dropWhile_all {α : Type} {p : α → Bool} {l : List α} (h : ∀ c ∈ l, p c = true) :
    l.dropWhile p = [] := by
  induction l with
  | nil => rfl
  | cons a as ih =>
    simp only [List.dropWhile, h a (by simp)]
    exact ih (fun c hc => h c (by simp [hc]))

theorem takeWhile_append_stop {α : Type} {p : α → Bool} {l : List α} {a : α} (r : List α)
    (h : ∀ c ∈ l, p c = true) (ha : p a = false) : (l ++ a :: r).takeWhile p = l := by
  induction l with
  | nil => simp [ha]
  | cons b bs ih =>
    simp only [List.cons_append, List.takeWhile, h b (by simp)]
    rw [ih (fun c hc => h c (by simp [hc]))]

theorem dropWhile_append_stop {α : Type} {p : α → Bool} {l : List α} {a : α} (r : List α)
    (h : ∀ c ∈ l, p c = true) (ha : p a = false) : (l ++ a :: r).dropWhile p = a :: r := by
  induction l with
  | nil => simp [ha]
  | cons b bs ih =>
    simp only [List.cons_append, List.dropWhile, h b (by simp)]
    rw [ih (fun c hc => h c (by simp [hc]))]

theorem pyStrip_noSpace {s : Str} (h : NoSpace s) : pyStrip s = s := by
  unfold pyStrip
  rw [dropWhile_none h, dropWhile_none (fun c hc => h c (by simpa using hc)), List.reverse_reverse]

theorem all_isDig_mem {s : Str} (h : s.all isDig = true) {c : Char} (hc : c ∈ s) : isDig c = true :=
  List.all_eq_true.mp h c hc

theorem natStr_noSpace (n : Nat) : NoSpace (natStr n) :=
  fun _ hc => dig_not_space (all_isDig_mem (natStr_dig n) hc)

theorem dig_ne {c a : Char} (h : isDig c = true) (ha : isDig a = false) : c ≠ a := by
  rintro rfl; rw [h] at ha; cases ha

/-- `int(str(n))` -/
theorem pyInt_natStr (n : Nat) : pyInt (natStr n) = .ok (n : Int) := by
  unfold pyInt
  rw [pyStrip_noSpace (natStr_noSpace n)]
  have hne := natStr_ne n
  have hd := natStr_dig n
  have hv := digitsVal_natStr n
  generalize natStr n = s at *
  match s, hne with
  | c :: cs, _ =>
    have hc : isDig c = true := all_isDig_mem hd (by simp)
    have h1 : c ≠ '-' := dig_ne hc rfl
    have h2 : c ≠ '+' := dig_ne hc rfl
    split
    · rename_i heq; cases heq; exact absurd rfl h1
    · rename_i heq; cases heq; exact absurd rfl h2
    · rw [if_pos ⟨by simp, hd⟩, hv]

theorem intStr_noSpace (i : Int) : NoSpace (intStr i) := by
  unfold intStr
  split
  · intro c hc
    rcases List.mem_cons.mp hc with rfl | hc
    · rfl
    · exact natStr_noSpace _ c hc
  · exact natStr_noSpace _

theorem intStr_ne (i : Int) : intStr i ≠ [] := by
  unfold intStr; split
  · simp
  · exact natStr_ne _

/-- `int(str(i))` -/
theorem pyInt_intStr (i : Int) : pyInt (intStr i) = .ok i := by
  by_cases h : i < 0
  · have e : intStr i = '-' :: natStr i.natAbs := by simp [intStr, h]
    unfold pyInt
    rw [pyStrip_noSpace (intStr_noSpace i), e]
    simp only [ne_eq, natStr_ne, not_false_eq_true, natStr_dig, and_self, if_true, digitsVal_natStr]
    congr 1; omega
  · have e : intStr i = natStr i.natAbs := by simp [intStr, h]
    rw [e, pyInt_natStr]; congr 1; omega

variable {K : Type} [Field K] [LinearOrder K] [IsStrictOrderedRing K] [FloorRing K]

/-! ### rounding -/

theorem roundEven_bounds {x : K} (hx : 0 ≤ x) :
    |((roundEven x : Nat) : K) - x| ≤ 1 / 2 := by
  have hf : 0 ≤ ⌊x⌋ := Int.floor_nonneg.mpr hx
  have e : ((⌊x⌋.toNat : Nat) : K) = ((⌊x⌋ : Int) : K) := by
    have : ((⌊x⌋.toNat : Nat) : Int) = ⌊x⌋ := Int.toNat_of_nonneg hf
    exact_mod_cast congrArg (fun i : Int => (i : K)) this
  have h1 := Int.floor_le x
  have h2 := Int.lt_floor_add_one x
  unfold roundEven
  simp only [e]
  rw [abs_le]
  split
  · rw [e]; constructor <;> linarith
  · split
    · rw [Nat.cast_add, e]; push_cast; constructor <;> linarith
    · split
      · rw [e]; constructor <;> linarith
      · rw [Nat.cast_add, e]; push_cast; constructor <;> linarith

theorem roundEven_of_nat (n : Nat) : roundEven ((n : Nat) : K) = n := by
  unfold roundEven
  simp

/-- the decimal number `'%.df' % x` denotes -/
def roundTo (d : Nat) (x : K) : K :=
  let n : K := (roundEven (|x| * 10 ^ d) : Nat)
  if x < 0 then -(n / 10 ^ d) else n / 10 ^ d

theorem roundTo_close (d : Nat) (x : K) : |roundTo d x - x| ≤ 1 / (2 * 10 ^ d) := by
  have hp : (0 : K) < 10 ^ d := by positivity
  have h := roundEven_bounds (x := |x| * 10 ^ d) (by positivity)
  have key : |(((roundEven (|x| * 10 ^ d) : Nat) : K) / 10 ^ d) - (|x|)| ≤ 1 / (2 * 10 ^ d) := by
    have e : (((roundEven (|x| * 10 ^ d) : Nat) : K) / 10 ^ d) - (|x|)
        = (((roundEven (|x| * 10 ^ d) : Nat) : K) - |x| * 10 ^ d) / 10 ^ d := by
      field_simp
    rw [e, abs_div, abs_of_pos hp, div_le_div_iff₀ hp (by positivity)]
    nlinarith
  unfold roundTo
  simp only
  split
  · rename_i hx
    rw [abs_of_neg hx] at key ⊢
    rw [← abs_neg]
    convert key using 2; ring
  · rename_i hx
    rw [abs_of_nonneg (not_lt.mp hx)] at key ⊢
    exact key

/-! ### formatting and parsing -/

theorem digits_dropWhile {s : Str} (h : s.all isDig = true) : s.dropWhile isDig = [] :=
  dropWhile_all (fun _ hc => all_isDig_mem h hc)

theorem parseDec_fixed (a b : Str) (ha : a.all isDig = true) (hb : b.all isDig = true) (hne : a ≠ []) :
    (parseDec (a ++ '.' :: b) : Option K)
      = some ((digitsVal a : K) + (digitsVal b : K) / 10 ^ b.length) := by
  unfold parseDec
  rw [takeWhile_append_stop b (fun _ hc => all_isDig_mem ha hc) (by rfl),
    dropWhile_append_stop b (fun _ hc => all_isDig_mem ha hc) (by rfl)]
  simp [hb, hne]

theorem parseExp_noExp {s : Str} (h : ∀ c ∈ s, isExp c = false) :
    (parseExp s : Option K) = parseDec s := by
  unfold parseExp
  rw [dropWhile_all (fun c hc => by simp [h c hc])]

theorem dig_not_exp {c : Char} (h : isDig c = true) : isExp c = false := by
  have h1 : c ≠ 'e' := dig_ne h rfl
  have h2 : c ≠ 'E' := dig_ne h rfl
  simp [isExp, h1, h2]

/-- characters of a formatted number -/
def numChar (c : Char) : Bool := isDig c || c == '.' || c == '-'

theorem fmtFixed_chars (d : Nat) (x : K) : ∀ c ∈ fmtFixed d x, numChar c = true := by
  intro c hc
  simp only [fmtFixed, List.mem_append, List.mem_cons] at hc
  rcases hc with (hc | hc) | rfl | hc
  · split at hc
    · simp at hc; subst hc; rfl
    · simp at hc
  · simp [numChar, all_isDig_mem (natStr_dig _) hc]
  · rfl
  · simp [numChar, all_isDig_mem (fixStr_dig _ _) hc]

theorem fmtFixed_ne (d : Nat) (x : K) : fmtFixed d x ≠ [] := by
  simp [fmtFixed]

theorem fmtFixed_dot (d : Nat) (x : K) : '.' ∈ fmtFixed d x := by simp [fmtFixed]

theorem numChar_ne {c a : Char} (h : numChar c = true) (ha : numChar a = false) : c ≠ a := by
  rintro rfl; rw [h] at ha; cases ha

theorem numChar_not_space {c : Char} (h : numChar c = true) : pySpace c = false := by
  simp only [numChar, Bool.or_eq_true, beq_iff_eq] at h
  rcases h with (h | rfl) | rfl
  · exact dig_not_space h
  · rfl
  · rfl

theorem fmtFixed_noSpace (d : Nat) (x : K) : NoSpace (fmtFixed d x) :=
  fun c hc => numChar_not_space (fmtFixed_chars d x c hc)

/-- reading a formatted number gives the rounded number -/
theorem parseNum_fmtFixed (d : Nat) (x : K) :
    (parseNum (fmtFixed d x) : Option K) = some (roundTo d x) := by
  set n := roundEven (|x| * 10 ^ d) with hn
  have body : (parseExp (natStr (n / 10 ^ d) ++ '.' :: fixStr d (n % 10 ^ d)) : Option K)
      = some ((n : K) / 10 ^ d) := by
    rw [parseExp_noExp, parseDec_fixed _ _ (natStr_dig _) (fixStr_dig _ _) (natStr_ne _),
      digitsVal_natStr, digitsVal_fixStr, fixStr_length, Nat.mod_mod]
    · congr 1
      have hp : (10 : K) ^ d ≠ 0 := by positivity
      have e : ((n : Nat) : K) = ((10 ^ d * (n / 10 ^ d) + n % 10 ^ d : Nat) : K) := by
        rw [Nat.div_add_mod]
      conv_rhs => rw [e]
      push_cast
      field_simp
    · intro c hc
      simp only [List.mem_append, List.mem_cons] at hc
      rcases hc with hc | rfl | hc
      · exact dig_not_exp (all_isDig_mem (natStr_dig _) hc)
      · rfl
      · exact dig_not_exp (all_isDig_mem (fixStr_dig _ _) hc)
  unfold fmtFixed roundTo
  simp only [← hn]
  split
  · rename_i hx
    simp only [List.cons_append, List.nil_append, parseNum, body, Option.map_some]
  · have hc : ∃ c cs, natStr (n / 10 ^ d) = c :: cs ∧ isDig c = true := by
      have h1 := natStr_ne (n / 10 ^ d)
      have h2 := natStr_dig (n / 10 ^ d)
      match h : natStr (n / 10 ^ d), h1 with
      | c :: cs, _ => exact ⟨c, cs, rfl, all_isDig_mem (h ▸ h2) (by simp)⟩
    obtain ⟨c, cs, e, hd⟩ := hc
    simp only [List.nil_append]
    rw [e] at body ⊢
    simp only [List.cons_append] at body ⊢
    unfold parseNum
    split
    · rename_i heq; cases heq; exact absurd rfl (dig_ne hd rfl)
    · rename_i heq; cases heq; exact absurd rfl (dig_ne hd rfl)
    · exact body

theorem na_numChar {s : Str} (hs : s ∈ naStrings) : '.' ∉ s := by
  revert s; decide

/-- a formatted cell is read back rounded -/
theorem cellNum_fmtFixed (d : Nat) (x : K) :
    (cellNum (fmtFixed d x) : Except Err (Option K)) = .ok (some (roundTo d x)) := by
  unfold cellNum
  rw [pyStrip_noSpace (fmtFixed_noSpace d x), if_neg (fun h => na_numChar h (fmtFixed_dot d x)),
    parseNum_fmtFixed]

theorem cellNum_fmtCell (d : Nat) (x : Option K) :
    (cellNum (fmtCell d x) : Except Err (Option K)) = .ok (x.map (roundTo d)) := by
  cases x with
  | none => rfl
  | some a => exact cellNum_fmtFixed d a

theorem fmtCell_chars (d : Nat) (x : Option K) : ∀ c ∈ fmtCell d x, numChar c = true := by
  cases x with
  | none => intro c hc; simp [fmtCell] at hc
  | some a => exact fmtFixed_chars d a

/-! ### splitting and joining -/

theorem pySplitOnAux_noSep {sep : Char} : ∀ (s acc : Str), sep ∉ s →
    pySplitOnAux sep s acc = [acc ++ s]
  | [], acc, _ => by simp [pySplitOnAux]
  | c :: cs, acc, h => by
    have hc : c ≠ sep := fun e => h (by simp [e])
    simp only [pySplitOnAux, hc, if_false]
    rw [pySplitOnAux_noSep cs _ (fun hm => h (by simp [hm]))]
    simp

theorem pySplitOnAux_sep {sep : Char} : ∀ (s r acc : Str), sep ∉ s →
    pySplitOnAux sep (s ++ sep :: r) acc = (acc ++ s) :: pySplitOnAux sep r []
  | [], r, acc, _ => by simp [pySplitOnAux]
  | c :: cs, r, acc, h => by
    have hc : c ≠ sep := fun e => h (by simp [e])
    simp only [List.cons_append, pySplitOnAux, hc, if_false]
    rw [pySplitOnAux_sep cs r _ (fun hm => h (by simp [hm]))]
    simp

/-- `sep.join(parts).split(sep)` -/
theorem pySplitOn_join {sep : Char} : ∀ {parts : List Str}, parts ≠ [] → (∀ p ∈ parts, sep ∉ p) →
    pySplitOn sep (pyJoin [sep] parts) = parts
  | [], h, _ => absurd rfl h
  | [p], _, h => by
    simp only [pyJoin, pySplitOn]
    rw [pySplitOnAux_noSep _ _ (h p (by simp))]; simp
  | p :: q :: ps, _, h => by
    have ih := pySplitOn_join (sep := sep) (parts := q :: ps) (by simp)
      (fun r hr => h r (by simp at hr ⊢; tauto))
    simp only [pyJoin, pySplitOn, List.append_assoc, List.singleton_append] at ih ⊢
    rw [pySplitOnAux_sep _ _ _ (h p (by simp)), ih]; simp

theorem mem_pyJoin {sep : Str} {c : Char} : ∀ {parts : List Str}, c ∈ pyJoin sep parts →
    c ∈ sep ∨ ∃ p ∈ parts, c ∈ p
  | [], h => by simp [pyJoin] at h
  | [p], h => Or.inr ⟨p, by simp, h⟩
  | p :: q :: ps, h => by
    simp only [pyJoin, List.mem_append] at h
    rcases h with (h | h) | h
    · exact Or.inr ⟨p, by simp, h⟩
    · exact Or.inl h
    · rcases mem_pyJoin h with h | ⟨r, hr, hc⟩
      · exact Or.inl h
      · exact Or.inr ⟨r, List.mem_cons_of_mem _ hr, hc⟩

theorem pySplitAux_space {sp : Char} (hsp : pySpace sp = true) : ∀ (a b acc : Str),
    pySplitAux (a ++ sp :: b) acc = pySplitAux a acc ++ pySplitAux b []
  | [], b, acc => by
    simp only [List.nil_append, pySplitAux, hsp, if_true]
    by_cases h : acc = [] <;> simp [h]
  | c :: cs, b, acc => by
    simp only [List.cons_append, pySplitAux]
    by_cases hc : pySpace c = true
    · simp only [hc, if_true]
      by_cases h : acc = []
      · simp only [h, if_true]; exact pySplitAux_space hsp cs b []
      · simp only [h, if_false, List.cons_append]; rw [pySplitAux_space hsp cs b []]
    · simp only [Bool.not_eq_true] at hc
      simp only [hc, Bool.false_eq_true, if_false]
      exact pySplitAux_space hsp cs b _

theorem pySplit_space {sp : Char} (hsp : pySpace sp = true) (a b : Str) :
    pySplit (a ++ sp :: b) = pySplit a ++ pySplit b := pySplitAux_space hsp a b []

theorem pySplitAux_noSpace : ∀ (s acc : Str), NoSpace s →
    pySplitAux s acc = if acc ++ s = [] then [] else [acc ++ s]
  | [], acc, _ => by simp [pySplitAux]
  | c :: cs, acc, h => by
    have hc := h c (by simp)
    simp only [pySplitAux, hc, Bool.false_eq_true, if_false]
    rw [pySplitAux_noSpace cs _ (fun d hd => h d (by simp [hd]))]
    simp

theorem pySplit_word {s : Str} (h : NoSpace s) (hne : s ≠ []) : pySplit s = [s] := by
  unfold pySplit
  rw [pySplitAux_noSpace s [] h]; simp [hne]

/-! ### lines -/

/-- no end of line in the string -/
def OneLine (s : Str) : Prop := ∀ c ∈ s, c ≠ '\n' ∧ c ≠ '\r'

theorem newlines_oneLine : ∀ (l r : Str), OneLine l → l ≠ [] → ∀ cr,
    newlines cr (l ++ r) = l ++ newlines false r
  | [c], r, h, _, cr => by
    obtain ⟨h1, h2⟩ := h c (by simp)
    simp [newlines, h1, h2]
  | c :: d :: l, r, h, _, cr => by
    obtain ⟨h1, h2⟩ := h c (by simp)
    have := newlines_oneLine (d :: l) r (fun x hx => h x (List.mem_cons_of_mem _ hx)) (by simp) false
    simp only [List.cons_append] at this ⊢
    rw [newlines]
    simp only [h1, h2, if_false, false_and]
    rw [this]

theorem newlines_oneLine' (l r : Str) (h : OneLine l) :
    newlines false (l ++ r) = l ++ newlines false r := by
  cases l with
  | nil => rfl
  | cons c l => exact newlines_oneLine _ r h (by simp) false

theorem linesAux_prefix {brk : Char → Bool} : ∀ (l r acc : Str), (∀ c ∈ l, brk c = false) →
    linesAux brk (l ++ r) acc = linesAux brk r (acc ++ l)
  | [], r, acc, _ => by simp
  | c :: l, r, acc, h => by
    simp only [List.cons_append, linesAux, h c (by simp), Bool.false_eq_true, if_false]
    rw [linesAux_prefix l r _ (fun d hd => h d (by simp [hd]))]
    simp

theorem OneLine.nl {l : Str} (h : OneLine l) : ∀ c ∈ l, (c == '\n') = false :=
  fun c hc => by simp [(h c hc).1]

/-- the first line of a file -/
theorem fileLines_cons {l : Str} (h : OneLine l) (r : Str) :
    fileLines (l ++ '\n' :: r) = l :: fileLines r := by
  unfold fileLines
  rw [newlines_oneLine' l _ h]
  have : newlines false ('\n' :: r) = '\n' :: newlines false r := by
    simp [newlines]
  rw [this, linesAux_prefix l _ _ h.nl]
  simp [linesAux]

/-- the first line, ended by `\r\n` -/
theorem fileLines_cons_crlf {l : Str} (h : OneLine l) (r : Str) :
    fileLines (l ++ '\r' :: '\n' :: r) = l :: fileLines r := by
  unfold fileLines
  rw [newlines_oneLine' l _ h]
  have : newlines false ('\r' :: '\n' :: r) = '\n' :: newlines false r := by
    simp [newlines]
  rw [this, linesAux_prefix l _ _ h.nl]
  simp [linesAux]

theorem fileLines_nil : fileLines [] = [] := rfl

/-- the text of some lines -/
def linesText (ls : List Str) : Str := (ls.map (fun l => l ++ ['\n'])).flatten

theorem fileLines_linesText : ∀ {ls : List Str}, (∀ l ∈ ls, OneLine l) → ∀ r,
    fileLines (linesText ls ++ r) = ls ++ fileLines r
  | [], _, r => by simp [linesText]
  | l :: ls, h, r => by
    have ih := fileLines_linesText (ls := ls) (fun x hx => h x (by simp [hx])) r
    have e : linesText (l :: ls) ++ r = l ++ '\n' :: (linesText ls ++ r) := by simp [linesText]
    rw [e, fileLines_cons (h l (by simp)), ih]; simp

theorem space_of_break {c : Char} (h : c = '\n' ∨ c = '\r') : pySpace c = true := by
  rcases h with rfl | rfl <;> rfl

theorem NoSpace.oneLine {s : Str} (h : NoSpace s) : OneLine s := by
  intro c hc
  constructor
  · rintro rfl; have := h _ hc; cases this
  · rintro rfl; have := h _ hc; cases this

theorem oneLine_append {a b : Str} : OneLine (a ++ b) ↔ OneLine a ∧ OneLine b := by
  simp only [OneLine, List.mem_append]
  constructor
  · exact fun h => ⟨fun c hc => h c (Or.inl hc), fun c hc => h c (Or.inr hc)⟩
  · rintro ⟨h1, h2⟩ c (hc | hc)
    · exact h1 c hc
    · exact h2 c hc

/-! ### csv tables -/

theorem csvRows_eq (rows : List (List Str)) : csvRows rows = linesText (rows.map (pyJoin [','])) := by
  simp only [csvRows, linesText, List.map_map]; rfl

theorem stripComment_none {l : Str} (h : '#' ∉ l) : stripComment l = l :=
  takeWhile_all (fun c hc => by
    have : c ≠ '#' := fun e => h (e ▸ hc)
    simp [this])

theorem stripComment_comment (l : Str) : stripComment ('#' :: l) = [] := by
  simp [stripComment]

/-- a plain cell: nothing in it that ends a cell, a row or starts a comment, no white space -/
structure PlainCell (c : Str) : Prop where
  noSpace : NoSpace c
  noComma : ',' ∉ c
  noHash : '#' ∉ c

theorem plain_fmtCell (d : Nat) (x : Option K) : PlainCell (fmtCell d x) where
  noSpace := fun c hc => numChar_not_space (fmtCell_chars d x c hc)
  noComma := fun h => numChar_ne (fmtCell_chars d x _ h) (a := ',') (by rfl) rfl
  noHash := fun h => numChar_ne (fmtCell_chars d x _ h) (a := '#') (by rfl) rfl

theorem join_oneLine {cells : List Str} (h : ∀ c ∈ cells, PlainCell c) :
    OneLine (pyJoin [','] cells) := by
  intro c hc
  rcases mem_pyJoin hc with hc | ⟨p, hp, hc⟩
  · simp at hc; subst hc; exact ⟨by decide, by decide⟩
  · exact (h p hp).noSpace.oneLine c hc

theorem join_noHash {cells : List Str} (h : ∀ c ∈ cells, PlainCell c) :
    '#' ∉ pyJoin [','] cells := by
  intro hc
  rcases mem_pyJoin hc with hc | ⟨p, hp, hc⟩
  · simp at hc
  · exact (h p hp).noHash hc

/-- a comma-separated row with at least two cells is not blank -/
theorem join_notBlank : ∀ {cells : List Str}, 2 ≤ cells.length →
    (pyJoin [','] cells).all pySpace = false
  | a :: b :: cs, _ => by
    simp only [pyJoin, List.all_append, Bool.and_eq_false_iff]
    exact Or.inl (Or.inr (by decide))

/-- what pandas sees of a file: header comments followed by rows of plain cells -/
theorem dataLines_file {hdr : List Str} {rows : List (List Str)}
    (hh : ∀ l ∈ hdr, OneLine l ∧ ∃ r, l = '#' :: r)
    (hr : ∀ row ∈ rows, 2 ≤ row.length ∧ ∀ c ∈ row, PlainCell c) :
    dataLines (linesText hdr ++ csvRows rows) = rows.map (pyJoin [',']) := by
  unfold dataLines
  rw [fileLines_linesText (fun l hl => (hh l hl).1), csvRows_eq]
  have e := fileLines_linesText (ls := rows.map (pyJoin [',']))
    (by intro l hl; obtain ⟨row, hrow, rfl⟩ := List.mem_map.mp hl; exact join_oneLine (hr row hrow).2) []
  rw [List.append_nil, fileLines_nil, List.append_nil] at e
  rw [e, List.map_append, List.filter_append]
  have h1 : (hdr.map stripComment).filter (fun l => !l.all pySpace) = [] := by
    rw [List.filter_eq_nil_iff]
    intro l hl
    obtain ⟨x, hx, rfl⟩ := List.mem_map.mp hl
    obtain ⟨-, r, rfl⟩ := hh x hx
    simp [stripComment_comment]
  rw [h1, List.nil_append]
  have h2 : (rows.map (pyJoin [','])).map stripComment = rows.map (pyJoin [',']) := by
    rw [List.map_map]
    apply List.map_congr_left
    intro row hrow
    exact stripComment_none (join_noHash (hr row hrow).2)
  rw [h2]
  apply List.filter_eq_self.mpr
  intro l hl
  obtain ⟨row, hrow, rfl⟩ := List.mem_map.mp hl
  rw [join_notBlank (hr row hrow).1]; rfl

theorem rectangular_ok {w : Nat} {rows : List (List Str)} (hne : rows ≠ [])
    (h : ∀ r ∈ rows, r.length = w) : rectangular rows = .ok rows := by
  cases rows with
  | nil => exact absurd rfl hne
  | cons r rs =>
    have hr := h r (by simp)
    have hall : rs.all (fun q => decide (q.length ≤ r.length)) = true := by
      rw [List.all_eq_true]
      intro q hq
      have := h q (by simp [hq])
      simp; omega
    simp only [rectangular]
    rw [if_pos hall]
    congr 2
    conv_rhs => rw [← List.map_id rs]
    apply List.map_congr_left
    intro q hq
    have := h q (by simp [hq])
    simp [this, hr]

/-- reading a file of header comments and rows of plain cells gives the rows -/
theorem readCsv_file {hdr : List Str} {rows : List (List Str)} {w : Nat}
    (hh : ∀ l ∈ hdr, OneLine l ∧ ∃ r, l = '#' :: r) (hw : 2 ≤ w) (hne : rows ≠ [])
    (hl : ∀ row ∈ rows, row.length = w) (hp : ∀ row ∈ rows, ∀ c ∈ row, PlainCell c) :
    readCsv ',' (linesText hdr ++ csvRows rows) = .ok rows := by
  unfold readCsv
  rw [dataLines_file hh (fun row hr => ⟨by rw [hl row hr]; exact hw, hp row hr⟩), List.map_map]
  have : rows.map (pySplitOn ',' ∘ pyJoin [',']) = rows := by
    conv_rhs => rw [← List.map_id rows]
    apply List.map_congr_left
    intro row hr
    exact pySplitOn_join (by intro e; have := hl row hr; rw [e] at this; simp at this; omega)
      (fun c hc => (hp row hr c hc).noComma)
  rw [this]
  exact rectangular_ok hne hl

end TC
