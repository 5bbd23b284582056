import Verif.Spec.Header
import Verif.Proofs.TrajFile
import Mathlib.Data.Nat.Digits.Lemmas
/-!
# C89: the values of header settings
-/
namespace TC
set_option linter.unusedSectionVars false
set_option linter.unusedSimpArgs false
variable {K : Type} [Field K] [LinearOrder K] [IsStrictOrderedRing K] [FloorRing K]

/-! ### numbers -/

theorem digitsVal_decimal (ds : Str) : digitsVal ds = decimal ds := by
  induction ds using List.reverseRecOn with
  | nil => rfl
  | append_singleton s c ih =>
    rw [digitsVal_snoc, ih]
    unfold decimal
    rw [List.reverse_append]
    simp only [List.reverse_cons, List.reverse_nil, List.nil_append, List.map_append, List.map_cons,
      List.map_nil, List.singleton_append, Nat.ofDigits_cons]
    have : '0'.toNat = 48 := rfl
    rw [this]
    ring

theorem Digits.all {ds : Str} (h : Digits ds) : ds.all isDig = true := by
  rw [List.all_eq_true]
  intro c hc
  have := h.2 c hc
  have h0 : '0'.toNat = 48 := rfl
  have h9 : '9'.toNat = 57 := rfl
  rw [h0, h9] at this
  simp [isDig, this]

theorem Digits.noSpace {ds : Str} (h : Digits ds) : NoSpace ds :=
  fun _ hc => dig_not_space (all_isDig_mem h.all hc)

theorem IntText.noSpace {s : Str} {n : Int} (h : IntText s n) : NoSpace s := by
  have aux : ∀ {a : Char} {ds : Str}, pySpace a = false → Digits ds → NoSpace (a :: ds) := by
    intro a ds ha h c hc
    rcases List.mem_cons.mp hc with rfl | hc
    · exact ha
    · exact h.noSpace c hc
  cases h with
  | plain h => exact h.noSpace
  | plus h => exact aux rfl h
  | minus h => exact aux rfl h

theorem IntText.pyInt {s : Str} {n : Int} (h : IntText s n) : pyInt s = .ok n := by
  unfold TC.pyInt
  rw [pyStrip_noSpace h.noSpace]
  cases h with
  | plain h =>
    have hne : ∀ c r, s = c :: r → c ≠ '-' ∧ c ≠ '+' := by
      rintro c r rfl
      have := all_isDig_mem h.all (List.mem_cons_self (a := c) (l := r))
      exact ⟨dig_ne this rfl, dig_ne this rfl⟩
    split
    · exact absurd rfl (hne _ _ rfl).1
    · exact absurd rfl (hne _ _ rfl).2
    · rw [if_pos ⟨h.1, h.all⟩, digitsVal_decimal]
  | plus h => simp only; rw [if_pos ⟨h.1, h.all⟩, digitsVal_decimal]
  | minus h => simp only; rw [if_pos ⟨h.1, h.all⟩, digitsVal_decimal]

theorem DecText.noExp {s : Str} {x : K} (h : DecText s x) : ∀ c ∈ s, isExp c = false := by
  have dig : ∀ {ds : Str}, Digits ds → ∀ c ∈ ds, isExp c = false :=
    fun h _ hc => dig_not_exp (all_isDig_mem h.all hc)
  cases h with
  | int h => exact dig h
  | dot h =>
    intro c hc
    rcases List.mem_append.mp hc with hc | hc
    · exact dig h c hc
    · simp at hc; subst hc; rfl
  | frac h1 h2 =>
    intro c hc
    rcases List.mem_append.mp hc with hc | hc
    · rcases h1 with rfl | h1
      · cases hc
      · exact dig h1 c hc
    · rcases List.mem_cons.mp hc with rfl | hc
      · rfl
      · exact dig h2 c hc

theorem DecText.parse {s : Str} {x : K} (h : DecText s x) : (parseDec s : Option K) = some x := by
  cases h with
  | int h =>
    unfold parseDec
    simp only
    rw [digits_dropWhile h.all, takeWhile_all (fun c hc => all_isDig_mem h.all hc)]
    simp only
    rw [if_neg h.1, digitsVal_decimal]
  | dot h =>
    rename_i ds
    have := parseDec_fixed (K := K) ds [] h.all rfl h.1
    rw [this]
    simp [digitsVal_decimal, decimal]
  | frac h1 h2 =>
    rename_i ds fs
    rcases h1 with rfl | h1
    · unfold parseDec
      have e1 : (([] : Str) ++ '.' :: fs).dropWhile isDig = '.' :: fs := rfl
      have e2 : (([] : Str) ++ '.' :: fs).takeWhile isDig = [] := rfl
      simp only [e1, e2]
      rw [if_pos ⟨h2.all, fun h => h2.1 h.2⟩, digitsVal_decimal, digitsVal_decimal]
    · rw [parseDec_fixed ds fs h1.all h2.all h1.1, digitsVal_decimal, digitsVal_decimal]

theorem ExpText.parse {s : Str} {x : K} (h : ExpText s x) : (parseExp s : Option K) = some x := by
  cases h with
  | plain h => rw [parseExp_noExp h.noExp, h.parse]
  | exp h hc he =>
    rename_i s e x k c
    have hexp : isExp c = true := by rcases hc with rfl | rfl <;> rfl
    unfold parseExp
    have hs : ∀ a ∈ s, (!isExp a) = true := fun a ha => by simp [h.noExp a ha]
    rw [dropWhile_append_stop e hs (by simp [hexp]), takeWhile_append_stop e hs (by simp [hexp])]
    simp only [h.parse, he.pyInt]

theorem DecText.head {s : Str} {x : K} (h : DecText s x) : ∀ c r, s = c :: r → c ≠ '-' ∧ c ≠ '+' := by
  have dig : ∀ {ds : Str} {c : Char}, Digits ds → c ∈ ds → c ≠ '-' ∧ c ≠ '+' := by
    intro ds c h hc
    have := all_isDig_mem h.all hc
    exact ⟨dig_ne this rfl, dig_ne this rfl⟩
  rintro c r rfl
  generalize hs : c :: r = s at h
  cases h with
  | int h => rw [← hs] at h; exact dig h (by simp)
  | dot h =>
    rename_i ds
    cases ds with
    | nil => exact absurd rfl h.1
    | cons a as =>
      simp only [List.cons_append, List.cons.injEq] at hs
      rw [hs.1]; exact dig h (by simp)
  | frac h1 h2 =>
    rename_i ds fs
    cases ds with
    | nil => simp only [List.nil_append, List.cons.injEq] at hs; rw [hs.1]; decide
    | cons a as =>
      simp only [List.cons_append, List.cons.injEq] at hs
      rcases h1 with h1 | h1
      · cases h1
      · rw [hs.1]; exact dig h1 (by simp)

theorem DecText.ne {s : Str} {x : K} (h : DecText s x) : s ≠ [] := by
  cases h with
  | int h => exact h.1
  | dot h => simp
  | frac _ _ => simp

theorem NumText.parse {s : Str} {x : K} (h : NumText s x) : (parseNum s : Option K) = some x := by
  cases h with
  | plain h =>
    have hne : ∀ c r, s = c :: r → c ≠ '-' ∧ c ≠ '+' := by
      cases h with
      | plain h => exact h.head
      | exp h hc he =>
        rename_i s e x k c
        intro a r e'
        cases s with
        | nil => exact absurd rfl h.ne
        | cons b bs =>
          simp only [List.cons_append, List.cons.injEq] at e'
          rw [← e'.1]; exact h.head b bs rfl
    unfold parseNum
    split
    · exact absurd rfl (hne _ _ rfl).1
    · exact absurd rfl (hne _ _ rfl).2
    · exact h.parse
  | plus h => unfold parseNum; exact h.parse
  | minus h => unfold parseNum; simp only [h.parse, Option.map_some]

/-! ### lines -/

theorem setting_mem {key : Str} (h : key ∈ allSettings) : key ∈ headerKeys := by
  have : ∀ k ∈ allSettings, k ∈ headerKeys := by decide
  exact this key h

theorem setting_noSpace {key : Str} (h : key ∈ allSettings) : NoSpace key := by
  have : ∀ k ∈ allSettings, ∀ c ∈ k, pySpace c = false := by decide
  exact this key h

/-- the value of a setting is the one its last line gives -/
theorem lastHeader_value {content key rest : Str} {m : HMeta K} (h : headerFromFile content = .ok m)
    (hk : key ∈ allSettings) (hl : LastHeader content key rest) :
    ∃ v, lineHandler key ('#' :: key ++ rest) = .ok v ∧ m.get key = some v := by
  obtain ⟨hr, pre, post, e, hp⟩ := hl
  exact (C89_last_value h key).2.2 (setting_mem hk) pre _ post e ⟨setting_noSpace hk, rest, rfl, hr⟩ hp

theorem split_header {key rest : Str} (hk : NoSpace key) (hr : ∀ c r, rest = c :: r → pySpace c = true)
    {ws : List Str} (hws : Words rest ws) : pySplit ('#' :: key ++ rest) = ('#' :: key) :: ws := by
  have : Words ([] ++ ('#' :: key) ++ rest) (('#' :: key) :: ws) :=
    .word (by simp) (by simp)
      (by intro c hc
          rcases List.mem_cons.mp hc with rfl | hc
          · rfl
          · exact hk c hc) hr hws
  exact words_split this

/-- **C89.** Each of the fourteen text settings has as its value the words of its last line, joined by single
blanks; the name, the frame (in lower case), the rotation unit, the date format and the time zone are these
words, the fields are the comma separated parts of it. -/
theorem C89_text_settings {content key rest : Str} {ws : List Str} {m : HMeta K}
    (h : headerFromFile content = .ok m) (hk : key ∈ textSettings) (hl : LastHeader content key rest)
    (hws : Words rest ws) :
    m.get key = some (.str (List.intercalate [' '] ws)) ∧
    (key = "name".toList → m.name = List.intercalate [' '] ws) ∧
    (key = "rot_unit".toList → m.rotUnit = List.intercalate [' '] ws) ∧
    (key = "nframe".toList → m.nframe = (List.intercalate [' '] ws).map Char.toLower) ∧
    (key = "datetime_format".toList → m.datetimeFormat = List.intercalate [' '] ws) ∧
    (key = "datetime_timezone".toList → m.datetimeTimezone = List.intercalate [' '] ws) ∧
    (key = "fields".toList → ∀ fs : List Str, fs ≠ [] → (∀ f ∈ fs, ',' ∉ f) →
      List.intercalate [' '] ws = List.intercalate [','] fs → m.fields = fs) := by
  have hall : key ∈ allSettings := List.mem_append_left _ hk
  obtain ⟨v, hv, hg⟩ := lastHeader_value h hall hl
  have hnum : key ≠ "epsg".toList ∧ key ≠ "gps_week".toList ∧ key ≠ "time_offset".toList ∧
      key ≠ "delimiter".toList := by
    have : ∀ k ∈ textSettings, k ≠ "epsg".toList ∧ k ≠ "gps_week".toList ∧ k ≠ "time_offset".toList ∧
      k ≠ "delimiter".toList := by decide
    exact this key hk
  have e : m.get key = some (.str (List.intercalate [' '] ws)) := by
    unfold lineHandler at hv
    rw [if_neg (by tauto), if_neg hnum.2.2.1, if_neg hnum.2.2.2] at hv
    unfold defaultLineHandler at hv
    rw [split_header (setting_noSpace hall) hl.1 hws, List.tail_cons, pyJoin_intercalate] at hv
    cases hv
    exact hg
  have one : ∀ (k d : String), key = k.toList → m.strOr k d = List.intercalate [' '] ws := by
    intro k d hkd
    unfold HMeta.strOr
    rw [← hkd, e]
  refine ⟨e, one _ _, one _ _, ?_, one _ _, one _ _, ?_⟩
  · intro hk'
    unfold HMeta.nframe
    rw [one _ _ hk']; rfl
  · intro hk' fs hne hc hj
    unfold HMeta.fields
    rw [one _ _ hk', hj]
    have : List.intercalate [','] fs = pyJoin [','] fs := by
      clear hj hc
      induction fs with
      | nil => exact absurd rfl hne
      | cons a as ih =>
        cases as with
        | nil => simp [pyJoin, List.intercalate]
        | cons b bs =>
          simp only [pyJoin, ← ih (by simp)]
          simp [List.intercalate]
    rw [this]
    exact pySplitOn_join hne hc

/-- **C89.** The numeric settings: the first word after `#epsg`, `#gps_week` and `#time_offset` in the last such
line, if it is a number, is the EPSG code, the GPS week and the time offset.  (Further words are ignored.) -/
theorem C89_number_settings {content rest w : Str} {ws : List Str} {m : HMeta K}
    (h : headerFromFile content = .ok m) (hws : Words rest (w :: ws)) :
    (LastHeader content "epsg".toList rest → ∀ n, IntText w n → m.epsg = n) ∧
    (LastHeader content "gps_week".toList rest → ∀ n, IntText w n → ∀ now, m.gpsWeek now = n) ∧
    (LastHeader content "time_offset".toList rest → ∀ x : K, NumText w x → m.timeOffset = x) := by
  refine ⟨fun hl n hn => ?_, fun hl n hn now => ?_, fun hl x hx => ?_⟩
  · obtain ⟨v, hv, hg⟩ := lastHeader_value h (by decide) hl
    unfold lineHandler at hv
    rw [if_pos (Or.inl rfl)] at hv
    unfold integerLineHandler secondToken at hv
    rw [split_header (by unfold NoSpace; decide) hl.1 hws] at hv
    simp only [List.getElem?_cons_succ, List.getElem?_cons_zero, bind, Except.bind, hn.pyInt] at hv
    cases hv
    unfold HMeta.epsg HMeta.intOr
    rw [hg]
  · obtain ⟨v, hv, hg⟩ := lastHeader_value h (by decide) hl
    unfold lineHandler at hv
    rw [if_pos (Or.inr rfl)] at hv
    unfold integerLineHandler secondToken at hv
    rw [split_header (by unfold NoSpace; decide) hl.1 hws] at hv
    simp only [List.getElem?_cons_succ, List.getElem?_cons_zero, bind, Except.bind, hn.pyInt] at hv
    cases hv
    unfold HMeta.gpsWeek HMeta.intOr
    rw [hg]
  · obtain ⟨v, hv, hg⟩ := lastHeader_value h (by decide) hl
    unfold lineHandler at hv
    rw [if_neg (by decide), if_pos rfl] at hv
    unfold floatLineHandler secondToken at hv
    rw [split_header (by unfold NoSpace; decide) hl.1 hws] at hv
    simp only [List.getElem?_cons_succ, List.getElem?_cons_zero, bind, Except.bind, hx.parse] at hv
    cases hv
    unfold HMeta.timeOffset
    rw [hg]

/-- **C89.** The delimiter: the character between the quotation marks after `#delimiter` and one blank in the last
such line.  Without quotation marks there, and if the line does not contain the word again, it is a comma. -/
theorem C89_delimiter {content rest : Str} {m : HMeta K} (h : headerFromFile content = .ok m)
    (hl : LastHeader content "delimiter".toList rest) :
    (∀ a c b more, rest = ' ' :: a :: c :: b :: more → a ∈ ['\'', '"'] → b ∈ ['\'', '"'] → m.delimiter = c) ∧
    ((∀ a c b more, rest = ' ' :: a :: c :: b :: more → ¬ (a ∈ ['\'', '"'] ∧ b ∈ ['\'', '"'])) → '#' ∉ rest →
      m.delimiter = ',') := by
  obtain ⟨v, hv, hg⟩ := lastHeader_value h (by decide) hl
  unfold lineHandler at hv
  rw [if_neg (by decide), if_neg (by decide), if_pos rfl] at hv
  cases hv
  have hq : ∀ a : Char, isQuote a = true ↔ a ∈ ['\'', '"'] := by
    intro a; simp [isQuote]
  have key : ∀ d : Char, delimiterLineHandler ('#' :: "delimiter".toList ++ rest) = [d] → m.delimiter = d := by
    intro d hd
    unfold HMeta.delimiter HMeta.strOr
    rw [hg, hd]
  constructor
  · rintro a c b more rfl ha hb
    apply key
    unfold delimiterLineHandler searchDelimiter
    have : delimiterAt ('#' :: "delimiter".toList ++ ' ' :: a :: c :: b :: more) = some c := by
      have ha' := (hq a).mpr ha
      have hb' := (hq b).mpr hb
      simp [delimiterAt, ha', hb']
    simp only [List.cons_append] at this ⊢
    rw [this]
  · intro hno hhash
    apply key
    have none_of : ∀ s : Str, '#' ∉ s → searchDelimiter s = none := by
      intro s
      induction s with
      | nil => intro _; rfl
      | cons a as ih =>
        intro hs
        have ha : a ≠ '#' := fun e => hs (by simp [e])
        have : delimiterAt (a :: as) = none := by
          simp [delimiterAt, ha]
        unfold searchDelimiter
        rw [this]
        exact ih (fun h => hs (by simp [h]))
    have h0 : delimiterAt ('#' :: "delimiter".toList ++ rest) = none := by
      cases rest with
      | nil => rfl
      | cons s r =>
        by_cases hs : s = ' '
        · subst hs
          match r with
          | [] => rfl
          | [a] => rfl
          | [a, c] => rfl
          | a :: c :: b :: more =>
            have := hno a c b more rfl
            rw [← hq a, ← hq b] at this
            simp only [delimiterAt]
            rw [if_pos (by simp)]
            simp
            intro h1
            simpa using fun h2 => this ⟨h1, h2⟩
        · simp [delimiterAt, hs]
    unfold delimiterLineHandler
    have : searchDelimiter ('#' :: "delimiter".toList ++ rest) = none := by
      have e : ('#' :: "delimiter".toList ++ rest) = '#' :: ("delimiter".toList ++ rest) := rfl
      rw [e] at h0 ⊢
      unfold searchDelimiter
      rw [h0]
      apply none_of
      intro hm
      rcases List.mem_append.mp hm with hm | hm
      · exact absurd hm (by decide)
      · exact hhash hm
    rw [this]

/-- **C89.** The defaults: a setting without a line has its documented default value. -/
theorem C89_defaults {content : Str} {m : HMeta K} (h : headerFromFile content = .ok m) :
    (NoHeader content "name".toList → m.name = "Trajectory".toList) ∧
    (NoHeader content "epsg".toList → m.epsg = 0) ∧
    (NoHeader content "rot_unit".toList → m.rotUnit = "rad".toList) ∧
    (NoHeader content "fields".toList →
      m.fields = ["t", "px", "py", "pz", "qx", "qy", "qz", "qw"].map String.toList) ∧
    (NoHeader content "delimiter".toList → m.delimiter = ',') ∧
    (NoHeader content "nframe".toList → m.nframe = "enu".toList) ∧
    (NoHeader content "gps_week".toList → ∀ now, m.gpsWeek now = now) ∧
    (NoHeader content "time_offset".toList → m.timeOffset = 0) ∧
    (NoHeader content "time_format".toList → m.timeFormat = .ok .unix) ∧
    (NoHeader content "datetime_format".toList → m.datetimeFormat = "%Y-%m-%d %H:%M:%S.%f".toList) ∧
    (NoHeader content "datetime_timezone".toList → m.datetimeTimezone = "UTC".toList) ∧
    (NoHeader content "relative_dist_unit".toList → m.relativeDistUnit = .ok .meter) ∧
    (NoHeader content "num_pairs".toList → m.numPairs = .ok [0]) := by
  have get : ∀ k, NoHeader content k → m.get k = none := fun k hk => (C89_last_value h k).2.1 hk
  have str : ∀ (k d : String), NoHeader content k.toList → m.strOr k d = d.toList := by
    intro k d hk
    unfold HMeta.strOr
    rw [get _ hk]
  refine ⟨str _ _, ?_, str _ _, ?_, ?_, ?_, ?_, ?_, ?_, str _ _, str _ _, ?_, ?_⟩
  · intro hk; unfold HMeta.epsg HMeta.intOr; rw [get _ hk]
  · intro hk; unfold HMeta.fields; rw [str _ _ hk]; decide
  · intro hk; unfold HMeta.delimiter; rw [str _ _ hk]; rfl
  · intro hk; unfold HMeta.nframe; rw [str _ _ hk]; decide
  · intro hk now; unfold HMeta.gpsWeek HMeta.intOr; rw [get _ hk]
  · intro hk; unfold HMeta.timeOffset; rw [get _ hk]
  · intro hk; unfold HMeta.timeFormat; rw [str _ _ hk]; decide
  · intro hk; unfold HMeta.relativeDistUnit; rw [str _ _ hk]; rfl
  · intro hk; unfold HMeta.numPairs; rw [str _ _ hk]; rfl

/-- **C89.** Lines whose keyword is none of the eighteen settings say nothing. -/
theorem C89_unknown {content key : Str} {m : HMeta K} (h : headerFromFile content = .ok m)
    (hk : key ∉ allSettings) : m.get key = none := by
  refine (C89_last_value h key).1 (fun hm => hk ?_)
  have : ∀ k ∈ headerKeys, k ∈ allSettings := by decide
  exact this key hm

/-- a header with several kinds of settings -/
def exSettings : Str :=
  "#name  my   run \n#epsg 25832 rest\n#delimiter ';'\n#time_offset -1.5e1\n#fields t,px,py\n1;2;3\n".toList

example : ((headerFromFile exSettings : Except Err (HMeta ℚ)).toOption.map (fun m => (m.name, m.epsg, m.delimiter)))
    = some ("my run".toList, 25832, ';') := by decide +kernel

example : ((headerFromFile exSettings : Except Err (HMeta ℚ)).toOption.map (fun m => (m.timeOffset, m.fields, m.nframe)))
    = some (-15, ["t", "px", "py"].map String.toList, "enu".toList) := by decide +kernel

/-- the hypotheses of the number setting are met -/
example : LastHeader exSettings "epsg".toList " 25832 rest".toList ∧
    Words " 25832 rest".toList ["25832".toList, "rest".toList] ∧ IntText "25832".toList 25832 ∧
    NumText "-1.5e1".toList (-(((1 : ℚ) + 5 / 10 ^ 1) * 10 ^ (1 : ℤ))) := by
  refine ⟨⟨by intro c r h; cases h; rfl, ["#name  my   run ".toList],
    ["#delimiter ';'", "#time_offset -1.5e1", "#fields t,px,py", "1;2;3"].map String.toList, by decide +kernel, ?_⟩,
    ?_, ?_, ?_⟩
  · intro x hx hh
    have e := (lineKeyword_iff _ _).mpr hh
    have : ∀ x ∈ ["#delimiter ';'", "#time_offset -1.5e1", "#fields t,px,py", "1;2;3"].map String.toList,
      lineKeyword x ≠ some "epsg".toList := by decide +kernel
    exact this x hx e
  · exact Words.word (g := " ".toList) (w := "25832".toList) (rest := " rest".toList) (by decide) (by decide)
      (by unfold NoSpace; decide) (by intro c r h; cases h; rfl)
      (Words.word (g := " ".toList) (w := "rest".toList) (rest := []) (by decide) (by decide)
        (by unfold NoSpace; decide) (by intro c r h; cases h) (Words.blank (by simp)))
  · exact IntText.plain (ds := "25832".toList) ⟨by decide, by decide⟩
  · exact NumText.minus (ExpText.exp (s := "1.5".toList) (e := "1".toList) (c := 'e') (k := 1)
      (DecText.frac (ds := "1".toList) (fs := "5".toList) (Or.inr ⟨by decide, by decide⟩) ⟨by decide, by decide⟩)
      (Or.inl rfl) (IntText.plain (ds := "1".toList) ⟨by decide, by decide⟩))

end TC
