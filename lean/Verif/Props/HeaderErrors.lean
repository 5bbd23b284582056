import Mathlib.Data.List.TakeWhile
import Verif.Props.HeaderValues
/-!
# C89: when a header is refused
-/
namespace TC
set_option linter.unusedSectionVars false
variable {K : Type} [Field K] [LinearOrder K] [IsStrictOrderedRing K] [FloorRing K]

/-- every text consists of words -/
theorem words_exist : ∀ (n : Nat) (s : Str), s.length ≤ n → ∃ ws, Words s ws := by
  intro n
  induction n with
  | zero =>
    intro s hs
    rw [List.length_eq_zero_iff.1 (Nat.le_zero.1 hs)]
    exact ⟨[], .blank (by simp)⟩
  | succ n ih =>
    intro s hs
    rcases hd : s.dropWhile pySpace with _ | ⟨c, r⟩
    · refine ⟨[], .blank fun c hc => ?_⟩
      have := List.dropWhile_eq_nil_iff.1 hd
      exact this c hc
    · have hcs : pySpace c = false := by
        have := List.head_dropWhile_not (l := s) pySpace (by rw [hd]; simp)
        simpa [hd] using this
      have hsplit := List.takeWhile_append_dropWhile (p := pySpace) (l := s)
      rw [hd] at hsplit
      have hsplit2 := List.takeWhile_append_dropWhile (p := fun c => !pySpace c) (l := c :: r)
      have hw : (c :: r).takeWhile (fun c => !pySpace c) ≠ [] := by simp [hcs]
      have hlen : ((c :: r).dropWhile (fun c => !pySpace c)).length ≤ n := by
        have h1 := congrArg List.length hsplit
        have h2 := congrArg List.length hsplit2
        have h3 := List.length_pos_iff.2 hw
        simp only [List.length_append] at h1 h2
        omega
      obtain ⟨ws, hws⟩ := ih _ hlen
      refine ⟨(c :: r).takeWhile (fun c => !pySpace c) :: ws, ?_⟩
      have hs3 : s = s.takeWhile pySpace ++ (c :: r).takeWhile (fun c => !pySpace c) ++
          (c :: r).dropWhile (fun c => !pySpace c) := by
        rw [List.append_assoc, hsplit2, hsplit]
      rw [hs3]
      refine .word (fun c hc => List.mem_takeWhile_imp hc) hw ?_ ?_ hws
      · intro c hc
        have := List.mem_takeWhile_imp hc
        simpa using this
      · intro x y hxy
        have := List.head_dropWhile_not (l := c :: r) (fun c => !pySpace c) (by rw [hxy]; simp)
        simpa [hxy] using this

/-- the settings whose value is a number -/
def numberSettings : List Str := ["epsg", "gps_week", "time_offset"].map String.toList

theorem handleLines_error : ∀ {ls : List Str} {m : HMeta K} {e : Err}, handleLines m ls = .error e →
    ∃ l ∈ ls, ∃ k ∈ headerKeys, HeaderLine k l ∧ (lineHandler k l : Except Err (HVal K)) = .error e := by
  intro ls
  induction ls with
  | nil => intro m e h; cases h
  | cons l ls ih =>
    intro m e h
    simp only [handleLines] at h
    cases h1 : handleLine m l with
    | ok m1 =>
      rw [h1] at h
      obtain ⟨x, hx, hk⟩ := ih h
      exact ⟨x, by simp [hx], hk⟩
    | error e' =>
      rw [h1] at h
      cases h
      refine ⟨l, by simp, ?_⟩
      unfold handleLine at h1
      cases hk : lineKeyword l with
      | none => rw [hk] at h1; cases h1
      | some k =>
        rw [hk] at h1
        simp only at h1
        split at h1
        · rename_i hm
          refine ⟨k, hm, (lineKeyword_iff k l).1 hk, ?_⟩
          cases hv : (lineHandler k l : Except Err (HVal K)) with
          | error e'' => rw [hv] at h1; cases h1; rfl
          | ok v => rw [hv] at h1; cases h1
        · cases h1

theorem secondToken_words {key rest : Str} (hk : NoSpace key) (hr : ∀ c r, rest = c :: r → pySpace c = true)
    {ws : List Str} (hws : Words rest ws) : secondToken ('#' :: key ++ rest) = match ws with
      | [] => .error .indexError
      | w :: _ => .ok w := by
  unfold secondToken
  rw [split_header hk hr hws]
  cases ws <;> rfl

/-- **C89**, refused: if the header cannot be read, a line for one of the three numbers is to blame: either nothing
follows the key (`IndexError`), or the first word after it is no number (`ValueError`). -/
theorem C89_refused {content : Str} {e : Err} (h : (headerFromFile content : Except Err (HMeta K)) = .error e) :
    ∃ key ∈ numberSettings, ∃ rest ws, '#' :: key ++ rest ∈ fileLines content ∧
      (∀ c r, rest = c :: r → pySpace c = true) ∧ Words rest ws ∧
      ((ws = [] ∧ e = .indexError) ∨ ∃ w more, ws = w :: more ∧ e = .valueError ∧
        (key ≠ "time_offset".toList → ∀ n, ¬ IntText w n) ∧ (key = "time_offset".toList → ∀ x : K, ¬ NumText w x)) := by
  obtain ⟨l, hl, k, hk, ⟨hns, rest, rfl, hr⟩, hh⟩ := handleLines_error h
  obtain ⟨ws, hws⟩ := words_exist _ rest le_rfl
  have token := secondToken_words hns hr hws
  unfold lineHandler at hh
  split at hh
  · rename_i hc
    have hmem : k ∈ numberSettings := by rcases hc with rfl | rfl <;> decide
    have hne : k ≠ "time_offset".toList := by rcases hc with rfl | rfl <;> decide
    refine ⟨k, hmem, rest, ws, hl, hr, hws, ?_⟩
    unfold integerLineHandler at hh
    rw [token] at hh
    cases ws with
    | nil => cases hh; exact .inl ⟨rfl, rfl⟩
    | cons w more =>
      refine .inr ⟨w, more, rfl, ?_⟩
      simp only [bind, Except.bind] at hh
      cases hp : pyInt w with
      | ok v => rw [hp] at hh; cases hh
      | error e' =>
        rw [hp] at hh
        cases hh
        refine ⟨?_, fun _ n hn => ?_, fun hc => absurd hc hne⟩
        swap
        · rw [hn.pyInt] at hp; cases hp
        unfold pyInt at hp
        split at hp <;> split at hp <;> cases hp <;> rfl
  · split at hh
    · rename_i hc
      subst hc
      refine ⟨_, by decide, rest, ws, hl, hr, hws, ?_⟩
      unfold floatLineHandler at hh
      rw [token] at hh
      cases ws with
      | nil => cases hh; exact .inl ⟨rfl, rfl⟩
      | cons w more =>
        refine .inr ⟨w, more, rfl, ?_⟩
        simp only [bind, Except.bind] at hh
        cases hp : (parseNum w : Option K) with
        | some v => rw [hp] at hh; cases hh
        | none =>
          rw [hp] at hh
          cases hh
          exact ⟨rfl, fun hc => absurd rfl hc, fun _ x hx => by rw [hx.parse] at hp; cases hp⟩
    · split at hh <;> cases hh

/-- the characters numbers are written with -/
def inNumber (c : Char) : Prop := isDig c = true ∨ c ∈ ['+', '-', '.', 'e', 'E']

theorem digits_inNumber {s : Str} (h : s.all isDig = true) : ∀ c ∈ s, inNumber c :=
  fun c hc => .inl (List.all_eq_true.1 h c hc)

theorem noSpace_strip {s : Str} (h : NoSpace s) : pyStrip s = s := by
  unfold pyStrip
  have h1 : ∀ s : Str, NoSpace s → s.dropWhile pySpace = s := by
    intro s hs
    cases s with
    | nil => rfl
    | cons c s => simp [hs c (by simp)]
  first
  | simp [h1 s h, h1 s.reverse (fun c hc => h c (by simpa using hc))]

theorem pyInt_inNumber {s : Str} (hs : NoSpace s) {n : Int} (h : pyInt s = .ok n) : ∀ c ∈ s, inNumber c := by
  unfold pyInt at h
  rw [noSpace_strip hs] at h
  split at h
  · split at h
    · rename_i hh
      intro c hc
      rcases List.mem_cons.1 hc with rfl | hc
      · exact .inr (by simp)
      · exact digits_inNumber hh.2 c hc
    · cases h
  · split at h
    · rename_i hh
      intro c hc
      rcases List.mem_cons.1 hc with rfl | hc
      · exact .inr (by simp)
      · exact digits_inNumber hh.2 c hc
    · cases h
  · split at h
    · rename_i hh
      exact digits_inNumber hh.2
    · cases h

theorem parseDec_inNumber {s : Str} {x : K} (h : (parseDec s : Option K) = some x) : ∀ c ∈ s, inNumber c := by
  have hsplit := List.takeWhile_append_dropWhile (p := isDig) (l := s)
  have h1 : ∀ c ∈ s.takeWhile isDig, inNumber c := fun c hc => .inl (List.mem_takeWhile_imp hc)
  unfold parseDec at h
  simp only at h
  rw [← hsplit]
  split at h
  · rename_i hd
    rw [hd, List.append_nil]
    exact h1
  · rename_i fp hd
    rw [hd]
    split at h
    · rename_i hf
      intro c hc
      rcases List.mem_append.1 hc with hc | hc
      · exact h1 c hc
      · rcases List.mem_cons.1 hc with rfl | hc
        · exact .inr (by simp)
        · exact digits_inNumber hf.1 c hc
    · cases h
  · cases h

theorem parseExp_inNumber {s : Str} (hs : NoSpace s) {x : K} (h : (parseExp s : Option K) = some x) : ∀ c ∈ s, inNumber c := by
  have hsplit := List.takeWhile_append_dropWhile (p := fun c => !isExp c) (l := s)
  unfold parseExp at h
  split at h
  · exact parseDec_inNumber h
  · rename_i m ex hd
    split at h
    · rename_i v k h1 h2
      rw [← hsplit, hd]
      intro c hc
      rcases List.mem_append.1 hc with hc | hc
      · exact parseDec_inNumber h1 c hc
      · rcases List.mem_cons.1 hc with rfl | hc
        · have := List.head_dropWhile_not (l := s) (fun c => !isExp c) (by rw [hd]; simp)
          simp only [hd, List.head_cons] at this
          simp only [isExp, Bool.not_eq_false', Bool.or_eq_true, beq_iff_eq] at this
          exact .inr (by rcases this with rfl | rfl <;> simp)
        · refine pyInt_inNumber (fun c hc => hs c ?_) h2 c hc
          rw [← hsplit, hd]
          simp [hc]
    · cases h

theorem parseNum_inNumber {s : Str} (hs : NoSpace s) {x : K} (h : (parseNum s : Option K) = some x) : ∀ c ∈ s, inNumber c := by
  unfold parseNum at h
  split at h
  · rename_i r
    obtain ⟨y, hy, -⟩ := Option.map_eq_some_iff.1 h
    intro c hc
    rcases List.mem_cons.1 hc with rfl | hc
    · exact .inr (by simp)
    · exact parseExp_inNumber (fun c hc => hs c (by simp [hc])) hy c hc
  · intro c hc
    rcases List.mem_cons.1 hc with rfl | hc
    · exact .inr (by simp)
    · exact parseExp_inNumber (fun c hc => hs c (by simp [hc])) h c hc
  · exact parseExp_inNumber hs h

theorem words_noSpace {s : Str} {ws : List Str} (h : Words s ws) : ∀ w ∈ ws, NoSpace w := by
  induction h with
  | blank _ => simp
  | word _ _ h _ _ ih =>
    intro x hx
    rcases List.mem_cons.1 hx with rfl | hx
    · exact h
    · exact ih x hx

/-- **C89**, a bad number is not overlooked: if nothing follows one of the three keys in some line, or the first word
after it contains a character no number contains, the header is refused, wherever the line stands and whatever
comes later. -/
theorem C89_bad_number {content key rest : Str} {ws : List Str} (hkey : key ∈ numberSettings)
    (hl : '#' :: key ++ rest ∈ fileLines content) (hr : ∀ c r, rest = c :: r → pySpace c = true) (hws : Words rest ws)
    (hbad : ws = [] ∨ ∃ w more, ws = w :: more ∧ ∃ c ∈ w, c.toNat < 128 ∧ c.isAlphanum = false ∧ c ∉ ['+', '-', '.', '_']) :
    ∃ e, (headerFromFile content : Except Err (HMeta K)) = .error e := by
  cases h : (headerFromFile content : Except Err (HMeta K)) with
  | error e => exact ⟨e, rfl⟩
  | ok m =>
    exfalso
    have hns : NoSpace key := setting_noSpace (by
      have : ∀ k ∈ numberSettings, k ∈ allSettings := by decide
      exact this key hkey)
    have hk : key ∈ headerKeys := by
      have : ∀ k ∈ numberSettings, k ∈ headerKeys := by decide
      exact this key hkey
    obtain ⟨v, hv⟩ := (C89_interpretation (K := K) content).1 ⟨m, h⟩ _ hl key hk ⟨hns, rest, rfl, hr⟩
    have bad : ∀ w more, ws = w :: more → ¬ ∀ c ∈ w, inNumber c := by
      intro w more hw hall
      rcases hbad with rfl | ⟨w', more', hw', c, hc, -, h1, h2⟩
      · cases hw
      · rw [hw] at hw'
        cases hw'
        rcases hall c hc with h3 | h3
        · have : c.isAlphanum = true := by
            simp only [isDig, Bool.and_eq_true, decide_eq_true_eq] at h3
            simp only [Char.isAlphanum, Char.isDigit, Bool.or_eq_true, Bool.and_eq_true, decide_eq_true_eq]
            right
            exact ⟨UInt32.le_iff_toNat_le.2 h3.1, UInt32.le_iff_toNat_le.2 h3.2⟩
          rw [this] at h1
          cases h1
        · simp only [List.mem_cons, List.not_mem_nil, or_false] at h2 h3
          rcases h3 with rfl | rfl | rfl | rfl | rfl
          · simp at h2
          · simp at h2
          · simp at h2
          · simp [Char.isAlphanum, Char.isAlpha, Char.isLower] at h1
          · simp [Char.isAlphanum, Char.isAlpha, Char.isUpper] at h1
    have token := secondToken_words hns hr hws
    unfold lineHandler at hv
    split at hv
    · unfold integerLineHandler at hv
      rw [token] at hv
      cases ws with
      | nil => cases hv
      | cons w more =>
        simp only [bind, Except.bind] at hv
        cases hp : pyInt w with
        | error e => rw [hp] at hv; cases hv
        | ok n => exact bad w more rfl (pyInt_inNumber (words_noSpace hws w (by simp)) hp)
    · split at hv
      · unfold floatLineHandler at hv
        rw [token] at hv
        cases ws with
        | nil => cases hv
        | cons w more =>
          simp only [bind, Except.bind] at hv
          cases hp : (parseNum w : Option K) with
          | none => rw [hp] at hv; cases hv
          | some x => exact bad w more rfl (parseNum_inNumber (words_noSpace hws w (by simp)) hp)
      · rename_i h1 h2
        simp only [numberSettings, List.map_cons, List.map_nil, List.mem_cons, List.not_mem_nil, or_false] at hkey
        rcases hkey with rfl | rfl | rfl
        · exact h1 (.inl rfl)
        · exact h1 (.inr rfl)
        · exact h2 rfl

/-- a header with a time of day where a number is expected, and one without a value -/
example : (headerFromFile "#name a\n#time_offset 12:30\n1,2\n".toList : Except Err (HMeta ℚ)) = .error .valueError ∧
    (headerFromFile "#epsg 25832\n#gps_week \n".toList : Except Err (HMeta ℚ)) = .error .indexError := by
  constructor <;> decide +kernel

end TC
