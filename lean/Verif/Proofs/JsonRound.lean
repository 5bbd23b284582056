import Verif.Proofs.JsonPrefix
import Verif.Proofs.SettingsDict
import Verif.Spec.Json
import Mathlib.Tactic.IntervalCases
/-!
# Reading what was written
-/
namespace TC
namespace Settings
variable {K : Type}

/-! ### Strings -/

theorem hexVal_hexChar {d : Nat} (h : d < 16) : hexVal (hexChar d) = some d := by
  interval_cases d <;> decide

theorem hex4_uEscape {n : Nat} (h : n < 65536) (r : Str) :
    uEscape n ++ r = '\\' :: 'u' :: (uEscape n).drop 2 ++ r ∧ hex4 ((uEscape n).drop 2 ++ r) = .ok (n, r) := by
  refine ⟨rfl, ?_⟩
  simp only [uEscape, List.drop_succ_cons, List.drop_zero, List.cons_append, List.nil_append, hex4,
    hexVal_hexChar (Nat.mod_lt _ (by decide : 16 > 0)), Except.ok.injEq, Prod.mk.injEq, and_true]
  omega

theorem char_range (c : Char) : c.toNat < 55296 ∨ (57343 < c.toNat ∧ c.toNat < 1114112) := by
  have := c.valid
  simp only [UInt32.isValidChar, Nat.isValidChar] at this
  exact this

theorem char_of (c : Char) : Char.ofNat c.toNat = c := Char.ofNat_toNat c

theorem char_eq_of {c : Char} {n : Nat} (h : c.toNat = n) : Char.ofNat n = c := by rw [← h]; exact char_of c

theorem scanChar_pair {n m : Nat} (hn : 55296 ≤ n) (hn' : n ≤ 56319) (hm : 56320 ≤ m) (hm' : m ≤ 57343) (r : Str) :
    scanChar (uEscape n ++ uEscape m ++ r) = .ok (some (Char.ofNat (65536 + (n - 55296) * 1024 + (m - 56320))), r) := by
  obtain ⟨e1, e2⟩ := hex4_uEscape (n := n) (by omega) (uEscape m ++ r)
  obtain ⟨f1, f2⟩ := hex4_uEscape (n := m) (by omega) r
  have hl : lowHalf n (uEscape m ++ r) = .ok (some (Char.ofNat (65536 + (n - 55296) * 1024 + (m - 56320))), r) := by
    rw [f1]
    simp only [List.cons_append, lowHalf, true_and, if_true, f2, bind, Except.bind]
    rw [if_pos ⟨hm, hm'⟩]
  rw [List.append_assoc, e1]
  simp only [List.cons_append, scanChar, scanEscape, e2, bind, Except.bind]
  rw [if_neg (by decide), if_pos trivial, if_pos trivial, if_pos ⟨hn, hn'⟩, hl]

theorem scanChar_escChar (c : Char) (r : Str) : scanChar (escChar c ++ r) = .ok (some c, r) := by
  unfold escChar
  split_ifs with h1 h2 h3 h4 h5 h6 h7 h8 h9
  · subst h1; simp [scanChar, scanEscape, shortEscape]
  · subst h2; simp [scanChar, scanEscape, shortEscape]
  · subst h3; simp [scanChar, scanEscape, shortEscape]
  · subst h4; simp [scanChar, scanEscape, shortEscape]
  · subst h5; simp [scanChar, scanEscape, shortEscape]
  · simp only [List.cons_append, List.nil_append, scanChar, scanEscape]
    rw [if_neg (by decide), if_pos trivial, if_neg (by decide), show shortEscape 'b' = some (Char.ofNat 8) from by decide, char_eq_of h6]
  · simp only [List.cons_append, List.nil_append, scanChar, scanEscape]
    rw [if_neg (by decide), if_pos trivial, if_neg (by decide), show shortEscape 'f' = some (Char.ofNat 12) from by decide, char_eq_of h7]
  · simp only [List.cons_append, List.nil_append, scanChar, if_neg h1, if_neg h2, if_neg (by omega : ¬ c.toNat < 32)]
  · obtain ⟨e1, e2⟩ := hex4_uEscape h9 r
    rw [e1]
    simp only [List.cons_append, scanChar, scanEscape, e2, bind, Except.bind]
    rcases char_range c with h | h
    · rw [if_neg (by decide), if_pos trivial, if_pos trivial, if_neg (by omega), if_neg (by omega), char_of]
    · rw [if_neg (by decide), if_pos trivial, if_pos trivial, if_neg (by omega), if_neg (by omega), char_of]
  · have hr := char_range c
    obtain ⟨n, hn⟩ : ∃ n, n = 55296 + (c.toNat - 65536) / 1024 := ⟨_, rfl⟩
    obtain ⟨m, hm⟩ : ∃ m, m = 56320 + (c.toNat - 65536) % 1024 := ⟨_, rfl⟩
    rw [← hn, ← hm, scanChar_pair (by omega) (by omega) (by omega) (by omega), char_eq_of (c := c) (by omega)]

theorem escChar_length (c : Char) : 1 ≤ (escChar c).length := by
  unfold escChar
  split_ifs <;> simp [uEscape]

theorem scanString_quote (r : Str) : ∀ (s : Str) (n : Nat), (s.flatMap escChar).length < n →
    scanString n (s.flatMap escChar ++ '"' :: r) = .ok (s, r) := by
  intro s
  induction s with
  | nil =>
    intro n hn
    obtain ⟨n, rfl⟩ : ∃ k, n = k + 1 := ⟨n - 1, by omega⟩
    simp [scanString, scanChar, bind, Except.bind]
  | cons c s ih =>
    intro n hn
    simp only [List.flatMap_cons, List.length_append] at hn
    have := escChar_length c
    obtain ⟨n, rfl⟩ : ∃ k, n = k + 1 := ⟨n - 1, by omega⟩
    simp only [scanString, List.flatMap_cons, List.append_assoc, scanChar_escChar, bind, Except.bind]
    rw [ih n (by omega)]
    rfl

theorem quote_length (s : Str) : (quote s).length = (s.flatMap escChar).length + 2 := by simp [quote]

/-! ### Numbers -/

theorem isDig_iff (c : Char) : isDig c = true ↔ '0' ≤ c ∧ c ≤ '9' := by
  simp only [isDig, Bool.and_eq_true, decide_eq_true_eq, Char.le_def, UInt32.le_iff_toNat_le]
  rfl

theorem SomeDigits.dig {s : Str} (h : SomeDigits s) : ∀ c ∈ s, isDig c = true := fun c hc => (isDig_iff c).2 (h.2 c hc)

/-- nothing of a number follows -/
def Stops (r : Str) : Prop := r = [] ∨ Ends r

theorem Stops.head {r : Str} (h : Stops r) {c : Char} {t : Str} (e : r = c :: t) :
    isDig c = false ∧ c ≠ '.' ∧ c ≠ 'e' ∧ c ≠ 'E' ∧ c ≠ '-' ∧ c ≠ '+' := by
  rcases h with h | ⟨d, t', h, hd⟩
  · rw [h] at e; cases e
  · rw [h] at e; cases e; exact Ends.not_part hd

theorem digits_read {ds r : Str} (h : ∀ c ∈ ds, isDig c = true) (hr : ∀ c t, r = c :: t → isDig c = false) :
    (ds ++ r).takeWhile isDig = ds ∧ (ds ++ r).dropWhile isDig = r := by
  rcases r with _ | ⟨c, t⟩
  · rw [List.append_nil]
    exact ⟨takeWhile_all h, digits_dropWhile (List.all_eq_true.2 h)⟩
  · have hc := hr c t rfl
    constructor
    · rw [List.takeWhile_append_of_pos h, List.takeWhile_cons, if_neg (by simp [hc]), List.append_nil]
    · rw [List.dropWhile_append_of_pos h, List.dropWhile_cons, if_neg (by simp [hc])]

theorem numExp_stops {r : Str} (h : Stops r) : numExp r = ([], r) := by
  rcases r with _ | ⟨c, t⟩
  · rfl
  · have := h.head rfl
    simp [numExp, this.2.2.1, this.2.2.2.1]

theorem numFrac_stops {r : Str} (h : ∀ c t, r = c :: t → c ≠ '.') : numFrac r = ([], r) := by
  rcases r with _ | ⟨c, t⟩
  · rfl
  · simp [numFrac, h c t rfl]

theorem numInt_read {ip r : Str} (hd : SomeDigits ip) (h0 : ip = ['0'] ∨ ip.head? ≠ some '0')
    (hr : ∀ c t, r = c :: t → isDig c = false) : numInt (ip ++ r) = some (ip, r) := by
  rcases ip with _ | ⟨c, ip⟩
  · exact absurd rfl hd.1
  · rw [List.cons_append]
    simp only [numInt]
    split
    · rename_i hc
      rcases h0 with h0 | h0
      · cases h0; rfl
      · exact absurd (by simp [hc]) h0
    · rw [if_pos (hd.dig c (by simp))]
      obtain ⟨g1, g2⟩ := digits_read (ds := ip) (r := r) (fun d h => hd.dig d (by simp [h])) hr
      rw [g1, g2]

theorem numSign_read {sign ip r : Str} (hs : sign = [] ∨ sign = ['-']) (hd : SomeDigits ip) :
    numSign true (sign ++ (ip ++ r)) = (sign, ip ++ r) := by
  rcases hs with rfl | rfl
  · rcases ip with _ | ⟨c, ip⟩
    · exact absurd rfl hd.1
    · have hc := hd.dig c (by simp)
      rw [List.nil_append, List.cons_append]
      simp only [numSign]
      rw [if_neg]
      rintro (rfl | ⟨rfl, -⟩) <;> exact absurd hc (by decide)
  · simp [numSign]

theorem numExp_read {ex r : Str} (hex : ex = [] ∨ ∃ sg ds, ex = 'e' :: (sg ++ ds) ∧ (sg = ['+'] ∨ sg = ['-']) ∧ SomeDigits ds)
    (hr : Stops r) : numExp (ex ++ r) = (ex, r) := by
  rcases hex with rfl | ⟨sg, ds, rfl, hsg, hds⟩
  · exact numExp_stops hr
  · have hs : numSign false (sg ++ ds ++ r) = (sg, ds ++ r) := by
      rcases hsg with rfl | rfl <;> simp [numSign]
    obtain ⟨g1, g2⟩ := digits_read (ds := ds) (r := r) hds.dig (fun c t e => (hr.head e).1)
    rw [List.cons_append]
    simp only [numExp, hs, g1, g2]
    rw [if_pos ⟨by simp, hds.1⟩]

theorem numFrac_read {frac r : Str} (hf : frac = [] ∨ ∃ ds, frac = '.' :: ds ∧ SomeDigits ds)
    (hr : ∀ c t, r = c :: t → isDig c = false ∧ c ≠ '.') : numFrac (frac ++ r) = (frac, r) := by
  rcases hf with rfl | ⟨ds, rfl, hds⟩
  · exact numFrac_stops (fun c t e => (hr c t e).2)
  · obtain ⟨g1, g2⟩ := digits_read (ds := ds) (r := r) hds.dig (fun c t e => (hr c t e).1)
    rw [List.cons_append]
    simp only [numFrac, g1, g2]
    rw [if_pos ⟨by simp, hds.1⟩]

theorem scanNumber_float (F : FloatText K) {x : K} (ht : IsFloatText (F.repr x)) (hv : F.read (F.repr x) = x) {r : Str}
    (hr : Stops r) : scanNumber F (F.repr x ++ r) = .ok (.float x, r) := by
  obtain ⟨sign, ip, frac, ex, hs, h1, h2, h3, h4, h5, h6⟩ := ht
  have hex0 : ∀ c t, ex ++ r = c :: t → isDig c = false ∧ c ≠ '.' := by
    intro c t e
    rcases h5 with rfl | ⟨sg, ds, rfl, -, -⟩
    · exact ⟨(hr.head e).1, (hr.head e).2.1⟩
    · cases e; decide
  have hfr0 : ∀ c t, frac ++ (ex ++ r) = c :: t → isDig c = false := by
    intro c t e
    rcases h4 with rfl | ⟨ds, rfl, -⟩
    · exact (hex0 c t e).1
    · cases e; decide
  have hall : F.repr x ++ r = sign ++ (ip ++ (frac ++ (ex ++ r))) := by rw [hs]; simp
  unfold scanNumber
  rw [hall, numSign_read h1 h2]
  simp only
  rw [numInt_read h2 h3 hfr0]
  simp only
  rw [numFrac_read h4 hex0]
  simp only
  rw [numExp_read h5 hr]
  simp only
  rw [if_neg h6, ← hs, hv]

theorem natStrAux_head : ∀ k n : Nat, n ≤ k → n ≠ 0 → (natStrAux k n).head? ≠ some '0' := by
  intro k
  induction k with
  | zero => intro n h1 h2; omega
  | succ k ih =>
    intro n h1 h2
    unfold natStrAux
    split
    · rename_i h
      interval_cases n <;> first | (exact absurd rfl h2) | decide
    · have := ih (n / 10) (by omega) (by omega)
      rw [List.head?_append_of_ne_nil _ (natStrAux_spec k (n / 10) (by omega)).2.2]
      exact this

theorem natStr_plain (n : Nat) : natStr n = ['0'] ∨ (natStr n).head? ≠ some '0' := by
  rcases Nat.eq_zero_or_pos n with rfl | h
  · left; decide
  · right; exact natStrAux_head n n (le_refl _) (by omega)

theorem scanNumber_int (F : FloatText K) (n : Int) {r : Str} (hr : Stops r) :
    scanNumber F (intStr n ++ r) = .ok (.int n, r) := by
  have hd : SomeDigits (natStr n.natAbs) :=
    ⟨natStr_ne _, fun c hc => (isDig_iff c).1 (all_isDig_mem (natStr_dig _) hc)⟩
  obtain ⟨sign, hs, hs2, hval⟩ : ∃ sign, intStr n = sign ++ natStr n.natAbs ∧ (sign = [] ∨ sign = ['-']) ∧
      (if sign = [] then (n.natAbs : Int) else -(n.natAbs : Int)) = n := by
    unfold intStr
    split
    · exact ⟨['-'], rfl, .inr rfl, by rw [if_neg (by simp)]; omega⟩
    · exact ⟨[], rfl, .inl rfl, by simp; omega⟩
  unfold scanNumber
  rw [hs, List.append_assoc, numSign_read hs2 hd]
  simp only
  rw [numInt_read hd (natStr_plain _) (fun c t e => (hr.head e).1)]
  simp only
  rw [numFrac_stops (fun c t e => (hr.head e).2.1), ]
  simp only
  rw [numExp_stops hr]
  simp only [and_self, if_true, digitsVal_natStr]
  rw [hval]

/-! ### Values -/

theorem skipWs_newLine (l : Nat) (s : Str) : skipWs (newLine l ++ s) = skipWs s := by
  unfold skipWs newLine
  rw [List.cons_append, List.dropWhile_cons, if_pos (by decide)]
  exact List.dropWhile_append_of_pos (by
    intro c hc
    rw [(List.mem_replicate.1 hc).2]
    decide)

theorem skipWs_stop {c : Char} (h : jsonSpace c = false) (s : Str) : skipWs (c :: s) = c :: s := by
  unfold skipWs
  rw [List.dropWhile_cons, if_neg (by simp [h])]

/-- the beginnings of values -/
theorem dumpVal_head (F : FloatText K) {v : PyVal K} (h : Writable F v) {l : Nat} {t : Str} (e : dumpVal F l v = .ok t) :
    ∃ c t', t = c :: t' ∧ jsonSpace c = false ∧ c ≠ ']' ∧ c ≠ '}' := by
  have plain : ∀ c : Char, c = '-' ∨ isDig c = true → jsonSpace c = false ∧ c ≠ ']' ∧ c ≠ '}' := by
    rintro c (rfl | hc)
    · decide
    · refine ⟨?_, ?_, ?_⟩
      · by_contra hn
        have := Ends.not_part (c := c) (.inl (by simpa using hn))
        rw [this.1] at hc; cases hc
      · rintro rfl; exact absurd hc (by decide)
      · rintro rfl; exact absurd hc (by decide)
  have num : ∀ s v' r, scanNumber F s = .ok (v', r) → ∃ c t', s = c :: t' ∧ jsonSpace c = false ∧ c ≠ ']' ∧ c ≠ '}' := by
    intro s v' r hs
    obtain ⟨c, t', e, hc⟩ := scanNumber_head F hs
    exact ⟨c, t', e, plain c hc⟩
  cases h with
  | none => simp only [dumpVal, Except.ok.injEq] at e; exact ⟨'n', _, e.symm, by decide⟩
  | bool b =>
    simp only [dumpVal, Except.ok.injEq] at e
    cases b
    · exact ⟨'f', _, e.symm, by decide⟩
    · exact ⟨'t', _, e.symm, by decide⟩
  | int n =>
    simp only [dumpVal, Except.ok.injEq] at e
    have := scanNumber_int F n (r := []) (.inl rfl)
    rw [List.append_nil, e] at this
    exact num _ _ _ this
  | float x ht hv =>
    simp only [dumpVal, Except.ok.injEq] at e
    have := scanNumber_float F ht hv (r := []) (.inl rfl)
    rw [List.append_nil, e] at this
    exact num _ _ _ this
  | str s => simp only [dumpVal, Except.ok.injEq] at e; exact ⟨'"', _, e.symm, by decide⟩
  | list l h =>
    rcases l with _ | ⟨v, l⟩
    · simp only [dumpVal, Except.ok.injEq] at e; exact ⟨'[', _, e.symm, by decide⟩
    · simp only [dumpVal, bind, Except.bind] at e
      split at e
      · simp at e
      · simp only [pure, Except.pure, Except.ok.injEq] at e; exact ⟨'[', _, e.symm, by decide⟩
  | dict d hk h =>
    rcases d with _ | ⟨v, l⟩
    · simp only [dumpVal, Except.ok.injEq] at e; exact ⟨'{', _, e.symm, by decide⟩
    · simp only [dumpVal, bind, Except.bind] at e
      split at e
      · simp at e
      · simp only [pure, Except.pure, Except.ok.injEq] at e; exact ⟨'{', _, e.symm, by decide⟩

/-- what holds of a value that is written and read -/
def RoundTrip (F : FloatText K) (v : PyVal K) : Prop :=
  ∀ l, ∃ t, dumpVal F l v = .ok t ∧ ∀ n r, 2 * t.length < n → Stops r → readVal F n (t ++ r) = .ok (v, r)

theorem stops_newLine (l : Nat) (s : Str) : Stops (newLine l ++ s) :=
  .inr ⟨'\n', _, rfl, .inl (by decide)⟩

theorem stops_comma (s : Str) : Stops (',' :: s) := .inr ⟨',', s, rfl, .inr (.inl rfl)⟩

theorem store_new {d : List (String × PyVal K)} {k : String} {v : PyVal K} (h : k ∉ d.map Prod.fst) :
    store d k v = d ++ [(k, v)] := by
  induction d with
  | nil => rfl
  | cons e d ih =>
    simp only [List.map_cons, List.mem_cons, not_or] at h
    simp only [store, List.cons_append]
    rw [if_neg (fun he => h.1 he.symm), ih h.2]

theorem items_round (F : FloatText K) (lvl : Nat) (l : List (PyVal K)) (hl : ∀ v ∈ l, Writable F v) (hr : ∀ v ∈ l, RoundTrip F v)
    (hne : l ≠ []) : ∃ t, dumpItems F lvl l = .ok t ∧ ∀ n l0 acc r, 2 * t.length < n →
      readItems F n acc (skipWs (t ++ (newLine l0 ++ ']' :: r))) = .ok (.list (acc ++ l), r) := by
  induction l with
  | nil => exact absurd rfl hne
  | cons v l ih =>
    obtain ⟨tv, e1, e2⟩ := hr v (by simp) lvl
    obtain ⟨c, tv', hc, hc1, -⟩ := dumpVal_head F (hl v (by simp)) e1
    by_cases hl0 : l = []
    · subst hl0
      refine ⟨newLine lvl ++ tv, by simp [dumpItems, e1, bind, Except.bind, pure, Except.pure], ?_⟩
      intro n l0 acc r hn
      rw [List.length_append] at hn
      simp only [newLine, List.length_cons] at hn
      obtain ⟨n, rfl⟩ : ∃ k, n = k + 1 := ⟨n - 1, by omega⟩
      rw [List.append_assoc, skipWs_newLine, hc, List.cons_append, skipWs_stop hc1, ← List.cons_append, ← hc]
      simp only [readItems, bind, Except.bind]
      rw [e2 n _ (by omega) (stops_newLine _ _)]
      simp only [skipWs_newLine]
      rw [skipWs_stop (by decide)]
      simp
    · obtain ⟨tl, f1, f2⟩ := ih (fun v h => hl v (by simp [h])) (fun v h => hr v (by simp [h])) hl0
      have hle : l.isEmpty = false := by cases l with | nil => exact absurd rfl hl0 | cons _ _ => rfl
      refine ⟨newLine lvl ++ tv ++ (',' :: tl), by simp [dumpItems, e1, f1, bind, Except.bind, pure, Except.pure, hle], ?_⟩
      intro n l0 acc r hn
      simp only [List.length_append, newLine, List.length_cons] at hn
      obtain ⟨n, rfl⟩ : ∃ k, n = k + 1 := ⟨n - 1, by omega⟩
      rw [List.append_assoc, List.append_assoc, skipWs_newLine, hc, List.cons_append, skipWs_stop hc1, ← List.cons_append, ← hc]
      simp only [readItems, bind, Except.bind, List.cons_append]
      rw [e2 n _ (by omega) (stops_comma _)]
      simp only
      rw [skipWs_stop (by decide)]
      simp only
      rw [if_neg (by decide), if_pos trivial, f2 n l0 _ r (by omega)]
      simp

theorem members_round (F : FloatText K) (lvl : Nat) (d : List (String × PyVal K)) (hl : ∀ k v, (k, v) ∈ d → Writable F v)
    (hr : ∀ k v, (k, v) ∈ d → RoundTrip F v) (hne : d ≠ []) :
    ∃ t, dumpMembers F lvl d = .ok t ∧ ∀ n l0 acc r, 2 * t.length < n → ((acc ++ d).map Prod.fst).Nodup →
      readMembers F n acc (skipWs (t ++ (newLine l0 ++ '}' :: r))) = .ok (.dict (acc ++ d), r) := by
  induction d with
  | nil => exact absurd rfl hne
  | cons e d ih =>
    obtain ⟨k, v⟩ := e
    obtain ⟨tv, e1, e2⟩ := hr k v (by simp) lvl
    obtain ⟨c, tv', hc, hc1, -⟩ := dumpVal_head F (hl k v (by simp)) e1
    have hkey : ∀ (rest : Str), skipWs (newLine lvl ++ quote k.toList ++ [':', ' '] ++ tv ++ rest) =
        '"' :: (k.toList.flatMap escChar ++ '"' :: (':' :: ' ' :: (tv ++ rest))) := by
      intro rest
      simp only [List.append_assoc]
      rw [skipWs_newLine]
      simp only [quote, List.cons_append]
      rw [skipWs_stop (by decide)]
      simp
    have hval : ∀ rest, skipWs (' ' :: (tv ++ rest)) = tv ++ rest := by
      intro rest
      have : skipWs (' ' :: (tv ++ rest)) = skipWs (tv ++ rest) := by
        unfold skipWs; rw [List.dropWhile_cons, if_pos (by decide)]
      rw [this, hc, List.cons_append, skipWs_stop hc1]
    by_cases hd0 : d = []
    · subst hd0
      refine ⟨newLine lvl ++ quote k.toList ++ [':', ' '] ++ tv,
        by simp [dumpMembers, e1, bind, Except.bind, pure, Except.pure], ?_⟩
      intro n l0 acc r hn hnd
      simp only [List.length_append, newLine, List.length_cons, quote_length] at hn
      obtain ⟨n, rfl⟩ : ∃ k, n = k + 1 := ⟨n - 1, by omega⟩
      rw [hkey]
      simp only [readMembers, if_true, bind, Except.bind]
      rw [scanString_quote _ _ n (by omega)]
      simp only
      rw [skipWs_stop (by decide)]
      simp only [if_true]
      rw [hval, e2 n _ (by omega) (stops_newLine _ _)]
      simp only [skipWs_newLine]
      rw [skipWs_stop (by decide)]
      simp only [if_true, String.ofList_toList]
      rw [store_new]
      intro hmem
      rw [List.map_append, List.nodup_append] at hnd
      exact hnd.2.2 k hmem k (by simp) rfl
    · obtain ⟨tl, f1, f2⟩ := ih (fun k v h => hl k v (by simp [h])) (fun k v h => hr k v (by simp [h])) hd0
      have hle : d.isEmpty = false := by cases d with | nil => exact absurd rfl hd0 | cons _ _ => rfl
      refine ⟨newLine lvl ++ quote k.toList ++ [':', ' '] ++ tv ++ (',' :: tl),
        by simp [dumpMembers, e1, f1, bind, Except.bind, pure, Except.pure, hle], ?_⟩
      intro n l0 acc r hn hnd
      simp only [List.length_append, newLine, List.length_cons, quote_length] at hn
      obtain ⟨n, rfl⟩ : ∃ k, n = k + 1 := ⟨n - 1, by omega⟩
      rw [List.append_assoc (newLine lvl ++ quote k.toList ++ [':', ' '] ++ tv), hkey]
      simp only [readMembers, if_true, bind, Except.bind]
      rw [scanString_quote _ _ n (by omega)]
      simp only
      rw [skipWs_stop (by decide)]
      simp only [if_true]
      rw [hval, List.cons_append, e2 n _ (by omega) (stops_comma _)]
      simp only
      rw [skipWs_stop (by decide)]
      simp only
      rw [if_neg (by decide), if_pos trivial, String.ofList_toList, store_new, f2 n l0 _ r (by omega) (by simpa using hnd)]
      · simp
      · intro hmem
        rw [List.map_append, List.nodup_append] at hnd
        exact hnd.2.2 k hmem k (by simp) rfl

theorem round_trip (F : FloatText K) {v : PyVal K} (h : Writable F v) : RoundTrip F v := by
  have plainc : ∀ (c : Char), c = '-' ∨ isDig c = true → c ≠ '"' ∧ c ≠ '{' ∧ c ≠ '[' := by
    rintro c (rfl | hc)
    · decide
    · refine ⟨?_, ?_, ?_⟩ <;> (rintro rfl; exact absurd hc (by decide))
  have num : ∀ (t r : Str) (w : PyVal K) (n : Nat), 2 * t.length < n → scanNumber F (t ++ r) = .ok (w, r) →
      (∃ c t', t = c :: t') → readVal F n (t ++ r) = .ok (w, r) := by
    intro t r w n hn hs hne
    obtain ⟨c, t', ht, hc⟩ := scanNumber_head F hs
    obtain ⟨n, rfl⟩ : ∃ k, n = k + 1 := ⟨n - 1, by omega⟩
    have hp := plainc c hc
    rw [ht]
    simp only [readVal]
    rw [if_neg hp.1, if_neg hp.2.1, if_neg hp.2.2, scanPlain_number F hc, ← ht, hs]
  have word : ∀ (w : Str) (r : Str) (n : Nat) (v : PyVal K), 0 < n → (∃ c t', w = c :: t' ∧ c ≠ '"' ∧ c ≠ '{' ∧ c ≠ '[') →
      scanPlain F (w ++ r) = .ok (v, r) → readVal F n (w ++ r) = .ok (v, r) := by
    rintro w r n v hn ⟨c, t', rfl, h1, h2, h3⟩ hs
    obtain ⟨n, rfl⟩ : ∃ k, n = k + 1 := ⟨n - 1, by omega⟩
    rw [List.cons_append] at hs ⊢
    simp only [readVal]
    rw [if_neg h1, if_neg h2, if_neg h3, hs]
  induction h with
  | none =>
    intro l
    refine ⟨_, rfl, fun n r hn _ => word _ r n _ (by omega) ⟨'n', _, rfl, by decide⟩ ?_⟩
    rw [scanPlain, afterWord_self]
  | bool b =>
    intro l
    refine ⟨_, rfl, fun n r hn _ => ?_⟩
    cases b
    · refine word _ r n _ (by omega) ⟨'f', _, rfl, by decide⟩ ?_
      simp [scanPlain, afterWord]
    · refine word _ r n _ (by omega) ⟨'t', _, rfl, by decide⟩ ?_
      simp [scanPlain, afterWord]
  | int i =>
    intro l
    refine ⟨_, rfl, fun n r hn hr => ?_⟩
    obtain ⟨c, t', hc, -⟩ := dumpVal_head F (.int i) (l := l) rfl
    exact num _ r _ n hn (scanNumber_int F i hr) ⟨c, t', hc⟩
  | float x ht hv =>
    intro l
    refine ⟨_, rfl, fun n r hn hr => ?_⟩
    obtain ⟨c, t', hc, -⟩ := dumpVal_head F (.float x ht hv) (l := l) rfl
    exact num _ r _ n hn (scanNumber_float F ht hv hr) ⟨c, t', hc⟩
  | str s =>
    intro l
    refine ⟨_, rfl, fun n r hn hr => ?_⟩
    rw [quote_length] at hn
    obtain ⟨n, rfl⟩ : ∃ k, n = k + 1 := ⟨n - 1, by omega⟩
    simp only [quote, List.cons_append, List.append_assoc, readVal, if_true, List.nil_append]
    rw [scanString_quote _ _ n (by omega)]
    simp [bind, Except.bind, pure, Except.pure]
  | list l h ih =>
    intro lvl
    rcases l with _ | ⟨v, l⟩
    · refine ⟨_, rfl, fun n r hn _ => ?_⟩
      obtain ⟨n, rfl⟩ : ∃ k, n = k + 1 := ⟨n - 1, by omega⟩
      simp [readVal, skipWs, List.dropWhile_cons, jsonSpace]
    · obtain ⟨t, e1, e2⟩ := items_round F (lvl + 1) (v :: l) h ih (by simp)
      refine ⟨'[' :: (t ++ newLine lvl ++ [']']), by simp [dumpVal, e1, bind, Except.bind, pure, Except.pure], ?_⟩
      intro n r hn _
      simp only [List.length_cons, List.length_append] at hn
      obtain ⟨n, rfl⟩ : ∃ k, n = k + 1 := ⟨n - 1, by omega⟩
      have hx : t ++ newLine lvl ++ [']'] ++ r = t ++ (newLine lvl ++ ']' :: r) := by simp
      rw [List.cons_append, hx]
      have := e2 n lvl [] r (by omega)
      simp only [readVal]
      rw [if_neg (by decide), if_neg (by decide), if_pos trivial]
      -- the first entry does not begin with a closing bracket
      obtain ⟨tv, g1, -⟩ := ih v (by simp) (lvl + 1)
      obtain ⟨c, tv', hc, hc1, hc2, -⟩ := dumpVal_head F (h v (by simp)) g1
      obtain ⟨rest, ht⟩ : ∃ rest, t = newLine (lvl + 1) ++ tv ++ rest := by
        simp only [dumpItems, g1, bind, Except.bind] at e1
        split at e1
        · simp at e1
        · simp only [pure, Except.pure, Except.ok.injEq] at e1
          exact ⟨_, e1.symm⟩
      have hskip : skipWs (t ++ (newLine lvl ++ ']' :: r)) = c :: (tv' ++ (rest ++ (newLine lvl ++ ']' :: r))) := by
        rw [ht, List.append_assoc, List.append_assoc, skipWs_newLine, hc, List.cons_append, skipWs_stop hc1]
      rw [hskip] at this ⊢
      simp only
      rw [if_neg hc2, this]
      simp
  | dict d hk h ih =>
    intro lvl
    rcases d with _ | ⟨⟨k, v⟩, d⟩
    · refine ⟨_, rfl, fun n r hn _ => ?_⟩
      obtain ⟨n, rfl⟩ : ∃ k, n = k + 1 := ⟨n - 1, by omega⟩
      simp [readVal, skipWs, List.dropWhile_cons, jsonSpace]
    · obtain ⟨t, e1, e2⟩ := members_round F (lvl + 1) ((k, v) :: d) h ih (by simp)
      refine ⟨'{' :: (t ++ newLine lvl ++ ['}']), by simp [dumpVal, e1, bind, Except.bind, pure, Except.pure], ?_⟩
      intro n r hn _
      simp only [List.length_cons, List.length_append] at hn
      obtain ⟨n, rfl⟩ : ∃ k, n = k + 1 := ⟨n - 1, by omega⟩
      have hx : t ++ newLine lvl ++ ['}'] ++ r = t ++ (newLine lvl ++ '}' :: r) := by simp
      rw [List.cons_append, hx]
      have := e2 n lvl [] r (by omega) (by simpa using hk)
      simp only [readVal]
      rw [if_neg (by decide), if_pos trivial]
      obtain ⟨rest, ht⟩ : ∃ rest, t = newLine (lvl + 1) ++ '"' :: rest := by
        simp only [dumpMembers, bind, Except.bind] at e1
        split at e1
        · simp at e1
        · split at e1
          · simp at e1
          · simp only [pure, Except.pure, Except.ok.injEq, quote] at e1
            exact ⟨_, by rw [← e1]; simp; rfl⟩
      have hskip : skipWs (t ++ (newLine lvl ++ '}' :: r)) = '"' :: (rest ++ (newLine lvl ++ '}' :: r)) := by
        rw [ht, List.append_assoc, skipWs_newLine, List.cons_append, skipWs_stop (by decide)]
      rw [hskip] at this ⊢
      simp only
      rw [if_neg (by decide), this]
      simp

end Settings
end TC
