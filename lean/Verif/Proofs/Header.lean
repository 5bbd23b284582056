import Verif.Model.Header
import Verif.Proofs.Text
/-!
# Facts about file headers
-/
namespace TC
set_option linter.unusedSectionVars false
variable {K : Type} [Field K] [LinearOrder K]

theorem pySplitAux_head : ∀ (w acc rest : Str), NoSpace w → (∀ c r, rest = c :: r → pySpace c = true) →
    acc ++ w ≠ [] → ∃ ts, pySplitAux (w ++ rest) acc = (acc ++ w) :: ts
  | [], acc, [], _, _, hne => ⟨[], by simp at hne; simp [pySplitAux, hne]⟩
  | [], acc, c :: r, _, hr, hne => by
    simp at hne
    refine ⟨pySplitAux r [], ?_⟩
    simp [pySplitAux, hr c r rfl, hne]
  | c :: w, acc, rest, hw, hr, hne => by
    obtain ⟨ts, h⟩ := pySplitAux_head w (acc ++ [c]) rest (fun d hd => hw d (by simp [hd])) hr (by simp)
    refine ⟨ts, ?_⟩
    simp only [List.cons_append, pySplitAux, hw c (by simp), Bool.false_eq_true, if_false]
    rw [h]; simp

theorem takeWhile_noSpace (s : Str) : NoSpace (s.takeWhile (fun c => !pySpace c)) := by
  induction s with
  | nil => intro c hc; simp at hc
  | cons a as ih =>
    intro c hc
    simp only [List.takeWhile] at hc
    split at hc
    · rename_i hp
      rcases List.mem_cons.mp hc with rfl | hc
      · simpa using hp
      · exact ih c hc
    · simp at hc

theorem dropWhile_head {s : Str} {c : Char} {r : Str} (h : s.dropWhile (fun c => !pySpace c) = c :: r) :
    pySpace c = true := by
  induction s with
  | nil => simp at h
  | cons a as ih =>
    simp only [List.dropWhile] at h
    split at h
    · exact ih h
    · rename_i hp; cases h; simpa using hp

/-- the keyword of a line is `key` exactly if it is a header line for `key` -/
theorem lineKeyword_iff (key line : Str) : lineKeyword line = some key ↔ HeaderLine key line := by
  constructor
  · intro h
    unfold lineKeyword at h
    split at h
    · rename_i r
      have hsplit := List.takeWhile_append_dropWhile (p := fun c => !pySpace c) (l := r)
      obtain ⟨ts, ht⟩ := pySplitAux_head ('#' :: r.takeWhile (fun c => !pySpace c)) []
        (r.dropWhile (fun c => !pySpace c))
        (by intro c hc
            rcases List.mem_cons.mp hc with rfl | hc
            · rfl
            · exact takeWhile_noSpace r c hc)
        (fun c r h => dropWhile_head h) (by simp)
      have e : pySplit ('#' :: r) = ('#' :: r.takeWhile (fun c => !pySpace c)) :: ts := by
        unfold pySplit
        conv_lhs => rw [← hsplit]
        simpa using ht
      rw [e] at h
      simp only [List.tail_cons, Option.some.injEq] at h
      subst h
      exact ⟨takeWhile_noSpace r, r.dropWhile (fun c => !pySpace c), by simp [hsplit],
        fun c r' h => dropWhile_head h⟩
    · cases h
  · rintro ⟨hk, rest, rfl, hr⟩
    obtain ⟨ts, ht⟩ := pySplitAux_head ('#' :: key) [] rest
      (by intro c hc
          rcases List.mem_cons.mp hc with rfl | hc
          · rfl
          · exact hk c hc) hr (by simp)
    have e : pySplit ('#' :: key ++ rest) = ('#' :: key) :: ts := by
      unfold pySplit
      simpa using ht
    unfold lineKeyword
    simp only [List.cons_append] at e ⊢
    rw [e]; rfl

theorem handleLine_other {m : HMeta K} {l : Str} (h : ∀ k ∈ headerKeys, ¬ HeaderLine k l) :
    handleLine m l = .ok m := by
  unfold handleLine
  cases e : lineKeyword l with
  | none => rfl
  | some k =>
    simp only
    rw [if_neg (fun hk => h k hk ((lineKeyword_iff k l).mp e))]

theorem handleLine_key {m : HMeta K} {k l : Str} (hk : k ∈ headerKeys) (h : HeaderLine k l) {v : HVal K}
    (hv : lineHandler k l = .ok v) : handleLine m l = .ok ((k, v) :: m) := by
  unfold handleLine
  rw [(lineKeyword_iff k l).mpr h]
  simp only
  rw [if_pos hk, hv]; rfl

theorem handleLine_error {m : HMeta K} {k l : Str} (hk : k ∈ headerKeys) (h : HeaderLine k l) {e : Err}
    (hv : (lineHandler k l : Except Err (HVal K)) = .error e) : handleLine m l = .error e := by
  unfold handleLine
  rw [(lineKeyword_iff k l).mpr h]
  simp only
  rw [if_pos hk, hv]; rfl

/-- what one line does -/
theorem handleLine_inv {m m' : HMeta K} {l : Str} (h : handleLine m l = .ok m') :
    (m' = m ∧ ∀ k ∈ headerKeys, ¬ HeaderLine k l) ∨
    ∃ k v, k ∈ headerKeys ∧ HeaderLine k l ∧ lineHandler k l = .ok v ∧ m' = (k, v) :: m := by
  unfold handleLine at h
  cases e : lineKeyword l with
  | none =>
    rw [e] at h
    cases h
    exact Or.inl ⟨rfl, fun k _ hl => by rw [(lineKeyword_iff k l).mpr hl] at e; cases e⟩
  | some k =>
    rw [e] at h
    simp only at h
    split at h
    · rename_i hk
      cases hv : (lineHandler k l : Except Err (HVal K)) with
      | error er => rw [hv] at h; cases h
      | ok v =>
        rw [hv] at h
        cases h
        exact Or.inr ⟨k, v, hk, (lineKeyword_iff k l).mp e, hv, rfl⟩
    · rename_i hk
      cases h
      refine Or.inl ⟨rfl, fun k' hk' hl => ?_⟩
      rw [(lineKeyword_iff k' l).mpr hl] at e
      cases e; exact hk hk'

theorem HeaderLine.unique {k k' l : Str} (h : HeaderLine k l) (h' : HeaderLine k' l) : k = k' := by
  have := (lineKeyword_iff k l).mpr h
  rw [(lineKeyword_iff k' l).mpr h'] at this
  exact (Option.some.inj this).symm

theorem handleLines_append (m : HMeta K) (a b : List Str) :
    handleLines m (a ++ b) = (do let m' ← handleLines m a; handleLines m' b) := by
  induction a generalizing m with
  | nil => rfl
  | cons l ls ih =>
    simp only [List.cons_append, handleLines]
    cases handleLine m l with
    | error e => rfl
    | ok m' => simp only [bind, Except.bind]; rw [ih]; rfl

theorem HMeta.get_cons_self (m : HMeta K) (k : Str) (v : HVal K) : HMeta.get ((k, v) :: m) k = some v := by
  simp [HMeta.get]

theorem HMeta.get_cons_ne (m : HMeta K) {k k' : Str} (v : HVal K) (h : k ≠ k') :
    HMeta.get ((k, v) :: m) k' = m.get k' := by
  simp [HMeta.get, h]

/-- lines without the key leave its value alone -/
theorem handleLines_get_other {k : Str} : ∀ {ls : List Str} {m m' : HMeta K},
    handleLines m ls = .ok m' → (∀ l ∈ ls, ¬ HeaderLine k l) → m'.get k = m.get k
  | [], m, m', h, _ => by cases h; rfl
  | l :: ls, m, m', h, hk => by
    simp only [handleLines] at h
    cases h1 : handleLine m l with
    | error e => rw [h1] at h; cases h
    | ok m1 =>
      rw [h1] at h
      simp only [bind, Except.bind] at h
      rw [handleLines_get_other h (fun x hx => hk x (by simp [hx]))]
      rcases handleLine_inv h1 with ⟨rfl, -⟩ | ⟨k', v, -, hl, -, rfl⟩
      · rfl
      · apply HMeta.get_cons_ne
        rintro rfl
        exact hk l (by simp) hl

/-- the last header line of a key decides its value -/
theorem handleLines_get_last {k : Str} (hk : k ∈ headerKeys) {pre post : List Str} {l : Str} {m m' : HMeta K}
    (h : handleLines m (pre ++ l :: post) = .ok m') (hl : HeaderLine k l)
    (hpost : ∀ x ∈ post, ¬ HeaderLine k x) :
    ∃ v, lineHandler k l = .ok v ∧ m'.get k = some v := by
  rw [handleLines_append] at h
  cases h0 : handleLines m pre with
  | error e => rw [h0] at h; cases h
  | ok m0 =>
    rw [h0] at h
    simp only [bind, Except.bind, handleLines] at h
    cases h1 : handleLine m0 l with
    | error e => rw [h1] at h; cases h
    | ok m1 =>
      rw [h1] at h
      simp only at h
      rcases handleLine_inv h1 with ⟨rfl, hno⟩ | ⟨k', v, -, hl', hv, rfl⟩
      · exact absurd hl (hno k hk)
      · obtain rfl := hl.unique hl'
        exact ⟨v, hv, by rw [handleLines_get_other h hpost, HMeta.get_cons_self]⟩

/-- the header is read exactly if every line of a known key can be interpreted -/
theorem handleLines_ok_iff : ∀ {ls : List Str} {m : HMeta K},
    (∃ m', handleLines m ls = .ok m') ↔
      ∀ l ∈ ls, ∀ k ∈ headerKeys, HeaderLine k l → ∃ v : HVal K, lineHandler k l = .ok v
  | [], m => ⟨fun _ l hl => by simp at hl, fun _ => ⟨m, rfl⟩⟩
  | l :: ls, m => by
    constructor
    · rintro ⟨m', h⟩ x hx k hk hkx
      simp only [handleLines] at h
      cases h1 : handleLine m l with
      | error e => rw [h1] at h; cases h
      | ok m1 =>
        rw [h1] at h
        rcases List.mem_cons.mp hx with rfl | hx
        · rcases handleLine_inv h1 with ⟨-, hno⟩ | ⟨k', v, -, hl', hv, -⟩
          · exact absurd hkx (hno k hk)
          · obtain rfl := hkx.unique hl'; exact ⟨v, hv⟩
        · exact (handleLines_ok_iff (ls := ls) (m := m1)).mp ⟨m', h⟩ x hx k hk hkx
    · intro h
      have h1 : ∃ m1, handleLine m l = .ok m1 := by
        by_cases hex : ∃ k ∈ headerKeys, HeaderLine k l
        · obtain ⟨k, hk, hl⟩ := hex
          obtain ⟨v, hv⟩ := h l (by simp) k hk hl
          exact ⟨_, handleLine_key hk hl hv⟩
        · exact ⟨m, handleLine_other (fun k hk hl => hex ⟨k, hk, hl⟩)⟩
      obtain ⟨m1, h1⟩ := h1
      obtain ⟨m', h'⟩ := (handleLines_ok_iff (ls := ls) (m := m1)).mpr
        (fun x hx => h x (by simp [hx]))
      refine ⟨m', ?_⟩
      simp only [handleLines, h1]; exact h'

end TC
