import Verif.Proofs.JsonRound
import Verif.Proofs.JsonBound
import Verif.Proofs.TrajFile
import Mathlib.Algebra.Order.Ring.Rat
/-!
# C200: settings files, complete and interrupted
-/
namespace TC
namespace Settings
set_option linter.unusedSectionVars false
variable {K : Type}

theorem attrsToDict_names {c : Cls} : ∀ {l r : List (String × PyVal K)}, attrsToDict c l = .ok r →
    r.map Prod.fst = l.map Prod.fst := by
  intro l
  induction l with
  | nil => intro r h; simp only [attrsToDict, Except.ok.injEq] at h; subst h; rfl
  | cons x l ih =>
    intro r h
    obtain ⟨k, u⟩ := x
    simp only [attrsToDict, bind, Except.bind, pure, Except.pure] at h
    cases hu : valueToDict c k u with
    | error => rw [hu] at h; simp at h
    | ok e =>
      rw [hu] at h
      cases hr : attrsToDict c l with
      | error => rw [hr] at h; simp at h
      | ok r' =>
        rw [hr] at h
        simp only [Except.ok.injEq] at h
        subst h
        simp [ih hr]

theorem toDict_writable {c : Cls} {v : PyVal K} (F : FloatText K) (h : WritableSettings F c v) (hs : IsSettings c v) {d : PyVal K}
    (hd : toDict v = .ok d) : Writable F d := by
  induction h generalizing d with
  | mk c attrs nested plain ih =>
    cases hs with
    | mk _ _ names nested' plain' =>
      simp only [toDict, bind, Except.bind, pure, Except.pure] at hd
      cases hA : attrsToDict c attrs with
      | error => rw [hA] at hd; simp at hd
      | ok r =>
        rw [hA] at hd
        simp only [Except.ok.injEq] at hd
        subst hd
        refine .dict r ?_ ?_
        · rw [attrsToDict_names hA, names]; exact annotations_nodup c
        have key : ∀ (l : List (String × PyVal K)) (r : List (String × PyVal K)), (∀ x ∈ l, x ∈ attrs) →
            attrsToDict c l = .ok r → ∀ k w, (k, w) ∈ r → Writable F w := by
          intro l
          induction l with
          | nil =>
            intro r _ hr k w hw
            simp only [attrsToDict, Except.ok.injEq] at hr
            subst hr
            simp at hw
          | cons x l ihl =>
            intro r hl hr k w hw
            obtain ⟨k', u⟩ := x
            simp only [attrsToDict, bind, Except.bind, pure, Except.pure] at hr
            cases hu : valueToDict c k' u with
            | error => rw [hu] at hr; simp at hr
            | ok e =>
              rw [hu] at hr
              simp only at hr
              cases hr' : attrsToDict c l with
              | error => rw [hr'] at hr; simp at hr
              | ok r' =>
                rw [hr'] at hr
                simp only [Except.ok.injEq] at hr
                subst hr
                rcases List.mem_cons.1 hw with hw | hw
                · obtain ⟨rfl, rfl⟩ := Prod.mk.inj hw
                  have hmem : (k, u) ∈ attrs := hl _ List.mem_cons_self
                  have hk : k ∈ (annotations c).map Prod.fst := by
                    rw [← names]
                    exact List.mem_map.2 ⟨_, hmem, rfl⟩
                  obtain ⟨⟨kk, ty⟩, ha, hkk⟩ := List.mem_map.1 hk
                  simp only at hkk
                  subst hkk
                  cases ty with
                  | some c' =>
                    have hset := nested' _ c' u ha hmem
                    cases hset with
                    | mk _ at' n1 n2 n3 =>
                      refine ih _ c' _ ha hmem (.mk c' at' n1 n2 n3) ?_
                      simpa [valueToDict, toDict, bind, Except.bind, pure, Except.pure] using hu
                  | none =>
                    obtain ⟨-, hobj⟩ := plain' _ u ha hmem

                    have hu' : encoder c kk u = .ok w := by
                      cases u <;> first | exact hu | exact absurd rfl (hobj _ _)
                    have henum : ∀ z : PyVal K, enumValue u = .ok z → Writable F z := by
                      intro z hz
                      cases u <;> simp [enumValue] at hz <;> subst hz <;> exact .int _
                    rcases plain _ u ha hmem with ⟨rfl, rfl⟩ | ⟨rfl, rfl⟩ | hj
                    · simp only [encoder] at hu'
                      exact henum _ hu'
                    · simp only [encoder] at hu'
                      exact henum _ hu'
                    · cases c <;> simp only [encoder] at hu' <;> (try split_ifs at hu') <;>
                        first | exact henum _ hu' | (simp only [Except.ok.injEq] at hu'; subst hu'; exact hj)
                · exact ihl r' (fun x hx => hl x (List.mem_cons_of_mem _ hx)) hr' k w hw
        exact key attrs r (fun _ h => h) hA


/-- printable ASCII characters and line feeds -/
def PlainText (t : Str) : Prop := ∀ c ∈ t, c = '\n' ∨ (32 ≤ c.toNat ∧ c.toNat ≤ 126)

theorem PlainText.append {s t : Str} (h : PlainText s) (k : PlainText t) : PlainText (s ++ t) := by
  intro c hc
  rcases List.mem_append.1 hc with hc | hc
  · exact h c hc
  · exact k c hc

theorem PlainText.cons {c : Char} {t : Str} (h : c = '\n' ∨ (32 ≤ c.toNat ∧ c.toNat ≤ 126)) (k : PlainText t) : PlainText (c :: t) := by
  intro d hd
  rcases List.mem_cons.1 hd with rfl | hd
  · exact h
  · exact k d hd

theorem plain_nil : PlainText [] := by intro c hc; cases hc

theorem plain_newLine (l : Nat) : PlainText (newLine l) := by
  refine .cons (.inl rfl) ?_
  intro c hc
  rw [(List.mem_replicate.1 hc).2]
  right; decide

theorem plain_hexChar {d : Nat} (h : d < 16) : 32 ≤ (hexChar d).toNat ∧ (hexChar d).toNat ≤ 126 := by
  interval_cases d <;> decide

theorem plain_uEscape (n : Nat) : PlainText (uEscape n) := by
  unfold uEscape
  refine .cons (.inr (by decide)) (.cons (.inr (by decide)) ?_)
  have := fun d => plain_hexChar (Nat.mod_lt d (by decide : 16 > 0))
  exact .cons (.inr (this _)) (.cons (.inr (this _)) (.cons (.inr (this _)) (.cons (.inr (this _)) plain_nil)))

theorem plain_escChar (c : Char) : PlainText (escChar c) := by
  have two : ∀ a b : Char, (32 ≤ a.toNat ∧ a.toNat ≤ 126) → (32 ≤ b.toNat ∧ b.toNat ≤ 126) → PlainText [a, b] :=
    fun a b ha hb => .cons (.inr ha) (.cons (.inr hb) plain_nil)
  unfold escChar
  split_ifs with h1 h2 h3 h4 h5 h6 h7 h8 h9
  · exact two _ _ (by decide) (by decide)
  · exact two _ _ (by decide) (by decide)
  · exact two _ _ (by decide) (by decide)
  · exact two _ _ (by decide) (by decide)
  · exact two _ _ (by decide) (by decide)
  · exact two _ _ (by decide) (by decide)
  · exact two _ _ (by decide) (by decide)
  · exact .cons (.inr h8) plain_nil
  · exact plain_uEscape _
  · exact (plain_uEscape _).append (plain_uEscape _)

theorem plain_quote (s : Str) : PlainText (quote s) := by
  refine .cons (.inr (by decide)) (.append ?_ (.cons (.inr (by decide)) plain_nil))
  intro c hc
  obtain ⟨d, -, hd⟩ := List.mem_flatMap.1 hc
  exact plain_escChar d c hd

theorem plain_digit {c : Char} (h : '0' ≤ c ∧ c ≤ '9') : 32 ≤ c.toNat ∧ c.toNat ≤ 126 := by
  have := (isDig_iff c).2 h
  simp only [isDig, Bool.and_eq_true, decide_eq_true_eq] at this
  omega

theorem SomeDigits.plain {s : Str} (h : SomeDigits s) : PlainText s := fun c hc => .inr (plain_digit (h.2 c hc))

theorem IsFloatText.plain {s : Str} (h : IsFloatText s) : PlainText s := by
  obtain ⟨sign, ip, frac, ex, rfl, h1, h2, -, h4, h5, -⟩ := h
  have p1 : PlainText sign := by
    rcases h1 with rfl | rfl
    · exact plain_nil
    · exact .cons (.inr (by decide)) plain_nil
  have p4 : PlainText frac := by
    rcases h4 with rfl | ⟨ds, rfl, h⟩
    · exact plain_nil
    · exact .cons (.inr (by decide)) h.plain
  have p5 : PlainText ex := by
    rcases h5 with rfl | ⟨sg, ds, rfl, hs, h⟩
    · exact plain_nil
    · refine .cons (.inr (by decide)) (.append ?_ h.plain)
      rcases hs with rfl | rfl <;> exact .cons (.inr (by decide)) plain_nil
  exact ((p1.append h2.plain).append p4).append p5

theorem plain_dump (F : FloatText K) {v : PyVal K} (h : Writable F v) : ∀ (l : Nat) (t : Str), dumpVal F l v = .ok t → PlainText t := by
  have words : PlainText "null".toList ∧ PlainText "true".toList ∧ PlainText "false".toList ∧ PlainText "[]".toList ∧
      PlainText "{}".toList := by
    refine ⟨?_, ?_, ?_, ?_, ?_⟩ <;> (intro c hc; right; revert c; decide)
  induction h with
  | none => intro l t e; simp only [dumpVal, Except.ok.injEq] at e; rw [← e]; exact words.1
  | bool b =>
    intro l t e
    simp only [dumpVal, Except.ok.injEq] at e
    rw [← e]
    cases b
    · exact words.2.2.1
    · exact words.2.1
  | int n =>
    intro l t e
    simp only [dumpVal, Except.ok.injEq] at e
    rw [← e]
    have hd : PlainText (natStr n.natAbs) := fun c hc =>
      .inr (plain_digit ((isDig_iff c).1 (all_isDig_mem (natStr_dig _) hc)))
    unfold intStr
    split
    · exact .cons (.inr (by decide)) hd
    · exact hd
  | float x ht _ => intro l t e; simp only [dumpVal, Except.ok.injEq] at e; rw [← e]; exact ht.plain
  | str s => intro l t e; simp only [dumpVal, Except.ok.injEq] at e; rw [← e]; exact plain_quote _
  | list xs h ih =>
    intro l t e
    have key : ∀ (ys : List (PyVal K)) (l : Nat) (t : Str), (∀ v ∈ ys, v ∈ xs) → dumpItems F l ys = .ok t → PlainText t := by
      intro ys
      induction ys with
      | nil => intro l t _ e; simp only [dumpItems, Except.ok.injEq] at e; rw [← e]; exact plain_nil
      | cons y ys ihy =>
        intro l t hy e
        simp only [dumpItems, bind, Except.bind] at e
        split at e
        · simp at e
        · rename_i t1 h1
          split at e
          · simp at e
          · rename_i t2 h2
            simp only [pure, Except.pure, Except.ok.injEq] at e
            rw [← e]
            refine ((plain_newLine l).append (ih y (hy y (by simp)) l t1 h1)).append ?_
            split
            · exact plain_nil
            · exact .cons (.inr (by decide)) (ihy l t2 (fun v hv => hy v (by simp [hv])) h2)
    rcases xs with _ | ⟨x, xs⟩
    · simp only [dumpVal, Except.ok.injEq] at e; rw [← e]; exact words.2.2.2.1
    · simp only [dumpVal, bind, Except.bind] at e
      split at e
      · simp at e
      · rename_i t1 h1
        simp only [pure, Except.pure, Except.ok.injEq] at e
        rw [← e]
        exact .cons (.inr (by decide)) (((key _ _ _ (fun _ h => h) h1).append (plain_newLine l)).append
          (.cons (.inr (by decide)) plain_nil))
  | dict xs hk h ih =>
    intro l t e
    have key : ∀ (ys : List (String × PyVal K)) (l : Nat) (t : Str), (∀ v ∈ ys, v ∈ xs) → dumpMembers F l ys = .ok t → PlainText t := by
      intro ys
      induction ys with
      | nil => intro l t _ e; simp only [dumpMembers, Except.ok.injEq] at e; rw [← e]; exact plain_nil
      | cons y ys ihy =>
        intro l t hy e
        obtain ⟨k, y⟩ := y
        simp only [dumpMembers, bind, Except.bind] at e
        split at e
        · simp at e
        · rename_i t1 h1
          split at e
          · simp at e
          · rename_i t2 h2
            simp only [pure, Except.pure, Except.ok.injEq] at e
            rw [← e]
            refine ((((plain_newLine l).append (plain_quote _)).append
              (.cons (.inr (by decide)) (.cons (.inr (by decide)) plain_nil))).append (ih k y (hy _ (by simp)) l t1 h1)).append ?_
            split
            · exact plain_nil
            · exact .cons (.inr (by decide)) (ihy l t2 (fun v hv => hy v (by simp [hv])) h2)
    rcases xs with _ | ⟨x, xs⟩
    · simp only [dumpVal, Except.ok.injEq] at e; rw [← e]; exact words.2.2.2.2
    · simp only [dumpVal, bind, Except.bind] at e
      split at e
      · simp at e
      · rename_i t1 h1
        simp only [pure, Except.pure, Except.ok.injEq] at e
        rw [← e]
        exact .cons (.inr (by decide)) (((key _ _ _ (fun _ h => h) h1).append (plain_newLine l)).append
          (.cons (.inr (by decide)) plain_nil))

theorem newlines_plain {t : Str} (h : PlainText t) : newlines false t = t := by
  induction t with
  | nil => rfl
  | cons c t ih =>
    have hc : c ≠ '\r' := by
      rintro rfl
      rcases h '\r' (by simp) with h | h
      · exact absurd h (by decide)
      · exact absurd h.1 (by decide)
    simp only [newlines, if_neg hc]
    rw [if_neg (by simp), ih (fun d hd => h d (by simp [hd]))]

/-- the text of a dictionary begins with a brace, and nothing follows the value -/
theorem loads_dict (F : FloatText K) {d : List (String × PyVal K)} (h : Writable F (.dict d)) :
    ∃ t, dumpVal F 0 (.dict d) = .ok ('{' :: t) ∧
      ∀ n, 2 * ('{' :: t).length < n → readVal F n ('{' :: t) = .ok (.dict d, []) := by
  obtain ⟨t, e1, e2⟩ := round_trip F h 0
  have : ∃ t', t = '{' :: t' := by
    rcases d with _ | ⟨x, d⟩
    · simp only [dumpVal, Except.ok.injEq] at e1; exact ⟨_, e1.symm⟩
    · simp only [dumpVal, bind, Except.bind] at e1
      split at e1
      · simp at e1
      · simp only [pure, Except.pure, Except.ok.injEq] at e1; exact ⟨_, e1.symm⟩
  obtain ⟨t', rfl⟩ := this
  refine ⟨t', e1, fun n hn => ?_⟩
  have := e2 n [] hn (.inl rfl)
  rwa [List.append_nil] at this

theorem loads_written (F : FloatText K) {d : List (String × PyVal K)} (h : Writable F (.dict d)) {t : Str}
    (ht : dumpVal F 0 (.dict d) = .ok t) : loads F t = .ok (.dict d) := by
  obtain ⟨t', e1, e2⟩ := loads_dict F h
  rw [e1] at ht
  cases ht
  unfold loads
  rw [skipWs_stop (by decide), e2 _ (by omega)]
  simp [bind, Except.bind, pure, Except.pure, skipWs]

/-- every error of reading is a `ValueError` -/
theorem read_error (F : FloatText K) : ∀ n : Nat,
    (∀ s e, readVal F n s = .error e → e = .valueError) ∧
    (∀ acc s e, readMembers F n acc s = .error e → e = .valueError) ∧
    (∀ acc s e, readItems F n acc s = .error e → e = .valueError) := by
  have hex : ∀ s e, hex4 s = .error e → e = .valueError := by
    intro s e h
    unfold hex4 at h
    split at h
    · split at h
      · cases h
      · cases h; rfl
    · cases h; rfl
  have low : ∀ n s e, lowHalf n s = .error e → e = .valueError := by
    intro n s e h
    unfold lowHalf at h
    split at h
    · rename_i a b r
      split at h
      · rcases hx : hex4 r with e' | ⟨m, r'⟩
        · rw [hx] at h; cases h; exact hex _ _ hx
        · rw [hx] at h
          simp only [bind, Except.bind] at h
          split at h <;> cases h; rfl
      · cases h; rfl
    · cases h; rfl
  have escp : ∀ s e, scanEscape s = .error e → e = .valueError := by
    intro s e h
    unfold scanEscape at h
    split at h
    · cases h; rfl
    · rename_i c r
      split at h
      · rcases hx : hex4 r with e' | ⟨m, r'⟩
        · rw [hx] at h; cases h; exact hex _ _ hx
        · rw [hx] at h
          simp only [bind, Except.bind] at h
          split at h
          · exact low _ _ _ h
          · split at h <;> cases h; rfl
      · split at h <;> cases h; rfl
  have chr : ∀ s e, scanChar s = .error e → e = .valueError := by
    intro s e h
    unfold scanChar at h
    split at h
    · cases h; rfl
    · split at h
      · cases h
      · split at h
        · exact escp _ _ h
        · split at h <;> cases h; rfl
  have str : ∀ n s e, scanString n s = .error e → e = .valueError := by
    intro n
    induction n with
    | zero => intro s e h; simp only [scanString] at h; cases h; rfl
    | succ n ih =>
      intro s e h
      simp only [scanString] at h
      rcases hx : scanChar s with e' | ⟨c, r⟩
      · rw [hx] at h; cases h; exact chr _ _ hx
      · rw [hx] at h
        simp only [bind, Except.bind] at h
        split at h
        · cases h
        · rcases hy : scanString n r with e' | ⟨c, r⟩
          · rw [hy] at h; cases h; exact ih _ _ hy
          · rw [hy] at h; cases h
  have plain : ∀ s e, scanPlain F s = .error e → e = .valueError := by
    intro s e h
    unfold scanPlain at h
    split at h
    · cases h
    · split at h
      · cases h
      · split at h
        · cases h
        · unfold scanNumber at h
          split at h
          · cases h; rfl
          · split at h <;> cases h
  intro n
  induction n with
  | zero =>
    refine ⟨?_, ?_, ?_⟩
    · intro s e h; simp only [readVal] at h; cases h; rfl
    · intro acc s e h; simp only [readMembers] at h; cases h; rfl
    · intro acc s e h; simp only [readItems] at h; cases h; rfl
  | succ n ih =>
    obtain ⟨iv, im, il⟩ := ih
    refine ⟨?_, ?_, ?_⟩
    · intro s e h
      rcases s with _ | ⟨c, s⟩
      · simp only [readVal] at h; cases h; rfl
      simp only [readVal] at h
      split at h
      · rcases hx : scanString n s with e' | ⟨w, r⟩
        · rw [hx] at h; cases h; exact str _ _ _ hx
        · rw [hx] at h; cases h
      · split at h
        · split at h
          · cases h; rfl
          · split at h
            · cases h
            · exact im _ _ _ h
        · split at h
          · split at h
            · cases h; rfl
            · split at h
              · cases h
              · exact il _ _ _ h
          · exact plain _ _ h
    · intro acc s e h
      rcases s with _ | ⟨c, s⟩
      · simp only [readMembers] at h; cases h; rfl
      simp only [readMembers] at h
      split at h
      · rcases hx : scanString n s with e' | ⟨w, r⟩
        · rw [hx] at h; cases h; exact str _ _ _ hx
        · rw [hx] at h
          simp only [bind, Except.bind] at h
          split at h
          · cases h; rfl
          · split at h
            · rename_i r2 _ _
              rcases hz : readVal F n (skipWs r2) with e' | ⟨v1, r3⟩
              · rw [hz] at h; cases h; exact iv _ _ hz
              · rw [hz] at h
                simp only at h
                split at h
                · cases h; rfl
                · split at h
                  · cases h
                  · split at h
                    · exact im _ _ _ h
                    · cases h; rfl
            · cases h; rfl
      · cases h; rfl
    · intro acc s e h
      simp only [readItems] at h
      rcases hz : readVal F n s with e' | ⟨v1, r3⟩
      · rw [hz] at h; cases h; exact iv _ _ hz
      · rw [hz] at h
        simp only [bind, Except.bind] at h
        split at h
        · cases h; rfl
        · split at h
          · cases h
          · split at h
            · exact il _ _ _ h
            · cases h; rfl

/-- a beginning of the text of a dictionary is refused -/
theorem loads_torn (F : FloatText K) {d : List (String × PyVal K)} (h : Writable F (.dict d)) {t p : Str}
    (ht : dumpVal F 0 (.dict d) = .ok t) (hp : p <+: t) (hne : p ≠ t) : loads F p = .error .valueError := by
  obtain ⟨t', e1, e2⟩ := loads_dict F h
  rw [e1] at ht
  cases ht
  obtain ⟨q, hq⟩ := hp
  rcases p with _ | ⟨c, p⟩
  · simp [loads, skipWs, readVal, bind, Except.bind]
  · rw [List.cons_append] at hq
    obtain ⟨rfl, hq2⟩ := List.cons.inj hq
    clear hq
    unfold loads
    rw [skipWs_stop (by decide)]
    rcases hr : readVal F (2 * ('{' :: p).length + 2) ('{' :: p) with e | ⟨v, r⟩
    · rw [(read_error F _).1 _ _ hr]
      rfl
    · exfalso
      -- the whole text would be read in the same way, with the rest left over
      have hlong : ∀ m, 2 * ('{' :: p).length + 2 ≤ m → readVal F m ('{' :: t') = .ok (v, r ++ q) := by
        intro m hm
        obtain ⟨m, rfl⟩ : ∃ k, m = k + 1 := ⟨m - 1, by omega⟩
        simp only [readVal] at hr ⊢
        rw [if_neg (by decide), if_pos trivial] at hr ⊢
        rcases hx : skipWs p with _ | ⟨d', r'⟩
        · rw [hx] at hr; simp at hr
        · rw [hx] at hr
          rw [← hq2, skipWs_append hx]
          simp only at hr ⊢
          split at hr
          · rw [if_pos ‹_›]; cases hr; rfl
          · rw [if_neg ‹_›]
            exact (read_append F q _).2.1 m [] (d' :: r') r v (by omega) hr
      have h1 := hlong (2 * ('{' :: p).length + 2 + (2 * ('{' :: t').length + 1)) (by omega)
      rw [e2 _ (by omega)] at h1
      simp only [Except.ok.injEq, Prod.mk.injEq] at h1
      have : q = [] := (List.append_eq_nil_iff.1 h1.2.symm).2
      apply hne
      rw [← hq2, this, List.append_nil]

variable [Field K]

/-- **C200**: settings are read back from the text of their file, which consists of printable ASCII characters
and line feeds. -/
theorem C200_settings_file (F : FloatText K) (deg : K) {c : Cls} {v : PyVal K} (h : IsSettings c v) (hw : WritableSettings F c v) :
    ∃ t, toFile (jsonText F) v = .ok t ∧ fromFile (jsonText F) deg c t = .ok v ∧
      ∀ x ∈ t, x = '\n' ∨ (32 ≤ x.toNat ∧ x.toNat ≤ 126) := by
  obtain ⟨d, h1, h2⟩ := roundtrip_at deg h
  have hd := toDict_writable F hw h h1
  obtain ⟨t, e1, -⟩ := loads_dict F hd
  have hp : PlainText ('{' :: t) := plain_dump F hd 0 _ e1
  refine ⟨'{' :: t, by simp [toFile, h1, jsonText, e1, bind, Except.bind], ?_, hp⟩
  have := h2 _ (le_refl _)
  simp [fromFile, jsonText, newlines_plain hp, loads_written F hd e1, bind, Except.bind, fromDict, this]

/-- **C200**: what is left of the file if the program stops while the settings are being saved is what was there
before, or it is read as the new settings, or reading it raises `ValueError`. -/
theorem C200_interrupted (F : FloatText K) (deg : K) {c : Cls} {v : PyVal K} (h : IsSettings c v) (hw : WritableSettings F c v)
    {old p : Str} (hi : Interrupted F v old p) :
    p = old ∨ fromFile (jsonText F) deg c p = .ok v ∨ fromFile (jsonText F) deg c p = .error .valueError := by
  obtain ⟨d, h1, -⟩ := roundtrip_at deg h
  have hd := toDict_writable F hw h h1
  obtain ⟨t, e1, -⟩ := loads_dict F hd
  obtain ⟨t', f1, f2, f3⟩ := C200_settings_file F deg h hw
  have ht : t' = '{' :: t := by
    simp only [toFile, h1, jsonText, e1, bind, Except.bind, Except.ok.injEq] at f1
    exact f1.symm
  have torn : ∀ p, p <+: t' → p ≠ t' → fromFile (jsonText F) deg c p = .error .valueError := by
    intro p hp hne
    have hpp : PlainText p := fun x hx => f3 x (hp.subset hx)
    simp [fromFile, jsonText, newlines_plain hpp, loads_torn F hd (ht ▸ e1) hp hne, bind, Except.bind]
  cases hi with
  | before => exact .inl rfl
  | opened => exact .inr (.inr (torn [] (List.nil_prefix) (by rw [ht]; simp)))
  | during g1 g2 =>
    rw [f1] at g1
    cases g1
    by_cases hpt : p = t'
    · subst hpt; exact .inr (.inl f2)
    · exact .inr (.inr (torn p g2 hpt))

/-- **C200**: every proper beginning of the text is refused. -/
theorem C200_torn_text (F : FloatText K) (deg : K) {c : Cls} {v : PyVal K} (h : IsSettings c v) (hw : WritableSettings F c v)
    {t p : Str} (ht : toFile (jsonText F) v = .ok t) (hp : p <+: t) (hne : p ≠ t) :
    fromFile (jsonText F) deg c p = .error .valueError := by
  obtain ⟨d, h1, -⟩ := roundtrip_at deg h
  have hd := toDict_writable F hw h h1
  obtain ⟨t', e1, -⟩ := loads_dict F hd
  have ht' : '{' :: t' = t := by
    simp only [toFile, h1, jsonText, e1, bind, Except.bind, Except.ok.injEq] at ht
    exact ht
  subst ht'
  have hpp : PlainText p := fun x hx => plain_dump F hd 0 _ e1 x (hp.subset hx)
  simp [fromFile, jsonText, newlines_plain hpp, loads_torn F hd e1 hp hne, bind, Except.bind]

/-- numbers with three decimals -/
def threeDecimals : FloatText ℚ := ⟨fmtFixed 3, fun s => (parseNum s).getD 0⟩

/-- half a second in matching settings with a file name -/
def exNamed : PyVal ℚ :=
  .obj .matching [("method", .method .nearestTemporal), ("max_time_diff", .float (1 / 2)), ("max_distance", .float (-3)),
    ("k_nearest", .int 12)]

theorem exNamed_writable : WritableSettings threeDecimals .matching exNamed := by
  refine .mk _ _ (fun name c' v h => by simp [annotations] at h) (fun name v _ h => ?_)
  simp only [List.mem_cons, Prod.mk.injEq, List.not_mem_nil, or_false] at h
  rcases h with ⟨rfl, rfl⟩ | ⟨rfl, rfl⟩ | ⟨rfl, rfl⟩ | ⟨rfl, rfl⟩
  · exact .inl ⟨rfl, rfl⟩
  · refine .inr (.inr (.float _ ⟨[], "0".toList, ".500".toList, [], by decide +kernel, .inl rfl, ⟨by decide +kernel, by decide +kernel⟩,
      .inl rfl, .inr ⟨"500".toList, rfl, by decide +kernel, by decide +kernel⟩, .inl rfl, by decide +kernel⟩ (by decide +kernel)))
  · refine .inr (.inr (.float _ ⟨['-'], "3".toList, ".000".toList, [], by decide +kernel, .inr rfl, ⟨by decide +kernel, by decide +kernel⟩,
      .inr (by decide +kernel), .inr ⟨"000".toList, rfl, by decide +kernel, by decide +kernel⟩, .inl rfl, by decide +kernel⟩ (by decide +kernel)))
  · exact .inr (.inr (.int _))

/-- what is written -/
example : (toFile (jsonText threeDecimals) exNamed).toOption =
    some "{\n    \"method\": 2,\n    \"max_time_diff\": 0.500,\n    \"max_distance\": -3.000,\n    \"k_nearest\": 12\n}".toList := by
  decide +kernel

/-- the hypotheses are met, whatever was in the file before -/
example (old : Str) : Interrupted threeDecimals exNamed old "{\n    \"method\": 2,\n    \"max_t".toList := by
  refine .during (t := "{\n    \"method\": 2,\n    \"max_time_diff\": 0.500,\n    \"max_distance\": -3.000,\n    \"k_nearest\": 12\n}".toList) ?_ ?_
  · have : (toFile (jsonText threeDecimals) exNamed).toOption =
        some "{\n    \"method\": 2,\n    \"max_time_diff\": 0.500,\n    \"max_distance\": -3.000,\n    \"k_nearest\": 12\n}".toList := by
      decide +kernel
    rcases h : toFile (jsonText threeDecimals) exNamed with e | t
    · rw [h] at this; cases this
    · rw [h] at this; simp only [Except.toOption, Option.some.injEq] at this; rw [this]
  · decide +kernel

/-- text, surrogates and control characters in strings -/
example : quote "Zürich 😀\t\"x\"".toList = "\"Z\\u00fcrich \\ud83d\\ude00\\t\\\"x\\\"\"".toList := by decide +kernel

/-- a file that ends too early, one with something after the settings and one of two commas are refused -/
example : (loads threeDecimals "{\"a\": 1".toList |>.toOption.isSome) = false ∧
    (loads threeDecimals "{\"a\": 1} x".toList |>.toOption.isSome) = false ∧
    (loads threeDecimals "{\"a\": 1,, \"b\": 2}".toList |>.toOption.isSome) = false := by
  refine ⟨?_, ?_, ?_⟩ <;> decide +kernel

end Settings
end TC
