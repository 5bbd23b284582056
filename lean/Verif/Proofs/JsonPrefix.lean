import Verif.Model.Json
import Verif.Proofs.Text
/-!
# Reading a longer text

What has been read of a text is read in the same way if more text follows.
-/
namespace TC
namespace Settings
variable {K : Type}

theorem skipWs_append {s r : Str} {d : Char} (h : skipWs s = d :: r) (q : Str) : skipWs (s ++ q) = d :: (r ++ q) := by
  induction s with
  | nil => simp [skipWs] at h
  | cons c s ih =>
    unfold skipWs at *
    rw [List.cons_append]
    rw [List.dropWhile_cons] at h ⊢
    split at h
    · rw [if_pos ‹_›]; exact ih h
    · rw [if_neg ‹_›]
      cases h
      rfl

theorem hex4_append {s r : Str} {n : Nat} (h : hex4 s = .ok (n, r)) (q : Str) : hex4 (s ++ q) = .ok (n, r ++ q) := by
  match s, h with
  | [], h => simp [hex4] at h
  | [_], h => simp [hex4] at h
  | [_, _], h => simp [hex4] at h
  | [_, _, _], h => simp [hex4] at h
  | a :: b :: c :: d :: s, h =>
    simp only [hex4, List.cons_append] at h ⊢
    split at h
    · cases h
      simp [*]
    · simp at h

theorem lowHalf_append {n : Nat} {s r : Str} {c : Option Char} (h : lowHalf n s = .ok (c, r)) (q : Str) :
    lowHalf n (s ++ q) = .ok (c, r ++ q) := by
  match s, h with
  | [], h => simp [lowHalf] at h
  | [_], h => simp [lowHalf] at h
  | a :: b :: s, h =>
    simp only [lowHalf, List.cons_append] at h ⊢
    split at h
    · rw [if_pos ‹_›]
      rcases hx : hex4 s with e | ⟨m, r'⟩
      · rw [hx] at h; simp [bind, Except.bind] at h
      · rw [hx] at h
        rw [hex4_append hx]
        simp only [bind, Except.bind] at h ⊢
        split at h
        · rw [if_pos ‹_›]; cases h; rfl
        · simp at h
    · simp at h

theorem scanEscape_append {s r : Str} {c : Option Char} (h : scanEscape s = .ok (c, r)) (q : Str) :
    scanEscape (s ++ q) = .ok (c, r ++ q) := by
  match s, h with
  | [], h => simp [scanEscape] at h
  | a :: s, h =>
    simp only [scanEscape, List.cons_append] at h ⊢
    split at h
    · rw [if_pos ‹_›]
      rcases hx : hex4 s with e | ⟨m, r'⟩
      · rw [hx] at h; simp [bind, Except.bind] at h
      · rw [hx] at h
        rw [hex4_append hx]
        simp only [bind, Except.bind] at h ⊢
        split at h
        · rw [if_pos ‹_›]; exact lowHalf_append h q
        · rw [if_neg ‹_›]
          split at h
          · simp at h
          · rw [if_neg ‹_›]; cases h; rfl
    · rw [if_neg ‹_›]
      split at h
      · cases h; simp [*]
      · simp at h

theorem scanChar_append {s r : Str} {c : Option Char} (h : scanChar s = .ok (c, r)) (q : Str) :
    scanChar (s ++ q) = .ok (c, r ++ q) := by
  match s, h with
  | [], h => simp [scanChar] at h
  | a :: s, h =>
    simp only [scanChar, List.cons_append] at h ⊢
    split at h
    · rw [if_pos ‹_›]; cases h; rfl
    · rw [if_neg ‹_›]
      split at h
      · rw [if_pos ‹_›]; exact scanEscape_append h q
      · rw [if_neg ‹_›]
        split at h
        · simp at h
        · rw [if_neg ‹_›]; cases h; rfl

theorem scanString_append (q : Str) : ∀ (n m : Nat) (s r w : Str), n ≤ m → scanString n s = .ok (w, r) →
    scanString m (s ++ q) = .ok (w, r ++ q) := by
  intro n
  induction n with
  | zero => intro m s r w _ h; simp [scanString] at h
  | succ n ih =>
    intro m s r w hm h
    obtain ⟨m, rfl⟩ : ∃ k, m = k + 1 := ⟨m - 1, by omega⟩
    simp only [scanString] at h ⊢
    rcases hx : scanChar s with e | ⟨c, r'⟩
    · rw [hx] at h; simp [bind, Except.bind] at h
    · rw [hx] at h
      rw [scanChar_append hx]
      simp only [bind, Except.bind] at h ⊢
      rcases c with _ | c
      · cases h; rfl
      · simp only at h ⊢
        rcases hy : scanString n r' with e | ⟨cs, r''⟩
        · rw [hy] at h; simp at h
        · rw [hy] at h
          rw [ih m r' r'' cs (by omega) hy]
          simp only [pure, Except.pure] at h ⊢
          cases h; rfl

/-- the text goes on with white space or a closing or separating character -/
def Ends (r : Str) : Prop := ∃ c r', r = c :: r' ∧ (jsonSpace c = true ∨ c = ',' ∨ c = '}' ∨ c = ']')

theorem Ends.append {r : Str} (h : Ends r) (q : Str) : Ends (r ++ q) := by
  obtain ⟨c, r', rfl, h⟩ := h
  exact ⟨c, r' ++ q, rfl, h⟩

theorem Ends.not_part {c : Char} (h : jsonSpace c = true ∨ c = ',' ∨ c = '}' ∨ c = ']') :
    isDig c = false ∧ c ≠ '.' ∧ c ≠ 'e' ∧ c ≠ 'E' ∧ c ≠ '-' ∧ c ≠ '+' := by
  have : c = ' ' ∨ c = '\t' ∨ c = '\n' ∨ c = '\r' ∨ c = ',' ∨ c = '}' ∨ c = ']' := by
    rcases h with h | h
    · simp only [jsonSpace, Bool.or_eq_true, beq_iff_eq] at h
      tauto
    · tauto
  rcases this with rfl | rfl | rfl | rfl | rfl | rfl | rfl <;> decide

theorem ends_of_skipWs {r r' : Str} {d : Char} (h : skipWs r = d :: r') (hd : d = ',' ∨ d = '}' ∨ d = ']') : Ends r := by
  match r, h with
  | [], h => simp [skipWs] at h
  | c :: r, h =>
    unfold skipWs at h
    rw [List.dropWhile_cons] at h
    split at h
    · exact ⟨c, r, rfl, .inl ‹_›⟩
    · cases h
      exact ⟨_, _, rfl, .inr hd⟩

theorem digits_append {s : Str} (q : Str) (h : s.dropWhile isDig ≠ []) :
    (s ++ q).takeWhile isDig = s.takeWhile isDig ∧ (s ++ q).dropWhile isDig = s.dropWhile isDig ++ q := by
  induction s with
  | nil => simp at h
  | cons c s ih =>
    rw [List.cons_append]
    simp only [List.takeWhile_cons, List.dropWhile_cons] at h ⊢
    split
    · rw [if_pos ‹_›] at h
      obtain ⟨h1, h2⟩ := ih h
      exact ⟨by rw [h1], h2⟩
    · exact ⟨rfl, rfl⟩

theorem numSign_append {b : Bool} {s : Str} (q : Str) (h : s ≠ []) :
    numSign b (s ++ q) = ((numSign b s).1, (numSign b s).2 ++ q) := by
  match s, h with
  | c :: s, _ =>
    simp only [numSign, List.cons_append]
    split <;> rfl

theorem numExp_append {s : Str} (q : Str) (h : Ends (numExp s).2) : numExp (s ++ q) = ((numExp s).1, (numExp s).2 ++ q) := by
  match s, h with
  | [], h => obtain ⟨c, r, hc, -⟩ := h; simp [numExp] at hc
  | c :: r, h =>
    simp only [numExp, List.cons_append] at h ⊢
    by_cases hc : c = 'e' ∨ c = 'E'
    · by_cases hd : (numSign false r).2.takeWhile isDig = []
      · rw [if_neg (by simp [hd])] at h
        obtain ⟨d, r', he, hd⟩ := h
        cases he
        have := Ends.not_part hd
        tauto
      · rw [if_pos ⟨hc, hd⟩] at h
        obtain ⟨d, r', he, -⟩ := h
        have hr : r ≠ [] := by rintro rfl; simp [numSign] at hd
        obtain ⟨g1, g2⟩ := digits_append q (s := (numSign false r).2) (by simp only at he; rw [he]; simp)
        rw [numSign_append q hr]
        simp only [g1, g2]
        rw [if_pos ⟨hc, hd⟩, if_pos ⟨hc, hd⟩]
    · rw [if_neg (fun h => hc h.1), if_neg (fun h => hc h.1)]
      rfl

theorem numFrac_append {s : Str} (q : Str) (h : Ends (numExp (numFrac s).2).2) :
    numFrac (s ++ q) = ((numFrac s).1, (numFrac s).2 ++ q) := by
  match s, h with
  | [], h => obtain ⟨c, r, hc, -⟩ := h; simp [numExp, numFrac] at hc
  | c :: r, h =>
    simp only [numFrac, List.cons_append] at h ⊢
    by_cases hc : c = '.'
    · by_cases hd : r.takeWhile isDig = []
      · rw [if_neg (by simp [hd])] at h
        subst hc
        rw [show numExp ('.' :: r) = ([], '.' :: r) by simp [numExp]] at h
        obtain ⟨d, r', he, hd⟩ := h
        cases he
        have := Ends.not_part hd
        tauto
      · rw [if_pos ⟨hc, hd⟩] at h
        obtain ⟨d, r', he, -⟩ := h
        obtain ⟨g1, g2⟩ := digits_append q (s := r) (by
          intro h0
          simp [h0, numExp] at he)
        rw [g1, g2, if_pos ⟨hc, hd⟩, if_pos ⟨hc, hd⟩]
    · rw [if_neg (fun h => hc h.1), if_neg (fun h => hc h.1)]
      rfl

theorem scanNumber_append (F : FloatText K) {s r : Str} {v : PyVal K} (h : scanNumber F s = .ok (v, r)) (he : Ends r) (q : Str) :
    scanNumber F (s ++ q) = .ok (v, r ++ q) := by
  have hs : s ≠ [] := by rintro rfl; simp [scanNumber, numSign, numInt] at h
  unfold scanNumber at h ⊢
  rw [numSign_append q hs]
  simp only
  rcases hi : numInt (numSign true s).2 with _ | ⟨ip, r1⟩
  · rw [hi] at h; simp at h
  · rw [hi] at h
    simp only at h
    -- the rest after everything that was read ends the number
    have hends : Ends (numExp (numFrac r1).2).2 := by
      split at h
      · rename_i hz
        cases h
        have e1 : (numFrac r).2 = r := by
          rcases r with _ | ⟨c, r⟩
          · rfl
          · have := hz.1
            simp only [numFrac] at this ⊢
            split at this
            · simp at this
            · rw [if_neg ‹_›]
        have e2 : ∀ t, (numExp t).1 = [] → (numExp t).2 = t := by
          intro t ht
          rcases t with _ | ⟨c, r⟩
          · rfl
          · simp only [numExp] at ht ⊢
            split at ht
            · simp at ht
            · rw [if_neg ‹_›]
        rw [e1] at hz ⊢
        rw [e2 _ hz.2]
        exact he
      · cases h; exact he
    have hne1 : r1 ≠ [] := by
      rintro rfl
      obtain ⟨c, r', hc, -⟩ := hends
      simp [numFrac, numExp] at hc
    have hint : numInt ((numSign true s).2 ++ q) = some (ip, r1 ++ q) := by
      rcases hsn : (numSign true s).2 with _ | ⟨c, t⟩
      · rw [hsn] at hi; simp [numInt] at hi
      · rw [hsn] at hi
        simp only [numInt, List.cons_append] at hi ⊢
        split at hi
        · rw [if_pos ‹_›]; cases hi; rfl
        · rw [if_neg ‹_›]
          split at hi
          · rw [if_pos ‹_›]
            simp only [Option.some.injEq, Prod.mk.injEq] at hi
            obtain ⟨rfl, hi⟩ := hi
            obtain ⟨g1, g2⟩ := digits_append q (s := t) (by rw [hi]; exact hne1)
            rw [g1, g2, hi]
          · simp at hi
    rw [hint]
    simp only
    rw [numFrac_append q hends]
    simp only
    rw [numExp_append q hends]
    split at h
    · rw [if_pos ‹_›]; cases h; rfl
    · rw [if_neg ‹_›]; cases h; rfl

theorem afterWord_eq {w s r : Str} (h : afterWord w s = some r) : s = w ++ r := by
  induction w generalizing s with
  | nil => simp [afterWord] at h; simp [h]
  | cons a w ih =>
    rcases s with _ | ⟨c, s⟩
    · simp [afterWord] at h
    · simp only [afterWord] at h
      split at h
      · subst_vars; rw [ih h]; rfl
      · simp at h

theorem afterWord_self (w r : Str) : afterWord w (w ++ r) = some r := by
  induction w with
  | nil => rfl
  | cons a w ih => simp [afterWord, ih]

theorem scanNumber_head (F : FloatText K) {s r : Str} {v : PyVal K} (h : scanNumber F s = .ok (v, r)) :
    ∃ c t, s = c :: t ∧ (c = '-' ∨ isDig c = true) := by
  rcases s with _ | ⟨c, t⟩
  · simp [scanNumber, numSign, numInt] at h
  · refine ⟨c, t, rfl, ?_⟩
    by_contra hc
    push Not at hc
    have h1 : numSign true (c :: t) = ([], c :: t) := by simp [numSign, hc.1]
    have h2 : numInt (c :: t) = Option.none := by
      simp only [numInt]
      rw [if_neg (by rintro rfl; exact hc.2 (by decide)), if_neg (by simpa using hc.2)]
    unfold scanNumber at h
    rw [h1] at h
    simp [h2] at h

theorem scanPlain_number (F : FloatText K) {c : Char} {t : Str} (hc : c = '-' ∨ isDig c = true) :
    scanPlain F (c :: t) = scanNumber F (c :: t) := by
  have hne : c ≠ 'n' ∧ c ≠ 't' ∧ c ≠ 'f' := by
    rcases hc with rfl | hc
    · decide
    · refine ⟨?_, ?_, ?_⟩ <;> (rintro rfl; exact absurd hc (by decide))
  unfold scanPlain
  have e : ∀ (a : Char) w, a ≠ c → afterWord (a :: w) (c :: t) = Option.none := fun a w h => by simp [afterWord, h]
  rw [show "null".toList = 'n' :: "ull".toList from rfl, show "true".toList = 't' :: "rue".toList from rfl,
    show "false".toList = 'f' :: "alse".toList from rfl, e _ _ hne.1.symm, e _ _ hne.2.1.symm, e _ _ hne.2.2.symm]

theorem scanPlain_append (F : FloatText K) {s r : Str} {v : PyVal K} (h : scanPlain F s = .ok (v, r)) (he : Ends r) (q : Str) :
    scanPlain F (s ++ q) = .ok (v, r ++ q) := by
  unfold scanPlain at h
  split at h
  · rename_i r' hr
    cases h
    rw [afterWord_eq hr, List.append_assoc, scanPlain, afterWord_self]
  · split at h
    · rename_i r' hr
      cases h
      rw [afterWord_eq hr, List.append_assoc, scanPlain, afterWord_self]
      simp [afterWord]
    · split at h
      · rename_i r' hr
        cases h
        rw [afterWord_eq hr, List.append_assoc, scanPlain, afterWord_self]
        simp [afterWord]
      · obtain ⟨c, t, rfl, hc⟩ := scanNumber_head F h
        rw [List.cons_append, scanPlain_number F hc, ← List.cons_append]
        exact scanNumber_append F h he q

/-- more text and a larger bound do not change what is read -/
theorem read_append (F : FloatText K) (q : Str) : ∀ n : Nat,
    (∀ m s r v, n ≤ m → Ends r → readVal F n s = .ok (v, r) → readVal F m (s ++ q) = .ok (v, r ++ q)) ∧
    (∀ m acc s r v, n ≤ m → readMembers F n acc s = .ok (v, r) → readMembers F m acc (s ++ q) = .ok (v, r ++ q)) ∧
    (∀ m acc s r v, n ≤ m → readItems F n acc s = .ok (v, r) → readItems F m acc (s ++ q) = .ok (v, r ++ q)) := by
  intro n
  induction n with
  | zero => exact ⟨by simp [readVal], by simp [readMembers], by simp [readItems]⟩
  | succ n ih =>
    obtain ⟨iv, im, il⟩ := ih
    refine ⟨?_, ?_, ?_⟩
    · intro m s r v hm he h
      obtain ⟨m, rfl⟩ : ∃ k, m = k + 1 := ⟨m - 1, by omega⟩
      rcases s with _ | ⟨c, s⟩
      · simp [readVal] at h
      rw [List.cons_append]
      simp only [readVal] at h ⊢
      split at h
      · rw [if_pos ‹_›]
        rcases hx : scanString n s with e | ⟨w, r'⟩
        · rw [hx] at h; simp [bind, Except.bind] at h
        · rw [hx] at h
          rw [scanString_append q n m s r' w (by omega) hx]
          simp only [bind, Except.bind, pure, Except.pure] at h ⊢
          cases h; rfl
      · rw [if_neg ‹_›]
        split at h
        · rw [if_pos ‹_›]
          rcases hx : skipWs s with _ | ⟨d, r'⟩
          · rw [hx] at h; simp at h
          · rw [hx] at h
            rw [skipWs_append hx]
            simp only at h ⊢
            split at h
            · rw [if_pos ‹_›]; cases h; rfl
            · rw [if_neg ‹_›]; exact im m [] (d :: r') r v (by omega) h
        · rw [if_neg ‹_›]
          split at h
          · rw [if_pos ‹_›]
            rcases hx : skipWs s with _ | ⟨d, r'⟩
            · rw [hx] at h; simp at h
            · rw [hx] at h
              rw [skipWs_append hx]
              simp only at h ⊢
              split at h
              · rw [if_pos ‹_›]; cases h; rfl
              · rw [if_neg ‹_›]; exact il m [] (d :: r') r v (by omega) h
          · rw [if_neg ‹_›]
            exact scanPlain_append F h he q
    · intro m acc s r v hm h
      obtain ⟨m, rfl⟩ : ∃ k, m = k + 1 := ⟨m - 1, by omega⟩
      rcases s with _ | ⟨c, s⟩
      · simp [readMembers] at h
      rw [List.cons_append]
      simp only [readMembers] at h ⊢
      split at h
      · rw [if_pos ‹_›]
        rcases hx : scanString n s with e | ⟨w, r'⟩
        · rw [hx] at h; simp [bind, Except.bind] at h
        · rw [hx] at h
          rw [scanString_append q n m s r' w (by omega) hx]
          simp only [bind, Except.bind] at h ⊢
          rcases hy : skipWs r' with _ | ⟨d, r2⟩
          · rw [hy] at h; simp at h
          · rw [hy] at h
            rw [skipWs_append hy]
            simp only at h ⊢
            split at h
            · rw [if_pos ‹_›]
              rcases hz : readVal F n (skipWs r2) with e | ⟨v1, r3⟩
              · rw [hz] at h; simp at h
              · rw [hz] at h
                simp only at h
                rcases hw : skipWs r3 with _ | ⟨d', r4⟩
                · rw [hw] at h; simp at h
                · rw [hw] at h
                  simp only at h
                  have hsk : skipWs r2 ≠ [] := by
                    intro h0
                    rw [h0] at hz
                    rcases n with _ | n <;> simp [readVal] at hz
                  obtain ⟨e0, r0, h0⟩ := List.exists_cons_of_ne_nil hsk
                  have hsa : skipWs (r2 ++ q) = skipWs r2 ++ q := by rw [skipWs_append h0, h0]; rfl
                  have hd' : d' = ',' ∨ d' = '}' ∨ d' = ']' := by
                    by_contra hc
                    push Not at hc
                    rw [if_neg hc.2.1, if_neg hc.1] at h
                    simp at h
                  rw [hsa, iv m _ _ _ (by omega) (ends_of_skipWs hw hd') hz]
                  simp only
                  rw [skipWs_append hw]
                  simp only
                  split at h
                  · rw [if_pos ‹_›]; cases h; rfl
                  · rw [if_neg ‹_›]
                    split at h
                    · rw [if_pos ‹_›]
                      have hsk : skipWs r4 ≠ [] := by
                        intro h0
                        rw [h0] at h
                        rcases n with _ | n <;> simp [readMembers] at h
                      obtain ⟨e0, r0, h0⟩ := List.exists_cons_of_ne_nil hsk
                      have hsa : skipWs (r4 ++ q) = skipWs r4 ++ q := by rw [skipWs_append h0, h0]; rfl
                      rw [hsa]
                      exact im m _ _ _ _ (by omega) h
                    · simp at h
            · simp at h
      · simp at h
    · intro m acc s r v hm h
      obtain ⟨m, rfl⟩ : ∃ k, m = k + 1 := ⟨m - 1, by omega⟩
      simp only [readItems] at h ⊢
      rcases hz : readVal F n s with e | ⟨v1, r3⟩
      · rw [hz] at h; simp [bind, Except.bind] at h
      · rw [hz] at h
        simp only [bind, Except.bind] at h ⊢
        rcases hw : skipWs r3 with _ | ⟨d', r4⟩
        · rw [hw] at h; simp at h
        · rw [hw] at h
          simp only at h
          have hd' : d' = ',' ∨ d' = '}' ∨ d' = ']' := by
            by_contra hc
            push Not at hc
            rw [if_neg hc.2.2, if_neg hc.1] at h
            simp at h
          rw [iv m _ _ _ (by omega) (ends_of_skipWs hw hd') hz]
          simp only
          rw [skipWs_append hw]
          simp only
          split at h
          · rw [if_pos ‹_›]; cases h; rfl
          · rw [if_neg ‹_›]
            split at h
            · rw [if_pos ‹_›]
              have hsk : skipWs r4 ≠ [] := by
                intro h0
                rw [h0] at h
                rcases n with _ | _ | n <;> simp [readItems, readVal, bind, Except.bind] at h
              obtain ⟨e0, r0, h0⟩ := List.exists_cons_of_ne_nil hsk
              have hsa : skipWs (r4 ++ q) = skipWs r4 ++ q := by rw [skipWs_append h0, h0]; rfl
              rw [hsa]
              exact il m _ _ _ _ (by omega) h
            · simp at h

end Settings
end TC
