import Verif.Proofs.JsonPrefix
/-!
# The bound of the recursion of the JSON reader is never reached
-/
namespace TC
namespace Settings
variable {K : Type}

theorem skipWs_length (s : Str) : (skipWs s).length ≤ s.length := (List.dropWhile_sublist _).length_le

theorem hex4_length {s r : Str} {n : Nat} (h : hex4 s = .ok (n, r)) : r.length < s.length := by
  unfold hex4 at h
  split at h
  · split at h
    · simp only [Except.ok.injEq, Prod.mk.injEq] at h
      rw [← h.2]
      simp only [List.length_cons]
      omega
    · cases h
  · cases h

theorem lowHalf_length {n : Nat} {s r : Str} {c : Option Char} (h : lowHalf n s = .ok (c, r)) : r.length < s.length := by
  unfold lowHalf at h
  split at h
  · rename_i a b t
    split at h
    · rcases hx : hex4 t with e' | ⟨m, r'⟩
      · rw [hx] at h; cases h
      · rw [hx] at h
        have := hex4_length hx
        simp only [bind, Except.bind] at h
        split at h
        · simp only [Except.ok.injEq, Prod.mk.injEq] at h
          rw [← h.2]
          simp only [List.length_cons]
          omega
        · cases h
    · cases h
  · cases h

theorem scanChar_length {s r : Str} {c : Option Char} (h : scanChar s = .ok (c, r)) : r.length < s.length := by
  unfold scanChar at h
  split at h
  · cases h
  · rename_i d t
    simp only [List.length_cons]
    split at h
    · simp only [Except.ok.injEq, Prod.mk.injEq] at h; rw [← h.2]; omega
    · split at h
      · unfold scanEscape at h
        split at h
        · cases h
        · rename_i f t
          simp only [List.length_cons]
          split at h
          · rcases hx : hex4 t with e' | ⟨m, r'⟩
            · rw [hx] at h; cases h
            · rw [hx] at h
              have := hex4_length hx
              simp only [bind, Except.bind] at h
              split at h
              · have := lowHalf_length h
                omega
              · split at h
                · cases h
                · simp only [Except.ok.injEq, Prod.mk.injEq] at h; rw [← h.2]; omega
          · split at h
            · simp only [Except.ok.injEq, Prod.mk.injEq] at h; rw [← h.2]; omega
            · cases h
      · split at h
        · cases h
        · simp only [Except.ok.injEq, Prod.mk.injEq] at h; rw [← h.2]; omega

theorem scanString_length : ∀ (n : Nat) {s r w : Str}, scanString n s = .ok (w, r) → r.length < s.length := by
  intro n
  induction n with
  | zero => intro s r w h; simp only [scanString] at h; cases h
  | succ n ih =>
    intro s r w h
    simp only [scanString] at h
    rcases hx : scanChar s with e' | ⟨c, t⟩
    · rw [hx] at h; cases h
    · have h1 := scanChar_length hx
      rw [hx] at h
      simp only [bind, Except.bind] at h
      split at h
      · simp only [Except.ok.injEq, Prod.mk.injEq] at h; rw [← h.2]; exact h1
      · rcases hy : scanString n t with e' | ⟨c, t'⟩
        · rw [hy] at h; cases h
        · rw [hy] at h
          have := ih hy
          simp only [pure, Except.pure, Except.ok.injEq, Prod.mk.injEq] at h
          rw [← h.2]
          omega

theorem scanString_bound : ∀ (n : Nat) (s : Str), s.length < n → scanString (n + 1) s = scanString n s := by
  intro n
  induction n with
  | zero => intro s h; omega
  | succ n ih =>
    intro s h
    rw [scanString, scanString]
    rcases hx : scanChar s with e' | ⟨c, t⟩
    · rfl
    · have h1 := scanChar_length hx
      rcases c with _ | c
      · rfl
      · simp only [bind, Except.bind]
        rw [ih t (by omega)]

theorem scanPlain_length (F : FloatText K) {s r : Str} {v : PyVal K} (h : scanPlain F s = .ok (v, r)) : r.length ≤ s.length := by
  have sg : ∀ b t, (numSign b t).2.length ≤ t.length := by
    intro b t
    unfold numSign
    split
    · exact le_refl _
    · split <;> simp
  have dg : ∀ t : Str, (t.dropWhile isDig).length ≤ t.length := fun t => (List.dropWhile_sublist _).length_le
  have fr : ∀ t, (numFrac t).2.length ≤ t.length := by
    intro t
    unfold numFrac
    split
    · exact le_refl _
    · rename_i c t
      have := dg t
      split
      · simp only [List.length_cons]; omega
      · exact le_refl _
  have ex : ∀ t, (numExp t).2.length ≤ t.length := by
    intro t
    unfold numExp
    split
    · exact le_refl _
    · rename_i c t
      have := dg (numSign false t).2
      have := sg false t
      split
      · simp only [List.length_cons]; omega
      · exact le_refl _
  unfold scanPlain at h
  split at h
  · rename_i e
    simp only [Except.ok.injEq, Prod.mk.injEq] at h
    rw [afterWord_eq e, ← h.2]
    rw [List.length_append]; omega
  · split at h
    · rename_i e
      simp only [Except.ok.injEq, Prod.mk.injEq] at h
      rw [afterWord_eq e, ← h.2]
      rw [List.length_append]; omega
    · split at h
      · rename_i e
        simp only [Except.ok.injEq, Prod.mk.injEq] at h
        rw [afterWord_eq e, ← h.2]
        rw [List.length_append]; omega
      · unfold scanNumber at h
        split at h
        · cases h
        · rename_i ip r1 hi
          have h1 : r1.length ≤ (numSign true s).2.length := by
            unfold numInt at hi
            split at hi
            · cases hi
            · rename_i c t e
              rw [e]
              have := dg t
              simp only [List.length_cons]
              split at hi
              · simp only [Option.some.injEq, Prod.mk.injEq] at hi; rw [← hi.2]; omega
              · split at hi
                · simp only [Option.some.injEq, Prod.mk.injEq] at hi; rw [← hi.2]; omega
                · cases hi
          have := sg true s
          have := fr r1
          have := ex (numFrac r1).2
          split at h <;> (simp only [Except.ok.injEq, Prod.mk.injEq] at h; rw [← h.2]; omega)

theorem read_length (F : FloatText K) : ∀ n : Nat,
    (∀ s r v, readVal F n s = .ok (v, r) → r.length ≤ s.length) ∧
    (∀ acc s r v, readMembers F n acc s = .ok (v, r) → r.length ≤ s.length) ∧
    (∀ acc s r v, readItems F n acc s = .ok (v, r) → r.length ≤ s.length) := by
  intro n
  induction n with
  | zero =>
    refine ⟨?_, ?_, ?_⟩
    · intro s r v h; simp only [readVal] at h; cases h
    · intro acc s r v h; simp only [readMembers] at h; cases h
    · intro acc s r v h; simp only [readItems] at h; cases h
  | succ n ih =>
    obtain ⟨iv, im, il⟩ := ih
    refine ⟨?_, ?_, ?_⟩
    · intro s r v h
      rcases s with _ | ⟨c, s⟩
      · simp only [readVal] at h; cases h
      simp only [readVal] at h
      have hs := skipWs_length s
      split at h
      · rcases hx : scanString n s with e' | ⟨w, t⟩
        · rw [hx] at h; cases h
        · rw [hx] at h
          have := scanString_length n hx
          simp only [bind, Except.bind, pure, Except.pure, Except.ok.injEq, Prod.mk.injEq] at h
          rw [← h.2]
          simp only [List.length_cons]; omega
      · split at h
        · split at h
          · cases h
          · rename_i e
            rw [e] at hs
            simp only [List.length_cons] at hs ⊢
            split at h
            · simp only [Except.ok.injEq, Prod.mk.injEq] at h; rw [← h.2]; omega
            · have := im _ _ _ _ h
              simp only [List.length_cons] at this; omega
        · split at h
          · split at h
            · cases h
            · rename_i e
              rw [e] at hs
              simp only [List.length_cons] at hs ⊢
              split at h
              · simp only [Except.ok.injEq, Prod.mk.injEq] at h; rw [← h.2]; omega
              · have := il _ _ _ _ h
                simp only [List.length_cons] at this; omega
          · exact scanPlain_length F h
    · intro acc s r v h
      rcases s with _ | ⟨c, s⟩
      · simp only [readMembers] at h; cases h
      simp only [readMembers] at h
      split at h
      · rcases hx : scanString n s with e' | ⟨w, t⟩
        · rw [hx] at h; cases h
        · rw [hx] at h
          have h1 := scanString_length n hx
          have h2 := skipWs_length t
          simp only [bind, Except.bind] at h
          split at h
          · cases h
          · rename_i d t2 e
            rw [e] at h2
            split at h
            · have h3 := skipWs_length t2
              rcases hz : readVal F n (skipWs t2) with e' | ⟨v1, t3⟩
              · rw [hz] at h; cases h
              · rw [hz] at h
                have h4 := iv _ _ _ hz
                have h5 := skipWs_length t3
                simp only at h
                split at h
                · cases h
                · rename_i d4 t4 e4
                  rw [e4] at h5
                  simp only [List.length_cons] at *
                  split at h
                  · simp only [Except.ok.injEq, Prod.mk.injEq] at h; rw [← h.2]; omega
                  · split at h
                    · have h6 := im _ _ _ _ h
                      have h7 := skipWs_length t4
                      omega
                    · cases h
            · cases h
      · cases h
    · intro acc s r v h
      simp only [readItems] at h
      rcases hz : readVal F n s with e' | ⟨v1, t3⟩
      · rw [hz] at h; cases h
      · rw [hz] at h
        have h4 := iv _ _ _ hz
        have h5 := skipWs_length t3
        simp only [bind, Except.bind] at h
        split at h
        · cases h
        · rename_i d4 t4 e4
          rw [e4] at h5
          simp only [List.length_cons] at *
          split at h
          · simp only [Except.ok.injEq, Prod.mk.injEq] at h; rw [← h.2]; omega
          · split at h
            · have h6 := il _ _ _ _ h
              have h7 := skipWs_length t4
              omega
            · cases h

theorem read_bound (F : FloatText K) : ∀ n : Nat,
    (∀ s, 2 * s.length < n → readVal F (n + 1) s = readVal F n s) ∧
    (∀ acc s, 2 * s.length < n → readMembers F (n + 1) acc s = readMembers F n acc s) ∧
    (∀ acc s, 2 * s.length + 1 < n → readItems F (n + 1) acc s = readItems F n acc s) := by
  intro n
  induction n with
  | zero => refine ⟨?_, ?_, ?_⟩ <;> (intros; omega)
  | succ n ih =>
    obtain ⟨iv, im, il⟩ := ih
    refine ⟨?_, ?_, ?_⟩
    · intro s h
      rcases s with _ | ⟨c, s⟩
      · rw [readVal, readVal]
      · rw [readVal, readVal]
        simp only [List.length_cons] at h
        have hs := skipWs_length s
        rw [scanString_bound n s (by omega)]
        rcases e : skipWs s with _ | ⟨d, t⟩
        · rfl
        · rw [e] at hs
          simp only [List.length_cons] at hs
          simp only
          rw [im [] (d :: t) (by simp only [List.length_cons]; omega), il [] (d :: t) (by simp only [List.length_cons]; omega)]
    · intro acc s h
      rcases s with _ | ⟨c, s⟩
      · rw [readMembers, readMembers]
      · rw [readMembers, readMembers]
        simp only [List.length_cons] at h
        rw [scanString_bound n s (by omega)]
        split
        · rcases hx : scanString n s with e' | ⟨w, t⟩
          · rfl
          · have h1 := scanString_length n hx
            have h2 := skipWs_length t
            simp only [bind, Except.bind]
            rcases e : skipWs t with _ | ⟨d, t2⟩
            · rfl
            · rw [e] at h2
              simp only [List.length_cons] at h2
              simp only
              have h3 := skipWs_length t2
              rw [iv (skipWs t2) (by omega)]
              rcases hz : readVal F n (skipWs t2) with e' | ⟨v1, t3⟩
              · rfl
              · have h4 := (read_length F n).1 _ _ _ hz
                have h5 := skipWs_length t3
                simp only
                rcases e4 : skipWs t3 with _ | ⟨d4, t4⟩
                · rfl
                · rw [e4] at h5
                  simp only [List.length_cons] at h5
                  have h7 := skipWs_length t4
                  simp only
                  rw [im _ (skipWs t4) (by omega)]
        · rfl
    · intro acc s h
      rw [readItems, readItems, iv s (by omega)]
      rcases hz : readVal F n s with e' | ⟨v1, t3⟩
      · rfl
      · have h4 := (read_length F n).1 _ _ _ hz
        have h5 := skipWs_length t3
        simp only [bind, Except.bind]
        rcases e4 : skipWs t3 with _ | ⟨d4, t4⟩
        · rfl
        · rw [e4] at h5
          simp only [List.length_cons] at h5
          have h7 := skipWs_length t4
          simp only
          rw [il _ (skipWs t4) (by omega)]

/-- any larger bound gives the same outcome -/
theorem loads_bound (F : FloatText K) (s : Str) (m : Nat) (h : 2 * s.length + 2 ≤ m) :
    readVal F m (skipWs s) = readVal F (2 * s.length + 2) (skipWs s) := by
  induction m, h using Nat.le_induction with
  | base => rfl
  | succ m hm ih =>
    have := skipWs_length s
    rw [(read_bound F m).1 _ (by omega), ih]

end Settings
end TC
