import Verif.Proofs.Span
import Verif.Spec.Time
/-!
# Lemmas on `intersect` and `match_timestamps`
-/
namespace TC
variable {K R : Type}

theorem samples_zip_length {T : Traj K R} (h : Coherent T) :
    (T.pos.zip ((rotColumn T.tstamps.length T.rot).zip (T.arc.zip T.speed))).length
      = T.tstamps.length := by
  simp [rotColumn_length h, h.pos, h.arc, h.speed]

theorem samples_map_p {T : Traj K R} (h : Coherent T) : (samples T).map Sample.p = T.pos := by
  unfold samples
  rw [List.map_map]
  have : (Sample.p ∘ fun s : K × V3 K × Option R × K × V3 K =>
      (⟨s.1, s.2.1, s.2.2.1, s.2.2.2.1, s.2.2.2.2⟩ : Sample K R)) = Prod.fst ∘ Prod.snd := rfl
  rw [this, ← List.map_map, List.map_snd_zip, List.map_fst_zip]
  · simp [rotColumn_length h, h.pos, h.arc, h.speed]
  · simp [rotColumn_length h, h.pos, h.arc, h.speed]

theorem samples_map_r {T : Traj K R} (h : Coherent T) :
    (samples T).map Sample.r = rotColumn T.tstamps.length T.rot := by
  unfold samples
  rw [List.map_map]
  have : (Sample.r ∘ fun s : K × V3 K × Option R × K × V3 K =>
      (⟨s.1, s.2.1, s.2.2.1, s.2.2.2.1, s.2.2.2.2⟩ : Sample K R))
        = Prod.fst ∘ Prod.snd ∘ Prod.snd := rfl
  rw [this, ← List.map_map, ← List.map_map, List.map_snd_zip, List.map_snd_zip, List.map_fst_zip]
  all_goals simp [rotColumn_length h, h.pos, h.arc, h.speed]

theorem samples_map_l {T : Traj K R} (h : Coherent T) : (samples T).map Sample.l = T.arc := by
  unfold samples
  rw [List.map_map]
  have : (Sample.l ∘ fun s : K × V3 K × Option R × K × V3 K =>
      (⟨s.1, s.2.1, s.2.2.1, s.2.2.2.1, s.2.2.2.2⟩ : Sample K R))
        = Prod.fst ∘ Prod.snd ∘ Prod.snd ∘ Prod.snd := rfl
  rw [this, ← List.map_map, ← List.map_map, ← List.map_map, List.map_snd_zip, List.map_snd_zip,
    List.map_snd_zip, List.map_fst_zip]
  all_goals simp [rotColumn_length h, h.pos, h.arc, h.speed]

theorem samples_map_v {T : Traj K R} (h : Coherent T) : (samples T).map Sample.v = T.speed := by
  unfold samples
  rw [List.map_map]
  have : (Sample.v ∘ fun s : K × V3 K × Option R × K × V3 K =>
      (⟨s.1, s.2.1, s.2.2.1, s.2.2.2.1, s.2.2.2.2⟩ : Sample K R))
        = Prod.snd ∘ Prod.snd ∘ Prod.snd ∘ Prod.snd := rfl
  rw [this, ← List.map_map, ← List.map_map, ← List.map_map, List.map_snd_zip, List.map_snd_zip,
    List.map_snd_zip, List.map_snd_zip]
  all_goals simp [rotColumn_length h, h.pos, h.arc, h.speed]

/-- samples and the remaining attributes determine a trajectory -/
theorem coherent_ext {T T' : Traj K R} (h : Coherent T) (h' : Coherent T') (hm : SameMeta T T')
    (hs : samples T' = samples T) : T' = T := by
  have e1 : T'.tstamps = T.tstamps := by rw [← samples_map_t h, ← samples_map_t h', hs]
  have e2 : T'.pos = T.pos := by rw [← samples_map_p h, ← samples_map_p h', hs]
  have e3 : T'.arc = T.arc := by rw [← samples_map_l h, ← samples_map_l h', hs]
  have e4 : T'.speed = T.speed := by rw [← samples_map_v h, ← samples_map_v h', hs]
  have e5 : rotColumn T'.tstamps.length T'.rot = rotColumn T.tstamps.length T.rot := by
    rw [← samples_map_r h, ← samples_map_r h', hs]
  have e6 : T'.rot = T.rot := by
    have hi := hm.rot
    cases h1 : T'.rot <;> cases h2 : T.rot <;> rw [h1, h2] at hi e5 <;> simp [rotColumn] at hi e5 ⊢
    exact List.map_injective_iff.2 (Option.some_injective _) e5
  have e7 := hm.name
  have e8 := hm.sorting
  have e9 := hm.epsg
  cases T; cases T'; simp_all

variable [Field K] [LinearOrder K]

/-- positions (from `i` on) where `f` holds -/
def keepIdx {α : Type} (f : α → Bool) : List α → Nat → List Int
  | [], _ => []
  | t :: ts, i => if f t then (i : Int) :: keepIdx f ts (i + 1) else keepIdx f ts (i + 1)

theorem keepIdx_map {α β : Type} (f : β → Bool) (g : α → β) (l : List α) (i : Nat) :
    keepIdx f (l.map g) i = keepIdx (fun a => f (g a)) l i := by
  induction l generalizing i with
  | nil => rfl
  | cons a l ih => simp [keepIdx, ih]

theorem keepIdx_valid {α : Type} (f : α → Bool) (l : List α) (i n : Nat) (h : l.length + i ≤ n) :
    IndexValid n (.ints (keepIdx f l i)) := by
  induction l generalizing i with
  | nil => simp [keepIdx, IndexValid]
  | cons a l ih =>
    have h2 := ih (i + 1) (by simp at h; omega)
    have h3 : pyPos n (i : Int) ≠ none := by
      rw [pyPos_natCast (by simp at h; omega)]; simp
    simp only [keepIdx]
    split
    · intro j hj
      rcases List.mem_cons.1 hj with rfl | hj
      · exact h3
      · exact h2 j hj
    · exact h2

theorem pick_keepIdx {α : Type} (f : α → Bool) (pre l : List α) :
    pick (.ints (keepIdx f l pre.length)) (pre ++ l) = l.filter f := by
  induction l generalizing pre with
  | nil => simp [keepIdx, pick]
  | cons a l ih =>
    have h1 := ih (pre ++ [a])
    simp only [List.length_append, List.length_cons, List.length_nil, List.append_assoc,
      List.cons_append, List.nil_append, Nat.zero_add] at h1
    simp only [keepIdx]
    cases hf : f a with
    | false => simpa [hf] using h1
    | true =>
      simp only [if_true, List.filter_cons, hf]
      rw [← h1]
      simp only [pick, List.filterMap_cons]
      rw [pyPos_natCast (by simp)]
      simp

omit [LinearOrder K] in
theorem gapFilter_eq [LinearOrder K] {sorted : List K} {g : K} {f : K → Bool} {l : List K} {i : Nat}
    (h : ∀ t ∈ l, Traj.gapKeep sorted g t = .ok (f t)) :
    Traj.gapFilter sorted g l i = .ok (keepIdx f l i) := by
  induction l generalizing i with
  | nil => rfl
  | cons t l ih =>
    simp only [Traj.gapFilter, h t (by simp), ih (fun t ht => h t (by simp [ht])), bind, Except.bind,
      pure, Except.pure, keepIdx]

open Classical in
/-- The gap test decides coverage. -/
theorem gapKeep_eq {ts : List K} {g t : K} (h : InSpan ts t) :
    Traj.gapKeep (npSort ts) g t = .ok (decide (t ∈ ts ∨
      ∃ a b, Successive ts a b ∧ a < t ∧ t < b ∧ b - a ≤ g)) := by
  obtain ⟨⟨a, ha, hat⟩, b, hb, htb⟩ := h
  have hs := npSort_sorted ts
  generalize hS : npSort ts = S at *
  have hmem : ∀ x, x ∈ S ↔ x ∈ ts := fun x => by rw [← hS]; exact mem_npSort
  obtain ⟨i, hi, rfl⟩ := List.getElem_of_mem ((hmem a).2 ha)
  obtain ⟨j, hj, rfl⟩ := List.getElem_of_mem ((hmem b).2 hb)
  have hpos := (searchRight_lt_iff hs t hi).2 hat
  have hle := searchRight_le S t
  unfold Traj.gapKeep
  have hc : ((searchRight S t : Int) - 1) = ((searchRight S t - 1 : Nat) : Int) := by omega
  have hc2 : (((searchRight S t - 1 : Nat) : Int) + 1) = ((searchRight S t : Nat) : Int) := by omega
  have hlow : S[searchRight S t - 1]'(by omega) ≤ t :=
    (searchRight_lt_iff hs t (by omega)).1 (by omega)
  simp only [hc, hc2, npGet_nat (l := S) (j := searchRight S t - 1) (by omega), bind, Except.bind, pure,
    Except.pure]
  split
  · rename_i heq
    congr 1
    symm
    rw [decide_eq_true_eq]
    left
    rw [← hmem, ← heq]
    exact List.getElem_mem _
  · rename_i hne
    have hlt := lt_of_le_of_ne hlow hne
    have hnm : t ∉ ts := by
      rw [← hmem]
      intro hm
      obtain ⟨k, hk, rfl⟩ := List.getElem_of_mem hm
      have h1 := (searchRight_lt_iff hs S[k] hk).2 (le_refl _)
      have h2 : S[k] ≤ S[searchRight S S[k] - 1]'(by omega) := sorted_getElem_le hs (by omega) (by omega)
      exact absurd hlt (not_lt.2 h2)
    have hlen : searchRight S t < S.length := by
      by_contra hcon
      have : searchRight S t = S.length := by omega
      have h1 : t ≤ S[searchRight S t - 1]'(by omega) :=
        le_trans htb (sorted_getElem_le hs (by omega) (by omega))
      exact absurd hlt (not_lt.2 h1)
    have hup : t < S[searchRight S t] := by
      rw [← not_le, ← searchRight_lt_iff hs t hlen]; omega
    rw [npGet_nat hlen]
    simp only
    have hsucc : Successive ts (S[searchRight S t - 1]'(by omega)) S[searchRight S t] := by
      refine ⟨(hmem _).1 (List.getElem_mem _), (hmem _).1 (List.getElem_mem _), lt_trans hlt hup, ?_⟩
      rintro c hc ⟨h1, h2⟩
      obtain ⟨k, hk, rfl⟩ := List.getElem_of_mem ((hmem c).2 hc)
      rcases Nat.lt_or_ge k (searchRight S t) with hk' | hk'
      · exact absurd h1 (not_lt.2 (sorted_getElem_le hs (by omega) (by omega)))
      · exact absurd h2 (not_lt.2 (sorted_getElem_le hs hk hk'))
    congr 1
    rw [decide_eq_decide]
    constructor
    · intro hg
      exact Or.inr ⟨_, _, hsucc, hlt, hup, hg⟩
    · rintro (hm | ⟨a', b', hs', h1, h2, hg⟩)
      · exact absurd hm hnm
      · obtain ⟨k, hk, rfl⟩ := List.getElem_of_mem ((hmem a').2 hs'.1)
        obtain ⟨m, hm, rfl⟩ := List.getElem_of_mem ((hmem b').2 hs'.2.1)
        have hk1 := (searchRight_lt_iff hs t hk).2 (le_of_lt h1)
        have hm1 : ¬ m < searchRight S t := by
          rw [searchRight_lt_iff hs t hm]; exact not_le.2 h2
        have e1 : S[k] = S[searchRight S t - 1]'(by omega) := by
          have hle1 : S[k] ≤ S[searchRight S t - 1]'(by omega) :=
            sorted_getElem_le hs (by omega) (by omega)
          rcases lt_or_eq_of_le hle1 with hlt1 | heq
          · exact absurd ⟨hlt1, lt_trans hlt h2⟩ (hs'.2.2.2 _ hsucc.1)
          · exact heq
        have e2 : S[m] = S[searchRight S t] := by
          have hle1 : S[searchRight S t] ≤ S[m] := sorted_getElem_le hs hm (by omega)
          rcases lt_or_eq_of_le hle1 with hlt1 | heq
          · exact absurd ⟨lt_trans h1 hup, hlt1⟩ (hs'.2.2.2 _ hsucc.2.1)
          · exact heq.symm
        rw [e1, e2] at hg
        exact hg

end TC
