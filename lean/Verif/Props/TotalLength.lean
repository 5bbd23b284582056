import Verif.Spec.TotalLength
import Verif.Props.Arc
import Verif.Props.TrajIndex
import Verif.Props.Construct
import Verif.Proofs.Intersect
/-!
# C185: the total length of a trajectory
-/
namespace TC
set_option linter.unusedSectionVars false
variable {K R : Type} [Field K] [LinearOrder K] [IsStrictOrderedRing K]

theorem pathLength_join (nrm : V3 K → K) (b : V3 K) (B : List (V3 K)) : ∀ A : List (V3 K),
    pathLength nrm (A ++ b :: B) = pathLength nrm (A ++ [b]) + pathLength nrm (b :: B)
  | [] => by simp [pathLength]
  | [a] => by simp [pathLength]
  | a :: c :: A => by
    have ih := pathLength_join nrm b B (c :: A)
    simp only [List.cons_append, pathLength] at ih ⊢
    rw [ih, add_assoc]

theorem pathLength_nonneg {nrm : V3 K → K} (hn : IsNorm nrm) : ∀ l : List (V3 K), 0 ≤ pathLength nrm l
  | [] => le_refl _
  | [_] => le_refl _
  | p :: q :: l => add_nonneg (hn.nonneg _) (pathLength_nonneg hn (q :: l))

/-- a path is at least as long as the straight line between its ends -/
theorem pathLength_ge {nrm : V3 K → K} (hn : IsNorm nrm) (b : V3 K) : ∀ (a : V3 K) (A : List (V3 K)),
    nrm (b - a) ≤ pathLength nrm (a :: A ++ [b])
  | a, [] => by simp [pathLength]
  | a, c :: A => by
    have ih := pathLength_ge hn b c A
    have e : b - c + (c - a) = b - a := by abel
    have h := hn.triangle (b - c) (c - a)
    rw [e] at h
    simp only [List.cons_append, pathLength] at ih ⊢
    linarith

theorem travelled_take {nrm : V3 K → K} {P : List (V3 K)} {arc : List K} (h : IsTravelled nrm P arc) :
    ∀ (i : Nat) (x : K), arc[i]? = some x → x = pathLength nrm (P.take (i + 1))
  | 0, x, hx => by
    have := h.start.symm.trans hx
    injection this with this
    rw [← this]
    cases P <;> simp [pathLength]
  | i + 1, x, hx => by
    have hl : i + 1 < P.length := by rw [← h.length]; exact (List.getElem?_eq_some_iff.1 hx).1
    obtain ⟨y, hy⟩ : ∃ y, arc[i]? = some y := ⟨_, List.getElem?_eq_getElem (by rw [h.length]; omega)⟩
    have hp : P[i]? = some P[i] := List.getElem?_eq_getElem (by omega)
    have hq : P[i + 1]? = some P[i + 1] := List.getElem?_eq_getElem hl
    have ih := travelled_take h i y hy
    rw [h.step i _ _ _ _ hp hq hy hx, ih]
    have e1 : P.take (i + 1) = P.take i ++ [P[i]] := by rw [List.take_add_one, hp]; rfl
    have e2 : P.take (i + 1 + 1) = P.take i ++ P[i] :: [P[i + 1]] := by
      have e3 : P.take (i + 1 + 1) = P.take (i + 1) ++ [P[i + 1]] := by rw [List.take_add_one (i := i + 1), hq]; rfl
      rw [e3, e1, List.append_assoc]; rfl
    rw [e2, pathLength_join, ← e1]
    simp [pathLength]

theorem new_arc {nrm : V3 K → K} {counter : Nat} {a : TrajArgs K R} {T : Traj K R} (hT : Traj.new nrm counter a = .ok T) :
    T.pos = a.pos ∧ T.arc = match a.arc with
      | some l => if l.length = a.pos.length then l else lengthsFromXyz nrm a.pos
      | none => lengthsFromXyz nrm a.pos := by
  unfold Traj.new at hT
  simp only [bind, Except.bind, pure, Except.pure, throw, throwThe, MonadExceptOf.throw] at hT
  repeat' split at hT
  all_goals first
  | (cases hT; refine ⟨rfl, ?_⟩; simp_all; done)
  | cases hT

/-- the total length is the last travelled distance -/
theorem totalLength_travelled {nrm : V3 K → K} {T : Traj K R} (h : IsTravelled nrm T.pos T.arc) :
    T.totalLength = .ok (pathLength nrm T.pos) := by
  have h0 : 0 < T.arc.length := (List.getElem?_eq_some_iff.1 h.start).1
  unfold Traj.totalLength
  rw [if_neg (by omega), pyLast_eq h0, travelled_take h (T.arc.length - 1) _ (List.getElem?_eq_getElem (by omega)),
    List.take_of_length_le (by rw [← h.length]; omega)]

/-- **C185**, after construction: the total length is the length of the path, whatever arc lengths of a wrong number were given. -/
theorem C185_constructed {nrm : V3 K → K} (counter : Nat) {a : TrajArgs K R} (ha : ∀ l, a.arc = some l → l.length ≠ a.pos.length)
    {T : Traj K R} (hT : Traj.new nrm counter a = .ok T) : T.totalLength = .ok (pathLength nrm T.pos) := by
  obtain ⟨h2, h1⟩ := new_arc hT
  have h1 : T.arc = lengthsFromXyz nrm a.pos := by
    rw [h1]
    rcases h : a.arc with _ | l
    · rfl
    · simp only [if_neg (ha l h)]
  by_cases hP : a.pos = []
  · unfold Traj.totalLength
    rw [h1, h2, hP]; rfl
  · have ht := C13_arc_lengths_are_travelled_distance nrm a.pos hP
    rw [← h1, ← h2] at ht
    exact totalLength_travelled ht

/-- a window of a list whose times never decrease is a part in the middle -/
theorem window_split {α : Type} (t : α → K) (a b : K) : ∀ l : List α, (l.map t).Pairwise (· ≤ ·) →
    ∃ A C, l = A ++ l.filter (fun s => decide (a ≤ t s ∧ t s ≤ b)) ++ C ∧ ((l.filter (fun s => decide (a ≤ t s ∧ t s ≤ b))) ≠ [] → ∀ s ∈ l, t s < a → s ∈ A)
  | [], _ => ⟨[], [], rfl, fun h => absurd rfl h⟩
  | x :: l, h => by
    rw [List.map_cons, List.pairwise_cons] at h
    obtain ⟨A, C, e, hA⟩ := window_split t a b l h.2
    by_cases h1 : t x < a
    · have hx : decide (a ≤ t x ∧ t x ≤ b) = false := by simp [h1]
      rw [List.filter_cons, hx]
      refine ⟨x :: A, C, by simpa using e, ?_⟩
      intro hne s hs hl
      rcases List.mem_cons.1 hs with rfl | hs
      · exact List.mem_cons_self
      · exact List.mem_cons_of_mem _ (hA hne s hs hl)
    · have h1' : a ≤ t x := not_lt.1 h1
      have hnone : ∀ s ∈ x :: l, ¬ t s < a := by
        intro s hs hl
        rcases List.mem_cons.1 hs with rfl | hs
        · exact h1 hl
        · exact absurd (lt_of_le_of_lt (h1'.trans (h.1 _ (List.mem_map_of_mem hs))) hl) (lt_irrefl _)
      by_cases h2 : t x ≤ b
      · have hx : decide (a ≤ t x ∧ t x ≤ b) = true := by simp [h1', h2]
        rw [List.filter_cons, hx]
        by_cases hA0 : A = []
        · subst hA0
          exact ⟨[], C, by simpa using e, fun _ s hs hl => absurd hl (hnone s hs)⟩
        · -- what comes before the window of the rest is not earlier than `a`, hence in it
          by_cases hf : l.filter (fun s => decide (a ≤ t s ∧ t s ≤ b)) = []
          · rw [hf]
            exact ⟨[], l, by simp, fun _ s hs hl => absurd hl (hnone s hs)⟩
          · exfalso
            obtain ⟨y, A', rfl⟩ := List.exists_cons_of_ne_nil hA0
            obtain ⟨z, F, hz⟩ := List.exists_cons_of_ne_nil hf
            have hmem : z ∈ l.filter (fun s => decide (a ≤ t s ∧ t s ≤ b)) := by rw [hz]; exact List.mem_cons_self
            have hzb := (of_decide_eq_true (List.mem_filter.1 hmem).2).2
            have hy : y ∈ l := by rw [e]; simp
            have hyz : t y ≤ t z := by
              have := h.2
              rw [e, hz] at this
              simp only [List.cons_append, List.map_cons, List.pairwise_cons] at this
              exact this.1 _ (by simp)
            have hyin : y ∈ l.filter (fun s => decide (a ≤ t s ∧ t s ≤ b)) :=
              List.mem_filter.2 ⟨hy, by simp [h1'.trans (h.1 _ (List.mem_map_of_mem hy)), hyz.trans hzb]⟩
            -- counting: all of `l` up to the end of the window is in it
            have key : ((y :: A').filter (fun s => decide (a ≤ t s ∧ t s ≤ b))).length = 0 := by
              have e' := congrArg (fun m => (m.filter (fun s => decide (a ≤ t s ∧ t s ≤ b))).length) e
              simp only [List.filter_append, List.length_append, List.filter_filter, Bool.and_self] at e'
              omega
            have : y ∈ (y :: A').filter (fun s => decide (a ≤ t s ∧ t s ≤ b)) :=
              List.mem_filter.2 ⟨List.mem_cons_self, (List.mem_filter.1 hyin).2⟩
            rw [List.length_eq_zero_iff.1 key] at this
            cases this
      · have hall : (x :: l).filter (fun s => decide (a ≤ t s ∧ t s ≤ b)) = [] := by
          rw [List.filter_eq_nil_iff]
          intro s hs hd
          have hd := (of_decide_eq_true hd).2
          rcases List.mem_cons.1 hs with rfl | hs
          · exact h2 hd
          · exact h2 ((h.1 _ (List.mem_map_of_mem hs)).trans hd)
        rw [hall]
        exact ⟨[], x :: l, by simp, fun hne => absurd rfl hne⟩

/-- **C185**, after cropping: the total length also counts the way to the window, from the first sample of the trajectory that was
cropped. -/
theorem C185_cropped_partial {nrm : V3 K → K} {T : Traj K R} (hT : Coherent T) (harc : IsTravelled nrm T.pos T.arc)
    (ht : T.tstamps.Pairwise (· ≤ ·)) (a b : K) (hk : ∃ t ∈ T.tstamps, a ≤ t ∧ t ≤ b) :
    ∃ T' before after, Returns (Traj.crop a b false) T () T' ∧ T'.pos ≠ [] ∧ T.pos = before ++ T'.pos ++ after ∧
      T'.totalLength = .ok (pathLength nrm (before ++ T'.pos)) ∧
      (before = [] → T'.totalLength = .ok (pathLength nrm T'.pos)) ∧
      ((∃ s ∈ samples T, s.t < a ∧ T'.pos.head? ≠ some s.p) → IsNorm nrm →
        ∃ x, T'.totalLength = .ok x ∧ pathLength nrm T'.pos < x) := by
  obtain ⟨T', h1, h2, -, h3⟩ := C03_crop_keeps_exactly_the_window T hT a b (Or.inr hk)
  obtain ⟨A, C, e, hA⟩ := window_split Sample.t a b (samples T) (by rw [samples_map_t hT]; exact ht)
  rw [← h3] at e hA
  have hne : samples T' ≠ [] := by
    obtain ⟨t, hm, hab⟩ := hk
    rw [← samples_map_t hT] at hm
    obtain ⟨s, hs, rfl⟩ := List.mem_map.1 hm
    rw [h3]
    exact List.ne_nil_of_mem (List.mem_filter.2 ⟨hs, by simpa using hab⟩)
  have hp : T.pos = A.map Sample.p ++ T'.pos ++ C.map Sample.p := by
    rw [← samples_map_p hT, ← samples_map_p h2, ← List.map_append, ← List.map_append, ← e]
  have hl : T.arc = A.map Sample.l ++ T'.arc ++ C.map Sample.l := by
    rw [← samples_map_l hT, ← samples_map_l h2, ← List.map_append, ← List.map_append, ← e]
  have hpne : T'.pos ≠ [] := by rw [← samples_map_p h2]; simpa using hne
  have hlen : T'.arc.length = T'.pos.length := by rw [h2.arc, h2.pos]
  have h0 : 0 < T'.arc.length := by rw [hlen]; exact List.length_pos_of_ne_nil hpne
  have htot : T'.totalLength = .ok (pathLength nrm (A.map Sample.p ++ T'.pos)) := by
    unfold Traj.totalLength
    rw [if_neg (by omega), pyLast_eq h0]
    congr 1
    have hidx : T.arc[A.length + (T'.arc.length - 1)]? = some (T'.arc[T'.arc.length - 1]'(by omega)) := by
      rw [hl, List.append_assoc, List.getElem?_append_right (by simp), List.getElem?_append_left (by simp; omega)]
      simp
    rw [travelled_take harc _ _ hidx, hp, List.append_assoc, ← List.append_assoc, List.take_append_of_le_length (by simp; omega),
      List.take_of_length_le (by simp; omega)]
  refine ⟨T', A.map Sample.p, C.map Sample.p, h1, hpne, hp, htot, fun h => by rw [htot, h]; rfl, ?_⟩
  rintro ⟨s, hs, hsa, hsp⟩ hn
  refine ⟨_, htot, ?_⟩
  obtain ⟨b', B, hB⟩ := List.exists_cons_of_ne_nil hpne
  rw [hB] at hsp ⊢
  rw [pathLength_join]
  have hsA := hA hne s hs hsa
  obtain ⟨A1, A2, rfl⟩ := List.append_of_mem hsA
  rw [List.map_append, List.map_cons, List.append_assoc]
  have h5 := pathLength_join nrm s.p (A2.map Sample.p ++ [b']) (A1.map Sample.p)
  have h6 := pathLength_ge hn b' s.p (A2.map Sample.p)
  have h7 := pathLength_nonneg hn (A1.map Sample.p ++ [s.p])
  have h8 : 0 < nrm (b' - s.p) := by
    refine lt_of_le_of_ne (hn.nonneg _) (fun h => hsp ?_)
    rw [List.head?_cons, sub_eq_zero.1 (hn.eq_zero h.symm)]
  simp only [List.cons_append] at h5 h6 ⊢
  linarith

/-- three metres before the window, one metre in it: the total length is four metres -/
example : ((Traj.crop 2 3 false (⟨[0, 1, 2, 3], [⟨0, 0, 0⟩, ⟨2, 0, 0⟩, ⟨3, 0, 0⟩, ⟨4, 0, 0⟩], none, [0, 2, 3, 4], [0, 0, 0, 0], .time, "", 0⟩ :
    Traj ℚ Unit)).2.totalLength).toOption = some 4 := by decide +kernel
example : pathLength (V3.x : V3 ℚ → ℚ) [⟨3, 0, 0⟩, ⟨4, 0, 0⟩] = 1 := by decide +kernel
example : IsTravelled (V3.x : V3 ℚ → ℚ) [⟨0, 0, 0⟩, ⟨2, 0, 0⟩, ⟨3, 0, 0⟩, ⟨4, 0, 0⟩] [0, 2, 3, 4] := by
  have e : lengthsFromXyz (V3.x : V3 ℚ → ℚ) [⟨0, 0, 0⟩, ⟨2, 0, 0⟩, ⟨3, 0, 0⟩, ⟨4, 0, 0⟩] = [0, 2, 3, 4] := by decide +kernel
  rw [← e]
  exact C13_arc_lengths_are_travelled_distance _ _ (by simp)

end TC
