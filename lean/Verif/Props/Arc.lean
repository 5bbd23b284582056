import Verif.Proofs.Arc
import Mathlib.Analysis.Real.Sqrt
/-!
# C13, C14: arc lengths
-/
namespace TC
set_option linter.unusedSectionVars false
variable {K R : Type} [Field K] [LinearOrder K] [IsStrictOrderedRing K]

/-- The specification of arc lengths: one value per position, starting at 0, growing by the
distance of consecutive positions. -/
structure IsTravelled (nrm : V3 K → K) (P : List (V3 K)) (a : List K) : Prop where
  length : a.length = P.length
  start : a[0]? = some 0
  step : ∀ (i : Nat) (p q : V3 K) (s t : K), P[i]? = some p → P[i + 1]? = some q →
    a[i]? = some s → a[i + 1]? = some t → t = s + nrm (q - p)

/-- **C13**, the values. -/
theorem C13_arc_lengths_are_travelled_distance (nrm : V3 K → K) (P : List (V3 K)) (hP : P ≠ []) :
    IsTravelled nrm P (lengthsFromXyz nrm P) := by
  refine ⟨lengthsFromXyz_length nrm hP, by simp [lengthsFromXyz, cumFrom_getElem?], ?_⟩
  intro i p q s t hp hq hs ht
  have hd := diffs_getElem? P i p q hp hq
  simp only [lengthsFromXyz, cumFrom_getElem?] at hs ht
  split_ifs at hs ht with h1 h2
  simp only [Option.some.injEq] at hs ht
  rw [← hs, ← ht, List.take_add_one, List.sum_append, List.getElem?_map, hd]
  simp

/-- **C13**, monotonicity. -/
theorem C13_arc_lengths_never_decrease (nrm : V3 K → K) (hn : IsNorm nrm) (P : List (V3 K)) :
    (lengthsFromXyz nrm P).Pairwise (· ≤ ·) := by
  unfold lengthsFromXyz
  have key : ∀ (d : List K) (a : K), (∀ x ∈ d, 0 ≤ x) →
      (cumFrom a d).Pairwise (· ≤ ·) ∧ ∀ y ∈ cumFrom a d, a ≤ y := by
    intro d
    induction d with
    | nil => intro a _; simp [cumFrom]
    | cons x d ih =>
      intro a h
      have hx : 0 ≤ x := h x (by simp)
      obtain ⟨h1, h2⟩ := ih (a + x) (fun y hy => h y (by simp [hy]))
      have h3 : ∀ y ∈ cumFrom (a + x) d, a ≤ y := fun y hy => by
        have := h2 y hy; linarith
      exact ⟨List.pairwise_cons.2 ⟨h3, h1⟩, by
        intro y hy
        rcases List.mem_cons.1 hy with rfl | hy
        · exact le_rfl
        · exact h3 y hy⟩
  exact (key _ 0 (by intro x hx; obtain ⟨v, _, rfl⟩ := List.mem_map.1 hx; exact hn.nonneg v)).1

/-- **C13**, the detour is never shorter than the straight line, between any two positions. -/
theorem C13_arc_length_at_least_straight_line (nrm : V3 K → K) (hn : IsNorm nrm)
    (P : List (V3 K)) (i j : Nat) (hij : i ≤ j) (p q : V3 K) (s t : K) (hp : P[i]? = some p)
    (hq : P[j]? = some q) (hs : (lengthsFromXyz nrm P)[i]? = some s)
    (ht : (lengthsFromXyz nrm P)[j]? = some t) : nrm (q - p) ≤ t - s := by
  have hP : P ≠ [] := by rintro rfl; simp at hp
  have hT := C13_arc_lengths_are_travelled_distance nrm P hP
  obtain ⟨k, rfl⟩ := Nat.exists_eq_add_of_le hij
  clear hij
  induction k generalizing q t with
  | zero =>
    simp only [Nat.add_zero] at hq ht
    rw [hp] at hq; rw [hs] at ht
    cases hq; cases ht
    simp [hn.zero]
  | succ k ih =>
    have hlt := (List.getElem?_eq_some_iff.1 hq).1
    have hq' := List.getElem?_eq_getElem (l := P) (i := i + k) (by omega)
    have ht' := List.getElem?_eq_getElem (l := lengthsFromXyz nrm P) (i := i + k)
      (by rw [hT.length]; omega)
    have h1 := ih _ _ hq' ht'
    have h2 := hT.step (i + k) _ _ _ _ hq' hq ht' ht
    have h3 := hn.triangle (q - P[i + k]) (P[i + k] - p)
    have h4 : q - P[i + k] + (P[i + k] - p) = q - p := by abel
    rw [h4] at h3
    linarith

/-- **C14**, rigid motions. -/
theorem C14_arc_lengths_rigid_motion (nrm : V3 K → K) (hn : IsNorm nrm) (A : M3 K) (hA : IsRot A)
    (t : V3 K) (P : List (V3 K)) :
    lengthsFromXyz nrm (P.map (fun p => mulV A p + t)) = lengthsFromXyz nrm P := by
  have h1 : (diffs (P.map (fun p => mulV A p + t))) = (diffs P).map (mulV A) := by
    simp only [diffs, ← List.map_tail, ← List.map_dropLast, List.zipWith_map, List.map_zipWith,
      mulV_sub]
    congr 1
    funext a b
    abel
  unfold lengthsFromXyz
  rw [h1, List.map_map]
  congr 1
  apply List.map_congr_left
  intro v _
  exact hn.mulV hA v

/-- **C14**, scaling. -/
theorem C14_arc_lengths_scaling (nrm : V3 K → K) (hn : IsNorm nrm) (c : K) (P : List (V3 K)) :
    lengthsFromXyz nrm (P.map (fun p => c • p)) = (lengthsFromXyz nrm P).map (fun a => |c| * a) := by
  unfold lengthsFromXyz
  rw [diffs_map (fun p : V3 K => c • p) (fun a b => smul_sub c a b), List.map_map]
  have key : ∀ (d : List (V3 K)) (a : K), cumFrom (|c| * a) (d.map (nrm ∘ fun p => c • p))
      = (cumFrom a (d.map nrm)).map (fun a => |c| * a) := by
    intro d
    induction d with
    | nil => intro a; simp [cumFrom]
    | cons v d ih =>
      intro a
      simp only [List.map_cons, cumFrom, Function.comp, hn.smul]
      rw [← mul_add, ← ih]
  simpa using key (diffs P) 0

omit [IsStrictOrderedRing K] in
/-- The specification determines the arc lengths. -/
theorem IsTravelled.unique {nrm : V3 K → K} {P : List (V3 K)} {a b : List K}
    (ha : IsTravelled nrm P a) (hb : IsTravelled nrm P b) : a = b := by
  apply List.ext_getElem?
  intro i
  induction i with
  | zero => rw [ha.start, hb.start]
  | succ i ih =>
    by_cases h : i + 1 < P.length
    · have h1 : i + 1 < a.length := by rw [ha.length]; exact h
      have h2 : i + 1 < b.length := by rw [hb.length]; exact h
      have hi : a[i] = b[i] := by
        rw [List.getElem?_eq_getElem (by omega), List.getElem?_eq_getElem (by omega)] at ih
        exact Option.some.inj ih
      rw [List.getElem?_eq_getElem h1, List.getElem?_eq_getElem h2]
      rw [ha.step i _ _ _ _ (List.getElem?_eq_getElem (by omega)) (List.getElem?_eq_getElem h)
        (List.getElem?_eq_getElem (by omega)) (List.getElem?_eq_getElem h1),
        hb.step i _ _ _ _ (List.getElem?_eq_getElem (by omega)) (List.getElem?_eq_getElem h)
        (List.getElem?_eq_getElem (by omega)) (List.getElem?_eq_getElem h2), hi]
    · rw [List.getElem?_eq_none (by rw [ha.length]; omega),
        List.getElem?_eq_none (by rw [hb.length]; omega)]

/-- **C14**, reversal: the arc lengths of the reversed path are the total minus the arc lengths,
in reverse order. -/
theorem C14_arc_lengths_reversal (nrm : V3 K → K) (hn : IsNorm nrm) (P : List (V3 K)) (hP : P ≠ [])
    (total : K) (ht : (lengthsFromXyz nrm P).getLast? = some total) :
    lengthsFromXyz nrm P.reverse = ((lengthsFromXyz nrm P).map (fun a => total - a)).reverse := by
  have hT := C13_arc_lengths_are_travelled_distance nrm P hP
  refine (C13_arc_lengths_are_travelled_distance nrm P.reverse (by simpa using hP)).unique ?_
  refine ⟨by simp [hT.length], ?_, ?_⟩
  · rw [← List.head?_eq_getElem?, List.head?_reverse, List.getLast?_map, ht]
    simp
  · intro i p q s t hp hq hs ht'
    have hi := (List.getElem?_eq_some_iff.1 hq).1
    rw [List.length_reverse] at hi
    have hl : (lengthsFromXyz nrm P).length = P.length := hT.length
    rw [List.getElem?_reverse (by omega)] at hp hq
    rw [List.getElem?_reverse (by simp; omega), List.getElem?_map] at hs ht'
    simp only [List.length_map, hl] at hs ht'
    obtain ⟨k, hk⟩ : ∃ k, P.length - 1 - i = k + 1 := ⟨P.length - 1 - i - 1, by omega⟩
    have hk' : P.length - 1 - (i + 1) = k := by omega
    rw [hk] at hp hs
    rw [hk'] at hq ht'
    obtain ⟨s', hs1, hs2⟩ := Option.map_eq_some_iff.1 hs
    obtain ⟨t', ht1, ht2⟩ := Option.map_eq_some_iff.1 ht'
    have h1 := hT.step k q p t' s' hq hp ht1 hs1
    have h2 : nrm (q - p) = nrm (p - q) := by rw [← hn.neg (p - q), neg_sub]
    rw [← hs2, ← ht2, h1, h2]
    ring

/-! ### The hypotheses are met -/

/-- the Euclidean norm over the reals -/
noncomputable def realNorm (v : V3 ℝ) : ℝ := Real.sqrt v.normSq

theorem realNorm_isNorm : IsNorm realNorm :=
  ⟨fun _ => Real.sqrt_nonneg _, fun v => Real.mul_self_sqrt (V3.normSq_nonneg v)⟩

/-- a path of three positions with a corner, segments of length 5 and 1 -/
def exPath : List (V3 ℝ) := [⟨0, 0, 0⟩, ⟨3, 4, 0⟩, ⟨3, 4, 1⟩]

example : lengthsFromXyz realNorm exPath = [0, 5, 6] := by
  have h1 : realNorm ⟨3, 4, 0⟩ = 5 :=
    realNorm_isNorm.eq_of_sq (by norm_num) (by simp [V3.normSq]; norm_num)
  have h2 : realNorm ⟨0, 0, 1⟩ = 1 :=
    realNorm_isNorm.eq_of_sq (by norm_num) (by simp [V3.normSq])
  have e1 : (⟨3, 4, 0⟩ : V3 ℝ) - ⟨0, 0, 0⟩ = ⟨3, 4, 0⟩ := by ext <;> simp
  have e2 : (⟨3, 4, 1⟩ : V3 ℝ) - ⟨3, 4, 0⟩ = ⟨0, 0, 1⟩ := by ext <;> simp
  simp only [lengthsFromXyz, exPath, diffs, List.tail_cons, List.dropLast_cons_cons,
    List.dropLast_singleton, List.zipWith_cons_cons, List.zipWith_nil_right, List.map_cons,
    List.map_nil, e1, e2, h1, h2, cumFrom]
  norm_num

/-- a quarter turn about the z axis -/
theorem quarterTurn_isRot : IsRot (!![0, -1, 0; 1, 0, 0; 0, 0, 1] : M3 K) := by
  constructor
  · ext i j
    fin_cases i <;> fin_cases j <;> simp [Matrix.mul_apply, Fin.sum_univ_three]
  · simp [Matrix.det_fin_three]

example : ∃ (nrm : V3 ℝ → ℝ) (A : M3 ℝ), IsNorm nrm ∧ IsRot A ∧ A ≠ 1 ∧ exPath ≠ [] ∧
    ∃ total, (lengthsFromXyz nrm exPath).getLast? = some total :=
  ⟨realNorm, _, realNorm_isNorm, quarterTurn_isRot, by
    intro h
    have := congrFun (congrFun h 0) 0
    simp at this, by simp [exPath], by simp [lengthsFromXyz, exPath, diffs, cumFrom]⟩

end TC
