import Verif.Proofs.ApplyIndex
/-!
# Lemmas on sorting and searching
-/
namespace TC
variable {K : Type} [LinearOrder K]

theorem npSort_perm (l : List K) : (npSort l).Perm l := List.perm_insertionSort _ _

theorem npSort_sorted (l : List K) : (npSort l).Pairwise (· ≤ ·) := List.pairwise_insertionSort _ l

theorem npSort_length (l : List K) : (npSort l).length = l.length := (npSort_perm l).length_eq

theorem mem_npSort {l : List K} {x : K} : x ∈ npSort l ↔ x ∈ l := (npSort_perm l).mem_iff

theorem npSort_eq_self {l : List K} (h : l.Pairwise (· ≤ ·)) : npSort l = l :=
  (npSort_perm l).eq_of_pairwise (fun _ _ _ _ h1 h2 => le_antisymm h1 h2) (npSort_sorted l) h

theorem npSort_eq_of_perm {l l' : List K} (h : l.Perm l') : npSort l = npSort l' :=
  (((npSort_perm l).trans h).trans (npSort_perm l').symm).eq_of_pairwise
    (fun _ _ _ _ h1 h2 => le_antisymm h1 h2) (npSort_sorted l) (npSort_sorted l')

theorem searchRight_le (l : List K) (x : K) : searchRight l x ≤ l.length := List.countP_le_length

theorem searchRight_lt_iff {l : List K} (h : l.Pairwise (· ≤ ·)) (x : K) {i : Nat}
    (hi : i < l.length) : i < searchRight l x ↔ l[i] ≤ x := by
  induction l generalizing i with
  | nil => simp at hi
  | cons a l ih =>
    rw [List.pairwise_cons] at h
    unfold searchRight at *
    rw [List.countP_cons]
    by_cases ha : a ≤ x
    · simp only [ha, decide_true, if_true]
      cases i with
      | zero => simp [ha]
      | succ i =>
        simp only [List.length_cons] at hi
        simp only [List.getElem_cons_succ]
        rw [← ih h.2 (by omega)]
        omega
    · have h0 : l.countP (fun y => decide (y ≤ x)) = 0 := by
        rw [List.countP_eq_zero]
        intro b hb
        simp only [decide_eq_true_eq]
        intro hbx
        exact ha (le_trans (h.1 b hb) hbx)
      simp only [ha, decide_false, Bool.false_eq_true, if_false, h0]
      constructor
      · intro h; omega
      · intro hx
        exfalso
        cases i with
        | zero => exact ha hx
        | succ i =>
          simp only [List.getElem_cons_succ] at hx
          exact ha (le_trans (h.1 _ (List.getElem_mem _)) hx)

theorem searchLeft_le (l : List K) (x : K) : searchLeft l x ≤ l.length := List.countP_le_length

theorem searchLeft_lt_iff {l : List K} (h : l.Pairwise (· ≤ ·)) (x : K) {i : Nat}
    (hi : i < l.length) : i < searchLeft l x ↔ l[i] < x := by
  induction l generalizing i with
  | nil => simp at hi
  | cons a l ih =>
    rw [List.pairwise_cons] at h
    unfold searchLeft at *
    rw [List.countP_cons]
    by_cases ha : a < x
    · simp only [ha, decide_true, if_true]
      cases i with
      | zero => simp [ha]
      | succ i =>
        simp only [List.length_cons] at hi
        simp only [List.getElem_cons_succ]
        rw [← ih h.2 (by omega)]
        omega
    · have h0 : l.countP (fun y => decide (y < x)) = 0 := by
        rw [List.countP_eq_zero]
        intro b hb
        simp only [decide_eq_true_eq]
        intro hbx
        exact ha (lt_of_le_of_lt (h.1 b hb) hbx)
      simp only [ha, decide_false, Bool.false_eq_true, if_false, h0]
      constructor
      · intro h; omega
      · intro hx
        exfalso
        cases i with
        | zero => exact ha hx
        | succ i =>
          simp only [List.getElem_cons_succ] at hx
          exact ha (lt_of_le_of_lt (h.1 _ (List.getElem_mem _)) hx)

theorem StrictAsc.le {l : List K} (h : StrictAsc l) : l.Pairwise (· ≤ ·) :=
  List.Pairwise.imp (fun h => le_of_lt h) h

theorem StrictAsc.getElem_lt {l : List K} (h : StrictAsc l) {i j : Nat} (hj : j < l.length)
    (hij : i < j) : l[i]'(hij.trans hj) < l[j] :=
  List.pairwise_iff_getElem.1 h i j _ hj hij

theorem StrictAsc.nodup {l : List K} (h : StrictAsc l) : l.Nodup :=
  List.Pairwise.imp (fun h => ne_of_lt h) h

theorem sorted_getElem_le {l : List K} (h : l.Pairwise (· ≤ ·)) {i j : Nat} (hj : j < l.length)
    (hij : i ≤ j) : l[i]'(lt_of_le_of_lt hij hj) ≤ l[j] := by
  rcases Nat.lt_or_eq_of_le hij with h1 | h1
  · exact List.pairwise_iff_getElem.1 h i j _ hj h1
  · subst h1; exact le_refl _

end TC
