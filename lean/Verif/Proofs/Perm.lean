import Verif.Proofs.Sort
import Verif.Spec.Traj
/-!
# Index lists, sorting permutations and their inverses
-/
namespace TC

/-- entries of `l` at the positions `p` -/
def sel {α : Type} (l : List α) (p : List Nat) : List α := p.filterMap (fun i => l[i]?)

/-- all positions exist -/
def InRange (n : Nat) (p : List Nat) : Prop := ∀ i ∈ p, i < n

theorem sel_getElem? {α : Type} {l : List α} {p : List Nat} (h : InRange l.length p) (k : Nat) :
    (sel l p)[k]? = p[k]?.bind (fun i => l[i]?) := by
  induction p generalizing k with
  | nil => simp [sel]
  | cons i p ih =>
    have hi : i < l.length := h i (by simp)
    have ih := ih (fun j hj => h j (by simp [hj]))
    unfold sel at *
    rw [List.filterMap_cons_some (List.getElem?_eq_getElem hi)]
    cases k with
    | zero => simp [hi]
    | succ k => simpa using ih k

theorem sel_eq_map {α : Type} {l : List α} {p : List Nat} (h : InRange l.length p) :
    (sel l p).map some = p.map (fun i => l[i]?) := by
  induction p with
  | nil => rfl
  | cons i p ih =>
    have hi : i < l.length := h i (by simp)
    have ih := ih (fun j hj => h j (by simp [hj]))
    unfold sel at *
    rw [List.filterMap_cons_some (List.getElem?_eq_getElem hi)]
    simp [hi, ih]

theorem sel_length {α : Type} {l : List α} {p : List Nat} (h : InRange l.length p) :
    (sel l p).length = p.length := by
  have := congrArg List.length (sel_eq_map h)
  simpa using this

theorem sel_sel {α : Type} {l : List α} {p s : List Nat} (h : InRange l.length p) :
    sel (sel l p) s = sel l (sel p s) := by
  unfold sel
  rw [List.filterMap_filterMap]
  apply List.filterMap_congr
  intro k _
  exact sel_getElem? h k

theorem sel_inRange {p s : List Nat} {n : Nat} (h : InRange n p) : InRange n (sel p s) := by
  intro i hi
  unfold sel at hi
  obtain ⟨k, _, hk⟩ := List.mem_filterMap.1 hi
  exact h i (List.mem_of_getElem? hk)

theorem sel_range {α : Type} (l : List α) : sel l (List.range l.length) = l := by
  apply List.ext_getElem?
  intro k
  rw [sel_getElem? (fun i hi => List.mem_range.1 hi)]
  by_cases hk : k < l.length
  · simp [hk]
  · simp [List.getElem?_eq_none (by simp; omega : (List.range l.length).length ≤ k),
      List.getElem?_eq_none (by omega : l.length ≤ k)]

theorem sel_perm {α : Type} (l : List α) {p q : List Nat} (h : p.Perm q) : (sel l p).Perm (sel l q) :=
  h.filterMap _

theorem sel_perm_self {α : Type} {l : List α} {p : List Nat} (h : p.Perm (List.range l.length)) :
    (sel l p).Perm l := by
  have := sel_perm l h
  rwa [sel_range] at this

theorem perm_inRange {p : List Nat} {n : Nat} (h : p.Perm (List.range n)) : InRange n p :=
  fun _ hi => List.mem_range.1 (h.subset hi)

theorem take_eq {α : Type} {l : List α} {p : List Nat} (h : InRange l.length p) :
    Traj.take l p = .ok (sel l p) := by
  unfold Traj.take
  rw [npTake_ok_iff, sel_eq_map h, List.map_map]
  apply List.map_congr_left
  intro i hi
  simp [pyPos_natCast (h i hi)]

/-- ascending permutations of `0..n-1` are `0..n-1` -/
theorem eq_range_of_sorted {p : List Nat} {n : Nat} (h : p.Perm (List.range n))
    (hs : p.Pairwise (· ≤ ·)) : p = List.range n :=
  h.eq_of_pairwise (fun _ _ _ _ h1 h2 => le_antisymm h1 h2) hs
    (List.Pairwise.imp (fun h => le_of_lt h) List.pairwise_lt_range)

variable {K : Type} [LinearOrder K]

theorem IsArgsortOf.inRange {l : List K} {p : List Nat} (h : IsArgsortOf l p) :
    InRange l.length p := perm_inRange h.1

theorem IsArgsortOf.length {l : List K} {p : List Nat} (h : IsArgsortOf l p) :
    p.length = l.length := by
  simpa using h.1.length_eq

theorem IsArgsortOf.sel {l : List K} {p : List Nat} (h : IsArgsortOf l p) : TC.sel l p = npSort l :=
  ((sel_perm_self h.1).trans (npSort_perm l).symm).eq_of_pairwise
    (fun _ _ _ _ h1 h2 => le_antisymm h1 h2) h.2 (npSort_sorted l)

/-- argsort of a permutation is a right inverse -/
theorem argsort_perm_right {p s : List Nat} {n : Nat} (hp : p.Perm (List.range n))
    (hs : IsArgsortOf p s) : sel p s = List.range n := by
  rw [hs.sel]
  exact eq_range_of_sorted ((npSort_perm p).trans hp) (npSort_sorted p)

/-- ... and a left inverse -/
theorem argsort_perm_left {p s : List Nat} {n : Nat} (hp : p.Perm (List.range n))
    (hs : IsArgsortOf p s) : sel s p = List.range n := by
  have hr := argsort_perm_right hp hs
  have hpl : p.length = n := by simpa using hp.length_eq
  have hsl : s.length = n := by rw [hs.length, hpl]
  have hpr : InRange s.length p := by rw [hsl]; exact perm_inRange hp
  have hsr : InRange p.length s := hs.inRange
  have hnd : p.Nodup := hp.nodup_iff.2 List.nodup_range
  apply List.ext_getElem?
  intro k
  rw [sel_getElem? hpr]
  by_cases hk : k < n
  · have hk1 : k < p.length := by omega
    have hpk : p[k] < n := by have := hpr p[k] (List.getElem_mem _); omega
    have h1 : s[p[k]]? = some (s[p[k]]'(by omega)) := List.getElem?_eq_getElem (by omega)
    have hsk : s[p[k]]'(by omega) < p.length := hsr _ (List.getElem_mem _)
    have h2 := sel_getElem? hsr (p[k])
    rw [hr, h1] at h2
    simp only [Option.bind_some, List.getElem?_range hpk, List.getElem?_eq_getElem hsk,
      Option.some.injEq] at h2
    have h3 := (List.Nodup.getElem_inj_iff hnd).1 h2
    rw [List.getElem?_eq_getElem hk1, Option.bind_some, h1, List.getElem?_range hk, ← h3]
  · rw [List.getElem?_eq_none (by omega : p.length ≤ k), List.getElem?_eq_none (by simp; omega)]
    rfl

/-- the concrete argsort sorts -/
theorem stableArgsort_isArgsort : IsArgsort (stableArgsort (K := K)) := by
  intro l
  have hp : ((l.zipIdx).insertionSort (fun a b => a.1 ≤ b.1)).Perm l.zipIdx := List.perm_insertionSort _ _
  refine ⟨?_, ?_⟩
  · unfold stableArgsort
    refine (hp.map Prod.snd).trans ?_
    rw [List.zipIdx_map_snd, List.range_eq_range']
  · unfold stableArgsort
    rw [List.filterMap_map]
    have h1 : ∀ x ∈ (l.zipIdx).insertionSort (fun a b => a.1 ≤ b.1), l[x.2]? = some x.1 := by
      intro x hx
      have := hp.subset hx
      exact List.mem_zipIdx_iff_getElem?.1 this
    have h2 : ((l.zipIdx).insertionSort (fun a b => a.1 ≤ b.1)).filterMap ((fun i => l[i]?) ∘ Prod.snd)
        = ((l.zipIdx).insertionSort (fun a b => a.1 ≤ b.1)).map Prod.fst := by
      rw [← List.filterMap_eq_map]
      apply List.filterMap_congr
      intro x hx
      simpa using h1 x hx
    rw [h2, List.pairwise_map]
    have : Std.Total (α := K × Nat) (fun a b => a.1 ≤ b.1) := ⟨fun a b => le_total _ _⟩
    have : IsTrans (K × Nat) (fun a b => a.1 ≤ b.1) := ⟨fun a b c h1 h2 => le_trans h1 h2⟩
    exact List.pairwise_insertionSort _ _

end TC
