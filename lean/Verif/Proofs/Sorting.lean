import Verif.Proofs.Bfs
import Verif.Proofs.Perm
import Verif.Proofs.Interp
/-!
# Spatial sorting: helper lemmas
-/
namespace TC
set_option linter.unusedSectionVars false
open SimpleGraph

/-- a graph without cycles and with at least one edge has a node with one neighbour -/
theorem exists_leaf {g : Graph} (hw : g.WF) (ha : g.simple.IsAcyclic) {a b : Nat}
    (hab : b ∈ g.adj a) : ∃ v, v < g.n ∧ (g.adj v).length = 1 := by
  classical
  have hadj : ∀ u v : Fin g.n, g.simple.Adj u v ↔ v.1 ∈ g.adj u.1 := by
    intro u v
    constructor
    · exact fun h => h.2.1
    · intro h
      refine ⟨?_, h, hw.symm _ _ h⟩
      rintro rfl
      exact hw.irrefl _ h
  obtain ⟨h1, h2⟩ := hw.range a b hab
  have hE : g.simple.Adj ⟨a, h1⟩ ⟨b, h2⟩ := (hadj _ _).2 hab
  have : Nonempty (Fin g.n) := ⟨⟨a, h1⟩⟩
  obtain ⟨u, v, p, hp, hmax⟩   := SimpleGraph.Walk.exists_isPath_forall_isPath_length_le_length g.simple
  have hpos : 1 ≤ p.length := by
    have := hmax ⟨a, h1⟩ ⟨b, h2⟩ hE.toWalk (by
      simp only [Adj.toWalk]
      rw [Walk.cons_isPath_iff]
      refine ⟨Walk.IsPath.nil, ?_⟩
      simp only [Walk.support_nil, List.mem_singleton]
      exact hE.ne)
    simpa using this
  have hnil : ¬ p.Nil := by
    intro h
    rw [← Walk.length_eq_zero_iff] at h
    omega
  refine ⟨u.1, u.2, ?_⟩
  have huniq : ∀ w, w ∈ g.adj u.1 → w = (p.snd).1 := by
    intro w hwm
    obtain ⟨_, hwn⟩ := hw.range _ _ hwm
    have hadjw : g.simple.Adj u ⟨w, hwn⟩ := (hadj u ⟨w, hwn⟩).2 hwm
    have hmem : (⟨w, hwn⟩ : Fin g.n) ∈ p.support := by
      by_contra hc
      have hpath : (Walk.cons hadjw.symm p).IsPath := by
        rw [Walk.cons_isPath_iff]
        exact ⟨hp, hc⟩
      have := hmax _ _ _ hpath
      simp at this
    have := ha.eq_snd_of_adj_start hp hadjw hmem
    exact congrArg Fin.val this
  have hin : (p.snd).1 ∈ g.adj u.1 := (hadj _ _).1 (p.adj_snd hnil)
  have h3 : (g.adj u.1) = [(p.snd).1] := by
    have hnd := hw.nodup u.1
    match hl : g.adj u.1 with
    | [] => rw [hl] at hin; simp at hin
    | [x] => rw [huniq x (by rw [hl]; simp)]
    | x :: y :: r =>
      rw [hl] at hnd
      have hx := huniq x (by rw [hl]; simp)
      have hy := huniq y (by rw [hl]; simp)
      rw [hx, hy] at hnd
      simp at hnd
  rw [h3]
  rfl

/-- reachability only leads to nodes with neighbours -/
theorem reach_adj {g : Graph} (hw : g.WF) {u v : Nat} (hu : g.adj u ≠ []) (h : Reach g u v) :
    g.adj v ≠ [] := by
  induction h with
  | refl => exact hu
  | tail _ hbc _ => exact List.ne_nil_of_mem (hw.symm _ _ hbc)

theorem lt_of_adj {g : Graph} (hw : g.WF) {u : Nat} (hu : g.adj u ≠ []) : u < g.n := by
  obtain ⟨v, hv⟩ := List.exists_mem_of_ne_nil _ hu
  exact (hw.range u v hv).1

theorem bfs_last {g : Graph} (hw : g.WF) {r : Nat} (hr : g.adj r ≠ []) :
    ∃ a, pyLast (bfs g r) = .ok a ∧ a ∈ bfs g r ∧ g.adj a ≠ [] := by
  obtain ⟨_, h2, h3⟩ := bfs_spec g (fun u v h => (hw.range u v h).2) (lt_of_adj hw hr)
  have hpos : 0 < (bfs g r).length := (List.getElem?_eq_some_iff.1 h3).1
  refine ⟨_, pyLast_eq hpos, List.getElem_mem _, ?_⟩
  exact reach_adj hw hr ((h2 _).1 (List.getElem_mem _))

/-- the order found in a tree contains exactly the nodes that have neighbours, each once -/
theorem mstSorting_spec {g : Graph} (hw : g.WF) (ha : g.simple.IsAcyclic)
    (hc : ∀ u v, g.adj u ≠ [] → g.adj v ≠ [] → Reach g u v) (he : ∃ u, g.adj u ≠ []) :
    ∃ idx, mstSorting g = .ok idx ∧ idx.Nodup ∧ ∀ i, i ∈ idx ↔ g.adj i ≠ [] := by
  have hdeg : ∀ v ∈ degreeOne g, g.adj v ≠ [] := by
    intro v hv
    simp only [degreeOne, List.mem_filter, decide_eq_true_eq] at hv
    intro h
    rw [h] at hv
    simp at hv
  have hfin : ∀ e1 e2, g.adj e1 ≠ [] → g.adj e2 ≠ [] →
      e2 ∈ bfs g e1 ∧ (bfs g e1).Nodup ∧ ∀ i, i ∈ bfs g e1 ↔ g.adj i ≠ [] := by
    intro e1 e2 h1 h2
    obtain ⟨b1, b2, _⟩ := bfs_spec g (fun u v h => (hw.range u v h).2) (lt_of_adj hw h1)
    refine ⟨(b2 _).2 (hc _ _ h1 h2), b1, fun i => ?_⟩
    rw [b2]
    exact ⟨reach_adj hw h1, hc _ _ h1⟩
  unfold mstSorting
  by_cases hl : (degreeOne g).length = 2
  · have e0 := npGet_zero (l := degreeOne g) (by omega)
    have e1 := npGet_nat (l := degreeOne g) (j := 1) (by omega)
    rw [show ((1 : Nat) : Int) = 1 from rfl] at e1
    obtain ⟨f1, f2, f3⟩ := hfin _ _ (hdeg _ (List.getElem_mem (l := degreeOne g) (n := 0) (by omega)))
      (hdeg _ (List.getElem_mem (l := degreeOne g) (n := 1) (by omega)))
    refine ⟨_, ?_, f2, f3⟩
    simp only [hl, if_true, e0, e1, bind, Except.bind, pure, Except.pure]
    rw [if_neg (by simpa using f1)]
  · obtain ⟨u, hu⟩ := he
    obtain ⟨v, hv⟩ := List.exists_mem_of_ne_nil _ hu
    obtain ⟨w, hw1, hw2⟩ := exists_leaf hw ha hv
    have hpos : 0 < (degreeOne g).length := by
      apply List.length_pos_of_mem (a := w)
      simp [degreeOne, hw1, hw2]
    have e0 := pyFirst_eq hpos
    obtain ⟨a, a1, _, a3⟩ := bfs_last hw (hdeg _ (List.getElem_mem (l := degreeOne g) (n := 0) hpos))
    obtain ⟨b, b1, _, b3⟩ := bfs_last hw a3
    obtain ⟨c, c1, _, c3⟩ := bfs_last hw b3
    obtain ⟨f1, f2, f3⟩ := hfin _ _ b3 c3
    refine ⟨_, ?_, f2, f3⟩
    simp only [hl, if_false, e0, a1, b1, c1, bind, Except.bind, pure, Except.pure]
    rw [if_neg (by simpa using f1)]

/-! ### insertion -/

variable {K : Type} [Field K] [LinearOrder K]

theorem pyInsert_perm {α : Type} (l : List α) (i : Nat) (x : α) : (pyInsert l i x).Perm (x :: l) := by
  unfold pyInsert
  have := List.perm_middle (a := x) (l₁ := l.take i) (l₂ := l.drop i)
  rwa [List.take_append_drop] at this

theorem pyInsert_sublist {α : Type} (l : List α) (i : Nat) (x : α) : l.Sublist (pyInsert l i x) := by
  unfold pyInsert
  conv_lhs => rw [← List.take_append_drop i l]
  exact (List.Sublist.refl _).append (List.sublist_cons_self _ _)

theorem sel_take {α : Type} {l : List α} {p : List Nat} (h : InRange l.length p) (i : Nat) :
    sel l (p.take i) = (sel l p).take i := by
  apply List.ext_getElem?
  intro k
  rw [sel_getElem? (fun j hj => h j (List.mem_of_mem_take hj)), List.getElem?_take,
    List.getElem?_take, sel_getElem? h]
  split_ifs <;> simp

theorem sel_drop {α : Type} {l : List α} {p : List Nat} (h : InRange l.length p) (i : Nat) :
    sel l (p.drop i) = (sel l p).drop i := by
  apply List.ext_getElem?
  intro k
  rw [sel_getElem? (fun j hj => h j (List.mem_of_mem_drop hj)), List.getElem?_drop,
    List.getElem?_drop, sel_getElem? h]

theorem sel_append {α : Type} (l : List α) (p q : List Nat) : sel l (p ++ q) = sel l p ++ sel l q := by
  simp [sel]

theorem sel_pyInsert {α : Type} {l : List α} {p : List Nat} (h : InRange l.length p) (i m : Nat)
    {x : α} (hm : l[m]? = some x) : sel l (pyInsert p i m) = pyInsert (sel l p) i x := by
  unfold pyInsert
  rw [sel_append, sel_take h]
  have : sel l (m :: p.drop i) = x :: sel l (p.drop i) := by
    unfold sel
    rw [List.filterMap_cons_some hm]
  rw [this, sel_drop h]

/-- one insertion is the same insertion into both lists -/
theorem insertPoint_eq (nn : List (V3 K) → V3 K → Nat × Nat) (m : Nat) (p : V3 K) (idx : List Nat)
    (xyz : List (V3 K)) : ∃ i, insertPoint nn m p idx xyz = (pyInsert idx i m, pyInsert xyz i p) := by
  unfold insertPoint
  simp only
  split_ifs
  · exact ⟨_, rfl⟩
  · exact ⟨_, rfl⟩

theorem insertPoints_spec (nn : List (V3 K) → V3 K → Nat × Nat) (xyz : List (V3 K))
    (ms : List (Nat × V3 K)) (hms : ∀ m ∈ ms, xyz[m.1]? = some m.2) (idx : List Nat)
    (hin : InRange xyz.length idx) :
    ∃ idx', insertPoints nn ms idx (sel xyz idx) = (idx', sel xyz idx') ∧
      InRange xyz.length idx' ∧ idx.Sublist idx' ∧ idx'.Perm (ms.map Prod.fst ++ idx) := by
  induction ms generalizing idx with
  | nil => exact ⟨idx, rfl, hin, List.Sublist.refl _, by simp⟩
  | cons mp ms ih =>
    obtain ⟨m, p⟩ := mp
    obtain ⟨i, hi⟩ := insertPoint_eq nn m p idx (sel xyz idx)
    have hm := hms (m, p) (by simp)
    have hlt := (List.getElem?_eq_some_iff.1 hm).1
    have hin' : InRange xyz.length (pyInsert idx i m) := by
      intro j hj
      rcases List.mem_cons.1 ((pyInsert_perm idx i m).subset hj) with rfl | hj
      · exact hlt
      · exact hin j hj
    obtain ⟨idx', h1, h2, h3, h4⟩ := ih (fun q hq => hms q (by simp [hq])) (pyInsert idx i m) hin'
    refine ⟨idx', ?_, h2, (pyInsert_sublist idx i m).trans h3, h4.trans ?_⟩
    · unfold insertPoints
      rw [hi]
      simp only
      rw [← sel_pyInsert hin i m hm, h1]
    · have := ((pyInsert_perm idx i m).append_left (ms.map Prod.fst))
      refine this.trans ?_
      simp only [List.map_cons, List.cons_append]
      exact List.perm_middle

theorem argmax_spec {l : List K} (hne : l ≠ []) : ∃ k a, argmax l = .ok k ∧ l[k]? = some a ∧
    (∀ b ∈ l, b ≤ a) ∧ ∀ j b, j < k → l[j]? = some b → b < a := by
  obtain ⟨z, zs, rfl⟩ := List.exists_cons_of_ne_nil hne
  obtain ⟨m, hm, hmax⟩ : ∃ m ∈ z :: zs, ∀ b ∈ z :: zs, b ≤ m := by
    have : ∀ (z : K) zs, ∃ m ∈ z :: zs, ∀ b ∈ z :: zs, b ≤ m := by
      intro z zs
      induction zs generalizing z with
      | nil => exact ⟨z, by simp, by simp⟩
      | cons y ys ih =>
        obtain ⟨m, h1, h2⟩ := ih y
        rcases le_total z m with h | h
        · refine ⟨m, by simp only [List.mem_cons] at h1 ⊢; tauto, ?_⟩
          intro b hb
          rcases List.mem_cons.1 hb with rfl | hb
          · exact h
          · exact h2 b hb
        · refine ⟨z, by simp, ?_⟩
          intro b hb
          rcases List.mem_cons.1 hb with rfl | hb
          · exact le_rfl
          · exact (h2 b hb).trans h
    exact this z zs
  set P : K → Bool := fun a => (z :: zs).all (fun b => decide (b ≤ a)) with hP
  have hPm : P m = true := by simp only [hP, List.all_eq_true, decide_eq_true_eq]; exact hmax
  have hlt : (z :: zs).findIdx P < (z :: zs).length := List.findIdx_lt_length_of_exists ⟨m, hm, hPm⟩
  refine ⟨_, _, rfl, List.getElem?_eq_getElem hlt, ?_, ?_⟩
  · have := List.findIdx_getElem (w := hlt)
    simpa only [hP, List.all_eq_true, decide_eq_true_eq] using this
  · intro j b hj hb
    change j < (z :: zs).findIdx P at hj
    have hjl : j < (z :: zs).length := by omega
    have hn := List.not_of_lt_findIdx hj
    rw [List.getElem?_eq_getElem hjl] at hb
    obtain rfl := Option.some.inj hb
    have hna : ∃ c ∈ z :: zs, (z :: zs)[j] < c := by
      by_contra hcon
      push Not at hcon
      apply Bool.eq_false_iff.1 hn
      simp only [hP, List.all_eq_true, decide_eq_true_eq]
      exact hcon
    obtain ⟨c, hc, hlt'⟩ := hna
    have := List.findIdx_getElem (w := hlt)
    simp only [hP, List.all_eq_true, decide_eq_true_eq] at this
    exact lt_of_lt_of_le hlt' (this c hc)

theorem beginWith_spec {idx : List Nat} {b : Nat} (h : b ∈ idx) : ∃ pre post,
    idx = pre ++ b :: post ∧ b ∉ pre ∧ beginWith idx b = .ok (b :: post ++ pre) := by
  have hlt := List.idxOf_lt_length_iff.2 h
  refine ⟨idx.take (idx.idxOf b), idx.drop (idx.idxOf b + 1), ?_, ?_, ?_⟩
  · conv_lhs => rw [← List.take_append_drop (idx.idxOf b) idx]
    rw [List.drop_eq_getElem_cons hlt, List.getElem_idxOf hlt]
  · intro hc
    obtain ⟨i, hi, he⟩ := List.getElem_of_mem hc
    rw [List.length_take] at hi
    rw [List.getElem_take] at he
    have := List.not_of_lt_findIdx (p := (· == b)) (xs := idx) (i := i)
      (by have : idx.idxOf b = idx.findIdx (· == b) := rfl
          omega)
    simp [he] at this
  · unfold beginWith
    rw [if_pos h, List.drop_eq_getElem_cons hlt, List.getElem_idxOf hlt]

end TC
