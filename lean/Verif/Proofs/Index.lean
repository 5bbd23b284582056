import Verif.Spec.Traj
/-!
# Lemmas on numpy indexing
-/
namespace TC

theorem pyPos_lt {n : Nat} {i : Int} {j : Nat} (h : pyPos n i = some j) : j < n := by
  unfold pyPos at h
  split at h <;> split at h <;> simp at h <;> omega

theorem pyPos_natCast {n j : Nat} (h : j < n) : pyPos n (j : Int) = some j := by
  unfold pyPos; simp [h]

theorem pyPos_natCast_none {n j : Nat} (h : n ≤ j) : pyPos n (j : Int) = none := by
  unfold pyPos; simp [Nat.not_lt.mpr h]

theorem pyPos_neg_one {n : Nat} (h : 0 < n) : pyPos n (-1) = some (n - 1) := by
  unfold pyPos
  have h1 : (1:Int).toNat = 1 := rfl
  simp [h1]
  omega

theorem npGet_eq {α : Type} (l : List α) (i : Int) :
    npGet l i = match (pyPos l.length i).bind (fun j => l[j]?) with
      | some a => .ok a
      | none => .error .indexError := by
  unfold npGet
  cases h : pyPos l.length i with
  | none => simp
  | some j => simp only [Option.bind_some]; cases l[j]? <;> rfl

theorem npGet_ok_iff {α : Type} {l : List α} {i : Int} {a : α} :
    npGet l i = .ok a ↔ ∃ j, pyPos l.length i = some j ∧ l[j]? = some a := by
  rw [npGet_eq]
  cases h : pyPos l.length i with
  | none => simp
  | some j =>
    simp only [Option.bind_some]
    cases h2 : l[j]? <;> simp [h2]

theorem npGet_error {α : Type} {l : List α} {i : Int} {e : Err} (h : npGet l i = .error e) :
    e = .indexError ∧ pyPos l.length i = none := by
  rw [npGet_eq] at h
  cases hp : pyPos l.length i with
  | none => simp [hp] at h; exact ⟨h.symm, rfl⟩
  | some j =>
    have hj := pyPos_lt hp
    simp [hp, List.getElem?_eq_getElem hj] at h

theorem npGet_nat {α : Type} {l : List α} {j : Nat} (h : j < l.length) :
    npGet l (j : Int) = .ok l[j] := by
  rw [npGet_ok_iff]; exact ⟨j, pyPos_natCast h, List.getElem?_eq_getElem h⟩

theorem npGet_nat_error {α : Type} {l : List α} {j : Nat} (h : l.length ≤ j) :
    npGet l (j : Int) = .error .indexError := by
  rw [npGet_eq, pyPos_natCast_none h]; simp

theorem npGet_zero {α : Type} {l : List α} (h : 0 < l.length) : npGet l 0 = .ok l[0] :=
  npGet_nat (j := 0) h

theorem npGet_neg_one {α : Type} {l : List α} (h : 0 < l.length) :
    npGet l (-1) = .ok l[l.length - 1] := by
  rw [npGet_ok_iff]
  exact ⟨l.length - 1, pyPos_neg_one h, List.getElem?_eq_getElem (by omega)⟩

theorem npGet_nil {α : Type} (i : Int) : npGet ([] : List α) i = .error .indexError := by
  rw [npGet_eq]; simp

/-- pure view of `npTake`: what it returns when all positions are valid -/
theorem npTake_ok_iff {α : Type} {l : List α} {idx : List Int} {r : List α} :
    npTake l idx = .ok r ↔
      idx.map (fun i => (pyPos l.length i).bind (fun j => l[j]?)) = r.map some := by
  induction idx generalizing r with
  | nil => simp [npTake]
  | cons i is ih =>
    simp only [npTake, bind, Except.bind, pure, Except.pure]
    cases h : npGet l i with
    | error e =>
      have := npGet_error h
      simp only [List.map_cons, this.2]
      cases r <;> simp
    | ok a =>
      have := npGet_ok_iff.1 h
      obtain ⟨j, h1, h2⟩ := this
      cases h3 : npTake l is with
      | error e =>
        simp only [List.map_cons, h1]
        cases r with
        | nil => simp
        | cons b bs =>
          simp [h2]
          intro _ hc
          have := ih.2 hc
          simp [h3] at this
      | ok as =>
        have h4 := ih.1 h3
        simp only [List.map_cons, h1, Option.bind_some, h2, h4]
        cases r with
        | nil => simp
        | cons b bs =>
          simp
          intro _
          constructor
          · rintro rfl; rfl
          · intro h; exact List.map_injective_iff.2 (Option.some_injective _) h

theorem npTake_error {α : Type} {l : List α} {idx : List Int} {e : Err}
    (h : npTake l idx = .error e) : e = .indexError ∧ ∃ i ∈ idx, pyPos l.length i = none := by
  induction idx with
  | nil => simp [npTake] at h
  | cons i is ih =>
    simp only [npTake, bind, Except.bind, pure, Except.pure] at h
    cases h1 : npGet l i with
    | error e' =>
      rw [h1] at h; simp at h; subst h
      exact ⟨(npGet_error h1).1, i, by simp, (npGet_error h1).2⟩
    | ok a =>
      rw [h1] at h; simp at h
      cases h2 : npTake l is with
      | error e' =>
        rw [h2] at h; simp at h; subst h
        obtain ⟨h3, k, hk, hk2⟩ := ih h2
        exact ⟨h3, k, by simp [hk], hk2⟩
      | ok as => rw [h2] at h; simp at h

theorem npTake_isOk {α : Type} {l : List α} {idx : List Int}
    (h : ∀ i ∈ idx, pyPos l.length i ≠ none) : ∃ r, npTake l idx = .ok r := by
  cases h1 : npTake l idx with
  | ok r => exact ⟨r, rfl⟩
  | error e =>
    obtain ⟨_, k, hk, hk2⟩ := npTake_error h1
    exact absurd hk2 (h k hk)

theorem npTake_error_of {α : Type} {l : List α} {idx : List Int} {i : Int} (hi : i ∈ idx)
    (h : pyPos l.length i = none) : npTake l idx = .error .indexError := by
  cases h1 : npTake l idx with
  | error e => rw [(npTake_error h1).1]
  | ok r =>
    have := npTake_ok_iff.1 h1
    have h2 : (pyPos l.length i).bind (fun j => l[j]?) ∈ r.map some := by
      rw [← this]; exact List.mem_map_of_mem hi
    rw [h] at h2; simp at h2

theorem npTake_length {α : Type} {l : List α} {idx : List Int} {r : List α}
    (h : npTake l idx = .ok r) : r.length = idx.length := by
  have := congrArg List.length (npTake_ok_iff.1 h); simpa using this.symm

theorem npTake_getElem? {α : Type} {l : List α} {idx : List Int} {r : List α}
    (h : npTake l idx = .ok r) {k : Nat} {i : Int} (hk : idx[k]? = some i) :
    ∃ j, pyPos l.length i = some j ∧ j < l.length ∧ r[k]? = l[j]? := by
  have h1 := congrArg (fun m => m[k]?) (npTake_ok_iff.1 h)
  simp [hk] at h1
  cases hp : pyPos l.length i with
  | none => simp [hp] at h1
  | some j =>
    have hj := pyPos_lt hp
    simp [hp, List.getElem?_eq_getElem hj] at h1
    refine ⟨j, rfl, hj, ?_⟩
    rw [List.getElem?_eq_getElem hj]
    cases hr : r[k]? with
    | none => rw [hr] at h1; simp at h1
    | some b => rw [hr] at h1; simpa using h1

/-- success of a take only depends on the length of the list -/
theorem npTake_ok_of_length {α β : Type} {l : List α} {m : List β} {idx : List Int} {r : List α}
    (h : npTake l idx = .ok r) (hl : m.length = l.length) : ∃ r', npTake m idx = .ok r' := by
  apply npTake_isOk
  intro i hi
  rw [hl]
  intro hn
  rw [npTake_error_of hi hn] at h
  simp at h

theorem maskList_length_le {α : Type} (m : List Bool) (l : List α) :
    (maskList m l).length ≤ l.length := by
  induction l generalizing m with
  | nil => cases m <;> simp [maskList]
  | cons x l ih =>
    cases m with
    | nil => simp [maskList]
    | cons b m =>
      simp only [maskList]
      split
      · simpa using ih m
      · have := ih m; simp; omega

theorem maskList_length {α β : Type} {m : List Bool} {l : List α} {l' : List β}
    (h : l.length = l'.length) : (maskList m l).length = (maskList m l').length := by
  induction l generalizing m l' with
  | nil => cases l' <;> cases m <;> simp_all [maskList]
  | cons x l ih =>
    cases l' with
    | nil => simp at h
    | cons x' l' =>
      cases m with
      | nil => simp [maskList]
      | cons b m => simp at h; simp only [maskList]; split <;> simp [ih h]

theorem maskList_zip {α β : Type} {m : List Bool} {l : List α} {l' : List β}
    (h : l.length = l'.length) : maskList m (l.zip l') = (maskList m l).zip (maskList m l') := by
  induction l generalizing m l' with
  | nil => cases l' <;> cases m <;> simp_all [maskList]
  | cons x l ih =>
    cases l' with
    | nil => simp at h
    | cons x' l' =>
      cases m with
      | nil => simp [maskList]
      | cons b m => simp at h; simp only [maskList, List.zip_cons_cons]; split <;> simp [ih h]

theorem maskList_map {α β : Type} (m : List Bool) (f : α → β) (l : List α) :
    maskList m (l.map f) = (maskList m l).map f := by
  induction l generalizing m with
  | nil => cases m <;> simp [maskList]
  | cons x l ih =>
    cases m with
    | nil => simp [maskList]
    | cons b m => simp only [maskList, List.map_cons]; split <;> simp [ih]

theorem maskList_replicate {α : Type} (m : List Bool) (n : Nat) (a : α) :
    maskList m (List.replicate n a) =
      List.replicate (maskList m (List.replicate n a)).length a := by
  induction n generalizing m with
  | zero => cases m <;> simp [maskList]
  | succ n ih =>
    cases m with
    | nil => simp [maskList]
    | cons b m =>
      simp only [List.replicate_succ, maskList]
      split
      · simp only [List.length_cons, List.replicate_succ]; rw [← ih]
      · exact ih m

/-- masking by a predicate of the element itself is filtering -/
theorem maskList_map_self {α β : Type} (f : β → α) (p : α → Bool) (l : List β) :
    maskList ((l.map f).map p) l = l.filter (fun b => p (f b)) := by
  induction l with
  | nil => simp [maskList]
  | cons x l ih =>
    simp only [List.map_cons, maskList, List.filter_cons, ih]

end TC
