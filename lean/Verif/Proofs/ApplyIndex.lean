import Verif.Proofs.Index
/-!
# Lemmas on `apply_index`
-/
namespace TC

/-- total version of indexing -/
def pick {α : Type} : Index → List α → List α
  | .ints idx, l => idx.filterMap (fun i => (pyPos l.length i).bind (fun j => l[j]?))
  | .mask m, l => maskList m l

/-- the index is accepted by an array of length `n` -/
def IndexValid (n : Nat) : Index → Prop
  | .ints idx => ∀ i ∈ idx, pyPos n i ≠ none
  | .mask m => m.length = n

instance (n : Nat) (index : Index) : Decidable (IndexValid n index) := by
  cases index <;> unfold IndexValid <;> infer_instance

theorem filterMap_eq_of_map_eq {α β : Type} {f : α → Option β} {l : List α} {r : List β}
    (h : l.map f = r.map some) : l.filterMap f = r := by
  induction l generalizing r with
  | nil => cases r <;> simp_all
  | cons a l ih =>
    cases r with
    | nil => simp at h
    | cons b r =>
      simp at h
      rw [List.filterMap_cons, h.1]
      simp [ih h.2]

theorem npIndex_valid {α : Type} {l : List α} {index : Index} (h : IndexValid l.length index) :
    npIndex l index = .ok (pick index l) := by
  cases index with
  | ints idx =>
    obtain ⟨r, hr⟩ := npTake_isOk (l := l) h
    simp only [npIndex, pick, hr]
    rw [filterMap_eq_of_map_eq (npTake_ok_iff.1 hr)]
  | mask m => simp only [npIndex, npMask, pick]; exact if_pos h

theorem npIndex_invalid {α : Type} {l : List α} {index : Index} (h : ¬ IndexValid l.length index) :
    npIndex l index = .error .indexError := by
  cases index with
  | ints idx =>
    simp only [IndexValid, not_forall] at h
    obtain ⟨i, hi, hn⟩ := h
    exact npTake_error_of hi (not_not.1 hn)
  | mask m => simp only [npIndex, npMask]; exact if_neg h

theorem pick_length {α β : Type} {index : Index} {l : List α} {l' : List β}
    (h : l.length = l'.length) : (pick index l).length = (pick index l').length := by
  cases index with
  | ints idx =>
    simp only [pick, h]
    induction idx with
    | nil => rfl
    | cons i is ih =>
      simp only [List.filterMap_cons]
      cases hp : pyPos l'.length i with
      | none => simpa using ih
      | some j =>
        have hj := pyPos_lt hp
        simp [List.getElem?_eq_getElem hj, List.getElem?_eq_getElem (h ▸ hj : j < l.length), ih]
  | mask m => exact maskList_length h

theorem pick_zip {α β : Type} {index : Index} {l : List α} {l' : List β}
    (h : l.length = l'.length) : pick index (l.zip l') = (pick index l).zip (pick index l') := by
  cases index with
  | ints idx =>
    simp only [pick, List.length_zip, h, Nat.min_self]
    induction idx with
    | nil => rfl
    | cons i is ih =>
      simp only [List.filterMap_cons]
      cases hp : pyPos l'.length i with
      | none => simpa using ih
      | some j =>
        have hj := pyPos_lt hp
        have hj' : j < l.length := h ▸ hj
        have hz : j < (l.zip l').length := by simp; omega
        simp only [Option.bind_some, List.getElem?_eq_getElem hj, List.getElem?_eq_getElem hj',
          List.getElem?_eq_getElem hz, List.getElem_zip, List.zip_cons_cons, ih]
  | mask m => exact maskList_zip h

theorem pick_map {α β : Type} (index : Index) (f : α → β) (l : List α) :
    pick index (l.map f) = (pick index l).map f := by
  cases index with
  | ints idx =>
    simp only [pick, List.map_filterMap, List.length_map]
    apply List.filterMap_congr
    intro i _
    cases pyPos l.length i <;> simp
  | mask m => exact maskList_map m f l

theorem pick_replicate {α : Type} (index : Index) (n : Nat) (a : α) :
    pick index (List.replicate n a) = List.replicate (pick index (List.replicate n a)).length a := by
  cases index with
  | ints idx =>
    apply List.eq_replicate_iff.2
    refine ⟨rfl, ?_⟩
    intro b hb
    simp only [pick, List.mem_filterMap] at hb
    obtain ⟨i, _, hb⟩ := hb
    cases hp : pyPos (List.replicate n a).length i with
    | none => rw [hp] at hb; simp at hb
    | some j =>
      simp only [hp, Option.bind_some] at hb
      have := List.mem_of_getElem? hb
      exact List.eq_of_mem_replicate this
  | mask m => exact maskList_replicate m n a

/-- the trajectory with an accepted index applied to each channel -/
def pickTraj {K R : Type} (index : Index) (T : Traj K R) : Traj K R :=
  { T with tstamps := pick index T.tstamps, pos := pick index T.pos,
           rot := T.rot.map (pick index), arc := pick index T.arc, speed := pick index T.speed }

variable {K R : Type}

theorem pickTraj_coherent {index : Index} {T : Traj K R} (h : Coherent T) :
    Coherent (pickTraj index T) := by
  refine ⟨pick_length h.pos, pick_length h.arc, pick_length h.speed, ?_⟩
  intro r hr
  simp only [pickTraj, Option.map_eq_some_iff] at hr
  obtain ⟨r', h1, rfl⟩ := hr
  exact pick_length (h.rot _ h1)

theorem pickTraj_sameMeta (index : Index) (T : Traj K R) : SameMeta T (pickTraj index T) := by
  refine ⟨rfl, rfl, rfl, ?_⟩
  simp [pickTraj]

theorem rotColumn_length {T : Traj K R} (h : Coherent T) :
    (rotColumn T.tstamps.length T.rot).length = T.tstamps.length := by
  cases hr : T.rot with
  | none => simp [rotColumn]
  | some r => simp [rotColumn, h.rot r hr]

theorem samples_length {T : Traj K R} (h : Coherent T) :
    (samples T).length = T.tstamps.length := by
  simp [samples, rotColumn_length h, h.pos, h.arc, h.speed]

theorem samples_pickTraj {index : Index} {T : Traj K R} (h : Coherent T) :
    samples (pickTraj index T) = pick index (samples T) := by
  have hrc : rotColumn (pick index T.tstamps).length (T.rot.map (pick index)) =
      pick index (rotColumn T.tstamps.length T.rot) := by
    cases hr : T.rot with
    | none =>
      simp only [Option.map_none, rotColumn]
      rw [pick_replicate]
      congr 1
      exact pick_length (by simp)
    | some r => simp only [Option.map_some, rotColumn]; rw [pick_map]
  have hl := rotColumn_length h
  unfold samples
  rw [pick_map, pick_zip, pick_zip, pick_zip, pick_zip]
  · simp only [pickTraj, hrc]
  · rw [h.arc, h.speed]
  · simp [hl, h.arc, h.speed]
  · simp [hl, h.arc, h.speed, h.pos]
  · simp [hl, h.arc, h.speed, h.pos]

/-- `apply_index` on a trajectory with equal-length channels -/
theorem applyIndex_eq' [Field K] [LinearOrder K] {index : Index} {T : Traj K R} (h : Coherent T) :
    Traj.applyIndex index T =
      if IndexValid T.tstamps.length index then
        if T.rot.isSome = true ∧ pick index T.tstamps = [] then
          (.error .valueError, { T with tstamps := [], pos := [] })
        else (.ok (), pickTraj index T)
      else (.error .indexError, T) := by
  unfold Traj.applyIndex
  by_cases hv : IndexValid T.tstamps.length index
  · rw [if_pos hv]
    have e1 := npIndex_valid hv
    have e2 := npIndex_valid (l := T.pos) (by rw [h.pos]; exact hv)
    have e3 := npIndex_valid (l := T.arc) (by rw [h.arc]; exact hv)
    have e4 := npIndex_valid (l := T.speed) (by rw [h.speed]; exact hv)
    cases hr : T.rot with
    | none => simp [SE.run_bind, e1, e2, e3, e4, hr, pickTraj]
    | some r =>
      have e5 := npIndex_valid (l := r) (by rw [h.rot r hr]; exact hv)
      have l1 : (pick index r).length = (pick index T.tstamps).length := pick_length (h.rot r hr)
      have l2 : (pick index T.pos).length = (pick index T.tstamps).length := pick_length h.pos
      by_cases hz : pick index T.tstamps = []
      · have z1 : (pick index r) = [] := by rw [← List.length_eq_zero_iff, l1, hz]; rfl
        have z2 : (pick index T.pos) = [] := by rw [← List.length_eq_zero_iff, l2, hz]; rfl
        simp [SE.run_bind, e1, e2, e5, hr, z1, z2, hz]
      · have z1 : (pick index r) ≠ [] := by
          rw [ne_eq, ← List.length_eq_zero_iff, l1, List.length_eq_zero_iff]; exact hz
        simp [SE.run_bind, e1, e2, e3, e4, e5, hr, pickTraj, hz, z1]
  · rw [if_neg hv]
    have e1 := npIndex_invalid hv
    simp [SE.run_bind, e1]

/-- the normal case: no orientations, or something is selected -/
theorem applyIndex_eq [Field K] [LinearOrder K] {index : Index} {T : Traj K R} (h : Coherent T)
    (hv : IndexValid T.tstamps.length index) (hk : T.rot = none ∨ pick index T.tstamps ≠ []) :
    Traj.applyIndex index T = (.ok (), pickTraj index T) := by
  rw [applyIndex_eq' h, if_pos hv, if_neg]
  rintro ⟨h1, h2⟩
  rcases hk with hk | hk
  · rw [hk] at h1; simp at h1
  · exact hk h2

theorem applyIndex_invalid [Field K] [LinearOrder K] {index : Index} {T : Traj K R}
    (h : Coherent T) (hv : ¬ IndexValid T.tstamps.length index) :
    Traj.applyIndex index T = (.error .indexError, T) := by
  rw [applyIndex_eq' h, if_neg hv]

theorem pick_ne_nil_of_samples {index : Index} {T : Traj K R} (h : Coherent T)
    (hp : pick index (samples T) ≠ []) : pick index T.tstamps ≠ [] := by
  intro hc
  apply hp
  rw [← List.length_eq_zero_iff, pick_length (l' := T.tstamps) (samples_length h), hc]
  rfl

theorem samples_map_t {T : Traj K R} (h : Coherent T) :
    (samples T).map Sample.t = T.tstamps := by
  unfold samples
  rw [List.map_map]
  have : (Sample.t ∘ fun s : K × V3 K × Option R × K × V3 K =>
      (⟨s.1, s.2.1, s.2.2.1, s.2.2.2.1, s.2.2.2.2⟩ : Sample K R)) = Prod.fst := rfl
  rw [this, List.map_fst_zip]
  simp [rotColumn_length h, h.pos, h.arc, h.speed]

theorem crop_eq [Field K] [LinearOrder K] {T : Traj K R} (hT : Coherent T) (a b : K) (inv : Bool)
    (hk : T.rot = none ∨ ∃ t ∈ T.tstamps,
      (if inv then !decide (a ≤ t ∧ t ≤ b) else decide (a ≤ t ∧ t ≤ b)) = true) :
    Traj.crop a b inv T = (.ok (), pickTraj (.mask (T.tstamps.map
      (fun t => if inv then !decide (a ≤ t ∧ t ≤ b) else decide (a ≤ t ∧ t ≤ b)))) T) := by
  unfold Traj.crop
  have hv : IndexValid T.tstamps.length (.mask (T.tstamps.map
      (fun t => if inv then !decide (a ≤ t ∧ t ≤ b) else decide (a ≤ t ∧ t ≤ b)))) := by
    simp [IndexValid]
  have hk' : T.rot = none ∨ pick (.mask (T.tstamps.map
      (fun t => if inv then !decide (a ≤ t ∧ t ≤ b) else decide (a ≤ t ∧ t ≤ b)))) T.tstamps ≠ [] := by
    rcases hk with hk | ⟨t, ht, hp⟩
    · exact Or.inl hk
    · right
      intro hc
      have := maskList_map_self (fun x : K => x)
        (fun t => if inv then !decide (a ≤ t ∧ t ≤ b) else decide (a ≤ t ∧ t ≤ b)) T.tstamps
      simp only [List.map_id'] at this
      simp only [pick] at hc
      rw [hc] at this
      have hm := List.mem_filter (p := fun t => if inv then !decide (a ≤ t ∧ t ≤ b)
        else decide (a ≤ t ∧ t ≤ b)) |>.2 ⟨ht, hp⟩
      rw [← this] at hm
      simp at hm
  cases inv <;> simp only [SE.run_bind, SE.run_get, if_true] <;>
    (simp only [Bool.false_eq_true, if_false, if_true] at hv hk' ⊢; rw [applyIndex_eq hT hv hk'])

end TC
