import Verif.Spec.ObsEdit
import Verif.Proofs.Observations
import Verif.Props.Observations
/-!
# C203: reading and changing the observations of an alignment group by group
-/
namespace TC
open Obs
variable {K : Type} [Field K] [LinearOrder K]

/-! ### the table of groups -/

theorem perEpoch_names (e : EstSettings) : (epochNames e.leverarmEnabled e.timeShiftEnabled).length = perEpoch e := by
  unfold epochNames perEpoch
  cases e.leverarmEnabled <;> cases e.timeShiftEnabled <;> rfl

theorem epochNames_nodup (l t : Bool) : (epochNames l t).Nodup := by cases l <;> cases t <;> decide

theorem epochNames_pos (l t : Bool) : 0 < (epochNames l t).length := by cases l <;> cases t <;> decide

/-- where a group stands in an epoch -/
theorem group_some (e : EstSettings) (key : ObsKey)
    (h : ∀ q ∈ key.names, q ∈ epochNames e.leverarmEnabled e.timeShiftEnabled) :
    ∃ a, group e key = some (a, a + key.names.length) ∧
      a + key.names.length ≤ (epochNames e.leverarmEnabled e.timeShiftEnabled).length ∧
      (∀ q ∈ epochNames e.leverarmEnabled e.timeShiftEnabled,
        (q ∈ key.names ↔ a ≤ (epochNames e.leverarmEnabled e.timeShiftEnabled).idxOf q ∧
          (epochNames e.leverarmEnabled e.timeShiftEnabled).idxOf q < a + key.names.length) ∧
        (q ∈ key.names → key.names.idxOf q = (epochNames e.leverarmEnabled e.timeShiftEnabled).idxOf q - a)) ∧
      key.names.map (epochNames e.leverarmEnabled e.timeShiftEnabled).idxOf =
        (List.range key.names.length).map (a + ·) := by
  refine ⟨(epochNames e.leverarmEnabled e.timeShiftEnabled).idxOf (key.names.headD .fromX), ?_⟩
  unfold group
  revert h
  generalize e.leverarmEnabled = l
  generalize e.timeShiftEnabled = t
  cases key <;> cases l <;> cases t <;> decide

theorem group_none (e : EstSettings) (key : ObsKey)
    (h : ¬ ∀ q ∈ key.names, q ∈ epochNames e.leverarmEnabled e.timeShiftEnabled) : group e key = none := by
  unfold group
  revert h
  generalize e.leverarmEnabled = l
  generalize e.timeShiftEnabled = t
  cases key <;> cases l <;> cases t <;> decide

theorem names_pos (key : ObsKey) : 0 < key.names.length := by cases key <;> decide

/-! ### the columns of a vector -/

theorem block_getElem? {p : Nat} (v : List K) (k j : Nat) (hj : j < p) : (block p v k)[j]? = v[k * p + j]? := by
  unfold block
  rw [List.getElem?_take, if_pos hj, List.getElem?_drop]

/-- a column is determined by its numbers -/
theorem obsColumn_eq {p m j : Nat} (hj : j < p) {v c : List K} (hv : v.length = m * p) (hc : c.length = m)
    (h : ∀ k < m, c[k]? = v[k * p + j]?) : (List.range m).map (fun k => (block p v k).getD j 0) = c := by
  refine List.ext_getElem? fun k => ?_
  rw [List.getElem?_map]
  by_cases hk : k < m
  · rw [List.getElem?_range hk, h k hk]
    have hlt : k * p + j < v.length := by
      have : (k + 1) * p ≤ m * p := Nat.mul_le_mul_right p hk
      rw [hv]
      rw [Nat.succ_mul] at this
      omega
    rw [Option.map_some, List.getD_eq_getElem?_getD, block_getElem? v k j hj, List.getElem?_eq_getElem hlt]
    rfl
  · rw [List.getElem?_eq_none (by simpa using hk), List.getElem?_eq_none (by omega)]
    rfl

theorem stride_column {p m j : Nat} (hj : j < p) {v : List K} (hv : v.length = m * p) :
    (List.range m).map (fun k => (block p v k).getD j 0) = stride p j v := by
  have hp : 0 < p := by omega
  refine obsColumn_eq hj hv ?_ ?_
  · refine le_antisymm ?_ ?_
    · by_contra hc
      have h1 := List.getElem?_eq_getElem (not_le.1 hc)
      rw [stride_getElem? hp] at h1
      have h2 := (List.getElem?_eq_some_iff.1 h1).1
      omega
    · by_contra hc
      have h1 : (stride p j v)[(stride p j v).length]? = none := List.getElem?_eq_none le_rfl
      rw [stride_getElem? hp, List.getElem?_eq_none_iff] at h1
      have h2 := Nat.mul_le_mul_right p (not_le.1 hc)
      rw [Nat.succ_mul] at h2
      omega
  · intro k _
    rw [stride_getElem? hp, Nat.add_comm]

/-! ### assigning -/

@[simp] theorem get_put (s : AlignVectors K) (w : VecName) (v : List K) : get (put s w v) w = v := by cases w <;> rfl

@[simp] theorem put_put (s : AlignVectors K) (w : VecName) (u v : List K) : put (put s w u) w v = put s w v := by
  cases w <;> rfl

@[simp] theorem put_get (s : AlignVectors K) (w : VecName) : put s w (get s w) = s := by cases w <;> rfl

theorem get_put_ne (s : AlignVectors K) {w w' : VecName} (h : w' ≠ w) (v : List K) : get (put s w v) w' = get s w' := by
  cases w <;> cases w' <;> first | rfl | exact absurd rfl h

theorem spread_length {m rows : Nat} {c : List K} (hc : c.length = rows) (h : rows = m ∨ rows = 1) :
    (spread m c).length = m := by
  unfold spread
  split
  · simp
  · rename_i h1
    rcases h with h | h
    · omega
    · obtain ⟨x, hx⟩ := List.length_eq_one_iff.1 (hc.trans h)
      exact absurd hx (h1 x)

theorem setStride_spread {n i m rows : Nat} (hi : i < n) {v c : List K} (hv : v.length = m * n)
    (hc : c.length = rows) (h : rows = m ∨ rows = 1) : setStride n i v c = setStride n i v (spread m c) := by
  unfold spread
  split
  · rename_i x
    by_cases hm : m = 1
    · subst hm
      rfl
    · unfold setStride
      rw [hv, strideLen_epochs hi, if_neg (by simpa using fun h => hm h.symm), if_pos (by simp)]
      simp only
      congr 1
      refine List.ext_getElem? fun q => ?_
      simp only [List.getElem?_mapIdx]
      cases hq : v[q]? with
      | none => rfl
      | some y =>
        simp only [Option.map_some]
        have hlt := (List.getElem?_eq_some_iff.1 hq).1
        split_ifs with h1
        · have : (q - i) / n < m := by
            rw [Nat.div_lt_iff_lt_mul (by omega)]
            omega
          rw [List.getD_eq_getElem?_getD, List.getElem?_replicate, if_pos this]
          rfl
        · rfl
  · rfl

theorem assignColumns_ok {e : EstSettings} {w : VecName} {m rows : Nat} (hr : rows = m ∨ rows = 1) :
    ∀ (columns : List (List K)) (s : AlignVectors K) (i : Nat), i + columns.length ≤ perEpoch e →
      (get s w).length = m * perEpoch e → (∀ c ∈ columns, c.length = rows) →
      ∃ v, setLoop (perEpoch e) (get s w) i (columns.map (spread m)) = .ok v ∧
        assignColumns e w i columns s = (.ok (), put s w v) := by
  intro columns
  induction columns with
  | nil => exact fun s i _ _ _ => ⟨get s w, rfl, by rw [put_get]; rfl⟩
  | cons c cs ih =>
    intro s i hi hv hc
    simp only [List.length_cons] at hi
    have hcl := spread_length (m := m) (hc c (by simp)) hr
    obtain ⟨u, h1, h2, -⟩ := setStride_ok (n := perEpoch e) (i := i) (m := m) (by omega) (get s w) (spread m c) hv hcl
    obtain ⟨v, k1, k2⟩ := ih (put s w u) (i + 1) (by omega) (by rw [get_put]; omega) (fun d hd => hc d (by simp [hd]))
    rw [get_put] at k1
    refine ⟨v, ?_, ?_⟩
    · rw [List.map_cons]
      simp only [setLoop, h1, bind, Except.bind, k1]
    · unfold assignColumns assignColumn
      rw [put_put] at k2
      rw [SE.run_bind_ok (s' := put s w u) (a := ()), k2]
      rw [SE.run_bind_ok (SE.run_get s), SE.run_bind_ok (a := u) (s' := s), SE.run_modify]
      rw [SE.run_lift, setStride_spread (by omega) hv (hc c (by simp)) hr, h1]

theorem assignColumns_rejected {e : EstSettings} {w : VecName} {m rows i : Nat} {s : AlignVectors K}
    (hi : i < perEpoch e) (hv : (get s w).length = m * perEpoch e) (hr : ¬ (rows = m ∨ rows = 1))
    {columns : List (List K)} (hne : columns ≠ []) (hc : ∀ c ∈ columns, c.length = rows) :
    assignColumns e w i columns s = (.error .valueError, s) := by
  obtain ⟨c, cs, rfl⟩ := List.exists_cons_of_ne_nil hne
  have hcr := hc c (by simp)
  unfold assignColumns assignColumn
  rw [SE.run_bind_error (s' := s) (e := .valueError)]
  rw [SE.run_bind_ok (SE.run_get s), SE.run_bind_error]
  rw [SE.run_lift]
  unfold setStride
  rw [hv, strideLen_epochs hi, if_neg (by omega)]
  split
  · simp only [List.length_cons, List.length_nil] at hcr
    omega
  · rfl

theorem tablesOf_get (l t : Bool) (s : AlignVectors K) (w : VecName) : tablesOf l t s w = sheetOf l t (get s w) := by
  cases w <;> rfl

/-- after the columns of a group were assigned, the table has the new columns -/
theorem sheetOf_replace {e : EstSettings} {key : ObsKey} {a m : Nat} {v u : List K} {columns : List (List K)}
    (hv : v.length = m * perEpoch e)
    (hE : ∀ q ∈ key.names, q ∈ epochNames e.leverarmEnabled e.timeShiftEnabled)
    (ha : a + key.names.length ≤ perEpoch e)
    (hq : ∀ q ∈ epochNames e.leverarmEnabled e.timeShiftEnabled,
        (q ∈ key.names ↔ a ≤ (epochNames e.leverarmEnabled e.timeShiftEnabled).idxOf q ∧
          (epochNames e.leverarmEnabled e.timeShiftEnabled).idxOf q < a + key.names.length) ∧
        (q ∈ key.names → key.names.idxOf q = (epochNames e.leverarmEnabled e.timeShiftEnabled).idxOf q - a))
    (hl : columns.length = key.names.length) (hc : ∀ c ∈ columns, (spread m c).length = m)
    (hu : setLoop (perEpoch e) v a (columns.map (spread m)) = .ok u) :
    u.length = v.length ∧ sheetOf e.leverarmEnabled e.timeShiftEnabled u =
      (sheetOf e.leverarmEnabled e.timeShiftEnabled v).replace key columns := by
  have hp := perEpoch_names e
  have hp0 : 0 < perEpoch e := by unfold perEpoch; omega
  obtain ⟨u', h1, h2, h3⟩ := setLoop_ok (n := perEpoch e) (m := m) (columns.map (spread m)) v a
    (by rw [List.length_map]; omega) hv (fun c hc' => by
      obtain ⟨d, hd, rfl⟩ := List.mem_map.1 hc'
      exact hc d hd)
  obtain rfl : u' = u := by rw [hu] at h1; exact (Except.ok.inj h1).symm
  refine ⟨h2, ?_⟩
  have hm : v.length / perEpoch e = m := by rw [hv, Nat.mul_div_cancel _ hp0]
  have hmu : u'.length / perEpoch e = m := by rw [h2, hm]
  ext1
  · simp only [sheetOf, Sheet.replace, hp, h2]
  · funext q
    simp only [sheetOf, Sheet.replace, hp, hm, hmu]
    by_cases hqE : q ∈ epochNames e.leverarmEnabled e.timeShiftEnabled
    · have hj : (epochNames e.leverarmEnabled e.timeShiftEnabled).idxOf q < perEpoch e := by
        rw [← hp]
        exact List.idxOf_lt_length_of_mem hqE
      obtain ⟨g1, g2⟩ := hq q hqE
      generalize (epochNames e.leverarmEnabled e.timeShiftEnabled).idxOf q = j at *
      have hqn : ∀ k, (k * perEpoch e + j) % perEpoch e = j ∧ (k * perEpoch e + j) / perEpoch e = k := by
        intro k
        constructor
        · rw [Nat.add_comm, Nat.add_mul_mod_self_right, Nat.mod_eq_of_lt hj]
        · rw [Nat.add_comm, Nat.add_mul_div_right _ _ hp0, Nat.div_eq_of_lt hj, Nat.zero_add]
      have hlt : ∀ k < m, k * perEpoch e + j < v.length := by
        intro k hk
        have := Nat.mul_le_mul_right (perEpoch e) hk
        rw [Nat.succ_mul] at this
        omega
      rw [if_pos hqE]
      by_cases hqk : q ∈ key.names
      · rw [if_pos hqk, g2 hqk]
        have hr := g1.1 hqk
        have hja : j - a < columns.length := by omega
        rw [List.getElem?_eq_getElem hja, Option.map_some]
        congr 1
        refine obsColumn_eq hj (h2.trans hv) (hc _ (List.getElem_mem hja)) fun k hk => ?_
        rw [h3, (hqn k).1, (hqn k).2, List.length_map, if_pos ⟨hr.1, by omega, hlt k hk⟩, List.getElem?_map,
          List.getElem?_eq_getElem hja]
        rfl
      · rw [if_neg hqk, if_pos hqE]
        congr 1
        rw [stride_column hj hv]
        refine obsColumn_eq hj (h2.trans hv) ?_ fun k hk => ?_
        · rw [← stride_column hj hv]
          simp
        · have hr := g1.not.1 hqk
          rw [stride_getElem? hp0, h3, (hqn k).1, List.length_map, if_neg (by omega), Nat.add_comm]
    · rw [if_neg hqE, if_neg (fun h => hqE (hE q h)), if_neg hqE]

/-- **C203**: a change of the observations, their variances or their residuals is either accepted, and then
changes exactly the quantities it names in exactly the vector it names, or it is rejected with `ValueError`,
and then changes nothing. -/
theorem C203_change (e : EstSettings) (s : AlignVectors K)
    (hs : ∀ w, WholeEpochs e.leverarmEnabled e.timeShiftEnabled (get s w)) (c : VecEdit K) (hc : c.Array) :
    (c.Accepted e.leverarmEnabled e.timeShiftEnabled (tablesOf e.leverarmEnabled e.timeShiftEnabled s) →
      ∃ s', c.call e s = (.ok (), s') ∧
        (∀ w, WholeEpochs e.leverarmEnabled e.timeShiftEnabled (get s' w)) ∧
        tablesOf e.leverarmEnabled e.timeShiftEnabled s' =
          c.changed e.leverarmEnabled e.timeShiftEnabled (tablesOf e.leverarmEnabled e.timeShiftEnabled s)) ∧
    (¬ c.Accepted e.leverarmEnabled e.timeShiftEnabled (tablesOf e.leverarmEnabled e.timeShiftEnabled s) →
      c.call e s = (.error .valueError, s)) := by
  have hp := perEpoch_names e
  have hp0 : 0 < perEpoch e := by unfold perEpoch; omega
  cases c with
  | vector w values =>
    simp only [VecEdit.Accepted, VecEdit.call, setVector, checkLength, WholeEpochs, hp, Nat.dvd_iff_mod_eq_zero]
    constructor
    · intro h
      refine ⟨put s w values, ?_, fun w' => ?_, ?_⟩
      · rw [if_neg (by simpa using h)]
        rfl
      · by_cases hw : w' = w
        · subst hw
          rw [get_put]
          exact h
        · rw [get_put_ne s hw]
          have := hs w'
          rwa [WholeEpochs, hp, Nat.dvd_iff_mod_eq_zero] at this
      · funext w'
        rw [tablesOf_get]
        simp only [VecEdit.changed]
        by_cases hw : w' = w
        · subst hw
          rw [get_put, if_pos rfl]
        · rw [get_put_ne s hw, if_neg hw, tablesOf_get]
    · intro h
      rw [if_pos (by simpa using h)]
      rfl
  | group w key rows columns =>
    obtain ⟨m, hm⟩ : ∃ m, (get s w).length = m * perEpoch e := by
      obtain ⟨m, hm⟩ := hs w
      exact ⟨m, by rw [hm, hp, Nat.mul_comm]⟩
    have hdiv : (get s w).length / perEpoch e = m := by rw [hm, Nat.mul_div_cancel _ hp0]
    have hsome : (∀ q ∈ key.names, ((sheetOf e.leverarmEnabled e.timeShiftEnabled (get s w)).column q).isSome) ↔
        ∀ q ∈ key.names, q ∈ epochNames e.leverarmEnabled e.timeShiftEnabled := by
      refine forall₂_congr fun q _ => ?_
      simp only [sheetOf]
      split_ifs with h <;> simp [h]
    have hcl : ∀ c ∈ columns, c.length = rows := hc.length
    simp only [VecEdit.Accepted, Sheet.Accepts, tablesOf_get, hsome, VecEdit.call]
    rw [show (sheetOf e.leverarmEnabled e.timeShiftEnabled (get s w)).epochs = m by simp only [sheetOf, hp, hdiv]]
    unfold setGroup
    by_cases hE : ∀ q ∈ key.names, q ∈ epochNames e.leverarmEnabled e.timeShiftEnabled
    · obtain ⟨a, ha, hle, hq, -⟩ := group_some e key hE
      rw [hp] at hle
      rw [ha]
      simp only [Nat.add_sub_cancel_left]
      have hn := names_pos key
      by_cases hl : columns.length = key.names.length
      · rw [if_neg (by simpa using hl)]
        by_cases hr : rows = m ∨ rows = 1
        · refine ⟨fun _ => ?_, fun h => absurd ⟨hE, hl, hr⟩ h⟩
          obtain ⟨u, k1, k2⟩ := assignColumns_ok (e := e) (w := w) hr columns s a (by omega) hm hcl
          obtain ⟨j1, j2⟩ := sheetOf_replace hm hE hle hq hl
            (fun c hc' => spread_length (hcl c hc') hr) k1
          refine ⟨_, k2, fun w' => ?_, ?_⟩
          · by_cases hw : w' = w
            · subst hw
              rw [get_put]
              have := hs w'
              rw [WholeEpochs] at *
              rwa [j1]
            · rw [get_put_ne s hw]
              exact hs w'
          · funext w'
            rw [tablesOf_get]
            simp only [VecEdit.changed]
            by_cases hw : w' = w
            · subst hw
              rw [get_put, if_pos rfl, j2, tablesOf_get]
            · rw [get_put_ne s hw, if_neg hw, tablesOf_get]
        · refine ⟨fun h => absurd h.2.2 hr, fun _ => ?_⟩
          exact assignColumns_rejected (by omega) hm hr (by
            rintro rfl
            simp only [List.length_nil] at hl
            omega) hcl
      · rw [if_pos hl]
        exact ⟨fun h => absurd h.2.1 hl, fun _ => rfl⟩
    · rw [group_none e key hE]
      exact ⟨fun h => absurd h.1 hE, fun _ => rfl⟩

/-- the object after any number of calls; exceptions are caught and the work goes on -/
def afterCalls (e : EstSettings) (s : AlignVectors K) : List (VecEdit K) → AlignVectors K
  | [] => s
  | c :: cs => afterCalls e (c.call e s).2 cs

/-- **C203** for every history of changes: each quantity of each vector is what the last accepted change that
names it says, and otherwise as in the beginning. -/
theorem C203_histories (e : EstSettings) (s : AlignVectors K)
    (hs : ∀ w, WholeEpochs e.leverarmEnabled e.timeShiftEnabled (get s w)) (history : List (VecEdit K))
    (hc : ∀ c ∈ history, c.Array) :
    (∀ w, WholeEpochs e.leverarmEnabled e.timeShiftEnabled (get (afterCalls e s history) w)) ∧
    tablesOf e.leverarmEnabled e.timeShiftEnabled (afterCalls e s history) =
      afterEdits e.leverarmEnabled e.timeShiftEnabled (tablesOf e.leverarmEnabled e.timeShiftEnabled s) history := by
  induction history generalizing s with
  | nil => exact ⟨hs, rfl⟩
  | cons c cs ih =>
    obtain ⟨h1, h2⟩ := C203_change e s hs c (hc c (by simp))
    unfold afterCalls afterEdits
    by_cases ha : c.Accepted e.leverarmEnabled e.timeShiftEnabled (tablesOf e.leverarmEnabled e.timeShiftEnabled s)
    · obtain ⟨s', k1, k2, k3⟩ := h1 ha
      rw [if_pos ha, ← k3, k1]
      exact ih s' k2 (fun c hc' => hc c (by simp [hc']))
    · rw [if_neg ha, h2 ha]
      exact ih s hs (fun c hc' => hc c (by simp [hc']))

theorem extract_sheet (e : EstSettings) {v : List K} (hv : WholeEpochs e.leverarmEnabled e.timeShiftEnabled v)
    (key : ObsKey) :
    ((∀ q ∈ key.names, ((sheetOf e.leverarmEnabled e.timeShiftEnabled v).column q).isSome) →
      ∃ columns, extract e v key = .ok columns ∧
        columns.map some = key.names.map (sheetOf e.leverarmEnabled e.timeShiftEnabled v).column) ∧
    ((∃ q ∈ key.names, (sheetOf e.leverarmEnabled e.timeShiftEnabled v).column q = none) →
      extract e v key = .error .valueError) := by
  have hp := perEpoch_names e
  have hp0 : 0 < perEpoch e := by unfold perEpoch; omega
  obtain ⟨m, hm⟩ : ∃ m, v.length = m * perEpoch e := by
    obtain ⟨m, hm⟩ := hv
    exact ⟨m, by rw [hm, hp, Nat.mul_comm]⟩
  have hdiv : v.length / perEpoch e = m := by rw [hm, Nat.mul_div_cancel _ hp0]
  have hcol : ∀ q, ((sheetOf e.leverarmEnabled e.timeShiftEnabled v).column q).isSome ↔
      q ∈ epochNames e.leverarmEnabled e.timeShiftEnabled := by
    intro q
    simp only [sheetOf]
    split_ifs with h <;> simp [h]
  constructor
  · intro h
    have hE : ∀ q ∈ key.names, q ∈ epochNames e.leverarmEnabled e.timeShiftEnabled := fun q hq => (hcol q).1 (h q hq)
    obtain ⟨a, ha, -, -, hmap⟩ := group_some e key hE
    refine ⟨_, by unfold extract; rw [ha], ?_⟩
    rw [Nat.add_sub_cancel_left]
    have h1 : key.names.map (sheetOf e.leverarmEnabled e.timeShiftEnabled v).column =
        (key.names.map (epochNames e.leverarmEnabled e.timeShiftEnabled).idxOf).map
          (fun j => some (stride (perEpoch e) j v)) := by
      rw [List.map_map]
      refine List.map_congr_left fun q hq => ?_
      have hj : (epochNames e.leverarmEnabled e.timeShiftEnabled).idxOf q < perEpoch e := by
        rw [← hp]
        exact List.idxOf_lt_length_of_mem (hE q hq)
      simp only [sheetOf, hp, hdiv, if_pos (hE q hq), Function.comp_apply]
      rw [stride_column hj hm]
    rw [h1, hmap, List.map_map, List.map_map]
    rfl
  · rintro ⟨q, hq, hn⟩
    unfold extract
    rw [group_none e key (fun h => by
      have := (hcol q).2 (h q hq)
      rw [hn] at this
      cases this)]

/-- **C203**: reading a group gives the columns of its quantities, in the order of its key, whatever happened
before; a group that is not part of the observations is rejected. -/
theorem C203_read (e : EstSettings) (s : AlignVectors K)
    (hs : ∀ w, WholeEpochs e.leverarmEnabled e.timeShiftEnabled (get s w)) (w : VecName) (key : ObsKey) :
    ((∀ q ∈ key.names, ((tablesOf e.leverarmEnabled e.timeShiftEnabled s w).column q).isSome) →
      ∃ columns, getGroup e s w key = .ok columns ∧
        columns.map some = key.names.map (tablesOf e.leverarmEnabled e.timeShiftEnabled s w).column) ∧
    ((∃ q ∈ key.names, (tablesOf e.leverarmEnabled e.timeShiftEnabled s w).column q = none) →
      getGroup e s w key = .error .valueError) := by
  rw [tablesOf_get]
  exact extract_sheet e (hs w) key

/-- **C203**: the adjusted observations of a group are the observations plus the residuals, quantity by quantity
and epoch by epoch; if the vectors have different lengths they cannot be read. -/
theorem C203_adjusted (e : EstSettings) (s : AlignVectors K)
    (hs : ∀ w, WholeEpochs e.leverarmEnabled e.timeShiftEnabled (get s w)) (key : ObsKey) :
    (s.obs.length = s.res.length →
      ∀ obs res, getGroup e s .obs key = .ok obs → getGroup e s .res key = .ok res →
        getEstGroup e s key = .ok (List.zipWith (List.zipWith (· + ·)) obs res)) ∧
    (s.obs.length ≠ s.res.length → getEstGroup e s key = .error .valueError) := by
  have hp0 : 0 < perEpoch e := by unfold perEpoch; omega
  constructor
  · intro hlen obs res ho hr
    unfold getEstGroup estVector
    rw [if_pos hlen]
    simp only [bind, Except.bind]
    unfold getGroup extract at ho hr
    unfold extract
    cases hg : group e key with
    | none => rw [hg] at ho; cases ho
    | some ab =>
      rw [hg] at ho hr
      simp only [Except.ok.injEq] at ho hr ⊢
      subst ho hr
      rw [List.zipWith_map, List.zipWith_self]
      refine List.map_congr_left fun c _ => ?_
      refine List.ext_getElem? fun k => ?_
      rw [stride_getElem? hp0, List.getElem?_zipWith, List.getElem?_zipWith, stride_getElem? hp0, stride_getElem? hp0]
      rfl
  · intro hlen
    unfold getEstGroup estVector
    rw [if_neg hlen]
    rfl

/-- **C203**: the vectors of a new object hold whole epochs. -/
theorem C203_start (e : EstSettings) (st : Stochastics K) (tstamps : List K) (source target rpy speed : List (V3 K))
    (ht : target.length = source.length) (hr : rpy.length = source.length) (hs : speed.length = source.length) :
    ∃ obs var, build e tstamps source target (some rpy) (some speed) = .ok obs ∧ buildVar e st obs = .ok var ∧
      ∀ w, WholeEpochs e.leverarmEnabled e.timeShiftEnabled (get ⟨obs, var, buildRes obs⟩ w) := by
  obtain ⟨obs, h1, h2, -⟩ := C78_layout e tstamps source target rpy speed ht hr hs
  obtain ⟨var, h3, h4, -⟩ := C78_variances e st source.length obs h2
  refine ⟨obs, var, h1, h3, fun w => ?_⟩
  unfold WholeEpochs
  rw [perEpoch_names]
  refine ⟨source.length, ?_⟩
  rw [Nat.mul_comm, ← h2]
  cases w
  · rfl
  · exact h4
  · exact List.length_map _

/-! ### a concrete case -/

/-- a lever arm is not estimated, a time shift is: nine numbers an epoch -/
def exVectors : AlignVectors ℚ :=
  { obs := [1, 2, 3, 11, 12, 13, 1, 0, 0,  4, 5, 6, 14, 15, 16, 0, 1, 0]
    var := List.replicate 18 1
    res := List.replicate 18 0 }

/-- positions of the target, one row for all epochs; a group that is not there; too many rows; residuals -/
def exEdits : List (VecEdit ℚ) :=
  [.group .obs .xyTo 1 [[20], [21]], .group .obs .rpy 2 [[1, 1], [1, 1], [1, 1]],
   .group .var .zFrom 3 [[7, 8, 9]], .group .res .zTo 2 [[1, 2]], .vector .var [1, 2, 3]]

example : (∀ w, WholeEpochs false true (get exVectors w)) ∧ (∀ c ∈ exEdits, c.Array) := by
  refine ⟨fun w => by cases w <;> exact ⟨2, rfl⟩, ?_⟩
  intro c hc
  simp only [exEdits, List.mem_cons, List.not_mem_nil, or_false] at hc
  rcases hc with rfl | rfl | rfl | rfl | rfl
  all_goals first | trivial | (constructor; intro c hc; revert c; decide)

example : ({ timeShift := true } : EstSettings).leverarmEnabled = false ∧
    ({ timeShift := true } : EstSettings).timeShiftEnabled = true ∧
    afterCalls { timeShift := true } exVectors exEdits =
      { obs := [1, 2, 3, 20, 21, 13, 1, 0, 0,  4, 5, 6, 20, 21, 16, 0, 1, 0]
        var := List.replicate 18 1
        res := [0, 0, 0, 0, 0, 1, 0, 0, 0,  0, 0, 0, 0, 0, 2, 0, 0, 0] } := by decide +kernel

example : (getGroup { timeShift := true } exVectors .obs .xyTo).toOption = some [[11, 14], [12, 15]] ∧
    (getEstGroup { timeShift := true } (afterCalls { timeShift := true } exVectors exEdits) .zTo).toOption =
      some [[14, 18]] := by decide +kernel

end TC
