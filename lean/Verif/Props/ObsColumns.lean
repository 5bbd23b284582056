import Verif.Model.ObsColumns
import Verif.Props.ObsEdit
/-!
# C209: the named columns of the observations
-/
namespace TC
open Obs
set_option linter.unusedSectionVars false
variable {K : Type} [Field K] [LinearOrder K]

/-- the quantity a property is named after; the Euler angles are about the axes x, y and z -/
def ColumnProperty.quantity : ColumnProperty → Quantity
  | .x_from => .fromX
  | .y_from => .fromY
  | .z_from => .fromZ
  | .x_to => .toX
  | .y_to => .toY
  | .z_to => .toZ
  | .speed_x => .speedX
  | .speed_y => .speedY
  | .speed_z => .speedZ
  | .euler_x => .roll
  | .euler_y => .pitch
  | .euler_z => .yaw

/-- one zero for every epoch -/
def Sheet.orZero (t : Sheet K) (q : Quantity) : List K := (t.column q).getD (List.replicate t.epochs 0)

theorem columnAt_ok {cs : List (List K)} {i : Nat} {c : List K} (h : cs[i]? = some c) : columnAt (.ok cs) i = .ok c := by
  unfold columnAt
  simp only [bind, Except.bind, h]
  rfl

theorem zeroColumns_at (e : EstSettings) (s : AlignVectors K) {i : Nat} (h : i < 3) :
    columnAt (.ok (zeroColumns e s)) i = .ok (List.replicate (numEpochs e s.obs) 0) :=
  columnAt_ok (by rw [zeroColumns, List.getElem?_replicate, if_pos h])

theorem sheet_epochs (e : EstSettings) (v : List K) : (sheetOf e.leverarmEnabled e.timeShiftEnabled v).epochs = numEpochs e v := by
  unfold sheetOf numEpochs
  rw [perEpoch_names]

theorem isSome_column (l t : Bool) (v : List K) (q : Quantity) :
    ((sheetOf l t v).column q).isSome ↔ q ∈ epochNames l t := by
  simp only [sheetOf]
  split_ifs with h <;> simp [h]

theorem columnAt_extract (e : EstSettings) {v : List K} (hv : WholeEpochs e.leverarmEnabled e.timeShiftEnabled v)
    {key : ObsKey} {i : Nat} {q : Quantity} (hq : key.names[i]? = some q)
    (hE : ∀ q ∈ key.names, q ∈ epochNames e.leverarmEnabled e.timeShiftEnabled) :
    columnAt (extract e v key) i = .ok ((sheetOf e.leverarmEnabled e.timeShiftEnabled v).orZero q) := by
  obtain ⟨columns, h1, h2⟩ := (extract_sheet e hv key).1 (fun q h => (isSome_column _ _ _ q).2 (hE q h))
  rw [h1]
  have h3 : (columns.map some)[i]? = some ((sheetOf e.leverarmEnabled e.timeShiftEnabled v).column q) := by
    rw [h2, List.getElem?_map, hq]
    rfl
  rw [List.getElem?_map, Option.map_eq_some_iff] at h3
  obtain ⟨c, h4, h5⟩ := h3
  rw [columnAt_ok h4, Sheet.orZero, ← h5]
  rfl

theorem column_of_read (e : EstSettings) (s : AlignVectors K) (adjusted : Bool) {v : List K}
    (hread : ∀ key, (if adjusted then getEstGroup e s key else getGroup e s .obs key) = extract e v key)
    (hlen : v.length = s.obs.length) (hv : WholeEpochs e.leverarmEnabled e.timeShiftEnabled v) (p : ColumnProperty) :
    columnProperty e s adjusted p = .ok ((sheetOf e.leverarmEnabled e.timeShiftEnabled v).orZero p.quantity) := by
  have hep : (sheetOf e.leverarmEnabled e.timeShiftEnabled v).epochs = numEpochs e s.obs := by
    rw [sheet_epochs, numEpochs, hlen, numEpochs]
  have hz : ∀ q, q ∉ epochNames e.leverarmEnabled e.timeShiftEnabled →
      (sheetOf e.leverarmEnabled e.timeShiftEnabled v).orZero q = List.replicate (numEpochs e s.obs) 0 := by
    intro q hq
    unfold Sheet.orZero
    have hn : (sheetOf e.leverarmEnabled e.timeShiftEnabled v).column q = none := by simp only [sheetOf, if_neg hq]
    rw [hn, hep]
    rfl
  have hr : ∀ key i q, key.names[i]? = some q → (∀ q ∈ key.names, q ∈ epochNames e.leverarmEnabled e.timeShiftEnabled) →
      columnAt (if adjusted then getEstGroup e s key else getGroup e s .obs key) i =
        .ok ((sheetOf e.leverarmEnabled e.timeShiftEnabled v).orZero q) := by
    intro key i q h1 h2
    rw [hread]
    exact columnAt_extract e hv h1 h2
  have hrot : ∀ i q, i < 3 → (ObsKey.rpy).names[i]? = some q → columnAt (groupColumns e s adjusted .rpy) i =
      .ok ((sheetOf e.leverarmEnabled e.timeShiftEnabled v).orZero q) := by
    intro i q hi h1
    unfold groupColumns
    cases hl : e.leverarmEnabled
    · simp only [Bool.not_false, if_true]
      rw [zeroColumns_at e s hi, ← hl, hz]
      rw [hl]
      intro hm
      have hq := List.mem_of_getElem? h1
      cases ht : e.timeShiftEnabled <;> simp [ObsKey.names, epochNames, ht] at hq hm <;>
        rcases hq with rfl | rfl | rfl <;> simp at hm
    · simp only [Bool.not_true, Bool.false_eq_true, if_false]
      have := hr _ _ _ h1 (by simp [ObsKey.names, epochNames, hl])
      rwa [hl] at this
  have hspd : ∀ i q, i < 3 → (ObsKey.speed).names[i]? = some q → columnAt (groupColumns e s adjusted .speed) i =
      .ok ((sheetOf e.leverarmEnabled e.timeShiftEnabled v).orZero q) := by
    intro i q hi h1
    unfold groupColumns
    cases hl : e.timeShiftEnabled
    · simp only [Bool.not_false, if_true]
      rw [zeroColumns_at e s hi, ← hl, hz]
      rw [hl]
      intro hm
      have hq := List.mem_of_getElem? h1
      cases ht : e.leverarmEnabled <;> simp [ObsKey.names, epochNames, ht] at hq hm <;>
        rcases hq with rfl | rfl | rfl <;> simp at hm
    · simp only [Bool.not_true, Bool.false_eq_true, if_false]
      have := hr _ _ _ h1 (by simp [ObsKey.names, epochNames, hl])
      rwa [hl] at this
  cases p
  · exact hr .xyzFrom 0 _ rfl (by simp [ObsKey.names, epochNames])
  · exact hr .xyzFrom 1 _ rfl (by simp [ObsKey.names, epochNames])
  · exact hr .xyzFrom 2 _ rfl (by simp [ObsKey.names, epochNames])
  · exact hr .xyzTo 0 _ rfl (by simp [ObsKey.names, epochNames])
  · exact hr .xyzTo 1 _ rfl (by simp [ObsKey.names, epochNames])
  · exact hr .xyzTo 2 _ rfl (by simp [ObsKey.names, epochNames])
  · exact hspd 0 _ (by decide) rfl
  · exact hspd 1 _ (by decide) rfl
  · exact hspd 2 _ (by decide) rfl
  · exact hrot 0 _ (by decide) rfl
  · exact hrot 1 _ (by decide) rfl
  · exact hrot 2 _ (by decide) rfl

/-- **C209**: after any history of changes, a named column holds the quantity it is named after, as the changes left it
(`afterEdits`, C203), or a zero for every epoch if the settings do not make it an observation. -/
theorem C209_column (e : EstSettings) (s : AlignVectors K)
    (hs : ∀ w, WholeEpochs e.leverarmEnabled e.timeShiftEnabled (get s w)) (history : List (VecEdit K))
    (hc : ∀ c ∈ history, c.Array) (p : ColumnProperty) :
    columnProperty e (afterCalls e s history) false p =
      .ok ((afterEdits e.leverarmEnabled e.timeShiftEnabled (tablesOf e.leverarmEnabled e.timeShiftEnabled s) history .obs).orZero
        p.quantity) := by
  obtain ⟨h1, h2⟩ := C203_histories e s hs history hc
  rw [← h2, tablesOf_get]
  exact column_of_read e _ false (v := get (afterCalls e s history) .obs) (fun key => rfl) rfl (h1 .obs) p

/-- the sum of two tables, quantity by quantity and epoch by epoch -/
def Sheet.Sum (a b c : Sheet K) : Prop :=
  c.epochs = a.epochs ∧ ∀ (q : Quantity) (k : Nat) (x y : K), (a.orZero q)[k]? = some x → (b.orZero q)[k]? = some y →
    (c.orZero q)[k]? = some (x + y)

theorem orZero_length (l t : Bool) (v : List K) (q : Quantity) : ((sheetOf l t v).orZero q).length = (sheetOf l t v).epochs := by
  unfold Sheet.orZero
  simp only [sheetOf]
  split_ifs <;> simp

theorem sum_sheets (e : EstSettings) {u v : List K} (h : u.length = v.length)
    (hu : WholeEpochs e.leverarmEnabled e.timeShiftEnabled u) (q : Quantity) (k : Nat) {x y : K}
    (hx : ((sheetOf e.leverarmEnabled e.timeShiftEnabled u).orZero q)[k]? = some x)
    (hy : ((sheetOf e.leverarmEnabled e.timeShiftEnabled v).orZero q)[k]? = some y) :
    ((sheetOf e.leverarmEnabled e.timeShiftEnabled (List.zipWith (· + ·) u v)).orZero q)[k]? = some (x + y) := by
  have hl : (List.zipWith (· + ·) u v).length = u.length := by simp [h]
  have hk : k < u.length / (epochNames e.leverarmEnabled e.timeShiftEnabled).length := by
    have := (List.getElem?_eq_some_iff.1 hx).1
    rwa [orZero_length] at this
  unfold Sheet.orZero at *
  simp only [sheetOf] at *
  rw [hl]
  by_cases hq : q ∈ epochNames e.leverarmEnabled e.timeShiftEnabled
  · simp only [if_pos hq, Option.getD_some, List.getElem?_map, h, List.getElem?_range (h ▸ hk : k < v.length / _),
      Option.map_some, Option.some.injEq] at hx hy ⊢
    set p := (epochNames e.leverarmEnabled e.timeShiftEnabled).length with hp
    have hj := List.idxOf_lt_length_of_mem hq
    set j := (epochNames e.leverarmEnabled e.timeShiftEnabled).idxOf q
    have hb : k * p + j < u.length := by
      have h1 : (k + 1) * p ≤ u.length := (Nat.mul_le_mul_right p hk).trans (Nat.div_mul_le_self _ _)
      have h2 : (k + 1) * p = k * p + p := by ring
      omega
    have hg : ∀ w : List K, k * p + j < w.length → (block p w k).getD j 0 = w.getD (k * p + j) 0 := by
      intro w _
      rw [List.getD_eq_getElem?_getD, block_getElem? w k j hj, List.getD_eq_getElem?_getD]
    rw [hg u hb] at hx
    rw [hg v (h ▸ hb)] at hy
    rw [hg _ (by rw [hl]; exact hb), ← hx, ← hy]
    simp [List.getD_eq_getElem?_getD, List.getElem?_zipWith, List.getElem?_eq_getElem hb,
      List.getElem?_eq_getElem (h ▸ hb : k * p + j < v.length)]
  · simp only [if_neg hq, Option.getD_none] at hx hy ⊢
    rw [List.getElem?_replicate] at *
    rw [if_pos hk] at *
    rw [if_pos (h ▸ hk)] at hy
    cases hx
    cases hy
    simp

/-- **C209**: the adjusted column of the same name is the sum of the column and of the residuals, epoch by epoch. -/
theorem C209_adjusted (e : EstSettings) (s : AlignVectors K)
    (hs : ∀ w, WholeEpochs e.leverarmEnabled e.timeShiftEnabled (get s w)) (hl : s.obs.length = s.res.length)
    (p : ColumnProperty) :
    ∃ column adjusted, columnProperty e s false p = .ok column ∧ columnProperty e s true p = .ok adjusted ∧
      column.length = dataLength e s ∧ adjusted.length = dataLength e s ∧
      ∀ (k : Nat) (x y : K), column[k]? = some x →
        ((tablesOf e.leverarmEnabled e.timeShiftEnabled s .res).orZero p.quantity)[k]? = some y → adjusted[k]? = some (x + y) := by
  have h1 := column_of_read e s false (v := s.obs) (fun key => rfl) rfl (hs .obs) p
  have hlen : (List.zipWith (· + ·) s.obs s.res).length = s.obs.length := by simp [hl]
  have h2 := column_of_read e s true (v := List.zipWith (· + ·) s.obs s.res)
    (fun key => by simp only [if_true, getEstGroup, estVector, if_pos hl]; rfl) hlen
    (by unfold WholeEpochs; rw [hlen]; exact hs .obs) p
  refine ⟨_, _, h1, h2, ?_, ?_, ?_⟩
  · rw [orZero_length, sheet_epochs]; rfl
  · rw [orZero_length, sheet_epochs, numEpochs, hlen]; rfl
  · intro k x y hx hy
    exact sum_sheets e hl (hs .obs) p.quantity k hx hy

/-- **C209**: right after the construction the columns hold the coordinates of the trajectories that were given. -/
theorem C209_start (e : EstSettings) (st : Stochastics K) (tstamps : List K) (source target rpy speed : List (V3 K))
    (ht : target.length = source.length) (hr : rpy.length = source.length) (hs : speed.length = source.length) :
    ∃ obs var, build e tstamps source target (some rpy) (some speed) = .ok obs ∧ buildVar e st obs = .ok var ∧
      dataLength e ⟨obs, var, buildRes obs⟩ = source.length ∧
      ∀ adjusted : Bool,
        columnProperty e ⟨obs, var, buildRes obs⟩ adjusted .x_from = .ok (source.map V3.x) ∧
        columnProperty e ⟨obs, var, buildRes obs⟩ adjusted .y_from = .ok (source.map V3.y) ∧
        columnProperty e ⟨obs, var, buildRes obs⟩ adjusted .z_from = .ok (source.map V3.z) ∧
        columnProperty e ⟨obs, var, buildRes obs⟩ adjusted .x_to = .ok (target.map V3.x) ∧
        columnProperty e ⟨obs, var, buildRes obs⟩ adjusted .y_to = .ok (target.map V3.y) ∧
        columnProperty e ⟨obs, var, buildRes obs⟩ adjusted .z_to = .ok (target.map V3.z) ∧
        (e.leverarmEnabled = true →
          columnProperty e ⟨obs, var, buildRes obs⟩ adjusted .euler_x = .ok (rpy.map V3.x) ∧
          columnProperty e ⟨obs, var, buildRes obs⟩ adjusted .euler_y = .ok (rpy.map V3.y) ∧
          columnProperty e ⟨obs, var, buildRes obs⟩ adjusted .euler_z = .ok (rpy.map V3.z)) ∧
        (e.timeShiftEnabled = true →
          columnProperty e ⟨obs, var, buildRes obs⟩ adjusted .speed_x = .ok (speed.map V3.x) ∧
          columnProperty e ⟨obs, var, buildRes obs⟩ adjusted .speed_y = .ok (speed.map V3.y) ∧
          columnProperty e ⟨obs, var, buildRes obs⟩ adjusted .speed_z = .ok (speed.map V3.z)) := by
  obtain ⟨obs, h1, h2, -⟩ := C78_layout e tstamps source target rpy speed ht hr hs
  obtain ⟨var, h3, -, -⟩ := C78_variances e st source.length obs h2
  have hp0 : 0 < perEpoch e := by unfold perEpoch; omega
  refine ⟨obs, var, h1, h3, by simp only [dataLength, h2, Nat.mul_div_cancel _ hp0], ?_⟩
  have hread : ∀ (adjusted : Bool) key, (if adjusted then getEstGroup e ⟨obs, var, buildRes obs⟩ key
      else getGroup e ⟨obs, var, buildRes obs⟩ .obs key) = extract e obs key := by
    intro adjusted key
    cases adjusted
    · rfl
    · have : List.zipWith (· + ·) obs (buildRes obs) = obs := by
        unfold buildRes
        clear h1 h2 h3
        induction obs with
        | nil => rfl
        | cons x l ih => simpa using ih
      have hl : obs.length = (buildRes obs).length := by simp [buildRes]
      simp only [if_true, getEstGroup, estVector, if_pos hl, this]
      rfl
  have key : ∀ (adjusted : Bool) k cols i c, columnsOf e source target rpy speed k = some cols → cols[i]? = some c →
      columnAt (if adjusted then getEstGroup e ⟨obs, var, buildRes obs⟩ k
        else getGroup e ⟨obs, var, buildRes obs⟩ .obs k) i = .ok c := by
    intro adjusted k cols i c hk hi
    have := C78_extract e tstamps source target rpy speed ht hr hs obs h1 k
    rw [hk] at this
    rw [hread, this]
    exact columnAt_ok hi
  intro adjusted
  refine ⟨key adjusted .xyzFrom _ 0 _ rfl rfl, key adjusted .xyzFrom _ 1 _ rfl rfl, key adjusted .xyzFrom _ 2 _ rfl rfl,
    key adjusted .xyzTo _ 0 _ rfl rfl, key adjusted .xyzTo _ 1 _ rfl rfl, key adjusted .xyzTo _ 2 _ rfl rfl, ?_, ?_⟩
  · intro hl
    have hk : columnsOf e source target rpy speed .rpy = some _ := if_pos hl
    have hg : groupColumns e ⟨obs, var, buildRes obs⟩ adjusted .rpy = (if adjusted then getEstGroup e ⟨obs, var, buildRes obs⟩ .rpy
        else getGroup e ⟨obs, var, buildRes obs⟩ .obs .rpy) := by simp [groupColumns, hl]
    simp only [columnProperty, hg]
    exact ⟨key adjusted .rpy _ 0 _ hk rfl, key adjusted .rpy _ 1 _ hk rfl, key adjusted .rpy _ 2 _ hk rfl⟩
  · intro hl
    have hk : columnsOf e source target rpy speed .speed = some _ := if_pos hl
    have hg : groupColumns e ⟨obs, var, buildRes obs⟩ adjusted .speed = (if adjusted then getEstGroup e ⟨obs, var, buildRes obs⟩ .speed
        else getGroup e ⟨obs, var, buildRes obs⟩ .obs .speed) := by simp [groupColumns, hl]
    simp only [columnProperty, hg]
    exact ⟨key adjusted .speed _ 0 _ hk rfl, key adjusted .speed _ 1 _ hk rfl, key adjusted .speed _ 2 _ hk rfl⟩

/-! ### a concrete case: a time shift is estimated, a lever arm is not -/

example : (columnProperty { timeShift := true } exVectors false .y_to).toOption = some [12, 15] ∧
    (columnProperty { timeShift := true } exVectors false .speed_y).toOption = some [0, 1] ∧
    (columnProperty { timeShift := true } exVectors false .euler_z).toOption = some [0, 0] ∧
    (columnProperty { timeShift := true } (afterCalls { timeShift := true } exVectors exEdits) true .z_to).toOption =
      some [14, 18] ∧ exVectors.obs.length = exVectors.res.length := by decide +kernel

end TC
