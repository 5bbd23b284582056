import Verif.Spec.ParamsIO
import Verif.Proofs.RpeFile
import Verif.Props.Params
import Verif.Props.AlignSettings
/-!
# Reading back written alignment results
-/
namespace TC
set_option linter.unusedSectionVars false
variable {K : Type} [Field K] [LinearOrder K] [IsStrictOrderedRing K] [FloorRing K]

theorem roundTo_nat (d n : Nat) : roundTo d (n : K) = n := by
  unfold roundTo
  have h0 : (0 : K) ≤ n := Nat.cast_nonneg n
  have hp : (0 : K) < 10 ^ d := by positivity
  rw [if_neg (not_lt.mpr h0), abs_of_nonneg h0]
  have : (n : K) * 10 ^ d = ((n * 10 ^ d : Nat) : K) := by push_cast; ring
  rw [this, roundEven_of_nat]
  push_cast
  field_simp

theorem roundTo_flag (d : Nat) (b : Bool) : roundTo d (if b then (1 : K) else 0) = if b then 1 else 0 := by
  cases b
  · simpa using roundTo_nat (K := K) d 0
  · simpa using roundTo_nat (K := K) d 1

theorem flag_read (b : Bool) : decide ((some (if b then (1 : K) else 0) : Option K) ≠ some 0) = b := by
  cases b <;> simp

theorem cellNum_bit (b : Bool) :
    (cellNum (natStr (if b then 1 else 0)) : Except Err (Option K)) = .ok (some (if b then 1 else 0)) := by
  cases b
  · have : (cellNum (natStr 0) : Except Err (Option K)) = .ok (some ((0 : Nat) : K)) := rfl
    simpa using this
  · have : (cellNum (natStr 1) : Except Err (Option K)) = .ok (some ((1 : Nat) : K)) := rfl
    simpa using this

theorem plain_fmtFixed (d : Nat) (x : K) : PlainCell (fmtFixed d x) := plain_fmtCell d (some x)

theorem plain_bit (b : Bool) : PlainCell (natStr (if b then 1 else 0)) := by
  cases b
  · exact ⟨by unfold NoSpace; decide, by decide, by decide⟩
  · exact ⟨by unfold NoSpace; decide, by decide, by decide⟩

theorem IsRepr.plain {F : K → Prop} {repr : K → Str} (h : IsRepr F repr) {x : K} (hx : F x) : PlainCell (repr x) :=
  ⟨h.space x hx, h.comma x hx, h.hash x hx⟩

/-- rows that are at most as wide as the first one -/
theorem rectangular_pad {w : Nat} {r : List Str} {rs : List (List Str)} (hw : r.length = w)
    (h : ∀ q ∈ rs, q.length ≤ w) :
    rectangular (r :: rs) = .ok ((r :: rs).map (fun q => q ++ List.replicate (w - q.length) [])) := by
  have hall : rs.all (fun q => decide (q.length ≤ r.length)) = true := by
    rw [List.all_eq_true]
    intro q hq
    have := h q hq
    simp; omega
  simp only [rectangular]
  rw [if_pos hall, hw]
  simp [hw]

/-! ### the rows of the position parameters -/

namespace AlignSet
variable {s : PSet K} (h : AlignSet s)
include h

theorem len : s.params.length = 11 := by
  have := congrArg List.length h.defaults
  simpa using this

end AlignSet

/-- the rows of the table -/
def alignRows (s : PSet K) : List (K × Bool × List K) := s.values.zip (s.enabledBoolList.zip s.cov)

/-- the cells of the table -/
def alignTable (s : PSet K) : List (List Str) :=
  (alignRows s).map (fun x => (x.1 :: (if x.2.1 then 1 else 0) :: x.2.2).map (fmtFixed 15))

section
variable {s : PSet K} (h : AlignSet s)
include h

theorem alignRows_channels : (alignRows s).map (fun x => x.1) = s.values ∧
    (alignRows s).map (fun x => x.2.1) = s.enabledBoolList ∧ (alignRows s).map (fun x => x.2.2) = s.cov := by
  have l1 : s.values.length = 11 := by simp [PSet.values, h.len]
  have l2 : s.enabledBoolList.length = 11 := by simp [PSet.enabledBoolList, h.len]
  have l3 : s.cov.length = 11 := h.cov.rows
  have l4 : (s.enabledBoolList.zip s.cov).length = 11 := by simp [l2, l3]
  unfold alignRows
  refine ⟨zip_map_fst _ _ (by rw [l1, l4]), ?_, ?_⟩
  · have := zip_map_snd s.values (s.enabledBoolList.zip s.cov) (by rw [l1, l4])
    rw [show (fun x : K × Bool × List K => x.2.1) = (fun y : Bool × List K => y.1) ∘ (fun x => x.2) from rfl,
      ← List.map_map, this]
    exact zip_map_fst _ _ (by rw [l2, l3])
  · have := zip_map_snd s.values (s.enabledBoolList.zip s.cov) (by rw [l1, l4])
    rw [show (fun x : K × Bool × List K => x.2.2) = (fun y : Bool × List K => y.2) ∘ (fun x => x.2) from rfl,
      ← List.map_map, this]
    exact zip_map_snd _ _ (by rw [l2, l3])

theorem alignRows_length : (alignRows s).length = 11 := by
  have := congrArg List.length (alignRows_channels h).1
  simpa [PSet.values, h.len] using this

theorem alignRows_width : ∀ x ∈ alignRows s, x.2.2.length = 11 := by
  intro x hx
  apply h.cov.cols
  rw [← (alignRows_channels h).2.2]
  exact List.mem_map.mpr ⟨x, hx, rfl⟩

theorem alignTable_ok : (alignTable s).length = 11 ∧
    ∀ row ∈ alignTable s, row.length = 13 ∧ ∀ c ∈ row, PlainCell c := by
  refine ⟨by simp [alignTable, alignRows_length h], fun row hrow => ?_⟩
  obtain ⟨x, hx, rfl⟩ := List.mem_map.mp hrow
  refine ⟨by simp [alignRows_width h x hx], fun c hc => ?_⟩
  obtain ⟨y, -, rfl⟩ := List.mem_map.mp hc
  exact plain_fmtFixed 15 y

theorem frameRows_ok : AlignParams.frameRows s = .ok ((alignRows s).map (fun x =>
    x.1 :: (if x.2.1 then 1 else 0) :: x.2.2)) := by
  unfold AlignParams.frameRows
  rw [if_pos (by rw [h.cov.rows]; simp [PSet.values, h.len])]
  rfl

end

theorem numbers_map_some {α : Type} (l : List α) (f : α → K) : numbers (l.map (fun a => some (f a))) = .ok (l.map f) := by
  rw [← numbers_mapSome (l.map f), List.map_map]; rfl

/-- reading a set of parameters from eleven rows -/
theorem fromRows_ok {s : PSet K} (h : AlignSet s) {rows : List (List Str)} (hrows : rows.take 11 = alignTable s) :
    ∃ t, AlignParams.fromRows rows = .ok t ∧ AlignSet t ∧
      List.Forall₂ (fun a b => Close (1 / (2 * 10 ^ 15)) b a) s.values t.values ∧
      t.enabledBoolList = s.enabledBoolList ∧ t.cov = s.cov.map (fun row => row.map (roundTo 15)) ∧
      (∀ (i : Nat) (p : Param K), s.params[i]? = some p →
        t.variances[i]? = some (if p.enabled = true then PSet.entry t.cov i i else 0)) := by
  obtain ⟨c1, c2, c3⟩ := alignRows_channels h
  have e0 : AlignParams.tableCol (K := K) 0 (alignTable s) = .ok (s.values.map (fun v => some (roundTo 15 v))) := by
    unfold AlignParams.tableCol alignTable
    rw [mapE_map_ok (k := fun x => some (roundTo 15 x.1)) (fun x _ => by simpa using cellNum_fmtFixed 15 x.1), ← c1,
      List.map_map]
    rfl
  have e1 : AlignParams.tableCol (K := K) 1 (alignTable s)
      = .ok (s.enabledBoolList.map (fun b => some (if b then 1 else 0))) := by
    unfold AlignParams.tableCol alignTable
    rw [mapE_map_ok (k := fun x => some (if x.2.1 then 1 else 0)) (fun x _ => by
      have := cellNum_fmtFixed (K := K) 15 (if x.2.1 then 1 else 0)
      rw [roundTo_flag] at this
      simpa using this), ← c2, List.map_map]
    rfl
  have e2 : mapE (fun row : List Str => do
      let cs ← mapE (cellNum (K := K)) (row.drop 2)
      numbers cs) (alignTable s) = .ok (s.cov.map (fun row => row.map (roundTo 15))) := by
    unfold alignTable
    rw [mapE_map_ok (k := fun x => x.2.2.map (roundTo 15)) (fun x _ => by
      have a1 : mapE (cellNum (K := K)) (x.2.2.map (fmtFixed 15)) = .ok (x.2.2.map (fun v => some (roundTo 15 v))) :=
        mapE_map_ok (fun v _ => cellNum_fmtFixed 15 v)
      simp only [List.map_cons, List.drop_succ_cons, List.drop_zero, a1, bind, Except.bind, numbers_map_some]),
      ← c3, List.map_map]
    rfl
  have hsq : IsSquare 11 (s.cov.map (fun row => row.map (roundTo 15))) :=
    ⟨by simp [h.cov.rows], by
      intro row hrow
      obtain ⟨x, hx, rfl⟩ := List.mem_map.mp hrow
      simp [h.cov.cols x hx]⟩
  have hset : (AlignParams.new : PSet K).setValues (s.values.map (roundTo 15)) = .ok
      { (AlignParams.new : PSet K) with
        params := List.zipWith PSet.updValue AlignParams.new.params (s.values.map (roundTo 15)) } :=
    PSet.set_all_ok _ _ (by simp [PSet.values, h.len, AlignParams.new, alignNames, alignDefaults])
  have hflags : (s.enabledBoolList.map (fun b => some (if b then (1 : K) else 0))).map (fun x => decide (x ≠ some 0))
      = s.enabledBoolList := by
    rw [List.map_map]
    conv_rhs => rw [← List.map_id s.enabledBoolList]
    exact List.map_congr_left (fun b _ => flag_read b)
  -- the set before the matrix is assigned
  obtain ⟨en, cov, ps⟩ := s
  have hl := h.len
  have hd := h.defaults
  match ps, hl with
  | [p0, p1, p2, p3, p4, p5, p6, p7, p8, p9, p10], _ =>
    simp only [List.map_cons, List.map_nil, List.cons.injEq, and_true] at hd
    obtain ⟨d0, d1, d2, d3, d4, d5, d6, d7, d8, d9, d10⟩ := hd
    set s : PSet K := ⟨en, cov, [p0, p1, p2, p3, p4, p5, p6, p7, p8, p9, p10]⟩ with hs
    set t0 : PSet K := ({ (AlignParams.new : PSet K) with
        params := List.zipWith PSet.updValue AlignParams.new.params (s.values.map (roundTo 15)) } : PSet K).setEnabledBoolList
          s.enabledBoolList with ht0
    have hp : t0.params = [⟨roundTo 15 p0.value, 0, 0, p0.enabled, "Translation x", .meter⟩,
        ⟨roundTo 15 p1.value, 0, 0, p1.enabled, "Translation y", .meter⟩,
        ⟨roundTo 15 p2.value, 0, 0, p2.enabled, "Translation z", .meter⟩,
        ⟨roundTo 15 p3.value, 0, 0, p3.enabled, "Rotation x", .radian⟩,
        ⟨roundTo 15 p4.value, 0, 0, p4.enabled, "Rotation y", .radian⟩,
        ⟨roundTo 15 p5.value, 0, 0, p5.enabled, "Rotation z", .radian⟩,
        ⟨roundTo 15 p6.value, 0, 1, p6.enabled, "Scale", .scale⟩,
        ⟨roundTo 15 p7.value, 0, 0, p7.enabled, "Time Shift", .second⟩,
        ⟨roundTo 15 p8.value, 0, 0, p8.enabled, "Leverarm x", .meter⟩,
        ⟨roundTo 15 p9.value, 0, 0, p9.enabled, "Leverarm y", .meter⟩,
        ⟨roundTo 15 p10.value, 0, 0, p10.enabled, "Leverarm z", .meter⟩] := by
      rw [ht0, hs]
      rfl
    have hlen0 : t0.params.length = 11 := by rw [hp]; rfl
    obtain ⟨t, ht, tc, tv, tval, tsame⟩ := C110_full t0 _ (by rw [hlen0]; exact hsq)
    have hdef : t.params.map Param.default = t0.params.map Param.default := by
      have := congrArg (List.map (fun x : K × Bool × String × MUnit => x.1)) tsame
      simpa [List.map_map, Function.comp_def] using this.symm
    have hen : t.enabledBoolList = t0.enabledBoolList := by
      have := congrArg (List.map (fun x : K × Bool × String × MUnit => x.2.1)) tsame
      simpa [PSet.enabledBoolList, List.map_map, Function.comp_def] using this.symm
    have tc' : t.cov = cov.map (fun row => row.map (roundTo 15)) := tc
    refine ⟨t, ?_, ⟨by rw [hdef, hp]; rfl, by rw [tc']; exact hsq⟩, ?_, ?_, tc', ?_⟩
    · unfold AlignParams.fromRows
      simp only [bind, Except.bind] at e2
      simp only [hrows, e0, e1, e2, bind, Except.bind, numbers_map_some, hset, hflags]
      exact ht
    · rw [tval]
      have : ∀ (p : Param K) (d : K), p.default = d → ∀ q : Param K, q.enabled = p.enabled →
          q.raw = roundTo 15 p.value → q.default = d → Close (1 / (2 * 10 ^ 15)) q.value p.value := by
        intro p d hd q he hr hq
        unfold Param.value at hr ⊢
        rw [he]
        cases hpe : p.enabled
        · simp only [Bool.false_eq_true, if_false, hq, hd, Close, sub_self, abs_zero]
          positivity
        · simp only [hpe, if_true] at hr ⊢
          rw [hr]
          exact roundTo_close 15 p.raw
      unfold PSet.values
      rw [hp]
      simp only [hs, List.map_cons, List.map_nil, List.forall₂_cons, List.Forall₂.nil, and_true]
      exact ⟨this p0 _ d0 _ rfl rfl rfl, this p1 _ d1 _ rfl rfl rfl, this p2 _ d2 _ rfl rfl rfl,
        this p3 _ d3 _ rfl rfl rfl, this p4 _ d4 _ rfl rfl rfl, this p5 _ d5 _ rfl rfl rfl,
        this p6 _ d6 _ rfl rfl rfl, this p7 _ d7 _ rfl rfl rfl, this p8 _ d8 _ rfl rfl rfl,
        this p9 _ d9 _ rfl rfl rfl, this p10 _ d10 _ rfl rfl rfl⟩
    · rw [hen]
      unfold PSet.enabledBoolList
      rw [hp]
      rfl
    · intro i p hi
      have hen0 : t0.enabledBoolList = s.enabledBoolList := by
        unfold PSet.enabledBoolList
        rw [hp]
        rfl
      have h1 : t0.enabledBoolList[i]? = some p.enabled := by
        rw [hen0]
        unfold PSet.enabledBoolList
        rw [List.getElem?_map, hi]
        rfl
      unfold PSet.enabledBoolList at h1
      rw [List.getElem?_map, Option.map_eq_some_iff] at h1
      obtain ⟨q, hq, he⟩ := h1
      rw [tv i q hq, he, tc']

/-! ### sensor rotation -/

theorem sensorRows_ok {F : K → Prop} {repr : K → Str} (hr : IsRepr F repr) {s : PSet K}
    (hF : ∀ v ∈ s.values, F v) : ∀ row ∈ SensorParams.fileRows repr s, row.length = 2 ∧ ∀ c ∈ row, PlainCell c := by
  intro row hrow
  obtain ⟨p, hp, rfl⟩ := List.mem_map.mp hrow
  refine ⟨rfl, fun c hc => ?_⟩
  have hv : F p.value := hF _ (List.mem_map.mpr ⟨p, hp, rfl⟩)
  simp only [List.mem_cons, List.not_mem_nil, or_false] at hc
  rcases hc with rfl | rfl
  · exact hr.plain hv
  · exact plain_bit _

/-- reading the sensor rotation from fourteen rows -/
theorem sensorFromRows_ok {F : K → Prop} {repr : K → Str} (hr : IsRepr F repr) {s : PSet K}
    (hd : s.params.map Param.default = [0, 0, 0]) (hF : ∀ v ∈ s.values, F v) {rows : List (List Str)}
    (hlen : rows.length = 14)
    (hrows : rows.drop 11 = (SensorParams.fileRows repr s).map (fun q => q ++ List.replicate (13 - q.length) [])) :
    ∃ t, SensorParams.fromRows rows = .ok t ∧ t.values = s.values ∧ t.enabledBoolList = s.enabledBoolList ∧
      t.params.map Param.default = [0, 0, 0] := by
  have hcell : ∀ p ∈ s.params, cellNum (repr p.value) = .ok (some p.value) := fun p hp =>
    hr.read _ (hF _ (List.mem_map.mpr ⟨p, hp, rfl⟩))
  have e1 : AlignParams.tableCol (K := K) 1 (rows.drop 11) = .ok (s.enabledBoolList.map (fun b => some (if b then 1 else 0))) := by
    rw [hrows]
    unfold AlignParams.tableCol SensorParams.fileRows PSet.enabledBoolList
    rw [List.map_map, mapE_map_ok (k := fun p => some (if p.enabled then 1 else 0))
      (fun p _ => by simpa using cellNum_bit (K := K) p.enabled), List.map_map]
    rfl
  have e0 : AlignParams.tableCol (K := K) 0 (rows.drop 11) = .ok (s.values.map some) := by
    rw [hrows]
    unfold AlignParams.tableCol SensorParams.fileRows PSet.values
    rw [List.map_map, mapE_map_ok (k := fun p => some p.value) (fun p hp => by simpa using hcell p hp), List.map_map]
    rfl
  have hl : s.params.length = 3 := by have := congrArg List.length hd; simpa using this
  have hset : (SensorParams.new : PSet K).setValues s.values = .ok
      { (SensorParams.new : PSet K) with
        params := List.zipWith PSet.updValue SensorParams.new.params s.values } :=
    PSet.set_all_ok _ _ (by simp [PSet.values, hl, SensorParams.new])
  have hflags : (s.enabledBoolList.map (fun b => some (if b then (1 : K) else 0))).map (fun x => decide (x ≠ some 0))
      = s.enabledBoolList := by
    rw [List.map_map]
    conv_rhs => rw [← List.map_id s.enabledBoolList]
    exact List.map_congr_left (fun b _ => flag_read b)
  refine ⟨({ (SensorParams.new : PSet K) with
        params := List.zipWith PSet.updValue SensorParams.new.params s.values } : PSet K).setEnabledBoolList
          s.enabledBoolList, ?_, ?_⟩
  · unfold SensorParams.fromRows
    rw [if_neg (by rw [hlen]; simp)]
    simp only [e0, e1, bind, Except.bind, numbers_mapSome, hset, hflags]
    rfl
  · obtain ⟨en, cov, ps⟩ := s
    match ps, hl with
    | [p0, p1, p2], _ =>
      simp only [List.map_cons, List.map_nil, List.cons.injEq, and_true] at hd
      obtain ⟨d0, d1, d2⟩ := hd
      have key : ∀ p : Param K, p.default = 0 → (if p.enabled then p.value else 0) = p.value := by
        intro p hp
        unfold Param.value
        cases p.enabled <;> simp [hp]
      refine ⟨?_, rfl, rfl⟩
      show [(if p0.enabled then p0.value else 0), (if p1.enabled then p1.value else 0),
        (if p2.enabled then p2.value else 0)] = [p0.value, p1.value, p2.value]
      rw [key p0 d0, key p1 d1, key p2 d2]

/-! ### the file -/

/-- the rows of a result -/
def resultRows (repr : K → Str) (r : AlignResult K) : List (List Str) :=
  alignTable r.position ++ SensorParams.fileRows repr r.rotation

/-- the text of a result -/
def resultText (repr : K → Str) (r : AlignResult K) : Str :=
  ("#name ".toList ++ r.name.toList ++ ['\n']) ++ csvRows (resultRows repr r)

/-- the header line of a result -/
def resultLine (r : AlignResult K) : Str := '#' :: "name".toList ++ ' ' :: r.name.toList

theorem resultLine_one {r : AlignResult K} (hname : OneLine r.name.toList) : OneLine (resultLine r) := by
  unfold resultLine
  rw [oneLine_append]
  refine ⟨by unfold OneLine; decide, fun c hc => ?_⟩
  rcases List.mem_cons.mp hc with rfl | hc
  · exact ⟨by decide, by decide⟩
  · exact hname c hc

theorem csvRows_append (a b : List (List Str)) : csvRows (a ++ b) = csvRows a ++ csvRows b := by
  simp [csvRows]

section
variable {F : K → Prop} {repr : K → Str} (hr : IsRepr F repr) {r : AlignResult K} (h : AlignSet r.position)
  (hF : ∀ v ∈ r.rotation.values, F v)
include hr h hF

theorem resultToFile_eq (old : Str) : r.toFile repr old = .ok (old ++ resultText repr r) := by
  have e : (((alignRows r.position).map (fun x => x.1 :: (if x.2.1 then 1 else 0) :: x.2.2)).map
      (fun c => c.map (fmtFixed 15))) = alignTable r.position := by
    rw [List.map_map]; rfl
  unfold AlignResult.toFile
  rw [frameRows_ok h]
  refine congrArg Except.ok ?_
  rw [e]
  unfold resultText resultRows
  rw [csvRows_append, List.append_assoc, List.append_assoc]

theorem resultRows_ok : ∀ row ∈ resultRows repr r, 2 ≤ row.length ∧ ∀ c ∈ row, PlainCell c := by
  intro row hrow
  rcases List.mem_append.mp hrow with hrow | hrow
  · obtain ⟨h1, h2⟩ := (alignTable_ok h).2 row hrow
    exact ⟨by omega, h2⟩
  · obtain ⟨h1, h2⟩ := sensorRows_ok hr hF row hrow
    exact ⟨by omega, h2⟩

theorem resultRows_width : ∀ row ∈ resultRows repr r, row.length ≤ 13 := by
  intro row hrow
  rcases List.mem_append.mp hrow with hrow | hrow
  · rw [((alignTable_ok h).2 row hrow).1]
  · rw [(sensorRows_ok hr hF row hrow).1]; omega

theorem result_fileLines (hname : OneLine r.name.toList) (rest : Str) :
    fileLines (resultText repr r ++ rest)
      = resultLine r :: ((resultRows repr r).map (pyJoin [',']) ++ fileLines rest) := by
  have e1 : "#name ".toList = '#' :: "name".toList ++ [' '] := by decide
  have e : resultText repr r ++ rest = resultLine r ++ '\n' :: (csvRows (resultRows repr r) ++ rest) := by
    unfold resultText resultLine
    rw [e1]
    simp
  rw [e, fileLines_cons (resultLine_one hname),
    fileLines_csvRows (fun row hrow => (resultRows_ok hr h hF row hrow).2)]

theorem result_csvLines (ls : List Str) :
    csvLines (resultLine r :: ((resultRows repr r).map (pyJoin [',']) ++ ls))
      = (resultRows repr r).map (pyJoin [',']) ++ csvLines ls := by
  have e : resultLine r :: ((resultRows repr r).map (pyJoin [',']) ++ ls)
      = [resultLine r] ++ ((resultRows repr r).map (pyJoin [',']) ++ ls) := rfl
  rw [e, csvLines_append, csvLines_comments (ls := [resultLine r]) (by
    intro l hl
    rw [List.mem_singleton] at hl
    subst hl
    exact ⟨_, rfl⟩), List.nil_append, csvLines_append, csvLines_rows (resultRows_ok hr h hF)]

theorem result_header (hname : CleanName r.name.toList) (m : HMeta K) (ls : List Str) :
    handleLines m (resultLine r :: ((resultRows repr r).map (pyJoin [',']) ++ ls))
      = handleLines (("name".toList, .str r.name.toList) :: m) ls := by
  obtain ⟨h2, v2⟩ := headerLine_text (K := K) (key := "name".toList) (by decide) (by decide) hname
  have e : resultLine r = '#' :: "name".toList ++ ' ' :: r.name.toList := rfl
  rw [handleLines, e, handleLine_key (by decide) h2 v2]
  simp only [bind, Except.bind]
  rw [handleLines_append, handleLines_rows (fun row hrow => (resultRows_ok hr h hF row hrow).2)]
  rfl

end
end TC
