import Verif.Proofs.ParamsFile
import Verif.Props.ReadFile
import Mathlib.Data.Rat.Floor
/-!
# Files of alignment parameters and alignment results: C76, C77
-/
namespace TC
set_option linter.unusedSectionVars false
variable {K : Type} [Field K] [LinearOrder K] [IsStrictOrderedRing K] [FloorRing K]

/-! ### an instance of the representation -/

/-- numbers with at most `d` decimals, written with `d` decimals -/
theorem isRepr_fixed (d : Nat) : IsRepr (K := K) (fun x => roundTo d x = x) (fmtFixed d) where
  space := fun x _ => (plain_fmtFixed d x).noSpace
  comma := fun x _ => (plain_fmtFixed d x).noComma
  hash := fun x _ => (plain_fmtFixed d x).noHash
  read := fun x hx => by rw [cellNum_fmtFixed, hx]

/-! ### C76 -/

theorem mapE_repr {F : K → Prop} {repr : K → Str} (hr : IsRepr F repr) {l : List K} (h : ∀ x ∈ l, F x) :
    mapE (cellNum (K := K)) (l.map repr) = .ok (l.map some) := by
  rw [mapE_map_ok (k := some) (fun x hx => hr.read x (h x hx))]

/-- **C76 does not hold.** `AlignmentParameters.to_file` writes the values and the covariance matrix
without the column of flags that `from_file` expects, so that the matrix read back has ten columns:
no file written by `to_file` can be read by `from_file`, whatever the parameters. -/
theorem C76_never_readable {F : K → Prop} {repr : K → Str} (hr : IsRepr F repr) {s : PSet K} (h : AlignSet s)
    (hv : ∀ v ∈ s.values, F v) (hc : ∀ row ∈ s.cov, ∀ v ∈ row, F v) :
    ∃ content, AlignParams.toFile repr s = .ok content ∧
      AlignParams.fromFile (K := K) content = .error .alignmentParameters := by
  set S := s.values.zip s.cov with hS
  have l1 : s.values.length = 11 := by simp [PSet.values, h.len]
  have hlenS : S.length = 11 := by simp [hS, l1, h.cov.rows]
  have hmem : ∀ x ∈ S, F x.1 ∧ x.2.length = 11 ∧ ∀ v ∈ x.2, F v := by
    intro x hx
    have hx' : (x.1, x.2) ∈ s.values.zip s.cov := hx
    have h1 := (List.of_mem_zip hx').1
    have h2 := (List.of_mem_zip hx').2
    exact ⟨hv _ h1, h.cov.cols _ h2, hc _ h2⟩
  set rows := S.map (fun x => (x.1 :: x.2).map repr) with hrows
  have hcell : ∀ x ∈ S, ∀ v ∈ x.1 :: x.2, F v := by
    intro x hx v hv
    obtain ⟨h1, -, h3⟩ := hmem x hx
    rcases List.mem_cons.mp hv with rfl | hv
    · exact h1
    · exact h3 v hv
  have hread : readCsv ',' (csvRows rows) = .ok rows := by
    have := readCsv_file (hdr := []) (rows := rows) (w := 12) (by simp) (by omega)
      (by intro e; have := congrArg List.length e; simp [hrows, hlenS] at this)
      (by
        intro row hrow
        obtain ⟨x, hx, rfl⟩ := List.mem_map.mp hrow
        simp [(hmem x hx).2.1])
      (by
        intro row hrow c hc
        obtain ⟨x, hx, rfl⟩ := List.mem_map.mp hrow
        obtain ⟨v, hv, rfl⟩ := List.mem_map.mp hc
        exact hr.plain (hcell x hx v hv))
    simpa [linesText] using this
  have htake : rows.take 11 = rows := List.take_of_length_le (by simp [hrows, hlenS])
  have e0 : AlignParams.tableCol (K := K) 0 rows = .ok (S.map (fun x => some x.1)) := by
    unfold AlignParams.tableCol
    rw [hrows, mapE_map_ok (k := fun x => some x.1) (fun x hx => by simpa using hr.read x.1 (hmem x hx).1)]
  have e1 : ∃ c1, AlignParams.tableCol (K := K) 1 rows = .ok c1 := by
    unfold AlignParams.tableCol
    apply mapE_isOk
    intro row hrow
    obtain ⟨x, hx, rfl⟩ := List.mem_map.mp hrow
    obtain ⟨-, h2, h3⟩ := hmem x hx
    obtain ⟨a, y, hy⟩ : ∃ a y, x.2 = a :: y := by
      cases hx2 : x.2 with
      | nil => rw [hx2] at h2; simp at h2
      | cons a y => exact ⟨a, y, rfl⟩
    refine ⟨some a, ?_⟩
    rw [hy]
    simpa using hr.read a (h3 a (by rw [hy]; simp))
  obtain ⟨c1, e1⟩ := e1
  have e2 : mapE (fun row : List Str => do
      let cs ← mapE (cellNum (K := K)) (row.drop 2)
      numbers cs) rows = .ok (S.map (fun x => x.2.drop 1)) := by
    rw [hrows]
    apply mapE_map_ok
    intro x hx
    have a1 : (List.map repr (x.1 :: x.2)).drop 2 = (x.2.drop 1).map repr := by simp
    have a2 := mapE_repr hr (l := x.2.drop 1) (fun v hv => (hmem x hx).2.2 v (List.mem_of_mem_drop hv))
    simp only [a1, a2, bind, Except.bind, numbers_mapSome]
  refine ⟨csvRows rows, ?_, ?_⟩
  · unfold AlignParams.toFile
    rw [if_pos (by rw [h.cov.rows, l1])]
  · unfold AlignParams.fromFile
    simp only [hread, bind, Except.bind]
    unfold AlignParams.fromRows
    have hset : (AlignParams.new : PSet K).setValues (S.map (fun x => x.1)) = .ok
        { (AlignParams.new : PSet K) with
          params := List.zipWith PSet.updValue AlignParams.new.params (S.map (fun x => x.1)) } :=
      PSet.set_all_ok _ _ (by simp [hlenS, AlignParams.new, alignNames, alignDefaults])
    simp only [bind, Except.bind] at e2
    simp only [htake, e0, e1, e2, bind, Except.bind, numbers_map_some, hset]
    apply C110_rejected
    right
    obtain ⟨x, S', hx⟩ : ∃ x S', S = x :: S' := by
      cases hSS : S with
      | nil => rw [hSS] at hlenS; simp at hlenS
      | cons x S' => exact ⟨x, S', rfl⟩
    refine ⟨x.2.drop 1, S'.map (fun x => x.2.drop 1), by rw [hx]; rfl, ?_⟩
    have := (hmem x (by rw [hx]; simp)).2.1
    simp [hlenS, this]

/-! ### C77 -/

/-- what the flags of the parameters of a result say about its settings -/
structure SettingsFit (r : AlignResult K) : Prop where
  flags : r.estimationOf.flags = r.position.enabledBoolList
  sensor : r.estimationOf.sensorRotation = r.rotation.enabledBoolList.any id
  listed : r.estimationOf.Listed

/-- **C77** (partial). Writing an alignment result to a new file and reading it gives the same name, the
same flags, parameters and covariance matrix within half a unit of the fifteenth decimal, variances that
fit this matrix, and exactly the same sensor rotation; also the estimation settings if they use all
speed components and agree with the flags.  Missing: a file that exists (`C77_second_write`), results
that did not converge (`C77_converged_lost`), other settings (`C86_speed_flags_lost`). -/
theorem C77_round_trip_partial {F : K → Prop} {repr : K → Str} (hr : IsRepr F repr) {r : AlignResult K}
    (h : AlignSet r.position) (hd : r.rotation.params.map Param.default = [0, 0, 0])
    (hF : ∀ v ∈ r.rotation.values, F v) (hname : CleanName r.name.toList) :
    ∃ content r', r.toFile repr [] = .ok content ∧ AlignResult.fromFile content = .ok r' ∧
      CloseAlign (1 / (2 * 10 ^ 15)) r r' ∧ AlignSet r'.position ∧
      (∀ (i : Nat) (p : Param K), r'.position.params[i]? = some p → p.enabled = true →
        p.variance = PSet.entry r'.position.cov i i) ∧
      r'.converged = true ∧
      r'.estimationOf.flags = r.position.enabledBoolList ∧ (SettingsFit r → r'.estimationOf = r.estimationOf) := by
  have hl3 : r.rotation.params.length = 3 := by have := congrArg List.length hd; simpa using this
  have hlines := result_fileLines hr h hF hname.oneLine ([] : Str)
  rw [List.append_nil, fileLines_nil] at hlines
  have hhead : headerFromFile (resultText repr r) = .ok [("name".toList, HVal.str (K := K) r.name.toList)] := by
    unfold headerFromFile
    rw [hlines, result_header hr h hF hname]
    rfl
  obtain ⟨row0, rest0, hrow0⟩ : ∃ row0 rest0, resultRows repr r = row0 :: rest0 ∧ row0.length = 13 := by
    have hlen := (alignTable_ok h).1
    cases ht : alignTable r.position with
    | nil => rw [ht] at hlen; simp at hlen
    | cons a b =>
      exact ⟨a, b ++ SensorParams.fileRows repr r.rotation, by unfold resultRows; rw [ht]; rfl,
        ((alignTable_ok h).2 a (by rw [ht]; simp)).1⟩
  have hread : readCsv ',' (resultText repr r) = .ok ((resultRows repr r).map
      (fun q => q ++ List.replicate (13 - q.length) [])) := by
    unfold readCsv
    rw [dataLines_eq, hlines, result_csvLines hr h hF, show csvLines [] = [] from rfl, List.append_nil,
      split_rows (resultRows_ok hr h hF), hrow0.1]
    apply rectangular_pad hrow0.2
    intro q hq
    exact resultRows_width hr h hF q (by rw [hrow0.1]; simp [hq])
  have htop : ((resultRows repr r).map (fun q => q ++ List.replicate (13 - q.length) [])).take 11
      = alignTable r.position := by
    unfold resultRows
    rw [List.map_append, List.take_append_of_le_length (by simp [(alignTable_ok h).1]),
      List.take_of_length_le (by simp [(alignTable_ok h).1])]
    conv_rhs => rw [← List.map_id (alignTable r.position)]
    apply List.map_congr_left
    intro q hq
    simp [((alignTable_ok h).2 q hq).1]
  have hbot : ((resultRows repr r).map (fun q => q ++ List.replicate (13 - q.length) [])).drop 11
      = (SensorParams.fileRows repr r.rotation).map (fun q => q ++ List.replicate (13 - q.length) []) := by
    unfold resultRows
    rw [List.map_append, List.drop_append_of_le_length (by simp [(alignTable_ok h).1]),
      List.drop_of_length_le (by simp [(alignTable_ok h).1]), List.nil_append]
  have h14 : ((resultRows repr r).map (fun q => q ++ List.replicate (13 - q.length) [])).length = 14 := by
    simp [resultRows, (alignTable_ok h).1, SensorParams.fileRows, hl3]
  obtain ⟨t, ht, hset, hval, hflags, hcov, hvar⟩ := fromRows_ok h htop
  obtain ⟨u, hu, huv, huf, hud⟩ := sensorFromRows_ok hr hd hF h14 hbot
  have hlenp : r.position.enabledBoolList.length = 11 := by simp [PSet.enabledBoolList, h.len]
  have hlenr : r.rotation.enabledBoolList.length = 3 := by simp [PSet.enabledBoolList, hl3]
  obtain ⟨e, he⟩ : ∃ e, EstSettings.fromBoolList (t.enabledBoolList ++ u.enabledBoolList) = .ok e := by
    unfold EstSettings.fromBoolList
    rw [if_neg (by rw [hflags, huf, List.length_append, hlenp, hlenr]; simp)]
    exact ⟨_, rfl⟩
  have heflags : e.flags = r.position.enabledBoolList ∧ e.sensorRotation = r.rotation.enabledBoolList.any id := by
    rw [hflags, huf] at he
    generalize r.position.enabledBoolList = b at he hlenp ⊢
    generalize r.rotation.enabledBoolList = b' at he hlenr ⊢
    match b, hlenp, b', hlenr with
    | [b0, b1, b2, b3, b4, b5, b6, b7, b8, b9, b10], _, [c0, c1, c2], _ =>
      cases he
      simp [EstSettings.flags]
  refine ⟨_, ⟨String.ofList r.name.toList, t, u, e, true⟩, resultToFile_eq hr h hF [], ?_,
    ⟨?_, hval, hflags, ?_, huv, huf⟩, hset, ?_, rfl, heflags.1, ?_⟩
  · rw [List.nil_append]
    unfold AlignResult.fromFile AlignParams.fromFile SensorParams.fromFile
    simp only [hhead, hread, bind, Except.bind, ht, hu, he]
    rfl
  · simp
  · rw [hcov]
    exact forall₂_map_self _ _ (fun row => forall₂_map_self _ _ (fun x => roundTo_close 15 x))
  · intro i p hp hpe
    have hi : i < 11 := by
      have := (List.getElem?_eq_some_iff.mp hp).1
      simpa [hset.len] using this
    have hi' : i < r.position.params.length := by rw [h.len]; exact hi
    have hv := hvar i _ (List.getElem?_eq_getElem hi')
    have he1 : r.position.params[i].enabled = true := by
      have h1 : t.enabledBoolList[i]? = r.position.enabledBoolList[i]? := by rw [hflags]
      unfold PSet.enabledBoolList at h1
      rw [List.getElem?_map, List.getElem?_map] at h1
      have hp' : t.params[i]? = some p := hp
      rw [hp', List.getElem?_eq_getElem hi'] at h1
      simp only [Option.map_some, Option.some.injEq] at h1
      rw [← h1, hpe]
    rw [if_pos he1] at hv
    unfold PSet.variances at hv
    rw [List.getElem?_map] at hv
    have hp' : t.params[i]? = some p := hp
    rw [hp'] at hv
    simpa using hv
  · intro hs
    obtain ⟨f1, f2, f3⟩ := hs
    have g1 : e.flags = r.estimationOf.flags := by rw [heflags.1, f1]
    have g2 : e.sensorRotation = r.estimationOf.sensorRotation := by rw [heflags.2, f2]
    have g3 := C86_speed_flags_lost _ e he
    obtain ⟨a1, a2, a3, a4⟩ := f3
    obtain ⟨b1, b2, b3, b4⟩ := g3
    simp only
    generalize r.estimationOf = e' at *
    obtain ⟨⟩ := e
    obtain ⟨⟩ := e'
    simp only [EstSettings.flags, List.cons.injEq, and_true] at *
    subst_vars
    simp_all

/-- **C77 does not hold for files that exist.** `to_file` appends; once a second result has been written
to the same file, reading it fails. -/
theorem C77_second_write {F : K → Prop} {repr : K → Str} (hr : IsRepr F repr) {r r2 : AlignResult K}
    (h : AlignSet r.position) (h2 : AlignSet r2.position)
    (hd : r.rotation.params.map Param.default = [0, 0, 0]) (hd2 : r2.rotation.params.map Param.default = [0, 0, 0])
    (hF : ∀ v ∈ r.rotation.values, F v) (hF2 : ∀ v ∈ r2.rotation.values, F v)
    (hname : CleanName r.name.toList) (hname2 : CleanName r2.name.toList) :
    ∃ c1 c2, r.toFile repr [] = .ok c1 ∧ r2.toFile repr c1 = .ok c2 ∧
      AlignResult.fromFile (K := K) c2 = .error .valueError := by
  have hl3 : r.rotation.params.length = 3 := by have := congrArg List.length hd; simpa using this
  have hl32 : r2.rotation.params.length = 3 := by have := congrArg List.length hd2; simpa using this
  refine ⟨_, _, resultToFile_eq hr h hF [], resultToFile_eq hr h2 hF2 _, ?_⟩
  rw [List.nil_append]
  have hlines2 := result_fileLines hr h2 hF2 hname2.oneLine ([] : Str)
  rw [List.append_nil, fileLines_nil] at hlines2
  have hlines := result_fileLines hr h hF hname.oneLine (resultText repr r2)
  rw [hlines2] at hlines
  have hhead : headerFromFile (K := K) (resultText repr r ++ resultText repr r2)
      = .ok [("name".toList, .str r2.name.toList), ("name".toList, .str r.name.toList)] := by
    unfold headerFromFile
    rw [hlines, result_header hr h hF hname, result_header hr h2 hF2 hname2]
    rfl
  obtain ⟨row0, rest0, hrow0⟩ : ∃ row0 rest0, resultRows repr r = row0 :: rest0 ∧ row0.length = 13 := by
    have hlen := (alignTable_ok h).1
    cases ht : alignTable r.position with
    | nil => rw [ht] at hlen; simp at hlen
    | cons a b =>
      exact ⟨a, b ++ SensorParams.fileRows repr r.rotation, by unfold resultRows; rw [ht]; rfl,
        ((alignTable_ok h).2 a (by rw [ht]; simp)).1⟩
  have hread : readCsv ',' (resultText repr r ++ resultText repr r2) = .ok ((resultRows repr r ++ resultRows repr r2).map
      (fun q => q ++ List.replicate (13 - q.length) [])) := by
    unfold readCsv
    rw [dataLines_eq, hlines, result_csvLines hr h hF, result_csvLines hr h2 hF2, show csvLines [] = [] from rfl,
      List.append_nil, List.map_append, split_rows (resultRows_ok hr h hF), split_rows (resultRows_ok hr h2 hF2),
      hrow0.1, List.cons_append]
    apply rectangular_pad hrow0.2
    intro q hq
    rcases List.mem_append.mp hq with hq | hq
    · exact resultRows_width hr h hF q (by rw [hrow0.1]; simp [hq])
    · exact resultRows_width hr h2 hF2 q hq
  have htop : ((resultRows repr r ++ resultRows repr r2).map (fun q => q ++ List.replicate (13 - q.length) [])).take 11
      = alignTable r.position := by
    unfold resultRows
    rw [List.append_assoc, List.map_append, List.take_append_of_le_length (by simp [(alignTable_ok h).1]),
      List.take_of_length_le (by simp [(alignTable_ok h).1])]
    conv_rhs => rw [← List.map_id (alignTable r.position)]
    apply List.map_congr_left
    intro q hq
    simp [((alignTable_ok h).2 q hq).1]
  have h28 : ((resultRows repr r ++ resultRows repr r2).map (fun q => q ++ List.replicate (13 - q.length) [])).length
      ≠ 14 := by
    simp [resultRows, (alignTable_ok h).1, (alignTable_ok h2).1, SensorParams.fileRows, hl3, hl32]
  obtain ⟨t, ht, -⟩ := fromRows_ok h htop
  have hs : SensorParams.fromRows (K := K) ((resultRows repr r ++ resultRows repr r2).map
      (fun q => q ++ List.replicate (13 - q.length) [])) = .error .valueError := by
    unfold SensorParams.fromRows
    rw [if_pos h28]
    rfl
  unfold AlignResult.fromFile AlignParams.fromFile SensorParams.fromFile
  simp only [hhead, hread, bind, Except.bind, ht, hs]

/-- **C77 does not hold for results that did not converge**: whatever file is read, the result says that
it did -/
theorem C77_converged_lost (content : Str) (r : AlignResult K) (h : AlignResult.fromFile content = .ok r) :
    r.converged = true := by
  unfold AlignResult.fromFile at h
  obtain ⟨m, -, h⟩ := ok_bind_inv h
  obtain ⟨p, -, h⟩ := ok_bind_inv h
  obtain ⟨s, -, h⟩ := ok_bind_inv h
  obtain ⟨e, -, h⟩ := ok_bind_inv h
  cases h
  rfl

/-- a result with a translation and a scale, the sensor rotation about the z axis -/
def exAlign : AlignResult ℚ :=
  { name := "my alignment"
    position := AlignParams.applySettings
      { (AlignParams.new : PSet ℚ) with
        cov := (zeroRows 11).set 0 [1, 0, 0, 0, 0, 0, 1/4, 0, 0, 0, 0] }
      { scale := true }
    rotation :=
      { cov := zeroRows 3
        params := [⟨0, 0, 0, false, "x", .radian⟩, ⟨0, 0, 0, false, "y", .radian⟩, ⟨1/8, 0, 0, true, "z", .radian⟩] }
    estimationOf := { scale := true, sensorRotation := true }
    converged := false }

example : AlignSet exAlign.position ∧ exAlign.rotation.params.map Param.default = [0, 0, 0] ∧
    (∀ v ∈ exAlign.rotation.values, roundTo 17 v = v) ∧ SettingsFit exAlign := by
  refine ⟨⟨by decide +kernel, ⟨by decide +kernel, by decide +kernel⟩⟩, by decide +kernel, ?_, ⟨by decide +kernel,
    by decide +kernel, by unfold EstSettings.Listed; decide +kernel⟩⟩
  decide +kernel

example : CleanName exAlign.name.toList :=
  ⟨["my".toList, "alignment".toList], by simp, by unfold NoSpace; decide, by decide⟩

end TC
