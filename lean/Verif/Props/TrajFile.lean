import Verif.Proofs.TrajFile
import Verif.Props.TrajIndex
import Mathlib.Analysis.SpecialFunctions.Pow.Real
import Mathlib.Data.Rat.Floor
/-!
# Trajectory files: C91, C92, C107, C108
-/
namespace TC
set_option linter.unusedSectionVars false
variable {K R : Type} [Field K] [LinearOrder K] [IsStrictOrderedRing K] [FloorRing K]

/-! ### C91 -/

theorem forall₂_zip {α β α' β' : Type} {P : α → α' → Prop} {Q : β → β' → Prop} :
    ∀ {a : List α} {a' : List α'} {b : List β} {b' : List β'}, List.Forall₂ P a a' → List.Forall₂ Q b b' →
      List.Forall₂ (fun x y => P x.1 y.1 ∧ Q x.2 y.2) (a.zip b) (a'.zip b')
  | _, _, _, _, .nil, _ => by simp
  | _, _, _, _, .cons _ _, .nil => by simp
  | _, _, _, _, .cons h hs, .cons g gs => by
    simp only [List.zip_cons_cons]
    exact .cons ⟨h, g⟩ (forall₂_zip hs gs)

theorem forall₂_map_self {α β : Type} {P : α → β → Prop} (f : α → β) (l : List α) (h : ∀ a, P a (f a)) :
    List.Forall₂ P l (l.map f) := by
  induction l with
  | nil => exact .nil
  | cons a l ih => exact .cons (h a) ih

theorem forall₂_replicate {α β : Type} {P : α → β → Prop} {a : α} {b : β} (n : Nat) (h : P a b) :
    List.Forall₂ P (List.replicate n a) (List.replicate n b) := by
  induction n with
  | zero => exact .nil
  | succ n ih => exact .cons h ih

theorem fromFile_eq {io : IoLib K R} {counter : Nat} {T T' : Traj K R} (old : Str)
    (h : readData (linesText (trajHeader T) ++ csvRows (trajTable io T)) = .ok (trajMeta T, trajTable io T))
    (h1 : Traj.fromTable io counter (trajMeta T) (trajTable io T) = .ok T') :
    Traj.fromFile io counter (openMode false old ++ (linesText (trajHeader T)
      ++ csvRows ((trajRows io T).map (fun s => (rowCells s).map (fmtFixed 9))))) = .ok T' := by
  unfold Traj.fromFile
  unfold trajTable at h
  simp only [openMode, Bool.false_eq_true, if_false, List.nil_append, h, bind, Except.bind]
  exact h1

/-- **C91.** Writing a non-empty trajectory whose name consists of words separated by single blanks
and reading the file gives a trajectory with the same name and EPSG code, in time order, with
corresponding samples: every number within half a unit of the ninth decimal, orientations present
or absent as before and within `1e-8` in each entry of the rotation matrix. -/
theorem C91_round_trip {io : IoLib K R} (hio : IsIoLib io) (counter : Nat) {T : Traj K R} (hT : Coherent T)
    (hne : T.tstamps ≠ []) (hname : CleanName T.name.toList) (old : Str) :
    ∃ content T', T.toFile io false old = .ok content ∧ Traj.fromFile io counter content = .ok T' ∧
      Coherent T' ∧ T'.name = T.name ∧ T'.epsg = T.epsg ∧ T'.sorting = .time ∧
      T'.rot.isSome = T.rot.isSome ∧
      List.Forall₂ (CloseSample io.rot (1 / (2 * 10 ^ 9)) (1 / 10 ^ 8)) (samples T) (samples T') := by
  obtain ⟨rot', h1, h2⟩ := fromTable_written hio counter hT hne hname
  have close : ∀ x : K, Close (1 / (2 * 10 ^ 9)) (roundTo 9 x) x := roundTo_close 9
  have close3 : ∀ p : V3 K, Close3 (1 / (2 * 10 ^ 9)) (round3 9 p) p := fun p =>
    ⟨close _, close _, close _⟩
  have hrl : ∀ r, rot' = some r → r.length = T.tstamps.length := by
    rintro r rfl
    cases hr : T.rot with
    | none => rw [hr] at h2; exact absurd h2 (by simp)
    | some q => rw [hr] at h2; rw [← h2.length_eq]; exact hT.rot q hr
  have hsome : rot'.isSome = T.rot.isSome := by
    cases hr : T.rot with
    | none => rw [hr] at h2; cases rot' with
      | none => rfl
      | some _ => exact absurd h2 (by simp)
    | some q => rw [hr] at h2; cases rot' with
      | none => exact absurd h2 (by simp)
      | some _ => rfl
  refine ⟨_, _, toFile_eq io hT false old, fromFile_eq old (readData_written io hT hne hname) h1,
    ⟨?_, ?_, ?_, ?_⟩, rfl, rfl, rfl, hsome, ?_⟩
  · simp [hT.pos]
  · simp [hT.arc]
  · simp [hT.speed]
  · simpa using hrl
  · unfold samples
    rw [List.forall₂_map_left_iff, List.forall₂_map_right_iff]
    have hrot : List.Forall₂ (fun a b => match a, b with
        | none, none => True
        | some a, some b => CloseM (1 / 10 ^ 8) (io.rot.toMat b) (io.rot.toMat a)
        | _, _ => False) (rotColumn T.tstamps.length T.rot)
        (rotColumn (T.tstamps.map (roundTo 9)).length rot') := by
      cases hr : T.rot with
      | none =>
        rw [hr] at h2
        cases rot' with
        | none =>
          simp only [rotColumn, List.length_map]
          exact forall₂_replicate _ trivial
        | some _ => exact absurd h2 (by simp)
      | some q =>
        rw [hr] at h2
        cases rot' with
        | none => exact absurd h2 (by simp)
        | some q' =>
          simp only [rotColumn]
          rw [List.forall₂_map_left_iff, List.forall₂_map_right_iff]
          refine h2.imp (fun a b h => ?_)
          have hε : (1 : K) / (2 * 10 ^ 9) ≤ 1 / 1000 := by norm_num
          have := (quatMat_close (q' := roundQ 9 (io.asQuat a)) (hio.unit a) hε (roundTo_close 9 _)
            (roundTo_close 9 _) (roundTo_close 9 _) (roundTo_close 9 _)).2
          simp only
          rw [h.2, ← hio.mat a]
          have e : (20 : K) * (1 / (2 * 10 ^ 9)) = 1 / 10 ^ 8 := by norm_num
          rw [e] at this
          exact this
    have := forall₂_zip (forall₂_map_self (P := fun a b => Close (1 / (2 * 10 ^ 9)) b a) _ T.tstamps close)
      (forall₂_zip (forall₂_map_self (P := fun a b => Close3 (1 / (2 * 10 ^ 9)) b a) _ T.pos close3)
        (forall₂_zip hrot (forall₂_zip (forall₂_map_self (P := fun a b => Close (1 / (2 * 10 ^ 9)) b a) _ T.arc close)
          (forall₂_map_self (P := fun a b => Close3 (1 / (2 * 10 ^ 9)) b a) _ T.speed close3))))
    exact this.imp (fun a b h => ⟨h.1, h.2.1, h.2.2.2.1, h.2.2.2.2, h.2.2.1⟩)

/-- rounding to decimals keeps the order of numbers -/
theorem roundEven_mono {x y : K} (hx : 0 ≤ x) (h : x ≤ y) : roundEven x ≤ roundEven y := by
  have hy : 0 ≤ y := hx.trans h
  have bx := abs_le.mp (roundEven_bounds hx)
  have bound := abs_le.mp (roundEven_bounds hy)
  by_contra hlt
  have hlt : roundEven y + 1 ≤ roundEven x := by omega
  have c : ((roundEven y : Nat) : K) + 1 ≤ ((roundEven x : Nat) : K) := by exact_mod_cast hlt
  have e : x = y := by linarith [bx.2, bound.1]
  subst e
  omega

theorem roundTo_mono (d : Nat) {x y : K} (h : x ≤ y) : roundTo d x ≤ roundTo d y := by
  have hp : (0 : K) < 10 ^ d := by positivity
  have nn : ∀ n : Nat, (0 : K) ≤ (n : K) / 10 ^ d := fun n => by positivity
  unfold roundTo
  by_cases hx : x < 0 <;> by_cases hy : y < 0
  · simp only [if_pos hx, if_pos hy, neg_le_neg_iff]
    apply div_le_div_of_nonneg_right _ hp.le
    exact_mod_cast roundEven_mono (by positivity)
      (mul_le_mul_of_nonneg_right (by rw [abs_of_neg hx, abs_of_neg hy]; linarith) hp.le)
  · simp only [if_pos hx, if_neg hy]
    exact (neg_nonpos.mpr (nn _)).trans (nn _)
  · exact absurd (lt_of_le_of_lt h hy) hx
  · simp only [if_neg hx, if_neg hy]
    apply div_le_div_of_nonneg_right _ hp.le
    push Not at hx hy
    exact_mod_cast roundEven_mono (by positivity)
      (mul_le_mul_of_nonneg_right (by rw [abs_of_nonneg hx, abs_of_nonneg hy]; exact h) hp.le)

/-- **C91.** A time-ordered trajectory is read back time-ordered. -/
theorem C91_order {io : IoLib K R} (hio : IsIoLib io) (counter : Nat) {T : Traj K R} (hT : Coherent T)
    (hne : T.tstamps ≠ []) (hname : CleanName T.name.toList) (old : Str)
    (hs : T.tstamps.Pairwise (· ≤ ·)) :
    ∃ content T', T.toFile io false old = .ok content ∧ Traj.fromFile io counter content = .ok T' ∧
      T'.tstamps.Pairwise (· ≤ ·) := by
  obtain ⟨rot', h1, -⟩ := fromTable_written hio counter hT hne hname
  refine ⟨_, _, toFile_eq io hT false old, fromFile_eq old (readData_written io hT hne hname) h1, ?_⟩
  · simp only
    exact List.Pairwise.map _ (fun a b h => roundTo_mono 9 h) hs

/-- quaternions of rotation matrices over the reals -/
noncomputable def realIo : IoLib ℝ (RotM ℝ) where
  rot := matLib (fun a _ _ => a)
  asQuat r := let q := markley r.1
    ⟨q.x / Real.sqrt q.normSq, q.y / Real.sqrt q.normSq, q.z / Real.sqrt q.normSq, q.w / Real.sqrt q.normSq⟩
  fromQuat q := if h : q.normSq = 0 then .error .valueError else .ok ⟨quatMat q, quatMat_isRot h⟩
  fromEuler _ _ := ⟨1, isRot_one⟩
  datetime _ _ _ := .error .valueError
  gpsEpoch := 315964800
  gpsWeekNow := 2400
  nrm v := Real.sqrt (v.x * v.x + v.y * v.y + v.z * v.z)

theorem realIo_ok : IsIoLib realIo where
  rot := matLib_isRotLib _
  unit r := by
    have hp := markley_normSq_pos r.1
    have hs : Real.sqrt (markley r.1).normSq * Real.sqrt (markley r.1).normSq = (markley r.1).normSq :=
      Real.mul_self_sqrt hp.le
    have hne : Real.sqrt (markley r.1).normSq ≠ 0 := (Real.sqrt_pos.mpr hp).ne'
    have e : (markley r.1).x * (markley r.1).x + (markley r.1).y * (markley r.1).y
        + (markley r.1).z * (markley r.1).z + (markley r.1).w * (markley r.1).w = (markley r.1).normSq := rfl
    simp only [realIo, Q4.normSq] at *
    rw [div_mul_div_comm, div_mul_div_comm, div_mul_div_comm, div_mul_div_comm, ← add_div, ← add_div, ← add_div, hs]
    exact div_self hp.ne'
  mat r := by
    have hp := markley_normSq_pos r.1
    have hpos : 0 < Real.sqrt (markley r.1).normSq := Real.sqrt_pos.mpr hp
    have e : quatMat (realIo.asQuat r) = quatMat (markley r.1) := by
      simp only [realIo, quatMat, Q4.normSq]
      obtain ⟨s, hs⟩ : ∃ s, Real.sqrt (markley r.1).normSq = s := ⟨_, rfl⟩
      simp only [Q4.normSq] at hs hp hpos
      rw [hs] at hpos ⊢
      obtain ⟨x, y, z, w⟩ := markley r.1
      simp only
      have hs0 : s ≠ 0 := hpos.ne'
      have key : ∀ a : ℝ, (a / (s * s)) / ((x * x + y * y + z * z + w * w) / (s * s))
          = a / (x * x + y * y + z * z + w * w) := fun a => by
        rw [div_div_div_cancel_right₀ (mul_ne_zero hs0 hs0)]
      have hden : x / s * (x / s) + y / s * (y / s) + z / s * (z / s) + w / s * (w / s)
          = (x * x + y * y + z * z + w * w) / (s * s) := by
        field_simp
      rw [hden]
      congr 1
      ext i j
      fin_cases i <;> fin_cases j <;> simp only [Matrix.cons_val', Matrix.cons_val_zero,
        Matrix.cons_val_one, Matrix.cons_val, Fin.zero_eta, Fin.mk_one, Fin.reduceFinMk] <;> rw [← key] <;>
        congr 1 <;> field_simp
    rw [e]
    exact quatMat_markley r.2
  fromQuat q hq := ⟨⟨quatMat q, quatMat_isRot hq⟩, by simp [realIo, hq], rfl⟩
  zero q hq := by simp [realIo, hq]

/-- a trajectory with two samples and a name of two words -/
def exFile : Traj ℝ (RotM ℝ) :=
  { tstamps := [0, 1]
    pos := [⟨0, 0, 0⟩, ⟨1, 2, 3⟩]
    rot := some [⟨1, isRot_one⟩, ⟨1, isRot_one⟩]
    arc := [0, 4]
    speed := [⟨0, 0, 0⟩, ⟨1, 2, 3⟩]
    sorting := .time
    name := "my run"
    epsg := 25832 }

example : IsIoLib realIo ∧ Coherent exFile ∧ exFile.tstamps ≠ [] ∧ CleanName exFile.name.toList ∧
    exFile.tstamps.Pairwise (· ≤ ·) :=
  ⟨realIo_ok, ⟨rfl, rfl, rfl, by rintro r ⟨⟩; rfl⟩, by simp [exFile],
    ⟨["my".toList, "run".toList], by simp, by unfold NoSpace; decide, by decide⟩, by simp [exFile]⟩

/-! ### C108 -/


/-- **C108.** What is read back of a name is its words, separated by single blanks; everything else
is as in `C91_round_trip`, of which this is the general form. -/
theorem C108_words_partial {io : IoLib K R} (hio : IsIoLib io) (counter : Nat) {T : Traj K R} (hT : Coherent T)
    (hne : T.tstamps ≠ []) (hline : OneLine T.name.toList) {ws : List Str} (hws : Words T.name.toList ws)
    (hne' : ws ≠ []) (old : Str) :
    ∃ content T', T.toFile io false old = .ok content ∧ Traj.fromFile io counter content = .ok T' ∧
      T'.name.toList = List.intercalate [' '] ws ∧ T'.epsg = T.epsg ∧
      List.Forall₂ (CloseSample io.rot (1 / (2 * 10 ^ 9)) (1 / 10 ^ 8)) (samples T) (samples T') := by
  have hsplit := words_split hws
  have hw : ∀ {s : Str} {ws : List Str}, Words s ws → ∀ w ∈ ws, w ≠ [] ∧ NoSpace w := by
    intro s ws h
    induction h with
    | blank _ => simp
    | word _ h1 h2 _ _ ih =>
      intro w hw
      rcases List.mem_cons.mp hw with rfl | hw
      · exact ⟨h1, h2⟩
      · exact ih w hw
  have hclean : CleanName (T.named (List.intercalate [' '] ws)).name.toList := by
    simp only [Traj.named, String.toList_ofList]
    exact ⟨ws, hne', hw hws, rfl⟩
  have hT2 : Coherent (T.named (List.intercalate [' '] ws)) := ⟨hT.pos, hT.arc, hT.speed, hT.rot⟩
  obtain ⟨c2, T', h1, h2, -, h3, h4, -, -, h5⟩ := C91_round_trip hio counter hT2 hne hclean old
  refine ⟨_, T', toFile_eq io hT false old, ?_, by rw [h3]; simp [Traj.named], h4, h5⟩
  rw [toFile_eq io hT2 false old] at h1
  cases h1
  have e1 := readData_written' io hT hne hline
  rw [hsplit, pyJoin_intercalate] at e1
  have e2 := readData_written io hT2 hne hclean
  unfold trajTable at e1 e2
  unfold Traj.fromFile at h2 ⊢
  simp only [openMode, Bool.false_eq_true, if_false, List.nil_append] at h2 ⊢
  rw [e2] at h2
  rw [e1]
  exact h2

/-- one sample at the origin at time zero, without orientation -/
def zeroTraj (K R : Type) [Field K] (name : String) (epsg : Int) : Traj K R :=
  { tstamps := [0]
    pos := [⟨0, 0, 0⟩]
    rot := none
    arc := [0]
    speed := [⟨0, 0, 0⟩]
    sorting := .time
    name := name
    epsg := epsg }

theorem zeroTraj_coherent (name : String) (epsg : Int) : Coherent (zeroTraj K R name epsg) :=
  ⟨rfl, rfl, rfl, by rintro r ⟨⟩⟩

theorem words_two : Words "a  b".toList ["a".toList, "b".toList] :=
  .word (g := []) (w := ['a']) (rest := [' ', ' ', 'b']) (by simp) (by simp) (by unfold NoSpace; decide)
    (by intro c r h; cases h; rfl)
    (.word (g := [' ', ' ']) (w := ['b']) (rest := []) (by decide) (by simp) (by unfold NoSpace; decide)
      (by intro c r h; cases h) (.blank (by simp)))

/-- **C108 does not hold.** A name with two neighbouring blanks is read back with one. -/
theorem C108_not_all_names {io : IoLib K R} (hio : IsIoLib io) :
    ∃ (T : Traj K R) (content : Str) (T' : Traj K R), Coherent T ∧ T.tstamps ≠ [] ∧
      T.toFile io false [] = .ok content ∧ Traj.fromFile io 0 content = .ok T' ∧
      T.name = "a  b" ∧ T'.name = "a b" := by
  obtain ⟨c, T', h1, h2, h3, -⟩ := C108_words_partial hio 0 (zeroTraj_coherent (R := R) "a  b" 0) (by simp [zeroTraj])
    (by unfold OneLine; exact (by decide : ∀ c ∈ "a  b".toList, c ≠ '\n' ∧ c ≠ '\r')) words_two (by simp) []
  refine ⟨_, c, T', zeroTraj_coherent "a  b" 0, by simp [zeroTraj], h1, h2, rfl, ?_⟩
  apply String.toList_injective
  rw [h3]
  decide

/-- **C108 does not hold.** The file of a trajectory without samples cannot be read. -/
theorem C108_empty_unreadable (io : IoLib K R) (counter : Nat) {T : Traj K R} (hT : Coherent T)
    (hne : T.tstamps = []) (hname : CleanName T.name.toList) (old : Str) :
    ∃ content, T.toFile io false old = .ok content ∧
      Traj.fromFile io counter content = .error .indexError := by
  refine ⟨_, toFile_eq io hT false old, ?_⟩
  have hrows : trajRows io T = [] := by
    have := (trajRows_channels io hT).1
    rw [hne] at this
    exact List.map_eq_nil_iff.mp this
  have hlines : fileLines (linesText (trajHeader T)) = trajHeader T := by
    have := fileLines_linesText (fun l hl => (trajHeader_lines hname.oneLine l hl).1) []
    rw [List.append_nil, fileLines_nil, List.append_nil] at this
    exact this
  have hdata : dataLines (linesText (trajHeader T)) = [] := by
    unfold dataLines
    rw [hlines, List.filter_eq_nil_iff]
    intro l hl
    obtain ⟨l0, h0, rfl⟩ := List.mem_map.mp hl
    obtain ⟨-, r, rfl⟩ := trajHeader_lines hname.oneLine l0 h0
    simp [stripComment]
  have hread : readData (K := K) (linesText (trajHeader T)) = .ok (trajMeta T, []) := by
    unfold readData headerFromFile readCsv readCsvSpace loadtxt
    rw [hlines, handleLines_trajHeader', named_self hname]
    simp only [bind, Except.bind, hdata, List.map_nil, rectangular, orElse]
    rfl
  unfold Traj.fromFile
  simp only [openMode, Bool.false_eq_true, if_false, List.nil_append, hrows, List.map_nil, csvRows,
    List.flatten_nil, List.append_nil, hread, bind, Except.bind]
  unfold Traj.fromTable extractTimestamps
  have hcols : timeColumns (trajMeta T) = [0] := by
    unfold timeColumns
    rw [trajMeta_fields]
    cases T.rot <;> rfl
  rw [trajMeta_format]
  simp only [bind, Except.bind, hcols]
  rw [if_pos (by simp)]
  unfold numCol
  rw [trajMeta_fields, (fieldIndex_all _).1]
  rfl

end TC
