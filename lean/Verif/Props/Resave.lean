import Verif.Spec.Resave
import Verif.Props.TrajFile
/-!
# C180: what has been saved and loaded once does not change any more
-/
namespace TC
set_option linter.unusedSectionVars false
variable {K R : Type} [Field K] [LinearOrder K] [IsStrictOrderedRing K] [FloorRing K]

/-- a rounded number is not changed by rounding -/
theorem roundTo_again (d : Nat) (x : K) : roundTo d (roundTo d x) = roundTo d x := by
  have hp : (0 : K) < 10 ^ d := by positivity
  have key : ∀ n : Nat, roundEven (|(n : K) / 10 ^ d| * 10 ^ d) = n := by
    intro n
    have : |(n : K) / 10 ^ d| * 10 ^ d = (n : K) := by
      rw [abs_of_nonneg (by positivity)]
      field_simp
    rw [this]
    exact roundEven_of_nat n
  unfold roundTo
  simp only
  generalize roundEven (|x| * 10 ^ d) = n
  have hn : (0 : K) ≤ (n : K) / 10 ^ d := by positivity
  by_cases hx : x < 0
  · simp only [if_pos hx, abs_neg, key n]
    by_cases h0 : -((n : K) / 10 ^ d) < 0
    · rw [if_pos h0]
    · rw [if_neg h0]
      linarith
  · simp only [if_neg hx, key n]
    rw [if_neg (not_lt.2 hn)]

theorem round3_again (d : Nat) (v : V3 K) : round3 d (round3 d v) = round3 d v := by
  unfold round3
  simp only [roundTo_again]

/-- one save -/
theorem saved_once {io : IoLib K R} (hio : IsIoLib io) {counter : Nat} {T T' : Traj K R} (hT : Coherent T)
    (hne : T.tstamps ≠ []) (hname : CleanName T.name.toList) {old content : Str} (h1 : T.toFile io false old = .ok content)
    (h2 : Traj.fromFile io counter content = .ok T') :
    T'.tstamps = T.tstamps.map (roundTo 9) ∧ T'.pos = T.pos.map (round3 9) ∧ T'.arc = T.arc.map (roundTo 9) ∧
      T'.speed = T.speed.map (round3 9) ∧ T'.sorting = .time ∧ T'.name = T.name ∧ T'.epsg = T.epsg ∧
      CloseRots io.rot (1 / 10 ^ 8) T.rot T'.rot ∧ Coherent T' := by
  obtain ⟨rot', k1, k2⟩ := fromTable_written hio counter hT hne hname
  have e1 := toFile_eq io hT false old
  have e2 := fromFile_eq old (readData_written io hT hne hname) k1
  rw [h1] at e1
  cases e1
  rw [h2] at e2
  cases e2
  have hc : CloseRots io.rot (1 / 10 ^ 8) T.rot rot' := by
    unfold CloseRots
    cases hr : T.rot with
    | none =>
      rw [hr] at k2
      cases rot' with
      | none => trivial
      | some _ => exact absurd k2 (by simp)
    | some q =>
      rw [hr] at k2
      cases rot' with
      | none => exact absurd k2 (by simp)
      | some q' =>
        refine List.Forall₂.imp (fun a b h => ?_) k2
        have hε : (1 : K) / (2 * 10 ^ 9) ≤ 1 / 1000 := by norm_num
        have := (quatMat_close (q' := roundQ 9 (io.asQuat a)) (hio.unit a) hε (roundTo_close 9 _)
          (roundTo_close 9 _) (roundTo_close 9 _) (roundTo_close 9 _)).2
        rw [h.2, ← hio.mat a]
        have e : (20 : K) * (1 / (2 * 10 ^ 9)) = 1 / 10 ^ 8 := by norm_num
        rw [e] at this
        exact this
  refine ⟨rfl, rfl, rfl, rfl, rfl, rfl, rfl, hc, ⟨by simp [hT.pos], by simp [hT.arc], by simp [hT.speed], ?_⟩⟩
  rintro r (hr : rot' = some r)
  rw [hr] at hc
  cases hq : T.rot with
  | none => rw [hq] at hc; exact hc.elim
  | some q =>
    rw [hq] at hc
    have hl : q.length = r.length := List.Forall₂.length_eq hc
    rw [← hl]
    simpa using hT.rot q hq

/-- a trajectory whose numbers have nine decimals -/
structure Rounded (T : Traj K R) : Prop where
  tstamps : T.tstamps.map (roundTo 9) = T.tstamps
  pos : T.pos.map (round3 9) = T.pos
  arc : T.arc.map (roundTo 9) = T.arc
  speed : T.speed.map (round3 9) = T.speed
  sorting : T.sorting = .time

theorem closeM_add {δ δ' : K} {A B C : M3 K} (h : CloseM δ B A) (h' : CloseM δ' C B) : CloseM (δ + δ') C A := by
  intro i j
  have := abs_add_le (C i j - B i j) (B i j - A i j)
  have h1 := h i j
  have h2 := h' i j
  unfold Close at *
  have e : C i j - A i j = (C i j - B i j) + (B i j - A i j) := by ring
  rw [e]
  linarith

theorem closeRots_add {L : RotLib K R} {δ δ' : K} {a b c : Option (List R)} (h : CloseRots L δ a b) (h' : CloseRots L δ' b c) :
    CloseRots L (δ + δ') a c := by
  unfold CloseRots at *
  cases a <;> cases b <;> cases c <;> simp_all
  rename_i a b c
  induction h generalizing c with
  | nil => cases h'; exact .nil
  | cons h _ ih =>
    cases h' with
    | cons g gs => exact .cons (closeM_add h g) (ih _ gs)

theorem saved_rounded {io : IoLib K R} (hio : IsIoLib io) {n : Nat} {T T' : Traj K R} (h : SavedTimes io n T T') (hT : Coherent T)
    (hne : T.tstamps ≠ []) (hname : CleanName T.name.toList) (hr : Rounded T) :
    SameButRotations T T' ∧ CloseRots io.rot ((n : K) * (1 / 10 ^ 8)) T.rot T'.rot ∧ Coherent T' := by
  induction h with
  | never T =>
    refine ⟨⟨rfl, rfl, rfl, rfl, rfl, rfl, rfl⟩, ?_, hT⟩
    unfold CloseRots
    cases T.rot with
    | none => trivial
    | some q =>
      refine List.forall₂_same.2 (fun a _ i j => ?_)
      unfold Close
      simp
  | again hs h1 h2 ih =>
    obtain ⟨s, c, hC⟩ := ih hT hne hname hr
    obtain ⟨k1, k2, k3, k4, k5, k6, k7, k8, k9⟩ := saved_once hio hC (by rw [s.tstamps]; exact hne) (by rw [s.name]; exact hname) h1 h2
    refine ⟨⟨?_, ?_, ?_, ?_, ?_, ?_, ?_⟩, ?_, k9⟩
    · rw [k1, s.tstamps, hr.tstamps]
    · rw [k2, s.pos, hr.pos]
    · rw [k3, s.arc, hr.arc]
    · rw [k4, s.speed, hr.speed]
    · rw [k5, hr.sorting]
    · rw [k6, s.name]
    · rw [k7, s.epsg]
    · have := closeRots_add c k8
      push_cast
      rw [add_mul, one_mul]
      exact this

/-- **C180.**  A trajectory that has been saved and loaded once is not changed by saving and loading it again, any number of
times: name, coordinate system, times, positions, arc lengths and speeds stay exactly the same, and so do all of it if there
are no orientations.  Orientations change by at most `1e-8` in each entry of the rotation matrix each time. -/
theorem C180_saving_again {io : IoLib K R} (hio : IsIoLib io) {n : Nat} {T T₁ Tₙ : Traj K R} (hT : Coherent T)
    (hne : T.tstamps ≠ []) (hname : CleanName T.name.toList) (h : SavedTimes io 1 T T₁) (hn : SavedTimes io n T₁ Tₙ) :
    SameButRotations T₁ Tₙ ∧ CloseRots io.rot ((n : K) * (1 / 10 ^ 8)) T₁.rot Tₙ.rot ∧ (T.rot = none → Tₙ = T₁) := by
  cases h with
  | again h0 h1 h2 =>
    cases h0
    obtain ⟨k1, k2, k3, k4, k5, k6, k7, k8, k9⟩ := saved_once hio hT hne hname h1 h2
    have hr : Rounded T₁ := by
      refine ⟨?_, ?_, ?_, ?_, k5⟩
      · rw [k1, List.map_map]; exact List.map_congr_left (fun x _ => roundTo_again 9 x)
      · rw [k2, List.map_map]; exact List.map_congr_left (fun x _ => round3_again 9 x)
      · rw [k3, List.map_map]; exact List.map_congr_left (fun x _ => roundTo_again 9 x)
      · rw [k4, List.map_map]; exact List.map_congr_left (fun x _ => round3_again 9 x)
    obtain ⟨s, c, -⟩ := saved_rounded hio hn k9 (by rw [k1]; simpa using hne) (by rw [k6]; exact hname) hr
    refine ⟨s, c, fun h0 => ?_⟩
    have r1 : T₁.rot = none := by
      rw [h0] at k8
      cases h : T₁.rot with
      | none => rfl
      | some q => rw [h] at k8; exact k8.elim
    have r2 : Tₙ.rot = none := by
      rw [r1] at c
      cases h : Tₙ.rot with
      | none => rfl
      | some q => rw [h] at c; exact c.elim
    obtain ⟨s1, s2, s3, s4, s5, s6, s7⟩ := s
    cases T₁
    cases Tₙ
    simp_all

/-- **C180.**  It can be saved and loaded any number of times. -/
theorem C180_always_possible {io : IoLib K R} (hio : IsIoLib io) (n : Nat) {T : Traj K R} (hT : Coherent T)
    (hne : T.tstamps ≠ []) (hname : CleanName T.name.toList) :
    ∃ Tₙ, SavedTimes io n T Tₙ ∧ Coherent Tₙ ∧ Tₙ.tstamps ≠ [] ∧ Tₙ.name = T.name := by
  induction n with
  | zero => exact ⟨T, .never T, hT, hne, rfl⟩
  | succ n ih =>
    obtain ⟨T', h, hC, hn, hN⟩ := ih
    obtain ⟨content, T'', h1, h2, -⟩ := C91_round_trip hio 0 hC hn (by rw [hN]; exact hname) []
    obtain ⟨k1, -, -, -, -, k6, -, -, k9⟩ := saved_once hio hC hn (by rw [hN]; exact hname) h1 h2
    exact ⟨T'', .again h h1 h2, k9, by rw [k1]; simpa using hn, by rw [k6, hN]⟩

/-- the hypotheses are met: a trajectory with orientations, any number of times -/
example (n : Nat) : ∃ T₁ Tₙ, SavedTimes realIo 1 exFile T₁ ∧ SavedTimes realIo n T₁ Tₙ := by
  have hC : Coherent exFile := ⟨rfl, rfl, rfl, by rintro r ⟨⟩; rfl⟩
  have hN : CleanName exFile.name.toList := ⟨["my".toList, "run".toList], by simp, by unfold NoSpace; decide, by decide⟩
  obtain ⟨T₁, h1, c1, n1, e1⟩ := C180_always_possible realIo_ok 1 hC (by simp [exFile]) hN
  obtain ⟨Tₙ, h2, -⟩ := C180_always_possible realIo_ok n c1 n1 (by rw [e1]; exact hN)
  exact ⟨T₁, Tₙ, h1, h2⟩

/-- a number that the first saving changes and the second one does not -/
example : roundTo 9 (1 / 3 : ℚ) = 333333333 / 1000000000 ∧ roundTo 9 (-(1 / 3) : ℚ) = -(333333333 / 1000000000) ∧
    roundTo 9 (333333333 / 1000000000 : ℚ) = 333333333 / 1000000000 := by decide +kernel

end TC
