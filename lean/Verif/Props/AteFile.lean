import Verif.Proofs.AteFile
import Verif.Props.RpeFile
import Verif.Props.ReadFile
/-!
# ATE result files: C68
-/
namespace TC
set_option linter.unusedSectionVars false
variable {K R : Type} [Field K] [LinearOrder K] [IsStrictOrderedRing K] [FloorRing K]

theorem closeRots_of_quat {io : IoLib K R} (hio : IsIoLib io) {o o' : Option (List R)}
    (h : match o, o' with
      | none, none => True
      | some q, some q' => List.Forall₂ (fun a b => io.rot.toMat b = quatMat (roundQ 12 (io.asQuat a))) q q'
      | _, _ => False) : CloseRots io.rot (1 / 10 ^ 11) o o' := by
  cases o <;> cases o' <;> simp only [CloseRots] at h ⊢
  refine h.imp (fun a b hab => ?_)
  have hε : (1 : K) / (2 * 10 ^ 12) ≤ 1 / 1000 := by norm_num
  have := (quatMat_close (q' := roundQ 12 (io.asQuat a)) (hio.unit a) hε (roundTo_close 12 _)
    (roundTo_close 12 _) (roundTo_close 12 _) (roundTo_close 12 _)).2
  rw [hab, ← hio.mat a]
  have e : (20 : K) * (1 / (2 * 10 ^ 12)) = 1 / 10 ^ 11 := by norm_num
  rw [e] at this
  exact this

/-- **C68.** Writing an ATE result to a new file and reading it gives the same name and EPSG code and,
sample for sample, the same times, arc lengths, positions, deviations and directed deviations within
half a unit of the twelfth decimal, and orientations and rotation deviations (present or absent as
before) within `1e-11` in each matrix entry.  Not kept: speeds, the order of the trajectory, its own
name and the record that rotations were used, see below. -/
theorem C68_round_trip_partial {io : IoLib K R} (hio : IsIoLib io) (counter : Nat) {r : AteResult K R}
    (h : AteFits r) (hname : CleanName r.name.toList) (old : Str) :
    ∃ content r', r.toFile io false old = .ok content ∧ AteResult.fromFile io counter content = .ok r' ∧
      CloseAte io.rot (1 / (2 * 10 ^ 12)) (1 / 10 ^ 11) r r' ∧ AteFits r' ∧ r'.trajectory.name = r.name := by
  obtain ⟨rot', rotDev', h1, h2, h3⟩ := ate_fromFile h hio counter hname
  have close : ∀ x : K, Close (1 / (2 * 10 ^ 12)) (roundTo 12 x) x := roundTo_close 12
  have close3 : ∀ p : V3 K, Close3 (1 / (2 * 10 ^ 12)) (round3 12 p) p := fun p =>
    ⟨close _, close _, close _⟩
  refine ⟨_, _, ateToFile_eq h false old, h1, ⟨rfl, rfl, ?_, ?_, ?_, closeRots_of_quat hio h2, ?_, ?_,
    closeRots_of_quat hio h3⟩, ⟨⟨?_, ?_, ?_, ?_⟩, ?_, ?_, ?_, ?_⟩, rfl⟩
  · exact forall₂_map_self _ _ close
  · exact forall₂_map_self _ _ close
  · exact forall₂_map_self _ _ close3
  · exact forall₂_map_self _ _ close3
  · exact forall₂_map_self _ _ close3
  · simp [h.traj.pos]
  · simp [h.traj.arc]
  · have : r.trajectory.tstamps.length ≠ 0 := by simpa using h.ne
    simp [diffs_length, h.traj.pos]
    omega
  · rintro q rfl
    cases hr : r.trajectory.rot with
    | none => rw [hr] at h2; exact absurd h2 (by simp)
    | some q' => rw [hr] at h2; rw [← h2.length_eq, h.traj.rot q' hr]; simp
  · simpa using h.ne
  · simp [h.pos]
  · simp [h.dir]
  · rintro q rfl
    cases hr : r.rotDev with
    | none => rw [hr] at h3; exact absurd h3 (by simp)
    | some q' => rw [hr] at h3; rw [← h3.length_eq, h.rot q' hr]; simp

/-- **C68 does not hold for speeds.** Whatever the speeds of the trajectory, the last speed read back
is zero, and the record that rotations were used is lost. -/
theorem C68_speed_lost {io : IoLib K R} (hio : IsIoLib io) (counter : Nat) {r : AteResult K R}
    (h : AteFits r) (hname : CleanName r.name.toList) (old : Str) :
    ∃ content r', r.toFile io false old = .ok content ∧ AteResult.fromFile io counter content = .ok r' ∧
      r'.trajectory.speed.getLast? = some 0 ∧ r'.rotationsUsed = false ∧ r'.trajectory.sorting = .time := by
  obtain ⟨rot', rotDev', h1, -, -⟩ := ate_fromFile h hio counter hname
  refine ⟨_, _, ateToFile_eq h false old, h1, ?_, rfl, rfl⟩
  simp

theorem mapE_ok_all {α β : Type} {f : α → Except Err β} : ∀ {l : List α} {r : List β}, mapE f l = .ok r →
    ∀ a ∈ l, ∃ b, f a = .ok b
  | [], _, _ => by simp
  | a :: l, r, h => by
    obtain ⟨b, hb, h⟩ := ok_bind_inv (f := fun b => mapE f l >>= fun bs => .ok (b :: bs)) h
    obtain ⟨bs, hbs, -⟩ := ok_bind_inv (f := fun bs => .ok (b :: bs)) h
    intro x hx
    rcases List.mem_cons.mp hx with rfl | hx
    · exact ⟨b, hb⟩
    · exact mapE_ok_all hbs x hx

theorem cellNum_time : (cellNum "time".toList : Except Err (Option K)) = .error .valueError := rfl

/-- **C68 does not hold for appended files.** `to_file` appends by default; once a second result has
been written to the same file, reading it fails. -/
theorem C68_append_unreadable {io : IoLib K R} (counter : Nat) {r r2 : AteResult K R} (h : AteFits r)
    (h2 : AteFits r2) (hname : CleanName r.name.toList) (hname2 : CleanName r2.name.toList) :
    ∃ c1 c2 e, r.toFile io true [] = .ok c1 ∧ r2.toFile io true c1 = .ok c2 ∧
      AteResult.fromFile io counter c2 = .error e := by
  have key : ∃ e, AteResult.fromFile io counter
      (ateHead r ++ csvRows (ateBlock io r) ++ (ateHead r2 ++ csvRows (ateBlock io r2))) = .error e := by
    cases hread : AteResult.fromFile io counter
        (ateHead r ++ csvRows (ateBlock io r) ++ (ateHead r2 ++ csvRows (ateBlock io r2))) with
    | error e => exact ⟨e, rfl⟩
    | ok r' =>
      exfalso
      unfold AteResult.fromFile at hread
      obtain ⟨m, -, hread⟩ := ok_bind_inv hread
      obtain ⟨f, hf, hread⟩ := ok_bind_inv hread
      obtain ⟨ts, ht, -⟩ := ok_bind_inv hread
      obtain ⟨h1, row, hrow, htime⟩ := ate_readFrame_twice h h2 hname.oneLine hname2.oneLine hf
      unfold numColumn at ht
      obtain ⟨c, hc, -⟩ := ok_bind_inv ht
      unfold column at hc
      rw [h1, (ateCols_idx _ _).1.1] at hc
      simp only at hc
      obtain ⟨y, hy⟩ := mapE_ok_all hc row hrow
      rw [htime] at hy
      simp only [cellNum_time] at hy
      cases hy
  obtain ⟨e, he⟩ := key
  refine ⟨_, _, e, ateToFile_eq h true [], ateToFile_eq h2 true _, ?_⟩
  simpa only [openMode, if_true, List.nil_append] using he

/-- a result with two samples, orientations and rotation deviations -/
def exAteFile : AteResult ℝ (RotM ℝ) :=
  { name := "my run"
    trajectory := exFile
    posDev := [⟨0, 0, 0⟩, ⟨1, 0, -1⟩]
    directed := [⟨0, 0, 0⟩, ⟨1, 1, 0⟩]
    rotDev := some [⟨1, isRot_one⟩, ⟨1, isRot_one⟩]
    rotationsUsed := true }

example : IsIoLib realIo ∧ AteFits exAteFile ∧ CleanName exAteFile.name.toList ∧
    exAteFile.trajectory.speed.getLast? ≠ some 0 :=
  ⟨realIo_ok, ⟨⟨rfl, rfl, rfl, by rintro r ⟨⟩; rfl⟩, by simp [exAteFile, exFile], rfl, rfl, by rintro r ⟨⟩; rfl⟩,
    ⟨["my".toList, "run".toList], by simp, by unfold NoSpace; decide, by decide⟩, by
      intro e
      have : (⟨1, 2, 3⟩ : V3 ℝ) = 0 := by simpa [exAteFile, exFile] using e
      have := congrArg V3.x this
      simp at this⟩

end TC
