import Verif.Model.RotApprox
import Mathlib.Data.Rat.Floor
import Mathlib.Tactic.Linarith
import Mathlib.Tactic.NormNum
/-!
# C56: averaging of orientations
-/
namespace TC
set_option linter.unusedSectionVars false
variable {K Q : Type} [Field K] [LinearOrder K] [IsStrictOrderedRing K] [FloorRing K]

theorem averageRows_spec (mean : List Q → Except Err Q) (quat : List Q) (ext : Nat) (is : List Nat)
    {out : List Q} (h : averageRows mean quat ext is = .ok out) :
    out.length = is.length ∧ ∀ (k : Nat) i q, is[k]? = some i → out[k]? = some q →
      mean (window quat ext i) = .ok q := by
  induction is generalizing out with
  | nil =>
    obtain rfl := Except.ok.inj h
    simp
  | cons i is ih =>
    unfold averageRows at h
    cases h1 : mean (window quat ext i) with
    | error e => simp [h1, bind, Except.bind] at h
    | ok q =>
      cases h2 : averageRows mean quat ext is with
      | error e => simp [h1, h2, bind, Except.bind] at h
      | ok qs =>
        simp only [h1, h2, bind, Except.bind, pure, Except.pure, Except.ok.injEq] at h
        subst h
        obtain ⟨e1, e2⟩ := ih h2
        refine ⟨by simp [e1], ?_⟩
        intro k j q' hk hq
        cases k with
        | zero =>
          simp only [List.getElem?_cons_zero, Option.some.injEq] at hk hq
          subst hk hq
          exact h1
        | succ k => exact e2 k j q' (by simpa using hk) (by simpa using hq)

/-- a single sample has no neighbours in its window -/
theorem windowExt_single (rnd : K → K) (x winSize : K) : windowExt rnd [x] winSize = .ok 0 := by
  unfold windowExt
  have : rndodd (1 : K) = 1 := by
    unfold rndodd
    have h : ⌊(2 : K)⁻¹⌋ = 0 := by
      rw [Int.floor_eq_iff]
      norm_num
    simp [h]
  simp [this]

/-- **C56**, positive part: unless the orientations are returned unchanged (fewer than two per
window), the smoothed orientation of sample `i` is the mean over a run of consecutive samples that
begins `ext` before it (or at the first sample) and ends just before the sample `ext` after it, and
never includes the last sample; the run is not empty and contains the sample itself except for the
last one.  Missing for the full property: the last sample, for which it is false. -/
theorem C56_windows_partial (rnd : K → K) (mean : List Q → Except Err Q) (functionOf : List K)
    (quat : List Q) (winSize : K) (hl : functionOf.length = quat.length) {out : List Q}
    (h : rotAverageWindow rnd mean functionOf quat winSize = .ok out) :
    out.length = quat.length ∧ (out = quat ∨ ∃ ext : Nat, 1 ≤ ext ∧ ∀ (i : Nat) q, out[i]? = some q →
      ∃ lo hi, lo = i - ext ∧ hi = min (quat.length - 1) (i + ext) ∧ lo < hi ∧ lo ≤ i ∧
        (i + 1 < quat.length → i < hi) ∧ mean ((quat.take hi).drop lo) = .ok q) := by
  unfold rotAverageWindow at h
  cases he : windowExt rnd functionOf winSize with
  | error e => simp [he, bind, Except.bind] at h
  | ok ext =>
    simp only [he, bind, Except.bind] at h
    by_cases h0 : ext = 0
    · rw [if_pos h0] at h
      simp only [pure, Except.pure, Except.ok.injEq] at h
      subst h
      exact ⟨rfl, Or.inl rfl⟩
    · rw [if_neg h0] at h
      obtain ⟨h1, h2⟩ := averageRows_spec mean quat ext _ h
      rw [List.length_range] at h1
      refine ⟨h1, Or.inr ⟨ext, by omega, ?_⟩⟩
      intro i q hq
      have hi : i < quat.length := by
        rw [← h1]
        exact (List.getElem?_eq_some_iff.1 hq).1
      have hn : quat.length ≠ 1 := by
        intro hc
        rw [hc] at hl
        obtain ⟨x, rfl⟩ := List.length_eq_one_iff.1 hl
        rw [windowExt_single] at he
        exact h0 (Except.ok.inj he).symm
      refine ⟨_, _, rfl, rfl, ?_, by omega, by omega, ?_⟩
      · omega
      · exact h2 i i q (by simp [hi]) hq

/-- **C56**, why it fails for the last sample: as soon as orientations are averaged at all, the last
orientation has no influence on any smoothed orientation, not even on its own. -/
theorem C56_last_sample_never_used (rnd : K → K) (mean : List Q → Except Err Q) (functionOf : List K)
    (quat : List Q) (last last' : Q) (winSize : K) {ext : Nat}
    (he : windowExt rnd functionOf winSize = .ok ext) (hext : ext ≠ 0) :
    rotAverageWindow rnd mean functionOf (quat ++ [last]) winSize =
      rotAverageWindow rnd mean functionOf (quat ++ [last']) winSize := by
  unfold rotAverageWindow
  simp only [he, bind, Except.bind, if_neg hext, List.length_append, List.length_singleton]
  have hw : ∀ i, window (quat ++ [last]) ext i = window (quat ++ [last']) ext i := by
    intro i
    unfold window
    simp only [List.length_append, List.length_singleton, Nat.add_sub_cancel]
    rw [List.take_append_of_le_length (by omega), List.take_append_of_le_length (by omega)]
  generalize List.range (quat.length + 1) = is
  induction is with
  | nil => rfl
  | cons i is ih => simp only [averageRows, hw, ih]

/-- the mean of numbers stands for the mean of rotations -/
def exMean (l : List ℚ) : Except Err ℚ := if l.length = 0 then .error .valueError else .ok (l.sum / l.length)

/-- **C56**, the counterexample: the orientations 0, 0, 0, 9 with all samples in one window are
smoothed to 0 everywhere. -/
theorem C56_window_contains_sample_fails :
    rotAverageWindow (fun _ => 0) exMean [0, 1, 2, 3] [0, 0, 0, 9] (10 : ℚ) = .ok [0, 0, 0, 0] := by
  decide +kernel

example : windowExt (fun _ => 0) [0, 1, 2, 3] (10 : ℚ) = .ok 2 := by decide +kernel
example : rotAverageWindow (fun _ => 0) exMean [0, 1, 2, 3] [0, 6, 0, 9] (10 : ℚ) = .ok [3, 2, 2, 3] := by
  decide +kernel
example : rotAverageWindow (fun x => x) exMean [0, 1, 2, 3] [0, 6, 0, 9] (1 : ℚ) = .ok [0, 6, 0, 9] := by
  decide +kernel

end TC
