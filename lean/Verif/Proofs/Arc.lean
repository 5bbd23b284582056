import Verif.Proofs.Pose
import Verif.Model.Utils
/-!
Norms and travelled distances.
-/
namespace TC
set_option linter.unusedSectionVars false
variable {K R : Type} [Field K] [LinearOrder K] [IsStrictOrderedRing K]

theorem V3.normSq_nonneg (v : V3 K) : 0 ≤ v.normSq := by
  unfold V3.normSq
  have := mul_self_nonneg v.x
  have := mul_self_nonneg v.y
  have := mul_self_nonneg v.z
  linarith

theorem IsNorm.eq_of_sq {nrm : V3 K → K} (h : IsNorm nrm) {v : V3 K} {c : K} (hc : 0 ≤ c)
    (hs : v.normSq = c * c) : nrm v = c := by
  have := h.sq v
  rw [hs] at this
  exact (mul_self_inj (h.nonneg v) hc).1 this

theorem IsNorm.congr {nrm : V3 K → K} (h : IsNorm nrm) {v w : V3 K} (hs : v.normSq = w.normSq) :
    nrm v = nrm w :=
  h.eq_of_sq (h.nonneg w) (by rw [hs, h.sq])

theorem IsNorm.smul {nrm : V3 K → K} (h : IsNorm nrm) (s : K) (v : V3 K) :
    nrm (s • v) = |s| * nrm v := by
  refine h.eq_of_sq (mul_nonneg (abs_nonneg s) (h.nonneg v)) ?_
  have h1 : |s| * |s| = s * s := abs_mul_abs_self s
  have h2 := h.sq v
  have : (|s| * nrm v) * (|s| * nrm v) = (|s| * |s|) * (nrm v * nrm v) := by ring
  rw [this, h1, h2]
  simp only [V3.normSq, V3.smul_x, V3.smul_y, V3.smul_z]
  ring

theorem IsNorm.neg {nrm : V3 K → K} (h : IsNorm nrm) (v : V3 K) : nrm (-v) = nrm v :=
  h.congr (by simp [V3.normSq])

theorem IsNorm.zero {nrm : V3 K → K} (h : IsNorm nrm) : nrm 0 = 0 :=
  h.eq_of_sq le_rfl (by simp [V3.normSq])

theorem IsNorm.eq_zero {nrm : V3 K → K} (h : IsNorm nrm) {v : V3 K} (hv : nrm v = 0) : v = 0 := by
  have h1 := h.sq v
  rw [hv] at h1
  simp only [V3.normSq, mul_zero] at h1
  have hx := mul_self_nonneg v.x
  have hy := mul_self_nonneg v.y
  have hz := mul_self_nonneg v.z
  ext
  · exact mul_self_eq_zero.1 (by linarith)
  · exact mul_self_eq_zero.1 (by linarith)
  · exact mul_self_eq_zero.1 (by linarith)

theorem IsNorm.dot_le {nrm : V3 K → K} (h : IsNorm nrm) (u v : V3 K) :
    V3.dot u v ≤ nrm u * nrm v := by
  have h0 : 0 ≤ nrm u * nrm v := mul_nonneg (h.nonneg u) (h.nonneg v)
  by_contra hlt
  push Not at hlt
  have h1 : (nrm u * nrm v) * (nrm u * nrm v) < V3.dot u v * V3.dot u v :=
    mul_self_lt_mul_self h0 hlt
  have h2 : (nrm u * nrm v) * (nrm u * nrm v) = u.normSq * v.normSq := by
    rw [← h.sq, ← h.sq]; ring
  have h3 : u.normSq * v.normSq - V3.dot u v * V3.dot u v
      = (u.y * v.z - u.z * v.y) * (u.y * v.z - u.z * v.y)
        + (u.z * v.x - u.x * v.z) * (u.z * v.x - u.x * v.z)
        + (u.x * v.y - u.y * v.x) * (u.x * v.y - u.y * v.x) := by
    simp only [V3.normSq, V3.dot]; ring
  have := mul_self_nonneg (u.y * v.z - u.z * v.y)
  have := mul_self_nonneg (u.z * v.x - u.x * v.z)
  have := mul_self_nonneg (u.x * v.y - u.y * v.x)
  linarith

theorem IsNorm.triangle {nrm : V3 K → K} (h : IsNorm nrm) (u v : V3 K) :
    nrm (u + v) ≤ nrm u + nrm v := by
  rw [mul_self_le_mul_self_iff (h.nonneg _) (add_nonneg (h.nonneg u) (h.nonneg v)), h.sq]
  have h1 := h.dot_le u v
  have h2 := h.sq u
  have h3 := h.sq v
  have h4 : (nrm u + nrm v) * (nrm u + nrm v)
      = nrm u * nrm u + 2 * (nrm u * nrm v) + nrm v * nrm v := by ring
  rw [h4, h2, h3]
  simp only [V3.normSq, V3.dot, V3.add_x, V3.add_y, V3.add_z] at *
  linarith

theorem IsNorm.mulV {nrm : V3 K → K} (h : IsNorm nrm) {A : M3 K} (hA : IsRot A) (v : V3 K) :
    nrm (TC.mulV A v) = nrm v := h.congr (normSq_mulV hA v)

/-! ### cumulative sums -/

theorem cumFrom_length (a : K) (d : List K) : (cumFrom a d).length = d.length + 1 := by
  induction d generalizing a with
  | nil => rfl
  | cons x d ih => simp [cumFrom, ih]

theorem cumFrom_getElem? (a : K) (d : List K) (i : Nat) :
    (cumFrom a d)[i]? = if i ≤ d.length then some (a + (d.take i).sum) else none := by
  induction d generalizing a i with
  | nil => cases i <;> simp [cumFrom]
  | cons x d ih =>
    cases i with
    | zero => simp [cumFrom]
    | succ i => simp [cumFrom, ih, add_assoc]

theorem diffs_length {α : Type} [Sub α] (l : List α) : (diffs l).length = l.length - 1 := by
  simp [diffs]

theorem diffs_getElem? {α : Type} [Sub α] (l : List α) (i : Nat) (a b : α) (ha : l[i]? = some a)
    (hb : l[i + 1]? = some b) : (diffs l)[i]? = some (b - a) := by
  have hi := (List.getElem?_eq_some_iff.1 hb).1
  simp only [diffs, List.getElem?_zipWith, List.getElem?_tail, hb, List.getElem?_dropLast]
  rw [if_pos (by omega), ha]

theorem diffs_map {α β : Type} [Sub α] [Sub β] (f : α → β) (hf : ∀ a b, f (a - b) = f a - f b)
    (l : List α) : diffs (l.map f) = (diffs l).map f := by
  simp only [diffs, ← List.map_tail, ← List.map_dropLast, List.zipWith_map, List.map_zipWith, hf]

theorem diffs_cons_cons {α : Type} [Sub α] (a b : α) (l : List α) :
    diffs (a :: b :: l) = (b - a) :: diffs (b :: l) := by
  simp [diffs]

theorem lengthsFromXyz_length (nrm : V3 K → K) {P : List (V3 K)} (hP : P ≠ []) :
    (lengthsFromXyz nrm P).length = P.length := by
  rw [lengthsFromXyz, cumFrom_length, List.length_map, diffs_length]
  have := List.length_pos_of_ne_nil hP
  omega

end TC
