import Verif.Model.Lsq
import Verif.Model.Line
import Verif.Model.Round
import Verif.Proofs.Arc
import Verif.Proofs.Interp
import Verif.Proofs.Perm
import Mathlib.Algebra.BigOperators.Group.Finset.Basic
import Mathlib.LinearAlgebra.Matrix.DotProduct
import Mathlib.Algebra.BigOperators.Field
import Mathlib.Data.Rat.Floor
import Mathlib.Tactic.FieldSimp
import Mathlib.Tactic.LinearCombination
/-!
# C28 - C32: numerical helpers
-/
namespace TC
set_option linter.unusedSectionVars false
variable {K : Type} [Field K] [LinearOrder K] [IsStrictOrderedRing K]

/-! ### C28 -/

/-- **C28.** -/
theorem C28_rndodd [FloorRing K] (s : K) : Odd (rndodd s) ∧ |s - (rndodd s : K)| ≤ 1 := by
  unfold rndodd
  simp only
  have h1 := Int.floor_le (s / 2)
  have h2 := Int.lt_floor_add_one (s / 2)
  generalize ⌊s / 2⌋ = m at *
  have hs : s = 2 * (s / 2) := by ring
  split_ifs with h
  · have hf : ⌊s⌋ = 2 * m := by
      rw [Int.floor_eq_iff]
      push_cast
      constructor <;> linarith
    rw [hf]
    refine ⟨⟨m, rfl⟩, ?_⟩
    push_cast
    rw [abs_le]
    constructor <;> linarith
  · rw [not_lt] at h
    have hf : ⌊s⌋ = 2 * m + 1 := by
      rw [Int.floor_eq_iff]
      push_cast
      constructor <;> linarith
    rw [hf]
    refine ⟨⟨m, rfl⟩, ?_⟩
    push_cast
    rw [abs_le]
    constructor <;> linarith

/-! ### C29 -/

/-- **C29**, integration: the gradient has one vector per position, the last one zero, and moving
along it for the time difference leads to the next position. -/
theorem C29_gradient_integrates (xyz : List (V3 K)) (ts : List K) (hl : xyz.length = ts.length)
    (hne : xyz ≠ []) :
    ∃ g, gradient3d xyz ts = .ok g ∧ g.length = xyz.length ∧ g.getLast? = some 0 ∧
      ∀ (i : Nat) p p' t t', xyz[i]? = some p → xyz[i+1]? = some p' → ts[i]? = some t →
        ts[i+1]? = some t' → t ≠ t' → ∃ v, g[i]? = some v ∧ p + (t' - t) • v = p' := by
  have h0 := List.length_pos_of_ne_nil hne
  refine ⟨_, gradient3d_ok hl, ?_, by simp, ?_⟩
  · simp [diffs_length, ← hl]; omega
  · intro i p p' t t' h1 h2 h3 h4 hne
    have hi : i + 1 < xyz.length := by
      by_contra hc
      rw [List.getElem?_eq_none (by omega)] at h2
      simp at h2
    have d1 : (diffs xyz)[i]? = some (p' - p) := by simp [diffs_getElem?, h1, h2]
    have d2 : (diffs ts)[i]? = some (t' - t) := by simp [diffs_getElem?, h3, h4]
    refine ⟨(t' - t)⁻¹ • (p' - p), ?_, ?_⟩
    · rw [List.getElem?_append_left (by simp [diffs_length, ← hl]; omega)]
      rw [List.getElem?_zipWith, d1, d2]
    · rw [smul_smul, mul_inv_cancel₀ (sub_ne_zero.2 (Ne.symm hne)), one_smul]
      abel

/-- **C29**, constant velocity. -/
theorem C29_gradient_of_constant_velocity (p0 v : V3 K) (ts : List K) (hne : ts ≠ [])
    (hd : ∀ (i : Nat) t t', ts[i]? = some t → ts[i+1]? = some t' → t ≠ t') :
    gradient3d (ts.map (fun t => p0 + t • v)) ts = .ok (List.replicate (ts.length - 1) v ++ [0]) := by
  obtain ⟨g, h1, h2, h3, h4⟩ := C29_gradient_integrates (ts.map (fun t => p0 + t • v)) ts (by simp)
    (by simpa using hne)
  have h0 := List.length_pos_of_ne_nil hne
  rw [h1]
  congr 1
  apply List.ext_getElem?
  intro i
  rw [List.length_map] at h2
  by_cases hi : i + 1 < ts.length
  · obtain ⟨w, hw, he⟩ := h4 i (p0 + ts[i] • v) (p0 + ts[i+1] • v) ts[i] ts[i+1]
      (by simp [show i < ts.length by omega]) (by simp [hi]) (by simp [show i < ts.length by omega])
      (by simp [hi]) (hd i _ _ (by simp [show i < ts.length by omega]) (by simp [hi]))
    have hne := hd i ts[i] ts[i+1] (by simp [show i < ts.length by omega]) (by simp [hi])
    rw [hw, List.getElem?_append_left (by simp; omega), List.getElem?_replicate, if_pos (by omega)]
    congr 1
    have hs : (ts[i+1] - ts[i]) • (w - v) = 0 := by
      rw [smul_sub]
      have : (ts[i+1] - ts[i]) • w = (p0 + ts[i+1] • v) - (p0 + ts[i] • v) := by rw [← he]; abel
      rw [this, sub_smul]; abel
    have hz := congrArg (fun u => (ts[i+1] - ts[i])⁻¹ • u) hs
    simp only [smul_smul, inv_mul_cancel₀ (sub_ne_zero.2 (Ne.symm hne)), one_smul, smul_zero] at hz
    exact sub_eq_zero.1 hz
  · by_cases hi' : i = ts.length - 1
    · subst hi'
      rw [List.getLast?_eq_getElem?, h2] at h3
      rw [h3, List.getElem?_append_right (by simp)]
      simp
    · rw [List.getElem?_eq_none (by omega), List.getElem?_eq_none (by simp; omega)]

/-! ### C30 -/

open Matrix in
/-- What is assumed of `scipy.linalg.solve`: what it returns solves the system. -/
def IsSolver (solve : Solver K) : Prop :=
  ∀ n (N : Matrix (Fin n) (Fin n) K) b x, solve n N b = .ok x → N *ᵥ x = b

open Matrix in
/-- the weighted sum of squared residuals of the parameters `y` -/
def cost {m n : Nat} (W : Matrix (Fin m) (Fin m) K) (A : Matrix (Fin m) (Fin n) K) (l : Fin m → K)
    (y : Fin n → K) : K :=
  (A *ᵥ y - l) ⬝ᵥ (W *ᵥ (A *ᵥ y - l))

open Matrix in
theorem lsq_core {m n : Nat} (A : Matrix (Fin m) (Fin n) K) (l : Fin m → K)
    (W : Matrix (Fin m) (Fin m) K) (x : Fin n → K) (h : (Aᵀ * W * A) *ᵥ x = (Aᵀ * W) *ᵥ l) :
    Aᵀ *ᵥ (W *ᵥ (A *ᵥ x - l)) = 0 ∧
    (Wᵀ = W → (∀ u, 0 ≤ u ⬝ᵥ (W *ᵥ u)) → ∀ y, cost W A l x ≤ cost W A l y) := by
  have h0 : Aᵀ *ᵥ (W *ᵥ (A *ᵥ x - l)) = 0 := by
    rw [Matrix.mulVec_sub, Matrix.mulVec_sub, Matrix.mulVec_mulVec, Matrix.mulVec_mulVec,
      Matrix.mulVec_mulVec, h, sub_self]
  refine ⟨h0, ?_⟩
  intro hsym hpos y
  unfold cost
  set v := A *ᵥ x - l with hv
  have hy : A *ᵥ y - l = A *ᵥ (y - x) + v := by rw [hv, Matrix.mulVec_sub]; abel
  set d := A *ᵥ (y - x) with hd
  have h1 : d ⬝ᵥ (W *ᵥ v) = 0 := by
    rw [hd, dotProduct_comm, Matrix.dotProduct_mulVec, ← Matrix.mulVec_transpose, h0,
      zero_dotProduct]
  have h2 : v ⬝ᵥ (W *ᵥ d) = 0 := by
    rw [Matrix.dotProduct_mulVec, ← Matrix.mulVec_transpose, hsym, dotProduct_comm, h1]
  rw [hy, Matrix.mulVec_add, add_dotProduct, dotProduct_add, dotProduct_add, h1, h2]
  have := hpos d
  linarith

open Matrix in
/-- **C30.** The residuals are predicted minus observed and orthogonal in the weight to every column
of the design matrix, and for a symmetric positive semidefinite weight no other parameters have
a smaller weighted sum of squared residuals. -/
theorem C30_least_squares (solve : Solver K) (hs : IsSolver solve) {m n : Nat}
    (A : Matrix (Fin m) (Fin n) K) (l : Fin m → K) (sigma : Option (Matrix (Fin m) (Fin m) K))
    (x : Fin n → K) (ls v : Fin m → K) (hret : leastSquares solve A l sigma = .ok (x, ls, v)) :
    ls = A *ᵥ x ∧ v = ls - l ∧ Aᵀ *ᵥ (sigma.getD 1 *ᵥ v) = 0 ∧
    ((sigma.getD 1)ᵀ = sigma.getD 1 → (∀ u, 0 ≤ u ⬝ᵥ (sigma.getD 1 *ᵥ u)) →
      ∀ y, cost (sigma.getD 1) A l x ≤ cost (sigma.getD 1) A l y) := by
  unfold leastSquares at hret
  simp only [bind, Except.bind, pure, Except.pure] at hret
  split at hret
  · cases hret
  · rename_i x' hx
    cases hret
    have hx := hs _ _ _ _ hx
    have := lsq_core A l _ x hx
    exact ⟨rfl, rfl, this.1, this.2⟩

open Matrix in
/-- **C30** without weights: the default weight needs no assumption. -/
theorem C30_least_squares_unweighted (solve : Solver K) (hs : IsSolver solve) {m n : Nat}
    (A : Matrix (Fin m) (Fin n) K) (l : Fin m → K)
    (x : Fin n → K) (ls v : Fin m → K)
    (hret : leastSquares solve A l none = .ok (x, ls, v) ∨
      sparseLeastSquares solve A l = .ok (x, ls, v)) (y : Fin n → K) :
    ls = A *ᵥ x ∧ v = ls - l ∧ Aᵀ *ᵥ v = 0 ∧
      ∑ i, v i * v i ≤ ∑ i, (A *ᵥ y - l) i * (A *ᵥ y - l) i := by
  have key : ∀ x : Fin n → K, (Aᵀ * (1 : Matrix (Fin m) (Fin m) K) * A) *ᵥ x = (Aᵀ * (1 : Matrix (Fin m) (Fin m) K)) *ᵥ l → Aᵀ *ᵥ (A *ᵥ x - l) = 0 ∧
      ∑ i, (A *ᵥ x - l) i * (A *ᵥ x - l) i ≤ ∑ i, (A *ᵥ y - l) i * (A *ᵥ y - l) i := by
    intro x hx
    obtain ⟨h1, h2⟩ := lsq_core A l 1 x hx
    rw [Matrix.one_mulVec] at h1
    refine ⟨h1, ?_⟩
    have := h2 Matrix.transpose_one (fun u => by
      rw [Matrix.one_mulVec]
      exact Finset.sum_nonneg (fun i _ => mul_self_nonneg _)) y
    unfold cost at this
    rwa [Matrix.one_mulVec, Matrix.one_mulVec] at this
  rcases hret with hret | hret
  · unfold leastSquares at hret
    simp only [bind, Except.bind, pure, Except.pure] at hret
    split at hret
    · cases hret
    · rename_i x' hx
      cases hret
      obtain ⟨h1, h2⟩ := key x (hs _ _ _ _ hx)
      exact ⟨rfl, rfl, h1, h2⟩
  · unfold sparseLeastSquares at hret
    simp only [bind, Except.bind, pure, Except.pure] at hret
    split at hret
    · cases hret
    · rename_i x' hx
      cases hret
      obtain ⟨h1, h2⟩ := key x (by simpa using hs _ _ _ _ hx)
      exact ⟨rfl, rfl, h1, h2⟩

open Matrix in
/-- **C30** for the line fit: for non-negative weights no other line `a x + b` has a smaller weighted
sum of squared distances in `y`. -/
theorem C30_fit_line_2d (solve : Solver K) (hs : IsSolver solve) {m : Nat} (x y : Fin m → K)
    (weights : Option (Fin m → K)) (hw : ∀ w, weights = some w → ∀ i, 0 ≤ w i)
    (par : Fin 2 → K) (ls v : Fin m → K) (hret : fitLine2d solve x y weights = .ok (par, ls, v)) :
    (∀ i, ls i = par 0 * x i + par 1) ∧ v = ls - y ∧
    ∀ a b : K, ∑ i, (weights.getD (fun _ => 1)) i * (v i * v i) ≤
      ∑ i, (weights.getD (fun _ => 1)) i * ((a * x i + b - y i) * (a * x i + b - y i)) := by
  unfold fitLine2d at hret
  have hpos : ∀ i, 0 ≤ (weights.getD (fun _ => 1)) i := by
    intro i
    cases h : weights with
    | none => simp
    | some w => exact hw w h i
  obtain ⟨h1, h2, _, h4⟩ := C30_least_squares solve hs _ _ _ _ _ _ hret
  have hrow : ∀ (p : Fin 2 → K) i, ((Matrix.of fun i j => if j = 0 then x i else 1 :
      Matrix (Fin m) (Fin 2) K) *ᵥ p) i = p 0 * x i + p 1 := by
    intro p i
    simp [Matrix.mulVec, dotProduct, Fin.sum_univ_two, mul_comm]
  refine ⟨fun i => by rw [h1, hrow], h2, ?_⟩
  intro a b
  have hc : ∀ p : Fin 2 → K, cost (Matrix.diagonal (weights.getD (fun _ => 1)))
      (Matrix.of fun i j => if j = 0 then x i else 1 : Matrix (Fin m) (Fin 2) K) y p
      = ∑ i, (weights.getD (fun _ => 1)) i * ((p 0 * x i + p 1 - y i) * (p 0 * x i + p 1 - y i)) := by
    intro p
    unfold cost
    simp only [dotProduct, Matrix.mulVec_diagonal, Pi.sub_apply]
    apply Finset.sum_congr rfl
    intro i _
    rw [show (Matrix.of fun i j => if j = 0 then x i else 1 : Matrix (Fin m) (Fin 2) K) *ᵥ p = fun i => p 0 * x i + p 1 from funext (hrow p)]
    ring
  simp only [Option.getD_some] at h4
  have h5 := h4 (Matrix.diagonal_transpose _) (by
    intro u
    simp only [dotProduct, Matrix.mulVec_diagonal]
    apply Finset.sum_nonneg
    intro i _
    have := mul_nonneg (hpos i) (mul_self_nonneg (u i))
    linear_combination this) ![a, b]
  rw [hc, hc] at h5
  simp only [Matrix.cons_val_zero, Matrix.cons_val_one] at h5
  have hv : ∀ i, v i = par 0 * x i + par 1 - y i := by
    intro i; rw [h2, Pi.sub_apply, h1, hrow]
  simpa [hv] using h5

/-! ### C31 -/

/-- **C31.** For a unit direction the projection of `p` is on the line, no point of the line is closer
to `p`, only the projection itself is as close, and points of the line are projected to themselves. -/
theorem C31_projection_is_nearest (l : Line3D K) (hu : l.direction.normSq = 1) (p : V3 K) :
    (∃ s : K, l.evaluateAt p = l.mean + s • l.direction) ∧
    (∀ s : K, (p - l.evaluateAt p).normSq ≤ (p - (l.mean + s • l.direction)).normSq) ∧
    (∀ s : K, (p - (l.mean + s • l.direction)).normSq = (p - l.evaluateAt p).normSq →
      l.mean + s • l.direction = l.evaluateAt p) ∧
    (∀ s : K, l.evaluateAt (l.mean + s • l.direction) = l.mean + s • l.direction) ∧
    l.evaluateAt (l.evaluateAt p) = l.evaluateAt p := by
  obtain ⟨⟨mx, my, mz⟩, ⟨dx, dy, dz⟩⟩ := l
  obtain ⟨px, py, pz⟩ := p
  simp only [V3.normSq] at hu
  generalize hτ : (px - mx) * dx + (py - my) * dy + (pz - mz) * dz = τ
  have he : (Line3D.mk ⟨mx, my, mz⟩ ⟨dx, dy, dz⟩ : Line3D K).evaluateAt ⟨px, py, pz⟩ =
      ⟨mx, my, mz⟩ + τ • (⟨dx, dy, dz⟩ : V3 K) := by
    ext <;> simp [Line3D.evaluateAt, hτ]
  have hpyth : ∀ s : K, ((⟨px, py, pz⟩ : V3 K) - (⟨mx, my, mz⟩ + s • (⟨dx, dy, dz⟩ : V3 K))).normSq =
      ((⟨px, py, pz⟩ : V3 K) - (⟨mx, my, mz⟩ + τ • (⟨dx, dy, dz⟩ : V3 K))).normSq
        + (s - τ) * (s - τ) := by
    intro s
    simp only [V3.normSq, V3.sub_x, V3.sub_y, V3.sub_z, V3.add_x, V3.add_y, V3.add_z, V3.smul_x,
      V3.smul_y, V3.smul_z]
    linear_combination (s * s - τ * τ) * hu + 2 * (τ - s) * hτ
  have hself : ∀ s : K, (Line3D.mk ⟨mx, my, mz⟩ ⟨dx, dy, dz⟩ : Line3D K).evaluateAt
      (⟨mx, my, mz⟩ + s • (⟨dx, dy, dz⟩ : V3 K)) = ⟨mx, my, mz⟩ + s • (⟨dx, dy, dz⟩ : V3 K) := by
    intro s
    ext
    · simp only [Line3D.evaluateAt, V3.add_x, V3.add_y, V3.add_z, V3.smul_x, V3.smul_y, V3.smul_z]
      linear_combination s * dx * hu
    · simp only [Line3D.evaluateAt, V3.add_x, V3.add_y, V3.add_z, V3.smul_x, V3.smul_y, V3.smul_z]
      linear_combination s * dy * hu
    · simp only [Line3D.evaluateAt, V3.add_x, V3.add_y, V3.add_z, V3.smul_x, V3.smul_y, V3.smul_z]
      linear_combination s * dz * hu
  refine ⟨⟨τ, he⟩, ?_, ?_, hself, ?_⟩
  · intro s
    simp only [he, hpyth s]
    exact le_add_of_nonneg_right (mul_self_nonneg _)
  · intro s hs
    simp only [he] at hs ⊢
    rw [hpyth s] at hs
    have h0 : (s - τ) * (s - τ) = 0 := by linear_combination hs
    rw [sub_eq_zero.1 (mul_self_eq_zero.1 h0)]
  · rw [he, hself]

/-! ### C99 -/

/-- What is assumed of the last eigenvector of the covariance matrix: it is a unit vector and no unit
vector has a larger variance of the points along it. -/
def IsPrincipal (points : List (V3 K)) (d : V3 K) : Prop :=
  d.normSq = 1 ∧ ∀ u : V3 K, u.normSq = 1 →
    (points.map (fun p => (p - meanPoint points).dot u * (p - meanPoint points).dot u)).sum ≤
    (points.map (fun p => (p - meanPoint points).dot d * (p - meanPoint points).dot d)).sum

/-- squared distance of `p` from the point of the line closest to it -/
def lineDistSq (l : Line3D K) (p : V3 K) : K := (p - l.evaluateAt p).normSq

theorem lineDistSq_eq (l : Line3D K) (hu : l.direction.normSq = 1) (p : V3 K) :
    lineDistSq l p = (p - l.mean).normSq - (p - l.mean).dot l.direction * (p - l.mean).dot l.direction := by
  obtain ⟨⟨mx, my, mz⟩, ⟨dx, dy, dz⟩⟩ := l
  obtain ⟨px, py, pz⟩ := p
  simp only [V3.normSq] at hu
  simp only [lineDistSq, Line3D.evaluateAt, V3.normSq, V3.dot, V3.sub_x, V3.sub_y, V3.sub_z,
    V3.smul_x, V3.smul_y, V3.smul_z]
  linear_combination ((px - mx) * dx + (py - my) * dy + (pz - mz) * dz) ^ 2 * hu

theorem sum_map_add' {α : Type} (l : List α) (f g : α → K) :
    (l.map (fun x => f x + g x)).sum = (l.map f).sum + (l.map g).sum := by
  induction l with
  | nil => simp
  | cons a l ih => simp only [List.map_cons, List.sum_cons, ih]; ring

theorem sum_map_mul' {α : Type} (l : List α) (c : K) (f : α → K) :
    (l.map (fun x => c * f x)).sum = c * (l.map f).sum := by
  induction l with
  | nil => simp
  | cons a l ih => simp only [List.map_cons, List.sum_cons, ih]; ring

theorem V3.sum_dot (l : List (V3 K)) (w : V3 K) : (l.map (fun p => p.dot w)).sum = l.sum.dot w := by
  induction l with
  | nil => simp [V3.dot]
  | cons a l ih =>
    rw [List.map_cons, List.sum_cons, ih, List.sum_cons]
    simp only [V3.dot, V3.add_x, V3.add_y, V3.add_z]
    ring

/-- the deviations from the mean cancel -/
theorem sum_dev_dot (points : List (V3 K)) (hne : points ≠ []) (w : V3 K) :
    (points.map (fun p => (p - meanPoint points).dot w)).sum = 0 := by
  have h1 : (fun p : V3 K => (p - meanPoint points).dot w) =
      fun p => p.dot w + (-((meanPoint points).dot w)) := by
    funext p
    simp only [V3.dot, V3.sub_x, V3.sub_y, V3.sub_z]
    ring
  have hn : (points.length : K) ≠ 0 := by
    rw [Nat.cast_ne_zero]
    exact fun h => hne (List.length_eq_zero_iff.1 h)
  rw [h1, sum_map_add', V3.sum_dot, List.map_const', List.sum_replicate, nsmul_eq_mul]
  have : (meanPoint points).dot w = (points.length : K)⁻¹ * points.sum.dot w := by
    simp only [meanPoint, V3.dot, V3.smul_x, V3.smul_y, V3.smul_z]
    ring
  rw [this]
  field_simp
  ring

/-- **C99.** The line through the points has the least sum of squared distances of all lines. -/
theorem C99_line_is_best_fit (direction : List (V3 K) → V3 K) (points : List (V3 K))
    (hne : points ≠ []) (hd : IsPrincipal points (direction points))
    (other : Line3D K) (hu : other.direction.normSq = 1) :
    (points.map (lineDistSq (Line3D.fromPoints direction points))).sum ≤
      (points.map (lineDistSq other)).sum := by
  obtain ⟨h1, h2⟩ := hd
  have h3 := h2 _ hu
  set m := meanPoint points with hm
  set d := direction points with hdd
  set v := other.direction with hv
  set a := other.mean with ha
  have e1 : lineDistSq (Line3D.fromPoints direction points) = fun p => (p - m).normSq +
      (-1) * ((p - m).dot d * (p - m).dot d) := by
    funext p
    rw [lineDistSq_eq _ (by exact h1)]
    simp only [Line3D.fromPoints, ← hm, ← hdd]
    ring
  set c := m - a with hc
  have e2 : lineDistSq other = fun p => ((p - m).normSq + (-1) * ((p - m).dot v * (p - m).dot v)) +
      ((c.normSq - c.dot v * c.dot v) + (p - m).dot ((2 : K) • c - (2 * c.dot v) • v)) := by
    funext p
    rw [lineDistSq_eq _ hu, ← hv, ← ha, hc]
    simp only [V3.normSq, V3.dot, V3.sub_x, V3.sub_y, V3.sub_z, V3.smul_x, V3.smul_y, V3.smul_z]
    ring
  have hcs : 0 ≤ c.normSq - c.dot v * c.dot v := by
    have : c.normSq - c.dot v * c.dot v = (c - (c.dot v) • v).normSq := by
      have hu' := hu
      simp only [V3.normSq] at hu'
      simp only [V3.normSq, V3.dot, V3.sub_x, V3.sub_y, V3.sub_z, V3.smul_x, V3.smul_y, V3.smul_z]
      linear_combination (-(c.x * v.x + c.y * v.y + c.z * v.z) ^ 2) * hu'
    rw [this]
    unfold V3.normSq
    nlinarith [mul_self_nonneg (c - (c.dot v) • v).x, mul_self_nonneg (c - (c.dot v) • v).y,
      mul_self_nonneg (c - (c.dot v) • v).z]
  rw [e1, e2]
  simp only [sum_map_add', sum_map_mul', List.map_const', List.sum_replicate, nsmul_eq_mul]
  rw [sum_dev_dot points hne]
  have := mul_nonneg (Nat.cast_nonneg (α := K) points.length) hcs
  linarith

example : IsPrincipal [(⟨0, 0, 0⟩ : V3 ℚ), ⟨2, 1, 0⟩, ⟨4, 0, 0⟩] ⟨1, 0, 0⟩ := by
  refine ⟨by decide +kernel, ?_⟩
  intro u hu
  simp only [V3.normSq] at hu
  simp [meanPoint, V3.dot]
  nlinarith [mul_self_nonneg u.x, mul_self_nonneg u.y, mul_self_nonneg u.z]

/-! ### C32 -/

theorem sum_map_range {M : Type} [AddCommMonoid M] (f : Nat → M) (m : Nat) :
    ((List.range m).map f).sum = ∑ j ∈ Finset.range m, f j := by
  induction m with
  | zero => simp
  | succ m ih => rw [List.range_succ, List.map_append, List.sum_append, ih, Finset.sum_range_succ]; simp

theorem convEntry_mean (data : List K) (F k : Nat) :
    convEntry data (List.replicate F (1 / (F : K))) k =
      (∑ j ∈ (Finset.range data.length).filter (fun j => j ≤ k ∧ k < j + F), data.getD j 0) / F := by
  unfold convEntry
  rw [sum_map_range, Finset.sum_filter, Finset.sum_div]
  have h1 : ∑ j ∈ Finset.range (k + 1), data.getD j 0 * (List.replicate F (1 / (F : K))).getD (k - j) 0 =
      ∑ j ∈ Finset.range (k + 1 + data.length),
        (if j ≤ k ∧ k < j + F then data.getD j 0 else 0) / (F : K) := by
    rw [Finset.sum_range_add _ (k + 1) data.length, Finset.sum_eq_zero (s := Finset.range data.length), add_zero]
    · apply Finset.sum_congr rfl
      intro j hj
      have hj := Finset.mem_range.1 hj
      simp only [List.getD_eq_getElem?_getD, List.getElem?_replicate]
      by_cases h : k - j < F
      · rw [if_pos h, if_pos (by omega)]
        simp [div_eq_mul_inv]
      · rw [if_neg h, if_neg (by omega)]
        simp
    · intro j _
      rw [if_neg (by omega)]
      simp
  have h2 : ∑ j ∈ Finset.range data.length,
        (if j ≤ k ∧ k < j + F then data.getD j 0 else 0) / (F : K) =
      ∑ j ∈ Finset.range (data.length + (k + 1)),
        (if j ≤ k ∧ k < j + F then data.getD j 0 else 0) / (F : K) := by
    rw [Finset.sum_range_add _ data.length (k + 1), Finset.sum_eq_zero (s := Finset.range (k + 1)), add_zero]
    intro j _
    simp [List.getD_eq_getElem?_getD]
  rw [h1, h2, Nat.add_comm]

theorem mem_firstIndices {α : Type} [DecidableEq α] {rows : List α} {i : Nat} :
    i ∈ firstIndices rows ↔ i < rows.length ∧ ∀ j < i, rows[j]? ≠ rows[i]? := by
  unfold firstIndices
  simp only [List.mem_filter, List.mem_range, decide_eq_true_eq, List.mem_map, not_exists, not_and]
  refine and_congr_right (fun hi => ?_)
  constructor
  · intro h j hj he
    have hj' : j < rows.length := by omega
    apply h rows[j]
    · rw [List.mem_iff_getElem]
      exact ⟨j, by simp; omega, by simp⟩
    · rw [← he, List.getElem?_eq_getElem hj']
  · intro h a ha he
    obtain ⟨j, hj, rfl⟩ := List.mem_iff_getElem.1 ha
    simp only [List.length_take] at hj
    rw [List.getElem_take] at he
    exact h j (by omega) (by rw [← he, List.getElem?_eq_getElem (by omega)])

theorem firstIndices_sorted {α : Type} [DecidableEq α] (rows : List α) :
    (firstIndices rows).Pairwise (· < ·) :=
  List.Pairwise.filter _ List.pairwise_lt_range

theorem firstIndices_covers {α : Type} [DecidableEq α] (rows : List α) (i : Nat)
    (hi : i < rows.length) : ∃ k ∈ firstIndices rows, k ≤ i ∧ rows[k]? = rows[i]? := by
  induction i using Nat.strong_induction_on with
  | _ i ih =>
    by_cases h : i ∈ firstIndices rows
    · exact ⟨i, h, le_refl _, rfl⟩
    · rw [mem_firstIndices] at h
      push Not at h
      obtain ⟨j, hj, he⟩ := h hi
      obtain ⟨k, h1, h2, h3⟩ := ih j hj (by omega)
      exact ⟨k, h1, by omega, by rw [h3, he]⟩

/-- **C32**, positive part: for at least as many values as the filter is long, the result consists,
in the original order, of input locations together with the mean of the values in the filter window
around them; no combination of location and rounded value occurs twice, and each occurs.
Missing for the full property: fewer values than the filter is long, for which it is false. -/
theorem C32_round_to_precision_partial {L : Type} [DecidableEq L] (rnd : K → K) (functionOf : List L)
    (data : List K) (resolution : K) (F : Nat) (hF : 0 < F) (hl : functionOf.length = data.length)
    (hlen : F ≤ data.length) :
    ∃ (smoothed : List K) (idx : List Nat),
      smoothed.length = data.length ∧
      (∀ i : Nat, i < data.length → smoothed[i]? = some
        ((∑ j ∈ (Finset.range data.length).filter
          (fun j => j ≤ i + (F - 1) / 2 ∧ i + (F - 1) / 2 < j + F), data.getD j 0) / F)) ∧
      roundToPrecision rnd functionOf data resolution F =
        .ok (idx.filterMap (fun i => functionOf[i]?), idx.filterMap (fun i => smoothed[i]?)) ∧
      idx.Pairwise (· < ·) ∧ (∀ i ∈ idx, i < data.length) ∧
      (∀ i ∈ idx, ∀ j ∈ idx, functionOf[i]? = functionOf[j]? →
        smoothed[i]?.map (fun s => rnd (s / resolution) * resolution) =
          smoothed[j]?.map (fun s => rnd (s / resolution) * resolution) → i = j) ∧
      (∀ i : Nat, i < data.length → ∃ k ∈ idx, functionOf[k]? = functionOf[i]? ∧
        smoothed[k]?.map (fun s => rnd (s / resolution) * resolution) =
          smoothed[i]?.map (fun s => rnd (s / resolution) * resolution)) := by
  obtain ⟨smoothed, hs⟩ : ∃ sm, convolveSame data (List.replicate F (1 / (F : K))) = .ok sm ∧
      sm.length = data.length ∧ (∀ i : Nat, i < data.length → sm[i]? = some
        ((∑ j ∈ (Finset.range data.length).filter
          (fun j => j ≤ i + (F - 1) / 2 ∧ i + (F - 1) / 2 < j + F), data.getD j 0) / F)) := by
    refine ⟨(List.range data.length).map (fun i =>
        convEntry data (List.replicate F (1 / (F : K))) (i + (F - 1) / 2)), ?_, ?_, ?_⟩
    · unfold convolveSame
      rw [if_neg (by simp; constructor <;> [(intro h; simp [h] at hlen; omega); omega])]
      simp [Nat.max_eq_left hlen, Nat.min_eq_right hlen]
    · simp
    · intro i hi
      rw [List.getElem?_map, List.getElem?_range hi, Option.map_some, convEntry_mean]
  obtain ⟨hs1, hs2, hs3⟩ := hs
  set rounded := smoothed.map (fun s => rnd (s / resolution) * resolution) with hr
  have hrl : functionOf.length = rounded.length := by rw [hr, List.length_map, hs2, hl]
  have hzl : (functionOf.zip rounded).length = data.length := by simp [← hrl, hl]
  have hrows : ∀ i j : Nat, i < data.length → j < data.length →
      ((functionOf.zip rounded)[i]? = (functionOf.zip rounded)[j]? ↔
        functionOf[i]? = functionOf[j]? ∧ rounded[i]? = rounded[j]?) := by
    intro i j hi hj
    rw [List.getElem?_eq_getElem (l := functionOf.zip rounded) (by omega),
      List.getElem?_eq_getElem (l := functionOf.zip rounded) (by omega),
      List.getElem?_eq_getElem (l := functionOf) (by omega),
      List.getElem?_eq_getElem (l := functionOf) (by omega),
      List.getElem?_eq_getElem (l := rounded) (by omega),
      List.getElem?_eq_getElem (l := rounded) (by omega)]
    simp [List.getElem_zip]
  have hround : ∀ i : Nat, rounded[i]? = smoothed[i]?.map (fun s => rnd (s / resolution) * resolution) := by
    intro i; rw [hr, List.getElem?_map]
  have hin : InRange data.length (firstIndices (functionOf.zip rounded)) := by
    intro i hi
    have := (mem_firstIndices.1 hi).1
    omega
  refine ⟨smoothed, firstIndices (functionOf.zip rounded), hs2, hs3, ?_, firstIndices_sorted _, hin,
    ?_, ?_⟩
  · have t1 := take_eq (l := functionOf) (by rw [hl]; exact hin)
    have t2 := take_eq (l := smoothed) (by rw [hs2]; exact hin)
    unfold Traj.take at t1 t2
    unfold roundToPrecision
    simp only [hs1, bind, Except.bind, pure, Except.pure, ← hr, hrl, ne_eq, not_true_eq_false,
      if_false, Nat.pos_iff_ne_zero.1 hF]
    rw [t1]
    simp only [t2]
    rfl
  · intro i hi j hj h1 h2
    rw [← hround, ← hround] at h2
    have he := (hrows i j (hin i hi) (hin j hj)).2 ⟨h1, h2⟩
    rcases Nat.lt_trichotomy i j with h | h | h
    · exact absurd he ((mem_firstIndices.1 hj).2 i h)
    · exact h
    · exact absurd he.symm ((mem_firstIndices.1 hi).2 j h)
  · intro i hi
    obtain ⟨k, h1, _, h3⟩ := firstIndices_covers (functionOf.zip rounded) i (by omega)
    have := (hrows k i (hin k h1) hi).1 h3
    exact ⟨k, h1, this.1, by rw [← hround, ← hround]; exact this.2⟩

/-- **C32 is false of the code**: with fewer values than the filter is long (the default length is
100) the call raises `ValueError`. -/
theorem C32_short_data_raises {L : Type} [DecidableEq L] (rnd : K → K) (functionOf : List L)
    (data : List K) (resolution : K) (F : Nat) (hl : functionOf.length = data.length)
    (hlen : data.length < F) :
    roundToPrecision rnd functionOf data resolution F = .error .valueError := by
  unfold roundToPrecision
  rw [if_neg (by omega)]
  unfold convolveSame
  by_cases h0 : data.length = 0
  · simp [h0, bind, Except.bind]
  · rw [if_neg (by simp; constructor <;> [(intro h; simp [h] at h0); omega])]
    simp only [bind, Except.bind]
    rw [if_pos]
    · rfl
    · simp only [List.length_map, List.length_range, List.length_replicate]
      omega

/-! ### The hypotheses are met -/

example : (rndodd (5/2 : ℚ), rndodd (7/2 : ℚ), rndodd (-1/2 : ℚ), rndodd (4 : ℚ)) = (3, 3, -1, 5) := by
  decide +kernel
example : gradient3d [(0 : V3 ℚ), ⟨2, 4, 0⟩, ⟨5, 4, 0⟩] [0, 2, 5] = .ok [⟨1, 2, 0⟩, ⟨1, 0, 0⟩, 0] := by
  decide +kernel
example : (Line3D.mk (⟨1, 0, 0⟩ : V3 ℚ) ⟨3/5, 4/5, 0⟩).direction.normSq = 1 := by decide +kernel
example : (Line3D.mk (⟨1, 0, 0⟩ : V3 ℚ) ⟨3/5, 4/5, 0⟩).evaluateAt ⟨1, 5, 7⟩ = ⟨17/5, 16/5, 0⟩ := by
  decide +kernel
example : roundToPrecision (fun x : ℚ => (⌊x + 1/2⌋ : ℚ)) ["a", "a", "b", "b"] [1, 3, 2, 4] 1 2 =
    .ok (["a", "a", "b"], [1/2, 2, 5/2]) := by decide +kernel

open Matrix Classical in
/-- a solver: any solution, if there is one -/
noncomputable def anySolver : Solver ℚ := fun _ N b =>
  if h : ∃ x, N *ᵥ x = b then .ok h.choose else .error .valueError

theorem anySolver_isSolver : IsSolver anySolver := by
  intro n N b x h
  unfold anySolver at h
  split_ifs at h with hc
  rw [← Except.ok.inj h]
  exact hc.choose_spec

open Matrix in
/-- a line through three points that are not on a line -/
example : ∃ r, fitLine2d anySolver ![0, 1, 2] ![0, 1, 3] none = .ok r := by
  unfold fitLine2d leastSquares
  have : ∃ x : Fin 2 → ℚ, ((Matrix.of fun (i : Fin 3) (j : Fin 2) => if j = 0 then (![0, 1, 2] : Fin 3 → ℚ) i else 1)ᵀ *
      diagonal (fun _ : Fin 3 => (1 : ℚ)) * (Matrix.of fun i j => if j = 0 then (![0, 1, 2] : Fin 3 → ℚ) i else 1)) *ᵥ x =
      ((Matrix.of fun (i : Fin 3) (j : Fin 2) => if j = 0 then (![0, 1, 2] : Fin 3 → ℚ) i else 1)ᵀ *
      diagonal (fun _ : Fin 3 => (1 : ℚ))) *ᵥ ![0, 1, 3] := by
    refine ⟨![3/2, -1/6], ?_⟩
    ext i
    fin_cases i <;> simp [Matrix.mulVec, dotProduct, Fin.sum_univ_succ, Matrix.mul_apply] <;> norm_num
  simp only [Option.getD_some, Option.getD_none]
  unfold anySolver
  rw [dif_pos this]
  exact ⟨_, rfl⟩

end TC
