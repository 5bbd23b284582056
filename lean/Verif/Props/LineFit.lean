import Mathlib.Analysis.Matrix.Spectrum
import Mathlib.Data.Fin.Tuple.Sort
import Verif.Model.LineFit
import Verif.Props.MlsLines
/-!
# C99: the fitted line, from the covariance matrix on
-/
namespace TC
set_option linter.unusedSectionVars false
variable {K : Type} [Field K] [LinearOrder K] [IsStrictOrderedRing K]

/-- the law of `np.linalg.eigh`: the eigenvectors of a symmetric matrix are the columns of an orthogonal matrix, and
the eigenvalues are given in ascending order -/
def IsEigh (eigh : M3 K → (Fin 3 → K) × M3 K) : Prop :=
  ∀ A : M3 K, A.transpose = A → (eigh A).2.transpose * (eigh A).2 = 1 ∧
    A * (eigh A).2 = (eigh A).2 * Matrix.diagonal (eigh A).1 ∧ (eigh A).1 0 ≤ (eigh A).1 1 ∧ (eigh A).1 1 ≤ (eigh A).1 2

theorem outerV_quad (a u : V3 K) : u.dot (mulV (outerV a a) u) = a.dot u * a.dot u := by
  simp [outerV, mulV, V3.dot]
  ring

theorem mulV_add_left (A B : M3 K) (v : V3 K) : mulV (A + B) v = mulV A v + mulV B v := by
  ext <;> simp [mulV] <;> ring

theorem mulV_smul_left (c : K) (A : M3 K) (v : V3 K) : mulV (c • A) v = c • mulV A v := by
  ext <;> simp [mulV] <;> ring

theorem scatter_quad (u : V3 K) : ∀ l : List (V3 K),
    u.dot (mulV ((l.map (fun a => outerV a a)).sum) u) = (l.map (fun a => a.dot u * a.dot u)).sum
  | [] => by simp [mulV, V3.dot]
  | a :: l => by
    rw [List.map_cons, List.sum_cons, List.map_cons, List.sum_cons, mulV_add_left, ← scatter_quad u l, ← outerV_quad]
    simp [V3.dot]
    ring

theorem covariance_symm (points : List (V3 K)) : (covariance points).transpose = covariance points := by
  unfold covariance
  rw [Matrix.transpose_smul]
  congr 1
  generalize meanPoint points = m
  induction points with
  | nil => simp
  | cons p l ih =>
    rw [List.map_cons, List.sum_cons, Matrix.transpose_add, ih]
    congr 1
    ext i j
    fin_cases i <;> fin_cases j <;> simp [outerV, mul_comm]

theorem dot_mulV (A : M3 K) (v w : V3 K) : (mulV A v).dot w = v.dot (mulV A.transpose w) := by
  simp [mulV, V3.dot]
  ring

theorem diag_quad (d : Fin 3 → K) (c : V3 K) : c.dot (mulV (Matrix.diagonal d) c) = d 0 * (c.x * c.x) + d 1 * (c.y * c.y) + d 2 * (c.z * c.z) := by
  simp [mulV, V3.dot]
  ring

/-- a last eigenvector has the largest value of the quadratic form -/
theorem eigh_max {eigh : M3 K → (Fin 3 → K) × M3 K} (he : IsEigh eigh) {A : M3 K} (hA : A.transpose = A) :
    let d : V3 K := ⟨(eigh A).2 0 2, (eigh A).2 1 2, (eigh A).2 2 2⟩
    d.normSq = 1 ∧ ∀ u : V3 K, u.normSq = 1 → u.dot (mulV A u) ≤ d.dot (mulV A d) := by
  obtain ⟨h1, h2, h3, h4⟩ := he A hA
  have h5 : (eigh A).2 * (eigh A).2.transpose = 1 := mul_eq_one_comm.1 h1
  intro d
  have hform : ∀ c : V3 K, (mulV (eigh A).2 c).dot (mulV A (mulV (eigh A).2 c)) =
      (eigh A).1 0 * (c.x * c.x) + (eigh A).1 1 * (c.y * c.y) + (eigh A).1 2 * (c.z * c.z) := by
    intro c
    rw [← mulV_mulV, h2, dot_mulV, ← mulV_mulV, ← mul_assoc, h1, one_mul, diag_quad]
  have hnorm : ∀ c : V3 K, (mulV (eigh A).2 c).normSq = c.normSq := by
    intro c
    have : (mulV (eigh A).2 c).dot (mulV (eigh A).2 c) = c.dot c := by
      rw [dot_mulV, ← mulV_mulV, h1, mulV_one]
    exact this
  have hd : d = mulV (eigh A).2 ⟨0, 0, 1⟩ := by
    ext <;> simp [mulV, d]
  refine ⟨by rw [hd, hnorm]; simp [V3.normSq], fun u hu => ?_⟩
  have hu' : u = mulV (eigh A).2 (mulV (eigh A).2.transpose u) := by
    rw [← mulV_mulV, h5, mulV_one]
  rw [hu', hnorm] at hu
  rw [hu', hform, hd, hform]
  generalize mulV (eigh A).2.transpose u = c at hu
  unfold V3.normSq at hu
  have hz : c.z * c.z = 1 - c.x * c.x - c.y * c.y := by linarith
  rw [hz]
  nlinarith [mul_nonneg (sub_nonneg.2 (h3.trans h4)) (mul_self_nonneg c.x), mul_nonneg (sub_nonneg.2 h4) (mul_self_nonneg c.y)]

/-- **C99**, the direction: for two or more points the last eigenvector of their covariance matrix is a unit vector along which
the points vary most. -/
theorem C99_direction {eigh : M3 K → (Fin 3 → K) × M3 K} (he : IsEigh eigh) (points : List (V3 K)) (hn : 2 ≤ points.length) :
    IsPrincipal points (fitLine3d eigh points) := by
  obtain ⟨h1, h2⟩ := eigh_max he (covariance_symm points)
  refine ⟨h1, fun u hu => ?_⟩
  have h3 := h2 u hu
  have hpos : (0 : K) < (points.length : K) - 1 := by
    have : (2 : K) ≤ (points.length : K) := by exact_mod_cast hn
    linarith
  have key : ∀ v : V3 K, v.dot (mulV (covariance points) v) = ((points.length : K) - 1)⁻¹ *
      (points.map (fun p => (p - meanPoint points).dot v * (p - meanPoint points).dot v)).sum := by
    intro v
    have := scatter_quad v (points.map (fun p => p - meanPoint points))
    rw [List.map_map, List.map_map] at this
    unfold covariance
    rw [mulV_smul_left]
    show v.dot (_ • _) = _ * (points.map ((fun a => a.dot v * a.dot v) ∘ fun p => p - meanPoint points)).sum
    rw [← this]
    simp [V3.dot, Function.comp_def]
    ring
  have h4 : fitLine3d eigh points =
    ⟨(eigh (covariance points)).2 0 2, (eigh (covariance points)).2 1 2, (eigh (covariance points)).2 2 2⟩ := rfl
  rw [key, ← h4, key] at h3
  exact le_of_mul_le_mul_left h3 (inv_pos.2 hpos)

/-- **C99**, from the code: a line fitted to two or more points has the least sum of squared distances from the points among all
lines. -/
theorem C99_least_squares {eigh : M3 K → (Fin 3 → K) × M3 K} (he : IsEigh eigh) (points : List (V3 K)) (hn : 2 ≤ points.length)
    (other : Line3D K) (ho : other.direction.normSq = 1) :
    (points.map (lineDistSq (Line3D.fromPoints (fitLine3d eigh) points))).sum ≤ (points.map (lineDistSq other)).sum :=
  C99_line_is_best_fit (fitLine3d eigh) points (by rintro rfl; simp at hn) (C99_direction he points hn) other ho

/-- the order of the points does not matter -/
theorem C99_order (eigh : M3 K → (Fin 3 → K) × M3 K) {l l' : List (V3 K)} (h : l.Perm l') : fitLine3d eigh l = fitLine3d eigh l' := by
  have : covariance l = covariance l' := by
    unfold covariance
    have hm : meanPoint l = meanPoint l' := by
      unfold meanPoint
      rw [h.length_eq, h.sum_eq]
    rw [h.length_eq, hm, (h.map _).sum_eq]
  unfold fitLine3d
  rw [this]

/-- what C54, C55 and C129 assume of the direction of a fitted line holds for the code -/
theorem C99_smoothing {eigh : M3 K → (Fin 3 → K) × M3 K} (he : IsEigh eigh) (lib : MlsLib K) (hl : lib.lineDir = fitLine3d eigh) :
    (∀ l l' : List (V3 K), l.Perm l' → lib.lineDir l = lib.lineDir l') ∧
    ∀ points, 1 < points.length → IsPrincipal points (lib.lineDir points) := by
  rw [hl]
  exact ⟨fun l l' h => C99_order eigh h, fun points h => C99_direction he points h⟩

/-! ### such routines exist -/

theorem exists_eigh : ∃ eigh : M3 ℝ → (Fin 3 → ℝ) × M3 ℝ, IsEigh eigh := by
  have h : ∀ A : M3 ℝ, ∃ r : (Fin 3 → ℝ) × M3 ℝ, A.transpose = A → r.2.transpose * r.2 = 1 ∧
      A * r.2 = r.2 * Matrix.diagonal r.1 ∧ r.1 0 ≤ r.1 1 ∧ r.1 1 ≤ r.1 2 := by
    intro A
    by_cases hA : A.transpose = A
    · have hH : A.IsHermitian := by
        rw [Matrix.IsHermitian, Matrix.conjTranspose_eq_transpose_of_trivial]
        exact hA
      let σ := Tuple.sort hH.eigenvalues
      have hm := Tuple.monotone_sort hH.eigenvalues
      let V : M3 ℝ := (hH.eigenvectorUnitary : Matrix (Fin 3) (Fin 3) ℝ)
      have hV : V.transpose * V = 1 := by
        have := Unitary.star_mul_self_of_mem hH.eigenvectorUnitary.2
        rwa [Matrix.star_eq_conjTranspose, Matrix.conjTranspose_eq_transpose_of_trivial] at this
      have hAV : ∀ i j, (A * V) i j = V i j * hH.eigenvalues j := by
        intro i j
        have := congrFun (hH.mulVec_eigenvectorBasis j) i
        simp only [Pi.smul_apply, smul_eq_mul] at this
        rw [mul_comm]
        rw [show V i j = (hH.eigenvectorBasis j) i from hH.eigenvectorUnitary_apply i j, ← this]
        rfl
      refine ⟨(hH.eigenvalues ∘ σ, V.submatrix id σ), fun _ => ⟨?_, ?_, hm (by decide), hm (by decide)⟩⟩
      · ext i j
        have := congrFun (congrFun hV (σ i)) (σ j)
        simp only [Matrix.mul_apply, Matrix.transpose_apply, Matrix.submatrix_apply, id_eq] at this ⊢
        rw [this, Matrix.one_apply, Matrix.one_apply]
        simp
      · ext i j
        rw [Matrix.mul_diagonal]
        simp only [Matrix.submatrix_apply, id_eq, Function.comp_apply]
        rw [← hAV]
        rfl
    · exact ⟨(0, 1), fun h => absurd h hA⟩
  choose f hf using h
  exact ⟨f, hf⟩

/-- the hypotheses of the theorems are met by every correct routine and, for instance, three points not on a line -/
example : ∃ eigh : M3 ℝ → (Fin 3 → ℝ) × M3 ℝ, IsEigh eigh ∧
    2 ≤ ([⟨0, 0, 0⟩, ⟨2, 1, 0⟩, ⟨4, 0, 0⟩] : List (V3 ℝ)).length := by
  obtain ⟨e, he⟩ := exists_eigh
  exact ⟨e, he, by simp⟩

/-- three points of the plane: the covariances -/
example : covariance ([⟨0, 0, 0⟩, ⟨2, 3, 0⟩, ⟨4, 0, 0⟩] : List (V3 ℚ)) = !![4, 0, 0; 0, 3, 0; 0, 0, 0] := by
  decide +kernel

end TC
