import Verif.Proofs.Direct
import Verif.Proofs.RotMat
import Verif.Proofs.Euler
import Verif.Props.Arc
import Mathlib.Tactic.Positivity
/-!
# C84, C85, C112: the directly estimated similarity
-/
namespace TC
set_option linter.unusedSectionVars false
variable {K : Type} [Field K] [LinearOrder K] [IsStrictOrderedRing K]
open Direct

theorem sourceMean_eq (d : Pts K) : sourceMean d = centroidFrom d := by
  simp only [sourceMean, wMean, centroidFrom, sumWeights, List.map_map]
  rfl

theorem targetMean_eq (d : Pts K) : targetMean d = centroidTo d := by
  simp only [targetMean, wMean, centroidTo, sumWeights, List.map_map]
  rfl

theorem crossCov_eq (d : Pts K) : crossCov d = moment (centered d) := by
  simp only [crossCov, moment, centered, List.map_map, sourceMean_eq, targetMean_eq]
  rfl

/-- the determinant of the estimated rotation part has the sign of the determinant of the moment matrix -/
theorem det_svd {M u v : M3 K} {s : Fin 3 → K} (h : IsSvd M u s v) :
    ((v.transpose * u.transpose).det = 1 ∨ (v.transpose * u.transpose).det = -1) ∧
    ∃ p : K, 0 ≤ p ∧ M.det = (v.transpose * u.transpose).det * p := by
  have hu : u.det * u.det = 1 := by
    have := congrArg Matrix.det h.left
    rwa [Matrix.det_mul, Matrix.det_transpose, Matrix.det_one] at this
  have hv : v.det * v.det = 1 := by
    have := congrArg Matrix.det h.right
    rwa [Matrix.det_mul, Matrix.det_transpose, Matrix.det_one] at this
  rw [Matrix.det_mul, Matrix.det_transpose, Matrix.det_transpose]
  refine ⟨?_, ∏ i, s i, Finset.prod_nonneg fun i _ => h.nonneg i, ?_⟩
  · have : (v.det * u.det - 1) * (v.det * u.det + 1) = 0 := by linear_combination hu * (v.det * v.det) + hv
    rcases mul_eq_zero.1 this with h1 | h1
    · left; linarith
    · right; linarith
  · rw [h.eq, Matrix.det_mul, Matrix.det_mul, Matrix.det_diagonal]
    ring

theorem svd_orth {M u v : M3 K} {s : Fin 3 → K} (h : IsSvd M u s v) :
    (v.transpose * u.transpose) * (v.transpose * u.transpose).transpose = 1 :=
  orth_mul (orth_transpose h.right) (orth_transpose h.left)

theorem scale_eq (d : Pts K) (R : M3 K) :
    ((centered d).map (fun x => V3.dot (rowMul (x.1 • x.2.2) R) x.2.1)).sum = (R * moment (centered d)).trace := by
  rw [trace_moment]
  congr 1
  refine List.map_congr_left fun x _ => ?_
  simp only [rowMul, V3.dot, mulV, Matrix.transpose_apply, V3.smul_x, V3.smul_y, V3.smul_z]
  ring

theorem sum_nonneg_of {α : Type} (f : α → K) (l : List α) (h : ∀ x ∈ l, 0 ≤ f x) : 0 ≤ (l.map f).sum := by
  induction l with
  | nil => simp
  | cons x l ih =>
    rw [List.map_cons, List.sum_cons]
    have := h x (by simp)
    have := ih (fun y hy => h y (by simp [hy]))
    linarith

theorem normSq_nonneg (v : V3 K) : 0 ≤ V3.normSq v := by
  unfold V3.normSq
  nlinarith [mul_self_nonneg v.x, mul_self_nonneg v.y, mul_self_nonneg v.z]

theorem normSq_pos (v : V3 K) (h : v ≠ 0) : 0 < V3.normSq v := by
  rcases lt_or_eq_of_le (normSq_nonneg v) with h1 | h1
  · exact h1
  · refine absurd ?_ h
    unfold V3.normSq at h1
    have hx := mul_self_nonneg v.x
    have hy := mul_self_nonneg v.y
    have hz := mul_self_nonneg v.z
    ext
    · exact mul_self_eq_zero.1 (by linarith)
    · exact mul_self_eq_zero.1 (by linarith)
    · exact mul_self_eq_zero.1 (by linarith)

/-- with two different points the spread is positive -/
theorem spread_pos (d : Pts K) (hw : ∀ x ∈ d, 0 < x.1) (hdiff : ∃ x ∈ d, ∃ y ∈ d, x.2.1 ≠ y.2.1) :
    0 < ((centered d).map (fun x => x.1 * V3.normSq x.2.1)).sum := by
  obtain ⟨x, hx, y, hy, hxy⟩ := hdiff
  have : ∃ z ∈ d, z.2.1 - centroidFrom d ≠ 0 := by
    by_contra hc
    push Not at hc
    exact hxy (by rw [sub_eq_zero.1 (hc x hx), sub_eq_zero.1 (hc y hy)])
  obtain ⟨z, hz, hzne⟩ := this
  obtain ⟨l1, l2, rfl⟩ := List.append_of_mem hz
  set c1 := centroidFrom (l1 ++ z :: l2)
  unfold centered
  rw [List.map_map, List.map_append, List.sum_append, List.map_cons, List.sum_cons]
  have h1 := sum_nonneg_of (((fun x => x.1 * V3.normSq x.2.1) : K × V3 K × V3 K → K) ∘
    fun x => (x.1, x.2.1 - c1, x.2.2 - centroidTo (l1 ++ z :: l2))) l1
    (fun x hx => mul_nonneg (hw x (by simp [hx])).le (normSq_nonneg _))
  have h2 := sum_nonneg_of (((fun x => x.1 * V3.normSq x.2.1) : K × V3 K × V3 K → K) ∘
    fun x => (x.1, x.2.1 - c1, x.2.2 - centroidTo (l1 ++ z :: l2))) l2
    (fun x hx => mul_nonneg (hw x (by simp [hx])).le (normSq_nonneg _))
  have h3 : 0 < z.1 * V3.normSq (z.2.1 - c1) := mul_pos (hw z hz) (normSq_pos _ hzne)
  simp only [Function.comp_def] at h1 h2 ⊢
  exact add_pos_of_nonneg_of_pos h1 (add_pos_of_pos_of_nonneg h3 h2)

theorem sumWeights_pos (d : Pts K) (hw : ∀ x ∈ d, 0 < x.1) (hne : d ≠ []) : 0 < sumWeights d := by
  rcases d with _ | ⟨x, d⟩
  · exact absurd rfl hne
  · unfold sumWeights
    rw [List.map_cons, List.sum_cons]
    have := hw x (by simp)
    have := sum_nonneg_of (fun x : K × V3 K × V3 K => x.1) d (fun y hy => (hw y (by simp [hy])).le)
    linarith

theorem spread_eq {nrm : V3 K → K} (hn : IsNorm nrm) (c : Pts K) :
    spread nrm c = (c.map (fun x => x.1 * V3.normSq x.2.1)).sum := by
  unfold spread
  congr 1
  refine List.map_congr_left fun x _ => ?_
  rw [mul_assoc, hn.sq]

/-- the estimated rotation part, scale and translation have the smallest error among all orthogonal matrices,
scales and translations -/
theorem core_optimal {nrm : V3 K → K} (hn : IsNorm nrm) (svd : M3 K → M3 K × M3 K) (d : Pts K)
    (hw : ∀ x ∈ d, 0 < x.1) (hdiff : ∃ x ∈ d, ∃ y ∈ d, x.2.1 ≠ y.2.1) (s : Fin 3 → K)
    (hsvd : IsSvd (crossCov d) (svd (crossCov d)).1 s (svd (crossCov d)).2)
    (Q : M3 K) (hQ : Q * Q.transpose = 1) (k : K) (b : V3 K) :
    let m := helmertCore nrm svd d
    sqErr d m.1 m.2.1 m.2.2 ≤ sqErr d Q k b := by
  have hne : d ≠ [] := by
    obtain ⟨x, hx, _⟩ := hdiff
    rintro rfl
    cases hx
  have hW := sumWeights_pos d hw hne
  have hS := spread_pos d hw hdiff
  rw [crossCov_eq] at hsvd
  intro m
  have hm1 : m.1 = (svd (moment (centered d))).2.transpose * (svd (moment (centered d))).1.transpose := rfl
  have hR := svd_orth hsvd
  rw [← hm1] at hR
  have htr := trace_svd_best hsvd
  rw [← hm1] at htr
  have hm2 : m.2.1 = (m.1 * moment (centered d)).trace / ((centered d).map (fun x => x.1 * V3.normSq x.2.1)).sum := by
    rw [← scale_eq, ← spread_eq hn]
    rfl
  have hm3 : m.2.2 = centroidTo d - m.2.1 • mulV m.1 (centroidFrom d) := rfl
  obtain ⟨t1, t2⟩ := trace_svd hsvd hQ
  rw [sqErr_split d hW.ne' hR, sqErr_split d hW.ne' hQ]
  have he : centroidTo d - m.2.2 - m.2.1 • mulV m.1 (centroidFrom d) = 0 := by rw [hm3]; abel
  rw [he, htr]
  have h0 : V3.normSq (0 : V3 K) = 0 := by simp [V3.normSq]
  rw [h0, mul_zero]
  have hE := mul_nonneg hW.le (normSq_nonneg (centroidTo d - b - k • mulV Q (centroidFrom d)))
  rw [htr] at hm2
  set S := ((centered d).map (fun x => x.1 * V3.normSq x.2.1)).sum with hSdef
  set G := ((centered d).map (fun x => x.1 * V3.normSq x.2.2)).sum
  set T := ∑ i, s i with hT
  set t := (Q * moment (centered d)).trace
  have hTn : 0 ≤ T := Finset.sum_nonneg fun i _ => hsvd.nonneg i
  have hmS : m.2.1 * S = T := by rw [hm2, div_mul_cancel₀ _ hS.ne']
  have hk : k * t ≤ |k| * T := by
    rcases abs_cases k with ⟨h1, h2⟩ | ⟨h1, h2⟩ <;> rw [h1] <;> nlinarith
  have hsq : |k| * |k| = k * k := abs_mul_abs_self k
  have hpos : 0 ≤ S * ((|k| - m.2.1) * (|k| - m.2.1)) := mul_nonneg hS.le (mul_self_nonneg _)
  have hexp : S * ((|k| - m.2.1) * (|k| - m.2.1)) = |k| * |k| * S - 2 * |k| * (m.2.1 * S) + m.2.1 * (m.2.1 * S) := by
    ring
  have h5 : m.2.1 * m.2.1 * S = m.2.1 * (m.2.1 * S) := by ring
  rw [hexp, hmS] at hpos
  rw [h5, hmS]
  have h6 : k * k * S = |k| * |k| * S := by rw [hsq]
  nlinarith

/-- what the call returns -/
theorem helmert_returns (nrm : V3 K → K) (svd : M3 K → M3 K × M3 K) (euler : M3 K → V3 K) (weights : List K)
    (source target : List (V3 K)) (ps : List (Param K))
    (hret : helmert nrm svd euler weights source target = .ok ps) (τ : Trig K) (p : V3 K) :
    let m := helmertCore nrm svd (weighted weights source target)
    helmertApplyTo τ ps p = m.2.2 + m.2.1 • mulV (eulerMat τ (euler m.1)) p := by
  unfold helmert at hret
  simp only [List.length_eq_zero_iff] at hret
  by_cases hl : (if weights = [] then source.map (fun _ => (1 : K)) else weights).length ≠ source.length ∨
      target.length ≠ source.length
  · rw [if_pos hl] at hret
    cases hret
  · rw [if_neg hl, Except.ok.injEq] at hret
    subst hret
    rfl

/-- **C112**: the directly estimated similarity is the best one.  For positive weights, two different source
points and points that are not mirrored (positive determinant), no rotation or reflection, scale and
translation gives a smaller weighted sum of squared distances between moved source points and target points
than the returned parameters.  `hsvd`: the decomposition used is a singular value decomposition; `heul`: the
Euler angles of a rotation matrix describe it. -/
theorem C112_direct_helmert_optimal {nrm : V3 K → K} (hn : IsNorm nrm) (svd : M3 K → M3 K × M3 K)
    (τ : Trig K) (euler : M3 K → V3 K) (heul : ∀ A, IsRot A → eulerMat τ (euler A) = A)
    (weights : List K) (source target : List (V3 K)) (d : List (K × V3 K × V3 K))
    (hd : d = weighted weights source target) (hw : ∀ x ∈ d, 0 < x.1)
    (hdiff : ∃ x ∈ d, ∃ y ∈ d, x.2.1 ≠ y.2.1) (s : Fin 3 → K)
    (hsvd : IsSvd (crossCov d) (svd (crossCov d)).1 s (svd (crossCov d)).2) (hdet : 0 < (crossCov d).det)
    (ps : List (Param K)) (hret : helmert nrm svd euler weights source target = .ok ps)
    (Q : M3 K) (hQ : Q * Q.transpose = 1) (k : K) (b : V3 K) :
    (d.map (fun x => x.1 * V3.normSq (x.2.2 - helmertApplyTo τ ps x.2.1))).sum ≤ sqErr d Q k b := by
  have h1 := core_optimal hn svd d hw hdiff s hsvd Q hQ k b
  have h2 := helmert_returns nrm svd euler weights source target ps hret τ
  rw [← hd] at h2
  simp only at h1 h2
  refine le_trans (le_of_eq ?_) h1
  unfold sqErr
  congr 1
  refine List.map_congr_left fun x _ => ?_
  rw [h2, heul]
  rw [crossCov_eq] at hsvd hdet
  refine ⟨svd_orth hsvd, ?_⟩
  obtain ⟨h3, p, hp, h4⟩ := det_svd hsvd
  rcases h3 with h3 | h3
  · exact h3
  · rw [h3] at h4
    linarith

/-- **C84**, positive part: the estimated transformation maps the weighted centroid of the source points to
that of the target points, and its rotation part is a rotation, if the points are not mirrored.
Missing for the full property: a moment matrix with negative determinant (see `C84_centroid_missed`) or
determinant zero. -/
theorem C84_centroid_partial {nrm : V3 K → K} (svd : M3 K → M3 K × M3 K)
    (τ : Trig K) (euler : M3 K → V3 K) (heul : ∀ A, IsRot A → eulerMat τ (euler A) = A)
    (weights : List K) (source target : List (V3 K)) (d : List (K × V3 K × V3 K))
    (hd : d = weighted weights source target) (s : Fin 3 → K)
    (hsvd : IsSvd (crossCov d) (svd (crossCov d)).1 s (svd (crossCov d)).2) (hdet : 0 < (crossCov d).det)
    (ps : List (Param K)) (hret : helmert nrm svd euler weights source target = .ok ps) :
    helmertApplyTo τ ps (sourceMean d) = targetMean d ∧
    ∃ A : M3 K, IsRot A ∧ ∃ (k : K) (b : V3 K), ∀ p, helmertApplyTo τ ps p = b + k • mulV A p := by
  have h2 := helmert_returns nrm svd euler weights source target ps hret τ
  rw [← hd] at h2
  simp only at h2
  have hrot : IsRot (helmertCore nrm svd d).1 := by
    rw [crossCov_eq] at hsvd hdet
    refine ⟨svd_orth hsvd, ?_⟩
    obtain ⟨h3, p, hp, h4⟩ := det_svd hsvd
    rcases h3 with h3 | h3
    · exact h3
    · rw [h3] at h4
      linarith
  refine ⟨?_, _, hrot, _, _, fun p => by rw [h2, heul _ hrot]⟩
  rw [h2, heul _ hrot, sourceMean_eq, targetMean_eq]
  change centroidTo d - (helmertCore nrm svd d).2.1 • mulV (helmertCore nrm svd d).1 (centroidFrom d) + _ = _
  abel

/-- **C85**, positive part: the matrix computed as rotation part is proper if the points are not mirrored.
Missing for the full property: negative or zero determinant. -/
theorem C85_proper_partial (nrm : V3 K → K) (svd : M3 K → M3 K × M3 K) (d : List (K × V3 K × V3 K)) (s : Fin 3 → K)
    (hsvd : IsSvd (crossCov d) (svd (crossCov d)).1 s (svd (crossCov d)).2) (hdet : 0 < (crossCov d).det) :
    IsRot (helmertCore nrm svd d).1 := by
  rw [crossCov_eq] at hsvd hdet
  refine ⟨svd_orth hsvd, ?_⟩
  obtain ⟨h3, p, hp, h4⟩ := det_svd hsvd
  rcases h3 with h3 | h3
  · exact h3
  · rw [h3] at h4
    linarith

/-- **C85**, negation: whenever the moment matrix of the points has a negative determinant (mirrored points),
the matrix computed as rotation part is a reflection, whatever singular value decomposition is used. -/
theorem C85_mirrored (nrm : V3 K → K) (svd : M3 K → M3 K × M3 K) (d : List (K × V3 K × V3 K)) (s : Fin 3 → K)
    (hsvd : IsSvd (crossCov d) (svd (crossCov d)).1 s (svd (crossCov d)).2) (hdet : (crossCov d).det < 0) :
    (helmertCore nrm svd d).1.det = -1 := by
  rw [crossCov_eq] at hsvd hdet
  obtain ⟨h3, p, hp, h4⟩ := det_svd hsvd
  rcases h3 with h3 | h3
  · rw [h3] at h4
    linarith
  · exact h3

/-- **C85**, degenerate points: if a singular value is zero (points in a plane or on a line) there are two
singular value decompositions, one leads to a rotation and the other one to a reflection.  The library
decides. -/
theorem C85_degenerate (M u v : M3 K) (s : Fin 3 → K) (h : IsSvd M u s v) (i : Fin 3) (hi : s i = 0) :
    ∃ u' : M3 K, IsSvd M u' s v ∧ (v.transpose * u'.transpose).det = -(v.transpose * u.transpose).det := by
  have hf : (Matrix.diagonal (fun j => if j = i then (-1 : K) else 1)) *
      (Matrix.diagonal (fun j => if j = i then (-1 : K) else 1)) = 1 := by
    rw [Matrix.diagonal_mul_diagonal, ← Matrix.diagonal_one]
    congr 1
    funext j
    by_cases hj : j = i <;> simp [hj]
  refine ⟨u * Matrix.diagonal (fun j => if j = i then -1 else 1), ⟨?_, h.right, h.nonneg, ?_⟩, ?_⟩
  · rw [Matrix.transpose_mul, Matrix.diagonal_transpose, Matrix.mul_assoc, ← Matrix.mul_assoc (Matrix.diagonal _), hf,
      Matrix.one_mul, h.left]
  · rw [h.eq, Matrix.mul_assoc u (Matrix.diagonal _) (Matrix.diagonal _), Matrix.diagonal_mul_diagonal]
    congr 3
    funext j
    by_cases hj : j = i
    · subst hj
      simp [hi]
    · simp [hj]
  · rw [Matrix.transpose_mul, Matrix.diagonal_transpose, Matrix.det_mul, Matrix.det_mul, Matrix.det_mul, Matrix.det_diagonal]
    have : (∏ j : Fin 3, if j = i then (-1 : K) else 1) = -1 := by
      rw [Finset.prod_ite_eq' Finset.univ i (fun _ => (-1 : K)), if_pos (Finset.mem_univ i)]
    rw [this]
    ring

/-- six points around `(0, 1, 0)` -/
def exAround : List (V3 K) := [⟨1, 1, 0⟩, ⟨-1, 1, 0⟩, ⟨0, 2, 0⟩, ⟨0, 0, 0⟩, ⟨0, 1, 1⟩, ⟨0, 1, -1⟩]
/-- the same points, mirrored at the plane `z = 0` -/
def exMirrored : List (V3 K) := exAround.map (fun p => ⟨p.x, p.y, -p.z⟩)

theorem exMirrored_cov : crossCov (weighted [] exAround exMirrored : List (K × V3 K × V3 K)) =
    (2 : K) • Matrix.diagonal ![1, 1, -1] := by
  have hs : sourceMean (weighted [] exAround exMirrored : List (K × V3 K × V3 K)) = ⟨0, 1, 0⟩ := by
    ext <;> simp [sourceMean, wMean, weighted, exAround, exMirrored]
    norm_num
  have ht : targetMean (weighted [] exAround exMirrored : List (K × V3 K × V3 K)) = ⟨0, 1, 0⟩ := by
    ext <;> simp [targetMean, wMean, weighted, exAround, exMirrored]
    norm_num
  unfold crossCov
  rw [hs, ht]
  ext i j
  fin_cases i <;> fin_cases j <;> simp [weighted, exAround, exMirrored, outerV] <;> norm_num

/-- the rotation part for the mirrored points is the mirror matrix -/
theorem exMirrored_rot {u v : M3 K} {s : Fin 3 → K} (h : IsSvd ((2 : K) • Matrix.diagonal ![1, 1, -1]) u s v) :
    v.transpose * u.transpose = Matrix.diagonal ![1, 1, -1] := by
  set D : M3 K := Matrix.diagonal ![1, 1, -1] with hD
  have hDD : D * D = 1 := by
    rw [hD, Matrix.diagonal_mul_diagonal, ← Matrix.diagonal_one]
    congr 1
    funext j
    fin_cases j <;> simp
  have hDt : D.transpose = D := Matrix.diagonal_transpose _
  have hu := orth_comm h.left
  have hv := orth_comm h.right
  have e := h.eq
  have e2 : (2 • D).transpose * (2 • D) = v.transpose * (Matrix.diagonal s * Matrix.diagonal s) * v := by
    have : (2 • D : M3 K) = (2 : K) • D := by rw [two_smul, two_smul]
    rw [this, e, Matrix.transpose_mul, Matrix.transpose_mul, Matrix.diagonal_transpose]
    calc v.transpose * (Matrix.diagonal s * u.transpose) * (u * Matrix.diagonal s * v)
        = v.transpose * Matrix.diagonal s * (u.transpose * u) * Matrix.diagonal s * v := by
          simp only [Matrix.mul_assoc]
      _ = _ := by rw [hu, Matrix.mul_one]; simp only [Matrix.mul_assoc]
  have e3 : Matrix.diagonal s * Matrix.diagonal s = (4 : K) • (1 : M3 K) := by
    have : (2 • D : M3 K).transpose * (2 • D) = (4 : K) • (1 : M3 K) := by
      have h2 : (2 • D : M3 K) = (2 : K) • D := by rw [two_smul, two_smul]
      rw [h2, Matrix.transpose_smul, hDt, Matrix.smul_mul, Matrix.mul_smul, smul_smul, hDD]
      norm_num
    rw [this] at e2
    have := congrArg (fun X => v * X * v.transpose) e2
    have hl : v * ((4 : K) • (1 : M3 K)) * v.transpose = (4 : K) • 1 := by
      rw [Matrix.mul_smul, Matrix.mul_one, Matrix.smul_mul, h.right]
    simp only [hl] at this
    rw [this]
    calc Matrix.diagonal s * Matrix.diagonal s
        = (v * v.transpose) * (Matrix.diagonal s * Matrix.diagonal s) * (v * v.transpose) := by
          rw [h.right, Matrix.one_mul, Matrix.mul_one]
      _ = _ := by simp only [Matrix.mul_assoc]
  have e4 : ∀ i, s i = 2 := by
    intro i
    have := congrFun (congrFun e3 i) i
    rw [Matrix.diagonal_mul_diagonal, Matrix.diagonal_apply_eq, Matrix.smul_apply, Matrix.one_apply_eq] at this
    have h0 := h.nonneg i
    have : (s i - 2) * (s i + 2) = 0 := by rw [smul_eq_mul] at this; linear_combination this
    rcases mul_eq_zero.1 this with h1 | h1
    · linarith
    · linarith
  have e5 : Matrix.diagonal s = (2 : K) • (1 : M3 K) := by
    rw [Matrix.smul_one_eq_diagonal]
    congr 1
    funext i
    exact e4 i
  have e6 : D = u * v := by
    rw [e5, Matrix.mul_smul, Matrix.mul_one, Matrix.smul_mul] at e
    exact smul_right_injective _ (two_ne_zero (α := K)) e
  rw [← Matrix.transpose_mul, ← e6, hDt]

/-- **C84**, negation: for these mirrored points every singular value decomposition leads to parameters that
map the centroid `(0, 1, 0)` of the source points to `(0, -1, 0)`, although the centroid of the target points
is `(0, 1, 0)`.  `heul`: the angles describe the rotation that scipy makes out of the matrix. -/
theorem C84_centroid_missed {nrm : V3 K → K} (hn : IsNorm nrm) (svd : M3 K → M3 K × M3 K) (s : Fin 3 → K)
    (hsvd : ∀ M, M = crossCov (weighted [] exAround exMirrored) → IsSvd M (svd M).1 s (svd M).2)
    (τ : Trig K) (euler : M3 K → V3 K) (heul : ∀ A, eulerMat τ (euler A) = quatMat (markley A)) :
    sourceMean (weighted [] exAround exMirrored : List (K × V3 K × V3 K)) = ⟨0, 1, 0⟩ ∧
    targetMean (weighted [] exAround exMirrored : List (K × V3 K × V3 K)) = ⟨0, 1, 0⟩ ∧
    ∃ ps, helmert nrm svd euler [] exAround exMirrored = .ok ps ∧
      helmertApplyTo τ ps ⟨0, 1, 0⟩ = ⟨0, -1, 0⟩ := by
  have hs : sourceMean (weighted [] exAround exMirrored : List (K × V3 K × V3 K)) = ⟨0, 1, 0⟩ := by
    ext <;> simp [sourceMean, wMean, weighted, exAround, exMirrored]
    norm_num
  have ht : targetMean (weighted [] exAround exMirrored : List (K × V3 K × V3 K)) = ⟨0, 1, 0⟩ := by
    ext <;> simp [targetMean, wMean, weighted, exAround, exMirrored]
    norm_num
  have hret : ∃ ps, helmert nrm svd euler [] (exAround (K := K)) exMirrored = .ok ps := by
    unfold helmert
    exact ⟨_, rfl⟩
  obtain ⟨ps, hps⟩ := hret
  refine ⟨hs, ht, ps, hps, ?_⟩
  have h2 := helmert_returns nrm svd euler [] exAround exMirrored ps hps τ
  simp only at h2
  have hS := hsvd _ rfl
  have hcov := exMirrored_cov (K := K)
  have hmom : moment (centered (weighted [] exAround exMirrored : List (K × V3 K × V3 K))) =
      (2 : K) • Matrix.diagonal ![1, 1, -1] := by rw [← crossCov_eq, hcov]
  rw [hcov] at hS
  have hR : (helmertCore nrm svd (weighted [] exAround exMirrored : List (K × V3 K × V3 K))).1 =
      Matrix.diagonal ![1, 1, -1] := by
    change (svd (moment (centered _))).2.transpose * (svd (moment (centered _))).1.transpose = _
    rw [hmom]
    exact exMirrored_rot hS
  have hk : (helmertCore nrm svd (weighted [] exAround exMirrored : List (K × V3 K × V3 K))).2.1 = 1 := by
    change ((centered _).map (fun x => V3.dot (rowMul (x.1 • x.2.2)
      (helmertCore nrm svd (weighted [] exAround exMirrored : List (K × V3 K × V3 K))).1) x.2.1)).sum / spread nrm (centered _) = 1
    rw [scale_eq, hR, hmom, spread_eq hn]
    have h6 : ((centered (weighted [] exAround exMirrored : List (K × V3 K × V3 K))).map
        (fun x => x.1 * V3.normSq x.2.1)).sum = 6 := by
      unfold centered
      rw [← sourceMean_eq, ← targetMean_eq, hs, ht]
      simp [weighted, exAround, exMirrored, V3.normSq]
      norm_num
    rw [h6, Matrix.mul_smul, Matrix.diagonal_mul_diagonal, Matrix.trace_smul, Matrix.trace_diagonal]
    simp [Fin.sum_univ_three]
    norm_num
  have ht3 : (helmertCore nrm svd (weighted [] exAround exMirrored : List (K × V3 K × V3 K))).2.2 = 0 := by
    change centroidTo _ - (helmertCore nrm svd (weighted [] exAround exMirrored : List (K × V3 K × V3 K))).2.1 •
      mulV (helmertCore nrm svd (weighted [] exAround exMirrored : List (K × V3 K × V3 K))).1 (centroidFrom _) = 0
    rw [hk, hR, ← sourceMean_eq, ← targetMean_eq, hs, ht]
    ext <;> simp [mulV]
  have hm : markley (Matrix.diagonal ![1, 1, -1] : M3 K) = ⟨2, 0, 0, 0⟩ := by
    unfold markley
    have : (-1 : K) ≤ 1 := by linarith [zero_lt_one (α := K)]
    simp [this]
  rw [h2, hk, ht3, hR, heul, hm]
  ext <;> simp [quatMat, mulV, Q4.normSq]

/-- a real function that finds the angles -/
noncomputable def realAngles (A : M3 ℝ) : V3 ℝ :=
  (exists_euler _ (quatMat_isRot (markley_normSq_pos A).ne')).choose

theorem realAngles_spec (A : M3 ℝ) : eulerMat realTrig (realAngles A) = quatMat (markley A) :=
  (exists_euler _ (quatMat_isRot (markley_normSq_pos A).ne')).choose_spec

theorem realAngles_rot (A : M3 ℝ) (h : IsRot A) : eulerMat realTrig (realAngles A) = A := by
  rw [realAngles_spec, quatMat_markley h]

/-- the hypotheses of `C84_centroid_missed` and `C85_mirrored` can be met -/
example : ∃ ps, helmert realNorm (fun _ => (1, Matrix.diagonal ![1, 1, -1])) realAngles [] exAround exMirrored = .ok ps ∧
    helmertApplyTo realTrig ps ⟨0, 1, 0⟩ = ⟨0, -1, 0⟩ :=
  (C84_centroid_missed realNorm_isNorm _ (fun _ => 2) (by
    rintro M rfl
    rw [exMirrored_cov]
    refine ⟨by simp, ?_, fun _ => by norm_num, ?_⟩
    · rw [Matrix.diagonal_transpose, Matrix.diagonal_mul_diagonal, ← Matrix.diagonal_one]
      congr 1
      funext j
      fin_cases j <;> simp
    · rw [Matrix.one_mul, Matrix.diagonal_mul_diagonal, ← Matrix.diagonal_smul]
      rfl) realTrig realAngles realAngles_spec).2.2

/-- the points of `exAround`, twice as large, turned by a quarter and shifted -/
def exTurned : List (V3 K) := exAround.map (fun p => ⟨3 - 2 * p.y, 2 * p.x, 2 * p.z⟩)

theorem exTurned_cov : crossCov (weighted [] exAround exTurned : List (K × V3 K × V3 K)) =
    !![0, 4, 0; -4, 0, 0; 0, 0, 4] := by
  have hs : sourceMean (weighted [] exAround exTurned : List (K × V3 K × V3 K)) = ⟨0, 1, 0⟩ := by
    ext <;> simp [sourceMean, wMean, weighted, exAround, exTurned]
    norm_num
  have ht : targetMean (weighted [] exAround exTurned : List (K × V3 K × V3 K)) = ⟨1, 0, 0⟩ := by
    ext <;> simp [targetMean, wMean, weighted, exAround, exTurned]
    norm_num
  unfold crossCov
  rw [hs, ht]
  ext i j
  fin_cases i <;> fin_cases j <;> simp [weighted, exAround, exTurned, outerV] <;> norm_num

/-- the hypotheses of `C84_centroid_partial`, `C85_proper_partial` and `C112_direct_helmert_optimal` can be met -/
example : ∃ (svd : M3 ℝ → M3 ℝ × M3 ℝ) (s : Fin 3 → ℝ) (d : List (ℝ × V3 ℝ × V3 ℝ)),
    d = weighted [] exAround exTurned ∧ (∀ x ∈ d, 0 < x.1) ∧ (∃ x ∈ d, ∃ y ∈ d, x.2.1 ≠ y.2.1) ∧
    IsSvd (crossCov d) (svd (crossCov d)).1 s (svd (crossCov d)).2 ∧ 0 < (crossCov d).det ∧
    ∃ ps, helmert realNorm svd realAngles [] exAround exTurned = .ok ps := by
  refine ⟨fun _ => (!![0, 1, 0; -1, 0, 0; 0, 0, 1], 1), fun _ => 4, _, rfl, ?_, ?_, ?_, ?_, ⟨_, rfl⟩⟩
  · intro x hx
    simp only [weighted, if_true] at hx
    have := List.of_mem_zip (a := x.1) (b := x.2) hx
    simp only [List.mem_map] at this
    obtain ⟨⟨_, _, h⟩, _⟩ := this
    rw [← h]
    norm_num
  · refine ⟨(1, ⟨1, 1, 0⟩, ⟨3 - 2 * 1, 2 * 1, 2 * 0⟩), by simp [weighted, exAround, exTurned],
      (1, ⟨-1, 1, 0⟩, ⟨3 - 2 * 1, 2 * -1, 2 * 0⟩), by simp [weighted, exAround, exTurned], ?_⟩
    intro h
    have := congrArg V3.x h
    norm_num at this
  · rw [exTurned_cov]
    refine ⟨?_, by simp, fun _ => by norm_num, ?_⟩
    · ext i j
      fin_cases i <;> fin_cases j <;> simp [Matrix.mul_apply, Fin.sum_univ_three]
    · ext i j
      rw [Matrix.mul_one, Matrix.mul_diagonal]
      fin_cases i <;> fin_cases j <;> simp
  · rw [exTurned_cov]
    simp [Matrix.det_fin_three]

end TC
