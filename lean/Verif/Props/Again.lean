import Verif.Props.Direct
import Verif.Proofs.Svd
/-!
# C205: a second direct alignment changes nothing
-/
namespace TC
set_option linter.unusedSectionVars false
variable {K : Type} [Field K] [LinearOrder K] [IsStrictOrderedRing K]
open Direct

/-- the source points moved by a similarity -/
def movedPts (Q : M3 K) (k : K) (b : V3 K) (d : Pts K) : Pts K := d.map (fun x => (x.1, b + k • mulV Q x.2.1, x.2.2))

theorem moved_sum (Q : M3 K) (k : K) (b : V3 K) (d : Pts K) :
    (d.map (fun x => x.1 • (b + k • mulV Q x.2.1))).sum =
      (d.map (fun x => x.1)).sum • b + k • mulV Q (d.map (fun x => x.1 • x.2.1)).sum := by
  induction d with
  | nil => simp
  | cons x d ih =>
    rw [List.map_cons, List.sum_cons, ih, List.map_cons, List.sum_cons, List.map_cons, List.sum_cons, mulV_add, mulV_smul,
      smul_add, smul_add, add_smul, smul_comm k x.1]
    abel

theorem moved_weights (Q : M3 K) (k : K) (b : V3 K) (d : Pts K) : sumWeights (movedPts Q k b d) = sumWeights d := by
  simp only [sumWeights, movedPts, List.map_map]
  rfl

theorem moved_to (Q : M3 K) (k : K) (b : V3 K) (d : Pts K) : centroidTo (movedPts Q k b d) = centroidTo d := by
  unfold centroidTo
  rw [moved_weights]
  simp only [movedPts, List.map_map]
  rfl

theorem moved_from (Q : M3 K) (k : K) (b : V3 K) (d : Pts K) (h : sumWeights d ≠ 0) :
    centroidFrom (movedPts Q k b d) = b + k • mulV Q (centroidFrom d) := by
  unfold centroidFrom
  rw [moved_weights]
  have : ((movedPts Q k b d).map (fun x => x.1 • x.2.1)) = d.map (fun x => x.1 • (b + k • mulV Q x.2.1)) := by
    simp only [movedPts, List.map_map]
    rfl
  rw [this, moved_sum, smul_add, smul_smul, mulV_smul, smul_comm k]
  congr 1
  rw [show (d.map (fun x => x.1)).sum = sumWeights d from rfl, inv_mul_cancel₀ h, one_smul]

theorem moved_centered (Q : M3 K) (k : K) (b : V3 K) (d : Pts K) (h : sumWeights d ≠ 0) :
    centered (movedPts Q k b d) = movedPts Q k 0 (centered d) := by
  unfold centered
  rw [moved_to, moved_from Q k b d h]
  simp only [movedPts, List.map_map]
  refine List.map_congr_left fun x _ => ?_
  simp only [Function.comp, mulV_sub, smul_sub, zero_add, add_sub_add_left_eq_sub]

theorem outerV_moved (Q : M3 K) (k : K) (a c : V3 K) : outerV (0 + k • mulV Q a) c = k • (Q * outerV a c) := by
  ext i j
  fin_cases i <;> fin_cases j <;> simp [outerV, mulV, Matrix.mul_apply, Fin.sum_univ_three] <;> ring

theorem moved_moment (Q : M3 K) (k : K) (c : Pts K) : moment (movedPts Q k 0 c) = k • (Q * moment c) := by
  induction c with
  | nil => simp [moment, movedPts]
  | cons x c ih =>
    have h1 : moment (x :: c) = x.1 • outerV x.2.1 x.2.2 + moment c := by simp [moment]
    have h2 : moment (movedPts Q k 0 (x :: c)) = x.1 • outerV (0 + k • mulV Q x.2.1) x.2.2 + moment (movedPts Q k 0 c) := by
      simp [moment, movedPts]
    rw [h2, h1, ih, outerV_moved, Matrix.mul_add, smul_add, Matrix.mul_smul, smul_comm k]

theorem moved_spread {Q : M3 K} (hQ : Q * Q.transpose = 1) (k : K) (c : Pts K) :
    ((movedPts Q k 0 c).map (fun x => x.1 * V3.normSq x.2.1)).sum =
      k * k * (c.map (fun x => x.1 * V3.normSq x.2.1)).sum := by
  rw [← List.sum_map_mul_left]
  simp only [movedPts, List.map_map]
  congr 1
  refine List.map_congr_left fun x _ => ?_
  have := normSq_mulV_orth hQ x.2.1
  simp only [Function.comp, zero_add, ← this]
  simp only [V3.normSq, V3.smul_x, V3.smul_y, V3.smul_z]
  ring

/-- an orthogonal matrix with ones on the diagonal -/
theorem orth_ones {X : M3 K} (h : X * X.transpose = 1) (h1 : ∀ i, X i i = 1) : X = 1 := by
  ext i j
  by_cases hij : i = j
  · subst hij
    rw [h1, Matrix.one_apply_eq]
  · rw [Matrix.one_apply_ne hij]
    have e : (X * X.transpose) i i = (1 : M3 K) i i := by rw [h]
    simp only [Matrix.mul_apply, Matrix.transpose_apply, Matrix.one_apply_eq] at e
    have h2 : X i i * X i i + X i j * X i j ≤ ∑ l, X i l * X i l := by
      rw [← Finset.sum_pair (f := fun l => X i l * X i l) hij]
      exact Finset.sum_le_sum_of_subset_of_nonneg (Finset.subset_univ _) fun l _ _ => mul_self_nonneg _
    rw [e, h1] at h2
    exact mul_self_eq_zero.1 (le_antisymm (by linarith) (mul_self_nonneg _))

/-- the rotation found for a matrix that is symmetric with positive eigenvalues is the identity -/
theorem polar_one {v u2 v2 : M3 K} {s s2 : Fin 3 → K} {k : K} (hk : 0 < k) (hs : ∀ i, 0 < s i) (hv : v * v.transpose = 1)
    (h2 : IsSvd (k • (v.transpose * Matrix.diagonal s * v)) u2 s2 v2) : v2.transpose * u2.transpose = 1 := by
  set Q := v2.transpose * u2.transpose with hQd
  have hQ : Q * Q.transpose = 1 := svd_orth h2
  have t1 := (trace_svd h2 (Q := 1) (by simp)).1
  have t2 := trace_svd_best h2
  rw [← hQd] at t2
  rw [← t2, Matrix.one_mul, Matrix.mul_smul, Matrix.trace_smul, Matrix.trace_smul, smul_eq_mul, smul_eq_mul] at t1
  have t1 := le_of_mul_le_mul_left t1 hk
  have e1 : (v.transpose * Matrix.diagonal s * v).trace = ∑ i, s i := by
    rw [Matrix.trace_mul_comm, ← Matrix.mul_assoc, hv, Matrix.one_mul]
    simp [Matrix.trace]
  have e2 : (Q * (v.transpose * Matrix.diagonal s * v)).trace = ∑ i, (v * Q * v.transpose) i i * s i := by
    rw [← Matrix.mul_assoc, ← Matrix.mul_assoc, Matrix.trace_mul_comm, ← Matrix.mul_assoc, ← Matrix.mul_assoc]
    simp only [Matrix.trace, Matrix.diag, Matrix.mul_diagonal]
  have hX : (v * Q * v.transpose) * (v * Q * v.transpose).transpose = 1 :=
    orth_mul (orth_mul hv hQ) (orth_transpose hv)
  set X := v * Q * v.transpose with hXd
  rw [e1, e2] at t1
  have hle : ∀ i ∈ Finset.univ, X i i * s i ≤ s i := fun i _ => by
    have := mul_le_mul_of_nonneg_right (orth_diag_le hX i).1 (hs i).le
    rwa [one_mul] at this
  have heq := (Finset.sum_eq_sum_iff_of_le hle).1 (le_antisymm (Finset.sum_le_sum hle) t1)
  have hX1 : X = 1 := orth_ones hX fun i => by
    have := heq i (Finset.mem_univ i)
    exact mul_right_cancel₀ (hs i).ne' (by rw [this, one_mul])
  have : v.transpose * X * v = Q := by
    rw [hXd, Matrix.mul_assoc, Matrix.mul_assoc, orth_comm hv, Matrix.mul_one, ← Matrix.mul_assoc, orth_comm hv, Matrix.one_mul]
  rw [← this, hX1, Matrix.mul_one, orth_comm hv]

/-- the second estimate from the moved points -/
theorem core_again {nrm : V3 K → K} (hn : IsNorm nrm) (svd : M3 K → M3 K × M3 K)
    (hsvd : ∀ M, ∃ s, IsSvd M (svd M).1 s (svd M).2) (d : Pts K)
    (hw : ∀ x ∈ d, 0 < x.1) (hdiff : ∃ x ∈ d, ∃ y ∈ d, x.2.1 ≠ y.2.1) (hdet : 0 < (crossCov d).det) :
    let m := helmertCore nrm svd d
    helmertCore nrm svd (movedPts m.1 m.2.1 m.2.2 d) = (1, 1, 0) := by
  intro m
  have hne : d ≠ [] := by
    obtain ⟨x, hx, _⟩ := hdiff
    rintro rfl
    cases hx
  have hW := (sumWeights_pos d hw hne).ne'
  have hS := spread_pos d hw hdiff
  rw [crossCov_eq] at hdet
  obtain ⟨s, h1⟩ := hsvd (moment (centered d))
  set M := moment (centered d) with hM
  set u := (svd M).1
  set v := (svd M).2
  have hR : m.1 = v.transpose * u.transpose := rfl
  have hRo : m.1 * m.1.transpose = 1 := svd_orth h1
  have hspos : ∀ i, 0 < s i := by
    intro i
    refine lt_of_le_of_ne (h1.nonneg i) fun h0 => hdet.ne' ?_
    rw [h1.eq, Matrix.det_mul, Matrix.det_mul, Matrix.det_diagonal, Finset.prod_eq_zero (Finset.mem_univ i) h0.symm]
    ring
  have hT : 0 < ∑ i, s i := Finset.sum_pos (fun i _ => hspos i) Finset.univ_nonempty
  set S := ((centered d).map (fun x => x.1 * V3.normSq x.2.1)).sum with hSd
  have hk : m.2.1 = (∑ i, s i) / S := by
    rw [← trace_svd_best h1, ← hR, hSd, ← spread_eq hn, hM, ← scale_eq]
    rfl
  have hkpos : 0 < m.2.1 := by rw [hk]; exact div_pos hT hS
  have hkS : m.2.1 * S = ∑ i, s i := by rw [hk, div_mul_cancel₀ _ hS.ne']
  have hb : m.2.2 = centroidTo d - m.2.1 • mulV m.1 (centroidFrom d) := rfl
  have hc : centered (movedPts m.1 m.2.1 m.2.2 d) = movedPts m.1 m.2.1 0 (centered d) := moved_centered _ _ _ d hW
  have hRM : m.1 * M = v.transpose * Matrix.diagonal s * v := by
    rw [hR, h1.eq, Matrix.mul_assoc v.transpose, ← Matrix.mul_assoc u.transpose, ← Matrix.mul_assoc u.transpose,
      orth_comm h1.left, Matrix.one_mul, Matrix.mul_assoc]
  have hM2 : moment (centered (movedPts m.1 m.2.1 m.2.2 d)) = m.2.1 • (v.transpose * Matrix.diagonal s * v) := by
    rw [hc, moved_moment, ← hM, hRM]
  obtain ⟨s2, h2⟩ := hsvd (moment (centered (movedPts m.1 m.2.1 m.2.2 d)))
  have hR2 : (svd (moment (centered (movedPts m.1 m.2.1 m.2.2 d)))).2.transpose *
      (svd (moment (centered (movedPts m.1 m.2.1 m.2.2 d)))).1.transpose = 1 := by
    generalize svd (moment (centered (movedPts m.1 m.2.1 m.2.2 d))) = uv at h2 ⊢
    rw [hM2] at h2
    exact polar_one hkpos hspos h1.right h2
  have hsc : ((centered (movedPts m.1 m.2.1 m.2.2 d)).map (fun x => V3.dot (rowMul (x.1 • x.2.2) 1) x.2.1)).sum /
      spread nrm (centered (movedPts m.1 m.2.1 m.2.2 d)) = 1 := by
    rw [scale_eq, spread_eq hn, hM2, hc, moved_spread hRo, ← hSd, Matrix.one_mul, Matrix.trace_smul, ← hRM, hR,
      trace_svd_best h1, ← hkS, smul_eq_mul, mul_assoc]
    exact div_self (mul_pos hkpos (mul_pos hkpos hS)).ne'
  unfold helmertCore
  simp only [hR2, hsc, one_smul, mulV_one]
  rw [moved_to, moved_from _ _ _ d hW, hb]
  simp

/-- **C205** Aligning a second time changes nothing: with the source points moved by the first estimate, the
direct estimation returns the similarity that leaves every point where it is. -/
theorem C205_second_alignment {nrm : V3 K → K} (hn : IsNorm nrm) (svd : M3 K → M3 K × M3 K)
    (hsvd : ∀ M, ∃ s, IsSvd M (svd M).1 s (svd M).2)
    (τ : Trig K) (euler : M3 K → V3 K) (heul : ∀ A, IsRot A → eulerMat τ (euler A) = A)
    (weights : List K) (source target : List (V3 K)) (d : List (K × V3 K × V3 K))
    (hd : d = weighted weights source target) (hw : ∀ x ∈ d, 0 < x.1)
    (hdiff : ∃ x ∈ d, ∃ y ∈ d, x.2.1 ≠ y.2.1) (hdet : 0 < (crossCov d).det)
    (first : List (Param K)) (hret : helmert nrm svd euler weights source target = .ok first) :
    ∃ second, helmert nrm svd euler weights (source.map (helmertApplyTo τ first)) target = .ok second ∧
      ∀ p, helmertApplyTo τ second p = p := by
  obtain ⟨s, hs⟩ := hsvd (crossCov d)
  have hrot := C85_proper_partial nrm svd d s hs hdet
  have hf : ∀ p, helmertApplyTo τ first p = (helmertCore nrm svd d).2.2 +
      (helmertCore nrm svd d).2.1 • mulV (helmertCore nrm svd d).1 p := by
    intro p
    have := helmert_returns nrm svd euler weights source target first hret τ p
    simp only [← hd] at this
    rw [this, heul _ hrot]
  have hd2 : weighted weights (source.map (helmertApplyTo τ first)) target =
      movedPts (helmertCore nrm svd d).1 (helmertCore nrm svd d).2.1 (helmertCore nrm svd d).2.2 d := by
    have e : movedPts (helmertCore nrm svd d).1 (helmertCore nrm svd d).2.1 (helmertCore nrm svd d).2.2 d =
        (weighted weights source target).map (fun x => (x.1, helmertApplyTo τ first x.2.1, x.2.2)) := by
      rw [← hd]
      exact List.map_congr_left fun x _ => by rw [hf]
    rw [e]
    simp only [weighted, List.map_map]
    rw [show ((fun _ => (1 : K)) ∘ helmertApplyTo τ first : V3 K → K) = fun _ => 1 from rfl]
    generalize (if weights = [] then source.map (fun _ => (1 : K)) else weights) = w
    rw [List.zip_map_left, List.zip_map_right]
    refine List.map_congr_left fun x _ => ?_
    rfl
  have hok : ∃ second, helmert nrm svd euler weights (source.map (helmertApplyTo τ first)) target = .ok second := by
    unfold helmert at hret ⊢
    simp only [List.length_map, List.map_map, List.length_eq_zero_iff] at hret ⊢
    by_cases hl : (if weights = [] then source.map (fun _ => (1 : K)) else weights).length ≠ source.length ∨
      target.length ≠ source.length
    · rw [if_pos hl] at hret
      cases hret
    · exact ⟨_, if_neg hl⟩
  obtain ⟨second, h2⟩ := hok
  refine ⟨second, h2, fun p => ?_⟩
  have := helmert_returns nrm svd euler weights _ target second h2 τ p
  simp only [hd2, core_again hn svd hsvd d hw hdiff hdet] at this
  rw [this, heul 1 ⟨by simp, Matrix.det_one⟩]
  simp

/-- the hypotheses of `C205_second_alignment` can be met: points turned, enlarged and shifted -/
example : ∃ (svd : M3 ℝ → M3 ℝ × M3 ℝ) (first second : List (Param ℝ)), (∀ M, ∃ s, IsSvd M (svd M).1 s (svd M).2) ∧
    helmert realNorm svd realAngles [] exAround exTurned = .ok first ∧
    helmert realNorm svd realAngles [] (exAround.map (helmertApplyTo realTrig first)) exTurned = .ok second ∧
    ∀ p, helmertApplyTo realTrig second p = p := by
  have hsvd : ∀ M : M3 ℝ, ∃ s, IsSvd M (exists_svd M).choose s (exists_svd M).choose_spec.choose_spec.choose :=
    fun M => ⟨_, (exists_svd M).choose_spec.choose_spec.choose_spec⟩
  obtain ⟨second, h1, h2⟩ := C205_second_alignment realNorm_isNorm
    (fun M => ((exists_svd M).choose, (exists_svd M).choose_spec.choose_spec.choose)) hsvd realTrig realAngles realAngles_rot
    [] exAround exTurned _ rfl (by
      intro x hx
      simp only [weighted, if_true] at hx
      have := List.of_mem_zip (a := x.1) (b := x.2) hx
      simp only [List.mem_map] at this
      obtain ⟨⟨_, _, h⟩, _⟩ := this
      rw [← h]
      norm_num) (by
      refine ⟨(1, ⟨1, 1, 0⟩, ⟨3 - 2 * 1, 2 * 1, 2 * 0⟩), by simp [weighted, exAround, exTurned],
        (1, ⟨-1, 1, 0⟩, ⟨3 - 2 * 1, 2 * -1, 2 * 0⟩), by simp [weighted, exAround, exTurned], ?_⟩
      intro h
      have := congrArg V3.x h
      norm_num at this) (by
      rw [exTurned_cov]
      simp [Matrix.det_fin_three]) _ rfl
  exact ⟨_, _, second, hsvd, rfl, h1, h2⟩

end TC
