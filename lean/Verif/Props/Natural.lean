import Verif.Props.Again
/-!
# C206: the direct alignment does not depend on the frames of source and target
-/
namespace TC
set_option linter.unusedSectionVars false
variable {K : Type} [Field K] [LinearOrder K] [IsStrictOrderedRing K]
open Direct

/-- the target points moved by a similarity -/
def movedTo (Q : M3 K) (k : K) (b : V3 K) (d : Pts K) : Pts K := d.map (fun x => (x.1, x.2.1, b + k • mulV Q x.2.2))

theorem movedTo_sum (Q : M3 K) (k : K) (b : V3 K) (d : Pts K) :
    (d.map (fun x => x.1 • (b + k • mulV Q x.2.2))).sum =
      (d.map (fun x => x.1)).sum • b + k • mulV Q (d.map (fun x => x.1 • x.2.2)).sum := by
  induction d with
  | nil => simp
  | cons x d ih =>
    rw [List.map_cons, List.sum_cons, ih, List.map_cons, List.sum_cons, List.map_cons, List.sum_cons, mulV_add, mulV_smul,
      smul_add, smul_add, add_smul, smul_comm k x.1]
    abel

theorem movedTo_weights (Q : M3 K) (k : K) (b : V3 K) (d : Pts K) : sumWeights (movedTo Q k b d) = sumWeights d := by
  simp only [sumWeights, movedTo, List.map_map]
  rfl

theorem movedTo_from (Q : M3 K) (k : K) (b : V3 K) (d : Pts K) : centroidFrom (movedTo Q k b d) = centroidFrom d := by
  unfold centroidFrom
  rw [movedTo_weights]
  simp only [movedTo, List.map_map]
  rfl

theorem movedTo_to (Q : M3 K) (k : K) (b : V3 K) (d : Pts K) (h : sumWeights d ≠ 0) :
    centroidTo (movedTo Q k b d) = b + k • mulV Q (centroidTo d) := by
  unfold centroidTo
  rw [movedTo_weights]
  have : ((movedTo Q k b d).map (fun x => x.1 • x.2.2)) = d.map (fun x => x.1 • (b + k • mulV Q x.2.2)) := by
    simp only [movedTo, List.map_map]
    rfl
  rw [this, movedTo_sum, smul_add, smul_smul, mulV_smul, smul_comm k]
  congr 1
  rw [show (d.map (fun x => x.1)).sum = sumWeights d from rfl, inv_mul_cancel₀ h, one_smul]

theorem movedTo_centered (Q : M3 K) (k : K) (b : V3 K) (d : Pts K) (h : sumWeights d ≠ 0) :
    centered (movedTo Q k b d) = movedTo Q k 0 (centered d) := by
  unfold centered
  rw [movedTo_from, movedTo_to Q k b d h]
  simp only [movedTo, List.map_map]
  refine List.map_congr_left fun x _ => ?_
  simp only [Function.comp, mulV_sub, smul_sub, zero_add, add_sub_add_left_eq_sub]

theorem outerV_movedTo (Q : M3 K) (k : K) (a c : V3 K) :
    outerV a (0 + k • mulV Q c) = k • (outerV a c * Q.transpose) := by
  ext i j
  rw [Matrix.smul_apply, Matrix.mul_apply, Fin.sum_univ_three]
  simp only [Matrix.transpose_apply]
  fin_cases i <;> fin_cases j <;> simp [outerV, mulV] <;> ring

theorem movedTo_moment (Q : M3 K) (k : K) (c : Pts K) : moment (movedTo Q k 0 c) = k • (moment c * Q.transpose) := by
  induction c with
  | nil => simp [moment, movedTo]
  | cons x c ih =>
    have h1 : moment (x :: c) = x.1 • outerV x.2.1 x.2.2 + moment c := by simp [moment]
    have h2 : moment (movedTo Q k 0 (x :: c)) = x.1 • outerV x.2.1 (0 + k • mulV Q x.2.2) + moment (movedTo Q k 0 c) := by
      simp [moment, movedTo]
    rw [h2, h1, ih, outerV_movedTo, Matrix.add_mul, smul_add, Matrix.smul_mul, smul_comm k]

theorem movedTo_spread (Q : M3 K) (k : K) (c : Pts K) :
    ((movedTo Q k 0 c).map (fun x => x.1 * V3.normSq x.2.1)).sum = (c.map (fun x => x.1 * V3.normSq x.2.1)).sum := by
  simp only [movedTo, List.map_map]
  rfl

/-- with positive singular values only one orthogonal matrix reaches the largest trace -/
theorem trace_unique {M u v Y : M3 K} {s : Fin 3 → K} (h : IsSvd M u s v) (hs : ∀ i, 0 < s i)
    (hY : Y * Y.transpose = 1) (ht : ∑ i, s i ≤ (Y * M).trace) : Y = v.transpose * u.transpose := by
  have e : (Y * M).trace = ∑ i, (v * Y * u) i i * s i := by
    rw [h.eq, ← Matrix.mul_assoc, ← Matrix.mul_assoc, Matrix.trace_mul_comm, ← Matrix.mul_assoc, ← Matrix.mul_assoc]
    simp only [Matrix.trace, Matrix.diag, Matrix.mul_diagonal]
  have hX : (v * Y * u) * (v * Y * u).transpose = 1 := orth_mul (orth_mul h.right hY) h.left
  set X := v * Y * u with hXd
  rw [e] at ht
  have hle : ∀ i ∈ Finset.univ, X i i * s i ≤ s i := fun i _ => by
    have := mul_le_mul_of_nonneg_right (orth_diag_le hX i).1 (hs i).le
    rwa [one_mul] at this
  have heq := (Finset.sum_eq_sum_iff_of_le hle).1 (le_antisymm (Finset.sum_le_sum hle) ht)
  have hX1 : X = 1 := orth_ones hX fun i => by
    have := heq i (Finset.mem_univ i)
    exact mul_right_cancel₀ (hs i).ne' (by rw [this, one_mul])
  have : v.transpose * X * u.transpose = Y := by
    rw [hXd, Matrix.mul_assoc, Matrix.mul_assoc, h.left, Matrix.mul_one, ← Matrix.mul_assoc, orth_comm h.right, Matrix.one_mul]
  rw [← this, hX1, Matrix.mul_one]

theorem pos_values {M u v : M3 K} {s : Fin 3 → K} (h : IsSvd M u s v) (hdet : M.det ≠ 0) (i : Fin 3) : 0 < s i := by
  refine lt_of_le_of_ne (h.nonneg i) fun h0 => hdet ?_
  rw [h.eq, Matrix.det_mul, Matrix.det_mul, Matrix.det_diagonal, Finset.prod_eq_zero (Finset.mem_univ i) h0.symm]
  ring

/-- rotation part, scale and translation estimated after moving source and target -/
theorem core_natural {nrm : V3 K → K} (hn : IsNorm nrm) (svd : M3 K → M3 K × M3 K)
    (hsvd : ∀ M, ∃ s, IsSvd M (svd M).1 s (svd M).2) (d : Pts K)
    (hw : ∀ x ∈ d, 0 < x.1) (hdiff : ∃ x ∈ d, ∃ y ∈ d, x.2.1 ≠ y.2.1) (hdet : (crossCov d).det ≠ 0)
    {Q₁ Q₂ : M3 K} (hQ₁ : Q₁ * Q₁.transpose = 1) (hQ₂ : Q₂ * Q₂.transpose = 1) {k₁ k₂ : K} (hk₁ : 0 < k₁) (hk₂ : 0 < k₂)
    (b₁ b₂ : V3 K) :
    let m := helmertCore nrm svd d
    let m' := helmertCore nrm svd (movedTo Q₂ k₂ b₂ (movedPts Q₁ k₁ b₁ d))
    m'.1 = Q₂ * m.1 * Q₁.transpose ∧ m'.2.1 = k₂ * m.2.1 / k₁ ∧
      m'.2.2 = b₂ + k₂ • mulV Q₂ m.2.2 - m'.2.1 • mulV m'.1 b₁ := by
  intro m m'
  have hne : d ≠ [] := by
    obtain ⟨x, hx, _⟩ := hdiff
    rintro rfl
    cases hx
  have hW := (sumWeights_pos d hw hne).ne'
  have hS := spread_pos d hw hdiff
  rw [crossCov_eq] at hdet
  obtain ⟨s, h1⟩ := hsvd (moment (centered d))
  set M := moment (centered d) with hM
  have hR : m.1 = (svd M).2.transpose * (svd M).1.transpose := rfl
  have hspos := pos_values h1 hdet
  set S := ((centered d).map (fun x => x.1 * V3.normSq x.2.1)).sum with hSd
  have htr : (m.1 * M).trace = ∑ i, s i := trace_svd_best h1
  have hk : m.2.1 = (m.1 * M).trace / S := by
    rw [hSd, ← spread_eq hn, hM, ← scale_eq]
    rfl
  have hb : m.2.2 = centroidTo d - m.2.1 • mulV m.1 (centroidFrom d) := rfl
  have hW1 : sumWeights (movedPts Q₁ k₁ b₁ d) ≠ 0 := by rwa [moved_weights]
  have hc : centered (movedTo Q₂ k₂ b₂ (movedPts Q₁ k₁ b₁ d)) = movedTo Q₂ k₂ 0 (movedPts Q₁ k₁ 0 (centered d)) := by
    rw [movedTo_centered _ _ _ _ hW1, moved_centered _ _ _ _ hW]
  set d' := movedTo Q₂ k₂ b₂ (movedPts Q₁ k₁ b₁ d) with hd'
  have hM' : moment (centered d') = k₂ • (k₁ • (Q₁ * M) * Q₂.transpose) := by
    rw [hc, movedTo_moment, moved_moment]
  have hany : ∀ Y : M3 K, (Y * moment (centered d')).trace = k₂ * k₁ * (Q₂.transpose * Y * Q₁ * M).trace := by
    intro Y
    rw [hM', Matrix.smul_mul, Matrix.mul_smul, Matrix.mul_smul, Matrix.trace_smul, Matrix.trace_smul, ← Matrix.mul_assoc,
      Matrix.trace_mul_comm, ← Matrix.mul_assoc, ← Matrix.mul_assoc, smul_eq_mul, smul_eq_mul, mul_assoc k₂,
      Matrix.mul_assoc (Q₂.transpose * Y)]
  obtain ⟨s', h2⟩ := hsvd (moment (centered d'))
  have hR' : m'.1 = (svd (moment (centered d'))).2.transpose * (svd (moment (centered d'))).1.transpose := rfl
  have hRo' : m'.1 * m'.1.transpose = 1 := svd_orth h2
  have hRo : m.1 * m.1.transpose = 1 := svd_orth h1
  have hback : Q₂.transpose * (Q₂ * m.1 * Q₁.transpose) * Q₁ = m.1 := by
    rw [Matrix.mul_assoc, Matrix.mul_assoc, orth_comm hQ₁, Matrix.mul_one, ← Matrix.mul_assoc, orth_comm hQ₂, Matrix.one_mul]
  have hY : Q₂.transpose * m'.1 * Q₁ = m.1 := by
    rw [hR]
    refine trace_unique h1 hspos (orth_mul (orth_mul (orth_transpose hQ₂) hRo') hQ₁) ?_
    have t1 := (trace_svd h2 (Q := Q₂ * m.1 * Q₁.transpose) (orth_mul (orth_mul hQ₂ hRo) (orth_transpose hQ₁))).1
    have t2 := trace_svd_best h2
    rw [← hR'] at t2
    rw [← t2, hany, hany, hback, htr] at t1
    exact le_of_mul_le_mul_left t1 (mul_pos hk₂ hk₁)
  have e1 : m'.1 = Q₂ * m.1 * Q₁.transpose := by
    rw [← hY, Matrix.mul_assoc, Matrix.mul_assoc, hQ₁, Matrix.mul_one, ← Matrix.mul_assoc, hQ₂, Matrix.one_mul]
  have e2 : m'.2.1 = k₂ * m.2.1 / k₁ := by
    have : m'.2.1 = (m'.1 * moment (centered d')).trace / ((centered d').map (fun x => x.1 * V3.normSq x.2.1)).sum := by
      rw [← spread_eq hn, ← scale_eq]
      rfl
    rw [this, hany, hY, hc, movedTo_spread, moved_spread hQ₁, ← hSd, hk]
    have := hS.ne'
    have := hk₁.ne'
    field_simp
  refine ⟨e1, e2, ?_⟩
  have hb' : m'.2.2 = centroidTo d' - m'.2.1 • mulV m'.1 (centroidFrom d') := rfl
  rw [hb', hd', movedTo_to _ _ _ _ hW1, moved_to, movedTo_from, moved_from _ _ _ _ hW, mulV_add, mulV_smul, smul_add, hb,
    mulV_sub, mulV_smul, smul_sub]
  have e3 : m'.2.1 • k₁ • mulV m'.1 (mulV Q₁ (centroidFrom d)) = k₂ • m.2.1 • mulV Q₂ (mulV m.1 (centroidFrom d)) := by
    rw [e2, e1, ← mulV_mulV, Matrix.mul_assoc, orth_comm hQ₁, Matrix.mul_one, mulV_mulV, smul_smul, smul_smul,
      div_mul_cancel₀ _ hk₁.ne']
  rw [e3]
  abel

/-- **C206** The direct alignment does not depend on the frames its points are given in: if the source is given
in another frame and scale (rotation `A₁`, scale `k₁`, translation `b₁`) and so is the target (`A₂`, `k₂`, `b₂`),
the new estimate takes every moved source point to where the old estimate, moved like the target, takes the point. -/
theorem C206_frames {nrm : V3 K → K} (hn : IsNorm nrm) (svd : M3 K → M3 K × M3 K)
    (hsvd : ∀ M, ∃ s, IsSvd M (svd M).1 s (svd M).2)
    (τ : Trig K) (euler : M3 K → V3 K) (heul : ∀ A, IsRot A → eulerMat τ (euler A) = A)
    (weights : List K) (source target : List (V3 K)) (d : List (K × V3 K × V3 K))
    (hd : d = weighted weights source target) (hw : ∀ x ∈ d, 0 < x.1)
    (hdiff : ∃ x ∈ d, ∃ y ∈ d, x.2.1 ≠ y.2.1) (hdet : 0 < (crossCov d).det)
    (old : List (Param K)) (hret : helmert nrm svd euler weights source target = .ok old)
    {A₁ A₂ : M3 K} (hA₁ : IsRot A₁) (hA₂ : IsRot A₂) {k₁ k₂ : K} (hk₁ : 0 < k₁) (hk₂ : 0 < k₂) (b₁ b₂ : V3 K) :
    ∃ new, helmert nrm svd euler weights (source.map (fun p => b₁ + k₁ • mulV A₁ p))
        (target.map (fun p => b₂ + k₂ • mulV A₂ p)) = .ok new ∧
      ∀ p, helmertApplyTo τ new (b₁ + k₁ • mulV A₁ p) = b₂ + k₂ • mulV A₂ (helmertApplyTo τ old p) := by
  obtain ⟨s, hs⟩ := hsvd (crossCov d)
  have hrot := C85_proper_partial nrm svd d s hs hdet
  have hd2 : weighted weights (source.map (fun p => b₁ + k₁ • mulV A₁ p)) (target.map (fun p => b₂ + k₂ • mulV A₂ p)) =
      movedTo A₂ k₂ b₂ (movedPts A₁ k₁ b₁ d) := by
    rw [hd]
    simp only [weighted, movedTo, movedPts, List.map_map]
    rw [show ((fun _ => (1 : K)) ∘ (fun p => b₁ + k₁ • mulV A₁ p) : V3 K → K) = fun _ => 1 from rfl]
    generalize (if weights = [] then source.map (fun _ => (1 : K)) else weights) = w
    rw [List.zip_map, List.zip_map_right]
    refine List.map_congr_left fun x _ => ?_
    rfl
  have hok : ∃ new, helmert nrm svd euler weights (source.map (fun p => b₁ + k₁ • mulV A₁ p))
        (target.map (fun p => b₂ + k₂ • mulV A₂ p)) = .ok new := by
    unfold helmert at hret ⊢
    simp only [List.length_map, List.map_map, List.length_eq_zero_iff] at hret ⊢
    by_cases hl : (if weights = [] then source.map (fun _ => (1 : K)) else weights).length ≠ source.length ∨
      target.length ≠ source.length
    · rw [if_pos hl] at hret
      cases hret
    · exact ⟨_, if_neg hl⟩
  obtain ⟨new, h2⟩ := hok
  refine ⟨new, h2, fun p => ?_⟩
  have e1 := helmert_returns nrm svd euler weights source target old hret τ p
  have e2 := helmert_returns nrm svd euler weights _ _ new h2 τ (b₁ + k₁ • mulV A₁ p)
  obtain ⟨n1, n2, n3⟩ := core_natural hn svd hsvd d hw hdiff hdet.ne' hA₁.1 hA₂.1 hk₁ hk₂ b₁ b₂
  have hrot' : IsRot (helmertCore nrm svd (movedTo A₂ k₂ b₂ (movedPts A₁ k₁ b₁ d))).1 := by
    rw [n1]
    refine ⟨orth_mul (orth_mul hA₂.1 hrot.1) (orth_transpose hA₁.1), ?_⟩
    rw [Matrix.det_mul, Matrix.det_mul, Matrix.det_transpose, hA₁.2, hA₂.2, hrot.2]
    ring
  simp only [← hd] at e1
  simp only [hd2] at e2
  rw [heul _ hrot] at e1
  rw [heul _ hrot'] at e2
  rw [e1, e2, n3, mulV_add, smul_add, mulV_smul, mulV_add, smul_add, mulV_smul]
  have e3 : (helmertCore nrm svd (movedTo A₂ k₂ b₂ (movedPts A₁ k₁ b₁ d))).2.1 • k₁ •
      mulV (helmertCore nrm svd (movedTo A₂ k₂ b₂ (movedPts A₁ k₁ b₁ d))).1 (mulV A₁ p) =
      k₂ • (helmertCore nrm svd d).2.1 • mulV A₂ (mulV (helmertCore nrm svd d).1 p) := by
    rw [n2, n1, ← mulV_mulV, Matrix.mul_assoc, orth_comm hA₁.1, Matrix.mul_one, mulV_mulV, smul_smul, smul_smul,
      div_mul_cancel₀ _ hk₁.ne']
  rw [e3]
  abel

theorem mulV_neg_left (A : M3 K) (v : V3 K) : mulV (-A) v = -mulV A v := by
  ext <;> simp [mulV] <;> ring

/-- only one similarity has the smallest error -/
theorem core_unique {nrm : V3 K → K} (hn : IsNorm nrm) (svd : M3 K → M3 K × M3 K) (d : Pts K)
    (hw : ∀ x ∈ d, 0 < x.1) (hdiff : ∃ x ∈ d, ∃ y ∈ d, x.2.1 ≠ y.2.1) (s : Fin 3 → K)
    (hsvd : IsSvd (crossCov d) (svd (crossCov d)).1 s (svd (crossCov d)).2) (hdet : (crossCov d).det ≠ 0)
    {Q : M3 K} (hQ : Q * Q.transpose = 1) (k : K) (b : V3 K)
    (hle : sqErr d Q k b ≤ sqErr d (helmertCore nrm svd d).1 (helmertCore nrm svd d).2.1 (helmertCore nrm svd d).2.2)
    (p : V3 K) :
    b + k • mulV Q p = (helmertCore nrm svd d).2.2 + (helmertCore nrm svd d).2.1 • mulV (helmertCore nrm svd d).1 p := by
  have hne : d ≠ [] := by
    obtain ⟨x, hx, _⟩ := hdiff
    rintro rfl
    cases hx
  have hW := sumWeights_pos d hw hne
  have hS := spread_pos d hw hdiff
  rw [crossCov_eq] at hsvd hdet
  set m := helmertCore nrm svd d with hm
  have hm1 : m.1 = (svd (moment (centered d))).2.transpose * (svd (moment (centered d))).1.transpose := rfl
  have hR := svd_orth hsvd
  rw [← hm1] at hR
  have htr := trace_svd_best hsvd
  rw [← hm1] at htr
  have hm2 : m.2.1 = (m.1 * moment (centered d)).trace / ((centered d).map (fun x => x.1 * V3.normSq x.2.1)).sum := by
    rw [← scale_eq, ← spread_eq hn]
    rfl
  have hm3 : m.2.2 = centroidTo d - m.2.1 • mulV m.1 (centroidFrom d) := rfl
  obtain ⟨t1, t2⟩ := trace_svd hsvd hQ
  have hspos := pos_values hsvd hdet
  rw [sqErr_split d hW.ne' hR, sqErr_split d hW.ne' hQ] at hle
  have he : centroidTo d - m.2.2 - m.2.1 • mulV m.1 (centroidFrom d) = 0 := by rw [hm3]; abel
  have h0 : V3.normSq (0 : V3 K) = 0 := by simp [V3.normSq]
  rw [he, htr, h0, mul_zero] at hle
  rw [htr] at hm2
  have hu1 := fun ht => trace_unique hsvd hspos hQ ht
  have hu2 := fun ht => trace_unique (Y := -Q) hsvd hspos (by simpa using hQ) ht
  rw [← hm1] at hu1 hu2
  rw [Matrix.neg_mul, Matrix.trace_neg] at hu2
  set S := ((centered d).map (fun x => x.1 * V3.normSq x.2.1)).sum with hSdef
  set G := ((centered d).map (fun x => x.1 * V3.normSq x.2.2)).sum
  set T := ∑ i, s i with hT
  set t := (Q * moment (centered d)).trace
  set e := centroidTo d - b - k • mulV Q (centroidFrom d) with hed
  have hTn : 0 < T := Finset.sum_pos (fun i _ => hspos i) Finset.univ_nonempty
  have hmS : m.2.1 * S = T := by rw [hm2, div_mul_cancel₀ _ hS.ne']
  have hE := mul_nonneg hW.le (normSq_nonneg e)
  have hsq : t * t ≤ T * T := by nlinarith
  have h5 : m.2.1 * m.2.1 * S = m.2.1 * T := by rw [mul_assoc, hmS]
  have h6 : S * (m.2.1 * T) = T * T := by rw [← mul_assoc, mul_comm S, hmS]
  have key : (k * S - t) * (k * S - t) + (T * T - t * t) + S * (sumWeights d * V3.normSq e) ≤ 0 := by
    have := mul_le_mul_of_nonneg_left hle hS.le
    rw [h5] at this
    nlinarith
  have hE2 := mul_nonneg hS.le hE
  have hks := mul_self_nonneg (k * S - t)
  have k1 : k * S = t := by
    have := mul_self_eq_zero.1 (le_antisymm (by linarith) hks : (k * S - t) * (k * S - t) = 0)
    linarith
  have k2 : t * t = T * T := by linarith
  have k3 : e = 0 := by
    by_contra hne
    have := mul_pos hS (mul_pos hW (normSq_pos e hne))
    linarith
  have kb : b = centroidTo d - k • mulV Q (centroidFrom d) := by
    rw [hed, sub_sub, sub_eq_zero] at k3
    rw [k3]
    abel
  have hmap : ∀ v, k • mulV Q v = m.2.1 • mulV m.1 v := by
    intro v
    rcases mul_self_eq_mul_self_iff.1 k2 with h | h
    · rw [← hu1 h.ge]
      congr 1
      exact mul_right_cancel₀ hS.ne' (by rw [k1, h, hmS])
    · rw [← hu2 (by rw [h, neg_neg]), mulV_neg_left, smul_neg, ← neg_smul]
      congr 1
      exact mul_right_cancel₀ hS.ne' (by rw [k1, h, neg_mul, hmS])
  rw [kb, hm3, hmap, hmap]

/-- **C206**, the best one: a similarity whose weighted sum of squared distances is not larger than that of the
direct estimate takes every point to the same place. -/
theorem C206_only_best {nrm : V3 K → K} (hn : IsNorm nrm) (svd : M3 K → M3 K × M3 K)
    (τ : Trig K) (euler : M3 K → V3 K) (heul : ∀ A, IsRot A → eulerMat τ (euler A) = A)
    (weights : List K) (source target : List (V3 K)) (d : List (K × V3 K × V3 K))
    (hd : d = weighted weights source target) (hw : ∀ x ∈ d, 0 < x.1)
    (hdiff : ∃ x ∈ d, ∃ y ∈ d, x.2.1 ≠ y.2.1) (s : Fin 3 → K)
    (hsvd : IsSvd (crossCov d) (svd (crossCov d)).1 s (svd (crossCov d)).2) (hdet : 0 < (crossCov d).det)
    (ps : List (Param K)) (hret : helmert nrm svd euler weights source target = .ok ps)
    (Q : M3 K) (hQ : Q * Q.transpose = 1) (k : K) (b : V3 K)
    (hle : sqErr d Q k b ≤ (d.map (fun x => x.1 * V3.normSq (x.2.2 - helmertApplyTo τ ps x.2.1))).sum) (p : V3 K) :
    b + k • mulV Q p = helmertApplyTo τ ps p := by
  have hf : ∀ p, helmertApplyTo τ ps p = (helmertCore nrm svd d).2.2 +
      (helmertCore nrm svd d).2.1 • mulV (helmertCore nrm svd d).1 p := by
    intro p
    have := helmert_returns nrm svd euler weights source target ps hret τ p
    simp only [← hd] at this
    rw [this, heul _ (C85_proper_partial nrm svd d s hsvd hdet)]
  rw [hf]
  refine core_unique hn svd d hw hdiff s hsvd hdet.ne' hQ k b (hle.trans (le_of_eq ?_)) p
  unfold sqErr
  congr 1
  exact List.map_congr_left fun x _ => by rw [hf]

/-- **C206**, order and library: the same points with the same weights in another order, and another correct
singular value decomposition and another correct choice of angles, give the same transformation. -/
theorem C206_order {nrm : V3 K → K} (hn : IsNorm nrm) (svd svd' : M3 K → M3 K × M3 K)
    (hsvd : ∀ M, ∃ s, IsSvd M (svd M).1 s (svd M).2) (hsvd' : ∀ M, ∃ s, IsSvd M (svd' M).1 s (svd' M).2)
    (τ : Trig K) (euler euler' : M3 K → V3 K) (heul : ∀ A, IsRot A → eulerMat τ (euler A) = A)
    (heul' : ∀ A, IsRot A → eulerMat τ (euler' A) = A)
    (weights weights' : List K) (source target source' target' : List (V3 K)) (d : List (K × V3 K × V3 K))
    (hd : d = weighted weights source target) (hd' : (weighted weights' source' target').Perm d) (hw : ∀ x ∈ d, 0 < x.1)
    (hdiff : ∃ x ∈ d, ∃ y ∈ d, x.2.1 ≠ y.2.1) (hdet : 0 < (crossCov d).det)
    (ps ps' : List (Param K)) (hret : helmert nrm svd euler weights source target = .ok ps)
    (hret' : helmert nrm svd' euler' weights' source' target' = .ok ps') (p : V3 K) :
    helmertApplyTo τ ps' p = helmertApplyTo τ ps p := by
  have hmean : ∀ {a b : List (K × V3 K)}, a.Perm b → wMean a = wMean b := by
    intro a b h
    unfold wMean
    rw [(h.map _).sum_eq, (h.map _).sum_eq]
  have hcov : crossCov (weighted weights' source' target') = crossCov d := by
    unfold crossCov
    rw [(hd'.map _).sum_eq, show sourceMean (weighted weights' source' target') = sourceMean d from hmean (hd'.map _),
      show targetMean (weighted weights' source' target') = targetMean d from hmean (hd'.map _)]
  obtain ⟨s, hs⟩ := hsvd (crossCov d)
  obtain ⟨s', hs'⟩ := hsvd' (crossCov (weighted weights' source' target'))
  have hdet' : 0 < (crossCov (weighted weights' source' target')).det := by rwa [hcov]
  have hrot' := C85_proper_partial nrm svd' _ s' hs' hdet'
  have hf : ∀ p, helmertApplyTo τ ps' p = (helmertCore nrm svd' (weighted weights' source' target')).2.2 +
      (helmertCore nrm svd' (weighted weights' source' target')).2.1 •
        mulV (helmertCore nrm svd' (weighted weights' source' target')).1 p := by
    intro p
    have := helmert_returns nrm svd' euler' weights' source' target' ps' hret' τ p
    simp only at this
    rw [this, heul' _ hrot']
  rw [hf]
  refine C206_only_best hn svd τ euler heul weights source target d hd hw hdiff s hs hdet ps hret _ hrot'.1 _ _ ?_ p
  have hf2 : ∀ p, helmertApplyTo τ ps p = (helmertCore nrm svd d).2.2 +
      (helmertCore nrm svd d).2.1 • mulV (helmertCore nrm svd d).1 p := by
    intro p
    have := helmert_returns nrm svd euler weights source target ps hret τ p
    simp only [← hd] at this
    rw [this, heul _ (C85_proper_partial nrm svd d s hs hdet)]
  have h1 := core_optimal hn svd' (weighted weights' source' target') (fun x hx => hw x (hd'.mem_iff.1 hx))
    (by
      obtain ⟨x, hx, y, hy, hxy⟩ := hdiff
      exact ⟨x, hd'.mem_iff.2 hx, y, hd'.mem_iff.2 hy, hxy⟩) s' hs' (helmertCore nrm svd d).1
    (C85_proper_partial nrm svd d s hs hdet).1 (helmertCore nrm svd d).2.1 (helmertCore nrm svd d).2.2
  simp only at h1
  have hperm : ∀ (Q : M3 K) (k : K) (b : V3 K), sqErr (weighted weights' source' target') Q k b = sqErr d Q k b :=
    fun Q k b => (hd'.map _).sum_eq
  rw [hperm, hperm] at h1
  refine h1.trans (le_of_eq ?_)
  unfold sqErr
  congr 1
  exact List.map_congr_left fun x _ => by rw [hf2]

/-- the hypotheses of `C206_frames`, `C206_only_best` and `C206_order` can be met -/
example : ∃ (svd : M3 ℝ → M3 ℝ × M3 ℝ) (old new : List (Param ℝ)), (∀ M, ∃ s, IsSvd M (svd M).1 s (svd M).2) ∧
    helmert realNorm svd realAngles [] exAround exTurned = .ok old ∧
    helmert realNorm svd realAngles [] (exAround.map (fun p => (⟨5, 0, 0⟩ : V3 ℝ) + (3 : ℝ) • mulV 1 p))
      (exTurned.map (fun p => (⟨0, 0, 7⟩ : V3 ℝ) + (2 : ℝ) • mulV 1 p)) = .ok new ∧
    ∀ p, helmertApplyTo realTrig new (⟨5, 0, 0⟩ + (3 : ℝ) • mulV 1 p) =
      ⟨0, 0, 7⟩ + (2 : ℝ) • mulV 1 (helmertApplyTo realTrig old p) := by
  have hsvd : ∀ M : M3 ℝ, ∃ s, IsSvd M (exists_svd M).choose s (exists_svd M).choose_spec.choose_spec.choose :=
    fun M => ⟨_, (exists_svd M).choose_spec.choose_spec.choose_spec⟩
  obtain ⟨new, h1, h2⟩ := C206_frames realNorm_isNorm
    (fun M => ((exists_svd M).choose, (exists_svd M).choose_spec.choose_spec.choose)) hsvd realTrig realAngles realAngles_rot
    [] exAround exTurned _ rfl (by
      intro x hx
      simp only [weighted, if_true] at hx
      have := List.of_mem_zip (a := x.1) (b := x.2) hx
      simp only [List.mem_map] at this
      obtain ⟨⟨_, _, h⟩, _⟩ := this
      rw [← h]
      norm_num) (by
      refine ⟨(1, ⟨1, 1, 0⟩, ⟨3 - 2 * 1, 2 * 1, 2 * 0⟩), by simp [weighted, exAround, exTurned],
        (1, ⟨-1, 1, 0⟩, ⟨3 - 2 * 1, 2 * -1, 2 * 0⟩), by simp [weighted, exAround, exTurned], ?_⟩
      intro h
      have := congrArg V3.x h
      norm_num at this) (by
      rw [exTurned_cov]
      simp [Matrix.det_fin_three]) _ rfl (A₁ := 1) (A₂ := 1) ⟨by simp, Matrix.det_one⟩ ⟨by simp, Matrix.det_one⟩
    (k₁ := 3) (k₂ := 2) (by norm_num) (by norm_num) ⟨5, 0, 0⟩ ⟨0, 0, 7⟩
  exact ⟨_, _, new, hsvd, rfl, h1, h2⟩

end TC
