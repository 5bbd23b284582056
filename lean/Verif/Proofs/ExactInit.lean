import Verif.Proofs.ExactRank
import Verif.Props.Direct
import Mathlib.Analysis.Matrix.PosDef
/-!
The direct estimate for points that are related by a similarity transformation.
-/
namespace TC
set_option linter.unusedSectionVars false
open Obs Adjust Equations Matrix Direct

theorem outer_moved (a : V3 ℝ) (Q : M3 ℝ) (κ : ℝ) : outerV a (κ • mulV Q a) = κ • (outerV a a * Qᵀ) := by
  ext i j
  simp only [Matrix.smul_apply, Matrix.mul_apply, Fin.sum_univ_three, Matrix.transpose_apply, smul_eq_mul]
  fin_cases i <;> fin_cases j <;> simp [outerV, mulV] <;> ring

theorem sum_moved (l : List (V3 ℝ)) (Q : M3 ℝ) (κ : ℝ) :
    (l.map (fun a => outerV a (κ • mulV Q a))).sum = κ • ((l.map (fun a => outerV a a)).sum * Qᵀ) := by
  induction l with
  | nil => simp
  | cons a l ih =>
    rw [List.map_cons, List.sum_cons, ih, outer_moved, List.map_cons, List.sum_cons, Matrix.add_mul, smul_add]

theorem quad_outer (l : List (V3 ℝ)) (x : Fin 3 → ℝ) :
    x ⬝ᵥ ((l.map (fun a => outerV a a)).sum *ᵥ x) = (l.map (fun a => V3.dot ⟨x 0, x 1, x 2⟩ a ^ 2)).sum := by
  induction l with
  | nil => simp
  | cons a l ih =>
    simp only [List.map_cons, List.sum_cons, Matrix.add_mulVec, dotProduct_add, ih]
    congr 1
    simp [outerV, V3.dot, Matrix.mulVec, dotProduct, Fin.sum_univ_three]
    ring

theorem sum_outer_symm (l : List (V3 ℝ)) : ((l.map (fun a => outerV a a)).sum)ᵀ = (l.map (fun a => outerV a a)).sum := by
  induction l with
  | nil => simp
  | cons a l ih =>
    simp only [List.map_cons, List.sum_cons, Matrix.transpose_add, ih]
    congr 1
    ext i j
    fin_cases i <;> fin_cases j <;> simp [outerV] <;> ring

theorem sum_sq_pos (l : List (V3 ℝ)) (f : V3 ℝ → ℝ) (h : ∃ a ∈ l, f a ≠ 0) : 0 < (l.map (fun a => f a ^ 2)).sum := by
  induction l with
  | nil => obtain ⟨_, h, _⟩ := h; cases h
  | cons a l ih =>
    have hn : 0 ≤ (l.map (fun a => f a ^ 2)).sum := sum_nonneg_of _ _ fun x _ => sq_nonneg _
    rw [List.map_cons, List.sum_cons]
    by_cases ha : f a = 0
    · obtain ⟨y, hy, hf⟩ := h
      have : y ∈ l := by
        rcases List.mem_cons.1 hy with rfl | h'
        · exact absurd ha hf
        · exact h'
      have := ih ⟨y, this, hf⟩
      have := sq_nonneg (f a)
      linarith
    · have : 0 < f a ^ 2 := by positivity
      linarith

theorem scatter_det_pos (l : List (V3 ℝ)) (h : ∀ n : V3 ℝ, (∀ a ∈ l, V3.dot n a = 0) → n = 0) :
    0 < ((l.map (fun a => outerV a a)).sum).det := by
  have hpd : ((l.map (fun a => outerV a a)).sum).PosDef := by
    refine Matrix.PosDef.of_dotProduct_mulVec_pos ?_ ?_
    · unfold Matrix.IsHermitian
      rw [Matrix.conjTranspose_eq_transpose_of_trivial]
      exact sum_outer_symm l
    · intro x hx
      rw [star_trivial, quad_outer]
      apply sum_sq_pos
      by_contra hc
      push Not at hc
      have := h _ hc
      apply hx
      have h0 := congrArg V3.x this
      have h1 := congrArg V3.y this
      have h2 := congrArg V3.z this
      funext j
      fin_cases j
      · exact h0
      · exact h1
      · exact h2
  exact hpd.det_pos

/-- the points of one list and their images -/
noncomputable def movedPairs (source : List (V3 ℝ)) (Q : M3 ℝ) (κ : ℝ) (b : V3 ℝ) : List (ℝ × V3 ℝ × V3 ℝ) :=
  source.map (fun p => (1, p, b + κ • mulV Q p))

theorem weighted_moved (source : List (V3 ℝ)) (Q : M3 ℝ) (κ : ℝ) (b : V3 ℝ) :
    weighted [] source (source.map (fun p => b + κ • mulV Q p)) = movedPairs source Q κ b := by
  unfold weighted movedPairs
  rw [if_pos rfl]
  induction source with
  | nil => rfl
  | cons p l ih =>
    simp only [List.map_cons, List.zip_cons_cons, ih]

theorem sum_v3_moved (l : List (V3 ℝ)) (Q : M3 ℝ) (κ : ℝ) (b : V3 ℝ) :
    (l.map (fun p => b + κ • mulV Q p)).sum = (l.length : ℝ) • b + κ • mulV Q l.sum := by
  induction l with
  | nil => ext <;> simp [mulV]
  | cons p l ih =>
    simp only [List.map_cons, List.sum_cons, ih, List.length_cons]
    push_cast
    ext <;> simp [mulV] <;> ring

theorem sum_ones (l : List (V3 ℝ)) : (l.map (fun _ => (1 : ℝ))).sum = l.length := by
  induction l with
  | nil => simp
  | cons p l ih =>
    simp only [List.map_cons, List.sum_cons, ih, List.length_cons]
    push_cast
    ring

theorem crossCov_moved (source : List (V3 ℝ)) (hne : source ≠ []) (Q : M3 ℝ) (κ : ℝ) (b : V3 ℝ) :
    crossCov (movedPairs source Q κ b) =
      κ • (((source.map (fun p => p - (source.length : ℝ)⁻¹ • source.sum)).map (fun a => outerV a a)).sum * Qᵀ) := by
  have hl : (source.length : ℝ) ≠ 0 := by
    have : source.length ≠ 0 := fun h => hne (List.length_eq_zero_iff.1 h)
    exact_mod_cast this
  have hs : sourceMean (movedPairs source Q κ b) = (source.length : ℝ)⁻¹ • source.sum := by
    unfold sourceMean wMean movedPairs
    simp only [List.map_map, Function.comp_def, one_smul, List.map_id', sum_ones]
  have ht : targetMean (movedPairs source Q κ b) = b + κ • mulV Q ((source.length : ℝ)⁻¹ • source.sum) := by
    unfold targetMean wMean movedPairs
    simp only [List.map_map, Function.comp_def, one_smul, sum_ones, sum_v3_moved]
    ext <;> simp [mulV] <;> field_simp
  unfold crossCov
  rw [hs, ht, ← sum_moved]
  unfold movedPairs
  simp only [List.map_map, Function.comp_def, one_smul]
  congr 1
  refine List.map_congr_left fun p _ => ?_
  congr 1
  ext <;> simp [mulV] <;> ring

theorem affine_zero_mem {source : List (V3 ℝ)} (hpts : ∀ (n : V3 ℝ) (h : ℝ), (∀ p ∈ source, V3.dot n p = h) → n = 0)
    (t : V3 ℝ) (M : M3 ℝ) (h : ∀ p ∈ source, t + mulV M p = 0) : t = 0 ∧ M = 0 := by
  have hne : 0 < source.length := by
    rcases source with _ | ⟨p, l⟩
    · have := hpts ⟨1, 0, 0⟩ 0 (fun p hp => by cases hp)
      have := congrArg V3.x this
      simp at this
    · simp
  refine affine_zero (E := source.length) (pts := fun k => source.getD k 0) ?_ hne t M ?_
  · intro n c hc
    refine hpts n c fun p hp => ?_
    obtain ⟨k, hk, rfl⟩ := List.getElem_of_mem hp
    have := hc k hk
    beta_reduce at this
    rwa [List.getD_eq_getElem?_getD, List.getElem?_eq_getElem hk, Option.getD_some] at this
  · intro k hk
    rw [List.getD_eq_getElem?_getD, List.getElem?_eq_getElem hk, Option.getD_some]
    exact h _ (List.getElem_mem hk)

/-- the direct estimate recovers a similarity transformation from points that it relates, unless these lie
in a plane -/
theorem helmertCore_exact {nrm : V3 ℝ → ℝ} (hn : IsNorm nrm) (svd : M3 ℝ → M3 ℝ × M3 ℝ) (source : List (V3 ℝ))
    (hpts : ∀ (n : V3 ℝ) (h : ℝ), (∀ p ∈ source, V3.dot n p = h) → n = 0) (Q : M3 ℝ) (hQ : IsRot Q) (κ : ℝ) (hκ : 0 < κ)
    (b : V3 ℝ) (s : Fin 3 → ℝ)
    (hsvd : IsSvd (crossCov (movedPairs source Q κ b)) (svd (crossCov (movedPairs source Q κ b))).1 s
      (svd (crossCov (movedPairs source Q κ b))).2) :
    helmertCore nrm svd (movedPairs source Q κ b) = (Q, κ, b) := by
  have hne : source ≠ [] := by
    rintro rfl
    have := hpts ⟨1, 0, 0⟩ 0 (fun p hp => by cases hp)
    have := congrArg V3.x this
    simp at this
  have hdet : 0 < (crossCov (movedPairs source Q κ b)).det := by
    rw [crossCov_moved source hne, Matrix.det_smul, Matrix.det_mul, Matrix.det_transpose, hQ.2, mul_one]
    have h1 := scatter_det_pos (source.map (fun p => p - (source.length : ℝ)⁻¹ • source.sum)) (by
      intro n h
      refine hpts n (V3.dot n ((source.length : ℝ)⁻¹ • source.sum)) fun p hp => ?_
      have := h _ (List.mem_map_of_mem hp)
      simp only [V3.dot, V3.sub_x, V3.sub_y, V3.sub_z] at this ⊢
      linarith)
    positivity
  have hdiff : ∃ x ∈ movedPairs source Q κ b, ∃ y ∈ movedPairs source Q κ b, x.2.1 ≠ y.2.1 := by
    by_contra hc
    push Not at hc
    obtain ⟨p, hp⟩ := List.exists_mem_of_ne_nil _ hne
    have := hpts ⟨1, 0, 0⟩ p.x (fun q hq => by
      have := hc _ (List.mem_map_of_mem (f := fun p => ((1 : ℝ), p, b + κ • mulV Q p)) hq) _
        (List.mem_map_of_mem (f := fun p => ((1 : ℝ), p, b + κ • mulV Q p)) hp)
      simp only at this
      rw [this]
      simp [V3.dot])
    have := congrArg V3.x this
    simp at this
  have hw : ∀ x ∈ movedPairs source Q κ b, 0 < x.1 := by
    intro x hx
    obtain ⟨p, _, rfl⟩ := List.mem_map.1 hx
    exact one_pos
  have hopt := core_optimal hn svd (movedPairs source Q κ b) hw hdiff s hsvd Q hQ.1 κ b
  have hrot := C85_proper_partial nrm svd (movedPairs source Q κ b) s hsvd hdet
  generalize helmertCore nrm svd (movedPairs source Q κ b) = m at hopt hrot
  obtain ⟨R, k, t⟩ := m
  simp only at hopt hrot
  have h0 : sqErr (movedPairs source Q κ b) Q κ b = 0 := by
    unfold sqErr movedPairs
    rw [List.map_map]
    refine List.sum_eq_zero fun x hx => ?_
    obtain ⟨p, _, rfl⟩ := List.mem_map.1 hx
    simp [V3.normSq]
  rw [h0] at hopt
  have hmem : ∀ p ∈ source, b + κ • mulV Q p = t + k • mulV R p := by
    intro p hp
    by_contra hc
    have hz : V3.normSq (b + κ • mulV Q p - (t + k • mulV R p)) > 0 := normSq_pos _ (sub_ne_zero.2 hc)
    obtain ⟨l1, l2, rfl⟩ := List.append_of_mem hp
    unfold sqErr movedPairs at hopt
    rw [List.map_map, List.map_append, List.sum_append, List.map_cons, List.sum_cons] at hopt
    have h1 := sum_nonneg_of ((fun x : ℝ × V3 ℝ × V3 ℝ => x.1 * V3.normSq (x.2.2 - (t + k • mulV R x.2.1))) ∘
      fun p => ((1 : ℝ), p, b + κ • mulV Q p)) l1 (fun x _ => mul_nonneg one_pos.le (normSq_nonneg _))
    have h2 := sum_nonneg_of ((fun x : ℝ × V3 ℝ × V3 ℝ => x.1 * V3.normSq (x.2.2 - (t + k • mulV R x.2.1))) ∘
      fun p => ((1 : ℝ), p, b + κ • mulV Q p)) l2 (fun x _ => mul_nonneg one_pos.le (normSq_nonneg _))
    simp only [Function.comp_def, one_mul] at h1 h2 hopt
    linarith
  obtain ⟨e1, e2⟩ := affine_zero_mem hpts (b - t) (κ • Q - k • R) (fun p hp => by
    have h := hmem p hp
    have hx := congrArg V3.x h
    have hy := congrArg V3.y h
    have hz := congrArg V3.z h
    simp only [mulV, V3.add_x, V3.add_y, V3.add_z, V3.smul_x, V3.smul_y, V3.smul_z] at hx hy hz
    ext <;> simp [mulV] <;> linarith)
  have hb : b = t := sub_eq_zero.1 e1
  have hM : κ • Q = k • R := sub_eq_zero.1 e2
  have hd := congrArg Matrix.det hM
  rw [Matrix.det_smul, Matrix.det_smul, hQ.2, hrot.2] at hd
  simp only [Fintype.card_fin, mul_one] at hd
  have hk : κ = k := by
    have : Odd 3 := by decide
    exact this.strictMono_pow.injective hd
  subst hk hb
  have : Q = R := smul_right_injective _ hκ.ne' hM
  rw [this]

end TC
