import Verif.Proofs.ExactFit
/-!
The rank of the design matrix of a similarity transformation.
-/
namespace TC
set_option linter.unusedSectionVars false
open Obs Adjust Equations Matrix

theorem hasDerivAt_trig {f : ℝ → ℝ} (a b c x d : ℝ) (h : ∀ t, f t = a * Real.cos t + b * Real.sin t + c)
    (hd : d = -a * Real.sin x + b * Real.cos x) : HasDerivAt f d x := by
  have : f = fun t => a * Real.cos t + b * Real.sin t + c := funext h
  rw [this, hd]
  have h1 : HasDerivAt (fun t => a * Real.cos t) (a * -Real.sin x) x := (Real.hasDerivAt_cos x).const_mul a
  have h2 : HasDerivAt (fun t => b * Real.sin t) (b * Real.cos x) x := (Real.hasDerivAt_sin x).const_mul b
  have h3 := (h1.add h2).add_const c
  have he : a * -Real.sin x + b * Real.cos x = -a * Real.sin x + b * Real.cos x := by ring
  rw [← he]
  exact h3

theorem realEuler_entries (e : V3 ℝ) : eulerMat realTrig e =
    !![Real.cos e.y * Real.cos e.z, Real.sin e.x * Real.sin e.y * Real.cos e.z - Real.cos e.x * Real.sin e.z,
       Real.cos e.x * Real.sin e.y * Real.cos e.z + Real.sin e.x * Real.sin e.z;
       Real.cos e.y * Real.sin e.z, Real.sin e.x * Real.sin e.y * Real.sin e.z + Real.cos e.x * Real.cos e.z,
       Real.cos e.x * Real.sin e.y * Real.sin e.z - Real.sin e.x * Real.cos e.z;
       -Real.sin e.y, Real.sin e.x * Real.cos e.y, Real.cos e.x * Real.cos e.y] := by
  ext i j
  fin_cases i <;> fin_cases j <;>
    simp [eulerMat, rotX, rotY, rotZ, realTrig, Matrix.mul_apply, Fin.sum_univ_three] <;> ring

/-- derivative of the rotation matrix with respect to the first angle -/
noncomputable def dRotX (r : V3 ℝ) : M3 ℝ :=
  !![0, Real.cos r.x * Real.sin r.y * Real.cos r.z + Real.sin r.x * Real.sin r.z,
      -Real.sin r.x * Real.sin r.y * Real.cos r.z + Real.cos r.x * Real.sin r.z;
     0, Real.cos r.x * Real.sin r.y * Real.sin r.z - Real.sin r.x * Real.cos r.z,
      -Real.sin r.x * Real.sin r.y * Real.sin r.z - Real.cos r.x * Real.cos r.z;
     0, Real.cos r.x * Real.cos r.y, -Real.sin r.x * Real.cos r.y]
/-- with respect to the second angle -/
noncomputable def dRotY (r : V3 ℝ) : M3 ℝ :=
  !![-Real.sin r.y * Real.cos r.z, Real.sin r.x * Real.cos r.y * Real.cos r.z, Real.cos r.x * Real.cos r.y * Real.cos r.z;
     -Real.sin r.y * Real.sin r.z, Real.sin r.x * Real.cos r.y * Real.sin r.z, Real.cos r.x * Real.cos r.y * Real.sin r.z;
     -Real.cos r.y, -Real.sin r.x * Real.sin r.y, -Real.cos r.x * Real.sin r.y]
/-- with respect to the third angle -/
noncomputable def dRotZ (r : V3 ℝ) : M3 ℝ :=
  !![-Real.cos r.y * Real.sin r.z, -Real.sin r.x * Real.sin r.y * Real.sin r.z - Real.cos r.x * Real.cos r.z,
      -Real.cos r.x * Real.sin r.y * Real.sin r.z + Real.sin r.x * Real.cos r.z;
     Real.cos r.y * Real.cos r.z, Real.sin r.x * Real.sin r.y * Real.cos r.z - Real.cos r.x * Real.sin r.z,
      Real.cos r.x * Real.sin r.y * Real.cos r.z + Real.sin r.x * Real.sin r.z;
     0, 0, 0]

/-- the point that rotation, scale and translation are applied to -/
noncomputable def movedPoint (q : Params ℝ) (o : Epoch ℝ) : V3 ℝ :=
  o.source + (mulV (eulerMat realTrig o.rpy) q.lever + q.time • o.speed)

theorem misfit_moved (q : Params ℝ) (o : Epoch ℝ) :
    misfit realTrig q o = (q.trans + q.scale • mulV (eulerMat realTrig q.rot) (movedPoint q o)) - o.target := rfl

theorem paramsOf_set_rot (p : List ℝ) (hp : p.length = 11) (e : EstSettings) (v : List ℝ) (i j : Nat) (hj : j < 3) :
    HasDerivAt (fun t => equation realTrig e (paramsOf (p.set (3 + j) t)) v i)
      (coord ((paramsOf p).scale • mulV (match j with
        | 0 => dRotX (paramsOf p).rot
        | 1 => dRotY (paramsOf p).rot
        | _ => dRotZ (paramsOf p).rot) (movedPoint (paramsOf p) (epochOfNumbers e (block (perEpoch e) v (i / 3)))))
        (i % 3)) (p.getD (3 + j) 0) := by
  obtain ⟨b0, b1, b2, b3, b4, b5, b6, b7, b8, b9, b10, rfl⟩ := list_of_11 p hp
  have hi : i % 3 < 3 := by omega
  unfold equation
  generalize i % 3 = c at *
  generalize epochOfNumbers e (block (perEpoch e) v (i / 3)) = o
  have hm : ∀ t, movedPoint (paramsOf ([b0, b1, b2, b3, b4, b5, b6, b7, b8, b9, b10].set (3 + j) t)) o
      = movedPoint (paramsOf [b0, b1, b2, b3, b4, b5, b6, b7, b8, b9, b10]) o := by
    intro t
    interval_cases j <;> rfl
  simp only [misfit_moved, hm]
  generalize movedPoint (paramsOf [b0, b1, b2, b3, b4, b5, b6, b7, b8, b9, b10]) o = m
  interval_cases j <;>
    simp only [paramsOf, List.set, Nat.reduceAdd, List.getD_eq_getElem?_getD, List.getElem?_cons_zero,
      List.getElem?_cons_succ, Option.getD_some, eulerMat_apply, realTrig]
  · interval_cases c
    · refine hasDerivAt_trig (b6 * (-Real.sin b5 * m.y + Real.sin b4 * Real.cos b5 * m.z))
        (b6 * (Real.sin b4 * Real.cos b5 * m.y + Real.sin b5 * m.z))
        (b0 + b6 * (Real.cos b4 * Real.cos b5 * m.x) - o.target.x) _ _ (fun t => ?_) ?_ <;>
      simp [coord, mulV, dRotX] <;> ring
    · refine hasDerivAt_trig (b6 * (Real.cos b5 * m.y + Real.sin b4 * Real.sin b5 * m.z))
        (b6 * (Real.sin b4 * Real.sin b5 * m.y - Real.cos b5 * m.z))
        (b1 + b6 * (Real.cos b4 * Real.sin b5 * m.x) - o.target.y) _ _ (fun t => ?_) ?_ <;>
      simp [coord, mulV, dRotX] <;> ring
    · refine hasDerivAt_trig (b6 * (Real.cos b4 * m.z))
        (b6 * (Real.cos b4 * m.y))
        (b2 + b6 * (-Real.sin b4 * m.x) - o.target.z) _ _ (fun t => ?_) ?_ <;>
      simp [coord, mulV, dRotX] <;> ring
  · interval_cases c
    · refine hasDerivAt_trig (b6 * (Real.cos b5 * m.x))
        (b6 * (Real.sin b3 * Real.cos b5 * m.y + Real.cos b3 * Real.cos b5 * m.z))
        (b0 + b6 * (-Real.cos b3 * Real.sin b5 * m.y + Real.sin b3 * Real.sin b5 * m.z) - o.target.x) _ _ (fun t => ?_) ?_ <;>
      simp [coord, mulV, dRotY] <;> ring
    · refine hasDerivAt_trig (b6 * (Real.sin b5 * m.x))
        (b6 * (Real.sin b3 * Real.sin b5 * m.y + Real.cos b3 * Real.sin b5 * m.z))
        (b1 + b6 * (Real.cos b3 * Real.cos b5 * m.y - Real.sin b3 * Real.cos b5 * m.z) - o.target.y) _ _ (fun t => ?_) ?_ <;>
      simp [coord, mulV, dRotY] <;> ring
    · refine hasDerivAt_trig (b6 * (Real.sin b3 * m.y + Real.cos b3 * m.z))
        (-b6 * m.x)
        (b2 - o.target.z) _ _ (fun t => ?_) ?_ <;>
      simp [coord, mulV, dRotY] <;> ring
  · interval_cases c
    · refine hasDerivAt_trig (b6 * (Real.cos b4 * m.x + Real.sin b3 * Real.sin b4 * m.y + Real.cos b3 * Real.sin b4 * m.z))
        (b6 * (-Real.cos b3 * m.y + Real.sin b3 * m.z))
        (b0 - o.target.x) _ _ (fun t => ?_) ?_ <;>
      simp [coord, mulV, dRotZ] <;> ring
    · refine hasDerivAt_trig (b6 * (Real.cos b3 * m.y - Real.sin b3 * m.z))
        (b6 * (Real.cos b4 * m.x + Real.sin b3 * Real.sin b4 * m.y + Real.cos b3 * Real.sin b4 * m.z))
        (b1 - o.target.y) _ _ (fun t => ?_) ?_ <;>
      simp [coord, mulV, dRotZ] <;> ring
    · refine hasDerivAt_trig 0 0
        (b2 + b6 * (-Real.sin b4 * m.x + Real.sin b3 * Real.cos b4 * m.y + Real.cos b3 * Real.cos b4 * m.z) - o.target.z) _ _ (fun t => ?_) ?_ <;>
      simp [coord, mulV, dRotZ]

theorem paramsOf_set_scale (p : List ℝ) (hp : p.length = 11) (e : EstSettings) (v : List ℝ) (i : Nat) (x : ℝ) :
    HasDerivAt (fun t => equation realTrig e (paramsOf (p.set 6 t)) v i)
      (coord (mulV (eulerMat realTrig (paramsOf p).rot)
        (movedPoint (paramsOf p) (epochOfNumbers e (block (perEpoch e) v (i / 3))))) (i % 3)) x := by
  obtain ⟨b0, b1, b2, b3, b4, b5, b6, b7, b8, b9, b10, rfl⟩ := list_of_11 p hp
  have hi : i % 3 < 3 := by omega
  unfold equation
  generalize i % 3 = c at *
  generalize epochOfNumbers e (block (perEpoch e) v (i / 3)) = o
  have hm : ∀ t, movedPoint (paramsOf ([b0, b1, b2, b3, b4, b5, b6, b7, b8, b9, b10].set 6 t)) o
      = movedPoint (paramsOf [b0, b1, b2, b3, b4, b5, b6, b7, b8, b9, b10]) o := fun t => rfl
  simp only [misfit_moved, hm]
  generalize movedPoint (paramsOf [b0, b1, b2, b3, b4, b5, b6, b7, b8, b9, b10]) o = m
  simp only [paramsOf, List.set, List.getD_eq_getElem?_getD, List.getElem?_cons_zero,
      List.getElem?_cons_succ, Option.getD_some]
  generalize mulV (eulerMat realTrig (⟨b3, b4, b5⟩ : V3 ℝ)) m = r
  interval_cases c
  · refine hasDerivAt_affine _ (b0 - o.target.x) _ fun t => ?_
    simp [coord]
    ring
  · refine hasDerivAt_affine _ (b1 - o.target.y) _ fun t => ?_
    simp [coord]
    ring
  · refine hasDerivAt_affine _ (b2 - o.target.z) _ fun t => ?_
    simp [coord]
    ring

/-- the derivative of scale times rotation in the direction `d` -/
noncomputable def tangent (q : Params ℝ) (d : Nat → ℝ) : M3 ℝ :=
  d 6 • eulerMat realTrig q.rot + q.scale • (d 3 • dRotX q.rot + d 4 • dRotY q.rot + d 5 • dRotZ q.rot)

theorem coord_add_mul (a b : ℝ) (x y : V3 ℝ) (c : Nat) : coord (a • x + b • y) c = a * coord x c + b * coord y c := by
  rcases c with _ | _ | c <;> rfl

/-- the design matrix of the seven parameters of a similarity transformation, applied to a direction -/
theorem similarity_kernel {e : EstSettings} (he : ∀ j ∈ estimated e, j < 7) (p v : List ℝ) (hp : p.length = 11)
    {m n : Nat} (A : Matrix (Fin m) (Fin (estimated e).length) ℝ) (B : Matrix (Fin m) (Fin n) ℝ)
    (hL : Linearised e p v A B) (d : Nat → ℝ) (hd : ∀ j, j ∉ estimated e → d j = 0) (i : Fin m) :
    (A *ᵥ fun a => d ((estimated e)[a.val])) i = coord ((⟨d 0, d 1, d 2⟩ : V3 ℝ) + mulV (tangent (paramsOf p) d)
      (movedPoint (paramsOf p) (epochOfNumbers e (block (perEpoch e) v (i.val / 3))))) (i.val % 3) := by
  set m := movedPoint (paramsOf p) (epochOfNumbers e (block (perEpoch e) v (i.val / 3))) with hm
  rw [mulVec_estimated e A (fun j => (match j with
    | 0 => (if i.val % 3 = 0 then 1 else 0)
    | 1 => (if i.val % 3 = 1 then 1 else 0)
    | 2 => (if i.val % 3 = 2 then 1 else 0)
    | 3 => coord ((paramsOf p).scale • mulV (dRotX (paramsOf p).rot) m) (i.val % 3)
    | 4 => coord ((paramsOf p).scale • mulV (dRotY (paramsOf p).rot) m) (i.val % 3)
    | 5 => coord ((paramsOf p).scale • mulV (dRotZ (paramsOf p).rot) m) (i.val % 3)
    | _ => coord (mulV (eulerMat realTrig (paramsOf p).rot) m) (i.val % 3)) * d j) d i]
  · have hi : i.val % 3 < 3 := by omega
    generalize i.val % 3 = c at *
    have hsel : ∀ g : Nat → ℝ, ((estimated e).map (fun j => g j * d j)).sum = ((List.range 7).map (fun j => g j * d j)).sum := by
      intro g
      have h1 : ((estimated e).map (fun j => g j * d j)).sum
          = ((List.range 11).map (fun j => if j < 7 then g j * d j else 0)).sum := by
        unfold estimated
        rw [sum_filter_map]
        congr 1
        refine List.map_congr_left fun j hj => ?_
        by_cases hP : e.lqParameterFilter.getD j false = true
        · rw [if_pos hP, if_pos (he j (List.mem_filter.2 ⟨hj, hP⟩))]
        · rw [if_neg hP, hd j (fun h => hP (List.mem_filter.1 h).2)]
          simp
      rw [h1]
      simp [List.range, List.range.loop]
    rw [hsel]
    simp only [List.range, List.range.loop, List.map_cons, List.map_nil, List.sum_cons, List.sum_nil]
    unfold tangent
    interval_cases c <;> simp [coord, mulV, Matrix.add_apply, Matrix.smul_apply] <;> ring
  · intro a j ha
    have hj : j < 7 := he j (List.mem_of_getElem? ha)
    have hA := hL.params i a j ha
    congr 1
    interval_cases j
    · exact hA.unique (paramsOf_set_trans _ hp _ _ _ 0 (by omega) _)
    · exact hA.unique (paramsOf_set_trans _ hp _ _ _ 1 (by omega) _)
    · exact hA.unique (paramsOf_set_trans _ hp _ _ _ 2 (by omega) _)
    · exact hA.unique (paramsOf_set_rot _ hp _ _ _ 0 (by omega))
    · exact hA.unique (paramsOf_set_rot _ hp _ _ _ 1 (by omega))
    · exact hA.unique (paramsOf_set_rot _ hp _ _ _ 2 (by omega))
    · exact hA.unique (paramsOf_set_scale _ hp _ _ _ _)

theorem affine_zero {E : Nat} {pts : Nat → V3 ℝ} (hpts : NotCoplanar E pts) (hE : 0 < E) (t : V3 ℝ) (M : M3 ℝ)
    (h : ∀ k < E, t + mulV M (pts k) = 0) : t = 0 ∧ M = 0 := by
  have r0 := hpts ⟨M 0 0, M 0 1, M 0 2⟩ (-t.x) (fun k hk => by
    have := congrArg V3.x (h k hk)
    simp [mulV] at this
    simp [V3.dot]
    linarith)
  have r1 := hpts ⟨M 1 0, M 1 1, M 1 2⟩ (-t.y) (fun k hk => by
    have := congrArg V3.y (h k hk)
    simp [mulV] at this
    simp [V3.dot]
    linarith)
  have r2 := hpts ⟨M 2 0, M 2 1, M 2 2⟩ (-t.z) (fun k hk => by
    have := congrArg V3.z (h k hk)
    simp [mulV] at this
    simp [V3.dot]
    linarith)
  have hM : M = 0 := by
    have a0 := congrArg V3.x r0
    have a1 := congrArg V3.y r0
    have a2 := congrArg V3.z r0
    have b0 := congrArg V3.x r1
    have b1 := congrArg V3.y r1
    have b2 := congrArg V3.z r1
    have c0 := congrArg V3.x r2
    have c1 := congrArg V3.y r2
    have c2 := congrArg V3.z r2
    simp at a0 a1 a2 b0 b1 b2 c0 c1 c2
    ext i j
    fin_cases i <;> fin_cases j <;> simp [*]
  refine ⟨?_, hM⟩
  have := h 0 hE
  subst hM
  have h0 : mulV (0 : M3 ℝ) (pts 0) = 0 := by
    ext <;> simp [mulV]
  rw [h0] at this
  ext
  · simpa using congrArg V3.x this
  · simpa using congrArg V3.y this
  · simpa using congrArg V3.z this

/-- away from the gimbal the seven directions are independent -/
theorem tangent_zero (q : Params ℝ) (d : Nat → ℝ) (hS : q.scale ≠ 0) (hc : Real.cos q.rot.y ≠ 0)
    (h : tangent q d = 0) : d 3 = 0 ∧ d 4 = 0 ∧ d 5 = 0 ∧ d 6 = 0 := by
  have ent : ∀ i j, tangent q d i j = 0 := fun i j => by rw [h]; rfl
  have e00 := ent 0 0
  have e10 := ent 1 0
  have e20 := ent 2 0
  have e21 := ent 2 1
  have e22 := ent 2 2
  simp only [tangent, Matrix.add_apply, Matrix.smul_apply, smul_eq_mul, dRotX, dRotY, dRotZ]
    at e00 e10 e20 e21 e22
  rw [realEuler_entries] at e00 e10 e20 e21 e22
  simp at e00 e10 e20 e21 e22
  have tx := Real.sin_sq_add_cos_sq q.rot.x
  have ty := Real.sin_sq_add_cos_sq q.rot.y
  have tz := Real.sin_sq_add_cos_sq q.rot.z
  generalize Real.sin q.rot.x = sx at *
  generalize Real.cos q.rot.x = cx at *
  generalize Real.sin q.rot.y = sy at *
  generalize Real.cos q.rot.y = cy at *
  generalize Real.sin q.rot.z = sz at *
  generalize Real.cos q.rot.z = cz at *
  generalize q.scale = S at *
  have hA : cy * d 6 - S * sy * d 4 = 0 := by
    linear_combination sx * e21 + cx * e22 - (cy * d 6 - S * sy * d 4) * tx
  have h6 : d 6 = 0 := by
    linear_combination -sy * e20 + cy * hA - d 6 * ty
  rw [h6] at e00 e10 e20 e21 e22
  have hScy : S * cy ≠ 0 := mul_ne_zero hS hc
  have h4 : d 4 = 0 := by
    have : S * cy * d 4 = 0 := by linear_combination -e20
    exact (mul_eq_zero.mp this).resolve_left hScy
  rw [h4] at e00 e10 e21 e22
  have h3 : d 3 = 0 := by
    have : S * cy * d 3 = 0 := by linear_combination cx * e21 - sx * e22 - S * cy * d 3 * tx
    exact (mul_eq_zero.mp this).resolve_left hScy
  have h5 : d 5 = 0 := by
    have : S * cy * d 5 = 0 := by linear_combination -sz * e00 + cz * e10 - S * cy * d 5 * tz
    exact (mul_eq_zero.mp this).resolve_left hScy
  exact ⟨h3, h4, h5, h6⟩

/-- at the gimbal the first and the third angle turn about the same axis -/
theorem tangent_gimbal (q : Params ℝ) (hc : Real.cos q.rot.y = 0) :
    tangent q (fun j => if j = 3 then 1 else if j = 5 then Real.sin q.rot.y else 0) = 0 := by
  have ty := Real.sin_sq_add_cos_sq q.rot.y
  unfold tangent
  ext i j
  simp only [Matrix.add_apply, Matrix.smul_apply, smul_eq_mul, dRotX, dRotY, dRotZ]
  rw [hc] at *
  generalize Real.sin q.rot.x = sx at *
  generalize Real.cos q.rot.x = cx at *
  generalize Real.sin q.rot.y = sy at *
  generalize Real.sin q.rot.z = sz at *
  generalize Real.cos q.rot.z = cz at *
  generalize q.scale = S at *
  fin_cases i <;> fin_cases j <;> simp
  · right; linear_combination (-sx * sz) * ty
  · right; linear_combination (-cx * sz) * ty
  · right; linear_combination (sx * cz) * ty
  · right; linear_combination (cx * cz) * ty

theorem coord_eq_zero (w : V3 ℝ) (h : ∀ c < 3, coord w c = 0) : w = 0 := by
  ext
  · exact h 0 (by omega)
  · exact h 1 (by omega)
  · exact h 2 (by omega)

/-- at the gimbal these are the only dependencies -/
theorem tangent_gimbal_only (q : Params ℝ) (d : Nat → ℝ) (hS : q.scale ≠ 0) (hc : Real.cos q.rot.y = 0)
    (h : tangent q d = 0) (h35 : d 3 = 0 ∨ d 5 = 0) : d 3 = 0 ∧ d 4 = 0 ∧ d 5 = 0 ∧ d 6 = 0 := by
  have ent : ∀ i j, tangent q d i j = 0 := fun i j => by rw [h]; rfl
  have e00 := ent 0 0
  have e01 := ent 0 1
  have e02 := ent 0 2
  have e10 := ent 1 0
  have e11 := ent 1 1
  have e12 := ent 1 2
  have e20 := ent 2 0
  have e21 := ent 2 1
  have e22 := ent 2 2
  simp only [tangent, Matrix.add_apply, Matrix.smul_apply, smul_eq_mul, dRotX, dRotY, dRotZ]
    at e00 e01 e02 e10 e11 e12 e20 e21 e22
  rw [realEuler_entries] at e00 e01 e02 e10 e11 e12 e20 e21 e22
  simp [hc] at e00 e01 e02 e10 e11 e12 e20 e21 e22
  have tx := Real.sin_sq_add_cos_sq q.rot.x
  have ty := Real.sin_sq_add_cos_sq q.rot.y
  have tz := Real.sin_sq_add_cos_sq q.rot.z
  rw [hc] at ty
  have hs : Real.sin q.rot.y ≠ 0 := by
    intro h0
    rw [h0] at ty
    norm_num at ty
  have h6 : d 6 = 0 := by
    rcases e20 with h | h
    · exact h
    · exact absurd h hs
  rw [h6] at e01 e11
  have h4 : d 4 = 0 := by
    rcases e21 with h1 | h1 | h1 | h1
    · exact absurd h1 hS
    · exact h1
    · rcases e22 with h2 | h2 | h2 | h2
      · exact absurd h2 hS
      · exact h2
      · rw [h1, h2] at tx
        norm_num at tx
      · exact absurd h2 hs
    · exact absurd h1 hs
  generalize Real.sin q.rot.x = sx at *
  generalize Real.cos q.rot.x = cx at *
  generalize Real.sin q.rot.y = sy at *
  generalize Real.sin q.rot.z = sz at *
  generalize Real.cos q.rot.z = cz at *
  generalize q.scale = S at *
  have ty' : sy ^ 2 = 1 := by linarith
  have e1 : d 3 * (cx * sy * cz + sx * sz) + d 5 * (-(sx * sy * sz) - cx * cz) = 0 :=
    (mul_eq_zero.1 (by linear_combination e01 : S * (d 3 * (cx * sy * cz + sx * sz) + d 5 * (-(sx * sy * sz) - cx * cz)) = 0)).resolve_left hS
  have e2 : d 3 * (cx * sy * sz - sx * cz) + d 5 * (sx * sy * cz - cx * sz) = 0 :=
    (mul_eq_zero.1 (by linear_combination e11 : S * (d 3 * (cx * sy * sz - sx * cz) + d 5 * (sx * sy * cz - cx * sz)) = 0)).resolve_left hS
  rcases h35 with h3 | h5
  · rw [h3] at e1 e2
    refine ⟨h3, h4, ?_, h6⟩
    have : d 5 = d 5 * ((-(sx * sy * sz) - cx * cz) ^ 2 + (sx * sy * cz - cx * sz) ^ 2) := by
      have : (-(sx * sy * sz) - cx * cz) ^ 2 + (sx * sy * cz - cx * sz) ^ 2 = 1 := by
        linear_combination (sx ^ 2 * sy ^ 2 + cx ^ 2) * tz + sx ^ 2 * ty' + tx
      rw [this, mul_one]
    rw [this]
    linear_combination (-(sx * sy * sz) - cx * cz) * e1 + (sx * sy * cz - cx * sz) * e2
  · rw [h5] at e1 e2
    refine ⟨?_, h4, h5, h6⟩
    have : d 3 = d 3 * ((cx * sy * cz + sx * sz) ^ 2 + (cx * sy * sz - sx * cz) ^ 2) := by
      have : (cx * sy * cz + sx * sz) ^ 2 + (cx * sy * sz - sx * cz) ^ 2 = 1 := by
        linear_combination (cx ^ 2 * sy ^ 2 + sx ^ 2) * tz + cx ^ 2 * ty' + tx
      rw [this, mul_one]
    rw [this]
    linear_combination (cx * sy * cz + sx * sz) * e1 + (cx * sy * sz - sx * cz) * e2

/-- the design matrix of a similarity transformation of points not in a plane is rank deficient exactly at the gimbal,
if both angles that turn about the same axis there are estimated -/
theorem similarity_rank {e : EstSettings} (he : ∀ j ∈ estimated e, j < 7) (p v : List ℝ) (hp : p.length = 11)
    {E n : Nat} (hE : 0 < E) (A : Matrix (Fin (E * 3)) (Fin (estimated e).length) ℝ) (B : Matrix (Fin (E * 3)) (Fin n) ℝ)
    (hL : Linearised e p v A B) (hS : (paramsOf p).scale ≠ 0)
    (hpts : NotCoplanar E fun k => movedPoint (paramsOf p) (epochOfNumbers e (block (perEpoch e) v k))) :
    (∃ δ, δ ≠ 0 ∧ A *ᵥ δ = 0) ↔ Real.cos (paramsOf p).rot.y = 0 ∧ 3 ∈ estimated e ∧ 5 ∈ estimated e := by
  have hnd : (estimated e).Nodup := List.nodup_range.filter _
  constructor
  · rintro ⟨δ, hδ, h0⟩
    by_contra hc
    apply hδ
    set d : Nat → ℝ := fun j => if h : (estimated e).idxOf j < (estimated e).length then δ ⟨_, h⟩ else 0 with hd
    have hδd : δ = fun a => d ((estimated e)[a.val]) := by
      funext a
      simp only [hd, hnd.idxOf_getElem]
      simp
    have hdz : ∀ j, j ∉ estimated e → d j = 0 := by
      intro j hj
      simp only [hd]
      rw [dif_neg]
      rwa [List.idxOf_lt_length_iff]
    have key := fun i => similarity_kernel he p v hp A B hL d hdz i
    rw [← hδd, h0] at key
    have hz : ∀ k < E, (⟨d 0, d 1, d 2⟩ : V3 ℝ) + mulV (tangent (paramsOf p) d)
        (movedPoint (paramsOf p) (epochOfNumbers e (block (perEpoch e) v k))) = 0 := by
      intro k hk
      apply coord_eq_zero
      intro c hc
      have := key ⟨k * 3 + c, by omega⟩
      have h1 : (k * 3 + c) / 3 = k := by omega
      have h2 : (k * 3 + c) % 3 = c := by omega
      simp only [h1, h2] at this
      exact this.symm
    obtain ⟨ht, hM⟩ := affine_zero hpts hE _ _ hz
    have h36 : d 3 = 0 ∧ d 4 = 0 ∧ d 5 = 0 ∧ d 6 = 0 := by
      by_cases hcos : Real.cos (paramsOf p).rot.y = 0
      · refine tangent_gimbal_only _ d hS hcos hM ?_
        by_cases h3 : 3 ∈ estimated e
        · exact .inr (hdz 5 fun h5 => hc ⟨hcos, h3, h5⟩)
        · exact .inl (hdz 3 h3)
      · exact tangent_zero _ d hS hcos hM
    obtain ⟨h3, h4, h5, h6⟩ := h36
    have h0 := congrArg V3.x ht
    have h1 := congrArg V3.y ht
    have h2 := congrArg V3.z ht
    simp at h0 h1 h2
    rw [hδd]
    funext a
    have ha := he _ (List.getElem_mem a.2)
    generalize (estimated e)[a.val] = j at *
    interval_cases j <;> assumption
  · rintro ⟨hc, h3, h5⟩
    refine ⟨fun a => (fun j => if j = 3 then 1 else if j = 5 then Real.sin (paramsOf p).rot.y else 0) ((estimated e)[a.val]), ?_, ?_⟩
    · intro hz
      obtain ⟨k, hk, hk3⟩ := List.getElem_of_mem h3
      have := congrFun hz ⟨k, hk⟩
      simp only [hk3] at this
      simp at this
    · funext i
      rw [similarity_kernel he p v hp A B hL (fun j => if j = 3 then 1 else if j = 5 then Real.sin (paramsOf p).rot.y else 0)
        (fun j hj => by
          have j3 : j ≠ 3 := fun h => hj (h ▸ h3)
          have j5 : j ≠ 5 := fun h => hj (h ▸ h5)
          simp [j3, j5]) i,
        tangent_gimbal _ hc]
      have h0 : ∀ m : V3 ℝ, mulV (0 : M3 ℝ) m = 0 := fun m => by ext <;> simp [mulV]
      rw [h0]
      have hi : i.val % 3 < 3 := by omega
      generalize i.val % 3 = c at *
      interval_cases c <;> simp [coord]

end TC
