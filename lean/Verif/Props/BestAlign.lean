import Verif.Props.BestShift
import Verif.Props.Direct
import Verif.Props.Natural
import Verif.Model.ApplyAlignment

/-! C223: after a direct alignment the absolute error is the smallest possible. -/

namespace TC

set_option linter.unusedSectionVars false

open Direct

variable {K R : Type} [Field K] [LinearOrder K] [IsStrictOrderedRing K]

/-- Specification: `q` has the seven parameters `ps` of a similarity (three translations, three rotations, scale). -/
structure HasSimilarity (q : Equations.Params K) (ps : List (Param K)) : Prop where
  values : ps.map Param.value = [q.trans.x, q.trans.y, q.trans.z, q.rot.x, q.rot.y, q.rot.z, q.scale]

/-- the squared root mean square error of moved positions -/
theorem rms_placed {E : EvalLib K} (hE : IsEvalLib E) {L : RotLib K R} {T T' U : Traj K R} (hpl : T.pos.length ≠ 0)
    (hlen : T.pos.length = U.pos.length) {B : M3 K} {v : V3 K} (hp : T'.pos = T.pos.map (fun p => mulV B p + v))
    {a : AteResult K R} (ha : compareAbsolute E L T' U = .ok a) {r : K}
    (hr : a.posDevRms E = .ok r) : 0 ≤ r ∧ (T.pos.length : K) * (r * r) =
      ((weighted [] T.pos U.pos).map (fun x => x.1 * V3.normSq (x.2.2 - (v + mulV B x.2.1)))).sum := by
  have h2 := (compareAbsolute_fields ha).1
  rw [bcast_same _ (by rw [hp]; simpa using hlen.symm), Except.ok.injEq, hp, List.zipWith_map_right] at h2
  have hl : a.posDev.length = T.pos.length := by
    rw [← h2, List.length_zipWith, hlen, min_self]
  have hn : a.posDev ≠ [] := by
    intro h0
    rw [h0] at hl
    exact hpl hl.symm
  obtain ⟨q1, q2⟩ := rms_sq hE hn hr
  refine ⟨q1, ?_⟩
  rw [hl] at q2
  rw [q2, ← h2]
  clear * -
  unfold weighted
  rw [if_pos rfl]
  generalize T.pos = ps
  generalize U.pos = qs
  induction ps generalizing qs with
  | nil => simp
  | cons p ps ih =>
    cases qs with
    | nil => simp
    | cons q qs =>
      simp only [List.zipWith_cons_cons, List.map_cons, List.sum_cons, List.zip_cons_cons, one_mul, ih]
      rw [add_comm (mulV B p)]

theorem best_core {E : EvalLib K} (hE : IsEvalLib E) {L : RotLib K R} {T T₁ T₂ U : Traj K R} (hpl : T.pos.length ≠ 0)
    (hlen : T.pos.length = U.pos.length) (svd : M3 K → M3 K × M3 K) (τ : Trig K) (euler : M3 K → V3 K)
    (heul : ∀ A, IsRot A → eulerMat τ (euler A) = A) (hdiff : ∃ p ∈ T.pos, ∃ p' ∈ T.pos, p ≠ p') (s : Fin 3 → K)
    (hsvd : IsSvd (crossCov (weighted [] T.pos U.pos)) (svd (crossCov (weighted [] T.pos U.pos))).1 s
      (svd (crossCov (weighted [] T.pos U.pos))).2) (hdet : 0 < (crossCov (weighted [] T.pos U.pos)).det) {ps : List (Param K)}
    (hret : helmert E.nrm svd euler [] T.pos U.pos = .ok ps) {q : Equations.Params K} (hq : HasSimilarity q ps)
    (hp₁ : T₁.pos = T.pos.map (fun p => mulV (poseRot (sim3Matrix τ q)) p + posePos (sim3Matrix τ q))) {Q : M3 K}
    (hQ : Q * Q.transpose = 1) {k : K} {b : V3 K} (hp₂ : T₂.pos = T.pos.map (fun p => mulV (k • Q) p + b)) {a₁ a₂ : AteResult K R}
    (ha₁ : compareAbsolute E L T₁ U = .ok a₁) (ha₂ : compareAbsolute E L T₂ U = .ok a₂) {r₁ r₂ : K}
    (hr₁ : a₁.posDevRms E = .ok r₁) (hr₂ : a₂.posDevRms E = .ok r₂) : r₁ ≤ r₂ := by
  obtain ⟨n1, s1⟩ := rms_placed hE hpl hlen hp₁ ha₁ hr₁
  obtain ⟨n2, s2⟩ := rms_placed hE hpl hlen hp₂ ha₂ hr₂
  have hw : ∀ x ∈ weighted [] T.pos U.pos, (0 : K) < x.1 := by
    intro x hx
    simp only [weighted, if_true] at hx
    obtain ⟨h1, -⟩ := List.of_mem_zip (a := x.1) (b := x.2) hx
    obtain ⟨_, -, h⟩ := List.mem_map.1 h1
    rw [← h]
    exact one_pos
  have hd : ∃ x ∈ weighted [] T.pos U.pos, ∃ y ∈ weighted [] T.pos U.pos, x.2.1 ≠ y.2.1 := by
    obtain ⟨p, hp, p', hp', hpp⟩ := hdiff
    have key : ∀ p ∈ T.pos, ∃ x ∈ weighted [] T.pos U.pos, x.2.1 = p := by
      intro p hp
      obtain ⟨i, hi, rfl⟩ := List.mem_iff_getElem.1 hp
      refine ⟨(1, T.pos[i], U.pos[i]), ?_, rfl⟩
      refine List.mem_of_getElem? (i := i) ?_
      simp only [weighted, if_true]
      rw [List.getElem?_zip_eq_some, List.getElem?_zip_eq_some]
      refine ⟨?_, List.getElem?_eq_getElem hi, List.getElem?_eq_getElem (hlen ▸ hi)⟩
      rw [List.getElem?_map, List.getElem?_eq_getElem hi]
      rfl
    obtain ⟨x, hx, rfl⟩ := key p hp
    obtain ⟨y, hy, rfl⟩ := key p' hp'
    exact ⟨x, hx, y, hy, hpp⟩
  have h := C112_direct_helmert_optimal hE.nrm svd τ euler heul [] T.pos U.pos _ rfl hw hd s hsvd hdet ps hret Q hQ k b
  have f : ∀ p, helmertApplyTo τ ps p = posePos (sim3Matrix τ q) + mulV (poseRot (sim3Matrix τ q)) p := by
    intro p
    unfold helmertApplyTo sim3Matrix
    rw [hq.values, poseRot_mkPose, posePos_mkPose]
    simp only [List.getD_cons_zero, List.getD_cons_succ]
    congr 1
    ext <;> simp [mulV] <;> ring
  have g : ∀ p, b + mulV (k • Q) p = b + k • mulV Q p := by
    intro p
    congr 1
    ext <;> simp [mulV] <;> ring
  simp only [f] at h
  simp only [g] at s2
  unfold sqErr at h
  rw [← s1, ← s2] at h
  have hk : (0 : K) < T.pos.length := Nat.cast_pos.2 (Nat.pos_of_ne_zero hpl)
  rw [mul_self_le_mul_self_iff n1 n2]
  exact le_of_mul_le_mul_left h hk

/-- **C223**: after a direct alignment no similarity (also with a reflection) of the original trajectory has a smaller root mean
square position error. -/
theorem C223_direct_is_best {E : EvalLib K} (hE : IsEvalLib E) {L : RotLib K R} {T T₁ T₂ U : Traj K R} (hT : Coherent T)
    (hne : T.tstamps ≠ []) (hlen : T.pos.length = U.pos.length) (svd : M3 K → M3 K × M3 K) (τ : Trig K) (euler : M3 K → V3 K)
    (heul : ∀ A, IsRot A → eulerMat τ (euler A) = A) (hdiff : ∃ p ∈ T.pos, ∃ p' ∈ T.pos, p ≠ p') (s : Fin 3 → K)
    (hsvd : IsSvd (crossCov (weighted [] T.pos U.pos)) (svd (crossCov (weighted [] T.pos U.pos))).1 s
      (svd (crossCov (weighted [] T.pos U.pos))).2) (hdet : 0 < (crossCov (weighted [] T.pos U.pos)).det) {ps : List (Param K)}
    (hret : helmert E.nrm svd euler [] T.pos U.pos = .ok ps) {q : Equations.Params K} (hq : HasSimilarity q ps)
    (hm₁ : Returns (Traj.applyTransformation L (sim3Matrix τ q)) T () T₁) {A₂ : M4 K} {Q : M3 K} (hQ : Q * Q.transpose = 1) {k : K}
    (hA₂ : poseRot A₂ = k • Q) (hm₂ : Returns (Traj.applyTransformation L A₂) T () T₂) {a₁ a₂ : AteResult K R}
    (ha₁ : compareAbsolute E L T₁ U = .ok a₁) (ha₂ : compareAbsolute E L T₂ U = .ok a₂) {r₁ r₂ : K}
    (hr₁ : a₁.posDevRms E = .ok r₁) (hr₂ : a₂.posDevRms E = .ok r₂) : r₁ ≤ r₂ := by
  have hpl : T.pos.length ≠ 0 := by rw [hT.pos]; intro h0; exact hne (List.length_eq_zero_iff.1 h0)
  have e := congrArg Prod.snd (hm₁.symm.trans (applyTransformation_eq L hT hne (sim3Matrix τ q)))
  simp only at e
  have e' := congrArg Prod.snd (hm₂.symm.trans (applyTransformation_eq L hT hne A₂))
  simp only at e'
  exact best_core hE hpl hlen svd τ euler heul hdiff s hsvd hdet hret hq (by rw [e]) hQ (b := posePos A₂) (by rw [e', hA₂]) ha₁ ha₂ hr₁ hr₂

/-- **C223**: in particular the error is not larger than before the alignment. -/
theorem C223_not_worse {E : EvalLib K} (hE : IsEvalLib E) {L : RotLib K R} {T T₁ U : Traj K R} (hT : Coherent T)
    (hne : T.tstamps ≠ []) (hlen : T.pos.length = U.pos.length) (svd : M3 K → M3 K × M3 K) (τ : Trig K) (euler : M3 K → V3 K)
    (heul : ∀ A, IsRot A → eulerMat τ (euler A) = A) (hdiff : ∃ p ∈ T.pos, ∃ p' ∈ T.pos, p ≠ p') (s : Fin 3 → K)
    (hsvd : IsSvd (crossCov (weighted [] T.pos U.pos)) (svd (crossCov (weighted [] T.pos U.pos))).1 s
      (svd (crossCov (weighted [] T.pos U.pos))).2) (hdet : 0 < (crossCov (weighted [] T.pos U.pos)).det) {ps : List (Param K)}
    (hret : helmert E.nrm svd euler [] T.pos U.pos = .ok ps) {q : Equations.Params K} (hq : HasSimilarity q ps)
    (hm₁ : Returns (Traj.applyTransformation L (sim3Matrix τ q)) T () T₁) {a a₁ : AteResult K R}
    (ha : compareAbsolute E L T U = .ok a) (ha₁ : compareAbsolute E L T₁ U = .ok a₁) {r r₁ : K}
    (hr : a.posDevRms E = .ok r) (hr₁ : a₁.posDevRms E = .ok r₁) : r₁ ≤ r := by
  have hpl : T.pos.length ≠ 0 := by rw [hT.pos]; intro h0; exact hne (List.length_eq_zero_iff.1 h0)
  have e := congrArg Prod.snd (hm₁.symm.trans (applyTransformation_eq L hT hne (sim3Matrix τ q)))
  simp only at e
  exact best_core hE hpl hlen svd τ euler heul hdiff s hsvd hdet hret hq (by rw [e]) (Q := 1) (by simp) (k := 1) (b := 0) (by simp)
    ha₁ ha hr₁ hr

/-! ### The hypotheses are met -/

/-- six poses at the positions `ps` -/
noncomputable def exSixPoses (ps : List (V3 ℝ)) : Traj ℝ (RotM ℝ) :=
  { tstamps := [0, 1, 2, 3, 4, 5], pos := ps, rot := none, arc := [0, 1, 2, 3, 4, 5], speed := [0, 0, 0, 0, 0, 0], sorting := .time
    name := "six", epsg := 0 }

example : Coherent (exSixPoses exAround) ∧ (∃ p ∈ (exSixPoses exAround).pos, ∃ p' ∈ (exSixPoses exAround).pos, p ≠ p') ∧
    0 < (crossCov (weighted [] (exSixPoses exAround).pos (exSixPoses exTurned).pos)).det ∧
    (∃ (svd : M3 ℝ → M3 ℝ × M3 ℝ) (s : Fin 3 → ℝ), IsSvd (crossCov (weighted [] (exSixPoses exAround).pos (exSixPoses exTurned).pos))
      (svd (crossCov (weighted [] (exSixPoses exAround).pos (exSixPoses exTurned).pos))).1 s
      (svd (crossCov (weighted [] (exSixPoses exAround).pos (exSixPoses exTurned).pos))).2 ∧
      ∃ ps q, helmert realNorm svd realAngles [] (exSixPoses exAround).pos (exSixPoses exTurned).pos = .ok ps ∧ HasSimilarity q ps) ∧
    ∃ a, compareAbsolute realEval (matLib fun a _ _ => a) (exSixPoses exAround) (exSixPoses exTurned) = .ok a := by
  refine ⟨⟨rfl, rfl, rfl, by rintro r ⟨⟩⟩, ?_, ?_, ?_, ?_⟩
  · refine ⟨⟨1, 1, 0⟩, by simp [exSixPoses, exAround], ⟨-1, 1, 0⟩, by simp [exSixPoses, exAround], ?_⟩
    intro h
    have := congrArg V3.x h
    norm_num at this
  · show 0 < (crossCov (weighted [] exAround exTurned)).det
    rw [exTurned_cov]
    simp [Matrix.det_fin_three]
  · refine ⟨fun M => ((exists_svd M).choose, (exists_svd M).choose_spec.choose_spec.choose), _,
      (exists_svd _).choose_spec.choose_spec.choose_spec, _, ⟨⟨_, _, _⟩, ⟨_, _, _⟩, _, 0, 0⟩, rfl, ⟨rfl⟩⟩
  · obtain ⟨a, -, h, -⟩ := C177_both_directions realEval (matLib fun a _ _ => a) (exSixPoses exAround) (exSixPoses exTurned)
      ⟨rfl, rfl, rfl, by rintro r ⟨⟩⟩ ⟨rfl, rfl, rfl, by rintro r ⟨⟩⟩ rfl
    exact ⟨a, h⟩

end TC
