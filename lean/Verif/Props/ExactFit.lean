import Verif.Proofs.ExactInit
/-!
# C117: data without errors
-/
namespace TC
set_option linter.unusedSectionVars false
open Obs Adjust Equations Matrix Direct

/-- the settings of a similarity transformation: some of translation, rotation and scale are estimated, nothing else -/
structure SimilarityOnly (e : EstSettings) : Prop where
  some : e.transX ∨ e.transY ∨ e.transZ ∨ e.rotX ∨ e.rotY ∨ e.rotZ ∨ e.scale
  time : e.timeShift = false
  lever : e.leverX = false ∧ e.leverY = false ∧ e.leverZ = false

/-- the parameters that are not estimated are zero (one for the scale) in the transformation `b`, angles `a`, `κ` -/
structure Neutral (e : EstSettings) (b a : V3 ℝ) (κ : ℝ) : Prop where
  transX : e.transX = false → b.x = 0
  transY : e.transY = false → b.y = 0
  transZ : e.transZ = false → b.z = 0
  rotX : e.rotX = false → a.x = 0
  rotY : e.rotY = false → a.y = 0
  rotZ : e.rotZ = false → a.z = 0
  scale : e.scale = false → κ = 1

/-- source position number `k` among observations of six numbers per epoch -/
noncomputable def sourceOf (obs : List ℝ) (k : Nat) : V3 ℝ := pointAt (block 6 obs k) 0
/-- target position number `k` -/
noncomputable def targetOf (obs : List ℝ) (k : Nat) : V3 ℝ := pointAt (block 6 obs k) 3

theorem SimilarityOnly.facts {e : EstSettings} (h : SimilarityOnly e) :
    e.flags = [e.transX, e.transY, e.transZ, e.rotX, e.rotY, e.rotZ, e.scale, false, false, false, false] ∧ perEpoch e = 6 ∧
    (∀ j ∈ estimated e, j < 7) ∧ e.helmertEnabled = true ∧ e.timeShiftEnabled = false ∧ e.leverarmEnabled = false ∧
    e.allLqDisabled = false ∧ (3 ∈ estimated e ↔ e.rotX = true) ∧ (5 ∈ estimated e ↔ e.rotZ = true) := by
  obtain ⟨c, d, f1, f2, f3⟩ := h
  have hl : e.leverarmEnabled = false := by simp [EstSettings.leverarmEnabled, f1, f2, f3]
  have ht : e.timeShiftEnabled = false := by simp [EstSettings.timeShiftEnabled, EstSettings.timeShiftFilter, d]
  have hh : e.helmertEnabled = true := by
    simp only [EstSettings.helmertEnabled, List.any_cons, List.any_nil, id, Bool.or_eq_true]
    tauto
  have hf : e.lqParameterFilter = [e.transX, e.transY, e.transZ, e.rotX, e.rotY, e.rotZ, e.scale, false, false, false, false] := by
    simp [EstSettings.lqParameterFilter, EstSettings.helmertFilter, EstSettings.leverarmFilter, hl, ht, hh]
  refine ⟨by rw [← C86_filter, hf], by simp [perEpoch, hl, ht], ?_, hh, ht, hl, by simp [EstSettings.allLqDisabled, hh], ?_, ?_⟩
  · intro j hj
    obtain ⟨h1, h2⟩ := List.mem_filter.1 hj
    rw [hf] at h2
    by_contra hlt
    have := List.mem_range.1 h1
    interval_cases j <;> simp_all
  · unfold estimated
    rw [List.mem_filter, hf]
    simp
  · unfold estimated
    rw [List.mem_filter, hf]
    simp

theorem init_exact {i : InitLib ℝ} {e : EstSettings} (hn : IsNorm i.nrm) (hs : SimilarityOnly e) (E : Nat) (obs : List ℝ)
    (ho : obs.length = E * 6) (Q : M3 ℝ) (hQ : IsRot Q) (κ : ℝ) (hκ : 0 < κ) (b : V3 ℝ)
    (hnt : Neutral e b (i.euler Q) κ) (hfit : ∀ k < E, targetOf obs k = b + κ • mulV Q (sourceOf obs k)) (hpts : NotCoplanar E (sourceOf obs))
    (s : Fin 3 → ℝ) (M : M3 ℝ)
    (hM : M = crossCov (weighted [] ((List.range E).map (sourceOf obs)) ((List.range E).map (targetOf obs))))
    (hsvd : IsSvd M (i.svd M).1 s (i.svd M).2) :
    ∃ init, initParameters i realTrig e obs = .ok init ∧
      init.values = [b.x, b.y, b.z, (i.euler Q).x, (i.euler Q).y, (i.euler Q).z, κ, 0, 0, 0, 0] := by
  obtain ⟨hf, h6, -, hh, ht, hl, -, -, -⟩ := hs.facts
  obtain ⟨nx, ny, nz, nrx, nry, nrz, ns⟩ := hnt
  have hobs : obs.length = E * perEpoch e := by rw [h6, ho]
  have p1 : points e obs .xyzFrom = (List.range E).map (sourceOf obs) := by
    rw [points_some obs hobs _ 0 rfl (by rw [h6]; omega), h6]
    rfl
  have p2 : points e obs .xyzTo = (List.range E).map (targetOf obs) := by
    rw [points_some obs hobs _ 3 rfl (by rw [h6]), h6]
    rfl
  have hT : (List.range E).map (targetOf obs) = ((List.range E).map (sourceOf obs)).map (fun p => b + κ • mulV Q p) := by
    rw [List.map_map]
    exact List.map_congr_left fun k hk => hfit k (List.mem_range.1 hk)
  have hcore : helmertCore i.nrm i.svd (movedPairs ((List.range E).map (sourceOf obs)) Q κ b) = (Q, κ, b) := by
    rw [hT, weighted_moved] at hM
    subst hM
    refine helmertCore_exact hn i.svd _ (fun n h hp => hpts n h fun k hk => ?_) Q hQ κ hκ b s hsvd
    exact hp _ (List.mem_map_of_mem (List.mem_range.2 hk))
  have hhel : initHelmert i e (points e obs .xyzFrom) (points e obs .xyzTo) = .ok
      [newParam b.x 0 "Translation x" .meter, newParam b.y 0 "Translation y" .meter,
      newParam b.z 0 "Translation z" .meter, newParam (i.euler Q).x 0 "Rotation x" .radian,
      newParam (i.euler Q).y 0 "Rotation y" .radian, newParam (i.euler Q).z 0 "Rotation z" .radian,
      newParam κ 1 "Scale" .scale] := by
    unfold initHelmert
    rw [if_pos hh, p1, p2]
    have hw := weighted_moved ((List.range E).map (sourceOf obs)) Q κ b
    rw [← hT] at hw
    unfold weighted at hw
    rw [if_pos rfl] at hw
    unfold Direct.helmert
    simp only [List.length_nil, if_true, List.length_map, List.length_range, ne_eq, not_true, or_self, if_false, hw, hcore]
  unfold initParameters
  simp only [bind, Except.bind, pure, Except.pure, hhel]
  unfold initTime initLever
  simp only [ht, hl, Bool.false_and, Bool.false_eq_true, if_false]
  rw [postInit_ok _ (by rfl)]
  refine ⟨_, rfl, ?_⟩
  obtain ⟨q1, q2, -⟩ := C75_apply_settings (K := ℝ) { cov := zeroRows 11, params := [newParam b.x 0 "Translation x" .meter, newParam b.y 0 "Translation y" .meter,
      newParam b.z 0 "Translation z" .meter, newParam (i.euler Q).x 0 "Rotation x" .radian,
      newParam (i.euler Q).y 0 "Rotation y" .radian, newParam (i.euler Q).z 0 "Rotation z" .radian,
      newParam κ 1 "Scale" .scale] ++ [newParam 0 0 "Time shift" .second] ++ noLeverarm } e rfl
  generalize AlignParams.applySettings _ e = t at q1 q2
  rw [hf] at q1
  obtain ⟨en, cov, ps⟩ := t
  unfold PSet.values
  unfold PSet.enabledBoolList at q1
  simp only at q1 q2 ⊢
  obtain ⟨a0, a1, a2, a3, a4, a5, a6, a7, a8, a9, a10, rfl⟩ := list_of_11 ps (by
    have := congrArg List.length q1
    simpa using this)
  simp only [List.map_cons, List.map_nil, List.cons.injEq, noLeverarm, newParam, List.cons_append, List.nil_append,
    Prod.mk.injEq, and_true] at q1 q2 ⊢
  obtain ⟨e0, e1, e2, e3, e4, e5, e6, e7, e8, e9, e10⟩ := q1
  obtain ⟨r0, r1, r2, r3, r4, r5, r6, r7, r8, r9, r10⟩ := q2
  unfold Param.value
  rw [e0, e1, e2, e3, e4, e5, e6, e7, e8, e9, e10, r0.1, r1.1, r2.1, r3.1, r4.1, r5.1, r6.1, r7.1, r8.1, r9.1, r10.1, r0.2.2.1, r1.2.2.1, r2.2.2.1, r3.2.2.1, r4.2.2.1, r5.2.2.1, r6.2.2.1, r7.2.2.1, r8.2.2.1, r9.2.2.1, r10.2.2.1]
  have pick : ∀ (f : Bool) (x d : ℝ), (f = false → x = d) → (if f = true then x else d) = x := by
    intro f x d h
    cases f
    · simpa using (h rfl).symm
    · rfl
  rw [pick _ _ _ nx, pick _ _ _ ny, pick _ _ _ nz, pick _ _ _ nrx, pick _ _ _ nry, pick _ _ _ nrz, pick _ _ _ ns]
  simp

/-- what both theorems below assume: routines that are right, positive variances, thresholds, and observations in
which every target position is the source position turned by `Q`, scaled by `κ` and shifted by `b`; the source
positions are not all in one plane -/
structure ExactData (i : InitLib ℝ) (c : AdjCfg ℝ) (E : Nat) (var : List ℝ) (Q : M3 ℝ) (κ : ℝ) (b : V3 ℝ) : Prop where
  grad : IsGrad c.D
  trig : c.τ = realTrig
  lib : IsAdjLib c.lib
  norm : IsNorm i.nrm
  angles : ∀ A, IsRot A → eulerMat realTrig (i.euler A) = A
  svd : ∀ M, M = crossCov (weighted [] ((List.range E).map (sourceOf c.obs)) ((List.range E).map (targetOf c.obs))) →
    ∃ s, IsSvd M (i.svd M).1 s (i.svd M).2
  settings : SimilarityOnly c.e
  neutral : Neutral c.e b (i.euler Q) κ
  obs : c.obs.length = E * 6
  varLen : var.length = E * 6
  varPos : ∀ x ∈ var, 0 < x
  threshold : ∃ t, some t ∈ c.thresholds
  thresholdPos : ∀ t, some t ∈ c.thresholds → 0 ≤ t
  rot : IsRot Q
  scale : 0 < κ
  fit : ∀ k < E, targetOf c.obs k = b + κ • mulV Q (sourceOf c.obs k)
  spread : NotCoplanar E (sourceOf c.obs)

theorem exact_cases {i : InitLib ℝ} {c : AdjCfg ℝ} {E : Nat} {var : List ℝ} {Q : M3 ℝ} {κ : ℝ} {b : V3 ℝ}
    (h : ExactData i c E var Q κ b) :
    (Real.cos (i.euler Q).y = 0 ∧ c.e.rotX = true ∧ c.e.rotZ = true → estimate i c false var = .ok ⟨none, true⟩) ∧
    (¬(Real.cos (i.euler Q).y = 0 ∧ c.e.rotX = true ∧ c.e.rotZ = true) → ∃ p, estimate i c false var = .ok ⟨some p, true⟩ ∧
      p.values = [b.x, b.y, b.z, (i.euler Q).x, (i.euler Q).y, (i.euler Q).z, κ, 0, 0, 0, 0]) := by
  obtain ⟨hf, h6, he7, hh, ht, hl, hdis, h3, h5⟩ := h.settings.facts
  obtain ⟨s, hs⟩ := h.svd _ rfl
  obtain ⟨init, hi, hval⟩ := init_exact h.norm h.settings E c.obs h.obs Q h.rot κ h.scale b h.neutral h.fit h.spread s _ rfl hs
  have ho : c.obs.length = E * perEpoch c.e := by rw [h6, h.obs]
  have hv : var.length = E * perEpoch c.e := by rw [h6, h.varLen]
  have hep : ∀ k, (epochOfNumbers c.e (block (perEpoch c.e) c.obs k)).source = sourceOf c.obs k ∧
      (epochOfNumbers c.e (block (perEpoch c.e) c.obs k)).target = targetOf c.obs k ∧
      (epochOfNumbers c.e (block (perEpoch c.e) c.obs k)).speed = 0 := by
    intro k
    rw [h6]
    exact ⟨rfl, rfl, by simp [epochOfNumbers, ht]⟩
  have hq : paramsOf init.values = ⟨⟨b.x, b.y, b.z⟩, i.euler Q, κ, 0, 0⟩ := by
    rw [hval]
    rfl
  have hmv : ∀ k, movedPoint (paramsOf init.values) (epochOfNumbers c.e (block (perEpoch c.e) c.obs k)) = sourceOf c.obs k := by
    intro k
    obtain ⟨e1, e2, e3⟩ := hep k
    unfold movedPoint
    rw [e1, e3, hq]
    ext <;> simp [mulV]
  have heq : ∀ k, k < E * 3 → equation c.τ c.e (paramsOf init.values) c.obs k = 0 := by
    intro k hk
    unfold equation
    rw [h.trig, misfit_moved, hmv, (hep _).2.1, h.fit (k / 3) (by omega), hq]
    simp only
    rw [h.angles Q h.rot]
    have : (⟨b.x, b.y, b.z⟩ : V3 ℝ) = b := rfl
    rw [this, sub_self]
    have hk3 : k % 3 < 3 := by omega
    generalize k % 3 = r at *
    interval_cases r <;> rfl
  have hsh := initParameters_shape hi
  have hsome : ∃ p ∈ init.params, p.enabled = false := by
    have hfl := hsh.flags
    rw [hf] at hfl
    unfold PSet.enabledBoolList at hfl
    have : false ∈ init.params.map (fun p => p.enabled) := by rw [hfl]; simp
    obtain ⟨p, hp, hpe⟩ := List.mem_map.1 this
    exact ⟨p, hp, hpe⟩
  obtain ⟨w, hst, hrun⟩ := exact_run (i := i) (c := c) h.lib E var init ho hv h.varPos h.threshold h.thresholdPos hdis
    hsome (by rw [h.trig]; exact hi) heq
  have hres : (buildRes c.obs).length = E * perEpoch c.e := by
    unfold buildRes
    rw [List.length_map, ho]
  have hest : List.zipWith (· + ·) c.obs (buildRes c.obs) = c.obs := by
    unfold buildRes
    refine List.ext_getElem? fun k => ?_
    rw [List.getElem?_zipWith, List.getElem?_map]
    rcases c.obs[k]? with _ | x <;> simp
  obtain ⟨A, B, hL, hnan⟩ := C115_nan_iff h.grad h.trig h.lib E var ⟨init, buildRes c.obs, w, .inf, none⟩ ho hres
    (by rw [hval]; rfl) hv h.varPos
  have hE : 0 < E := by
    rcases Nat.eq_zero_or_pos E with rfl | h0
    · have := h.spread ⟨1, 0, 0⟩ 0 (fun k hk => by omega)
      have := congrArg V3.x this
      simp at this
    · exact h0
  simp only [hest] at hL
  have hrank := similarity_rank he7 init.values c.obs (by rw [hval]; rfl) hE A B hL
    (by rw [hq]; exact h.scale.ne') (by simp only [hmv]; exact h.spread)
  rw [hrank, hq, h3, h5] at hnan
  simp only at hnan
  constructor
  · intro hc
    rcases hrun with ⟨_, h2⟩ | ⟨h1, _⟩
    · exact h2
    · exact absurd (hnan.2 hc) h1
  · intro hc
    rcases hrun with ⟨h1, _⟩ | ⟨_, p, h2, h3⟩
    · exact absurd (hnan.1 h1) hc
    · exact ⟨p, h2, by rw [h3, hval]⟩

theorem cos_angle {i : InitLib ℝ} (h : ∀ A, IsRot A → eulerMat realTrig (i.euler A) = A) (Q : M3 ℝ) (hQ : IsRot Q) :
    Real.cos (i.euler Q).y = 0 ↔ Q 2 0 ^ 2 = 1 := by
  have h1 : Q 2 0 = -Real.sin (i.euler Q).y := by
    conv_lhs => rw [← h Q hQ, realEuler_entries]
    simp
  have h2 := Real.sin_sq_add_cos_sq (i.euler Q).y
  rw [h1, neg_sq]
  constructor
  · intro h3
    rw [h3] at h2
    linarith
  · intro h3
    have : Real.cos (i.euler Q).y ^ 2 = 0 := by linarith
    exact pow_eq_zero_iff (by norm_num) |>.1 this

/-- **C117**, positive part: let translation, rotation and scale be estimated, or some of their parameters. If every
target position is the source position turned by `Q`, scaled by `κ` and shifted by `b`, and the source positions do
not lie in one plane, then the adjustment gives back exactly this transformation: translation `b`, angles that
describe `Q`, scale `κ`, no time shift and no lever arm.
Missing for the full property: rotations that turn the x axis onto the z axis (see `C117_gimbal_nan`), and the
estimation of variances. -/
theorem C117_exact_recovered_partial {i : InitLib ℝ} {c : AdjCfg ℝ} {E : Nat} {var : List ℝ} {Q : M3 ℝ} {κ : ℝ} {b : V3 ℝ}
    (h : ExactData i c E var Q κ b) (hQ : Q 2 0 ^ 2 ≠ 1 ∨ c.e.rotX = false ∨ c.e.rotZ = false) :
    ∃ p a, estimate i c false var = .ok ⟨some p, true⟩ ∧ eulerMat realTrig a = Q ∧
      p.values = [b.x, b.y, b.z, a.x, a.y, a.z, κ, 0, 0, 0, 0] := by
  obtain ⟨p, h1, h2⟩ := (exact_cases h).2 (by
    rintro ⟨hc, hx, hz⟩
    rcases hQ with h1 | h1 | h1
    · exact h1 ((cos_angle h.angles Q h.rot).1 hc)
    · rw [h1] at hx; cases hx
    · rw [h1] at hz; cases hz)
  exact ⟨p, i.euler Q, h1, h.angles Q h.rot, h2⟩

/-- **C117**, negation: if the rotation turns the x axis onto the z axis (up or down), and the rotations about x and z
are both estimated, the adjustment of the same data without any error gives NaN, and reports that it has a result. -/
theorem C117_gimbal_nan {i : InitLib ℝ} {c : AdjCfg ℝ} {E : Nat} {var : List ℝ} {Q : M3 ℝ} {κ : ℝ} {b : V3 ℝ}
    (h : ExactData i c E var Q κ b) (hQ : Q 2 0 ^ 2 = 1) (hx : c.e.rotX = true) (hz : c.e.rotZ = true) :
    estimate i c false var = .ok ⟨none, true⟩ :=
  (exact_cases h).1 ⟨(cos_angle h.angles Q h.rot).2 hQ, hx, hz⟩

/-- points on the three axes, and where `Q` takes them -/
noncomputable def exAxes (Q : M3 ℝ) : List ℝ :=
  [1, 0, 0, Q 0 0, Q 1 0, Q 2 0, -1, 0, 0, -Q 0 0, -Q 1 0, -Q 2 0,
   0, 1, 0, Q 0 1, Q 1 1, Q 2 1, 0, -1, 0, -Q 0 1, -Q 1 1, -Q 2 1,
   0, 0, 1, Q 0 2, Q 1 2, Q 2 2, 0, 0, -1, -Q 0 2, -Q 1 2, -Q 2 2]

/-- with or without the scale: without it these are the default settings -/
noncomputable def exAxesCfg (scale : Bool) (Q : M3 ℝ) : AdjCfg ℝ where
  D := realGrad
  τ := realTrig
  lib := realAdjLib
  e := { EstSettings.fromComponents true false false false false with scale := scale }
  obs := exAxes Q
  thresholds := [some (1 / 1000)]

noncomputable def exAxesInit (Q : M3 ℝ) : InitLib ℝ := ⟨realNorm, fun _ => (1, Qᵀ), realAngles, exactSolver⟩

theorem exAxes_exact (scale : Bool) (Q : M3 ℝ) (hQ : IsRot Q) :
    ExactData (exAxesInit Q) (exAxesCfg scale Q) 6 (List.replicate 36 1) Q 1 0 where
  grad := realGrad_isGrad
  trig := rfl
  lib := realAdjLib_isAdjLib
  norm := realNorm_isNorm
  angles := realAngles_rot
  settings := ⟨.inl rfl, rfl, rfl, rfl, rfl⟩
  neutral := ⟨nofun, nofun, nofun, nofun, nofun, nofun, fun _ => rfl⟩
  obs := rfl
  varLen := rfl
  varPos := by intro x hx; rw [List.eq_of_mem_replicate hx]; norm_num
  threshold := ⟨_, List.mem_cons_self ..⟩
  thresholdPos := by
    intro t ht
    simp [exAxesCfg] at ht
    rw [ht]
    norm_num
  rot := hQ
  scale := one_pos
  fit := by
    intro k hk
    interval_cases k <;> ext <;> simp [targetOf, sourceOf, exAxesCfg, exAxes, pointAt, block, mulV]
  spread := by
    intro n h hp
    have h0 := hp 0 (by omega)
    have h1 := hp 1 (by omega)
    have h2 := hp 2 (by omega)
    have h3 := hp 3 (by omega)
    have h4 := hp 4 (by omega)
    have h5 := hp 5 (by omega)
    simp [sourceOf, exAxesCfg, exAxes, pointAt, block, V3.dot] at h0 h1 h2 h3 h4 h5
    ext <;> simp <;> linarith
  svd := by
    rintro M rfl
    have hsrc : (List.range 6).map (sourceOf (exAxesCfg scale Q).obs) =
        [⟨1, 0, 0⟩, ⟨-1, 0, 0⟩, ⟨0, 1, 0⟩, ⟨0, -1, 0⟩, ⟨0, 0, 1⟩, ⟨0, 0, -1⟩] := by
      simp [List.range, List.range.loop, sourceOf, exAxesCfg, exAxes, pointAt, block]
    have htgt : (List.range 6).map (targetOf (exAxesCfg scale Q).obs) =
        ([⟨1, 0, 0⟩, ⟨-1, 0, 0⟩, ⟨0, 1, 0⟩, ⟨0, -1, 0⟩, ⟨0, 0, 1⟩, ⟨0, 0, -1⟩] : List (V3 ℝ)).map
          (fun p => (0 : V3 ℝ) + (1 : ℝ) • mulV Q p) := by
      simp [List.range, List.range.loop, targetOf, exAxesCfg, exAxes, pointAt, block, mulV]
    rw [hsrc, htgt, weighted_moved, crossCov_moved _ (by simp)]
    refine ⟨fun _ => 2, by simp [exAxesInit], ?_, fun _ => by norm_num, ?_⟩
    · simp only [exAxesInit, Matrix.transpose_transpose]
      exact orth_comm hQ.1
    · simp only [exAxesInit, Matrix.one_mul, one_smul]
      congr 1
      ext i j
      fin_cases i <;> fin_cases j <;> simp [outerV] <;> norm_num

/-- for a quarter turn about the z axis the transformation is found -/
example : ∃ p a, estimate (exAxesInit !![0, -1, 0; 1, 0, 0; 0, 0, 1]) (exAxesCfg false !![0, -1, 0; 1, 0, 0; 0, 0, 1]) false
      (List.replicate 36 1) = .ok ⟨some p, true⟩ ∧ eulerMat realTrig a = !![0, -1, 0; 1, 0, 0; 0, 0, 1] ∧
      p.values = [0, 0, 0, a.x, a.y, a.z, 1, 0, 0, 0, 0] :=
  C117_exact_recovered_partial (exAxes_exact _ _ (by
    constructor
    · ext i j
      fin_cases i <;> fin_cases j <;> simp [Matrix.mul_apply, Fin.sum_univ_three]
    · simp [Matrix.det_fin_three])) (.inl (by simp))

/-- for a quarter turn about the y axis the result is NaN -/
example : estimate (exAxesInit !![0, 0, 1; 0, 1, 0; -1, 0, 0]) (exAxesCfg false !![0, 0, 1; 0, 1, 0; -1, 0, 0]) false
      (List.replicate 36 1) = .ok ⟨none, true⟩ :=
  C117_gimbal_nan (exAxes_exact _ _ (by
    constructor
    · ext i j
      fin_cases i <;> fin_cases j <;> simp [Matrix.mul_apply, Fin.sum_univ_three]
    · simp [Matrix.det_fin_three])) (by simp) rfl rfl

end TC
