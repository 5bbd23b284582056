import Verif.Props.RpeExact
/-!
# C158 for the call `rpe`: which trajectory is the reference (evaluation/metrics.py:49-55)
-/
namespace TC
open H
set_option linter.unusedSectionVars false
variable {K R : Type} [Field K] [LinearOrder K] [IsStrictOrderedRing K] [FloorRing K]

/-- what `rpe` computes: the matched estimate against the matched ground truth -/
theorem rpe_call (lib : MetricLib K R) (c : Nat) (s : ProcSettings K)
    (hs : s.matching.method ≠ .nearestSpatialInterpolated) {T U : Traj K R} (hT : Coherent T) (hU : Coherent U)
    (hasc : s.matching.method = .interpolation → StrictAsc T.tstamps ∧ StrictAsc U.tstamps) {h h' : Heap K R} {gt est : Nat}
    (hest : h[est]? = some T) (hgt : h[gt]? = some U) (hne : est ≠ gt) {r : RpeResult K}
    (hret : Returns (H.rpe lib c s gt est) h r h') :
    ∃ T' U', Returns (matchTrajectories lib.mat c est gt s.matching true) h (est, gt) h' ∧ h' = (h.set est T').set gt U' ∧
      MatchedPair T U T' U' ∧ compareRelative lib.eval lib.mat.rot T' U' s.relative = .ok r := by
  have hlt := (List.getElem?_eq_some_iff.1 hgt).1
  have hle := (List.getElem?_eq_some_iff.1 hest).1
  unfold Returns H.rpe at hret
  obtain ⟨m, h1, h2, h3⟩ := returns_bind hret
  obtain ⟨rfl, T', U', rfl, hp⟩ := match_inplace lib.mat c s.matching hs hT hU hasc hest hgt hne h2
  have e1 : ((h.set est T').set gt U')[est]? = some T' := by
    rw [List.getElem?_set_ne (Ne.symm hne)]; simp [hle]
  have e2 : ((h.set est T').set gt U')[gt]? = some U' := by simp [hlt]
  rw [SE.run_bind_ok (rd_run e1), SE.run_bind_ok (rd_run e2), SE.run_lift] at h3
  injection h3 with h4 h5
  subst h5
  exact ⟨T', U', h2, rfl, hp, h4⟩

/-- **C158** for a whole call with all pairs: whenever `rpe` returns a result, there are the two matched trajectories `T'`
(the estimate) and `U'` (the ground truth), namely those `match_trajectories` leaves, the bins are pose pairs along the ground
truth, and the entries of every bin are the errors of the estimate over these pairs. -/
theorem C158_rpe_all_pairs (lib : MetricLib K R) (hE : IsEvalLib lib.eval) (hL : IsRotLib lib.mat.rot) (c : Nat)
    (s : ProcSettings K) (hs : s.matching.method ≠ .nearestSpatialInterpolated) {T U : Traj K R} (hT : Coherent T)
    (hU : Coherent U) (hasc : s.matching.method = .interpolation → StrictAsc T.tstamps ∧ StrictAsc U.tstamps)
    {h h' : Heap K R} {gt est : Nat} (hest : h[est]? = some T) (hgt : h[gt]? = some U) (hne : est ≠ gt)
    (hall : s.relative.allPairs = true) (hmin : 0 < s.relative.minDist) (hstep : 0 < s.relative.step) {r : RpeResult K}
    (hret : Returns (H.rpe lib c s gt est) h r h') :
    ∃ T' U', Returns (matchTrajectories lib.mat c est gt s.matching true) h (est, gt) h' ∧ h'[est]? = some T' ∧
      h'[gt]? = some U' ∧ ∀ D last, pairScale s.relative.unit U' = some D → D.Pairwise (· ≤ ·) → D.getLast? = some last →
        ∀ g ∈ r.groups, ∃ ps, EntriesOf D T' U' ps g ∧ ErrorsOf lib.eval lib.mat.rot D T' U' ps g ∧
          (ps.map Prod.fst).Pairwise (· < ·) ∧
          ∀ i j, (i, j) ∈ ps ↔ FirstAtLeast D g.key i j ∧ ∃ a, D[i]? = some a ∧ a + g.key < last := by
  have hlt := (List.getElem?_eq_some_iff.1 hgt).1
  have hle := (List.getElem?_eq_some_iff.1 hest).1
  obtain ⟨T', U', h1, rfl, hp, h3⟩ := rpe_call lib c s hs hT hU hasc hest hgt hne hret
  refine ⟨T', U', h1, by rw [List.getElem?_set_ne (Ne.symm hne)]; simp [hle], by simp [hlt], ?_⟩
  intro D last hD hDs hlast g hg
  have hU' := hp.ref
  have hne' : T'.pos ≠ [] := by
    intro h0
    have h1 := hp.length
    rw [h0] at h1
    have hl : D.length = U'.tstamps.length := by
      revert hD
      unfold pairScale
      rcases s.relative.unit <;> simp <;> rintro rfl
      · exact hU'.arc
      · rfl
    have hp' := hU'.pos
    have : D = [] := List.eq_nil_of_length_eq_zero (by rw [hl, ← hp', ← h1]; rfl)
    subst this
    cases hlast
  have hT' := hp.test hne'
  exact C158_errors_of_all_pairs lib.eval hE lib.mat.rot hL T' U' hT' hU'
    (by rw [← hT'.pos, ← hU'.pos]; exact hp.length) s.relative hall hmin hstep D hD hDs last hlast r h3 g hg

/-- **C158** for a whole call with consecutive pairs. -/
theorem C158_rpe_consecutive_pairs (lib : MetricLib K R) (hE : IsEvalLib lib.eval) (hL : IsRotLib lib.mat.rot) (c : Nat)
    (s : ProcSettings K) (hs : s.matching.method ≠ .nearestSpatialInterpolated) {T U : Traj K R} (hT : Coherent T)
    (hU : Coherent U) (hasc : s.matching.method = .interpolation → StrictAsc T.tstamps ∧ StrictAsc U.tstamps)
    {h h' : Heap K R} {gt est : Nat} (hest : h[est]? = some T) (hgt : h[gt]? = some U) (hne : est ≠ gt)
    (hall : s.relative.allPairs = false) (hmin : 0 < s.relative.minDist) (hstep : 0 < s.relative.step) {r : RpeResult K}
    (hret : Returns (H.rpe lib c s gt est) h r h') :
    ∃ T' U', Returns (matchTrajectories lib.mat c est gt s.matching true) h (est, gt) h' ∧ h'[est]? = some T' ∧
      h'[gt]? = some U' ∧ ∀ D first last, pairScale s.relative.unit U' = some D → D.Pairwise (· ≤ ·) →
        D.head? = some first → D.getLast? = some last →
        ∀ g ∈ r.groups, ∃ ps, EntriesOf D T' U' ps g ∧ ErrorsOf lib.eval lib.mat.rot D T' U' ps g ∧
          ∀ k i j : Nat, ps[k]? = some (i, j) ↔ first + ((k : K) + 1) * g.key < last ∧
            FirstReached D (first + (k : K) * g.key) i ∧ FirstReached D (first + ((k : K) + 1) * g.key) j := by
  have hlt := (List.getElem?_eq_some_iff.1 hgt).1
  have hle := (List.getElem?_eq_some_iff.1 hest).1
  obtain ⟨T', U', h1, rfl, hp, h3⟩ := rpe_call lib c s hs hT hU hasc hest hgt hne hret
  refine ⟨T', U', h1, by rw [List.getElem?_set_ne (Ne.symm hne)]; simp [hle], by simp [hlt], ?_⟩
  intro D first last hD hDs hfirst hlast g hg
  have hU' := hp.ref
  have hne' : T'.pos ≠ [] := by
    intro h0
    have h1 := hp.length
    rw [h0] at h1
    have hl : D.length = U'.tstamps.length := by
      revert hD
      unfold pairScale
      rcases s.relative.unit <;> simp <;> rintro rfl
      · exact hU'.arc
      · rfl
    have hp' := hU'.pos
    have : D = [] := List.eq_nil_of_length_eq_zero (by rw [hl, ← hp', ← h1]; rfl)
    subst this
    cases hlast
  have hT' := hp.test hne'
  exact C158_errors_of_consecutive_pairs lib.eval hE lib.mat.rot hL T' U' hT' hU'
    (by rw [← hT'.pos, ← hU'.pos]; exact hp.length) s.relative hall hmin hstep D hD hDs first last hfirst hlast r h3 g hg

/-- the hypotheses of the first theorem: a call that returns, for an estimate in other coordinates -/
example : ∃ T U : Traj ℝ RotMat, Coherent T ∧ Coherent U ∧ StrictAsc T.tstamps ∧ StrictAsc U.tstamps ∧
    IsEvalLib exStepLib.eval ∧ IsRotLib exStepLib.mat.rot ∧ exOneMetre.allPairs = true ∧ 0 < exOneMetre.minDist ∧
    0 < exOneMetre.step ∧ ∃ r h', Returns (H.rpe exStepLib 0 { exDefaults .interpolation with relative := exOneMetre } 0 1) [U, T] r h' := by
  obtain ⟨T, A, hT, ho, -, hp, -⟩ := exPoses_other
  have hasc : StrictAsc T.tstamps := by rw [ho.times]; simp [exPoses, StrictAsc]
  have h2 : 2 ≤ T.tstamps.length := by rw [ho.times]; simp [exPoses]
  refine ⟨T, exPoses, hT, exPoses_coherent, hasc, by simp [exPoses, StrictAsc],
    ⟨realNorm_isNorm, fun x _ => Real.sqrt_nonneg x, fun x hx => Real.mul_self_sqrt hx, Real.arccos_one⟩, matLib_isRotLib _, rfl,
    one_pos, one_pos, ?_⟩
  exact (C160_returns exStepLib 0 { exDefaults .interpolation with relative := exOneMetre } (.inl ⟨rfl, exStepLib_ends⟩) hT
    exPoses_coherent ho.times.symm hasc h2
    (h := [exPoses, T]) (est := 1) (gt := 0) rfl rfl (by decide) one_pos one_pos (by
      intro D hD
      injection hD with hD
      subst hD
      simp [exPoses])).2 ⟨le_refl _, [0, 1, 3], rfl, 0, by simp, 3, by simp, by norm_num [exOneMetre]⟩

end TC
