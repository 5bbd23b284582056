import Verif.Props.MatchCostRpe
import Verif.Props.RpeBoundTurned

/-! C226: what matching costs in the relative position error of trajectories with orientations. -/

namespace TC

set_option linter.unusedSectionVars false

open H

variable {R : Type}

/-- relative position errors after matching, from bounds for the positions and the orientations of the pairs -/
theorem relative_of_poses {P : Type} {dist : P → P → ℝ} {m : ℝ} {g : Sample ℝ R → P} {T U T' U' : Traj ℝ R}
    (hp : Paired dist m g T U T' U') {L : RotLib ℝ R} (hL : IsRotLib L) (hT : T.rot ≠ none) (hU : U.rot ≠ none)
    (hway : ∀ a ∈ samples U, ∀ b ∈ samples U, realNorm (b.p - a.p) ≤ |b.l - a.l|) {B C : ℝ}
    (hB : ∀ x ∈ samples T, ∀ y ∈ samples U, Nearest dist ((samples U).map g) (g x) (g y) → Within dist m (g x) (g y) →
      realNorm (y.p - x.p) ≤ B)
    (hC : ∀ x ∈ samples T, ∀ y ∈ samples U, ∀ q o, Nearest dist ((samples U).map g) (g x) (g y) → Within dist m (g x) (g y) →
      x.r = some q → y.r = some o → matAngle (L.toMat o * (L.toMat q).transpose) ≤ C)
    {s : RpeSettings ℝ} (hs : s.unit = .meter) {r : RpeResult ℝ} (h : compareRelative realEval L T' U' s = .ok r) :
    ∀ gr ∈ r.groups, ∀ (k : Nat) e d, gr.posDev[k]? = some (some e) → gr.pairDist[k]? = some d → |e| * |d| ≤ 2 * B + C * |d| := by
  have hlen : T'.tstamps.length = U'.tstamps.length := by
    have := hp.length
    rwa [← List.length_map (f := Sample.t), ← List.length_map (as := samples U') (f := Sample.t),
      samples_map_t hp.testCoherent, samples_map_t hp.refCoherent] at this
  have hne : U'.tstamps.length ≠ 0 := by
    intro h0
    refine hp.nonempty (List.eq_nil_of_length_eq_zero ?_)
    rw [← List.length_map (f := Sample.t), samples_map_t hp.testCoherent, hlen, h0]
  obtain ⟨lt, h1⟩ : ∃ lt, T'.rot = some lt := by
    have := hp.testMeta.rot
    rw [Option.isSome_iff_ne_none.2 hT] at this
    exact Option.isSome_iff_exists.1 this
  obtain ⟨lr, h2⟩ : ∃ lr, U'.rot = some lr := by
    have := hp.refMeta.rot
    rw [Option.isSome_iff_ne_none.2 hU] at this
    exact Option.isSome_iff_exists.1 this
  obtain ⟨a, ha, hpos, hrot⟩ : ∃ a, compareAbsolute realEval L T' U' = .ok a ∧ a.posDevComb realEval ≠ [] ∧
      a.rotDevComb realEval L ≠ [] := by
    obtain ⟨dir, -, -, ha⟩ := compareAbsolute_eq realEval L hp.testCoherent hp.refCoherent hlen.symm
    refine ⟨_, ha, fun h0 => hne ?_, fun h0 => hne ?_⟩
    · have h3 := congrArg List.length h0
      simpa only [AteResult.posDevComb, List.length_map, List.length_zipWith, List.length_nil, hp.refCoherent.pos,
        hp.testCoherent.pos, hlen, min_self] using h3
    · have h3 := congrArg List.length h0
      simpa only [AteResult.rotDevComb, h1, h2, List.length_map, List.length_zipWith, List.length_nil,
        hp.refCoherent.rot lr h2, hp.testCoherent.rot lt h1, hlen, min_self] using h3
  obtain ⟨M, m1, m2, -⟩ := pyMax_spec hpos
  obtain ⟨Θ, n1, n2, -⟩ := pyMax_spec hrot
  have hMB : M ≤ B := by
    obtain ⟨x, hx, y, hy, k1, k2, hM⟩ := paired_error hp ha m2
    rw [hM]
    exact hB x hx y hy k1 k2
  have hΘC : Θ ≤ C := by
    obtain ⟨x, hx, y, hy, q, o, k1, k2, hq, ho, hM⟩ := paired_turn hp hL hT hU ha n2
    rw [hM]
    exact hC x hx y hy q o k1 k2 hq ho
  intro gr hgr k e d he hd
  have := turned_bound hL hp.testCoherent hp.refCoherent hlen (by rw [h1]; simp) (by rw [h2]; simp)
    (fun a ha b hb => hway a (hp.ref.subset ha) b (hp.ref.subset hb)) ha (M := M) (Θ := Θ) m1 n1 hs h gr hgr k e d he hd
  have := mul_le_mul_of_nonneg_right hΘC (abs_nonneg d)
  linarith

/-- **C226**, positions of trajectories with orientations, in metres: nearest in time, twice the errors of the positions and the way
that can be driven within the allowed time difference, plus the distance times the errors of the orientations and the angle that
can be turned within it. -/
theorem C226_posed_limit (lib : MetricLib ℝ R) (hq : IsNearestQuery (fun a b => |a - b|) lib.mat.queryT) (hE : lib.eval = realEval)
    (hL : IsRotLib lib.mat.rot) (c : Nat) (s : ProcSettings ℝ) (hs : s.matching.method = .nearestTemporal)
    (hm : 0 < s.matching.maxTimeDiff) (hu : s.relative.unit = .meter) {v e e' : ℝ} {x : ℝ → V3 ℝ} (hx : TopSpeed realNorm v x)
    (hv : 0 ≤ v) {w f f' : ℝ} {A : ℝ → M3 ℝ} (hA : TopTurn w A) (hw : 0 ≤ w) {T U : Traj ℝ R} (hT : Coherent T) (hU : Coherent U)
    (hne : T.tstamps ≠ []) (hTr : T.rot ≠ none) (hUr : U.rot ≠ none) (harc : U.arc = lengthsFromXyz realNorm U.pos)
    (hTx : Records realNorm x e T) (hUx : Records realNorm x e' U) (hTa : RecordsTurn lib.mat.rot A f T)
    (hUa : RecordsTurn lib.mat.rot A f' U) {h h' : Heap ℝ R} {gt est : Nat}
    (hest : h[est]? = some T) (hgt : h[gt]? = some U) (hge : est ≠ gt) {r : RpeResult ℝ}
    (hret : Returns (H.rpe lib c s gt est) h r h') :
    ∀ g ∈ r.groups, ∀ (k : Nat) y d, g.posDev[k]? = some (some y) → g.pairDist[k]? = some d →
      |y| * |d| ≤ 2 * (e + e' + v * s.matching.maxTimeDiff) + (f + f' + w * s.matching.maxTimeDiff) * |d| := by
  obtain ⟨T', U', hp, h1⟩ := rpe_compares lib c s
    (C38_temporal_matching lib.mat hq c s.matching hs hm.le hT hU hne hest hgt true (fun _ => hge)) hret
  rw [hE] at h1
  refine relative_of_poses hp hL hTr hUr (way_of_arc hU harc) (fun y hy z hz _ hwi => ?_)
    (fun y hy z hz q o _ hwi hyq hzo => ?_) hu h1
  · rcases hwi with hwi | hwi
    · exact absurd hwi hm.ne'
    · exact records_apart realNorm_isNorm hx hv hTx hUx hy hz hwi.le
  · rcases hwi with hwi | hwi
    · exact absurd hwi hm.ne'
    · exact turns_apart hL hA hw hTa hUa hy hz hyq hzo hwi.le

/-- **C226**, positions of trajectories with orientations, for an estimate inside the span of the reference: half the sampling
interval of the reference in place of the allowed time difference. -/
theorem C226_posed_sampling (lib : MetricLib ℝ R) (hq : IsNearestQuery (fun a b => |a - b|) lib.mat.queryT) (hE : lib.eval = realEval)
    (hL : IsRotLib lib.mat.rot) (c : Nat) (s : ProcSettings ℝ) (hs : s.matching.method = .nearestTemporal)
    (hm : 0 ≤ s.matching.maxTimeDiff) (hu : s.relative.unit = .meter) {v e e' : ℝ} {x : ℝ → V3 ℝ} (hx : TopSpeed realNorm v x)
    (hv : 0 ≤ v) {w f f' : ℝ} {A : ℝ → M3 ℝ} (hA : TopTurn w A) (hw : 0 ≤ w) {T U : Traj ℝ R} (hT : Coherent T) (hU : Coherent U)
    (hne : T.tstamps ≠ []) (hTr : T.rot ≠ none) (hUr : U.rot ≠ none) (harc : U.arc = lengthsFromXyz realNorm U.pos)
    (hTx : Records realNorm x e T) (hUx : Records realNorm x e' U) (hTa : RecordsTurn lib.mat.rot A f T)
    (hUa : RecordsTurn lib.mat.rot A f' U) {i : ℝ} (hi0 : 0 ≤ i) (hi : GapFree i U.tstamps)
    (hspan : ∀ t ∈ T.tstamps, InSpan U.tstamps t) {h h' : Heap ℝ R} {gt est : Nat}
    (hest : h[est]? = some T) (hgt : h[gt]? = some U) (hge : est ≠ gt) {r : RpeResult ℝ}
    (hret : Returns (H.rpe lib c s gt est) h r h') :
    ∀ g ∈ r.groups, ∀ (k : Nat) y d, g.posDev[k]? = some (some y) → g.pairDist[k]? = some d →
      |y| * |d| ≤ 2 * (e + e' + v * (i / 2)) + (f + f' + w * (i / 2)) * |d| := by
  obtain ⟨T', U', hp, h1⟩ := rpe_compares lib c s
    (C38_temporal_matching lib.mat hq c s.matching hs hm hT hU hne hest hgt true (fun _ => hge)) hret
  rw [hE] at h1
  have hmem : ∀ y ∈ samples T, y.t ∈ T.tstamps := fun y hy => by
    rw [← samples_map_t hT]
    exact List.mem_map_of_mem hy
  refine relative_of_poses hp hL hTr hUr (way_of_arc hU harc) (fun y hy z hz hn _ => ?_)
    (fun y hy z hz q o hn _ hyq hzo => ?_) hu h1
  · rw [samples_map_t hU] at hn
    exact records_apart realNorm_isNorm hx hv hTx hUx hy hz (nearest_half hi hi0 (hspan _ (hmem y hy)) hn)
  · rw [samples_map_t hU] at hn
    exact turns_apart hL hA hw hTa hUa hy hz hyq hzo (nearest_half hi hi0 (hspan _ (hmem y hy)) hn)

/-! ### The hypotheses are met -/

/-- a reference that records a uniform motion up to half a metre and its orientation without error; a call with it returns, see the
example in `MatchCostRpe` -/
example : exOneMetre.unit = .meter ∧ exPoses.rot ≠ none ∧ exPoses.arc = lengthsFromXyz realNorm exPoses.pos ∧
    TopSpeed realNorm (realNorm ⟨3 / 2, 0, 0⟩) (fun t => (0 : V3 ℝ) + t • ⟨3 / 2, 0, 0⟩) ∧
    Records realNorm (fun t => (0 : V3 ℝ) + t • ⟨3 / 2, 0, 0⟩) (1 / 2) exPoses ∧ TopTurn 0 (fun _ => 1) ∧
    RecordsTurn exStepLib.mat.rot (fun _ => 1) 0 exPoses := by
  refine ⟨rfl, by simp [exPoses], ?_, topSpeed_uniform realNorm_isNorm _ _, ?_, ⟨fun _ => isRot_one, fun s t => ?_⟩, ?_⟩
  · have h4 : √(4 : ℝ) = 2 := by rw [show (4 : ℝ) = 2 ^ 2 by norm_num]; exact Real.sqrt_sq (by norm_num)
    norm_num [exPoses, lengthsFromXyz, diffs, cumFrom, realNorm, V3.normSq, h4]
  · intro a ha
    simp only [samples, exPoses, rotColumn, List.map_cons, List.map_nil, List.zip_cons_cons, List.zip_nil_left, List.mem_cons,
      List.not_mem_nil, or_false] at ha
    rcases ha with rfl | rfl | rfl <;> simp only [realNorm] <;> refine Real.sqrt_le_iff.2 ⟨by norm_num, ?_⟩ <;>
      norm_num [V3.normSq]
  · rw [Matrix.transpose_one, Matrix.mul_one, zero_mul, (matAngle_eq_zero isRot_one).2 rfl]
  · intro a ha q hq
    obtain ⟨i, hi⟩ := List.getElem?_of_mem ha
    have h1 := sample_rot exPoses_coherent hi
    rw [hq] at h1
    have h2 : q = ⟨1, isRot_one⟩ := by
      rcases i with _ | _ | _ | i <;> simp [exPoses, rotColumn] at h1 <;> exact h1.symm
    subst h2
    refine le_of_eq ?_
    rw [Matrix.transpose_one, Matrix.mul_one]
    exact (matAngle_eq_zero isRot_one).2 rfl

end TC
