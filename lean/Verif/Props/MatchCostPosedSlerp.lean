import Verif.Props.MatchCostSlerp
import Verif.Props.MatchCostPosed

/-! C226: relative position errors of trajectories with orientations after matching by interpolation. -/

namespace TC

set_option linter.unusedSectionVars false

open H

variable {R : Type}

/-- **C226**, positions of trajectories with orientations, in metres, matched by interpolation: twice the bound for the absolute
position errors, plus the distance times the bound for the absolute rotation errors. -/
theorem C226_posed_interpolation (lib : MetricLib ℝ R) (hev : lib.eval = realEval) (hL : IsRotLib lib.mat.rot)
    (hE : SlerpEnds lib.mat.rot) (hD : SlerpDivides lib.mat.rot) (c : Nat) (s : ProcSettings ℝ)
    (hs : s.matching.method = .interpolation) (hu : s.relative.unit = .meter) {v e e' : ℝ} {x : ℝ → V3 ℝ}
    (hx : TopSpeed realNorm v x) (hv : 0 ≤ v) {w f f' : ℝ} {A : ℝ → M3 ℝ} (hA : TopTurn w A) (hw : 0 ≤ w) {T U : Traj ℝ R}
    (hT : Coherent T) (hU : Coherent U) (hTs : StrictAsc T.tstamps) (hUs : StrictAsc U.tstamps) (hTr : T.rot ≠ none)
    (hUr : U.rot ≠ none) (harc : U.arc = lengthsFromXyz realNorm U.pos) (hTx : Records realNorm x e T) (hUx : Records realNorm x e' U)
    (hTa : RecordsTurn lib.mat.rot A f T) (hUa : RecordsTurn lib.mat.rot A f' U) {i : ℝ} (hi0 : 0 ≤ i)
    (hi : GapFree i T.tstamps) (hgU : GapFree 2 U.tstamps) {h h' : Heap ℝ R} {gt est : Nat} (hest : h[est]? = some T)
    (hgt : h[gt]? = some U) (hge : est ≠ gt) {r : RpeResult ℝ} (hret : Returns (H.rpe lib c s gt est) h r h') :
    ∀ g ∈ r.groups, ∀ (k : Nat) y d, g.posDev[k]? = some (some y) → g.pairDist[k]? = some d →
      |y| * |d| ≤ 2 * (e + e' + v * (i / 2)) + (2 * f + f' + w * i) * |d| := by
  classical
  have hle := (List.getElem?_eq_some_iff.1 hest).1
  have hlt := (List.getElem?_eq_some_iff.1 hgt).1
  obtain ⟨T', U', h1, rfl, hp, hc⟩ := rpe_call lib c s (by rw [hs]; decide) hT hU (fun _ => ⟨hTs, hUs⟩) hest hgt hge hret
  have g1 : ((h.set est T').set gt U')[est]? = some T' := by
    rw [List.getElem?_set_ne (Ne.symm hge), List.getElem?_set_self hle]
  have g2 : ((h.set est T').set gt U')[gt]? = some U' := List.getElem?_set_self (by rwa [List.length_set])
  obtain ⟨T₁, U₁, q1, q2, hB⟩ := C225_interpolation lib.mat realEval_ok lib.mat.rot c s.matching hs hx hv hT hU hTs hUs hTx hUx hi0 hi
    hgU hest hgt true (fun _ => hge) h1
  rw [g1, Option.some.injEq] at q1
  rw [g2, Option.some.injEq] at q2
  subst q1 q2
  obtain ⟨T₁, U₁, q1, q2, hC⟩ := C225_turn_interpolation lib.mat hL hE hD c s.matching hs hA hw hT hU hTs hUs hTr hUr hTa hUa hi0 hi hgU
    hest hgt true (fun _ => hge) h1
  rw [g1, Option.some.injEq] at q1
  rw [g2, Option.some.injEq] at q2
  subst q1 q2
  obtain ⟨T₂, T₃, U₁, -, q2, -, -, -, -, -, -, hsub, -⟩ := interpolation_steps lib.mat c s.matching hs hT hU hest hgt true
    (fun _ => hge) h1
  rw [g2, Option.some.injEq] at q2
  subst q2
  have hne : U'.tstamps ≠ [] := by
    intro h0
    refine (compareRelative_ok hc).2.2.2.2.2 (List.sum_eq_zero_iff.2 fun n hn => ?_)
    obtain ⟨g, hg, rfl⟩ := List.mem_map.1 hn
    obtain ⟨d, -, hgd⟩ := mapE_mem (compareRelative_ok hc).2.2.1 hg
    obtain ⟨D, ps, devs, e1, e2, e3, -, -, -, e7⟩ := rpeGroup_ok hgd
    have hD : D = [] := List.length_eq_zero_iff.1 (by rw [pairScale_length hp.ref e1, h0]; rfl)
    subst hD
    cases hall : s.relative.allPairs with
    | true =>
      rw [hall] at e2
      cases e2
      cases e3
      rw [e7]
      rfl
    | false =>
      rw [hall] at e2
      cases e2
  have hTc : Coherent T' := hp.test (by
    intro h0
    have := hp.length
    rw [h0, hp.ref.pos] at this
    exact hne (List.length_eq_zero_iff.1 this.symm))
  have hlen : T'.tstamps.length = U'.tstamps.length := by rw [← hTc.pos, ← hp.ref.pos, hp.length]
  have hne' : U'.tstamps.length ≠ 0 := fun h0 => hne (List.eq_nil_of_length_eq_zero h0)
  obtain ⟨lt, h3⟩ : ∃ lt, T'.rot = some lt := by
    have := hp.testMeta.rot
    rw [Option.isSome_iff_ne_none.2 hTr] at this
    exact Option.isSome_iff_exists.1 this
  obtain ⟨lr, h2⟩ : ∃ lr, U'.rot = some lr := by
    have := hp.refMeta.rot
    rw [Option.isSome_iff_ne_none.2 hUr] at this
    exact Option.isSome_iff_exists.1 this
  rw [hev] at hc
  obtain ⟨a, ha, hpos, hrot⟩ : ∃ a, compareAbsolute realEval lib.mat.rot T' U' = .ok a ∧ a.posDevComb realEval ≠ [] ∧
      a.rotDevComb realEval lib.mat.rot ≠ [] := by
    obtain ⟨dir, -, -, ha⟩ := compareAbsolute_eq realEval lib.mat.rot hTc hp.ref hlen.symm
    refine ⟨_, ha, fun h0 => hne' ?_, fun h0 => hne' ?_⟩
    · have h4 := congrArg List.length h0
      simpa only [AteResult.posDevComb, List.length_map, List.length_zipWith, List.length_nil, hp.ref.pos,
        hTc.pos, hlen, min_self] using h4
    · have h4 := congrArg List.length h0
      simpa only [AteResult.rotDevComb, h3, h2, List.length_map, List.length_zipWith, List.length_nil,
        hp.ref.rot lr h2, hTc.rot lt h3, hlen, min_self] using h4
  obtain ⟨M, m1, m2, -⟩ := pyMax_spec hpos
  obtain ⟨Θ, n1, n2, -⟩ := pyMax_spec hrot
  have hMB := hB a ha M m2
  have hΘC := hC a ha Θ n2
  have hmem : ∀ y ∈ samples U', y ∈ samples U := fun y hy => by
    rw [hsub] at hy
    exact (List.mem_filter.1 hy).1
  intro gr hgr k y d hy hd
  have := turned_bound hL hTc hp.ref hlen (by rw [h3]; simp) (by rw [h2]; simp)
    (fun a ha b hb => way_of_arc hU harc a (hmem a ha) b (hmem b hb)) ha (M := M) (Θ := Θ) m1 n1 hu hc gr hgr k y d hy hd
  have := mul_le_mul_of_nonneg_right hΘC (abs_nonneg d)
  linarith

theorem dividing_ends : SlerpEnds (matLib dividing) := by
  refine ⟨fun a b => ?_, fun a b => ?_⟩
  · have h := (dividing_part a b le_rfl zero_le_one).1
    rw [zero_mul] at h
    have h1 := (matAngle_eq_zero ((dividing a b 0).2.mul a.2.transpose)).1 (le_antisymm h (matAngle_nonneg _))
    refine Subtype.ext ?_
    calc (dividing a b 0).1 = (dividing a b 0).1 * (a.1.transpose * a.1) := by rw [mul_eq_one_comm.1 a.2.1, Matrix.mul_one]
      _ = a.1 := by rw [← Matrix.mul_assoc, h1, Matrix.one_mul]
  · have h := (dividing_part a b zero_le_one le_rfl).2
    rw [sub_self, zero_mul] at h
    have h1 := (matAngle_eq_zero ((dividing a b 1).2.mul b.2.transpose)).1 (le_antisymm h (matAngle_nonneg _))
    refine Subtype.ext ?_
    calc (dividing a b 1).1 = (dividing a b 1).1 * (b.1.transpose * b.1) := by rw [mul_eq_one_comm.1 b.2.1, Matrix.mul_one]
      _ = b.1 := by rw [← Matrix.mul_assoc, h1, Matrix.one_mul]

/-- a call of `rpe` with orientations and matching by interpolation that returns; the laws of `dividing` are shown in `InterpCost`,
the other hypotheses on `exPoses` in `MatchCostPosed` -/
example : StrictAsc exPoses.tstamps ∧ GapFree 2 exPoses.tstamps ∧ ∃ lib : MetricLib ℝ RotMat, lib.eval = realEval ∧
    lib.mat.rot = matLib dividing ∧ ∃ r h',
      Returns (H.rpe lib 0 { exDefaults .interpolation with relative := exOneMetre } 0 1) [exPoses, { exPoses with name := "est" }] r h' := by
  have hasc : StrictAsc exPoses.tstamps := by simp [exPoses, StrictAsc]
  have hc : Coherent { exPoses with name := "est" } := ⟨exPoses_coherent.pos, exPoses_coherent.arc, exPoses_coherent.speed, exPoses_coherent.rot⟩
  refine ⟨hasc, ?_, { exStepLib with mat := { exStepLib.mat with rot := matLib dividing } }, rfl, rfl, ?_⟩
  · rintro a b ⟨ha, hb, hab, -⟩
    simp only [exPoses, List.mem_cons, List.not_mem_nil, or_false] at ha hb
    rcases ha with rfl | rfl | rfl <;> rcases hb with rfl | rfl | rfl <;> linarith
  · exact (C160_returns { exStepLib with mat := { exStepLib.mat with rot := matLib dividing } } 0
      { exDefaults .interpolation with relative := exOneMetre } (.inl ⟨rfl, dividing_ends⟩) hc exPoses_coherent rfl hasc
      (by simp [exPoses]) (h := [exPoses, { exPoses with name := "est" }]) (est := 1) (gt := 0) rfl rfl (by decide) one_pos one_pos (by
        intro D hD
        injection hD with hD
        subst hD
        simp [exPoses])).2 ⟨le_refl _, [0, 1, 3], rfl, 0, by simp, 3, by simp, by norm_num [exOneMetre]⟩

end TC
