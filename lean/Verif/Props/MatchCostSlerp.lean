import Verif.Props.InterpCost
import Verif.Props.MatchCostRpe
import Verif.Proofs.ExactAte

/-! C225: what matching by interpolation costs in the absolute rotation error. -/

namespace TC

set_option linter.unusedSectionVars false

open H

section steps

variable {K R : Type} [Field K] [LinearOrder K] [IsStrictOrderedRing K] [FloorRing K]

/-- interpolated orientations need two samples -/
theorem two_of_interpolated (L : RotLib K R) {T T' : Traj K R} (hT : Coherent T) (hne : T.tstamps ≠ []) (hrot : T.rot ≠ none)
    {ts : List K} (hret : Returns (Traj.interpolate L ts) T () T') (hT' : T'.tstamps ≠ []) : 2 ≤ T.tstamps.length := by
  by_contra hlt
  have h0 := List.length_pos_of_ne_nil hne
  obtain ⟨r, hr⟩ := Option.ne_none_iff_exists'.1 hrot
  have hl := hT.rot r hr
  unfold Returns at hret
  rcases Nat.eq_zero_or_pos (cropReq T.tstamps h0 ts).length with hc | hc
  · rcases interpolate_cases L hT h0 ts with ⟨q, hq⟩ | ⟨e, he⟩
    · rw [hq] at hret
      apply hT'
      rw [← (Prod.mk.inj hret).2]
      simpa [interpDone] using hc
    · rw [he] at hret
      simp at hret
  · have := interpolate_error_of_rot L hT h0 ts (e := .valueError) (T' := { T with pos := interpPos T (cropReq T.tstamps h0 ts) }) (by
      unfold Traj.interpolateRotations
      rw [SE.run_bind_ok (SE.run_get _)]
      simp only [hr, if_neg hc.ne']
      refine SE.run_bind_error ?_
      rw [SE.run_lift]
      have : Traj.slerpCall L T.tstamps r (cropReq T.tstamps h0 ts) = .error .valueError := by
        unfold Traj.slerpCall
        rw [if_pos (by omega)]
        rfl
      rw [this])
    rw [this] at hret
    simp at hret

/-- what is kept of a trajectory without gaps has no gaps -/
theorem gapFree_kept {g : K} {l : List K} (h : GapFree g l) {C : K → Prop} (l' : List K)
    (hl : ∀ t, t ∈ l' ↔ t ∈ l ∧ C t) (hC : ∀ a b c, C a → C c → a < b → b < c → C b) : GapFree g l' := by
  rintro a b ⟨ha, hb, hab, hc⟩
  obtain ⟨a1, a2⟩ := (hl a).1 ha
  obtain ⟨b1, b2⟩ := (hl b).1 hb
  exact h a b ⟨a1, b1, hab, fun c h1 h2 => hc c ((hl c).2 ⟨h1, hC a c b a2 b2 h2.1 h2.2⟩) h2⟩

open Classical in
/-- the steps of matching by interpolation: both trajectories are cut to the covered times, then the first one is interpolated -/
theorem interpolation_steps (lib : MatchLib K R) (counter : Nat) (s : MatchingSettings K)
    (hs : s.method = .interpolation) {T U : Traj K R} (hT : Coherent T) (hU : Coherent U) {h h' : Heap K R} {f t f' t' : Nat}
    (hf : h[f]? = some T) (ht : h[t]? = some U) (inplace : Bool) (hft : inplace = true → f ≠ t)
    (hret : Returns (matchTrajectories lib counter f t s inplace) h (f', t') h') :
    ∃ T1 T2 U1, h'[f']? = some { T2 with arc := U1.arc } ∧ h'[t']? = some U1 ∧ Coherent T1 ∧ T1.tstamps ≠ [] ∧ SameMeta T T1 ∧
      samples T1 = (samples T).filter (fun x => decide (Covered U.tstamps 2 x.t)) ∧ Coherent U1 ∧ SameMeta U U1 ∧
      samples U1 = (samples U).filter (fun y => decide (Covered T1.tstamps 2 y.t)) ∧
      Returns (Traj.interpolate lib.rot U1.tstamps) T1 () T2 := by
  obtain ⟨f1, t1, h0, e, hf1, ht1, hne1, -, -⟩ := match_start inplace hf ht hft
    (fun test ref => matchInterpolation lib test ref)
  have hcall : matchTrajectories lib counter f t s inplace h = matchInterpolation lib f1 t1 h0 := by
    rw [← e]
    unfold matchTrajectories
    rw [hs]
  unfold Returns at hret
  rw [hcall] at hret
  unfold matchInterpolation at hret
  rw [SE.run_bind_ok (rd_run ht1)] at hret
  obtain ⟨a, h1, hA, hret⟩ := returns_bind hret
  obtain ⟨T1, hT1, rfl⟩ := simV_returns (sim_intersect f1 U.tstamps defaultGap) hf1 hA
  have hf2 : (h0.set f1 T1)[f1]? = some T1 := get_set hf1
  have ht2 : (h0.set f1 T1)[t1]? = some U := by rw [List.getElem?_set_ne hne1]; exact ht1
  rw [SE.run_bind_ok (rd_run hf2)] at hret
  obtain ⟨b, h2, hB, hret⟩ := returns_bind hret
  obtain ⟨U1, hU1, rfl⟩ := simV_returns (sim_intersect t1 T1.tstamps defaultGap) ht2 hB
  have ht3 : ((h0.set f1 T1).set t1 U1)[t1]? = some U1 := get_set ht2
  have hf3 : ((h0.set f1 T1).set t1 U1)[f1]? = some T1 := by
    rw [List.getElem?_set_ne (Ne.symm hne1)]; exact hf2
  rw [SE.run_bind_ok (rd_run ht3)] at hret
  obtain ⟨c, h3, hC, hret⟩ := returns_bind hret
  obtain ⟨T2, hT2, rfl⟩ := simV_returns (sim_interpolate lib.rot f1 U1.tstamps) hf3 hC
  have hf4 : (((h0.set f1 T1).set t1 U1).set f1 T2)[f1]? = some T2 := get_set hf3
  have ht4 : (((h0.set f1 T1).set t1 U1).set f1 T2)[t1]? = some U1 := by
    rw [List.getElem?_set_ne hne1]; exact ht3
  rw [SE.run_bind_ok (rd_run ht4)] at hret
  have hlast := Sim.onRef (r := f1)
    (SE.modify (fun s : Traj K R => { s with arc := U1.arc })) _ T2 hf4
  rw [SE.run_bind_ok hlast] at hret
  obtain ⟨h5, rfl⟩ := Prod.mk.inj hret
  obtain ⟨rfl, rfl⟩ := Prod.mk.inj (Except.ok.inj h5)
  obtain ⟨-, -, hT1c, hT1m, hT1s⟩ := intersect_returns hT hT1
  obtain ⟨-, hT1ne, hU1c, hU1m, hU1s⟩ := intersect_returns hU hU1
  refine ⟨T1, T2, U1, get_set hf4, ?_, hT1c, hT1ne, hT1m, hT1s, hU1c, hU1m, hU1s, hT2⟩
  rw [List.getElem?_set_ne hne1]
  exact ht4

end steps

variable {R : Type}

/-- **C225**, orientations, matched by interpolation: the error of the reference, twice the error of the estimate, and the angle that
can be turned between two samples of the estimate. -/
theorem C225_turn_interpolation (lib : MatchLib ℝ R) (hL : IsRotLib lib.rot) (hE : SlerpEnds lib.rot) (hD : SlerpDivides lib.rot)
    (counter : Nat) (s : MatchingSettings ℝ) (hs : s.method = .interpolation) {w e e' : ℝ} {A : ℝ → M3 ℝ} (hA : TopTurn w A)
    (hw : 0 ≤ w) {T U : Traj ℝ R} (hT : Coherent T) (hU : Coherent U) (hTs : StrictAsc T.tstamps) (hUs : StrictAsc U.tstamps)
    (hTr : T.rot ≠ none) (hUr : U.rot ≠ none) (hTx : RecordsTurn lib.rot A e T) (hUx : RecordsTurn lib.rot A e' U) {g : ℝ}
    (hg0 : 0 ≤ g) (hg : GapFree g T.tstamps) (hgU : GapFree 2 U.tstamps) {h h' : Heap ℝ R} {f t f' t' : Nat}
    (hf : h[f]? = some T) (ht : h[t]? = some U) (inplace : Bool) (hft : inplace = true → f ≠ t)
    (hret : Returns (matchTrajectories lib counter f t s inplace) h (f', t') h') :
    ∃ T' U', h'[f']? = some T' ∧ h'[t']? = some U' ∧ ∀ a, compareAbsolute realEval lib.rot T' U' = .ok a →
      ∀ d ∈ a.rotDevComb realEval lib.rot, d ≤ 2 * e + e' + w * g := by
  classical
  obtain ⟨T1, T2, U1, h1, h2, hT1, hT1n, hT1m, hT1s, hU1, hU1m, hU1s, hT2⟩ :=
    interpolation_steps lib counter s hs hT hU hf ht inplace hft hret
  obtain ⟨T'', U'', q1, q2, -, q4, -⟩ := C40_interpolation_matching lib counter s hs hT hU hTs hUs hf ht inplace hft hret
  rw [h1, Option.some.injEq] at q1
  rw [h2, Option.some.injEq] at q2
  subst q1 q2
  have hts : T2.tstamps = U1.tstamps := q4
  refine ⟨_, U1, h1, h2, fun a ha d hd => ?_⟩
  have hT1r : T1.rot ≠ none := by
    have := hT1m.rot
    rw [Option.isSome_iff_ne_none.2 hTr] at this
    exact Option.isSome_iff_ne_none.1 this
  obtain ⟨lr, k2⟩ : ∃ lr, U1.rot = some lr := by
    have := hU1m.rot
    rw [Option.isSome_iff_ne_none.2 hUr] at this
    exact Option.isSome_iff_exists.1 this
  obtain ⟨hM, hpl, hco⟩ := interpolate_returns lib.rot hT1 hT1n hT2
  obtain ⟨lt, k1⟩ : ∃ lt, T2.rot = some lt := by
    have := hM.rot
    rw [Option.isSome_iff_ne_none.2 hT1r] at this
    exact Option.isSome_iff_exists.1 this
  by_cases h0 : U1.tstamps = []
  · have hlr : lr = [] := List.eq_nil_of_length_eq_zero (by rw [hU1.rot lr k2, h0]; rfl)
    obtain ⟨D, e1, e2⟩ := (compareAbsolute_fields ha).2.1 lr lt k2 k1
    subst hlr
    have hD0 : D = [] := by
      rcases lt with _ | ⟨x, _ | ⟨x', lt⟩⟩ <;> simp [bcast] at e1
      · exact e1
      · exact e1
    unfold AteResult.rotDevComb at hd
    rw [e2, hD0] at hd
    simp at hd
  have hT2n : T2.tstamps ≠ [] := by rw [hts]; exact h0
  have hT2c : Coherent T2 := hco fun h3 => hT2n (List.eq_nil_of_length_eq_zero (by rw [← hpl, h3]; rfl))
  have hTc : Coherent { T2 with arc := U1.arc } :=
    ⟨hT2c.pos, by rw [hU1.arc]; exact congrArg List.length hts.symm, hT2c.speed, hT2c.rot⟩
  have hT1t : ∀ τ, τ ∈ T1.tstamps ↔ τ ∈ T.tstamps ∧ Covered U.tstamps 2 τ := by
    intro τ
    rw [← samples_map_t hT1, hT1s, ← samples_map_t hT]
    simp only [List.mem_map, List.mem_filter, decide_eq_true_eq]
    constructor
    · rintro ⟨x, ⟨hx, hc⟩, rfl⟩
      exact ⟨⟨x, hx, rfl⟩, hc⟩
    · rintro ⟨⟨x, hx, rfl⟩, hc⟩
      exact ⟨x, ⟨hx, hc⟩, rfl⟩
  have hgap : GapFree g T1.tstamps := by
    refine gapFree_kept hg (C := Covered U.tstamps 2) _ hT1t ?_
    intro a b c ha hc hab hbc
    obtain ⟨⟨x, hx, hx'⟩, -⟩ := ha.inSpan
    obtain ⟨-, y, hy, hy'⟩ := hc.inSpan
    exact covered_of_gapFree hgU ⟨⟨x, hx, by linarith⟩, y, hy, by linarith⟩
  have hasc : StrictAsc T1.tstamps := by
    rw [← samples_map_t hT1, hT1s]
    refine List.Pairwise.sublist ?_ hTs
    rw [← samples_map_t hT]
    exact List.filter_sublist.map _
  have hrec : RecordsTurn lib.rot A e T1 := fun x hx => by
    rw [hT1s] at hx
    exact hTx x (List.mem_filter.1 hx).1
  have hrec2 := C228_orientations hL hE hD hA hw hT1 (two_of_interpolated lib.rot hT1 hT1n hT1r hT2 hT2n) hasc hT1r hrec hg0 hgap _ hT2
  have hl : lr.length = lt.length := by rw [hU1.rot lr k2, hT2c.rot lt k1, hts]
  obtain ⟨D, e1, e2⟩ := (compareAbsolute_fields ha).2.1 lr lt k2 k1
  rw [bcast_eq hl, Except.ok.injEq] at e1
  unfold AteResult.rotDevComb at hd
  rw [e2] at hd
  obtain ⟨c, hc, rfl⟩ := List.mem_map.1 hd
  rw [← e1] at hc
  obtain ⟨i, hi⟩ := List.getElem?_of_mem hc
  rw [List.getElem?_zipWith] at hi
  rcases ho : lr[i]? with _ | o <;> rcases hq : lt[i]? with _ | q <;> rw [ho, hq] at hi <;> simp at hi
  have hil := (List.getElem?_eq_some_iff.1 hq).1
  rw [hT2c.rot lt k1] at hil
  obtain ⟨x, hx⟩ := exists_sample hT2c (i := i) hil
  obtain ⟨y, hy⟩ := exists_sample hU1 (i := i) (by rw [← hts]; exact hil)
  obtain ⟨lx, qx, x1, x2, x3⟩ := sample_turn hT2c (by rw [k1]; simp) hx
  rw [k1, Option.some.injEq] at x1
  subst x1
  rw [hq, Option.some.injEq] at x2
  subst x2
  obtain ⟨ly, qy, y1, y2, y3⟩ := sample_turn hU1 (by rw [k2]; simp) hy
  rw [k2, Option.some.injEq] at y1
  subst y1
  rw [ho, Option.some.injEq] at y2
  subst y2
  have hxy : x.t = y.t := by
    have a1 : T2.tstamps[i]? = some x.t := by rw [← samples_map_t hT2c, List.getElem?_map, hx]; rfl
    have a2 : U1.tstamps[i]? = some y.t := by rw [← samples_map_t hU1, List.getElem?_map, hy]; rfl
    rw [hts, a2, Option.some.injEq] at a1
    exact a1.symm
  have r1 := hrec2 x (List.mem_of_getElem? hx) q x3
  have hyU : y ∈ samples U := by
    have := List.mem_of_getElem? hy
    rw [hU1s] at this
    exact (List.mem_filter.1 this).1
  have r2 := hUx y hyU o y3
  have r3 := turn_via (hL.rot o) (hA.rot y.t) (hL.rot q)
  rw [turn_swap (A y.t), ← hxy] at r3
  rw [← hxy] at r2
  have goal : matAngle (lib.rot.toMat o * (lib.rot.toMat q).transpose) ≤ 2 * e + e' + w * g := by linarith
  rw [← hi, hL.toMat_mul, hL.toMat_inv]
  exact goal

/-- **C226**, orientations, matched by interpolation: twice the bound of C225. -/
theorem C226_turn_interpolation (lib : MetricLib ℝ R) (hev : lib.eval = realEval) (hL : IsRotLib lib.mat.rot)
    (hE : SlerpEnds lib.mat.rot) (hD : SlerpDivides lib.mat.rot) (c : Nat) (s : ProcSettings ℝ)
    (hs : s.matching.method = .interpolation) {w e e' : ℝ} {A : ℝ → M3 ℝ} (hA : TopTurn w A) (hw : 0 ≤ w) {T U : Traj ℝ R}
    (hT : Coherent T) (hU : Coherent U) (hTs : StrictAsc T.tstamps) (hUs : StrictAsc U.tstamps) (hTr : T.rot ≠ none)
    (hUr : U.rot ≠ none) (hTx : RecordsTurn lib.mat.rot A e T) (hUx : RecordsTurn lib.mat.rot A e' U) {v : ℝ} (hv0 : 0 ≤ v)
    (hv : GapFree v T.tstamps) (hgU : GapFree 2 U.tstamps) {h h' : Heap ℝ R} {gt est : Nat} (hest : h[est]? = some T)
    (hgt : h[gt]? = some U) (hge : est ≠ gt) {r : RpeResult ℝ} (hret : Returns (H.rpe lib c s gt est) h r h') :
    ∀ g ∈ r.groups, ∀ (k : Nat) y d, g.rotDev[k]? = some (some y) → g.pairDist[k]? = some d →
      |y| * |d| ≤ 2 * (2 * e + e' + w * v) := by
  have hle := (List.getElem?_eq_some_iff.1 hest).1
  have hlt := (List.getElem?_eq_some_iff.1 hgt).1
  obtain ⟨T', U', h1, rfl, hp, hc⟩ := rpe_call lib c s (by rw [hs]; decide) hT hU (fun _ => ⟨hTs, hUs⟩) hest hgt hge hret
  obtain ⟨T₁, U₁, q1, q2, hB⟩ := C225_turn_interpolation lib.mat hL hE hD c s.matching hs hA hw hT hU hTs hUs hTr hUr hTx hUx hv0 hv hgU
    hest hgt true (fun _ => hge) h1
  rw [List.getElem?_set_ne (Ne.symm hge), List.getElem?_set_self hle, Option.some.injEq] at q1
  rw [List.getElem?_set_self (by rwa [List.length_set]), Option.some.injEq] at q2
  subst q1 q2
  have hne : U'.tstamps ≠ [] := by
    intro h0
    refine (compareRelative_ok hc).2.2.2.2.2 (List.sum_eq_zero_iff.2 fun n hn => ?_)
    obtain ⟨g, hg, rfl⟩ := List.mem_map.1 hn
    obtain ⟨d, -, hgd⟩ := mapE_mem (compareRelative_ok hc).2.2.1 hg
    obtain ⟨D, ps, devs, e1, e2, e3, -, -, -, e7⟩ := rpeGroup_ok hgd
    have hD : D = [] := List.length_eq_zero_iff.1 (by rw [pairScale_length hp.ref e1, h0]; rfl)
    subst hD
    cases hall : s.relative.allPairs with
    | true =>
      rw [hall] at e2
      cases e2
      cases e3
      rw [e7]
      rfl
    | false =>
      rw [hall] at e2
      cases e2
  have hTc : Coherent T' := hp.test (by
    intro h0
    have := hp.length
    rw [h0, hp.ref.pos] at this
    exact hne (List.length_eq_zero_iff.1 this.symm))
  have hlen : T'.tstamps.length = U'.tstamps.length := by rw [← hTc.pos, ← hp.ref.pos, hp.length]
  obtain ⟨lt, h3⟩ : ∃ lt, T'.rot = some lt := by
    have := hp.testMeta.rot
    rw [Option.isSome_iff_ne_none.2 hTr] at this
    exact Option.isSome_iff_exists.1 this
  obtain ⟨lr, h2⟩ : ∃ lr, U'.rot = some lr := by
    have := hp.refMeta.rot
    rw [Option.isSome_iff_ne_none.2 hUr] at this
    exact Option.isSome_iff_exists.1 this
  rw [hev] at hc
  obtain ⟨dir, -, -, ha⟩ := compareAbsolute_eq realEval lib.mat.rot hTc hp.ref hlen.symm
  obtain ⟨a, ha, hlena⟩ : ∃ a, compareAbsolute realEval lib.mat.rot T' U' = .ok a ∧ a.rotDevComb realEval lib.mat.rot ≠ [] := by
    refine ⟨_, ha, fun h0 => ?_⟩
    have h4 := congrArg List.length h0
    simp only [AteResult.rotDevComb, h3, h2, List.length_map, List.length_zipWith, List.length_nil,
      hp.ref.rot lr h2, hTc.rot lt h3, hlen, min_self] at h4
    exact hne (List.eq_nil_of_length_eq_zero h4)
  obtain ⟨M, h5, h6, -⟩ := pyMax_spec hlena
  have hMB := hB a ha M h6
  intro gr hgr k y d hy hd
  have := C221_rotations hL hTc hp.ref hlen ha (M := M) h5 hc gr hgr k y d hy hd
  linarith

/-- matching by interpolation returns for trajectories with orientations; the hypotheses on times and recorded orientations hold.
The laws of the library are shown for `dividing` in `InterpCost`. -/
example : let T := exPosed ⟨0, 0, 0⟩ ⟨1, 2, 0⟩ exUpright exUpside
    let U := exPosed ⟨0, 0, 0⟩ ⟨1, 2, 0⟩ exUpright exUpright
    Coherent T ∧ Coherent U ∧ StrictAsc T.tstamps ∧ StrictAsc U.tstamps ∧ GapFree 1 T.tstamps ∧ GapFree 2 U.tstamps ∧
    TopTurn 0 (fun _ => 1) ∧ RecordsTurn (matLib dividing) (fun _ => 1) Real.pi T ∧
    RecordsTurn (matLib dividing) (fun _ => 1) Real.pi U ∧ ∀ lib : MatchLib ℝ (RotM ℝ), ∃ h',
      Returns (matchTrajectories lib 0 0 1 ⟨.interpolation, 1, 1, 1⟩ true) [T, U] (0, 1) h' := by
  intro T U
  have hgap : ∀ g : ℝ, 1 ≤ g → GapFree g ([0, 1] : List ℝ) := by
    rintro g hg a b ⟨ha, hb, hab, -⟩
    simp only [List.mem_cons, List.not_mem_nil, or_false] at ha hb
    rcases ha with rfl | rfl <;> rcases hb with rfl | rfl <;> linarith
  have hasc : StrictAsc ([0, 1] : List ℝ) := by simp [StrictAsc]
  refine ⟨exPosed_coherent _ _ _ _, exPosed_coherent _ _ _ _, hasc, hasc, hgap 1 le_rfl, hgap 2 one_le_two,
    ⟨fun _ => isRot_one, fun s t => ?_⟩, fun a _ q _ => matAngle_le_pi _, fun a _ q _ => matAngle_le_pi _, fun lib => ?_⟩
  · rw [Matrix.transpose_one, Matrix.mul_one, zero_mul, (matAngle_eq_zero isRot_one).2 rfl]
  · obtain ⟨T', h1, -⟩ := matchInterp_same lib 0 ⟨.interpolation, 1, 1, 1⟩ rfl (exPosed_coherent ⟨0, 0, 0⟩ ⟨1, 2, 0⟩ exUpright exUpside)
      (exPosed_coherent ⟨0, 0, 0⟩ ⟨1, 2, 0⟩ exUpright exUpright) rfl hasc le_rfl (h := [T, U]) (f := 0) (t := 1) rfl rfl (by decide)
    exact ⟨_, h1⟩

end TC
