import Verif.Props.RpeFrames
import Verif.Props.RpeValues
import Verif.Props.Compare
/-!
# C160: the relative errors of an error-free estimate

`rpe` on an estimate that is the ground truth itself in other coordinates, sampled at the same times.
-/
namespace TC
set_option linter.unusedSectionVars false
open H
variable {K R : Type} [Field K] [LinearOrder K]

/-- `T` is `U` in other coordinates, sampled at the same times.  The orientations are compared if both trajectories
have some.  Names, speeds and arc lengths may differ. -/
structure OtherFrame (L : RotLib K R) (A : M4 K) (U T : Traj K R) : Prop where
  rigid : IsRigid A
  times : T.tstamps = U.tstamps
  pos : T.pos = U.pos.map (fun p => mulV (poseRot A) p + posePos A)
  rot : ∀ r r', T.rot = some r → U.rot = some r' → r.map L.toMat = r'.map (fun q => poseRot A * L.toMat q)

/-- the relative errors of the result are zero; the only other entries are `nan`, at pairs of distance zero -/
def NoRelativeError (r : RpeResult K) : Prop :=
  ∀ g ∈ r.groups,
    (∀ (k : Nat) e, g.posDev[k]? = some e → (g.pairDist[k]? = some 0 ∧ e = none) ∨ e = some 0) ∧
    (∀ (k : Nat) e, g.rotDev[k]? = some e → (g.pairDist[k]? = some 0 ∧ e = none) ∨ e = some 0)

theorem pairDev_congr (E : EvalLib K) (L : RotLib K R) {t t' u u' : Traj K R} (hp : t.pos = t'.pos) (hr : t.rot = t'.rot)
    (hp' : u.pos = u'.pos) (hr' : u.rot = u'.rot) (D : List K) (c : Nat × Nat) :
    pairDev E L t u D c = pairDev E L t' u' D c := by
  cases t; cases t'; cases u; cases u'
  simp only at hp hr hp' hr'
  subst hp hr hp' hr'
  rfl

theorem pairDev_one_without (E : EvalLib K) (L : RotLib K R) {t u : Traj K R} (h : t.rot = none ∨ u.rot = none)
    (D : List K) (c : Nat × Nat) :
    pairDev E L t u D c = pairDev E L { t with rot := none } { u with rot := none } D c := by
  have h1 : ¬ (u.hasOrientation && t.hasOrientation) = true := by
    rcases h with h | h <;> simp [Traj.hasOrientation, h]
  have h2 : ¬ (({ u with rot := none } : Traj K R).hasOrientation &&
      ({ t with rot := none } : Traj K R).hasOrientation) = true := by simp [Traj.hasOrientation]
  unfold pairDev
  simp only [if_neg h1, if_neg h2]

variable [IsStrictOrderedRing K] [FloorRing K]

theorem rpeGroup_congr (E : EvalLib K) (L : RotLib K R) {t t' u u' : Traj K R} (s : RpeSettings K) (d : K)
    (ha : u.arc = u'.arc) (ht : u.tstamps = u'.tstamps) (h : ∀ D c, pairDev E L t u D c = pairDev E L t' u' D c) :
    rpeGroup E L t u s d = rpeGroup E L t' u' s d := by
  have : ∀ D, pairDev E L t u D = pairDev E L t' u' D := fun D => funext (h D)
  unfold rpeGroup
  simp only [ha, ht, this]

theorem compareRelative_groups (E : EvalLib K) (L : RotLib K R) {t t' u u' : Traj K R} (s : RpeSettings K)
    (h : ∀ d, rpeGroup E L t u s d = rpeGroup E L t' u' s d) :
    (compareRelative E L t u s).map RpeResult.groups = (compareRelative E L t' u' s).map RpeResult.groups := by
  have hm : mapE (rpeGroup E L t u s) = mapE (rpeGroup E L t' u' s) := by rw [funext h]
  unfold compareRelative
  rw [hm]
  by_cases h1 : s.minDist > s.maxDist
  · rw [if_pos h1, if_pos h1]; rfl
  · rw [if_neg h1, if_neg h1]
    rcases pairDists s with e | ds
    · rfl
    · simp only [bind, Except.bind, pure, Except.pure]
      rcases mapE (rpeGroup E L t' u' s) ds with e | gs
      · rfl
      · simp only
        split_ifs <;> rfl

/-- relative errors of `T` against `U`: those of `U` against itself -/
theorem otherFrame_groups (E : EvalLib K) (L : RotLib K R) {A : M4 K}
    {T U : Traj K R} (h : OtherFrame L A U T) (s : RpeSettings K) :
    ∃ V T' : Traj K R, MovedBy L A V T' ∧
      (compareRelative E L T U s).map RpeResult.groups = (compareRelative E L T' V s).map RpeResult.groups := by
  by_cases hr : T.rot = none ∨ U.rot = none
  · refine ⟨{ U with rot := none }, { U with pos := T.pos, rot := none }, ⟨h.rigid, h.pos, rfl, rfl, rfl, rfl, rfl, rfl, rfl⟩, ?_⟩
    refine compareRelative_groups E L s fun d => rpeGroup_congr E L s d rfl rfl fun D c => ?_
    rw [pairDev_one_without E L hr]
    exact pairDev_congr E L rfl rfl rfl rfl D c
  · push Not at hr
    obtain ⟨r, h1⟩ := Option.ne_none_iff_exists'.1 hr.1
    obtain ⟨r', h2⟩ := Option.ne_none_iff_exists'.1 hr.2
    refine ⟨U, { U with pos := T.pos, rot := T.rot }, ⟨h.rigid, h.pos, ?_, rfl, rfl, rfl, rfl, rfl, rfl⟩, ?_⟩
    · simp only [h1, h2, Option.map_some, h.rot r r' h1 h2]
    · exact compareRelative_groups E L s fun d => rpeGroup_congr E L s d rfl rfl fun D c =>
        pairDev_congr E L rfl rfl rfl rfl D c

theorem map_groups_ok {o : Except Err (RpeResult K)} {r : RpeResult K} (h : o.map RpeResult.groups = .ok r.groups) :
    ∃ r', o = .ok r' ∧ r'.groups = r.groups := by
  rcases o with e | r'
  · cases h
  · injection h with h
    exact ⟨r', rfl, h⟩

theorem otherFrame_noError (E : EvalLib K) (hE : IsEvalLib E) (L : RotLib K R) (hL : IsRotLib L) {A : M4 K}
    {T U : Traj K R} (h : OtherFrame L A U T) (s : RpeSettings K) {r : RpeResult K}
    (hr : compareRelative E L T U s = .ok r) : NoRelativeError r := by
  obtain ⟨V, T', hm, he⟩ := otherFrame_groups E L h s
  rw [hr] at he
  obtain ⟨r', h1, h2⟩ := map_groups_ok (r := r) he.symm
  intro g hg
  rw [← h2] at hg
  exact C62_moved_copy_has_no_error E hE L hL A T' V hm s r' h1 g hg

/-- the matching of `rpe` on trajectories with the same timestamps -/
theorem rpe_match_same (lib : MetricLib K R) (c : Nat) (s : ProcSettings K)
    (hm : (s.matching.method = .interpolation ∧ SlerpEnds lib.mat.rot) ∨
      (s.matching.method = .nearestTemporal ∧ 0 ≤ s.matching.maxTimeDiff ∧
        IsNearestQuery (fun a b => |a - b|) lib.mat.queryT))
    {T U : Traj K R} (hT : Coherent T) (hU : Coherent U) (htU : U.tstamps = T.tstamps) (hasc : StrictAsc T.tstamps)
    (h2 : 2 ≤ T.tstamps.length) {h : Heap K R} {f t : Nat} (hf : h[f]? = some T) (ht : h[t]? = some U) (hft : f ≠ t) :
    ∃ T', matchTrajectories lib.mat c f t s.matching true h = (.ok (f, t), h.set f T') ∧
      T'.tstamps = T.tstamps ∧ T'.pos = T.pos ∧ T'.rot = T.rot := by
  rcases hm with ⟨hm, hL⟩ | ⟨hm, h0, hq⟩
  · obtain ⟨T', h1, -, -, h3, h4, h5⟩ := matchInterp_same lib.mat c s.matching hm hT hU htU hasc h2 hf ht hft
    exact ⟨T', h1, h3, h4, h5 hL⟩
  · have hne : T.tstamps ≠ [] := by intro h; rw [h] at h2; simp at h2
    refine ⟨T, ?_, rfl, rfl, rfl⟩
    rw [matchTemporal_same lib.mat hq c s.matching hm h0 hT hU htU hasc hne hf ht]
    obtain ⟨hk1, hk2⟩ := List.getElem?_eq_some_iff.1 hf
    rw [← hk2, List.set_getElem_self]

/-- what `rpe` computes on trajectories with the same timestamps -/
theorem rpe_same_times (lib : MetricLib K R) (c : Nat) (s : ProcSettings K)
    (hm : (s.matching.method = .interpolation ∧ SlerpEnds lib.mat.rot) ∨
      (s.matching.method = .nearestTemporal ∧ 0 ≤ s.matching.maxTimeDiff ∧
        IsNearestQuery (fun a b => |a - b|) lib.mat.queryT))
    {T U : Traj K R} (hT : Coherent T) (hU : Coherent U) (htU : U.tstamps = T.tstamps) (hasc : StrictAsc T.tstamps)
    (h2 : 2 ≤ T.tstamps.length) {h : Heap K R} {est gt : Nat} (hf : h[est]? = some T) (ht : h[gt]? = some U)
    (hft : est ≠ gt) :
    ∃ T', H.rpe lib c s gt est h = (compareRelative lib.eval lib.mat.rot T' U s.relative, h.set est T') ∧
      T'.tstamps = T.tstamps ∧ T'.pos = T.pos ∧ T'.rot = T.rot := by
  obtain ⟨T', h1, h3⟩ := rpe_match_same lib c s hm hT hU htU hasc h2 hf ht hft
  refine ⟨T', ?_, h3⟩
  unfold H.rpe
  have e1 : (h.set est T')[est]? = some T' := get_set hf
  have e2 : (h.set est T')[gt]? = some U := by rw [List.getElem?_set_ne hft]; exact ht
  rw [SE.run_bind_ok h1, SE.run_bind_ok (rd_run e1), SE.run_bind_ok (rd_run e2)]
  rfl

/-- **C160.** If the estimate is the ground truth in other coordinates, sampled at the same strictly ascending times,
and the matching is by time, `rpe` reports no relative error: whenever it returns, every entry for the positions and
for the rotations is zero, apart from `nan` at pairs of distance zero.  And it returns, with the same pairs, whenever
comparing the ground truth with itself does. -/
theorem C160_exact_estimate_has_no_relative_error (lib : MetricLib K R) (hE : IsEvalLib lib.eval)
    (hL : IsRotLib lib.mat.rot) (c : Nat) (s : ProcSettings K)
    (hm : (s.matching.method = .interpolation ∧ SlerpEnds lib.mat.rot) ∨
      (s.matching.method = .nearestTemporal ∧ 0 ≤ s.matching.maxTimeDiff ∧
        IsNearestQuery (fun a b => |a - b|) lib.mat.queryT))
    {T U : Traj K R} (hT : Coherent T) (hU : Coherent U) {A : M4 K} (hcopy : OtherFrame lib.mat.rot A U T)
    (hasc : StrictAsc T.tstamps) (h2 : 2 ≤ T.tstamps.length) {h : Heap K R} {est gt : Nat} (hf : h[est]? = some T)
    (ht : h[gt]? = some U) (hft : est ≠ gt) :
    (∀ r h', Returns (H.rpe lib c s gt est) h r h' → NoRelativeError r) ∧
    (∀ r₀, (T.rot = none ↔ U.rot = none) → compareRelative lib.eval lib.mat.rot U U s.relative = .ok r₀ →
      ∃ r h', Returns (H.rpe lib c s gt est) h r h' ∧ r.groups = r₀.groups) := by
  obtain ⟨T', h1, e1, e2, e3⟩ := rpe_same_times lib c s hm hT hU hcopy.times.symm hasc h2 hf ht hft
  have hc' : OtherFrame lib.mat.rot A U T' :=
    ⟨hcopy.rigid, by rw [e1, hcopy.times], by rw [e2, hcopy.pos], by rw [e3]; exact hcopy.rot⟩
  constructor
  · intro r h' hr
    unfold Returns at hr
    rw [h1] at hr
    exact otherFrame_noError lib.eval hE lib.mat.rot hL hc' s.relative (Prod.mk.inj hr).1
  · intro r₀ hsome h0
    have hmoved : MovedBy lib.mat.rot A U { U with pos := T'.pos, rot := T'.rot } := by
      refine ⟨hc'.rigid, hc'.pos, ?_, rfl, rfl, rfl, rfl, rfl, rfl⟩
      rcases hr : T'.rot with _ | r
      · rw [e3] at hr
        simp [hsome.1 hr]
      · rcases hr' : U.rot with _ | r'
        · rw [← hsome, ← e3, hr] at hr'
          cases hr'
        · simp only [Option.map_some, hc'.rot r r' hr hr']
    have hself : MovedBy lib.mat.rot 1 U U :=
      ⟨isRigid_one, by simp, by simp, rfl, rfl, rfl, rfl, rfl, rfl⟩
    have h3 := compareRelative_groups lib.eval lib.mat.rot s.relative (t := T') (u := U)
      (t' := { U with pos := T'.pos, rot := T'.rot }) (u' := U)
      (fun d => rpeGroup_congr _ _ _ d rfl rfl fun D c => pairDev_congr _ _ rfl rfl rfl rfl D c)
    rw [C62_frames_do_not_matter lib.eval hE lib.mat.rot hL A 1 U _ U U hmoved hself s.relative, h0] at h3
    obtain ⟨r, h4, h5⟩ := map_groups_ok (r := r₀) h3
    refine ⟨r, h.set est T', ?_, h5⟩
    unfold Returns
    rw [h1, h4]

/-- **C160**, when there is a result: with positive distances, `rpe` on trajectories with the same timestamps returns
exactly if the unit is metre or second and two samples of the ground truth are further apart than the smallest distance. -/
theorem C160_returns (lib : MetricLib K R) (c : Nat) (s : ProcSettings K)
    (hm : (s.matching.method = .interpolation ∧ SlerpEnds lib.mat.rot) ∨
      (s.matching.method = .nearestTemporal ∧ 0 ≤ s.matching.maxTimeDiff ∧
        IsNearestQuery (fun a b => |a - b|) lib.mat.queryT))
    {T U : Traj K R} (hT : Coherent T) (hU : Coherent U) (htU : U.tstamps = T.tstamps)
    (hasc : StrictAsc T.tstamps) (h2 : 2 ≤ T.tstamps.length) {h : Heap K R} {est gt : Nat} (hf : h[est]? = some T)
    (ht : h[gt]? = some U) (hft : est ≠ gt) (hmin : 0 < s.relative.minDist) (hstep : 0 < s.relative.step)
    (hD : ∀ D, pairScale s.relative.unit U = some D → D.Pairwise (· ≤ ·)) :
    (∃ r h', Returns (H.rpe lib c s gt est) h r h') ↔
      s.relative.minDist ≤ s.relative.maxDist ∧
        ∃ D, pairScale s.relative.unit U = some D ∧ ∃ a ∈ D, ∃ b ∈ D, s.relative.minDist < b - a := by
  obtain ⟨T', h1, e1, e2, e3⟩ := rpe_same_times lib c s hm hT hU htU hasc h2 hf ht hft
  have hT' : T'.tstamps.length = T.tstamps.length := by rw [e1]
  unfold Returns
  rw [h1]
  have key : (∃ r h', (compareRelative lib.eval lib.mat.rot T' U s.relative, h.set est T') = (Except.ok r, h')) ↔
      ∃ r, compareRelative lib.eval lib.mat.rot T' U s.relative = .ok r :=
    ⟨fun ⟨r, h', hr⟩ => ⟨r, (Prod.mk.inj hr).1⟩, fun ⟨r, hr⟩ => ⟨r, _, by rw [hr]⟩⟩
  rw [key]
  have hgr : (∃ r, compareRelative lib.eval lib.mat.rot T' U s.relative = .ok r) ↔
      ∃ r, compareRelative lib.eval lib.mat.rot T U s.relative = .ok r := by
    have h3 := compareRelative_groups lib.eval lib.mat.rot s.relative (t := T') (u := U) (t' := T) (u' := U)
      (fun d => rpeGroup_congr _ _ _ d rfl rfl fun D c => pairDev_congr _ _ e2 e3 rfl rfl D c)
    constructor
    · rintro ⟨r, hr⟩
      rw [hr] at h3
      obtain ⟨r', h4, -⟩ := map_groups_ok (r := r) h3.symm
      exact ⟨r', h4⟩
    · rintro ⟨r, hr⟩
      rw [hr] at h3
      obtain ⟨r', h4, -⟩ := map_groups_ok (r := r) h3
      exact ⟨r', h4⟩
  rw [hgr]
  have h65 := C65_relative_comparison_errors lib.eval lib.mat.rot T U hT hU (by rw [htU])
    (by rw [htU]; intro h0; rw [h0] at h2; simp at h2) s.relative hmin hstep hD
  constructor
  · rintro ⟨r, hr⟩
    have hno : compareRelative lib.eval lib.mat.rot T U s.relative ≠ .error .valueError := by rw [hr]; simp
    rw [Ne, h65.1] at hno
    push Not at hno
    exact ⟨hno.1, hno.2.2⟩
  · rintro ⟨h3, D, h4, a, ha, b, hb, hab⟩
    rcases h65.2 with h5 | h5
    · exact h5
    · exfalso
      rcases h65.1.1 h5 with h6 | ⟨h6, h7⟩ | h6
      · exact absurd h3 (not_le.2 h6)
      · unfold pairScale at h4
        rcases hu : s.relative.unit <;> rw [hu] at h4 h6 h7 <;> simp at h4 h6 h7
      · exact absurd (h6 D h4 a ha b hb) (not_le.2 hab)

/-! ### C161: no relative error means the same trajectory -/

/-- the pair `(i, j)` is compared for one of the distances `keys`: `j` is the first sample at least so far behind `i`,
and the end of the trajectory is further -/
def Compared (D : List K) (keys : List K) (i j : Nat) : Prop :=
  ∃ d ∈ keys, FirstAtLeast D d i j ∧ ∃ a last, D[i]? = some a ∧ D.getLast? = some last ∧ a + d < last

/-- sample `i` of `test` is sample `i` of `ref` in the coordinates given by `A` -/
def SamePose (L : RotLib K R) (A : M4 K) (test ref : Traj K R) (i : Nat) : Prop :=
  ∀ s u q o, (samples test)[i]? = some s → (samples ref)[i]? = some u → s.r = some q → u.r = some o →
    s.p = mulV (poseRot A) u.p + posePos A ∧ L.toMat q = poseRot A * L.toMat o

omit [FloorRing K] in
theorem norm_zero {nrm : V3 K → K} (h : IsNorm nrm) {v : V3 K} (hv : nrm v = 0) : v = 0 := by
  have := h.sq v
  rw [hv, mul_zero] at this
  unfold V3.normSq at this
  have hx : v.x * v.x = 0 := by nlinarith [mul_self_nonneg v.x, mul_self_nonneg v.y, mul_self_nonneg v.z]
  have hy : v.y * v.y = 0 := by nlinarith [mul_self_nonneg v.x, mul_self_nonneg v.y, mul_self_nonneg v.z]
  have hz : v.z * v.z = 0 := by nlinarith [mul_self_nonneg v.x, mul_self_nonneg v.y, mul_self_nonneg v.z]
  ext
  · exact mul_self_eq_zero.1 hx
  · exact mul_self_eq_zero.1 hy
  · exact mul_self_eq_zero.1 hz

omit [FloorRing K] in
theorem rot_left {A : M3 K} (h : IsRot A) : A.transpose * A = 1 := mul_eq_one_comm.1 h.1

omit [FloorRing K] in
/-- with the same way and the same turn, one end of a pair decides about the other -/
theorem same_step {L : RotLib K R} (hL : IsRotLib L) {Q : M3 K} {b : V3 K} {q q' o o' : R} {p p' w w' : V3 K}
    (hway : wayFrom L q p p' = wayFrom L o w w') (hturn : turnFrom L q q' = turnFrom L o o') :
    (p = mulV Q w + b ∧ L.toMat q = Q * L.toMat o) ↔ (p' = mulV Q w' + b ∧ L.toMat q' = Q * L.toMat o') := by
  have hS := hL.rot q
  have hS' := hL.rot q'
  have hU := hL.rot o
  have hU' := hL.rot o'
  have e1 : p' - p = mulV (L.toMat q * (L.toMat o).transpose) (w' - w) := by
    have := congrArg (mulV (L.toMat q)) hway
    unfold wayFrom at this
    rwa [← mulV_mulV, ← mulV_mulV, hS.1, mulV_one] at this
  have e2 : L.toMat q' = L.toMat q * (L.toMat o).transpose * L.toMat o' := by
    have := congrArg (L.toMat q * ·) hturn
    simp only [turnFrom, ← Matrix.mul_assoc, hS.1, Matrix.one_mul] at this
    exact this
  constructor
  · rintro ⟨h1, h2⟩
    have h3 : L.toMat q * (L.toMat o).transpose = Q := by rw [h2, Matrix.mul_assoc, hU.1, Matrix.mul_one]
    rw [h3] at e1 e2
    refine ⟨?_, e2⟩
    rw [sub_eq_iff_eq_add.1 e1, h1, mulV_sub]
    abel
  · rintro ⟨h1, h2⟩
    have h4 : L.toMat q = Q * L.toMat o := by
      rw [h2] at e2
      have := congrArg (· * (L.toMat o').transpose * L.toMat o) e2
      simp only [Matrix.mul_assoc] at this
      rw [← Matrix.mul_assoc (L.toMat o') _ _, hU'.1, Matrix.one_mul, rot_left hU, Matrix.mul_one] at this
      exact this.symm
    have h3 : L.toMat q * (L.toMat o).transpose = Q := by rw [h4, Matrix.mul_assoc, hU.1, Matrix.mul_one]
    rw [h3] at e1
    refine ⟨?_, h4⟩
    have : p = p' - mulV Q (w' - w) := by rw [← e1]; abel
    rw [this, h1, mulV_sub]
    abel

/-- **C161.** The converse of C160, for trajectories with orientations and all pose pairs: if no relative error is
reported, the estimate is the ground truth in other coordinates, at all samples that are linked with each other by
compared pairs.  (Along each chain of compared pairs the coordinates are the same.) -/
theorem C161_no_relative_error_means_same_trajectory (E : EvalLib K) (hE : IsEvalLib E)
    (hacos : ∀ x, -1 ≤ x → x ≤ 1 → E.acos x = 0 → x = 1) (L : RotLib K R) (hL : IsRotLib L)
    (test ref : Traj K R) (ht : Coherent test) (hr : Coherent ref) (hlen : test.tstamps.length = ref.tstamps.length)
    (hto : test.rot ≠ none) (hro : ref.rot ≠ none)
    (s : RpeSettings K) (hall : s.allPairs = true) (hmin : 0 < s.minDist) (hstep : 0 < s.step)
    (D : List K) (hD : pairScale s.unit ref = some D) (hasc : D.Pairwise (· ≤ ·))
    (r : RpeResult K) (h : compareRelative E L test ref s = .ok r) (hzero : NoRelativeError r) (i : Nat) :
    ∃ A : M4 K, IsRigid A ∧
      ∀ j, Relation.EqvGen (Compared D (r.groups.map RpeGroup.key)) i j → SamePose L A test ref j := by
  have step : ∀ (A : M4 K) (i j : Nat), Compared D (r.groups.map RpeGroup.key) i j →
      (SamePose L A test ref i ↔ SamePose L A test ref j) := by
    rintro A i j ⟨d, hd, hfirst, a, last, ha, hlast, hlt⟩
    obtain ⟨g, hg, rfl⟩ := List.mem_map.1 hd
    obtain ⟨ps, hen, her, -, hps⟩ := C158_errors_of_all_pairs E hE L hL test ref ht hr hlen s hall hmin hstep D hD hasc
      last hlast r h g hg
    obtain ⟨k, hk⟩ := List.mem_iff_getElem?.1 ((hps i j).2 ⟨hfirst, a, ha, hlt⟩)
    obtain ⟨a', b, ha', hb, hle⟩ := hfirst.reached
    rw [ha] at ha'
    injection ha' with ha'
    subst ha'
    have hkey : 0 < g.key := by
      obtain ⟨h1, -⟩ := groups_of_result ht hr hlen h hg
      exact lt_of_lt_of_le hmin (marks_ge hstep h1)
    have hba : b - a ≠ 0 := by
      intro h0
      rw [h0] at hle
      exact absurd hkey (not_lt.2 hle)
    have hDlen : D.length = ref.tstamps.length := by
      unfold pairScale at hD
      rcases hu : s.unit <;> rw [hu] at hD <;> simp at hD <;> rw [← hD]
      exact hr.arc
    have hj : j < ref.tstamps.length := by rw [← hDlen]; exact (List.getElem?_eq_some_iff.1 hb).1
    have hi : i < ref.tstamps.length := by rw [← hDlen]; exact (List.getElem?_eq_some_iff.1 ha).1
    have get : ∀ {T : Traj K R} (_ : Coherent T) (_ : T.rot ≠ none) {n : Nat} (_ : n < T.tstamps.length),
        ∃ x q, (samples T)[n]? = some x ∧ x.r = some q := by
      intro T hT ho n hn
      have hn' : n < (samples T).length := by rw [samples_length hT]; exact hn
      have := samples_rot hT (List.getElem_mem hn')
      rw [Option.isSome_iff_ne_none.2 ho] at this
      obtain ⟨q, hq⟩ := Option.isSome_iff_exists.1 this
      exact ⟨_, q, List.getElem?_eq_getElem hn', hq⟩
    obtain ⟨x, q, hx, hxq⟩ := get ht hto (n := i) (by omega)
    obtain ⟨x', q', hx', hxq'⟩ := get ht hto (n := j) (by omega)
    obtain ⟨u, o, hu, huo⟩ := get hr hro hi
    obtain ⟨u', o', hu', huo'⟩ := get hr hro hj
    have e1 := her.pos k i j x x' u u' a b hk hx hx' hu hu' ha hb
    have e2 := her.rot k i j x x' u u' a b q q' o o' hk hx hx' hu hu' ha hb hxq hxq' huo huo'
    have f1 := (hzero g hg).1 k _ e1
    have f2 := (hzero g hg).2 k _ e2
    have zero : ∀ y : K, ((g.pairDist[k]? = some 0 ∧ perDistance y (b - a) = none) ∨ perDistance y (b - a) = some 0) →
        y = 0 := by
      intro y hy
      unfold perDistance at hy
      rw [if_neg hba] at hy
      rcases hy with ⟨-, hy⟩ | hy
      · cases hy
      · injection hy with hy
        rcases div_eq_zero_iff.1 hy with hy | hy
        · exact hy
        · exact absurd hy hba
    have g1 := zero _ f1
    have g2 := zero _ f2
    have hway : wayFrom L q x.p x'.p = wayFrom L o u.p u'.p := by
      simp only [posError, hxq, huo] at g1
      exact sub_eq_zero.1 (norm_zero hE.nrm g1)
    have hrot : ∀ c c' : R, IsRot (turnFrom L c c') := fun c c' => (hL.rot c).transpose.mul (hL.rot c')
    have hM := (hrot o o').transpose.mul (hrot q q')
    obtain ⟨t1, t2, t3⟩ := hM.trace_bounds
    have hturn : turnFrom L q q' = turnFrom L o o' := by
      have h1 := hacos _ (by unfold cosAngle; linarith) (by unfold cosAngle; linarith) g2
      have h2 := t3 (by unfold cosAngle at h1; linarith)
      have := congrArg (turnFrom L o o' * ·) h2
      simp only [← Matrix.mul_assoc, (hrot o o').1, Matrix.one_mul, Matrix.mul_one] at this
      exact this
    have hiff := same_step hL (Q := poseRot A) (b := posePos A) hway hturn
    constructor
    · intro hs y y' c c' k1 k2 k3 k4
      rw [hx'] at k1
      rw [hu'] at k2
      injection k1 with k1
      injection k2 with k2
      subst k1 k2
      rw [hxq'] at k3
      rw [huo'] at k4
      injection k3 with k3
      injection k4 with k4
      subst k3 k4
      exact hiff.1 (hs x u q o hx hu hxq huo)
    · intro hs y y' c c' k1 k2 k3 k4
      rw [hx] at k1
      rw [hu] at k2
      injection k1 with k1
      injection k2 with k2
      subst k1 k2
      rw [hxq] at k3
      rw [huo] at k4
      injection k3 with k3
      injection k4 with k4
      subst k3 k4
      exact hiff.2 (hs x' u' q' o' hx' hu' hxq' huo')
  have chain : ∀ (A : M4 K) (i j : Nat), Relation.EqvGen (Compared D (r.groups.map RpeGroup.key)) i j →
      (SamePose L A test ref i ↔ SamePose L A test ref j) := by
    intro A i j hij
    induction hij with
    | rel _ _ h => exact step A _ _ h
    | refl _ => exact Iff.rfl
    | symm _ _ _ ih => exact ih.symm
    | trans _ _ _ _ _ ih1 ih2 => exact ih1.trans ih2
  rcases hx : (samples test)[i]? with _ | x
  · exact ⟨1, isRigid_one, fun j hj => (chain 1 i j hj).1 (fun _ _ _ _ h1 => by rw [hx] at h1; cases h1)⟩
  rcases hu : (samples ref)[i]? with _ | u
  · exact ⟨1, isRigid_one, fun j hj => (chain 1 i j hj).1 (fun _ _ _ _ _ h1 => by rw [hu] at h1; cases h1)⟩
  rcases hq : x.r with _ | q
  · exact ⟨1, isRigid_one, fun j hj => (chain 1 i j hj).1 (fun s u q o h1 _ h3 => by
      rw [hx] at h1; injection h1 with h1; subst h1; rw [hq] at h3; cases h3)⟩
  rcases ho : u.r with _ | o
  · exact ⟨1, isRigid_one, fun j hj => (chain 1 i j hj).1 (fun s v q o _ h1 _ h3 => by
      rw [hu] at h1; injection h1 with h1; subst h1; rw [ho] at h3; cases h3)⟩
  have hQ := (hL.rot q).mul (hL.rot o).transpose
  refine ⟨mkPose (L.toMat q * (L.toMat o).transpose) (x.p - mulV (L.toMat q * (L.toMat o).transpose) u.p),
    mkPose_isRigid hQ _, fun j hj => (chain _ i j hj).1 ?_⟩
  intro s v c c' h1 h2 h3 h4
  rw [hx] at h1
  rw [hu] at h2
  injection h1 with h1
  injection h2 with h2
  subst h1 h2
  rw [hq] at h3
  rw [ho] at h4
  injection h3 with h3
  injection h4 with h4
  subst h3 h4
  simp only [poseRot_mkPose, posePos_mkPose]
  refine ⟨by abel, ?_⟩
  rw [Matrix.mul_assoc, rot_left (hL.rot o), Matrix.mul_one]

/-! ### the hypotheses can be met -/

/-- three poses with orientations -/
noncomputable def exPoses : Traj ℝ RotMat :=
  { tstamps := [0, 1, 2], pos := [0, ⟨1, 0, 0⟩, ⟨3, 0, 0⟩], rot := some [⟨1, isRot_one⟩, ⟨1, isRot_one⟩, ⟨1, isRot_one⟩]
    arc := [0, 1, 3], speed := [0, 0, 0], sorting := .time, name := "poses", epsg := 0 }

theorem exPoses_coherent : Coherent exPoses := ⟨rfl, rfl, rfl, by rintro r ⟨⟩; rfl⟩

/-- pairs one metre apart -/
noncomputable def exOneMetre : RpeSettings ℝ :=
  { minDist := 1, maxDist := 1, step := 1, unit := .meter, allPairs := true }

theorem exStepLib_ends : SlerpEnds exStepLib.mat.rot where
  start _ _ := if_neg zero_ne_one
  stop _ _ := if_pos rfl

/-- an estimate in other coordinates: turned by 90° about z and shifted -/
theorem exPoses_other : ∃ T A, Coherent T ∧ OtherFrame exStepLib.mat.rot A exPoses T ∧ T.rot.isSome ∧ T.pos ≠ exPoses.pos ∧
    T.name ≠ exPoses.name := by
  have hq : IsRot (!![0, -1, 0; 1, 0, 0; 0, 0, 1] : M3 ℝ) := by
    constructor
    · ext i j; fin_cases i <;> fin_cases j <;> simp [Matrix.mul_apply, Fin.sum_univ_three]
    · simp [Matrix.det_fin_three]
  refine ⟨{ exPoses with
      pos := exPoses.pos.map (fun p => mulV !![0, -1, 0; 1, 0, 0; 0, 0, 1] p + ⟨5, 6, 7⟩)
      rot := some [⟨_, hq⟩, ⟨_, hq⟩, ⟨_, hq⟩], name := "estimate" },
    mkPose !![0, -1, 0; 1, 0, 0; 0, 0, 1] ⟨5, 6, 7⟩, ⟨rfl, rfl, rfl, by rintro r ⟨⟩; rfl⟩,
    ⟨mkPose_isRigid hq _, rfl, by simp only [poseRot_mkPose, posePos_mkPose], ?_⟩, rfl, ?_, ?_⟩
  · rintro r r' ⟨⟩ h
    have h' : r' = [⟨1, isRot_one⟩, ⟨1, isRot_one⟩, ⟨1, isRot_one⟩] := by
      injection h with h
      exact h.symm
    subst h'
    simp [exStepLib, matLib]
  · simp [exPoses, V3.ext_iff, mulV]
  · simp [exPoses]

/-- the hypotheses of C160, with interpolation and with nearest timestamps: there is a result, and it shows no error -/
example (m : MatchingMethod) (hm : m = .interpolation ∨ m = .nearestTemporal) :
    ∃ T r h', T.pos ≠ exPoses.pos ∧
      Returns (H.rpe exStepLib 0 { exDefaults m with relative := exOneMetre } 0 1) [exPoses, T] r h' ∧ NoRelativeError r := by
  obtain ⟨T, A, hT, ho, -, hp, -⟩ := exPoses_other
  have hE : IsEvalLib exStepLib.eval :=
    ⟨realNorm_isNorm, fun x _ => Real.sqrt_nonneg x, fun x hx => Real.mul_self_sqrt hx, Real.arccos_one⟩
  have hL : IsRotLib exStepLib.mat.rot := matLib_isRotLib _
  have hmm : ((exDefaults m).matching.method = .interpolation ∧ SlerpEnds exStepLib.mat.rot) ∨
      ((exDefaults m).matching.method = .nearestTemporal ∧ 0 ≤ (exDefaults m).matching.maxTimeDiff ∧
        IsNearestQuery (fun a b => |a - b|) exStepLib.mat.queryT) := by
    rcases hm with rfl | rfl
    · exact .inl ⟨rfl, exStepLib_ends⟩
    · exact .inr ⟨rfl, by simp [exDefaults], bruteQuery_isNearest _⟩
  have hasc : StrictAsc T.tstamps := by rw [ho.times]; simp [exPoses, StrictAsc]
  have h2 : 2 ≤ T.tstamps.length := by rw [ho.times]; simp [exPoses]
  have hmin : (0 : ℝ) < exOneMetre.minDist := one_pos
  have hstep : (0 : ℝ) < exOneMetre.step := one_pos
  have hret := (C160_returns exStepLib 0 { exDefaults m with relative := exOneMetre } hmm hT exPoses_coherent ho.times.symm hasc h2
    (h := [exPoses, T]) (est := 1) (gt := 0) rfl rfl (by decide) hmin hstep (by
      intro D hD
      injection hD with hD
      subst hD
      simp [exPoses])).2 ⟨le_refl _, [0, 1, 3], rfl, 0, by simp, 3, by simp, by norm_num [exOneMetre]⟩
  obtain ⟨r, h', hr⟩ := hret
  exact ⟨T, r, h', hp, hr, (C160_exact_estimate_has_no_relative_error exStepLib hE hL 0
    { exDefaults m with relative := exOneMetre } hmm hT exPoses_coherent ho hasc h2 (h := [exPoses, T]) (est := 1) (gt := 0)
    rfl rfl (by decide)).1 r h' hr⟩

/-- in the setting of the example above the three samples are linked, as C161 assumes -/
example : Relation.EqvGen (Compared (K := ℝ) [0, 1, 3] [1]) 0 2 := by
  have h1 : Compared (K := ℝ) [0, 1, 3] [1] 0 1 := by
    refine ⟨1, by simp, ⟨by decide, ⟨0, 1, rfl, rfl, by norm_num⟩, ?_⟩, 0, 3, rfl, rfl, by norm_num⟩
    intro a b k hk ha hb
    interval_cases k
    simp at ha hb
    subst ha hb
    norm_num
  have h2 : Compared (K := ℝ) [0, 1, 3] [1] 1 2 := by
    refine ⟨1, by simp, ⟨by decide, ⟨1, 3, rfl, rfl, by norm_num⟩, ?_⟩, 1, 3, rfl, rfl, by norm_num⟩
    intro a b k hk ha hb
    simp at ha
    subst ha
    interval_cases k <;> simp at hb <;> subst hb <;> norm_num
  exact .trans _ _ _ (.rel _ _ h1) (.rel _ _ h2)

/-- and the arc cosine is zero only at one -/
example : ∀ x : ℝ, -1 ≤ x → x ≤ 1 → exStepLib.eval.acos x = 0 → x = 1 := by
  intro x _ h2 h
  exact le_antisymm h2 (Real.arccos_eq_zero.1 h)

end TC
