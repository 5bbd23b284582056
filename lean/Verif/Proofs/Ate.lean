import Verif.Proofs.Metrics
import Verif.Spec.Metrics
import Verif.Proofs.Eval
/-!
# Inversion of `ate`
-/
namespace TC
set_option linter.unusedSectionVars false
open H
variable {K R : Type} [Field K] [LinearOrder K] [IsStrictOrderedRing K]

theorem alignBody_nonempty (L : RotLib K R) (τ : Trig K) (toEuler : R → V3 K) (q : Equations.Params K) (sensor : R)
    {T T' : Traj K R} (h : Traj.applyAlignmentBody L τ toEuler q sensor T = (.ok (), T')) : T.pos ≠ [] := by
  intro hp
  unfold Traj.applyAlignmentBody at h
  rw [SE.run_bind_ok (SE.run_get T)] at h
  simp only at h
  split_ifs at h
  all_goals first
    | (rw [SE.run_bind_error (SE.run_raise _ _)] at h
       simp at h)
    | skip
  · rw [SE.run_bind_ok (SE.run_modify _ _)] at h
    obtain ⟨u, T1, h3, h4⟩ := returns_bind h
    unfold Traj.applyTransformation at h3
    rw [SE.run_bind_ok (SE.run_get _)] at h3
    unfold Traj.setSe3 at h3
    rw [SE.run_bind_ok (SE.run_modify _ _), if_pos] at h3
    · simp [SE.raise] at h3
    · unfold Traj.se3
      rcases T.rot with _ | r <;> simp [hp]

/-- the aligned trajectory, sample by sample -/
theorem alignBody_samples (L : RotLib K R) (τ : Trig K) (toEuler : R → V3 K)
    (heul : ∀ o, eulerMat τ (toEuler o) = L.toMat o) (q : Equations.Params K) (sensor : R)
    {T : Traj K R} (hT : Coherent T) (hne : T.tstamps ≠ []) :
    Traj.applyAlignmentBody L τ toEuler q sensor T = (.ok (),
      { T with pos := (samples T).map (alignedPoint τ L q), rot := some ((samples T).map (alignedRot τ L q sensor)) }) := by
  have key : ∀ s : Sample K R, ∀ e c, (match s.r with | some o => mulV (L.toMat o) q.lever | none => 0) = c →
      Equations.leverTime τ e s.v q.time (match s.r with | some _ => q.lever | none => 0) = c + q.time • s.v →
      mulV (q.scale • eulerMat τ q.rot) (s.p + Equations.leverTime τ e s.v q.time
        (match s.r with | some _ => q.lever | none => 0)) + q.trans = alignedPoint τ L q s := by
    intro s e c hc h
    unfold alignedPoint
    rw [h]
    subst hc
    rcases s.r with _ | o <;> simp only [smul_mulV, add_comm q.trans, add_assoc]
  rcases hr : T.rot with _ | r
  · rw [applyAlignmentBody_eq_noRot L τ toEuler q sensor hT hne hr]
    have hrs : ∀ s ∈ samples T, s.r = none := by
      intro s hs
      have : s.r ∈ (samples T).map Sample.r := List.mem_map_of_mem hs
      rw [samples_map_r hT, hr] at this
      exact (List.mem_replicate.1 this).2
    have e0 : List.replicate T.speed.length (0 : V3 K) = (samples T).map (fun _ => 0) := by
      rw [List.map_const', samples_length hT, hT.speed]
    congr 2
    · rw [e0, ← samples_map_p hT, ← samples_map_v hT, List.zipWith_map, List.zipWith_self, List.zipWith_map,
        List.zipWith_self, List.map_map]
      apply List.map_congr_left
      intro s hs
      have := key s 0 0 (by rw [hrs s hs]) (by rw [hrs s hs]; simp [leverTime_eq, mulV_zero])
      rw [hrs s hs] at this
      exact this
    · congr 1
      rw [hT.pos, ← samples_length hT, ← List.map_const']
      apply List.map_congr_left
      intro s hs
      simp only [alignedRot, hrs s hs, mul_one]
  · rw [applyAlignmentBody_eq L τ toEuler q sensor hT hne r hr]
    have hrc : r.map some = (samples T).map Sample.r := by rw [samples_map_r hT, hr]; rfl
    have hrr : ∀ {β : Type} (g : R → β) (d : Sample K R → β), (∀ s o, s.r = some o → d s = g o) →
        r.map g = (samples T).map d := by
      intro β g d hd
      apply List.ext_getElem?
      intro i
      have := congrArg (fun l => l[i]?) hrc
      simp only [List.getElem?_map] at this ⊢
      rcases hi : r[i]? with _ | o <;> rcases hj : (samples T)[i]? with _ | s <;> rw [hi, hj] at this <;> simp at this ⊢
      exact (hd s o this.symm).symm
    have hrs : ∀ s ∈ samples T, ∃ o, s.r = some o := by
      intro s hs
      have : s.r ∈ (samples T).map Sample.r := List.mem_map_of_mem hs
      rw [← hrc] at this
      obtain ⟨o, -, ho⟩ := List.mem_map.1 this
      exact ⟨o, ho.symm⟩
    congr 2
    · rw [hrr toEuler (fun s => match s.r with | some o => toEuler o | none => 0) (fun s o h => by simp only [h]),
        ← samples_map_p hT, ← samples_map_v hT, List.zipWith_map, List.zipWith_self, List.zipWith_map,
        List.zipWith_self, List.map_map]
      apply List.map_congr_left
      intro s hs
      obtain ⟨o, ho⟩ := hrs s hs
      have := key s (toEuler o) _ rfl (by rw [ho]; simp [leverTime_eq, heul])
      simp only [ho] at this
      simp only [Function.comp_apply, ho]
      exact this
    · congr 1
      apply hrr
      intro s o h
      simp only [alignedRot, h]

/-- what happened in a call of `ate` that returned -/
theorem ate_inv (lib : MetricLib K R) (c : Nat) (s : ProcSettings K) (gt est : Nat) {h h' : Heap K R}
    (hgt : gt < h.length) {r : AteResult K R} {a : AlignResult K} (hret : H.ate lib c s gt est h = (.ok (some (r, a)), h')) :
    ∃ m h1 h2 T U A, matchTrajectories lib.mat c est gt s.matching true h = (.ok m, h1) ∧
      estimateAlignment lib c s.align s.matching est gt h1 = (.ok (some a), h2) ∧ h2.take h1.length = h1 ∧
      h2[est]? = some T ∧ h2[gt]? = some U ∧
      Traj.applyAlignmentBody lib.mat.rot lib.trig lib.toEuler (Adjust.paramsOf a.position.values) (sensorOf lib a) T
        = (.ok (), A) ∧
      compareAbsolute lib.eval lib.mat.rot A U = .ok r ∧ h' = h2 ++ [A] := by
  unfold H.ate at hret
  obtain ⟨m, h1, hm, hret⟩ := returns_bind hret
  obtain ⟨al, h2, hal, hret⟩ := returns_bind hret
  have hfr := (Frame.estimateAlignment (n := h1.length) (f := est) (t := gt) lib c s.align s.matching h1 (le_refl _)).2
  rw [hal, List.take_length] at hfr
  rcases al with _ | a'
  · simp at hret
  · simp only at hret
    obtain ⟨t, h3, ht, hret⟩ := returns_bind hret
    unfold H.applyAlignment at ht
    simp only [Bool.false_eq_true, if_false] at ht
    obtain ⟨t', h4, hc, ht⟩ := returns_bind ht
    unfold copyRef at hc
    rcases hT : h2[est]? with _ | T
    · rw [hT] at hc; simp at hc
    · rw [hT] at hc
      obtain ⟨e1, rfl⟩ := Prod.mk.inj hc
      obtain rfl := Except.ok.inj e1
      obtain ⟨u, h5, ho, ht⟩ := returns_bind ht
      unfold onRef at ho
      rw [List.getElem?_concat_length] at ho
      obtain ⟨e2, rfl⟩ := Prod.mk.inj ho
      obtain ⟨e3, rfl⟩ := Prod.mk.inj ht
      obtain rfl := Except.ok.inj e3
      have hset : (h2 ++ [T]).set h2.length (Traj.applyAlignmentBody lib.mat.rot lib.trig lib.toEuler
          (Adjust.paramsOf a'.position.values) (sensorOf lib a') T).2 = h2 ++ [(Traj.applyAlignmentBody lib.mat.rot
          lib.trig lib.toEuler (Adjust.paramsOf a'.position.values) (sensorOf lib a') T).2] := by
        rw [List.set_append_right _ _ (le_refl _)]
        simp
      rw [hset, SE.run_bind_ok (rd_run (List.getElem?_concat_length ..))] at hret
      obtain ⟨U, h6, hU, hret⟩ := returns_bind hret
      unfold rd at hU
      rcases hU' : (h2 ++ [(Traj.applyAlignmentBody lib.mat.rot lib.trig lib.toEuler
        (Adjust.paramsOf a'.position.values) (sensorOf lib a') T).2])[gt]? with _ | U1
      · rw [hU'] at hU; simp at hU
      · rw [hU'] at hU
        obtain ⟨e4, rfl⟩ := Prod.mk.inj hU
        obtain rfl := Except.ok.inj e4
        obtain ⟨r', h7, hr, hret⟩ := returns_bind hret
        rw [SE.run_lift] at hr
        obtain ⟨e5, rfl⟩ := Prod.mk.inj hr
        obtain ⟨e6, rfl⟩ := Prod.mk.inj hret
        simp only [Except.ok.injEq, Option.some.injEq, Prod.mk.injEq] at e6
        obtain ⟨rfl, rfl⟩ := e6
        rcases Nat.lt_or_ge gt h2.length with hlt | hge
        · rw [List.getElem?_append_left hlt] at hU'
          refine ⟨m, h1, h2, T, U1, _, hm, hal, hfr, hT, hU', ?_, e5, rfl⟩
          exact Prod.ext e2 rfl
        · exfalso
          have l1 := (Touches.matchInplace (f := est) (t := gt) lib.mat c s.matching h).1
          rw [hm] at l1
          have l2 := congrArg List.length hfr
          rw [List.length_take] at l2
          simp only at l1 l2
          omega

theorem reports_of (lib : MetricLib K R) (heul : ∀ o, eulerMat lib.trig (lib.toEuler o) = lib.mat.rot.toMat o)
    {a : AlignResult K} {T U A : Traj K R} {r : AteResult K R} (hT : Coherent T) (hU : Coherent U) (hne : T.pos ≠ [])
    (hlen : T.pos.length = U.pos.length)
    (hA : Traj.applyAlignmentBody lib.mat.rot lib.trig lib.toEuler (Adjust.paramsOf a.position.values) (sensorOf lib a) T
        = (.ok (), A))
    (hr : compareAbsolute lib.eval lib.mat.rot A U = .ok r) : Reports lib a T U r := by
  have hne' : T.tstamps ≠ [] := by
    intro hc
    apply hne
    exact List.length_eq_zero_iff.1 (by rw [hT.pos, hc]; rfl)
  rw [alignBody_samples _ _ _ heul _ _ hT hne'] at hA
  obtain ⟨-, rfl⟩ := Prod.mk.inj hA
  have hA : Coherent ({ T with pos := (samples T).map (alignedPoint lib.trig lib.mat.rot
      (Adjust.paramsOf a.position.values)), rot := some ((samples T).map (alignedRot lib.trig lib.mat.rot
      (Adjust.paramsOf a.position.values) (sensorOf lib a))) } : Traj K R) :=
    ⟨by simp [samples_length hT], hT.arc, hT.speed, by rintro _ ⟨⟩; simp [samples_length hT]⟩
  obtain ⟨dir, -, -, he⟩ := compareAbsolute_eq lib.eval lib.mat.rot hA hU (by
    show U.tstamps.length = T.tstamps.length
    rw [← hU.pos, ← hT.pos, hlen])
  rw [he] at hr
  obtain rfl := Except.ok.inj hr
  refine ⟨hT, hU, ?_, by rw [samples_length hT, samples_length hU, ← hT.pos, ← hU.pos, hlen], ?_, ?_⟩
  · intro hc
    apply hne'
    rw [← samples_map_t hT, hc]
    rfl
  · simp only
    rw [← samples_map_p hU, List.zipWith_map]
  · simp only
    rcases U.rot with _ | ro
    · rfl
    · simp [List.zipWith_map_right, sensorTurn, sensorOf, List.getD_eq_getElem?_getD]

/-- `ate` with a method that works in place -/
theorem ate_reports (lib : MetricLib K R) (heul : ∀ o, eulerMat lib.trig (lib.toEuler o) = lib.mat.rot.toMat o)
    (c : Nat) (s : ProcSettings K) (hs : s.matching.method ≠ .nearestSpatialInterpolated) {T U : Traj K R}
    (hT : Coherent T) (hU : Coherent U) (hasc : NeedsAsc s.matching T U) {h h' : Heap K R} {gt est : Nat}
    (hest : h[est]? = some T) (hgt : h[gt]? = some U) (hne : est ≠ gt) {r : AteResult K R} {a : AlignResult K}
    (hret : H.ate lib c s gt est h = (.ok (some (r, a)), h')) :
    ∃ T' U', Returns (matchTrajectories lib.mat c est gt s.matching true) h (est, gt) ((h.set est T').set gt U') ∧
      h'[est]? = some T' ∧ h'[gt]? = some U' ∧ MatchedPair T U T' U' ∧ Reports lib a T' U' r := by
  have hlt := (List.getElem?_eq_some_iff.1 hgt).1
  have hle := (List.getElem?_eq_some_iff.1 hest).1
  obtain ⟨m, h1, h2, T', U', A, hm, -, htk, h2T, h2U, hA, hr, rfl⟩ := ate_inv lib c s gt est hlt hret
  obtain ⟨rfl, T1, U1, rfl, hp⟩ := match_inplace lib.mat c s.matching hs hT hU hasc hest hgt hne hm
  have get : ∀ (k : Nat) (X : Traj K R), ((h.set est T1).set gt U1)[k]? = some X → h2[k]? = some X := by
    intro k X hk
    have : k < ((h.set est T1).set gt U1).length := (List.getElem?_eq_some_iff.1 hk).1
    rw [← htk] at hk
    rw [List.getElem?_take, if_pos this] at hk
    exact hk
  have e1 : T' = T1 := by
    have := get est T1 (by rw [List.getElem?_set_ne (Ne.symm hne)]; simp [hle])
    exact Option.some.inj (h2T.symm.trans this)
  have e2 : U' = U1 := by
    have := get gt U1 (by simp [hlt])
    exact Option.some.inj (h2U.symm.trans this)
  subst e1 e2
  have hpne := alignBody_nonempty _ _ _ _ _ hA
  refine ⟨T', U', hm, ?_, ?_, hp, reports_of lib heul (hp.test hpne) hp.ref hpne hp.length hA hr⟩
  · rw [List.getElem?_append_left (List.getElem?_eq_some_iff.1 h2T).1]; exact h2T
  · rw [List.getElem?_append_left (List.getElem?_eq_some_iff.1 h2U).1]; exact h2U

/-! ### the preparation with default settings -/

theorem pickTraj_all {T : Traj K R} (hT : Coherent T) {m : List Bool} (hm : m.length = T.tstamps.length)
    (ha : ∀ b ∈ m, b = true) : pickTraj (.mask m) T = T := by
  have key : ∀ {α : Type} (l : List α), l.length = m.length → maskList m l = l := by
    clear hm
    intro α l hl
    induction m generalizing l with
    | nil => simp [List.length_eq_zero_iff.1 hl, maskList]
    | cons b m ih =>
      rcases l with _ | ⟨x, l⟩
      · simp at hl
      · have hb := ha b (by simp)
        subst hb
        simp only [maskList, if_true]
        rw [ih (fun b hb => ha b (by simp [hb])) l (by simpa using hl)]
  unfold pickTraj
  simp only [pick]
  rw [key _ hm.symm, key _ (hT.pos.trans hm.symm), key _ (hT.arc.trans hm.symm), key _ (hT.speed.trans hm.symm)]
  have : T.rot.map (maskList m) = T.rot := by
    rcases hr : T.rot with _ | r
    · rfl
    · simp [key r ((hT.rot r hr).trans hm.symm)]
  show { T with rot := T.rot.map (pick (.mask m)) } = T
  rw [show T.rot.map (pick (.mask m)) = T.rot from this]

/-- if no sample is too slow, filtering keeps everything -/
theorem speedFilter_keeps (nrm : V3 K → K) {m : K} {T : Traj K R} (hT : Coherent T) (hv : ∀ v ∈ T.speed, m ≤ nrm v)
    {h : Heap K R} {r : Nat} (hr : h[r]? = some T) :
    speedFilter nrm r m h = if T.rot.isSome = true ∧ T.tstamps = [] then
      (.error .valueError, h.set r { T with tstamps := [], pos := [] }) else (.ok (), h) := by
  unfold speedFilter
  rw [SE.run_bind_ok (rd_run hr)]
  have hl : (T.speed.map (fun v => decide (m ≤ nrm v))).length = T.tstamps.length := by simp [hT.speed]
  have ha : ∀ b ∈ T.speed.map (fun v => decide (m ≤ nrm v)), b = true := by
    intro b hb
    obtain ⟨v, hv', rfl⟩ := List.mem_map.1 hb
    simp [hv v hv']
  have e := sim_applyIndex r (.mask (T.speed.map (fun v => decide (m ≤ nrm v)))) h T hr
  have hpick : pick (.mask (T.speed.map (fun v => decide (m ≤ nrm v)))) T.tstamps = T.tstamps := by
    have := congrArg Traj.tstamps (pickTraj_all hT hl ha)
    exact this
  have hiv : IndexValid T.tstamps.length (.mask (T.speed.map (fun v => decide (m ≤ nrm v)))) := hl
  rw [applyIndex_eq' hT, if_pos hiv, hpick, pickTraj_all hT hl ha] at e
  split_ifs at e ⊢ with hc
  · rw [SE.run_bind_error (s' := h.set r { T with tstamps := [], pos := [] }) (e := .valueError)]
    rw [e]
    rfl
  · have e' : H.applyIndex r (.mask (T.speed.map (fun v => decide (m ≤ nrm v)))) true h = (.ok r, h) := by
      rw [e]
      simp [Except.map, set_self hr]
    rw [SE.run_bind_ok e']
    rfl

theorem hcat_length {a b c : List (List K)} (h : Obs.hcat a b = .ok c) : a.length = b.length := by
  unfold Obs.hcat at h
  split_ifs at h with h1
  · exact h1

theorem build_length {e : EstSettings} {ts : List K} {a b : List (V3 K)} {rpy v : Option (List (V3 K))} {o : List K}
    (h : Obs.build e ts a b rpy v = .ok o) : a.length = b.length := by
  unfold Obs.build at h
  simp only [bind, Except.bind] at h
  split at h
  · simp at h
  · rename_i x hx
    simpa using hcat_length hx

/-- the default preprocessing: no speed, no time filter -/
structure NoFilter (s : AlignSettings K) : Prop where
  minSpeed : s.minSpeed ≤ 0
  timeStart : s.timeStart = 0
  timeEnd : s.timeEnd = 0

theorem timeFilter_off {s : AlignSettings K} (hs : NoFilter s) (f t : Nat) (h : Heap K R) :
    timeFilter s f t h = (.ok (), h) := by
  unfold timeFilter
  rw [if_neg (by simp [hs.timeStart, hs.timeEnd])]
  rfl

/-- up to the matching, the default preparation does nothing -/
theorem setup_start (lib : MetricLib K R) (hn : ∀ v, 0 ≤ lib.mat.nrm v) (c : Nat) {s : AlignSettings K} (hs : NoFilter s)
    (ms : MatchingSettings K) {T U : Traj K R} (hT : Coherent T) (hU : Coherent U) {h : Heap K R} {f t : Nat}
    (hf : h[f]? = some T) (ht : h[t]? = some U) :
    (∃ h', setup lib c s ms f t h = (.error .valueError, h') ∧ (T.tstamps = [] ∨ U.tstamps = [])) ∨
    (T.tstamps ≠ [] ∧ U.tstamps ≠ [] ∧ setup lib c s ms f t h = (do
      let _ ← matchTrajectories lib.mat c f t ms true
      let o ← rd f
      let p ← rd t
      let _ ← SE.lift (pyLast o.tstamps)
      let obs ← SE.lift (Obs.build s.est o.tstamps o.pos p.pos (o.rot.map (fun r => r.map lib.toEuler)) (some o.speed))
      let obs ← SE.lift (Obs.checkLength s.est obs)
      let var ← SE.lift (Obs.buildVar s.est s.stoch obs)
      let var ← SE.lift (Obs.checkLength s.est var)
      return (obs, var) : SE (Heap K R) (List K × List K)) h) := by
  have hv : ∀ v, s.minSpeed ≤ lib.mat.nrm v := fun v => le_trans hs.minSpeed (hn v)
  have e1 := speedFilter_keeps lib.mat.nrm hU (fun v _ => hv v) ht
  have e2 := speedFilter_keeps lib.mat.nrm hT (fun v _ => hv v) hf
  by_cases c1 : U.rot.isSome = true ∧ U.tstamps = []
  · left
    rw [if_pos c1] at e1
    unfold setup
    rw [SE.run_bind_error e1]
    exact ⟨_, rfl, .inr c1.2⟩
  by_cases c2 : T.rot.isSome = true ∧ T.tstamps = []
  · left
    rw [if_neg c1] at e1
    rw [if_pos c2] at e2
    unfold setup
    rw [SE.run_bind_ok e1, SE.run_bind_error e2]
    exact ⟨_, rfl, .inl c2.2⟩
  rw [if_neg c1] at e1
  rw [if_neg c2] at e2
  unfold setup
  rw [SE.run_bind_ok e1, SE.run_bind_ok e2, SE.run_bind_ok (timeFilter_off hs f t h), SE.run_bind_ok (rd_run hf),
    SE.run_bind_ok (rd_run ht)]
  by_cases c3 : T.pos.length = 0 ∨ U.pos.length = 0
  · left
    simp only [c3, if_true]
    rw [SE.run_bind_error (SE.run_raise _ _)]
    refine ⟨_, rfl, ?_⟩
    rw [hT.pos, hU.pos] at c3
    simpa using c3
  · right
    simp only [c3, if_false]
    rw [hT.pos, hU.pos] at c3
    simp only [List.length_eq_zero_iff, not_or] at c3
    exact ⟨c3.1, c3.2, trivial⟩

/-- with matching by lines, the estimation only returns if both trajectories have the same number of samples -/
theorem estimate_line_length (lib : MetricLib K R) (hn : ∀ v, 0 ≤ lib.mat.nrm v) (c : Nat) {s : AlignSettings K}
    (hs : NoFilter s) {ms : MatchingSettings K} (hm : ms.method = .nearestSpatialInterpolated) {T U : Traj K R}
    (hT : Coherent T) (hU : Coherent U) {h h' : Heap K R} {f t : Nat} (hf : h[f]? = some T) (ht : h[t]? = some U)
    {a : Option (AlignResult K)} (hret : estimateAlignment lib c s ms f t h = (.ok a, h')) :
    T.pos.length = U.pos.length := by
  unfold estimateAlignment at hret
  obtain ⟨d, h1, hd, -⟩ := returns_bind hret
  unfold alignData at hd
  have ht' : (h ++ [T])[t]? = some U := by
    rw [List.getElem?_append_left (List.getElem?_eq_some_iff.1 ht).1, ht]
  have k1 : copyRef f h = (.ok h.length, h ++ [T]) := copyRef_run hf
  have k2 : copyRef t (h ++ [T]) = (.ok (h ++ [T]).length, h ++ [T] ++ [U]) := copyRef_run ht'
  rw [SE.run_bind_ok k1, SE.run_bind_ok k2] at hd
  obtain ⟨v, h2, hv, -⟩ := returns_bind hd
  have g1 : (h ++ [T] ++ [U])[h.length]? = some T := by simp
  have g2 : (h ++ [T] ++ [U])[(h ++ [T]).length]? = some U := by simp
  rcases setup_start lib hn c hs ms hT hU g1 g2 with ⟨h3, he, -⟩ | ⟨-, -, he⟩
  · rw [he] at hv; simp at hv
  · rw [he] at hv
    obtain ⟨m, h3, hm3, hv⟩ := returns_bind hv
    have hk := match_line lib.mat c ms hm (h ++ [T] ++ [U]) h.length (h ++ [T]).length
    rw [hm3] at hk
    have get : ∀ (k : Nat) (X : Traj K R), (h ++ [T] ++ [U])[k]? = some X → h3[k]? = some X := by
      intro k X hX
      have := (List.getElem?_eq_some_iff.1 hX).1
      rw [← hk, List.getElem?_take, if_pos this] at hX
      exact hX
    rw [SE.run_bind_ok (rd_run (get _ _ g1)), SE.run_bind_ok (rd_run (get _ _ g2))] at hv
    obtain ⟨_, h4, _, hv4⟩ := returns_bind hv
    obtain ⟨o, h5, ho, -⟩ := returns_bind hv4
    rw [SE.run_lift] at ho
    exact build_length (Prod.mk.inj ho).1

end TC
