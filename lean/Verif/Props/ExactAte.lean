import Verif.Proofs.ExactAte
import Verif.Props.ExactFit
import Verif.Spec.Exact
import Verif.Proofs.Svd
/-!
# C132: the absolute error of a trajectory that only differs by a similarity
-/
namespace TC
set_option linter.unusedSectionVars false
open H Obs Adjust Equations
variable {R : Type}

/-- the settings: nothing is filtered out, samples are paired in time, translation, rotation and scale or some of them
are estimated with given standard deviations -/
structure PlainSettings (s : ProcSettings ℝ) : Prop where
  noFilter : NoFilter s.align
  similarity : SimilarityOnly s.align.est
  given : s.align.stoch.varianceEstimation = false
  stdXyFrom : s.align.stoch.stdXyFrom ≠ 0
  stdZFrom : s.align.stoch.stdZFrom ≠ 0
  stdXyTo : s.align.stoch.stdXyTo ≠ 0
  stdZTo : s.align.stoch.stdZTo ≠ 0
  metric : 0 ≤ s.align.metricThreshold
  time : 0 ≤ s.align.timeThreshold
  inTime : s.matching.method = .interpolation ∨ s.matching.method = .nearestTemporal ∧ 0 ≤ s.matching.maxTimeDiff

theorem match_same {lib : MetricLib ℝ R} (hl : RightLib lib) (c : Nat) {s : ProcSettings ℝ} (hs : PlainSettings s)
    {T U : Traj ℝ R} (hT : Coherent T) (hU : Coherent U) (htU : U.tstamps = T.tstamps) (hasc : StrictAsc T.tstamps)
    (h2 : 2 ≤ T.tstamps.length) {h : Heap ℝ R} {f t : Nat} (hf : h[f]? = some T) (ht : h[t]? = some U) (hft : f ≠ t) :
    ∃ T', matchTrajectories lib.mat c f t s.matching true h = (.ok (f, t), h.set f T') ∧ Coherent T' ∧ SameMeta T T' ∧
      T'.tstamps = T.tstamps ∧ T'.pos = T.pos ∧ (SlerpEnds lib.mat.rot → T'.rot = T.rot) := by
  rcases hs.inTime with hm | ⟨hm, h0⟩
  · obtain ⟨T', h1, h3, h4, h5, h6, h7⟩ := matchInterp_same lib.mat c s.matching hm hT hU htU hasc h2 hf ht hft
    exact ⟨T', h1, h3, h4, h5, h6, h7⟩
  · have hne : T.tstamps ≠ [] := by intro h; rw [h] at h2; simp at h2
    refine ⟨T, ?_, hT, ⟨rfl, rfl, rfl, rfl⟩, rfl, rfl, fun _ => rfl⟩
    rw [matchTemporal_same lib.mat hl.time c s.matching hm h0 hT hU htU hasc hne hf ht]
    obtain ⟨hk1, hk2⟩ := List.getElem?_eq_some_iff.1 hf
    rw [← hk2, List.set_getElem_self]

theorem build_plain {e : EstSettings} (h1 : e.leverarmEnabled = false) (h2 : e.timeShiftEnabled = false) (ts : List ℝ)
    (a b : List (V3 ℝ)) (r v r' v' : Option (List (V3 ℝ))) : build e ts a b r v = build e ts a b r' v' := by
  unfold build
  simp [h1, h2]

/-- the observations and variances of two trajectories with the same number of positions -/
theorem vectors_exact {e : EstSettings} (hs : SimilarityOnly e) (st : Stochastics ℝ) (h1 : st.stdXyFrom ≠ 0)
    (h2 : st.stdZFrom ≠ 0) (h3 : st.stdXyTo ≠ 0) (h4 : st.stdZTo ≠ 0) (ts : List ℝ) (a b : List (V3 ℝ))
    (hab : b.length = a.length) (r v : Option (List (V3 ℝ))) :
    ∃ obs var, build e ts a b r v = .ok obs ∧ checkLength e obs = .ok obs ∧ buildVar e st obs = .ok var ∧
      checkLength e var = .ok var ∧ obs.length = a.length * 6 ∧ var.length = a.length * 6 ∧ (∀ x ∈ var, 0 < x) ∧
      (∀ k p, a[k]? = some p → sourceOf obs k = p) ∧ (∀ k p, b[k]? = some p → targetOf obs k = p) := by
  obtain ⟨-, h6, -, -, ht, hlv, -, -, -⟩ := hs.facts
  obtain ⟨obs, e1, e2, -, e4⟩ := C78_layout e ts a b a a hab rfl rfl
  obtain ⟨var, e5, e6, e7⟩ := C78_variances e st a.length obs e2
  rw [h6] at e2 e4 e7
  have hb : ∀ k, k < a.length → sourceOf obs k = a.getD k 0 ∧ targetOf obs k = b.getD k 0 := by
    intro k hk
    have := e4 k _ _ _ _ (List.getElem?_eq_getElem hk) (List.getElem?_eq_getElem (by omega : k < b.length))
      (List.getElem?_eq_getElem hk) (List.getElem?_eq_getElem hk)
    unfold sourceOf targetOf
    rw [this]
    simp [pointAt, epochNumbers, hk, hab]
  refine ⟨obs, var, by rw [build_plain hlv ht ts a b r v (some a) (some a), e1], ?_, e5, ?_, e2, by omega, ?_, ?_, ?_⟩
  · unfold checkLength
    rw [h6, e2, Nat.mul_mod_left]
    rfl
  · unfold checkLength
    rw [h6, e6, e2, Nat.mul_mod_left]
    rfl
  · intro x hx
    obtain ⟨j, hj, rfl⟩ := List.getElem_of_mem hx
    have hk : j / 6 < a.length := by omega
    have := e7 (j / 6) hk
    have hget : (block 6 var (j / 6))[j % 6]? = some var[j] := by
      unfold block
      rw [List.getElem?_take, if_pos (by omega), List.getElem?_drop, show j / 6 * 6 + j % 6 = j by omega,
        List.getElem?_eq_getElem hj]
    rw [this] at hget
    have hm : var[j] ∈ epochNumbers e ⟨st.stdXyFrom ^ 2, st.stdXyFrom ^ 2, st.stdZFrom ^ 2⟩
        ⟨st.stdXyTo ^ 2, st.stdXyTo ^ 2, st.stdZTo ^ 2⟩ ⟨st.stdRollPitch ^ 2, st.stdRollPitch ^ 2, st.stdYaw ^ 2⟩
        ⟨st.stdSpeed ^ 2, st.stdSpeed ^ 2, st.stdSpeed ^ 2⟩ := List.mem_of_getElem? hget
    simp only [epochNumbers, hlv, ht, Bool.false_eq_true, if_false, List.append_nil, List.mem_cons, List.not_mem_nil,
      or_false] at hm
    rcases hm with hm | hm | hm | hm | hm | hm <;> rw [hm] <;> positivity
  · intro k p hp
    obtain ⟨hk, rfl⟩ := List.getElem?_eq_some_iff.1 hp
    rw [(hb k hk).1]
    simp [hk]
  · intro k p hp
    obtain ⟨hk, rfl⟩ := List.getElem?_eq_some_iff.1 hp
    rw [(hb k (by omega)).2]
    simp [hk]

theorem thresholds_ok {nrm : V3 ℝ → ℝ} (hn : IsNorm nrm) {m t : ℝ} (hm : 0 ≤ m) (ht : 0 ≤ t) {a b : List (V3 ℝ)} (ha : a ≠ [])
    (hb : b ≠ []) : ∃ l, thresholds nrm m t a b = .ok l ∧ (∃ x, some x ∈ l) ∧ ∀ x, some x ∈ l → 0 ≤ x := by
  rcases a with _ | ⟨p, a⟩
  · exact absurd rfl ha
  rcases b with _ | ⟨q, b⟩
  · exact absurd rfl hb
  unfold thresholds
  simp only [bind, Except.bind, pure, Except.pure]
  refine ⟨_, rfl, ⟨m, by simp⟩, ?_⟩
  intro x hx
  simp only [List.mem_cons, Option.some.injEq, List.not_mem_nil, or_false] at hx
  have key : ∀ d : ℝ, 0 ≤ d → some x = (if d = 0 then none else some (m / d)) → 0 ≤ x := by
    intro d hd h
    split_ifs at h
    cases h
    exact div_nonneg hm hd
  have hd : ∀ u v : V3 ℝ, 0 ≤ max (nrm u) (nrm v) := fun u v => le_max_of_le_left (hn.nonneg u)
  rcases hx with h | h | h | h | h | h | h | h | h | h | h
  all_goals first
    | exact key _ (hd _ _) h
    | (rw [h]; assumption)

/-- the estimated transformation: the right one, or NaN -/
theorem estimate_exact {lib : MetricLib ℝ R} (hl : RightLib lib) (c : Nat) {s : ProcSettings ℝ} (hs : PlainSettings s)
    {T U : Traj ℝ R} (hT : Coherent T) (hU : Coherent U) {Q : M3 ℝ} (hQ : IsRot Q) {κ : ℝ} (hκ : 0 < κ) {b : V3 ℝ}
    (hcopy : MovedCopy Q κ b T U) (hasc : StrictAsc T.tstamps) (h2 : 2 ≤ T.tstamps.length) (hspread : Spread T.pos)
    (hnt : Neutral s.align.est b (lib.init.euler Q) κ)
    (hsens : s.align.est.sensorRotation = false ∨ T.rot = none ∨ U.rot = none)
    {h : Heap ℝ R} {f t : Nat} (hf : h[f]? = some T) (ht : h[t]? = some U) :
    ∃ T', (Q 2 0 ^ 2 = 1 ∧ s.align.est.rotX = true ∧ s.align.est.rotZ = true →
      estimateAlignment lib c s.align s.matching f t h = (.ok none, h ++ [T', U])) ∧
    (¬ (Q 2 0 ^ 2 = 1 ∧ s.align.est.rotX = true ∧ s.align.est.rotZ = true) →
      ∃ a, estimateAlignment lib c s.align s.matching f t h = (.ok (some a), h ++ [T', U]) ∧
        paramsOf a.position.values = ⟨b, lib.init.euler Q, κ, 0, 0⟩ ∧
        a.rotation = { SensorParams.new with enabled := false }) := by
  have hne : T.tstamps ≠ [] := by intro h; rw [h] at h2; simp at h2
  have ht' : (h ++ [T])[t]? = some U := by
    rw [List.getElem?_append_left (List.getElem?_eq_some_iff.1 ht).1, ht]
  have k1 : copyRef f h = (.ok h.length, h ++ [T]) := copyRef_run hf
  have k2 : copyRef t (h ++ [T]) = (.ok (h ++ [T]).length, h ++ [T] ++ [U]) := copyRef_run ht'
  have g1 : (h ++ [T] ++ [U])[h.length]? = some T := by simp
  have g2 : (h ++ [T] ++ [U])[(h ++ [T]).length]? = some U := by simp
  obtain ⟨T', hm, hT', hmeta, htT', hpT', -⟩ := match_same hl c hs hT hU hcopy.times hasc h2 g1 g2 (by simp)
  have hset : (h ++ [T] ++ [U]).set h.length T' = h ++ [T', U] := by simp
  rw [hset] at hm
  have g3 : (h ++ [T', U])[h.length]? = some T' := by simp
  have g4 : (h ++ [T', U])[(h ++ [T]).length]? = some U := by simp
  have hlen : U.pos.length = T'.pos.length := by rw [hpT', hcopy.pos, List.length_map]
  obtain ⟨obs, var, e1, e2, e3, e4, e5, e6, e7, e8, e9⟩ := vectors_exact hs.similarity s.align.stoch hs.stdXyFrom
    hs.stdZFrom hs.stdXyTo hs.stdZTo T'.tstamps T'.pos U.pos hlen (T'.rot.map (fun r => r.map lib.toEuler)) (some T'.speed)
  have hlast : ∃ x, pyLast T'.tstamps = .ok x := ⟨_, pyLast_eq (by rw [htT']; omega)⟩
  obtain ⟨x, hx⟩ := hlast
  have hsetup : setup lib c s.align s.matching h.length (h ++ [T]).length (h ++ [T] ++ [U]) = (.ok (obs, var), h ++ [T', U]) := by
    rcases setup_start lib hl.dist.nonneg c hs.noFilter s.matching hT hU g1 g2 with ⟨h3, he, h4⟩ | ⟨-, -, he⟩
    · rw [hcopy.times, or_self] at h4
      exact absurd h4 hne
    · rw [he, SE.run_bind_ok hm, SE.run_bind_ok (rd_run g3), SE.run_bind_ok (rd_run g4), hx,
        SE.run_bind_ok (SE.run_lift _ _), e1, SE.run_bind_ok (SE.run_lift _ _), e2, SE.run_bind_ok (SE.run_lift _ _),
        e3, SE.run_bind_ok (SE.run_lift _ _), e4, SE.run_bind_ok (SE.run_lift _ _)]
      rfl
  have hpe : T'.pos ≠ [] := by
    intro hc
    rw [hpT'] at hc
    have := hT.pos
    rw [hc] at this
    simp at this
    omega
  have h6 := hs.similarity.facts.2.1
  have hobs : obs.length = T'.pos.length * perEpoch s.align.est := by rw [h6, e5]
  have hp1 : points s.align.est obs .xyzFrom ≠ [] := by
    rw [points_some obs hobs _ 0 rfl (by rw [h6]; omega)]
    simpa using hpe
  have hp2 : points s.align.est obs .xyzTo ≠ [] := by
    rw [points_some obs hobs _ 3 rfl (by rw [h6])]
    simpa using hpe
  obtain ⟨ths, t1, t2, t3⟩ := thresholds_ok hl.dist hs.metric hs.time hp1 hp2
  have hdata : ExactData lib.init ⟨lib.grad, lib.trig, lib.adj, s.align.est, obs, ths⟩ T'.pos.length var Q κ b :=
    { grad := hl.grad, trig := hl.trig, lib := hl.adj, norm := hl.norm, angles := hl.angles
      svd := fun M _ => hl.svd M
      settings := hs.similarity, neutral := hnt, obs := e5, varLen := e6, varPos := e7, threshold := t2,
      thresholdPos := t3, rot := hQ, scale := hκ
      fit := by
        intro k hk
        have hk' : T'.pos[k]? = some T'.pos[k] := List.getElem?_eq_getElem hk
        have hk2 : U.pos[k]? = some (b + κ • mulV Q T'.pos[k]) := by
          rw [hcopy.pos, ← hpT', List.getElem?_map, hk']
          rfl
        simp only
        rw [e9 k _ hk2, e8 k _ hk']
      spread := by
        intro n d hd
        apply hspread n d
        intro p hp
        rw [← hpT'] at hp
        obtain ⟨k, hk, rfl⟩ := List.getElem_of_mem hp
        have := hd k hk
        simp only at this
        rw [e8 k _ (List.getElem?_eq_getElem hk)] at this
        exact this }
  have hrun : runEstimation lib s.align ⟨h.length, (h ++ [T]).length, obs, var⟩ =
      estimate lib.init ⟨lib.grad, lib.trig, lib.adj, s.align.est, obs, ths⟩ false var := by
    unfold runEstimation
    simp only [t1, bind, Except.bind, hs.given]
  obtain ⟨c1, c2⟩ := exact_cases hdata
  rw [cos_angle hl.angles Q hQ] at c1 c2
  have hstart : ∀ e, estimate lib.init ⟨lib.grad, lib.trig, lib.adj, s.align.est, obs, ths⟩ false var = .ok e →
      estimateAlignment lib c s.align s.matching f t h = (match e.params with
      | none => return none
      | some p => do
        let q ← sensorRotation lib s.align ⟨h.length, (h ++ [T]).length, obs, var⟩ p
        let o ← rd h.length
        let u ← rd (h ++ [T]).length
        return some { name := o.name ++ " to " ++ u.name, position := p, rotation := q, estimationOf := s.align.est,
                      converged := e.hasResults } : SE (Heap ℝ R) (Option (AlignResult ℝ))) (h ++ [T', U]) := by
    intro e he
    unfold estimateAlignment
    have hd : alignData lib c s.align s.matching f t h = (.ok ⟨h.length, (h ++ [T]).length, obs, var⟩, h ++ [T', U]) := by
      unfold alignData
      rw [SE.run_bind_ok k1, SE.run_bind_ok k2, SE.run_bind_ok hsetup]
      rfl
    rw [SE.run_bind_ok hd, hrun, he, SE.run_bind_ok (SE.run_lift _ _)]
    rcases e.params with _ | _ <;> rfl
  refine ⟨T', fun hg => ?_, fun hg => ?_⟩
  · rw [hstart _ (c1 hg)]
    rfl
  · obtain ⟨p, hp, hv⟩ := c2 hg
    have hsensor : sensorRotation lib s.align ⟨h.length, (h ++ [T]).length, obs, var⟩ p (h ++ [T', U]) =
        (.ok { SensorParams.new with enabled := false }, h ++ [T', U]) := by
      unfold sensorRotation
      rw [SE.run_bind_ok (rd_run g3), SE.run_bind_ok (rd_run g4)]
      rcases hsens with h1 | h1 | h1
      · rw [h1]
        rcases T'.rot with _ | _ <;> rcases U.rot with _ | _ <;> rfl
      · have := hmeta.rot
        rw [h1] at this
        rcases hr : T'.rot with _ | _
        · rfl
        · rw [hr] at this
          simp at this
      · rw [h1]
        rcases T'.rot with _ | _ <;> rfl
    rw [hstart _ hp]
    simp only
    rw [SE.run_bind_ok hsensor, SE.run_bind_ok (rd_run g3), SE.run_bind_ok (rd_run g4)]
    refine ⟨_, rfl, ?_, rfl⟩
    simp only
    rw [hv]
    rfl

/-- deviations along the axes of the platform vanish with the deviations -/
theorem devWithRot_zero : ∀ (ref : List (V3 ℝ)) (ms : List (M3 ℝ)), ms.length = ref.length →
    devDirectionsWithRot ref ref ms = .ok (ref.map fun _ => 0)
  | [], _, _ => rfl
  | p :: ps, [], h => by simp at h
  | p :: ps, m :: ms, h => by
    rw [devDirectionsWithRot, devWithRot_zero ps ms (by simpa using h)]
    simp [bind, Except.bind, pure, Except.pure, mulV_zero]

/-- the whole call -/
theorem ate_exact_cases {lib : MetricLib ℝ R} (hl : RightLib lib) (c : Nat) {s : ProcSettings ℝ} (hs : PlainSettings s)
    {T U : Traj ℝ R} (hT : Coherent T) (hU : Coherent U) {Q : M3 ℝ} (hQ : IsRot Q) {κ : ℝ} (hκ : 0 < κ) {b : V3 ℝ}
    (hcopy : MovedCopy Q κ b T U) (hasc : StrictAsc T.tstamps) (hspread : Spread T.pos)
    (hnt : Neutral s.align.est b (lib.init.euler Q) κ)
    (hsens : s.align.est.sensorRotation = false ∨ T.rot = none ∨ U.rot = none)
    {h : Heap ℝ R} {gt est : Nat} (hest : h[est]? = some T) (hgt : h[gt]? = some U) (hne : est ≠ gt) :
    (Q 2 0 ^ 2 = 1 ∧ s.align.est.rotX = true ∧ s.align.est.rotZ = true →
      ∃ h', Returns (H.ate lib c s gt est) h none h') ∧
    (¬ (Q 2 0 ^ 2 = 1 ∧ s.align.est.rotX = true ∧ s.align.est.rotZ = true) →
      ∃ r a h', Returns (H.ate lib c s gt est) h (some (r, a)) h' ∧
        paramsOf a.position.values = ⟨b, lib.init.euler Q, κ, 0, 0⟩ ∧
        r.posDev = List.replicate T.pos.length 0 ∧ r.directed = List.replicate T.pos.length 0 ∧
        a.rotation = { SensorParams.new with enabled := false } ∧
        ∃ T1, Coherent T1 ∧ SameMeta T T1 ∧ T1.tstamps = T.tstamps ∧ (SlerpEnds lib.mat.rot → T1.rot = T.rot) ∧
          r.rotDev = U.rot.map (fun ro => List.zipWith (fun u s => lib.mat.rot.mul u (lib.mat.rot.inv
            (alignedRot lib.trig lib.mat.rot (paramsOf a.position.values) (sensorOf lib a) s))) ro (samples T1))) := by
  have h2 : 2 ≤ T.tstamps.length := by
    rw [← hT.pos]
    by_contra hc
    rcases hp : T.pos with _ | ⟨p, _ | ⟨q, l⟩⟩
    · have := hspread ⟨1, 0, 0⟩ 0 (by simp [hp])
      simpa using congrArg V3.x this
    · have := hspread ⟨1, 0, 0⟩ p.x (by simp [hp, V3.dot])
      simpa using congrArg V3.x this
    · simp [hp] at hc
  obtain ⟨T1, hm, hT1, hmeta, htT1, hpT1, hrT1⟩ := match_same hl c hs hT hU hcopy.times hasc h2 hest hgt hne
  have g1 : (h.set est T1)[est]? = some T1 := get_set hest
  have g2 : (h.set est T1)[gt]? = some U := by rw [List.getElem?_set_ne hne]; exact hgt
  obtain ⟨T2, c1, c2⟩ := estimate_exact hl c hs hT1 hU hQ hκ (b := b)
    ⟨by rw [hcopy.times, htT1], by rw [hcopy.pos, hpT1]⟩ (by rw [htT1]; exact hasc) (by rw [htT1]; exact h2)
    (by rw [hpT1]; exact hspread) hnt (by
      rcases hsens with h1 | h1 | h1
      · exact .inl h1
      · refine .inr (.inl ?_)
        have := hmeta.rot
        rw [h1] at this
        simpa using this
      · exact .inr (.inr h1)) g1 g2
  refine ⟨fun hg => ?_, fun hg => ?_⟩
  · refine ⟨h.set est T1 ++ [T2, U], ?_⟩
    unfold Returns H.ate
    rw [SE.run_bind_ok hm, SE.run_bind_ok (c1 hg)]
    rfl
  · obtain ⟨a, ha, hv, hrot⟩ := c2 hg
    have hne1 : T1.tstamps ≠ [] := by
      intro hc
      rw [htT1] at hc
      rw [hc] at h2
      simp at h2
    have g3 : (h.set est T1 ++ [T2, U])[est]? = some T1 := by
      rw [List.getElem?_append_left (List.getElem?_eq_some_iff.1 g1).1, g1]
    have g4 : (h.set est T1 ++ [T2, U])[gt]? = some U := by
      rw [List.getElem?_append_left (List.getElem?_eq_some_iff.1 g2).1, g2]
    have hbody := alignBody_samples lib.mat.rot lib.trig lib.toEuler hl.euler (paramsOf a.position.values)
      (sensorOf lib a) hT1 hne1
    have hpt : (samples T1).map (alignedPoint lib.trig lib.mat.rot (paramsOf a.position.values)) = U.pos := by
      rw [hcopy.pos, ← hpT1, ← samples_map_p hT1, List.map_map]
      refine List.map_congr_left fun x _ => ?_
      unfold alignedPoint
      rw [hv, hl.trig]
      simp only [Function.comp_apply, hl.angles Q hQ]
      rcases x.r with _ | o <;> simp [mulV_zero]
    rw [hpt] at hbody
    generalize hA : ({ T1 with pos := U.pos, rot := some ((samples T1).map (alignedRot lib.trig lib.mat.rot
      (paramsOf a.position.values) (sensorOf lib a))) } : Traj ℝ R) = A at hbody
    have hAp : A.pos = U.pos := by rw [← hA]
    have hAt : A.tstamps = T1.tstamps := by rw [← hA]
    have hAr : A.rot = some ((samples T1).map (alignedRot lib.trig lib.mat.rot (paramsOf a.position.values)
      (sensorOf lib a))) := by rw [← hA]
    have hAc : Coherent A := by
      subst hA
      refine ⟨?_, hT1.arc, hT1.speed, ?_⟩
      · change U.pos.length = T1.tstamps.length
        rw [hU.pos, hcopy.times, htT1]
      · intro r hr
        simp only [Option.some.injEq] at hr
        rw [← hr, List.length_map]
        exact samples_length hT1
    obtain ⟨dir, d1, d2, d3⟩ := compareAbsolute_eq lib.eval lib.mat.rot hAc hU (by rw [hAt, hcopy.times, htT1])
    have hdir : dir = List.replicate T.pos.length 0 := by
      have hrr : ∃ rr, rotEither U.rot A.rot = some rr ∧ rr.length = U.pos.length := by
        rcases hu : U.rot with _ | ru
        · refine ⟨_, by rw [hAr]; rfl, ?_⟩
          rw [List.length_map, samples_length hT1, hU.pos, hcopy.times, htT1]
        · exact ⟨ru, rfl, by rw [hU.rot ru hu, hU.pos]⟩
      obtain ⟨rr, hr1, hr2⟩ := hrr
      rw [hr1] at d1
      simp only [directedDeviations] at d1
      rw [hAp, devWithRot_zero _ _ (by simp [hr2])] at d1
      rw [← Except.ok.inj d1, List.map_const', hcopy.pos, List.length_map]
    refine ⟨{ name := A.name ++ " vs. " ++ U.name
              trajectory := A
              posDev := List.zipWith (fun a b => a - b) U.pos A.pos
              directed := dir
              rotDev := match U.rot, A.rot with
                | some r, some t => some (List.zipWith (fun a b => lib.mat.rot.mul a (lib.mat.rot.inv b)) r t)
                | _, _ => none
              rotationsUsed := (rotEither U.rot A.rot).isSome }, a, h.set est T1 ++ [T2, U] ++ [A], ?_, hv, ?_, hdir,
              hrot, T1, hT1, hmeta, htT1, hrT1, ?_⟩
    rotate_left
    · simp only [hAp]
      rw [List.zipWith_self]
      simp only [sub_self, List.map_const', hcopy.pos, List.length_map]
    · simp only [hAr]
      rcases U.rot with _ | ro
      · rfl
      · simp only [Option.map_some, List.zipWith_map_right]
    · have hal : H.applyAlignment lib.mat.rot lib.trig lib.toEuler est (paramsOf a.position.values) (sensorOf lib a) false
          (h.set est T1 ++ [T2, U]) = (.ok (h.set est T1 ++ [T2, U]).length, h.set est T1 ++ [T2, U] ++ [A]) := by
        unfold H.applyAlignment
        have hc : copyRef est (h.set est T1 ++ [T2, U]) = (.ok (h.set est T1 ++ [T2, U]).length,
            h.set est T1 ++ [T2, U] ++ [T1]) := copyRef_run g3
        have ho := Sim.onRef (r := (h.set est T1 ++ [T2, U]).length) (Traj.applyAlignmentBody lib.mat.rot lib.trig
          lib.toEuler (paramsOf a.position.values) (sensorOf lib a)) (h.set est T1 ++ [T2, U] ++ [T1]) T1 (by simp)
        rw [hbody] at ho
        simp only [Bool.false_eq_true, if_false]
        rw [SE.run_bind_ok hc, SE.run_bind_ok ho]
        simp
      unfold Returns H.ate
      rw [SE.run_bind_ok hm, SE.run_bind_ok ha]
      simp only
      rw [SE.run_bind_ok hal, SE.run_bind_ok (rd_run (T := A) (by simp)), SE.run_bind_ok (rd_run (T := U) (by
        rw [List.getElem?_append_left (List.getElem?_eq_some_iff.1 g4).1, g4])), d3, SE.run_bind_ok (SE.run_lift _ _)]
      rfl

/-- **C132**, positive part: let the ground truth be the estimated trajectory turned by `Q`, scaled by `κ` and shifted
by `b`, at the same timestamps.  If the positions do not lie in one plane, `ate` with similarity settings and matching
in time returns a result whose alignment is exactly this transformation, and in which every deviation is zero: as many
as there are samples, in global axes and along the axes of the platform.
Missing for the full property: rotations that turn the x axis onto the z axis (see `C132_gimbal_no_result`). -/
theorem C132_exact_copy_has_no_error_partial {lib : MetricLib ℝ R} (hl : RightLib lib) (c : Nat) {s : ProcSettings ℝ}
    (hs : PlainSettings s) {T U : Traj ℝ R} (hT : Coherent T) (hU : Coherent U) {Q : M3 ℝ} (hQ : IsRot Q) {κ : ℝ}
    (hκ : 0 < κ) {b : V3 ℝ} (hcopy : MovedCopy Q κ b T U) (hasc : StrictAsc T.tstamps) (hspread : Spread T.pos)
    (hnt : Neutral s.align.est b (lib.init.euler Q) κ)
    (hsens : s.align.est.sensorRotation = false ∨ T.rot = none ∨ U.rot = none)
    (hg : Q 2 0 ^ 2 ≠ 1 ∨ s.align.est.rotX = false ∨ s.align.est.rotZ = false)
    {h : Heap ℝ R} {gt est : Nat} (hest : h[est]? = some T) (hgt : h[gt]? = some U) (hne : est ≠ gt) :
    ∃ r a h', Returns (H.ate lib c s gt est) h (some (r, a)) h' ∧
      (let q := paramsOf a.position.values
       q.trans = b ∧ eulerMat realTrig q.rot = Q ∧ q.scale = κ ∧ q.time = 0 ∧ q.lever = 0) ∧
      r.posDev = List.replicate T.pos.length 0 ∧ r.directed = List.replicate T.pos.length 0 := by
  obtain ⟨r, a, h', h1, h2, h3, h4, -⟩ := (ate_exact_cases hl c hs hT hU hQ hκ hcopy hasc hspread hnt hsens hest hgt hne).2
    (by
      rintro ⟨e1, e2, e3⟩
      rcases hg with h1 | h1 | h1
      · exact h1 e1
      · rw [h1] at e2; cases e2
      · rw [h1] at e3; cases e3)
  refine ⟨r, a, h', h1, ?_, h3, h4⟩
  rw [h2]
  exact ⟨rfl, hl.angles Q hQ, rfl, rfl, rfl⟩

/-- **C132**, negation: if the rotation turns the x axis onto the z axis (up or down) and the rotations about x and z are
both estimated, `ate` has no result for the same error-free data: NaN parameters. -/
theorem C132_gimbal_no_result {lib : MetricLib ℝ R} (hl : RightLib lib) (c : Nat) {s : ProcSettings ℝ}
    (hs : PlainSettings s) {T U : Traj ℝ R} (hT : Coherent T) (hU : Coherent U) {Q : M3 ℝ} (hQ : IsRot Q) {κ : ℝ}
    (hκ : 0 < κ) {b : V3 ℝ} (hcopy : MovedCopy Q κ b T U) (hasc : StrictAsc T.tstamps) (hspread : Spread T.pos)
    (hnt : Neutral s.align.est b (lib.init.euler Q) κ)
    (hsens : s.align.est.sensorRotation = false ∨ T.rot = none ∨ U.rot = none)
    (hg : Q 2 0 ^ 2 = 1) (hx : s.align.est.rotX = true) (hz : s.align.est.rotZ = true)
    {h : Heap ℝ R} {gt est : Nat} (hest : h[est]? = some T) (hgt : h[gt]? = some U) (hne : est ≠ gt) :
    ∃ h', Returns (H.ate lib c s gt est) h none h' :=
  (ate_exact_cases hl c hs hT hU hQ hκ hcopy hasc hspread hnt hsens hest hgt hne).1 ⟨hg, hx, hz⟩

/-! ### the hypotheses can be met -/

/-- rotations as matrices -/
abbrev RotMat := {A : M3 ℝ // IsRot A}

/-- library routines over the real numbers that are right -/
noncomputable def exactMetricLib : MetricLib ℝ RotMat where
  mat :=
    { rot :=
        { one := ⟨1, isRot_one⟩
          mul := fun a _ => a
          inv := fun a => a
          toMat := fun a => a.1
          fromMat := fun A => open Classical in if h : IsRot A then ⟨A, h⟩ else ⟨1, isRot_one⟩
          slerp := fun a _ _ => a }
      nrm := realNorm
      queryT := bruteQuery (fun a b => |a - b|)
      queryP := bruteQuery (fun a b => realNorm (a - b))
      queryPK := fun _ _ _ _ => []
      lineDir := fun _ => 0 }
  trig := realTrig
  toEuler := fun a => realAngles a.1
  fromEuler := fun _ => ⟨1, isRot_one⟩
  mean := fun _ => .ok ⟨1, isRot_one⟩
  grad := realGrad
  adj := realAdjLib
  init := { nrm := realNorm
            svd := fun M => ((exists_svd M).choose, (exists_svd M).choose_spec.choose_spec.choose)
            euler := realAngles
            lsq := exactSolver }
  eval := ⟨realNorm, Real.sqrt, Real.arccos⟩

theorem exactMetricLib_right : RightLib exactMetricLib where
  grad := realGrad_isGrad
  trig := rfl
  adj := realAdjLib_isAdjLib
  norm := realNorm_isNorm
  dist := realNorm_isNorm
  angles := realAngles_rot
  svd := fun M => ⟨_, (exists_svd M).choose_spec.choose_spec.choose_spec⟩
  euler := fun o => realAngles_rot o.1 o.2
  time := bruteQuery_isNearest _

/-- the corners of a tetrahedron, one second apart -/
noncomputable def exTetra : Traj ℝ RotMat :=
  { tstamps := [0, 1, 2, 3], pos := [0, ⟨1, 0, 0⟩, ⟨0, 1, 0⟩, ⟨0, 0, 1⟩], rot := none, arc := [0, 1, 2, 3], speed := [0, 0, 0, 0]
    sorting := .time, name := "tetrahedron", epsg := 0 }

/-- the same, moved -/
noncomputable def exTetraMoved (Q : M3 ℝ) (b : V3 ℝ) : Traj ℝ RotMat :=
  { exTetra with pos := exTetra.pos.map (fun p => b + (1 : ℝ) • mulV Q p) }

/-- the default settings of the package, with a choice of the matching method -/
noncomputable def exDefaults (m : MatchingMethod) : ProcSettings ℝ where
  align := ⟨0, 0, 0, {}, ⟨1, 1, 1, 1, Real.pi / 180, Real.pi / 180, 1, false⟩, 1 / 10000, 1 / 10000⟩
  matching := { method := m, maxTimeDiff := 1 / 100, maxDistance := 0, kNearest := 10 }
  relative := { minDist := 100, maxDist := 800, step := 100, unit := .meter, allPairs := true }

theorem exDefaults_plain (m : MatchingMethod) (hm : m = .interpolation ∨ m = .nearestTemporal) :
    PlainSettings (exDefaults m) where
  noFilter := ⟨le_refl _, rfl, rfl⟩
  similarity := ⟨.inl rfl, rfl, rfl, rfl, rfl⟩
  given := rfl
  stdXyFrom := one_ne_zero
  stdZFrom := one_ne_zero
  stdXyTo := one_ne_zero
  stdZTo := one_ne_zero
  metric := by simp [exDefaults]
  time := by simp [exDefaults]
  inTime := by
    rcases hm with rfl | rfl
    · exact .inl rfl
    · exact .inr ⟨rfl, by simp [exDefaults]⟩

theorem exTetra_facts (Q : M3 ℝ) (b : V3 ℝ) : Coherent exTetra ∧ Coherent (exTetraMoved Q b) ∧ MovedCopy Q 1 b exTetra (exTetraMoved Q b) ∧
    StrictAsc exTetra.tstamps ∧ Spread exTetra.pos := by
  refine ⟨⟨rfl, rfl, rfl, nofun⟩, ⟨rfl, rfl, rfl, nofun⟩, ⟨rfl, rfl⟩, ?_, ?_⟩
  · simp [StrictAsc, exTetra]
    norm_num
  · intro n h hp
    simp [exTetra, V3.dot] at hp
    obtain ⟨h0, h1, h2, h3⟩ := hp
    ext <;> simp <;> linarith

/-- default settings, a quarter turn about the z axis, a shift: no deviation, with either way of matching -/
example (m : MatchingMethod) (hm : m = .interpolation ∨ m = .nearestTemporal) :
    ∃ r a h', Returns (H.ate exactMetricLib 0 (exDefaults m) 1 0)
      [exTetra, exTetraMoved !![0, -1, 0; 1, 0, 0; 0, 0, 1] ⟨5, 6, 7⟩] (some (r, a)) h' ∧
      r.posDev = [0, 0, 0, 0] ∧ (paramsOf a.position.values).trans = ⟨5, 6, 7⟩ := by
  obtain ⟨h1, h2, h3, h4, h5⟩ := exTetra_facts !![0, -1, 0; 1, 0, 0; 0, 0, 1] ⟨5, 6, 7⟩
  obtain ⟨r, a, h', e1, e2, e3, -⟩ := C132_exact_copy_has_no_error_partial exactMetricLib_right 0 (exDefaults_plain m hm) h1 h2
    (by
      constructor
      · ext i j
        fin_cases i <;> fin_cases j <;> simp [Matrix.mul_apply, Fin.sum_univ_three]
      · simp [Matrix.det_fin_three]) one_pos h3 h4 h5
    ⟨nofun, nofun, nofun, nofun, nofun, nofun, fun _ => rfl⟩ (.inl rfl) (.inl (by simp)) (h := [_, _]) (est := 0) (gt := 1)
    rfl rfl (by decide)
  exact ⟨r, a, h', e1, e3, e2.1⟩

/-- default settings, a quarter turn about the y axis: no result -/
example (m : MatchingMethod) (hm : m = .interpolation ∨ m = .nearestTemporal) :
    ∃ h', Returns (H.ate exactMetricLib 0 (exDefaults m) 1 0)
      [exTetra, exTetraMoved !![0, 0, 1; 0, 1, 0; -1, 0, 0] ⟨5, 6, 7⟩] none h' := by
  obtain ⟨h1, h2, h3, h4, h5⟩ := exTetra_facts !![0, 0, 1; 0, 1, 0; -1, 0, 0] ⟨5, 6, 7⟩
  exact C132_gimbal_no_result exactMetricLib_right 0 (exDefaults_plain m hm) h1 h2
    (by
      constructor
      · ext i j
        fin_cases i <;> fin_cases j <;> simp [Matrix.mul_apply, Fin.sum_univ_three]
      · simp [Matrix.det_fin_three]) one_pos h3 h4 h5
    ⟨nofun, nofun, nofun, nofun, nofun, nofun, fun _ => rfl⟩ (.inl rfl) (by simp) rfl rfl (h := [_, _]) (est := 0) (gt := 1)
    rfl rfl (by decide)

end TC
