import Verif.Props.ExactAte
import Verif.Props.Scaled
/-!
# C132: the rotation deviations of a trajectory that only differs by a similarity
-/
namespace TC
set_option linter.unusedSectionVars false
open H Obs Adjust Equations
variable {R : Type}

/-- The orientations `us` are the orientations `rs`, turned by `Q`. -/
def TurnedBy (L : RotLib ℝ R) (Q : M3 ℝ) (rs us : List R) : Prop := us.map L.toMat = rs.map (fun r => Q * L.toMat r)

theorem samples_rot_exact {T : Traj ℝ R} (hT : Coherent T) {rs : List R} (hr : T.rot = some rs) {k : Nat} {s : Sample ℝ R}
    (hs : (samples T)[k]? = some s) : ∃ q, rs[k]? = some q ∧ s.r = some q := by
  have := congrArg (fun l => l[k]?) (samples_map_r hT)
  simp only [List.getElem?_map, hs, hr, rotColumn, Option.map_some] at this
  rcases hq : rs[k]? with _ | q
  · rw [hq] at this; simp at this
  · rw [hq] at this
    exact ⟨q, rfl, by simpa using this⟩

/-- the rotation deviations: those of the orientations `κQR` after conversion -/
theorem exact_rotations {lib : MetricLib ℝ R} (hl : RightLib lib) (hL : IsRotLib lib.mat.rot)
    (hslerp : SlerpEnds lib.mat.rot) (hzero : lib.mat.rot.toMat (lib.fromEuler 0) = 1) (c : Nat) {s : ProcSettings ℝ}
    (hs : PlainSettings s) {T U : Traj ℝ R} (hT : Coherent T) (hU : Coherent U) {Q : M3 ℝ} (hQ : IsRot Q) {κ : ℝ}
    (hκ : 0 < κ) {b : V3 ℝ} (hcopy : MovedCopy Q κ b T U) (hasc : StrictAsc T.tstamps) (hspread : Spread T.pos)
    (hnt : Neutral s.align.est b (lib.init.euler Q) κ)
    (hsens : s.align.est.sensorRotation = false ∨ T.rot = none ∨ U.rot = none)
    (hg : Q 2 0 ^ 2 ≠ 1 ∨ s.align.est.rotX = false ∨ s.align.est.rotZ = false)
    {us : List R} (hu : U.rot = some us)
    {h : Heap ℝ R} {gt est : Nat} (hest : h[est]? = some T) (hgt : h[gt]? = some U) (hne : est ≠ gt) :
    ∃ r a h' ds, Returns (H.ate lib c s gt est) h (some (r, a)) h' ∧ r.rotDev = some ds ∧ ds.length = T.pos.length ∧
      ∀ (k : Nat) d u, ds[k]? = some d → us[k]? = some u →
        (T.rot = none → lib.mat.rot.toMat d = lib.mat.rot.toMat u *
          (lib.mat.rot.toMat (lib.mat.rot.fromMat (κ • Q))).transpose) ∧
        ∀ rs q, T.rot = some rs → rs[k]? = some q → lib.mat.rot.toMat d = lib.mat.rot.toMat u *
          (lib.mat.rot.toMat (lib.mat.rot.fromMat (κ • (Q * lib.mat.rot.toMat q)))).transpose := by
  obtain ⟨r, a, h', h1, h2, -, -, h5, T1, hT1, hm, ht1, hr1, h6⟩ :=
    (ate_exact_cases hl c hs hT hU hQ hκ hcopy hasc hspread hnt hsens hest hgt hne).2 (by
      rintro ⟨e1, e2, e3⟩
      rcases hg with h1 | h1 | h1
      · exact h1 e1
      · rw [h1] at e2; cases e2
      · rw [h1] at e3; cases e3)
  have hrot : T1.rot = T.rot := hr1 hslerp
  rw [hu, Option.map_some] at h6
  have hsensor : lib.mat.rot.toMat (sensorOf lib a) = 1 := by
    have : sensorOf lib a = lib.fromEuler 0 := by
      unfold sensorOf
      rw [h5]
      rfl
    rw [this, hzero]
  refine ⟨r, a, h', _, h1, h6, ?_, ?_⟩
  · have e1 := hU.rot us hu
    have e2 := samples_length hT1
    have e3 := hT.pos
    rw [ht1] at e2
    rw [hcopy.times] at e1
    rw [List.length_zipWith, e1, e2, e3, min_self]
  · intro k d u hd hk
    rw [List.getElem?_zipWith, hk] at hd
    rcases hsk : (samples T1)[k]? with _ | x
    · rw [hsk] at hd; simp at hd
    rw [hsk] at hd
    simp only [Option.some.injEq] at hd
    have hd' : lib.mat.rot.toMat d = lib.mat.rot.toMat u * (lib.mat.rot.toMat (lib.mat.rot.fromMat
        ((κ • Q) * (match x.r with | some o => lib.mat.rot.toMat o | none => 1)))).transpose := by
      rw [← hd, hL.toMat_mul, hL.toMat_inv, alignedRot, hL.toMat_mul, hsensor, one_mul, h2, hl.trig]
      simp only [hl.angles Q hQ]
      rcases x.r with _ | _ <;> rfl
    refine ⟨fun hn => ?_, fun rs q hrs hq => ?_⟩
    · rw [← hrot] at hn
      have : x.r = none := by
        have := congrArg (fun l => l[k]?) (samples_map_r hT1)
        simp only [List.getElem?_map, hsk, hn, rotColumn, Option.map_some, List.getElem?_replicate] at this
        split_ifs at this
        simpa using this
      rw [hd', this, mul_one]
    · obtain ⟨q', hq1, hq2⟩ := samples_rot_exact hT1 (by rw [hrot]; exact hrs) hsk
      rw [hq] at hq1
      obtain rfl := Option.some.inj hq1
      rw [hd', hq2, Matrix.smul_mul]

/-- **C132**, orientations, positive part: if the ground truth is the estimated trajectory turned and shifted (scale 1),
with its orientations turned by the same rotation, every rotation deviation is the identity. -/
theorem C132_orientations_partial {lib : MetricLib ℝ R} (hl : RightLib lib) (hL : IsRotLib lib.mat.rot)
    (hslerp : SlerpEnds lib.mat.rot) (hzero : lib.mat.rot.toMat (lib.fromEuler 0) = 1) (c : Nat) {s : ProcSettings ℝ}
    (hs : PlainSettings s) {T U : Traj ℝ R} (hT : Coherent T) (hU : Coherent U) {Q : M3 ℝ} (hQ : IsRot Q)
    {b : V3 ℝ} (hcopy : MovedCopy Q 1 b T U) (hasc : StrictAsc T.tstamps) (hspread : Spread T.pos)
    (hnt : Neutral s.align.est b (lib.init.euler Q) 1) (hsens : s.align.est.sensorRotation = false)
    (hg : Q 2 0 ^ 2 ≠ 1 ∨ s.align.est.rotX = false ∨ s.align.est.rotZ = false)
    {rs us : List R} (hr : T.rot = some rs) (hu : U.rot = some us) (hturn : TurnedBy lib.mat.rot Q rs us)
    {h : Heap ℝ R} {gt est : Nat} (hest : h[est]? = some T) (hgt : h[gt]? = some U) (hne : est ≠ gt) :
    ∃ r a h' ds, Returns (H.ate lib c s gt est) h (some (r, a)) h' ∧ r.rotDev = some ds ∧ ds.length = T.pos.length ∧
      ∀ d ∈ ds, lib.mat.rot.toMat d = 1 := by
  obtain ⟨r, a, h', ds, h1, h2, h3, h4⟩ := exact_rotations hl hL hslerp hzero c hs hT hU hQ one_pos hcopy hasc hspread hnt
    (.inl hsens) hg hu hest hgt hne
  refine ⟨r, a, h', ds, h1, h2, h3, fun d hd => ?_⟩
  obtain ⟨k, hk, rfl⟩ := List.getElem_of_mem hd
  have hkr : k < rs.length := by rw [hT.rot rs hr, ← hT.pos, ← h3]; exact hk
  have hku : k < us.length := by
    have := congrArg List.length hturn
    simp only [List.length_map] at this
    omega
  rw [((h4 k ds[k] us[k] (List.getElem?_eq_getElem hk) (List.getElem?_eq_getElem hku)).2 rs rs[k] hr
    (List.getElem?_eq_getElem hkr)), one_smul, hL.toMat_fromMat _ (hQ.mul (hL.rot _))]
  have := congrArg (fun l => l[k]?) hturn
  simp only [List.getElem?_map, List.getElem?_eq_getElem hku, List.getElem?_eq_getElem hkr, Option.map_some,
    Option.some.injEq] at this
  rw [this]
  exact (hQ.mul (hL.rot _)).1

/-- **C132**, orientations, negation: with any other scale, the deviation of a sample is the identity only if the true
orientation is the identity or a half turn about a coordinate axis; scipy's conversion of matrices to quaternions
(`hM`) is applied to scaled matrices. -/
theorem C132_scaled_orientations_deviate {lib : MetricLib ℝ R} (hl : RightLib lib) (hL : IsRotLib lib.mat.rot)
    (hM : ∀ M, lib.mat.rot.toMat (lib.mat.rot.fromMat M) = quatMat (markley M))
    (hslerp : SlerpEnds lib.mat.rot) (hzero : lib.mat.rot.toMat (lib.fromEuler 0) = 1) (c : Nat) {s : ProcSettings ℝ}
    (hs : PlainSettings s) {T U : Traj ℝ R} (hT : Coherent T) (hU : Coherent U) {Q : M3 ℝ} (hQ : IsRot Q)
    {κ : ℝ} (hκ : 0 < κ) (hκ1 : κ ≠ 1)
    {b : V3 ℝ} (hcopy : MovedCopy Q κ b T U) (hasc : StrictAsc T.tstamps) (hspread : Spread T.pos)
    (hnt : Neutral s.align.est b (lib.init.euler Q) κ) (hsens : s.align.est.sensorRotation = false)
    (hg : Q 2 0 ^ 2 ≠ 1 ∨ s.align.est.rotX = false ∨ s.align.est.rotZ = false)
    {rs us : List R} (hr : T.rot = some rs) (hu : U.rot = some us) (hturn : TurnedBy lib.mat.rot Q rs us)
    {h : Heap ℝ R} {gt est : Nat} (hest : h[est]? = some T) (hgt : h[gt]? = some U) (hne : est ≠ gt) :
    ∃ r a h' ds, Returns (H.ate lib c s gt est) h (some (r, a)) h' ∧ r.rotDev = some ds ∧ ds.length = T.pos.length ∧
      ∀ (k : Nat) d u, ds[k]? = some d → us[k]? = some u → (lib.mat.rot.toMat d = 1 ↔
        lib.mat.rot.toMat u ∈ [!![1, 0, 0; 0, 1, 0; 0, 0, 1], !![1, 0, 0; 0, -1, 0; 0, 0, -1],
            !![-1, 0, 0; 0, 1, 0; 0, 0, -1], (!![-1, 0, 0; 0, -1, 0; 0, 0, 1] : M3 ℝ)]) := by
  obtain ⟨r, a, h', ds, h1, h2, h3, h4⟩ := exact_rotations hl hL hslerp hzero c hs hT hU hQ hκ hcopy hasc hspread hnt
    (.inl hsens) hg hu hest hgt hne
  refine ⟨r, a, h', ds, h1, h2, h3, fun k d u hd hk => ?_⟩
  have hkd : k < ds.length := (List.getElem?_eq_some_iff.1 hd).1
  have hkr : k < rs.length := by rw [hT.rot rs hr, ← hT.pos, ← h3]; exact hkd
  have hq : lib.mat.rot.toMat u = Q * lib.mat.rot.toMat rs[k] := by
    have := congrArg (fun l => l[k]?) hturn
    simpa only [List.getElem?_map, hk, List.getElem?_eq_getElem hkr, Option.map_some, Option.some.injEq] using this
  have hd' := (h4 k d u hd hk).2 rs rs[k] hr (List.getElem?_eq_getElem hkr)
  rw [← hq] at hd'
  have hur := hL.rot u
  have hxr := hL.rot (lib.mat.rot.fromMat (κ • lib.mat.rot.toMat u))
  have hsc := markley_scaled hur hκ hκ1
  rw [← hM] at hsc
  have key : lib.mat.rot.toMat d = 1 ↔ lib.mat.rot.toMat (lib.mat.rot.fromMat (κ • lib.mat.rot.toMat u)) =
      lib.mat.rot.toMat u := by
    rw [hd']
    constructor
    · intro e
      have := congrArg (· * lib.mat.rot.toMat (lib.mat.rot.fromMat (κ • lib.mat.rot.toMat u))) e
      simp only [Matrix.mul_assoc, mul_eq_one_comm.1 hxr.1, Matrix.mul_one, Matrix.one_mul] at this
      exact this.symm
    · intro e
      rw [e]
      exact hur.1
  rw [key, hsc, isDiag3_iff hur]
  simp only [List.mem_cons, List.not_mem_nil, or_false]

/-- **C132** and a missing orientation: an estimated trajectory without orientations nevertheless gets rotation
deviations, those of the rotation of the alignment from the orientations of the ground truth. -/
theorem C132_missing_orientations_compared {lib : MetricLib ℝ R} (hl : RightLib lib) (hL : IsRotLib lib.mat.rot)
    (hslerp : SlerpEnds lib.mat.rot) (hzero : lib.mat.rot.toMat (lib.fromEuler 0) = 1) (c : Nat) {s : ProcSettings ℝ}
    (hs : PlainSettings s) {T U : Traj ℝ R} (hT : Coherent T) (hU : Coherent U) {Q : M3 ℝ} (hQ : IsRot Q)
    {b : V3 ℝ} (hcopy : MovedCopy Q 1 b T U) (hasc : StrictAsc T.tstamps) (hspread : Spread T.pos)
    (hnt : Neutral s.align.est b (lib.init.euler Q) 1)
    (hg : Q 2 0 ^ 2 ≠ 1 ∨ s.align.est.rotX = false ∨ s.align.est.rotZ = false)
    {us : List R} (hr : T.rot = none) (hu : U.rot = some us)
    {h : Heap ℝ R} {gt est : Nat} (hest : h[est]? = some T) (hgt : h[gt]? = some U) (hne : est ≠ gt) :
    ∃ r a h' ds, Returns (H.ate lib c s gt est) h (some (r, a)) h' ∧ r.rotDev = some ds ∧ ds.length = T.pos.length ∧
      ∀ (k : Nat) d u, ds[k]? = some d → us[k]? = some u →
        lib.mat.rot.toMat d = lib.mat.rot.toMat u * Q.transpose := by
  obtain ⟨r, a, h', ds, h1, h2, h3, h4⟩ := exact_rotations hl hL hslerp hzero c hs hT hU hQ one_pos hcopy hasc hspread hnt
    (.inr (.inl hr)) hg hu hest hgt hne
  refine ⟨r, a, h', ds, h1, h2, h3, fun k d u hd hk => ?_⟩
  rw [(h4 k d u hd hk).1 hr, one_smul, hL.toMat_fromMat _ hQ]

/-! ### the hypotheses can be met -/

/-- `exactMetricLib` with the product, the inverse and the conversions of rotations -/
noncomputable def exactRotLib : MetricLib ℝ RotMat :=
  { exactMetricLib with mat := { exactMetricLib.mat with rot := matLib (fun a b t => if t = 1 then b else a) } }

theorem exactRotLib_right : RightLib exactRotLib :=
  { exactMetricLib_right with }

theorem exactRotLib_facts : IsRotLib exactRotLib.mat.rot ∧ SlerpEnds exactRotLib.mat.rot ∧
    exactRotLib.mat.rot.toMat (exactRotLib.fromEuler 0) = 1 ∧
    ∀ M, exactRotLib.mat.rot.toMat (exactRotLib.mat.rot.fromMat M) = quatMat (markley M) :=
  ⟨matLib_isRotLib _, ⟨fun a b => by simp [exactRotLib, matLib], fun a b => by simp [exactRotLib, matLib]⟩, rfl, fun _ => rfl⟩

/-- the tetrahedron, turned by a quarter about z and shifted, both with orientations; scale one and scale two -/
noncomputable def exTetraRot (κ : ℝ) (Q : RotMat) (b : V3 ℝ) : Traj ℝ RotMat :=
  { exTetra with pos := exTetra.pos.map (fun p => b + κ • mulV Q.1 p), rot := some [Q, Q, Q, Q] }
noncomputable def exTetraOne : Traj ℝ RotMat := { exTetra with rot := some (List.replicate 4 ⟨1, isRot_one⟩) }
noncomputable def exQuarter : RotMat := ⟨!![0, -1, 0; 1, 0, 0; 0, 0, 1], by
  constructor
  · ext i j
    fin_cases i <;> fin_cases j <;> simp [Matrix.mul_apply, Fin.sum_univ_three]
  · simp [Matrix.det_fin_three]⟩

theorem exTetraRot_facts (κ : ℝ) (Q : RotMat) (b : V3 ℝ) : Coherent exTetraOne ∧ Coherent (exTetraRot κ Q b) ∧
    MovedCopy Q.1 κ b exTetraOne (exTetraRot κ Q b) ∧ StrictAsc exTetraOne.tstamps ∧ Spread exTetraOne.pos ∧
    TurnedBy exactRotLib.mat.rot Q.1 (List.replicate 4 ⟨1, isRot_one⟩) [Q, Q, Q, Q] := by
  obtain ⟨h1, h2, h3, h4, h5⟩ := exTetra_facts Q.1 b
  refine ⟨⟨rfl, rfl, rfl, by rintro r ⟨⟩; rfl⟩, ⟨rfl, rfl, rfl, by rintro r ⟨⟩; rfl⟩, ⟨rfl, rfl⟩, h4, h5, ?_⟩
  simp [TurnedBy, exactRotLib, matLib, List.replicate]

/-- settings as usual, but the scale is estimated -/
noncomputable def exScaleToo (m : MatchingMethod) : ProcSettings ℝ :=
  { exDefaults m with align := { (exDefaults m).align with est := { scale := true } } }

/-- a quarter turn about z: no rotation deviations for scale one, ... -/
example (m : MatchingMethod) (hm : m = .interpolation ∨ m = .nearestTemporal) :
    ∃ r a h' ds, Returns (H.ate exactRotLib 0 (exDefaults m) 1 0) [exTetraOne, exTetraRot 1 exQuarter ⟨5, 6, 7⟩]
      (some (r, a)) h' ∧ r.rotDev = some ds ∧ ds.length = 4 ∧ ∀ d ∈ ds, exactRotLib.mat.rot.toMat d = 1 := by
  obtain ⟨h1, h2, h3, h4, h5, h6⟩ := exTetraRot_facts 1 exQuarter ⟨5, 6, 7⟩
  obtain ⟨f1, f2, f3, -⟩ := exactRotLib_facts
  exact C132_orientations_partial exactRotLib_right f1 f2 f3 0 (exDefaults_plain m hm) h1 h2 exQuarter.2 h3 h4 h5
    ⟨nofun, nofun, nofun, nofun, nofun, nofun, fun _ => rfl⟩ rfl (.inl (by simp [exQuarter])) rfl rfl h6 (h := [_, _])
    (est := 0) (gt := 1) rfl rfl (by decide)

/-- ... but for scale two every one deviates -/
example (m : MatchingMethod) (hm : m = .interpolation ∨ m = .nearestTemporal) :
    ∃ r a h' ds, Returns (H.ate exactRotLib 0 (exScaleToo m) 1 0) [exTetraOne, exTetraRot 2 exQuarter ⟨5, 6, 7⟩]
      (some (r, a)) h' ∧ r.rotDev = some ds ∧ ds.length = 4 ∧ ∀ d ∈ ds, exactRotLib.mat.rot.toMat d ≠ 1 := by
  obtain ⟨h1, h2, h3, h4, h5, h6⟩ := exTetraRot_facts 2 exQuarter ⟨5, 6, 7⟩
  obtain ⟨f1, f2, f3, f4⟩ := exactRotLib_facts
  have hp := exDefaults_plain m hm
  obtain ⟨r, a, h', ds, e1, e2, e3, e4⟩ := C132_scaled_orientations_deviate exactRotLib_right f1 f4 f2 f3 0
    (s := exScaleToo m) ⟨⟨hp.noFilter.1, rfl, rfl⟩, ⟨.inl rfl, rfl, rfl, rfl, rfl⟩, hp.given, hp.stdXyFrom, hp.stdZFrom, hp.stdXyTo, hp.stdZTo,
      hp.metric, hp.time, hp.inTime⟩ h1 h2 exQuarter.2 two_pos (by norm_num) h3 h4 h5
    ⟨nofun, nofun, nofun, nofun, nofun, nofun, nofun⟩ rfl (.inl (by simp [exQuarter])) rfl rfl h6 (h := [_, _])
    (est := 0) (gt := 1) rfl rfl (by decide)
  refine ⟨r, a, h', ds, e1, e2, e3, fun d hd => ?_⟩
  obtain ⟨k, hk, rfl⟩ := List.getElem_of_mem hd
  have hk4 : k < 4 := by rw [e3] at hk; exact hk
  have hu : ([exQuarter, exQuarter, exQuarter, exQuarter] : List RotMat)[k]? = some exQuarter := by
    interval_cases k <;> rfl
  rw [Ne, e4 k _ _ (List.getElem?_eq_getElem hk) hu]
  intro hc
  have h01 : (exQuarter.1 : M3 ℝ) 1 0 = 1 := by simp [exQuarter]
  have hc' : (exQuarter.1 : M3 ℝ) ∈ [!![1, 0, 0; 0, 1, 0; 0, 0, 1], !![1, 0, 0; 0, -1, 0; 0, 0, -1],
    !![-1, 0, 0; 0, 1, 0; 0, 0, -1], (!![-1, 0, 0; 0, -1, 0; 0, 0, 1] : M3 ℝ)] := hc
  simp only [List.mem_cons, List.not_mem_nil, or_false] at hc'
  rcases hc' with e | e | e | e <;> rw [e] at h01 <;> simp at h01

end TC
