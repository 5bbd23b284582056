import Verif.Spec.Speeds
import Verif.Props.InterpMore
import Verif.Props.Transform
import Verif.Props.Construct
import Verif.Props.Utils
import Verif.Props.ReadFile
/-!
# C188: the speeds belong to the positions
-/
namespace TC
variable {K R : Type} [Field K] [LinearOrder K] [IsStrictOrderedRing K]
set_option linter.unusedSectionVars false

theorem new_speed {nrm : V3 K → K} {counter : Nat} {a : TrajArgs K R} {T : Traj K R} (h : Traj.new nrm counter a = .ok T)
    (hs : ∀ v, a.speed = some v → v.length ≠ a.pos.length) : gradient3d T.pos T.tstamps = .ok T.speed := by
  unfold Traj.new at h
  rcases e1 : a.rot with _ | r <;> rcases e2 : a.speed with _ | v <;> simp only [e1, e2] at h
  · obtain ⟨v, hv, h⟩ := ok_bind_inv h
    cases h
    exact hv
  · rw [if_neg (hs v e2)] at h
    obtain ⟨v, hv, h⟩ := ok_bind_inv h
    cases h
    exact hv
  · by_cases hr : r.length ≠ a.pos.length
    · rw [if_pos hr] at h
      cases h
    · rw [if_neg hr] at h
      obtain ⟨v, hv, h⟩ := ok_bind_inv h
      cases h
      exact hv
  · rw [if_neg (hs v e2)] at h
    by_cases hr : r.length ≠ a.pos.length
    · rw [if_pos hr] at h
      cases h
    · rw [if_neg hr] at h
      obtain ⟨v, hv, h⟩ := ok_bind_inv h
      cases h
      exact hv

/-- **C188**, after construction without speeds, or with a wrong number of them -/
theorem C188_constructed (nrm : V3 K → K) (counter : Nat) (a : TrajArgs K R)
    (hrot : ∀ r, a.rot = some r → r.length = a.pos.length) (hne : a.pos ≠ [])
    (hts : ∀ t, a.tstamps = some t → t.length = a.pos.length) (hs : ∀ v, a.speed = some v → v.length ≠ a.pos.length) :
    ∃ T, Traj.new nrm counter a = .ok T ∧ IsSpeed T.pos T.tstamps T.speed := by
  obtain ⟨T, h1, h2, h3, h4, h5, -⟩ := new_eq nrm counter a hrot hne hts
  have hl : a.pos.length = T.tstamps.length := by rw [← h3]; exact h2.pos
  obtain ⟨g, g1, g2, -, g4⟩ := C29_gradient_integrates a.pos T.tstamps hl hne
  refine ⟨T, h1, ?_⟩
  have hv : T.speed = g := by
    have := new_speed h1 hs
    rw [h3, g1] at this
    exact (Except.ok.inj this).symm
  rw [hv, h3]
  exact ⟨g2, g4⟩

/-- **C188**, after interpolation -/
theorem C188_interpolated (L : RotLib K R) {T T' : Traj K R} (hT : Coherent T) (hne : T.tstamps ≠ []) (ts : List K)
    (hret : Returns (Traj.interpolate L ts) T () T') (hne' : T'.tstamps ≠ []) : IsSpeed T'.pos T'.tstamps T'.speed := by
  obtain ⟨h1, -, h2⟩ := C06_interpolate_speeds L T T' hT hne ts hret hne'
  have hp : T'.pos.length = T'.tstamps.length := by
    have h0 : 0 < T.tstamps.length := List.length_pos_of_ne_nil hne
    obtain ⟨q, rfl⟩ : ∃ q, T' = interpDone T (cropReq T.tstamps h0 ts) q := by
      unfold Returns at hret
      rcases interpolate_cases L hT h0 ts with ⟨q, hq⟩ | ⟨e, he⟩
      · rw [hq] at hret; exact ⟨q, ((Prod.mk.inj hret).2).symm⟩
      · rw [he] at hret; simp at hret
    simp [interpDone, interpPos]
  exact ⟨h1.trans hp.symm, h2⟩

theorem leads_iff {pos : List (V3 K)} {ts : List K} {speed : List (V3 K)} (h : IsSpeed pos ts speed) (hasc : StrictAsc ts)
    (hl : pos.length = ts.length) {pos' : List (V3 K)} (hl' : pos'.length = pos.length) :
    IsSpeed pos' ts speed ↔ ∀ (i : Nat) p p' q q', pos[i]? = some p → pos[i + 1]? = some p' → pos'[i]? = some q → pos'[i + 1]? = some q' →
      q' - q = p' - p := by
  have key : ∀ i p p', pos[i]? = some p → pos[i + 1]? = some p' → ∃ t t', ts[i]? = some t ∧ ts[i + 1]? = some t' ∧ t ≠ t' := by
    intro i p p' h1 h2
    obtain ⟨hi, -⟩ := List.getElem?_eq_some_iff.1 h2
    have h3 : i + 1 < ts.length := by omega
    refine ⟨ts[i], ts[i + 1], List.getElem?_eq_getElem _, List.getElem?_eq_getElem _, ?_⟩
    exact (List.pairwise_iff_getElem.1 hasc i (i + 1) (by omega) h3 (by omega)).ne
  constructor
  · intro g i p p' q q' h1 h2 h3 h4
    obtain ⟨t, t', k1, k2, k3⟩ := key i p p' h1 h2
    obtain ⟨v, a1, a2⟩ := h.leads i p p' t t' h1 h2 k1 k2 k3
    obtain ⟨w, b1, b2⟩ := g.leads i q q' t t' h3 h4 k1 k2 k3
    rw [a1, Option.some.injEq] at b1
    subst b1
    rw [← a2, ← b2]
    simp
  · intro g
    refine ⟨h.length.trans hl'.symm, ?_⟩
    intro i q q' t t' h3 h4 k1 k2 k3
    obtain ⟨hi, -⟩ := List.getElem?_eq_some_iff.1 h4
    have e1 : pos[i]? = some pos[i] := List.getElem?_eq_getElem (by omega)
    have e2 : pos[i + 1]? = some pos[i + 1] := List.getElem?_eq_getElem (by omega)
    obtain ⟨v, a1, a2⟩ := h.leads i _ _ t t' e1 e2 k1 k2 k3
    refine ⟨v, a1, ?_⟩
    have := g i _ _ q q' e1 e2 h3 h4
    rw [← a2] at this
    have e : (t' - t) • v = q' - q := by rw [this]; abel
    rw [e]; abel

/-- **C188 is false of the code** after a transformation that turns or scales a step of the path: the speeds stay as they were,
so they belong to the new positions exactly if the linear part of the transformation leaves every step as it is.  (It does for
translations, which is what holds of the property.) -/
theorem C188_transformed_partial (L : RotLib K R) {T : Traj K R} (hT : Coherent T) (hne : T.tstamps ≠ []) (hasc : StrictAsc T.tstamps)
    (hv : IsSpeed T.pos T.tstamps T.speed) (A : M4 K) :
    ∃ T', Returns (Traj.applyTransformation L A) T () T' ∧ T'.pos = T.pos.map (fun p => mulV (poseRot A) p + posePos A) ∧
      T'.tstamps = T.tstamps ∧ T'.speed = T.speed ∧
      (IsSpeed T'.pos T'.tstamps T'.speed ↔
        ∀ (i : Nat) p p', T.pos[i]? = some p → T.pos[i + 1]? = some p' → mulV (poseRot A) (p' - p) = p' - p) := by
  refine ⟨_, applyTransformation_eq L hT hne A, rfl, rfl, rfl, ?_⟩
  rw [leads_iff hv hasc hT.pos (by simp)]
  have e : ∀ p p' : V3 K, mulV (poseRot A) p' + posePos A - (mulV (poseRot A) p + posePos A) = mulV (poseRot A) (p' - p) := by
    intro p p'
    ext <;> simp [mulV] <;> ring
  constructor
  · intro g i p p' h1 h2
    rw [← e]
    exact g i p p' _ _ h1 h2 (by rw [List.getElem?_map, h1]; rfl) (by rw [List.getElem?_map, h2]; rfl)
  · intro g i p p' q q' h1 h2 h3 h4
    rw [List.getElem?_map, h1] at h3
    rw [List.getElem?_map, h2] at h4
    cases h3; cases h4
    rw [e]
    exact g i p p' h1 h2

/-- **C188**, the size of the speed: a rigid motion keeps the length of every step, so the lengths of the speeds are those of the
moved trajectory although their directions are not. -/
theorem C188_rigid_speeds (nrm : V3 K → K) (hn : IsNorm nrm) (L : RotLib K R) {T : Traj K R} (hT : Coherent T) (hne : T.tstamps ≠ [])
    (hv : IsSpeed T.pos T.tstamps T.speed) {A : M4 K} (hA : IsRigid A) :
    ∃ T', Returns (Traj.applyTransformation L A) T () T' ∧
      ∀ (i : Nat) q q' t t', T'.pos[i]? = some q → T'.pos[i + 1]? = some q' → T'.tstamps[i]? = some t → T'.tstamps[i + 1]? = some t' →
        t < t' → ∃ v, T'.speed[i]? = some v ∧ (t' - t) * nrm v = nrm (q' - q) := by
  refine ⟨_, applyTransformation_eq L hT hne A, ?_⟩
  intro i q q' t t' h1 h2 h3 h4 hlt
  simp only [List.getElem?_map, Option.map_eq_some_iff] at h1 h2
  obtain ⟨p, p1, rfl⟩ := h1
  obtain ⟨p', p2, rfl⟩ := h2
  obtain ⟨v, a1, a2⟩ := hv.leads i p p' t t' p1 p2 h3 h4 hlt.ne
  refine ⟨v, a1, ?_⟩
  have e : mulV (poseRot A) p' + posePos A - (mulV (poseRot A) p + posePos A) = mulV (poseRot A) (p' - p) := by
    ext <;> simp [mulV] <;> ring
  have e2 : p' - p = (t' - t) • v := by rw [← a2]; abel
  rw [e, hn.mulV hA.rot, e2, hn.smul, abs_of_pos (sub_pos.2 hlt)]

theorem approximate_speed (argsort : List K → List Nat) (argsortN : List Nat → List Nat)
    (cubic : List K → List (V3 K) → Except Err (List (V3 K))) (rotAvg : List K → List R → Except Err (List R)) (T : Traj K R) :
    (Traj.approximate argsort argsortN cubic rotAvg T).2.speed = T.speed ∧
    (Traj.approximate argsort argsortN cubic rotAvg T).2.tstamps = T.tstamps := by
  unfold Traj.approximate
  simp only [SE.run_bind, SE.run_get, SE.run_lift, SE.run_modify]
  cases T.functionOf argsort with
  | error e => exact ⟨rfl, rfl⟩
  | ok f =>
    cases T.xyz argsort with
    | error e => exact ⟨rfl, rfl⟩
    | ok x =>
      simp only
      cases cubic f x with
      | error e => exact ⟨rfl, rfl⟩
      | ok xa =>
        simp only
        cases Traj.take xa (T.sortSwitchingIndex argsort argsortN) with
        | error e => exact ⟨rfl, rfl⟩
        | ok p =>
          simp only
          cases T.rot with
          | none => exact ⟨rfl, rfl⟩
          | some r =>
            simp only
            split_ifs
            · exact ⟨rfl, rfl⟩
            · simp only [SE.run_bind, SE.run_lift, SE.run_modify]
              generalize Traj.functionOf argsort _ = F
              cases F with
              | error e => exact ⟨rfl, rfl⟩
              | ok F =>
                simp only
                generalize Traj.take r _ = r1
                cases r1 with
                | error e => exact ⟨rfl, rfl⟩
                | ok r1 =>
                  simp only
                  cases rotAvg F r1 with
                  | error e => exact ⟨rfl, rfl⟩
                  | ok r2 =>
                    simp only
                    generalize Traj.take r2 _ = r3
                    cases r3 <;> exact ⟨rfl, rfl⟩

/-- **C188 is false of the code** after smoothing that changes a step of the path: the speeds stay as they were, so they belong to
the new positions exactly if all steps are as before. -/
theorem C188_approximated_partial (argsort : List K → List Nat) (argsortN : List Nat → List Nat)
    (cubic : List K → List (V3 K) → Except Err (List (V3 K))) (rotAvg : List K → List R → Except Err (List R)) {T T' : Traj K R}
    (hT : Coherent T) (hasc : StrictAsc T.tstamps) (hv : IsSpeed T.pos T.tstamps T.speed)
    (hret : Returns (Traj.approximate argsort argsortN cubic rotAvg) T () T') (hl : T'.pos.length = T.pos.length) :
    IsSpeed T'.pos T'.tstamps T'.speed ↔ ∀ (i : Nat) p p' q q', T.pos[i]? = some p → T.pos[i + 1]? = some p' → T'.pos[i]? = some q →
      T'.pos[i + 1]? = some q' → q' - q = p' - p := by
  obtain ⟨h1, h2⟩ := approximate_speed argsort argsortN cubic rotAvg T
  unfold Returns at hret
  rw [hret] at h1 h2
  rw [h1, h2]
  exact leads_iff hv hasc hT.pos hl

/-- three samples along the first axis, at one metre per second -/
def exAlongX : Traj ℚ Unit :=
  { tstamps := [0, 1, 3], pos := [⟨0, 0, 0⟩, ⟨1, 0, 0⟩, ⟨3, 0, 0⟩], rot := none, arc := [0, 1, 3]
    speed := [⟨1, 0, 0⟩, ⟨1, 0, 0⟩, ⟨1, 0, 0⟩], sorting := .time, name := "line", epsg := 0 }

theorem exAlongX_facts : Coherent exAlongX ∧ StrictAsc exAlongX.tstamps ∧ IsSpeed exAlongX.pos exAlongX.tstamps exAlongX.speed := by
  have hT : Coherent exAlongX := ⟨rfl, rfl, rfl, by rintro r ⟨⟩⟩
  refine ⟨hT, by unfold StrictAsc exAlongX; decide +kernel, rfl, ?_⟩
  intro i p p' t t' h1 h2 h3 h4 _
  match i with
  | 0 => simp [exAlongX] at h1 h2 h3 h4; subst h1 h2 h3 h4; exact ⟨⟨1, 0, 0⟩, rfl, by decide +kernel⟩
  | 1 => simp [exAlongX] at h1 h2 h3 h4; subst h1 h2 h3 h4; exact ⟨⟨1, 0, 0⟩, rfl, by decide +kernel⟩
  | n + 2 => simp [exAlongX] at h2

/-- A quarter turn makes the speeds wrong, a translation leaves them right. -/
example (L : RotLib ℚ Unit) : ∃ T', Returns (Traj.applyTransformation L !![0, -1, 0, 0; 1, 0, 0, 0; 0, 0, 1, 0; 0, 0, 0, 1]) exAlongX () T' ∧
    ¬ IsSpeed T'.pos T'.tstamps T'.speed := by
  obtain ⟨h1, h2, h3⟩ := exAlongX_facts
  obtain ⟨T', a, -, -, -, b⟩ := C188_transformed_partial L h1 (by simp [exAlongX]) h2 h3 !![0, -1, 0, 0; 1, 0, 0, 0; 0, 0, 1, 0; 0, 0, 0, 1]
  refine ⟨T', a, ?_⟩
  rw [b]
  intro g
  have := g 0 ⟨0, 0, 0⟩ ⟨1, 0, 0⟩ rfl rfl
  revert this
  decide +kernel

example (L : RotLib ℚ Unit) : ∃ T', Returns (Traj.applyTransformation L !![1, 0, 0, 5; 0, 1, 0, 6; 0, 0, 1, 7; 0, 0, 0, 1]) exAlongX () T' ∧
    IsSpeed T'.pos T'.tstamps T'.speed := by
  obtain ⟨h1, h2, h3⟩ := exAlongX_facts
  obtain ⟨T', a, -, -, -, b⟩ := C188_transformed_partial L h1 (by simp [exAlongX]) h2 h3 !![1, 0, 0, 5; 0, 1, 0, 6; 0, 0, 1, 7; 0, 0, 0, 1]
  refine ⟨T', a, b.2 ?_⟩
  have e : poseRot (!![1, 0, 0, 5; 0, 1, 0, 6; 0, 0, 1, 7; 0, 0, 0, 1] : M4 ℚ) = 1 := by decide +kernel
  intro i p p' _ _
  rw [e]
  ext <;> simp [mulV]

end TC
