import Verif.Proofs.Eval
import Verif.Proofs.Sort
import Verif.Proofs.Cubic
/-!
Pose pairs and relative poses.
-/
namespace TC
set_option linter.unusedSectionVars false
variable {K R : Type} [Field K] [LinearOrder K] [IsStrictOrderedRing K]

/-! ### pairs -/

theorem searchLeft_first {D : List K} (hD : D.Pairwise (· ≤ ·)) {x : K} {l : K}
    (hl : D.getLast? = some l) (hx : x ≤ l) :
    ∃ h : searchLeft D x < D.length, x ≤ D[searchLeft D x] ∧
      ∀ (k : Nat) (hk : k < D.length), k < searchLeft D x → D[k] < x := by
  have hne : D ≠ [] := by rintro rfl; simp at hl
  have hlen := List.length_pos_of_ne_nil hne
  have hl' : D[D.length - 1]'(by omega) = l := by
    rw [List.getLast?_eq_getElem?, List.getElem?_eq_getElem (by omega)] at hl
    exact Option.some.inj hl
  have h1 : searchLeft D x < D.length := by
    have h2 := (searchLeft_lt_iff hD x (i := D.length - 1) (by omega)).1
    by_contra hc
    have := h2 (by omega)
    rw [hl'] at this
    exact absurd hx (not_le.2 this)
  refine ⟨h1, ?_, fun k hk hkj => (searchLeft_lt_iff hD x hk).1 hkj⟩
  by_contra hc
  exact absurd ((searchLeft_lt_iff hD x h1).2 (not_le.1 hc)) (lt_irrefl _)

variable [FloorRing K]

theorem flatten_map_ite {α β : Type} (p : α → Prop) [DecidablePred p] (g : α → β) (l : List α) :
    (l.map (fun a => if p a then [g a] else [])).flatten = (l.filter (fun a => decide (p a))).map g := by
  induction l with
  | nil => rfl
  | cons a l ih =>
    by_cases h : p a <;> simp [h, ih]

theorem pairIndices_all {D : List K} {l : K} (hl : D.getLast? = some l) (d : K) :
    pairIndices D true d = .ok ((D.zipIdx.filter (fun c => decide (c.1 + d < l))).map
      (fun c => (c.2, searchLeft D (c.1 + d)))) := by
  have hne : D ≠ [] := by rintro rfl; simp at hl
  have hl' : pyLast D = .ok l := by
    rw [pyLast_ne hne]
    rw [List.getLast?_eq_some_getLast hne] at hl
    rw [Option.some.inj hl]
  unfold pairIndices
  rw [if_pos rfl, mapE_ok (g := fun c : K × Nat => if c.1 + d < l then [(c.2, c.1 + d)] else [])]
  · simp only [bind, Except.bind, pure, Except.pure]
    rw [flatten_map_ite (p := fun c : K × Nat => c.1 + d < l) (g := fun c => (c.2, c.1 + d)),
      List.map_map]
    rfl
  · intro c _
    rw [hl']
    rfl

theorem pairIndices_all_mem {D : List K} {l : K} (hl : D.getLast? = some l) {d : K}
    {ps : List (Nat × Nat)} (h : pairIndices D true d = .ok ps) (i j : Nat) :
    (i, j) ∈ ps ↔ ∃ a, D[i]? = some a ∧ a + d < l ∧ j = searchLeft D (a + d) := by
  rw [pairIndices_all hl] at h
  injection h with h
  rw [← h]
  simp only [List.mem_map, List.mem_filter, decide_eq_true_eq, Prod.exists, Prod.mk.injEq,
    List.mem_zipIdx_iff_getElem?]
  constructor
  · rintro ⟨a, b, ⟨h1, h2⟩, rfl, rfl⟩
    exact ⟨a, h1, h2, rfl⟩
  · rintro ⟨a, h1, h2, rfl⟩
    exact ⟨a, i, ⟨h1, h2⟩, rfl, rfl⟩

/-- the marks of the consecutive mode -/
def marks (f l d : K) : List K :=
  (List.range (arangeLen f l d)).map (fun i : Nat => f + (i : K) * d)

theorem arange_eq (f l : K) {d : K} (hd : d ≠ 0) : arange f l d = .ok (marks f l d) := by
  simp [arange, hd, marks]

theorem lt_arangeLen_iff (f l : K) {d : K} (hd : 0 < d) (k : Nat) :
    k < arangeLen f l d ↔ f + (k : K) * d < l := by
  unfold arangeLen
  rw [Int.lt_toNat, Int.lt_ceil, lt_div_iff₀ hd]
  push_cast
  constructor <;> intro h <;> linarith

theorem pairIndices_steps {D : List K} {f l : K} (hf : D.head? = some f) (hl : D.getLast? = some l)
    {d : K} (hd : d ≠ 0) :
    pairIndices D false d = .ok (((marks f l d).map (searchLeft D)).dropLast.zip
      ((marks f l d).map (searchLeft D)).tail) := by
  have hne : D ≠ [] := by rintro rfl; simp at hl
  have hl' : pyLast D = .ok l := by
    rw [pyLast_ne hne]
    rw [List.getLast?_eq_some_getLast hne] at hl
    rw [Option.some.inj hl]
  have hf' : pyFirst D = .ok f := by
    rw [pyFirst_ne hne]
    rw [List.head?_eq_some_head hne] at hf
    rw [Option.some.inj hf]
  unfold pairIndices
  rw [if_neg (by simp), hf', hl', ]
  simp only [bind, Except.bind, arange_eq f l hd]
  rfl

theorem pairIndices_steps_get {D : List K} {f l : K} (hf : D.head? = some f)
    (hl : D.getLast? = some l) {d : K} (hd : 0 < d) {ps : List (Nat × Nat)}
    (h : pairIndices D false d = .ok ps) (k : Nat) (c : Nat × Nat) :
    ps[k]? = some c ↔ f + ((k : K) + 1) * d < l ∧
      c = (searchLeft D (f + (k : K) * d), searchLeft D (f + ((k : K) + 1) * d)) := by
  rw [pairIndices_steps hf hl (ne_of_gt hd)] at h
  injection h with h
  rw [← h]
  have hlen : (marks f l d).length = arangeLen f l d := by simp [marks]
  rw [List.getElem?_zip_eq_some]
  have hk := lt_arangeLen_iff f l hd (k + 1)
  push_cast at hk
  constructor
  · rintro ⟨h1, h2⟩
    rw [List.getElem?_tail] at h2
    have hk1 : k + 1 < arangeLen f l d := by
      have := (List.getElem?_eq_some_iff.1 h2).1
      simpa [hlen] using this
    refine ⟨hk.1 hk1, ?_⟩
    rw [List.getElem?_dropLast, if_pos (by simp [hlen]; omega)] at h1
    simp only [marks, List.map_map, List.getElem?_map, List.getElem?_range (show k < arangeLen f l d by omega),
      List.getElem?_range hk1] at h1 h2
    simp only [Option.map_some, Option.some.injEq, Function.comp] at h1 h2
    refine Prod.ext h1.symm ?_
    rw [← h2]
    push_cast
    rfl
  · rintro ⟨h1, rfl⟩
    have hk1 := hk.2 h1
    constructor
    · rw [List.getElem?_dropLast, if_pos (by simp [hlen]; omega)]
      simp [marks, List.getElem?_range (show k < arangeLen f l d by omega)]
    · rw [List.getElem?_tail]
      simp [marks, List.getElem?_range hk1]

/-! ### relative poses -/
omit [FloorRing K]

theorem se3Inv_mul_self {P : M4 K} (hP : IsRigid P) : se3Inv P * P = 1 := by
  have h1 := mul_eq_one_comm.1 hP.rot.1
  have hr : IsRigid (se3Inv P) := mkPose_isRigid hP.rot.transpose _
  have e : IsRigid (se3Inv P * P) := hr.mul hP
  rw [e.eq_mkPose]
  conv_lhs => rw [hP.eq_mkPose]
  rw [poseRot_mul, posePos_mul]
  unfold se3Inv
  simp only [poseRot_mkPose, posePos_mkPose, h1, add_neg_cancel]
  exact (by rw [← poseRot_one (K := K), ← posePos_one (K := K)]; exact (isRigid_one).eq_mkPose.symm)

theorem se3Inv_isRigid {P : M4 K} (hP : IsRigid P) : IsRigid (se3Inv P) :=
  mkPose_isRigid hP.rot.transpose _

theorem se3Inv_eq_of_mul {P Q : M4 K} (hP : IsRigid P) (h : Q * P = 1) : se3Inv P = Q := by
  have h1 := se3Inv_mul_self hP
  have h2 : P * se3Inv P = 1 := mul_eq_one_comm.1 h1
  calc se3Inv P = Q * P * se3Inv P := by rw [h, one_mul]
    _ = Q := by rw [mul_assoc, h2, mul_one]

theorem se3Inv_mul {A P : M4 K} (hA : IsRigid A) (hP : IsRigid P) :
    se3Inv (A * P) = se3Inv P * se3Inv A := by
  apply se3Inv_eq_of_mul (hA.mul hP)
  rw [show se3Inv P * se3Inv A * (A * P) = se3Inv P * (se3Inv A * A) * P by simp only [mul_assoc],
    se3Inv_mul_self hA, mul_one, se3Inv_mul_self hP]

/-- the change of pose between two samples does not depend on the frame -/
theorem relative_pose_moved {A P Q : M4 K} (hA : IsRigid A) (hP : IsRigid P) :
    se3Inv (A * P) * (A * Q) = se3Inv P * Q := by
  rw [se3Inv_mul hA hP, mul_assoc, ← mul_assoc _ A Q, se3Inv_mul_self hA, one_mul]

theorem npGet_map {α β : Type} (f : α → β) (l : List α) (i : Int) :
    npGet (l.map f) i = (npGet l i).map f := by
  unfold npGet
  rw [List.length_map]
  rcases pyPos l.length i with _ | j
  · rfl
  · simp only [List.getElem?_map]
    rcases l[j]? with _ | a <;> rfl

theorem se3_rigid {L : RotLib K R} (hL : IsRotLib L) (T : Traj K R) : ∀ P ∈ T.se3 L, IsRigid P := by
  intro P hP
  unfold Traj.se3 at hP
  rcases hr : T.rot with _ | r
  · rw [hr] at hP
    obtain ⟨t, _, rfl⟩ := List.mem_map.1 hP
    exact mkPose_isRigid isRot_one _
  · rw [hr] at hP
    obtain ⟨i, hi, rfl⟩ := List.mem_iff_getElem.1 hP
    simp only [List.getElem_zipWith]
    exact mkPose_isRigid (hL.rot _) _

theorem se3_length {L : RotLib K R} {T : Traj K R} (hT : Coherent T) :
    (T.se3 L).length = T.tstamps.length := by
  unfold Traj.se3
  rcases hr : T.rot with _ | r
  · simp [hT.pos]
  · simp [hT.pos, hT.rot r hr]

theorem mul_mkPose {A : M4 K} (hA : IsRigid A) {M : M3 K} (hM : IsRot M) (t : V3 K) :
    A * mkPose M t = mkPose (poseRot A * M) (mulV (poseRot A) t + posePos A) := by
  have h := hA.mul (mkPose_isRigid hM t)
  rw [h.eq_mkPose, poseRot_mul, posePos_mul]

theorem npGet_mem {α : Type} {l : List α} {i : Int} {a : α} (h : npGet l i = .ok a) : a ∈ l := by
  rw [npGet_ok_iff] at h
  obtain ⟨j, _, hj⟩ := h
  exact List.mem_of_getElem? hj

end TC
