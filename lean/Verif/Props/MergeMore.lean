import Verif.Props.Merge
import Verif.Props.MoveSelect
/-!
# C204: merging in any order, in steps, before or after cropping and moving
-/
namespace TC
set_option linter.unusedSectionVars false
variable {K R : Type} [Field K] [LinearOrder K] [IsStrictOrderedRing K]

theorem poses_times {T : Traj K R} (h : Coherent T) : (poses T).map Prod.fst = T.tstamps := by
  unfold poses
  rw [List.map_map]
  exact samples_map_t h

/-- poses ordered by time are determined by which they are, if no two have the same time -/
theorem poses_unique {A B : Traj K R} (hA : Coherent A) (hB : Coherent B) (h1 : A.tstamps.Pairwise (· ≤ ·))
    (h2 : B.tstamps.Pairwise (· ≤ ·)) (hp : (poses A).Perm (poses B)) (hn : A.tstamps.Nodup) : poses A = poses B := by
  have strict : ∀ {T : Traj K R}, Coherent T → T.tstamps.Pairwise (· ≤ ·) → T.tstamps.Nodup →
      (poses T).Pairwise (fun x y => x.1 < y.1) := by
    intro T hT hs hn
    rw [← List.pairwise_map (f := Prod.fst) (R := (· < ·)), poses_times hT]
    exact (hs.and hn).imp (fun h => lt_of_le_of_ne h.1 h.2)
  have hnB : B.tstamps.Nodup := by
    rw [← poses_times hB]
    rw [← poses_times hA] at hn
    exact ((hp.map Prod.fst).nodup_iff).1 hn
  exact hp.eq_of_pairwise (fun a b _ _ h h' => absurd (h.trans h') (lt_irrefl _)) (strict hA h1 hn) (strict hB h2 hnB)

theorem filled_filled (one : R) (s : K × V3 K × Option R) : filled one (filled one s) = filled one s := rfl

theorem flatMap_poses_times {Ts : List (Traj K R)} (h : ∀ T ∈ Ts, Coherent T) :
    (Ts.flatMap poses).map Prod.fst = Ts.flatMap Traj.tstamps := by
  rw [List.map_flatMap]
  exact List.flatMap_congr (fun T hT => poses_times (h T hT))

theorem merged_times {L : RotLib K R} {Ts : List (Traj K R)} {M : Traj K R} (hM : Coherent M) (h : ∀ T ∈ Ts, Coherent T)
    (h1 : AnyRot Ts → M.rot.isSome = true ∧ (poses M).Perm ((Ts.flatMap poses).map (filled L.one)))
    (h2 : ¬ AnyRot Ts → M.rot = none ∧ (poses M).Perm (Ts.flatMap poses)) : M.tstamps.Perm (Ts.flatMap Traj.tstamps) := by
  rw [← poses_times hM, ← flatMap_poses_times h]
  by_cases ha : AnyRot Ts
  · refine ((h1 ha).2.map Prod.fst).trans ?_
    rw [List.map_map]
    exact List.Perm.of_eq (List.map_congr_left fun _ _ => rfl)
  · exact (h2 ha).2.map Prod.fst

/-- **C204**, order: if no two samples have the same time, merging the same trajectories listed in another order
gives the same poses in the same order. -/
theorem C204_order (L : RotLib K R) (nrm : V3 K → K) {argsort : List K → List Nat} (hs : IsArgsort argsort)
    (pop : List Int → Int) {Ts Us : List (Traj K R)} (hp : Ts.Perm Us) (hne : Ts ≠ [])
    (h : ∀ T ∈ Ts, Coherent T ∧ T.tstamps ≠ []) (hn : (Ts.flatMap Traj.tstamps).Nodup) :
    ∃ M N, mergeTrajectories L nrm argsort pop Ts = .ok M ∧ mergeTrajectories L nrm argsort pop Us = .ok N ∧
      poses M = poses N := by
  have hU : ∀ T ∈ Us, Coherent T ∧ T.tstamps ≠ [] := fun T hT => h T (hp.mem_iff.2 hT)
  obtain ⟨M, m1, m2, m3, m4, m5⟩ := C44_merge_keeps_samples_and_sorts L nrm hs pop hne h
  obtain ⟨N, n1, n2, n3, n4, n5⟩ := C44_merge_keeps_samples_and_sorts L nrm hs pop
    (fun hc => hne (by rw [hc] at hp; exact hp.eq_nil)) hU
  have hany : AnyRot Ts ↔ AnyRot Us := exists_congr fun T => and_congr_left fun _ => hp.mem_iff
  have hflat : (Ts.flatMap poses).Perm (Us.flatMap poses) := hp.flatMap_right _
  have hMn : M.tstamps.Nodup := (merged_times m2 (fun T hT => (h T hT).1) m4 m5).nodup_iff.2 hn
  refine ⟨M, N, m1, n1, poses_unique m2 n2 m3 n3 ?_ hMn⟩
  by_cases ha : AnyRot Ts
  · exact (m4 ha).2.trans ((hflat.map _).trans (n4 (hany.1 ha)).2.symm)
  · exact (m5 ha).2.trans (hflat.trans (n5 (fun hc => ha (hany.2 hc))).2.symm)

/-- **C204**, steps: merging groups of trajectories first and then the results gives the same poses as merging
all trajectories at once. -/
theorem C204_steps (L : RotLib K R) (nrm : V3 K → K) {argsort : List K → List Nat} (hs : IsArgsort argsort)
    (pop : List Int → Int) {groups : List (List (Traj K R))} (hne : groups ≠ []) (hg : ∀ Ts ∈ groups, Ts ≠ [])
    (h : ∀ Ts ∈ groups, ∀ T ∈ Ts, Coherent T ∧ T.tstamps ≠ []) (hn : (groups.flatten.flatMap Traj.tstamps).Nodup) :
    ∃ Ms M N, List.Forall₂ (fun Ts M => mergeTrajectories L nrm argsort pop Ts = .ok M) groups Ms ∧
      mergeTrajectories L nrm argsort pop Ms = .ok M ∧ mergeTrajectories L nrm argsort pop groups.flatten = .ok N ∧
      poses M = poses N := by
  have parts : ∀ (groups : List (List (Traj K R))), (∀ Ts ∈ groups, Ts ≠ []) →
      (∀ Ts ∈ groups, ∀ T ∈ Ts, Coherent T ∧ T.tstamps ≠ []) →
      ∃ Ms, List.Forall₂ (fun Ts M => mergeTrajectories L nrm argsort pop Ts = .ok M) groups Ms ∧
        (∀ M ∈ Ms, Coherent M ∧ M.tstamps ≠ []) ∧ (AnyRot Ms ↔ AnyRot groups.flatten) ∧
        ((Ms.flatMap poses).map (filled L.one)).Perm ((groups.flatten.flatMap poses).map (filled L.one)) ∧
        (¬ AnyRot Ms → (Ms.flatMap poses).Perm (groups.flatten.flatMap poses)) := by
    intro groups
    induction groups with
    | nil =>
      intro _ _
      exact ⟨[], .nil, by simp, Iff.rfl, List.Perm.refl _, fun _ => List.Perm.refl _⟩
    | cons Ts groups ih =>
      intro hg h
      obtain ⟨Ms, k1, k2, k3, k4, k5⟩ := ih (fun U hU => hg U (by simp [hU])) (fun U hU => h U (by simp [hU]))
      have hT := h Ts (by simp)
      obtain ⟨M, m1, m2, m3, m4, m5⟩ := C44_merge_keeps_samples_and_sorts L nrm hs pop (hg Ts (by simp)) hT
      have hperm := merged_times m2 (fun T hT' => (hT T hT').1) m4 m5
      have hMne : M.tstamps ≠ [] := by
        intro hc
        rw [hc] at hperm
        obtain ⟨T, Ts', rfl⟩ := List.exists_cons_of_ne_nil (hg Ts (by simp))
        have := hperm.symm.eq_nil
        rw [List.flatMap_cons, List.append_eq_nil_iff] at this
        exact (hT T (by simp)).2 this.1
      have hMr : M.rot.isSome = true ↔ AnyRot Ts := by
        by_cases ha : AnyRot Ts
        · simp [ha, (m4 ha).1]
        · simp [ha, (m5 ha).1]
      have hfill : ((poses M).map (filled L.one)).Perm ((Ts.flatMap poses).map (filled L.one)) := by
        by_cases ha : AnyRot Ts
        · refine ((m4 ha).2.map _).trans ?_
          rw [List.map_map]
          exact List.Perm.of_eq (List.map_congr_left fun _ _ => rfl)
        · exact (m5 ha).2.map _
      have hcons : ∀ (X : Traj K R) (Xs : List (Traj K R)), AnyRot (X :: Xs) ↔ X.rot.isSome = true ∨ AnyRot Xs := by
        intro X Xs
        simp [AnyRot]
      have happ : ∀ (Xs Ys : List (Traj K R)), AnyRot (Xs ++ Ys) ↔ AnyRot Xs ∨ AnyRot Ys := by
        intro Xs Ys
        simp only [AnyRot, List.mem_append, or_and_right, exists_or]
      refine ⟨M :: Ms, .cons m1 k1, ?_, ?_, ?_, ?_⟩
      · intro X hX
        rcases List.mem_cons.1 hX with rfl | hX
        · exact ⟨m2, hMne⟩
        · exact k2 X hX
      · rw [hcons, hMr, k3, List.flatten_cons, happ]
      · rw [List.flatMap_cons, List.flatten_cons, List.flatMap_append, List.map_append, List.map_append]
        exact hfill.append k4
      · intro ha
        rw [hcons, not_or, hMr] at ha
        rw [List.flatMap_cons, List.flatten_cons, List.flatMap_append]
        exact (m5 ha.1).2.append (k5 ha.2)
  obtain ⟨Ms, k1, k2, k3, k4, k5⟩ := parts groups hg h
  have hMsne : Ms ≠ [] := by
    rintro rfl
    cases k1
    exact hne rfl
  have hflat : ∀ T ∈ groups.flatten, Coherent T ∧ T.tstamps ≠ [] := by
    intro T hT
    obtain ⟨Ts, h1, h2⟩ := List.mem_flatten.1 hT
    exact h Ts h1 T h2
  have hfne : groups.flatten ≠ [] := by
    obtain ⟨Ts, gs, rfl⟩ := List.exists_cons_of_ne_nil hne
    rw [List.flatten_cons]
    exact List.append_ne_nil_of_left_ne_nil (hg Ts (by simp)) _
  obtain ⟨M, m1, m2, m3, m4, m5⟩ := C44_merge_keeps_samples_and_sorts L nrm hs pop hMsne k2
  obtain ⟨N, n1, n2, n3, n4, n5⟩ := C44_merge_keeps_samples_and_sorts L nrm hs pop hfne hflat
  have hNn : N.tstamps.Nodup := (merged_times n2 (fun T hT => (hflat T hT).1) n4 n5).nodup_iff.2 hn
  refine ⟨Ms, M, N, k1, m1, n1, (poses_unique n2 m2 n3 m3 ?_ hNn).symm⟩
  by_cases ha : AnyRot Ms
  · exact (n4 (k3.1 ha)).2.trans (k4.symm.trans (m4 ha).2.symm)
  · exact (n5 (fun hc => ha (k3.2 hc))).2.trans ((k5 ha).symm.trans (m5 ha).2.symm)

/-! ### selecting and moving -/

/-- one of `crop` and `crop(inverse=True)` keeps the sample -/
def keepsTime (a b : K) (inverse : Bool) (t : K) : Bool := if inverse then !decide (a ≤ t ∧ t ≤ b) else decide (a ≤ t ∧ t ≤ b)

theorem poses_crop {a b : K} {inverse : Bool} {T C : Traj K R} (hT : Coherent T)
    (hC : Returns (Traj.crop a b inverse) T () C) : Coherent C ∧ C.rot.isSome = T.rot.isSome ∧
      poses C = (poses T).filter (fun s => keepsTime a b inverse s.1) := by
  obtain ⟨-, rfl, h1, h2⟩ := applyIndex_returns hT hC
  refine ⟨h1, h2.rot, ?_⟩
  unfold poses
  rw [samples_pickTraj hT]
  have e : (if inverse then T.tstamps.map (fun t => !decide (a ≤ t ∧ t ≤ b))
      else T.tstamps.map (fun t => decide (a ≤ t ∧ t ≤ b))) = T.tstamps.map (keepsTime a b inverse) := by
    cases inverse <;> rfl
  simp only [pick, e]
  conv_lhs => rw [← samples_map_t hT]
  rw [maskList_map_self, List.filter_map]
  rfl

theorem crop_exists {a b : K} {inverse : Bool} {T : Traj K R} (hT : Coherent T)
    (h : ∃ t ∈ T.tstamps, keepsTime a b inverse t = true) : ∃ C, Returns (Traj.crop a b inverse) T () C := by
  obtain ⟨t, h1, h2⟩ := h
  cases inverse with
  | false =>
    obtain ⟨C, hC, -⟩ := C03_crop_keeps_exactly_the_window T hT a b (.inr ⟨t, h1, by simpa [keepsTime] using h2⟩)
    exact ⟨C, hC⟩
  | true =>
    obtain ⟨C, hC, -⟩ := C03_crop_inverse_keeps_exactly_the_rest T hT a b
      (.inr ⟨t, h1, by simpa only [keepsTime, if_true, Bool.not_eq_true', decide_eq_false_iff_not] using h2⟩)
    exact ⟨C, hC⟩

/-- the samples of merged trajectories after the same change of each pose, and of the merged trajectory after it -/
theorem merge_changed (L : RotLib K R) (nrm : V3 K → K) {argsort : List K → List Nat} (hs : IsArgsort argsort)
    (pop : List Int → Int) {Ts Cs : List (Traj K R)} {M M' : Traj K R} (hne : Ts ≠ [])
    (h : ∀ T ∈ Ts, Coherent T ∧ T.tstamps ≠ []) (hC : ∀ T ∈ Cs, Coherent T ∧ T.tstamps ≠ [])
    (hlen : Cs.length = Ts.length) (hn : (Ts.flatMap Traj.tstamps).Nodup)
    (hM : mergeTrajectories L nrm argsort pop Ts = .ok M)
    (hM' : Coherent M') (change : List (K × V3 K × Option R) → List (K × V3 K × Option R))
    (hsub : (poses M').map Prod.fst |>.Sublist ((poses M).map Prod.fst))
    (hM'p : poses M' = change (poses M))
    (hperm : ∀ l l' : List (K × V3 K × Option R), l.Perm l' → (change l).Perm (change l'))
    (hany : AnyRot Ts → AnyRot Cs ∧ ((Cs.flatMap poses).map (filled L.one)).Perm (change ((Ts.flatMap poses).map (filled L.one))))
    (hnone : ¬ AnyRot Ts → (AnyRot Cs ∧ ((Cs.flatMap poses).map (filled L.one)).Perm (change (Ts.flatMap poses))) ∨
      (¬ AnyRot Cs ∧ (Cs.flatMap poses).Perm (change (Ts.flatMap poses)))) :
    ∃ N, mergeTrajectories L nrm argsort pop Cs = .ok N ∧ poses N = poses M' := by
  have hCne : Cs ≠ [] := by
    rintro rfl
    rw [List.length_nil] at hlen
    exact hne (List.length_eq_zero_iff.1 hlen.symm)
  obtain ⟨M2, m1, m2, m3, m4, m5⟩ := C44_merge_keeps_samples_and_sorts L nrm hs pop hne h
  obtain rfl : M2 = M := by rw [hM] at m1; exact (Except.ok.inj m1).symm
  obtain ⟨N, n1, n2, n3, n4, n5⟩ := C44_merge_keeps_samples_and_sorts L nrm hs pop hCne hC
  have hMn : M2.tstamps.Nodup := (merged_times m2 (fun T hT => (h T hT).1) m4 m5).nodup_iff.2 hn
  rw [poses_times hM', poses_times m2] at hsub
  have s1 : M'.tstamps.Pairwise (· ≤ ·) := m3.sublist hsub
  have s2 : M'.tstamps.Nodup := hMn.sublist hsub
  refine ⟨N, n1, (poses_unique hM' n2 s1 n3 ?_ s2).symm⟩
  rw [hM'p]
  by_cases ha : AnyRot Ts
  · obtain ⟨c1, c2⟩ := hany ha
    exact (hperm _ _ (m4 ha).2).trans (c2.symm.trans (n4 c1).2.symm)
  · rcases hnone ha with ⟨c1, c2⟩ | ⟨c1, c2⟩
    · exact (hperm _ _ (m5 ha).2).trans (c2.symm.trans (n4 c1).2.symm)
    · exact (hperm _ _ (m5 ha).2).trans (c2.symm.trans (n5 c1).2.symm)

theorem forall₂_mem_right {α β : Type} {P : α → β → Prop} {as : List α} {bs : List β} (h : List.Forall₂ P as bs)
    {b : β} (hb : b ∈ bs) : ∃ a ∈ as, P a b := by
  induction h with
  | nil => cases hb
  | cons h _ ih =>
    rcases List.mem_cons.1 hb with rfl | hb
    · exact ⟨_, List.mem_cons_self, h⟩
    · obtain ⟨a, ha, hp⟩ := ih hb
      exact ⟨a, List.mem_cons_of_mem _ ha, hp⟩

/-- **C204**, cropping: cropping every trajectory (so that each keeps a sample) and merging gives the same poses
as merging and cropping. -/
theorem C204_crop (L : RotLib K R) (nrm : V3 K → K) {argsort : List K → List Nat} (hs : IsArgsort argsort)
    (pop : List Int → Int) (a b : K) (inverse : Bool) {Ts Cs : List (Traj K R)} (hne : Ts ≠ [])
    (h : ∀ T ∈ Ts, Coherent T ∧ T.tstamps ≠ []) (hn : (Ts.flatMap Traj.tstamps).Nodup)
    (hC : List.Forall₂ (fun T C => Returns (Traj.crop a b inverse) T () C ∧ C.tstamps ≠ []) Ts Cs) :
    ∃ M M' N, mergeTrajectories L nrm argsort pop Ts = .ok M ∧ Returns (Traj.crop a b inverse) M () M' ∧
      mergeTrajectories L nrm argsort pop Cs = .ok N ∧ poses N = poses M' := by
  obtain ⟨M, m1, m2, m3, m4, m5⟩ := C44_merge_keeps_samples_and_sorts L nrm hs pop hne h
  have hCs : ∀ C ∈ Cs, Coherent C ∧ C.tstamps ≠ [] := by
    intro C hCm
    obtain ⟨T, hT, h1, h2⟩ := forall₂_mem_right hC hCm
    exact ⟨(poses_crop (h T hT).1 h1).1, h2⟩
  have hflat : Cs.flatMap poses = (Ts.flatMap poses).filter (fun s => keepsTime a b inverse s.1) := by
    clear hne hn m1 m4 m5 hCs
    induction hC with
    | nil => rfl
    | cons hTC _ ih =>
      rw [List.flatMap_cons, List.flatMap_cons, List.filter_append, (poses_crop (h _ (by simp)).1 hTC.1).2.2,
        ih (fun T hT => h T (by simp [hT]))]
  have hany : AnyRot Cs ↔ AnyRot Ts := by
    clear hne hn m1 m4 m5 hCs hflat
    induction hC with
    | nil => rfl
    | cons hTC _ ih =>
      have := ih (fun T hT => h T (by simp [hT]))
      have h2 := (poses_crop (h _ (by simp)).1 hTC.1).2.1
      simp only [AnyRot, List.mem_cons, exists_eq_or_imp] at this ⊢
      rw [h2, this]
  have hMt := merged_times m2 (fun T hT => (h T hT).1) m4 m5
  obtain ⟨M', hM'⟩ : ∃ M', Returns (Traj.crop a b inverse) M () M' := by
    refine crop_exists m2 ?_
    obtain ⟨T, Ts', rfl⟩ := List.exists_cons_of_ne_nil hne
    cases hC with
    | @cons _ C _ _ hTC _ =>
      obtain ⟨k1, -, k3⟩ := poses_crop (h T (by simp)).1 hTC.1
      obtain ⟨t, ts, ht⟩ := List.exists_cons_of_ne_nil hTC.2
      have hm : t ∈ C.tstamps := by rw [ht]; simp
      rw [← poses_times k1, k3] at hm
      obtain ⟨s, hs1, rfl⟩ := List.mem_map.1 hm
      obtain ⟨hs2, hs3⟩ := List.mem_filter.1 hs1
      refine ⟨s.1, ?_, hs3⟩
      rw [hMt.mem_iff, List.flatMap_cons, List.mem_append, ← poses_times (h T (by simp)).1]
      exact .inl (List.mem_map_of_mem hs2)
  obtain ⟨c1, c2, c3⟩ := poses_crop m2 hM'
  obtain ⟨N, n1, n2⟩ := merge_changed L nrm hs pop hne h hCs hC.length_eq.symm hn m1 c1
    (fun l => l.filter (fun s => keepsTime a b inverse s.1))
    (by rw [c3]; exact List.filter_sublist.map _) c3
    (fun l l' hp => hp.filter _)
    (fun ha => ⟨hany.2 ha, by
      rw [hflat, List.filter_map]
      exact List.Perm.of_eq rfl⟩)
    (fun ha => .inr ⟨fun hc => ha (hany.1 hc), List.Perm.of_eq hflat⟩)
  exact ⟨M, M', N, m1, hM', n1, n2⟩

/-- how a transformation changes a pose; a missing orientation counts as the identity -/
def movePose (L : RotLib K R) (A : M4 K) (s : K × V3 K × Option R) : K × V3 K × Option R :=
  (s.1, mulV (poseRot A) s.2.1 + posePos A, some (L.fromMat (poseRot A * L.toMat (s.2.2.getD L.one))))

theorem poses_move {L : RotLib K R} (hL : IsRotLib L) {A : M4 K} {T C : Traj K R} (hT : Coherent T) (hne : T.tstamps ≠ [])
    (hC : Returns (Traj.applyTransformation L A) T () C) : Coherent C ∧ C.tstamps = T.tstamps ∧ C.rot.isSome = true ∧
      poses C = (poses T).map (movePose L A) := by
  unfold Returns at hC
  rw [applyTransformation_eq L hT hne] at hC
  obtain ⟨-, rfl⟩ := Prod.mk.inj hC
  have hlen : (rotOr T.pos.length T.rot L.toMat).length = T.tstamps.length := by
    rcases hr : T.rot with _ | r
    · simp [rotOr, hT.pos]
    · simp [rotOr, hT.rot r hr]
  have hco : Coherent ({ T with
        pos := T.pos.map (fun p => mulV (poseRot A) p + posePos A)
        rot := some ((rotOr T.pos.length T.rot L.toMat).map
          (fun m => L.fromMat (poseRot A * m))) } : Traj K R) := by
    refine ⟨by simp [hT.pos], hT.arc, hT.speed, ?_⟩
    rintro r ⟨⟩
    simpa using hlen
  refine ⟨hco, rfl, rfl, ?_⟩
  rw [poses_eq hco, poses_eq hT]
  have e : rotOr T.pos.length T.rot L.toMat = (rotColumn T.tstamps.length T.rot).map (fun o => L.toMat (o.getD L.one)) := by
    rcases T.rot with _ | r
    · simp [rotOr, rotColumn, hT.pos, hL.toMat_one]
    · simp [rotOr, rotColumn]
  rw [e]
  simp only [rotColumn, List.map_map]
  rw [show (movePose L A : K × V3 K × Option R → _) = Prod.map id (Prod.map (fun p => mulV (poseRot A) p + posePos A)
    (fun o : Option R => some (L.fromMat (poseRot A * L.toMat (o.getD L.one))))) from rfl, ← List.zip_map, ← List.zip_map, List.map_id]
  rfl

/-- **C204**, moving: transforming every trajectory and merging gives the same poses as merging and transforming,
also if only some of the trajectories have orientations. -/
theorem C204_move {L : RotLib K R} (hL : IsRotLib L) (nrm : V3 K → K) {argsort : List K → List Nat} (hs : IsArgsort argsort)
    (pop : List Int → Int) (A : M4 K) {Ts Cs : List (Traj K R)} (hne : Ts ≠ [])
    (h : ∀ T ∈ Ts, Coherent T ∧ T.tstamps ≠ []) (hn : (Ts.flatMap Traj.tstamps).Nodup)
    (hC : List.Forall₂ (fun T C => Returns (Traj.applyTransformation L A) T () C) Ts Cs) :
    ∃ M M' N, mergeTrajectories L nrm argsort pop Ts = .ok M ∧ Returns (Traj.applyTransformation L A) M () M' ∧
      mergeTrajectories L nrm argsort pop Cs = .ok N ∧ poses N = poses M' := by
  obtain ⟨M, m1, m2, m3, m4, m5⟩ := C44_merge_keeps_samples_and_sorts L nrm hs pop hne h
  have hMt := merged_times m2 (fun T hT => (h T hT).1) m4 m5
  have hMne : M.tstamps ≠ [] := by
    intro hc
    rw [hc] at hMt
    obtain ⟨T, Ts', rfl⟩ := List.exists_cons_of_ne_nil hne
    have := hMt.symm.eq_nil
    rw [List.flatMap_cons, List.append_eq_nil_iff] at this
    exact (h T (by simp)).2 this.1
  have hCs : ∀ C ∈ Cs, (Coherent C ∧ C.tstamps ≠ []) ∧ C.rot.isSome = true := by
    intro C hCm
    obtain ⟨T, hT, h1⟩ := forall₂_mem_right hC hCm
    obtain ⟨k1, k2, k3, -⟩ := poses_move hL (h T hT).1 (h T hT).2 h1
    exact ⟨⟨k1, by rw [k2]; exact (h T hT).2⟩, k3⟩
  have hflat : Cs.flatMap poses = (Ts.flatMap poses).map (movePose L A) := by
    clear hne hn m1 m4 m5 hCs hMt
    induction hC with
    | nil => rfl
    | cons hTC _ ih =>
      have hT := h _ (List.mem_cons_self)
      rw [List.flatMap_cons, List.flatMap_cons, List.map_append, (poses_move hL hT.1 hT.2 hTC).2.2.2,
        ih (fun T hT => h T (by simp [hT]))]
  have hanyC : AnyRot Cs := by
    obtain ⟨T, Ts', rfl⟩ := List.exists_cons_of_ne_nil hne
    cases hC with
    | cons _ _ => exact ⟨_, List.mem_cons_self, (hCs _ List.mem_cons_self).2⟩
  have hfill : ∀ l : List (K × V3 K × Option R),
      (l.map (movePose L A)).map (filled L.one) = l.map (movePose L A) ∧
      (l.map (filled L.one)).map (movePose L A) = l.map (movePose L A) := by
    intro l
    rw [List.map_map, List.map_map]
    exact ⟨rfl, rfl⟩
  have hM' := applyTransformation_eq L m2 hMne A
  obtain ⟨c1, c2, -, c3⟩ := poses_move hL m2 hMne hM'
  obtain ⟨N, n1, n2⟩ := merge_changed L nrm hs pop hne h (fun C hCm => (hCs C hCm).1) hC.length_eq.symm hn m1 c1
    (fun l => l.map (movePose L A)) (by rw [poses_times c1, c2, poses_times m2]) c3 (fun l l' hp => hp.map _)
    (fun _ => ⟨hanyC, by rw [hflat, (hfill _).1, (hfill _).2]⟩)
    (fun _ => .inl ⟨hanyC, by rw [hflat, (hfill _).1]⟩)
  exact ⟨M, _, N, m1, hM', n1, n2⟩

/-! ### a concrete case: `exMergeA` and `exMergeB` are interleaved, only the second has orientations -/

example : (∀ T ∈ [exMergeA, exMergeB], Coherent T ∧ T.tstamps ≠ []) ∧
    ([exMergeA, exMergeB].flatMap Traj.tstamps).Nodup ∧ [exMergeA, exMergeB].Perm [exMergeB, exMergeA] := by
  refine ⟨?_, by decide +kernel, List.Perm.swap _ _ _⟩
  intro T hT
  simp only [List.mem_cons, List.not_mem_nil, or_false] at hT
  rcases hT with rfl | rfl
  · exact ⟨exMergeA_coherent, by decide +kernel⟩
  · exact ⟨exMergeB_coherent, by decide +kernel⟩

example : (mergeTrajectories exLib (fun v => |v.x|) stableArgsort (fun l => l.headD 0) [exMergeA, exMergeB]).toOption.map
      (fun M => (poses M).map (fun s => (s.1, s.2.2))) =
    (mergeTrajectories exLib (fun v => |v.x|) stableArgsort (fun l => l.headD 0) [exMergeB, exMergeA]).toOption.map
      (fun M => (poses M).map (fun s => (s.1, s.2.2))) := by decide +kernel

/-- both keep a sample in the window from 1 to 2 -/
example : ∃ C D : Traj ℚ Nat, List.Forall₂ (fun T C => Returns (Traj.crop 1 2 false) T () C ∧ C.tstamps ≠ [])
    [exMergeA, exMergeB] [C, D] := by
  obtain ⟨C, hC⟩ := crop_exists (a := 1) (b := 2) (inverse := false) exMergeA_coherent ⟨2, by decide +kernel, by decide +kernel⟩
  obtain ⟨D, hD⟩ := crop_exists (a := 1) (b := 2) (inverse := false) exMergeB_coherent ⟨1, by decide +kernel, by decide +kernel⟩
  refine ⟨C, D, .cons ⟨hC, ?_⟩ (.cons ⟨hD, ?_⟩ .nil)⟩
  · obtain ⟨h1, -, h2⟩ := poses_crop exMergeA_coherent hC
    intro hc
    rw [← poses_times h1, h2] at hc
    revert hc
    decide +kernel
  · obtain ⟨h1, -, h2⟩ := poses_crop exMergeB_coherent hD
    intro hc
    rw [← poses_times h1, h2] at hc
    revert hc
    decide +kernel

end TC
