import Verif.Proofs.TimeShiftLines
import Verif.Props.Metrics
import Verif.Model.Cubic
import Verif.Model.RotApprox
/-!
# C176: results do not depend on the origin of the time scale

Timestamps may be seconds since 1970, seconds of a day or of a week.  Every method and every comparison gives the same
result for all of these, except the approximation of orientations.
-/
set_option linter.unusedSectionVars false
namespace TC
open H
variable {K R : Type} [Field K] [LinearOrder K] [IsStrictOrderedRing K]

theorem Lock.run_eq {α : Type} {d : K} {m m' : SE (Heap K R) α} (hm : Lock (HLat d) Eq m m') (h : Heap K R) :
    m' (h.map (Traj.later d)) = ((m h).1, (m h).2.map (Traj.later d)) := by
  obtain ⟨h1, h2⟩ := hm h _ rfl
  exact Prod.ext h1.eq.symm h2

/-- **C176**: whatever a method does to a set of trajectories (the object returned or the exception raised, the objects
left behind) it does with all times counted from another origin.  (`approximate`: see below.) -/
theorem C176_methods (lib : Lib K R) (d : K) (c : Call K R) (hc : c ≠ .approximate) (r : Nat) (inplace : Bool)
    (h : Heap K R) :
    run lib (c.later d) r inplace (h.map (Traj.later d))
      = ((run lib c r inplace h).1, (run lib c r inplace h).2.map (Traj.later d)) := by
  refine Lock.run_eq ?_ h
  rcases c with i | ⟨a, b, v⟩ | ts | ts | ⟨ts, g⟩ | A | ⟨q, o⟩ | _ | _ | t | t | t
  · exact HLat.applyIndex d r i inplace
  · exact HLat.crop d r a b v inplace
  · exact HLat.interpolate lib.rot d r ts inplace
  · exact HLat.matchTimestamps d r ts inplace
  · exact HLat.intersect d r ts g inplace
  · exact HLat.applyTransformation lib.rot d r A inplace
  · exact HLat.applyAlignment lib.rot lib.trig lib.toEuler d r q o inplace
  · exact HLat.sortSpatially d lib.argsortN lib.sortMls r inplace
  · exact absurd rfl hc
  · exact HLat.adoptFirstPosition d r t inplace
  · exact HLat.adoptFirstOrientation lib.toEuler lib.fromEuler d r t inplace
  · exact HLat.adoptFirstPose lib.toEuler lib.fromEuler d r t inplace

/-- **C176**: matching pairs the same samples, whatever origin the times are counted from.  (Matching with a line through
neighbouring positions: see `C176_match_lines`.) -/
theorem C176_match (lib : MatchLib K R) (hq : OriginFree lib.queryT) (d : K) (c f t : Nat) (s : MatchingSettings K)
    (hs : s.method ≠ .nearestSpatialInterpolated) (inplace : Bool) (h : Heap K R) :
    matchTrajectories lib c f t s inplace (h.map (Traj.later d))
      = ((matchTrajectories lib c f t s inplace h).1, (matchTrajectories lib c f t s inplace h).2.map (Traj.later d)) :=
  Lock.run_eq (HLat.matchTrajectories hq d c f t s hs inplace) h

/-- **C176**: the parameters of an alignment do not depend on the origin of the time scale, for every matching method. -/
theorem C176_alignment (lib : MetricLib K R) (hq : OriginFree lib.mat.queryT) (d : K) (c f t : Nat) (s : AlignSettings K)
    (ms : MatchingSettings K) (h : Heap K R) :
    (estimateAlignment lib c s ms f t (h.map (Traj.later d))).1 = (estimateAlignment lib c s ms f t h).1 := by
  by_cases hs : ms.method = .nearestSpatialInterpolated
  · rcases Some2.estimateAll lib c s hs f t h _ rfl with ⟨e, h1, h2⟩ | ⟨a, b, g, g', h1, h2, rfl, -⟩
    · rw [h1, h2]
    · rw [h1, h2]
  · rw [Lock.run_eq (HLat.estimateAlignment hq d c s ms hs f t) h]

theorem compareAbsolute_later (E : EvalLib K) (L : RotLib K R) (d : K) (T U : Traj K R) :
    OutRel (fun a b => b = AteResult.later d a) (compareAbsolute E L T U)
      (compareAbsolute E L (T.later d) (U.later d)) := by
  unfold compareAbsolute
  simp only [show (T.later d).pos = T.pos from rfl, show (U.later d).pos = U.pos from rfl,
    show (T.later d).rot = T.rot from rfl, show (U.later d).rot = U.rot from rfl,
    show (T.later d).name = T.name from rfl, show (U.later d).name = U.name from rfl, bind, Except.bind, pure, Except.pure]
  rcases bcast (fun a b => a - b) U.pos T.pos with e | p
  · exact rfl
  dsimp only
  rcases directedDeviations E L U.pos T.pos (rotEither U.rot T.rot) with e | q
  · exact rfl
  dsimp only
  rcases U.rot with _ | r
  · exact rfl
  rcases T.rot with _ | t
  · exact rfl
  dsimp only
  rcases bcast (fun a b => L.mul a (L.inv b)) r t with e | o
  · exact rfl
  · exact rfl

theorem outRel_map {α β : Type} {f : α → β} {x : Except Err α} {y : Except Err β} (h : OutRel (fun a b => b = f a) x y) :
    y = x.map f := by
  rcases x with e | a <;> rcases y with e' | b
  · exact congrArg _ (show e' = e from (h : e = e').symm)
  · exact h.elim
  · exact h.elim
  · exact congrArg _ h

/-- when matching with lines ends without an exception, both trajectories exist -/
theorem lines_exist (lib : MatchLib K R) (c f t : Nat) (s : MatchingSettings K)
    (hs : s.method = .nearestSpatialInterpolated) {h : Heap K R} (hn : ¬ (f < h.length ∧ t < h.length)) :
    (matchTrajectories lib c f t s true h).1 = .error .attributeError := by
  unfold matchTrajectories
  rw [hs]
  show (matchSpatialInterpolation lib c f t s.maxDistance s.kNearest h).1 = _
  unfold matchSpatialInterpolation
  rcases hf : h[f]? with _ | T
  · simp only [SE.run_bind, TC.rd, hf]
  rcases ht : h[t]? with _ | T
  · simp only [SE.run_bind, TC.rd, hf, ht]
  exact absurd ⟨(List.getElem?_eq_some_iff.1 hf).1, (List.getElem?_eq_some_iff.1 ht).1⟩ hn

/-- **C176**: the absolute trajectory error: the same deviations and the same alignment, of a trajectory whose times are
counted from the other origin; or the same exception.  For every matching method. -/
theorem C176_ate (lib : MetricLib K R) (hq : OriginFree lib.mat.queryT) (d : K) (c gt est : Nat) (s : ProcSettings K)
    (h : Heap K R) :
    (ate lib c s gt est (h.map (Traj.later d))).1
      = (ate lib c s gt est h).1.map (Option.map (fun r => (r.1.later d, r.2))) := by
  by_cases hs : s.matching.method = .nearestSpatialInterpolated
  · by_cases hn : est < h.length ∧ gt < h.length
    · have key : Twin (Some2 d [est, gt]) (ate lib c s gt est) (ate lib c s gt est)
          (fun a b _ _ => b = Option.map (fun r => (AteResult.later d r.1, r.2)) a) := by
        unfold ate
        refine Twin.bind (Some2.matchLines lib.mat c (by simp) (by simp) hs) fun _ _ => ?_
        refine Twin.bind (Some2.estimateAlignment lib c s.align hs (by simp) (by simp)) fun al b => Twin.of ?_
        rintro rfl
        rcases b with _ | a
        · exact Twin.pure fun _ _ _ => rfl
        refine Twin.bind (Some2.applyAlignment lib.mat.rot lib.trig lib.toEuler (by simp) _ _) fun t t' => Twin.of ?_
        rintro rfl
        refine Twin.bind (Some2.rd (by simp)) fun T T' => Twin.of ?_
        rintro rfl
        refine Twin.bind (Some2.rd (by simp)) fun U U' => Twin.of ?_
        rintro rfl
        refine Twin.bind (Twin.lift (compareAbsolute_later lib.eval lib.mat.rot d T U)) fun r r' => Twin.of ?_
        rintro rfl
        exact Twin.pure fun _ _ _ => rfl
      rcases key h _ (Some2.start d hn.1 hn.2) with ⟨e, h1, h2⟩ | ⟨a, b, g, g', h1, h2, rfl⟩
      · rw [h1, h2]
        rfl
      · rw [h1, h2]
        rfl
    · have e1 := lines_exist lib.mat c est gt s.matching hs hn
      have e2 := lines_exist lib.mat c est gt s.matching hs (h := h.map (Traj.later d)) (by rwa [List.length_map])
      unfold ate
      simp only [SE.run_bind]
      rcases hm : matchTrajectories lib.mat c est gt s.matching true h with ⟨x, g⟩
      rcases hm' : matchTrajectories lib.mat c est gt s.matching true (h.map (Traj.later d)) with ⟨x', g'⟩
      rw [hm] at e1
      rw [hm'] at e2
      cases (e1 : x = _)
      cases (e2 : x' = _)
      rfl
  have key : Lock (HLat d) (fun a b => b = Option.map (fun r => (AteResult.later d r.1, r.2)) a) (ate lib c s gt est)
      (ate lib c s gt est) := by
    unfold ate
    refine Lock.bind (HLat.matchTrajectories hq d c est gt s.matching hs true) fun _ _ _ => ?_
    refine Lock.bind (HLat.estimateAlignment hq d c s.align s.matching hs est gt) ?_
    rintro al _ rfl
    rcases al with _ | a
    · exact Lock.pure rfl
    refine Lock.bind (HLat.applyAlignment lib.mat.rot lib.trig lib.toEuler d est _ _ false) ?_
    rintro t _ rfl
    refine Lock.bind (HLat.rd d t) ?_
    rintro T _ rfl
    refine Lock.bind (HLat.rd d gt) ?_
    rintro U _ rfl
    refine Lock.bind (Lock.lift (compareAbsolute_later lib.eval lib.mat.rot d T U)) ?_
    rintro r _ rfl
    exact Lock.pure rfl
  exact outRel_map (key h _ rfl).1

/-! ### relative errors -/

section
variable [FloorRing K]

omit [IsStrictOrderedRing K] in
theorem arange_shl (f l s d : K) : arange (f + d) (l + d) s = (arange f l s).map (shl d) := by
  unfold arange arangeLen
  rw [add_sub_add_right_eq_sub]
  split
  · rfl
  · simp only [Except.map, List.map_map, Function.comp_def, add_right_comm]

theorem pairIndices_shl (d : K) (D : List K) (allPairs : Bool) (dist : K) :
    pairIndices (shl d D) allPairs dist = pairIndices D allPairs dist := by
  unfold pairIndices
  cases allPairs
  · simp only [Bool.false_eq_true, if_false, pyFirst_shl, pyLast_shl, bind, Except.bind, pure, Except.pure]
    rcases pyFirst D with e | f
    · rfl
    rcases pyLast D with e | l
    · rfl
    dsimp only [Except.map]
    rw [arange_shl]
    rcases arange f l dist with e | st
    · rfl
    dsimp only [Except.map]
    have : (shl d st).map (searchLeft (shl d D)) = st.map (searchLeft D) := by
      rw [List.map_map]
      apply List.map_congr_left
      intro x _
      exact searchLeft_shl d D x
    rw [this]
  · simp only [if_true]
    rw [pyLast_shl]
    rcases pyLast D with e | l
    · dsimp only [Except.map, bind, Except.bind]
      rcases D with _ | ⟨a, D⟩
      · rfl
      · simp [List.zipIdx_cons, mapE]
        rfl
    dsimp only [Except.map, bind, Except.bind, pure, Except.pure]
    rw [show (shl d D).zipIdx = D.zipIdx.map (fun c => (c.1 + d, c.2)) from by
      rw [List.zipIdx_map]; rfl]
    rw [mapE_ok (g := fun c : K × Nat => if c.1 + dist < l + d then [(c.2, c.1 + dist)] else []) (fun _ _ => rfl),
      mapE_ok (g := fun c : K × Nat => if c.1 + dist < l then [(c.2, c.1 + dist)] else []) (fun _ _ => rfl)]
    dsimp only
    congr 1
    rw [List.map_map]
    have h1 : ∀ c : K × Nat, ((fun c : K × Nat => if c.1 + dist < l + d then [(c.2, c.1 + dist)] else []) ∘
        fun c => (c.1 + d, c.2)) c = (if c.1 + dist < l then [(c.2, c.1 + dist)] else []).map (fun x => (x.1, x.2 + d)) := by
      intro c
      simp only [Function.comp_apply, add_right_comm c.1 d dist, add_lt_add_iff_right]
      split <;> rfl
    rw [List.map_congr_left (fun c _ => h1 c)]
    rw [show (fun c : K × Nat => (if c.1 + dist < l then [(c.2, c.1 + dist)] else []).map (fun x => (x.1, x.2 + d)))
      = (List.map (fun x : Nat × K => (x.1, x.2 + d))) ∘ (fun c : K × Nat => if c.1 + dist < l then [(c.2, c.1 + dist)] else [])
      from rfl, ← List.map_map, ← List.map_flatten, List.map_map]
    apply List.map_congr_left
    intro x _
    simp only [Function.comp_apply]
    rw [searchLeft_shl]

theorem pairDev_shl (E : EvalLib K) (L : RotLib K R) (d : K) (T U : Traj K R) (D : List K) (c : Nat × Nat) :
    pairDev E L (T.later d) (U.later d) (shl d D) c = pairDev E L T U D c := by
  unfold pairDev
  simp only [npGet_shl, bind, Except.bind]
  rcases npGet D (c.2 : Int) with e | a
  · rfl
  rcases npGet D (c.1 : Int) with e | b
  · rfl
  simp only [Except.map, add_sub_add_right_eq_sub]
  rfl

theorem pairDev_later (E : EvalLib K) (L : RotLib K R) (d : K) (T U : Traj K R) (D : List K) (c : Nat × Nat) :
    pairDev E L (T.later d) (U.later d) D c = pairDev E L T U D c := rfl

theorem rpeGroup_later (E : EvalLib K) (L : RotLib K R) (d : K) (T U : Traj K R) (s : RpeSettings K) (dist : K) :
    rpeGroup E L (T.later d) (U.later d) s dist = rpeGroup E L T U s dist := by
  unfold rpeGroup
  rcases s.unit
  all_goals try rfl
  simp only [pure_bind, show (U.later d).tstamps = shl d U.tstamps from rfl, pairIndices_shl]
  have : pairDev E L (T.later d) (U.later d) (shl d U.tstamps) = pairDev E L T U U.tstamps :=
    funext fun c => pairDev_shl E L d T U _ c
  rw [this]

theorem compareRelative_later (E : EvalLib K) (L : RotLib K R) (d : K) (T U : Traj K R) (s : RpeSettings K) :
    compareRelative E L (T.later d) (U.later d) s = compareRelative E L T U s := by
  unfold compareRelative
  have : rpeGroup E L (T.later d) (U.later d) s = rpeGroup E L T U s :=
    funext fun c => rpeGroup_later E L d T U s c
  rw [this]
  rfl

/-- **C176**: the relative pose error, with pairs at fixed lengths or at fixed time differences, does not depend on the
origin of the time scale, for every matching method. -/
theorem C176_rpe (lib : MetricLib K R) (hq : OriginFree lib.mat.queryT) (d : K) (c gt est : Nat) (s : ProcSettings K)
    (h : Heap K R) : (rpe lib c s gt est (h.map (Traj.later d))).1 = (rpe lib c s gt est h).1 := by
  by_cases hs : s.matching.method = .nearestSpatialInterpolated
  · by_cases hn : est < h.length ∧ gt < h.length
    · have key : Twin (Some2 d [est, gt]) (rpe lib c s gt est) (rpe lib c s gt est) (fun a b _ _ => a = b ∧ True) := by
        unfold rpe
        refine Twin.bind (Some2.matchLines lib.mat c (by simp) (by simp) hs) fun _ _ => ?_
        refine Twin.bind (Some2.rd (by simp)) fun T T' => Twin.of ?_
        rintro rfl
        refine Twin.bind (Some2.rd (by simp)) fun U U' => Twin.of ?_
        rintro rfl
        rw [compareRelative_later]
        intro h h' _
        exact Twin.lift (P := fun _ _ => True) (OutRel.refl _) h h' trivial
      rcases key h _ (Some2.start d hn.1 hn.2) with ⟨e, h1, h2⟩ | ⟨a, b, g, g', h1, h2, rfl, -⟩
      · rw [h1, h2]
      · rw [h1, h2]
    · have e1 := lines_exist lib.mat c est gt s.matching hs hn
      have e2 := lines_exist lib.mat c est gt s.matching hs (h := h.map (Traj.later d)) (by rwa [List.length_map])
      unfold rpe
      simp only [SE.run_bind]
      rcases hm : matchTrajectories lib.mat c est gt s.matching true h with ⟨x, g⟩
      rcases hm' : matchTrajectories lib.mat c est gt s.matching true (h.map (Traj.later d)) with ⟨x', g'⟩
      rw [hm] at e1
      rw [hm'] at e2
      cases (e1 : x = _)
      cases (e2 : x' = _)
      rfl
  have key : Lock (HLat d) Eq (rpe lib c s gt est) (rpe lib c s gt est) := by
    unfold rpe
    refine Lock.bind (HLat.matchTrajectories hq d c est gt s.matching hs true) fun _ _ _ => ?_
    refine Lock.bind (HLat.rd d est) ?_
    rintro T _ rfl
    refine Lock.bind (HLat.rd d gt) ?_
    rintro U _ rfl
    refine Lock.lift (OutRel.of_eq ?_)
    exact (compareRelative_later lib.eval lib.mat.rot d T U s.relative).symm
  rw [Lock.run_eq key h]

end

/-! ### matching with lines -/

/-- the two ways in which matching with lines ends, for two origins -/
def LineEnds (d : K) (o o' : Except Err (Nat × Nat) × Heap K R) : Prop :=
  (∃ e g, o = (.error e, g) ∧ o' = (.error e, g.map (Traj.later d))) ∨
  (∃ (X Y : Traj K R) (g : Heap K R), o = (.ok (g.length, g.length + 1), g ++ [X, Y]) ∧
    o' = (.ok (g.length, g.length + 1), g.map (Traj.later d) ++ [X, Y]))

theorem lines_later (lib : MatchLib K R) (d : K) (c t r : Nat) (m : K) (k : Nat) (h : Heap K R) :
    LineEnds d (matchSpatialInterpolation lib c t r m k h)
      (matchSpatialInterpolation lib c t r m k (h.map (Traj.later d))) := by
  unfold matchSpatialInterpolation
  rcases ht : h[t]? with _ | T
  · have ht' : (h.map (Traj.later d))[t]? = none := by rw [List.getElem?_map, ht]; rfl
    simp only [SE.run_bind, TC.rd, ht, ht']
    exact .inl ⟨_, _, rfl, rfl⟩
  have ht' : (h.map (Traj.later d))[t]? = some (T.later d) := by rw [List.getElem?_map, ht]; rfl
  rcases hr : h[r]? with _ | U
  · have hr' : (h.map (Traj.later d))[r]? = none := by rw [List.getElem?_map, hr]; rfl
    simp only [SE.run_bind, TC.rd, ht, ht', hr, hr']
    exact .inl ⟨_, _, rfl, rfl⟩
  have hr' : (h.map (Traj.later d))[r]? = some (U.later d) := by rw [List.getElem?_map, hr]; rfl
  simp only [SE.run_bind, TC.rd, ht, ht', hr, hr', show (T.later d).pos = T.pos from rfl,
    show (U.later d).pos = U.pos from rfl, show (T.later d).name = T.name from rfl,
    show (U.later d).name = U.name from rfl]
  generalize (if m = 0 then lib.queryPK U.pos none k T.pos else lib.queryPK U.pos (some m) k T.pos) = cl
  by_cases h1 : k = 0
  · simp only [if_pos h1, SE.run_bind, SE.raise]
    exact .inl ⟨_, _, rfl, rfl⟩
  simp only [if_neg h1]
  by_cases h2 : cl.all (fun c => c.all (fun i => i.isNone)) = true
  · simp only [if_pos h2, SE.run_bind, SE.raise]
    exact .inl ⟨_, _, rfl, rfl⟩
  simp only [if_neg h2]
  by_cases h3 : k = 1
  · simp only [if_pos h3, SE.run_bind, SE.raise]
    exact .inl ⟨_, _, rfl, rfl⟩
  simp only [if_neg h3, SE.run_bind, SE.lift]
  rcases linePairs lib.lineDir U.pos T.pos cl with e | ps
  · exact .inl ⟨_, _, rfl, rfl⟩
  dsimp only
  by_cases h4 : ps.length = 0
  · simp only [if_pos h4, SE.run_bind, SE.raise]
    exact .inl ⟨_, _, rfl, rfl⟩
  simp only [if_neg h4, SE.run_bind]
  rcases Traj.new (R := R) lib.nrm c { pos := ps.map Prod.fst, name := T.name } with e | A
  · exact .inl ⟨_, _, rfl, rfl⟩
  rcases Traj.new (R := R) lib.nrm (c + 1) { pos := ps.map Prod.snd, name := U.name } with e | B
  · exact .inl ⟨_, _, rfl, rfl⟩
  refine .inr ⟨A, B, h, ?_, ?_⟩
  · simp [newRef, SE.run_pure]
  · simp [newRef, SE.run_pure]

/-- **C176**: matching with lines gives the same two new trajectories for all origins (they carry no times of the
originals), or raises the same exception; the originals are left as they are. -/
theorem C176_match_lines (lib : MatchLib K R) (d : K) (c f t : Nat) (s : MatchingSettings K)
    (hs : s.method = .nearestSpatialInterpolated) (inplace : Bool) (h : Heap K R) :
    (∃ e g, matchTrajectories lib c f t s inplace h = (.error e, g) ∧
      matchTrajectories lib c f t s inplace (h.map (Traj.later d)) = (.error e, g.map (Traj.later d))) ∨
    (∃ (X Y : Traj K R) (g : Heap K R),
      matchTrajectories lib c f t s inplace h = (.ok (g.length, g.length + 1), g ++ [X, Y]) ∧
      matchTrajectories lib c f t s inplace (h.map (Traj.later d))
        = (.ok (g.length, g.length + 1), g.map (Traj.later d) ++ [X, Y])) := by
  unfold matchTrajectories
  simp only [SE.run_bind, hs]
  rw [Lock.run_eq (HLat.selfOrCopy d inplace f) h]
  rcases selfOrCopy inplace f h with ⟨e | a, g⟩
  · exact .inl ⟨_, _, rfl, rfl⟩
  dsimp only
  rw [Lock.run_eq (HLat.selfOrCopy d inplace t) g]
  rcases selfOrCopy inplace t g with ⟨e | b, g⟩
  · exact .inl ⟨_, _, rfl, rfl⟩
  exact lines_later lib d c a b s.maxDistance s.kNearest g

/-! ### approximation -/

theorem functionOf_later {argsort : List K → List Nat} (ha : SortsAlike argsort) (d : K) (T : Traj K R) :
    (T.later d).sortingIndex argsort = T.sortingIndex argsort ∧
    (T.later d).functionOf argsort
      = match T.sorting with
        | .time => (T.functionOf argsort).map (shl d)
        | .arcLength => T.functionOf argsort := by
  have h1 : (T.later d).sortingIndex argsort = T.sortingIndex argsort := by
    unfold Traj.sortingIndex
    rw [show (T.later d).sorting = T.sorting from rfl]
    rcases T.sorting
    · exact ha d _
    · rfl
  refine ⟨h1, ?_⟩
  unfold Traj.functionOf
  rw [h1, show (T.later d).sorting = T.sorting from rfl]
  rcases T.sorting
  · exact npTake_map _ _ _
  · rfl

theorem HLat.approximate {argsort : List K → List Nat} (ha : SortsAlike argsort) (argsortN : List Nat → List Nat)
    {cubic : List K → List (V3 K) → Except Err (List (V3 K))} {rotAvg : List K → List R → Except Err (List R)} (d : K)
    (hc : ∀ f x, cubic (shl d f) x = cubic f x) (hr : ∀ f x, rotAvg (shl d f) x = rotAvg f x) (r : Nat) (inplace : Bool) :
    Lock (HLat d) Eq (H.approximate argsort argsortN cubic rotAvg r inplace)
      (H.approximate argsort argsortN cubic rotAvg r inplace) := by
  have hfun : ∀ T : Traj K R, OutRel (fun a b => b = a ∨ b = shl d a) (T.functionOf argsort)
      ((T.later d).functionOf argsort) := by
    intro T
    rw [(functionOf_later ha d T).2]
    rcases T.sorting
    · rcases T.functionOf argsort with e | f
      · exact rfl
      · exact Or.inr rfl
    · rcases T.functionOf argsort with e | f
      · exact rfl
      · exact Or.inl rfl
  have hc' : ∀ f f' x, (f' = f ∨ f' = shl d f) → cubic f' x = cubic f x := by
    rintro f _ x (rfl | rfl)
    · rfl
    · exact hc f x
  have hr' : ∀ f f' x, (f' = f ∨ f' = shl d f) → rotAvg f' x = rotAvg f x := by
    rintro f _ x (rfl | rfl)
    · rfl
    · exact hr f x
  unfold H.approximate
  refine Lock.bind (HLat.rd d r) ?_
  rintro T _ rfl
  refine Lock.bind (Lock.lift (hfun T)) fun f f' hf => ?_
  rw [show (T.later d).xyz argsort = T.xyz argsort from by
    unfold Traj.xyz; rw [(functionOf_later ha d T).1]; rfl]
  refine Lock.bind (Lock.lift (OutRel.refl _)) ?_
  rintro x _ rfl
  rw [hc' f f' x hf]
  refine Lock.bind (Lock.lift (OutRel.refl _)) ?_
  rintro xa _ rfl
  refine Lock.bind (HLat.selfOrCopy d inplace r) ?_
  rintro s _ rfl
  refine Lock.bind (HLat.rd d r) ?_
  rintro T _ rfl
  rw [show (T.later d).sortSwitchingIndex argsort argsortN = T.sortSwitchingIndex argsort argsortN from by
    unfold Traj.sortSwitchingIndex; rw [(functionOf_later ha d T).1]]
  refine Lock.bind (Lock.lift (OutRel.refl _)) ?_
  rintro p _ rfl
  refine Lock.bind (HLat.onRef d s (Lock.modify (by rintro s _ rfl; rfl))) fun _ _ _ => ?_
  refine Lock.bind (HLat.rd d s) ?_
  rintro O _ rfl
  rw [show (O.later d).rot = O.rot from rfl]
  rcases O.rot with _ | ro
  · exact Lock.pure rfl
  dsimp only
  split
  · exact Lock.pure rfl
  refine Lock.bind (HLat.rd d r) ?_
  rintro T _ rfl
  rw [show (T.later d).rot = T.rot from rfl]
  rcases T.rot with _ | rr
  · exact Lock.raise
  refine Lock.bind (Lock.lift (hfun T)) fun f f' hf => ?_
  rw [show (T.later d).sortSwitchingIndex argsort argsortN = T.sortSwitchingIndex argsort argsortN from by
    unfold Traj.sortSwitchingIndex; rw [(functionOf_later ha d T).1], (functionOf_later ha d T).1]
  refine Lock.bind (Lock.lift (OutRel.refl _)) ?_
  rintro q _ rfl
  rw [hr' f f' q hf]
  refine Lock.bind (Lock.lift (OutRel.refl _)) ?_
  rintro qa _ rfl
  refine Lock.bind (Lock.lift (OutRel.refl _)) ?_
  rintro q' _ rfl
  refine Lock.bind (HLat.onRef d s (Lock.modify (by rintro s _ rfl; rfl))) fun _ _ _ => ?_
  exact Lock.pure rfl

section
variable [FloorRing K]

theorem cubicApprox_shl (solve : Solver K) (d : K) (f v : List K) (size : K) (n : Nat) :
    (cubicApprox solve (shl d f) v size n).map Cubic.estObs = (cubicApprox solve f v size n).map Cubic.estObs := by
  unfold cubicApprox
  rw [pyFirst_shl]
  rcases pyFirst f with e | f0
  · rfl
  dsimp only [Except.map, bind, Except.bind]
  have e1 : (shl d f).map (fun x => x - (f0 + d)) = f.map (fun x => x - f0) := by
    simp only [List.map_map, Function.comp_def, add_sub_add_right_eq_sub]
  rw [e1]
  simp only [List.length_map]
  rcases pyLast (f.map (fun x => x - f0)) with e | last
  · rfl
  dsimp only
  rcases arange 0 last size with e | st
  · rfl
  dsimp only
  rcases pyLast st with e | _
  · rfl
  dsimp only
  rcases cubicLoop (f.map (fun x => x - f0)) size n 0 (f.map (fun x => x - f0)) ⟨[], [], [], [], 0⟩ with e | st
  · rfl
  dsimp only
  by_cases h1 : (designRows 0 st.coeffs).length ≠ f.length
  · simp only [if_pos h1]
    rfl
  simp only [if_neg h1]
  by_cases h2 : v.length ≠ f.length
  · simp only [if_pos h2]
    rfl
  simp only [if_neg h2]
  rcases sparseLeastSquares solve _ _ with e | ⟨x, l, v⟩
  · rfl
  · rfl

theorem piecewiseCubic_shl (solve : Solver K) (d : K) (f : List K) (v : List (V3 K)) (size : K) (n : Nat) :
    piecewiseCubic solve (shl d f) v size n = piecewiseCubic solve f v size n := by
  have aux : ∀ w : List K, OutRel (fun a b => b.estObs = a.estObs) (cubicApprox solve f w size n)
      (cubicApprox solve (shl d f) w size n) := by
    intro w
    have := cubicApprox_shl solve d f w size n
    revert this
    rcases cubicApprox solve f w size n with e | a <;> rcases cubicApprox solve (shl d f) w size n with e' | b <;>
      intro this <;> simp only [Except.map, Except.error.injEq, Except.ok.injEq, reduceCtorEq] at this
    · exact this.symm
    · exact this
  unfold piecewiseCubic
  have h1 := aux (v.map V3.x)
  have h2 := aux (v.map V3.y)
  have h3 := aux (v.map V3.z)
  revert h1 h2 h3
  dsimp only [bind, Except.bind, pure, Except.pure]
  rcases cubicApprox solve f (v.map V3.x) size n with e | a <;>
    rcases cubicApprox solve (shl d f) (v.map V3.x) size n with e' | a' <;> intro h1 h2 h3 <;>
    simp only [OutRel] at h1
  · rw [h1]
  revert h2 h3
  rcases cubicApprox solve f (v.map V3.y) size n with e | b <;>
    rcases cubicApprox solve (shl d f) (v.map V3.y) size n with e' | b' <;> intro h2 h3 <;>
    simp only [OutRel] at h2
  · rw [h2]
  revert h3
  rcases cubicApprox solve f (v.map V3.z) size n with e | c <;>
    rcases cubicApprox solve (shl d f) (v.map V3.z) size n with e' | c' <;> intro h3 <;>
    simp only [OutRel] at h3
  · rw [h3]
  · dsimp only
    rw [h1, h2, h3]

theorem windowExt_even {rnd : K → K} (hr : RoundsAlike rnd) (k : Int) (f : List K) (w : K) (hw : w ≠ 0) :
    windowExt rnd (shl (2 * (k : K) * w) f) w = windowExt rnd f w := by
  unfold windowExt
  have e1 : (shl (2 * (k : K) * w) f).map (fun x => rnd (x / w))
      = (f.map (fun x => rnd (x / w))).map (fun y => y + 2 * (k : K)) := by
    rw [List.map_map, List.map_map]
    apply List.map_congr_left
    intro x _
    simp only [Function.comp_apply]
    rw [add_div, mul_div_cancel_right₀ _ hw, hr]
  rw [e1, List.dedup_map_of_injective (fun a b h => add_right_cancel h)]
  simp only [List.length_map]

/-- **C176**, positive part for the approximation of trajectories with orientations: it does not change if the new
origin is an even number of window lengths away.  Missing for the full property: other origins, see
`C176_orientations_depend_on_origin`. -/
theorem C176_approximation_partial (lib : Lib K R) (solve : Solver K) (size w : K) (n : Nat) (rnd : K → K)
    (mean : List R → Except Err R) (ha : SortsAlike lib.argsort)
    (hc : lib.cubic = fun f x => piecewiseCubic solve f x size n)
    (hm : lib.rotAvg = fun f q => rotAverageWindow rnd mean f q w) (hr : RoundsAlike rnd) (hw : w ≠ 0) (k : Int)
    (r : Nat) (inplace : Bool) (h : Heap K R) :
    run lib .approximate r inplace (h.map (Traj.later (2 * (k : K) * w)))
      = ((run lib .approximate r inplace h).1, (run lib .approximate r inplace h).2.map (Traj.later (2 * (k : K) * w))) := by
  refine Lock.run_eq ?_ h
  refine HLat.approximate ha lib.argsortN _ ?_ ?_ r inplace
  · intro f x
    rw [hc]
    exact piecewiseCubic_shl solve _ f x size n
  · intro f x
    rw [hm]
    dsimp only
    unfold rotAverageWindow
    rw [windowExt_even hr k f w hw]

/-- **C176**: the approximation of a trajectory without orientations does not depend on the origin of the time scale. -/
theorem C176_approximated_positions (lib : Lib K R) (solve : Solver K) (size : K) (n : Nat) (ha : SortsAlike lib.argsort)
    (hc : lib.cubic = fun f x => piecewiseCubic solve f x size n) (d : K) (r : Nat) (inplace : Bool) (h : Heap K R)
    (T : Traj K R) (hT : h[r]? = some T) (hrot : T.rot = none) :
    run lib .approximate r inplace (h.map (Traj.later d))
      = ((run lib .approximate r inplace h).1, (run lib .approximate r inplace h).2.map (Traj.later d)) := by
  have indep : ∀ (g : Heap K R) (T : Traj K R), g[r]? = some T → T.rot = none →
      H.approximate lib.argsort lib.argsortN lib.cubic lib.rotAvg r inplace g
        = H.approximate lib.argsort lib.argsortN lib.cubic (fun _ q => .ok q) r inplace g := by
    intro g T hg hn
    unfold H.approximate
    simp only [SE.run_bind, TC.rd, hg, SE.lift]
    rcases T.functionOf lib.argsort with e | f
    · rfl
    rcases T.xyz lib.argsort with e | x
    · rfl
    dsimp only
    rcases lib.cubic f x with e | xa
    · rfl
    dsimp only
    have hs : ∃ s, (selfOrCopy inplace r g) = (.ok s, if inplace then g else g ++ [T]) ∧
        (if inplace then g else g ++ [T])[r]? = some T ∧ (if inplace then g else g ++ [T])[s]? = some T := by
      cases inplace
      · refine ⟨g.length, ?_, ?_, ?_⟩
        · simp [selfOrCopy, TC.copyRef, hg]
        · have hlt := (List.getElem?_eq_some_iff.1 hg).1
          simpa [List.getElem?_append_left hlt] using hg
        · simp
      · exact ⟨r, rfl, hg, hg⟩
    obtain ⟨s, e1, e2, e3⟩ := hs
    rw [e1]
    dsimp only
    rw [e2]
    dsimp only
    rcases Traj.take xa (T.sortSwitchingIndex lib.argsort lib.argsortN) with e | p
    · rfl
    dsimp only
    unfold TC.onRef
    rw [e3]
    dsimp only [SE.modify]
    have hslt := (List.getElem?_eq_some_iff.1 e3).1
    rw [List.getElem?_set_self hslt]
    dsimp only
    rw [hn]
  unfold H.run
  dsimp only
  rw [indep h T hT hrot, indep (h.map (Traj.later d)) (T.later d) (by rw [List.getElem?_map, hT]; rfl) hrot]
  refine Lock.run_eq ?_ h
  refine HLat.approximate ha lib.argsortN d ?_ (fun _ _ => rfl) r inplace
  intro f x
  rw [hc]
  exact piecewiseCubic_shl solve d f x size n

end

/-! ### orientations -/

/-- ten samples, a tenth of a second apart, from 0.05 s to 0.95 s -/
def tenSamples : List ℚ := (List.range 10).map (fun i : Nat => (i : ℚ) / 10 + 1 / 20)

/-- half a second later -/
def tenSamplesLater : List ℚ := tenSamples.map (fun t => t + 1 / 2)

theorem averageRows_some {mean : List R → Except Err R} (hm : ∀ l, l ≠ [] → ∃ q, mean l = .ok q) (q : List R) (e : Nat) :
    ∀ is : List Nat, (∀ i ∈ is, window q e i ≠ []) → ∃ r, averageRows mean q e is = .ok r
  | [], _ => ⟨[], rfl⟩
  | i :: is, h => by
    obtain ⟨x, hx⟩ := hm _ (h i (List.mem_cons_self ..))
    obtain ⟨r, hr⟩ := averageRows_some hm q e is fun j hj => h j (List.mem_cons_of_mem _ hj)
    exact ⟨x :: r, by simp [averageRows, hx, hr, bind, Except.bind, pure, Except.pure]⟩

theorem averageRows_first {mean : List R → Except Err R} {q : List R} {e i : Nat} {is : List Nat} {r : List R}
    (h : averageRows mean q e (i :: is) = .ok r) : ∃ x xs, mean (window q e i) = .ok x ∧ r = x :: xs := by
  unfold averageRows at h
  rcases h1 : mean (window q e i) with er | x
  · rw [h1] at h; cases h
  rw [h1] at h
  simp only [bind, Except.bind] at h
  rcases h2 : averageRows mean q e is with er | xs
  · rw [h2] at h; cases h
  · rw [h2] at h
    injection h with h
    exact ⟨x, xs, rfl, h.symm⟩

/-- **C176**, negation for the approximation of orientations: with a window of one second, ten samples within one second
are averaged over windows of half a second if they start at 0.05 s and over windows of one second if they start at
0.55 s.  For every rounding to the nearest integer and every mean by which two equal orientations stay and three of one
and two of another do not give the first. -/
theorem C176_orientations_depend_on_origin (rnd : ℚ → ℚ) (hr : ∀ (x : ℚ) (k : Int), |x - k| < 1 / 2 → rnd x = k)
    (mean : List R → Except Err R) (hm : ∀ l, l ≠ [] → ∃ q, mean l = .ok q) (a b : R) (h1 : mean [a, a] = .ok a) (h2 : mean [a, a, a, b, b] ≠ .ok a) :
    rotAverageWindow rnd mean tenSamplesLater [a, a, a, b, b, b, b, b, b, b] 1
      ≠ rotAverageWindow rnd mean tenSamples [a, a, a, b, b, b, b, b, b, b] 1 := by
  have w1 : windowExt rnd tenSamples 1 = .ok 2 := by
    have e : tenSamples.map (fun x => rnd (x / 1)) = [0, 0, 0, 0, 0, 1, 1, 1, 1, 1] := by
      have z : ∀ x : ℚ, |x| < 1 / 2 → rnd x = 0 := fun x hx => by simpa using hr x 0 (by simpa using hx)
      have o : ∀ x : ℚ, |x - 1| < 1 / 2 → rnd x = 1 := fun x hx => by simpa using hr x 1 (by simpa using hx)
      simp only [tenSamples, List.range, List.range.loop, List.map_cons, List.map_nil]
      refine List.cons_eq_cons.2 ⟨z _ (by norm_num [abs_lt]), ?_⟩
      refine List.cons_eq_cons.2 ⟨z _ (by norm_num [abs_lt]), ?_⟩
      refine List.cons_eq_cons.2 ⟨z _ (by norm_num [abs_lt]), ?_⟩
      refine List.cons_eq_cons.2 ⟨z _ (by norm_num [abs_lt]), ?_⟩
      refine List.cons_eq_cons.2 ⟨z _ (by norm_num [abs_lt]), ?_⟩
      refine List.cons_eq_cons.2 ⟨o _ (by norm_num [abs_lt]), ?_⟩
      refine List.cons_eq_cons.2 ⟨o _ (by norm_num [abs_lt]), ?_⟩
      refine List.cons_eq_cons.2 ⟨o _ (by norm_num [abs_lt]), ?_⟩
      refine List.cons_eq_cons.2 ⟨o _ (by norm_num [abs_lt]), ?_⟩
      exact List.cons_eq_cons.2 ⟨o _ (by norm_num [abs_lt]), rfl⟩
    unfold windowExt
    rw [e]
    decide +kernel
  have w2 : windowExt rnd tenSamplesLater 1 = .ok 5 := by
    have e : tenSamplesLater.map (fun x => rnd (x / 1)) = [1, 1, 1, 1, 1, 1, 1, 1, 1, 1] := by
      have o : ∀ x : ℚ, |x - 1| < 1 / 2 → rnd x = 1 := fun x hx => by simpa using hr x 1 (by simpa using hx)
      simp only [tenSamplesLater, tenSamples, List.range, List.range.loop, List.map_cons, List.map_nil]
      refine List.cons_eq_cons.2 ⟨o _ (by norm_num [abs_lt]), ?_⟩
      refine List.cons_eq_cons.2 ⟨o _ (by norm_num [abs_lt]), ?_⟩
      refine List.cons_eq_cons.2 ⟨o _ (by norm_num [abs_lt]), ?_⟩
      refine List.cons_eq_cons.2 ⟨o _ (by norm_num [abs_lt]), ?_⟩
      refine List.cons_eq_cons.2 ⟨o _ (by norm_num [abs_lt]), ?_⟩
      refine List.cons_eq_cons.2 ⟨o _ (by norm_num [abs_lt]), ?_⟩
      refine List.cons_eq_cons.2 ⟨o _ (by norm_num [abs_lt]), ?_⟩
      refine List.cons_eq_cons.2 ⟨o _ (by norm_num [abs_lt]), ?_⟩
      refine List.cons_eq_cons.2 ⟨o _ (by norm_num [abs_lt]), ?_⟩
      exact List.cons_eq_cons.2 ⟨o _ (by norm_num [abs_lt]), rfl⟩
    unfold windowExt
    rw [e]
    decide +kernel
  intro heq
  unfold rotAverageWindow at heq
  rw [w1, w2] at heq
  simp only [bind, Except.bind, OfNat.ofNat_ne_zero, if_false, List.length_cons, List.length_nil] at heq
  obtain ⟨r, hr1⟩ := averageRows_some hm [a, a, a, b, b, b, b, b, b, b] 2 (List.range 10) (by
    intro i hi
    have : i < 10 := List.mem_range.1 hi
    interval_cases i <;> simp [window])
  have e10 : List.range 10 = 0 :: [1, 2, 3, 4, 5, 6, 7, 8, 9] := rfl
  have heq2 : averageRows mean [a, a, a, b, b, b, b, b, b, b] 5 (List.range 10)
      = averageRows mean [a, a, a, b, b, b, b, b, b, b] 2 (List.range 10) := heq
  rw [hr1] at heq2
  rw [e10] at heq2 hr1
  obtain ⟨x, xs, h3, h4⟩ := averageRows_first hr1
  obtain ⟨y, ys, h5, h6⟩ := averageRows_first heq2
  rw [h4] at h6
  injection h6 with h6 _
  have h3' : mean [a, a] = .ok x := h3
  have h5' : mean [a, a, a, b, b] = .ok y := h5
  rw [h1] at h3'
  injection h3' with h3'
  rw [← h6, ← h3'] at h5'
  exact h2 h5'

/-! ### examples -/

theorem bestFrom_shl (d p : K) : ∀ (ref : List K) (i : Nat),
    bestFrom (fun a b => |a - b|) (p + d) (shl d ref) i = bestFrom (fun a b => |a - b|) p ref i
  | [], _ => rfl
  | q :: qs, i => by
    simp only [List.map_cons, bestFrom, bestFrom_shl d p qs, add_sub_add_right_eq_sub]

/-- searching all points of time one by one -/
theorem bruteQuery_originFree : OriginFree (bruteQuery (fun a b : K => |a - b|)) := by
  intro d ref b test
  unfold bruteQuery
  rw [List.map_map]
  apply List.map_congr_left
  intro p _
  simp only [Function.comp_apply, bestWithin]
  rw [bestFrom_shl]

/-- The hypotheses of `C176_match`, `C176_alignment`, `C176_ate` and `C176_rpe` are met. -/
example : OriginFree exMetric.mat.queryT := bruteQuery_originFree

/-- also with matching along lines -/
example : ((ate exMetric 0 (exProc .nearestSpatialInterpolated) 1 0 [exEst, exGt]).1.toOption.bind id).isSome = true ∧
    ((ate exMetric 0 (exProc .nearestSpatialInterpolated) 1 0 [exEst.later 43200, exGt.later 43200]).1.toOption.bind id).isSome
      = true := by
  decide +kernel

/-- seconds since the start and seconds since midnight: the same errors -/
example : ((ate exMetric 0 (exProc .nearestTemporal) 1 0 [exEst, exGt]).1.toOption.bind id).isSome = true ∧
    ((ate exMetric 0 (exProc .nearestTemporal) 1 0 [exEst.later 43200, exGt.later 43200]).1.toOption.bind id).map (fun r => r.1.trajectory.tstamps)
      = some [43200, 43201] := by
  decide +kernel

/-- rounding and a mean as in `C176_orientations_depend_on_origin`: angles about one axis -/
example : (∀ (x : ℚ) (k : Int), |x - k| < 1 / 2 → ((round x : Int) : ℚ) = k) ∧ RoundsAlike (fun x : ℚ => ((round x : Int) : ℚ)) := by
  refine ⟨?_, ?_⟩
  · intro x k h
    have h1 := abs_lt.1 h
    have : round x = k := by
      rw [round_eq, Int.floor_eq_iff]
      constructor <;> linarith [h1.1, h1.2]
    rw [this]
  · intro x k
    have := round_add_intCast x (2 * k)
    push_cast at this
    show ((round (x + 2 * (k : ℚ)) : Int) : ℚ) = ((round x : Int) : ℚ) + 2 * (k : ℚ)
    rw [this]
    push_cast
    rfl

example : (rotAverageWindow (fun x : ℚ => ((round x : Int) : ℚ)) (fun l => .ok (l.sum / (l.length : ℚ))) tenSamples
      [(0 : ℚ), 0, 0, 1, 1, 1, 1, 1, 1, 1] 1).toOption.bind List.head? = some (0 : ℚ) ∧
    (rotAverageWindow (fun x : ℚ => ((round x : Int) : ℚ)) (fun l => .ok (l.sum / (l.length : ℚ))) tenSamplesLater
      [(0 : ℚ), 0, 0, 1, 1, 1, 1, 1, 1, 1] 1).toOption.bind List.head? = some (2 / 5 : ℚ) := by
  decide +kernel

/-- a sorting order as in `C176_approximation_partial`: positions ordered by their values -/
example : SortsAlike (fun l : List ℚ => (l.zipIdx.insertionSort (fun a b => a.1 ≤ b.1)).map Prod.snd) := by
  intro d l
  have e : (l.map (fun t => t + d)).zipIdx = l.zipIdx.map (fun c => (c.1 + d, c.2)) := by
    rw [List.zipIdx_map]; rfl
  simp only [e]
  rw [← List.map_insertionSort (r := fun a b : ℚ × Nat => a.1 ≤ b.1) (s := fun a b : ℚ × Nat => a.1 ≤ b.1)
    (f := fun c : ℚ × Nat => (c.1 + d, c.2)) (l := l.zipIdx) (fun a _ b _ => by simp), List.map_map]
  rfl

end TC
