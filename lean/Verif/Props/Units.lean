import Verif.Proofs.Units
import Verif.Props.Ate
import Verif.Props.Metrics
/-!
# C178: another unit of length
-/
namespace TC
set_option linter.unusedSectionVars false
set_option linter.unusedSimpArgs false
open H
variable {K R : Type} [Field K] [LinearOrder K] [IsStrictOrderedRing K]

theorem HScl.run_eq {α : Type} {c : K} {m m' : SE (Heap K R) α} (hm : Lock (HScl c) Eq m m') (h : Heap K R) :
    m' (h.map (Traj.rescaled c)) = ((m h).1, (m h).2.map (Traj.rescaled c)) := by
  obtain ⟨h1, h2⟩ := hm h _ rfl
  exact Prod.ext h1.eq.symm h2

/-- **C178**: a trajectory built from positions in another unit is the same trajectory in that unit: arc lengths and
speeds computed from the positions are in it, too; or the same exception is raised. -/
theorem C178_construct {nrm : V3 K → K} (hn : IsNorm nrm) (n : Nat) (a : TrajArgs K R) (c : K) (hc : 0 < c) :
    Traj.new nrm n (a.rescaled c) = (Traj.new nrm n a).map (Traj.rescaled c) := by
  obtain ⟨pos, epsg, rot, ts, name, arc, speed, sorting⟩ := a
  have fin : ∀ (o : Except Err Unit) (g : Except Err (List (V3 K))) (t l : List K) (nm : String),
      (match o with
        | Except.error e => (Except.error e : Except Err (Traj K R))
        | Except.ok _ => match g.map (sclV c) with
          | Except.error e => Except.error e
          | Except.ok v => Except.ok ⟨t, sclV c pos, rot, scl c l, v, sorting, nm, epsg⟩)
      = Except.map (Traj.rescaled c) (match o with
        | Except.error e => (Except.error e : Except Err (Traj K R))
        | Except.ok _ => match g with
          | Except.error e => Except.error e
          | Except.ok v => Except.ok ⟨t, pos, rot, l, v, sorting, nm, epsg⟩) := by
    intro o g t l nm
    rcases o with e | _
    · rfl
    rcases g with e | v <;> rfl
  have closed : ∀ (pos : List (V3 K)) (arc : Option (List K)) (speed : Option (List (V3 K))),
      (Traj.new nrm n ⟨pos, epsg, rot, ts, name, arc, speed, sorting⟩ : Except Err (Traj K R))
      = (match (match rot with
          | some r => if r.length ≠ pos.length then .error Err.valueError else .ok ()
          | none => .ok () : Except Err Unit) with
        | .error e => .error e
        | .ok _ => match (match speed with
            | some v => if v.length = pos.length then .ok v else gradient3d pos (match ts with
              | none => (List.range pos.length).map (fun i : Nat => (i : K))
              | some t => t)
            | none => gradient3d pos (match ts with
              | none => (List.range pos.length).map (fun i : Nat => (i : K))
              | some t => t) : Except Err (List (V3 K))) with
          | .error e => .error e
          | .ok v => .ok ⟨match ts with
              | none => (List.range pos.length).map (fun i : Nat => (i : K))
              | some t => t, pos, rot, match arc with
              | some l => if l.length = pos.length then l else lengthsFromXyz nrm pos
              | none => lengthsFromXyz nrm pos, v, sorting,
              if name = "" then "Trajectory " ++ toString n else name, epsg⟩) := by
    intro pos arc speed
    unfold Traj.new
    simp only [bind, Except.bind, pure, Except.pure, throw, throwThe, MonadExceptOf.throw]
    rcases rot with _ | r
    · rcases speed with _ | v
      · dsimp only
        rcases gradient3d pos _ with e | v <;> rfl
      · dsimp only
        by_cases h' : v.length = pos.length
        · simp only [if_pos h']
          rfl
        · simp only [if_neg h']
          rcases gradient3d pos _ with e | v <;> rfl
    · dsimp only
      by_cases h : r.length ≠ pos.length
      · simp only [if_pos h]
      · simp only [if_neg h]
        rcases speed with _ | v
        · dsimp only
          rcases gradient3d pos _ with e | v <;> rfl
        · dsimp only
          by_cases h' : v.length = pos.length
          · simp only [if_pos h']
            rfl
          · simp only [if_neg h']
            rcases gradient3d pos _ with e | v <;> rfl
  simp only [TrajArgs.rescaled, closed, List.length_map]
  rw [← fin]
  have hp : List.map (fun p => c • p) pos = sclV c pos := rfl
  rw [hp, lengthsFromXyz_scl hn hc]
  generalize (match ts with
    | none => (List.range pos.length).map (fun i : Nat => (i : K))
    | some t => t) = t
  rw [gradient3d_scl]
  have harc : (match Option.map (List.map fun l => c * l) arc with
        | some l => if l.length = pos.length then l else scl c (lengthsFromXyz nrm pos)
        | none => scl c (lengthsFromXyz nrm pos)) = scl c (match arc with
        | some l => if l.length = pos.length then l else lengthsFromXyz nrm pos
        | none => lengthsFromXyz nrm pos) := by
    rcases arc with _ | l
    · rfl
    · simp only [Option.map_some, List.length_map]
      split <;> rfl
  have hv : (match Option.map (List.map fun v => c • v) speed with
      | some v => if v.length = pos.length then Except.ok v else (gradient3d pos t).map (sclV c)
      | none => (gradient3d pos t).map (sclV c)) = Except.map (sclV c) (match speed with
      | some v => if v.length = pos.length then Except.ok v else gradient3d pos t
      | none => gradient3d pos t) := by
    rcases speed with _ | l
    · rfl
    · simp only [Option.map_some, List.length_map]
      split <;> rfl
  rw [harc, hv]

/-- **C178**: whatever a method does to a set of trajectories it does with lengths in another unit.  (Sorting along the
path and the approximations have settings of their own and are left out.) -/
theorem C178_methods (lib : Lib K R) (c : K) (f : Call K R) (h1 : f ≠ .approximate) (h2 : f ≠ .sortSpatially) (r : Nat)
    (inplace : Bool) (h : Heap K R) :
    run lib (f.rescaled c) r inplace (h.map (Traj.rescaled c))
      = ((run lib f r inplace h).1, (run lib f r inplace h).2.map (Traj.rescaled c)) := by
  refine HScl.run_eq ?_ h
  rcases f with i | ⟨a, b, v⟩ | ts | ts | ⟨ts, g⟩ | A | ⟨q, o⟩ | _ | _ | t | t | t
  · exact HScl.applyIndex c r i inplace
  · exact HScl.crop c r a b v inplace
  · exact HScl.interpolate lib.rot c r ts inplace
  · exact HScl.matchTimestamps c r ts inplace
  · exact HScl.intersect c r ts g inplace
  · exact HScl.applyTransformation lib.rot c r A inplace
  · exact HScl.applyAlignment lib.rot lib.trig lib.toEuler c r q o inplace
  · exact absurd rfl h2
  · exact absurd rfl h1
  · exact HScl.adoptFirstPosition c r t inplace
  · exact HScl.adoptFirstOrientation lib.toEuler lib.fromEuler c r t inplace
  · exact HScl.adoptFirstPose lib.toEuler lib.fromEuler c r t inplace

/-- **C178**: matching pairs the same samples in all units. -/
theorem C178_match (lib : MatchLib K R) (hq : UnitFree lib.queryP) (c : K) (hc : 0 < c) (n f t : Nat) (s : MatchingSettings K)
    (hs : s.method ≠ .nearestSpatialInterpolated) (inplace : Bool) (h : Heap K R) :
    matchTrajectories lib n f t (s.rescaled c) inplace (h.map (Traj.rescaled c))
      = ((matchTrajectories lib n f t s inplace h).1, (matchTrajectories lib n f t s inplace h).2.map (Traj.rescaled c)) :=
  HScl.run_eq (HScl.matchTrajectories hq hc n f t s hs inplace) h

/-- **C178**: the deviations of an absolute comparison are the same in the other unit, those of orientations do not
change; exceptions are the same. -/
theorem C178_absolute (E : EvalLib K) (hE : IsEvalLib E) (L : RotLib K R) (c : K) (hc : 0 < c) (T U : Traj K R) :
    compareAbsolute E L (T.rescaled c) (U.rescaled c) = (compareAbsolute E L T U).map (AteResult.rescaled c) := by
  have hd : directedDeviations E L (sclV c U.pos) (sclV c T.pos) (rotEither U.rot T.rot)
      = (directedDeviations E L U.pos T.pos (rotEither U.rot T.rot)).map (sclV c) := by
    unfold directedDeviations
    rcases rotEither U.rot T.rot with _ | r
    · unfold devDirectionsNoRot
      simp only [List.length_map]
      exact mapE_map_out _ (devNoRot_scl hE hc U.pos T.pos) _
    · exact devWithRot_scl c _ _ _
  unfold compareAbsolute
  simp only [show (T.rescaled c).pos = sclV c T.pos from rfl, show (U.rescaled c).pos = sclV c U.pos from rfl,
    show (T.rescaled c).rot = T.rot from rfl, show (U.rescaled c).rot = U.rot from rfl,
    show (T.rescaled c).name = T.name from rfl, show (U.rescaled c).name = U.name from rfl, bind, Except.bind, pure,
    Except.pure, hd, bcast_scl]
  rcases bcast (fun a b => a - b) U.pos T.pos with e | p
  · rfl
  simp only [Except.map]
  rcases directedDeviations E L U.pos T.pos (rotEither U.rot T.rot) with e | q
  · rfl
  dsimp only
  rcases U.rot with _ | r
  · rfl
  rcases T.rot with _ | t
  · rfl
  dsimp only
  rcases bcast (fun a b => L.mul a (L.inv b)) r t with e | o
  · rfl
  · rfl

/-! ### statistics -/

theorem sum_scl (c : K) : ∀ l : List K, (scl c l).sum = c * l.sum
  | [] => by simp
  | a :: l => by
    have := sum_scl c l
    simp only [scl, List.map_cons, List.sum_cons] at this ⊢
    rw [this]
    ring

theorem npMean_scl (c : K) (l : List K) : npMean (scl c l) = (npMean l).map (fun x => c * x) := by
  unfold npMean
  rw [List.length_map, sum_scl]
  split
  · rfl
  · simp only [Except.map, mul_div_assoc]

theorem rms_scl {E : EvalLib K} (hE : IsEvalLib E) {c : K} (hc : 0 < c) (l : List K) :
    rms E (scl c l) = (rms E l).map (fun x => c * x) := by
  unfold rms
  have e : (scl c l).map (fun x => x ^ 2) = scl (c ^ 2) (l.map (fun x => x ^ 2)) := by
    simp only [List.map_map, Function.comp_def, mul_pow]
  rw [e, npMean_scl]
  unfold npMean
  split
  · rfl
  · simp only [Except.map, bind, Except.bind, pure, Except.pure, Except.ok.injEq]
    refine sqrt_scl hE hc _ (div_nonneg (List.sum_nonneg ?_) (Nat.cast_nonneg _))
    intro x hx
    obtain ⟨y, -, rfl⟩ := List.mem_map.1 hx
    exact sq_nonneg y

theorem npStd_scl {E : EvalLib K} (hE : IsEvalLib E) {c : K} (hc : 0 < c) (l : List K) :
    npStd E (scl c l) = (npStd E l).map (fun x => c * x) := by
  unfold npStd
  rw [npMean_scl]
  rcases npMean l with e | m
  · rfl
  have e : (scl c l).map (fun x => (x - c * m) ^ 2) = scl (c ^ 2) (l.map (fun x => (x - m) ^ 2)) := by
    simp only [List.map_map, Function.comp_def, ← mul_sub, mul_pow]
  simp only [Except.map, bind, Except.bind, e, npMean_scl]
  unfold npMean
  by_cases h0 : (l.map (fun x => (x - m) ^ 2)).length = 0
  · simp only [if_pos h0]
  · simp only [if_neg h0, pure, Except.pure, Except.ok.injEq]
    refine sqrt_scl hE hc _ (div_nonneg (List.sum_nonneg ?_) (Nat.cast_nonneg _))
    intro x hx
    obtain ⟨y, -, rfl⟩ := List.mem_map.1 hx
    exact sq_nonneg _

theorem npSort_scl {c : K} (hc : 0 < c) (l : List K) : npSort (scl c l) = scl c (npSort l) :=
  (List.map_insertionSort (r := (· ≤ ·)) (s := (· ≤ ·)) (f := fun t => c * t) (l := l)
    (fun _ _ _ _ => (mul_le_mul_iff_right₀ hc).symm)).symm

theorem npMedian_scl {c : K} (hc : 0 < c) (l : List K) : npMedian (scl c l) = (npMedian l).map (fun x => c * x) := by
  unfold npMedian
  simp only [npSort_scl hc, List.length_map, npGet_scl]
  by_cases h0 : (npSort l).length = 0
  · simp only [if_pos h0]
    rfl
  simp only [if_neg h0, bind, Except.bind, pure, Except.pure]
  split
  · rfl
  · rcases npGet (npSort l) (((npSort l).length / 2 : Nat) : Int) with e | b
    · rfl
    rcases npGet (npSort l) (((npSort l).length / 2 - 1 : Nat) : Int) with e | a
    · rfl
    simp only [Except.map, Except.ok.injEq]
    ring

theorem pyMax_scl {c : K} (hc : 0 < c) (l : List K) : pyMax (scl c l) = (pyMax l).map (fun x => c * x) := by
  have f : ∀ (l : List K) (a : K), (scl c l).foldl max (c * a) = c * l.foldl max a := by
    intro l
    induction l with
    | nil => intro a; rfl
    | cons x l ih =>
      intro a
      simp only [scl, List.map_cons, List.foldl_cons] at ih ⊢
      rw [← mul_max_of_nonneg _ _ hc.le, ih]
  rcases l with _ | ⟨a, l⟩
  · rfl
  · simp only [scl, List.map_cons, pyMax, Except.map]
    exact congrArg _ (f l a)

theorem pyMin_scl {c : K} (hc : 0 < c) (l : List K) : pyMin (scl c l) = (pyMin l).map (fun x => c * x) := by
  have f : ∀ (l : List K) (a : K), (scl c l).foldl min (c * a) = c * l.foldl min a := by
    intro l
    induction l with
    | nil => intro a; rfl
    | cons x l ih =>
      intro a
      simp only [scl, List.map_cons, List.foldl_cons] at ih ⊢
      rw [← mul_min_of_nonneg _ _ hc.le, ih]
  rcases l with _ | ⟨a, l⟩
  · rfl
  · simp only [scl, List.map_cons, pyMin, Except.map]
    exact congrArg _ (f l a)

/-- **C178**: all statistics of the deviations of positions are lengths, those of orientations are not. -/
theorem C178_statistics (E : EvalLib K) (hE : IsEvalLib E) (L : RotLib K R) (c : K) (hc : 0 < c) (r : AteResult K R) :
    (∀ f ∈ [AteResult.posAte E, AteResult.posDevRms E, AteResult.posDevStd E, AteResult.posDevMedian E,
        AteResult.posDevMax E, AteResult.posDevMin E, AteResult.posRmsX E, AteResult.posRmsY E, AteResult.posRmsZ E,
        AteResult.posRmsAlong E, AteResult.posRmsCrossH E, AteResult.posRmsCrossV E, AteResult.posBiasX,
        AteResult.posBiasY, AteResult.posBiasZ, AteResult.posBiasAlong, AteResult.posBiasCrossH, AteResult.posBiasCrossV],
      f (r.rescaled c) = (f r).map (fun x => c * x)) ∧
    (∀ f ∈ [AteResult.rotAte E L, AteResult.rotDevRms E L, AteResult.rotDevStd E L, AteResult.rotDevMedian E L,
        AteResult.rotDevMax E L, AteResult.rotDevMin E L], f (r.rescaled c) = f r) := by
  have hn : (r.rescaled c).posDevComb E = scl c (r.posDevComb E) := by
    unfold AteResult.posDevComb
    simp only [AteResult.rescaled, List.map_map]
    exact List.map_congr_left fun v _ => nrm_scl hE.nrm hc v
  have hp : ∀ (g : V3 K → K) (_ : ∀ v, g (c • v) = c * g v), (r.rescaled c).posDev.map g = scl c (r.posDev.map g) := by
    intro g hg
    simp only [AteResult.rescaled, List.map_map]
    exact List.map_congr_left fun v _ => hg v
  have hd : ∀ (g : V3 K → K) (_ : ∀ v, g (c • v) = c * g v), (r.rescaled c).directed.map g = scl c (r.directed.map g) := by
    intro g hg
    simp only [AteResult.rescaled, List.map_map]
    exact List.map_congr_left fun v _ => hg v
  have hr : (r.rescaled c).rotDevComb E L = r.rotDevComb E L := by
    unfold AteResult.rotDevComb
    simp only [AteResult.rescaled, List.length_map]
  constructor
  · simp only [List.forall_mem_cons, List.not_mem_nil, false_imp_iff, implies_true, and_true]
    unfold AteResult.posAte AteResult.posDevRms AteResult.posDevStd AteResult.posDevMedian AteResult.posDevMax
      AteResult.posDevMin AteResult.posRmsX AteResult.posRmsY AteResult.posRmsZ AteResult.posRmsAlong
      AteResult.posRmsCrossH AteResult.posRmsCrossV AteResult.posBiasX AteResult.posBiasY AteResult.posBiasZ
      AteResult.posBiasAlong AteResult.posBiasCrossH AteResult.posBiasCrossV
    rw [hn, hp V3.x fun _ => rfl, hp V3.y fun _ => rfl, hp V3.z fun _ => rfl, hd V3.x fun _ => rfl,
      hd V3.y fun _ => rfl, hd V3.z fun _ => rfl]
    exact ⟨npMean_scl c _, rms_scl hE hc _, npStd_scl hE hc _, npMedian_scl hc _, pyMax_scl hc _, pyMin_scl hc _,
      rms_scl hE hc _, rms_scl hE hc _, rms_scl hE hc _, rms_scl hE hc _, rms_scl hE hc _, rms_scl hE hc _,
      npMean_scl c _, npMean_scl c _, npMean_scl c _, npMean_scl c _, npMean_scl c _, npMean_scl c _⟩
  · simp only [List.forall_mem_cons, List.not_mem_nil, false_imp_iff, implies_true, and_true]
    unfold AteResult.rotAte AteResult.rotDevRms AteResult.rotDevStd AteResult.rotDevMedian
      AteResult.rotDevMax AteResult.rotDevMin
    rw [hr]
    exact ⟨rfl, rfl, rfl, rfl, rfl, rfl⟩

/-! ### relative errors -/

theorem searchLeft_scl {c : K} (hc : 0 < c) (l : List K) (x : K) : searchLeft (scl c l) (c * x) = searchLeft l x := by
  simp only [searchLeft, List.countP_map, Function.comp_def, mul_lt_mul_iff_right₀ hc]

theorem mapE_of_map {α β γ : Type} (f : β → Except Err γ) (g : α → β) : ∀ l : List α,
    mapE f (l.map g) = mapE (fun a => f (g a)) l
  | [] => rfl
  | a :: l => by simp only [List.map_cons, mapE, mapE_of_map f g l]

theorem mkPose_scl_mul (A B : M3 K) (s t : V3 K) : mkPose A s * mkPose B t = mkPose (A * B) (mulV A t + s) := by
  ext i j
  fin_cases i <;> fin_cases j <;>
    simp [mkPose, mulV, Matrix.mul_apply, Fin.sum_univ_four, Fin.sum_univ_three]

/-- the relative error of two pairs of poses -/
theorem poseErr_scl (c : K) (G0 G1 T0 T1 : M3 K) (g0 g1 t0 t1 : V3 K) : ∃ (M : M3 K) (v : V3 K),
    se3Inv (se3Inv (mkPose G0 g0) * mkPose G1 g1) * (se3Inv (mkPose T0 t0) * mkPose T1 t1) = mkPose M v ∧
    se3Inv (se3Inv (mkPose G0 (c • g0)) * mkPose G1 (c • g1)) * (se3Inv (mkPose T0 (c • t0)) * mkPose T1 (c • t1))
      = mkPose M (c • v) := by
  unfold se3Inv
  simp only [posePos_mkPose, poseRot_mkPose, mkPose_scl_mul, mulV_smul, ← smul_neg, ← smul_add]
  exact ⟨_, _, rfl, rfl⟩

theorem npDiv_both {c : K} (hc : 0 < c) (a b : K) : npDiv (c * a) (c * b) = npDiv a b := by
  unfold npDiv
  simp only [mul_eq_zero, hc.ne', false_or]
  split
  · rfl
  · rw [mul_div_mul_left _ _ hc.ne']

theorem npDiv_num (c a b : K) : npDiv (c * a) b = (npDiv a b).map (fun x => c * x) := by
  unfold npDiv
  split
  · rfl
  · simp only [Option.map_some, mul_div_assoc]

theorem npDiv_den {c : K} (hc : 0 < c) (a b : K) : npDiv a (c * b) = (npDiv a b).map (fun x => x / c) := by
  unfold npDiv
  simp only [mul_eq_zero, hc.ne', false_or]
  split
  · rfl
  · simp only [Option.map_some, Option.some.injEq]
    rw [mul_comm, div_div]

/-- the poses of a trajectory: the list of matrices and positions -/
theorem se3_parts (L : RotLib K R) (T : Traj K R) : ∃ ps : List (M3 K × V3 K),
    T.se3 L = ps.map (fun p => mkPose p.1 p.2) ∧ ∀ c : K, (T.rescaled c).se3 L = ps.map (fun p => mkPose p.1 (c • p.2)) := by
  unfold Traj.se3
  rcases hr : T.rot with _ | r
  · refine ⟨T.pos.map (fun t => (1, t)), by rw [List.map_map]; rfl, fun c => ?_⟩
    rw [show (T.rescaled c).rot = T.rot from rfl, hr, List.map_map]
    simp only [Traj.rescaled, List.map_map]
    rfl
  · refine ⟨List.zipWith (fun t q => (L.toMat q, t)) T.pos r, by rw [List.map_zipWith], fun c => ?_⟩
    rw [show (T.rescaled c).rot = T.rot from rfl, hr, List.map_zipWith]
    simp only [Traj.rescaled, List.zipWith_map_left]

theorem translationError_scl {E : EvalLib K} (hE : IsEvalLib E) {c : K} (hc : 0 < c) (M : M3 K) (v : V3 K) :
    translationError E (mkPose M (c • v)) = c * translationError E (mkPose M v) := by
  have e : ∀ w : V3 K, translationError E (mkPose M w) = E.sqrt (w.x * w.x + w.y * w.y + w.z * w.z) := by
    intro w
    simp [translationError, mkPose]
  rw [e, e, ← sqrt_scl hE hc _ (by nlinarith [mul_self_nonneg v.x, mul_self_nonneg v.y, mul_self_nonneg v.z])]
  congr 1
  simp only [V3.smul_x, V3.smul_y, V3.smul_z]
  ring

theorem rotationError_scl (E : EvalLib K) (M : M3 K) (v w : V3 K) :
    rotationError E (mkPose M v) = rotationError E (mkPose M w) := by
  simp [rotationError, mkPose]

/-- one pair, for distances that are lengths or times -/
theorem pairDev_scl {E : EvalLib K} (hE : IsEvalLib E) (L : RotLib K R) {c : K} (hc : 0 < c) (T U : Traj K R) (D : List K)
    (x : Nat × Nat) :
    pairDev E L (T.rescaled c) (U.rescaled c) (scl c D) x = (pairDev E L T U D x).map (fun d =>
      { d with distance := c * d.distance, rot := d.rot.map (Option.map (fun y => y / c)) }) ∧
    pairDev E L (T.rescaled c) (U.rescaled c) D x = (pairDev E L T U D x).map (fun d =>
      { d with pos := d.pos.map (fun y => c * y) }) := by
  unfold pairDev
  simp only [npGet_scl, bind, Except.bind, pure, Except.pure, show (T.rescaled c).hasOrientation = T.hasOrientation from rfl,
    show (U.rescaled c).hasOrientation = U.hasOrientation from rfl]
  rcases npGet D (x.2 : Int) with e | d1
  · exact ⟨rfl, rfl⟩
  rcases npGet D (x.1 : Int) with e | d0
  · exact ⟨rfl, rfl⟩
  simp only [Except.map]
  by_cases ho : (U.hasOrientation && T.hasOrientation) = true
  · simp only [ho, if_true]
    obtain ⟨ts, ht, ht'⟩ := se3_parts L T
    obtain ⟨us, hu, hu'⟩ := se3_parts L U
    rw [ht, ht', hu, hu']
    simp only [npGet_map]
    rcases npGet us (x.1 : Int) with e | g0
    · exact ⟨rfl, rfl⟩
    rcases npGet us (x.2 : Int) with e | g1
    · exact ⟨rfl, rfl⟩
    rcases npGet ts (x.1 : Int) with e | t0
    · exact ⟨rfl, rfl⟩
    rcases npGet ts (x.2 : Int) with e | t1
    · exact ⟨rfl, rfl⟩
    simp only [Except.map]
    obtain ⟨M, v, h1, h2⟩ := poseErr_scl c g0.1 g1.1 t0.1 t1.1 g0.2 g1.2 t0.2 t1.2
    rw [h1, h2, translationError_scl hE hc, rotationError_scl E M (c • v) v, ← mul_sub, npDiv_both hc, npDiv_num, npDiv_den hc]
    exact ⟨rfl, rfl⟩
  · simp only [ho, if_false, Bool.false_eq_true]
    rw [show (T.rescaled c).pos = sclV c T.pos from rfl, show (U.rescaled c).pos = sclV c U.pos from rfl]
    simp only [npGet_map]
    rcases npGet U.pos (x.2 : Int) with e | g1
    · exact ⟨rfl, rfl⟩
    rcases npGet U.pos (x.1 : Int) with e | g0
    · exact ⟨rfl, rfl⟩
    rcases npGet T.pos (x.2 : Int) with e | t1
    · exact ⟨rfl, rfl⟩
    rcases npGet T.pos (x.1 : Int) with e | t0
    · exact ⟨rfl, rfl⟩
    simp only [Except.map]
    rw [← smul_sub, ← smul_sub, nrm_scl hE.nrm hc, nrm_scl hE.nrm hc, ← mul_sub, ← mul_sub, abs_mul, abs_of_pos hc,
      npDiv_both hc, npDiv_num]
    exact ⟨rfl, rfl⟩

section
variable [FloorRing K]

theorem arange_scl {c : K} (hc : 0 < c) (f l s : K) : arange (c * f) (c * l) (c * s) = (arange f l s).map (scl c) := by
  unfold arange arangeLen
  rw [← mul_sub, mul_div_mul_left _ _ hc.ne']
  simp only [mul_eq_zero, hc.ne', false_or]
  split
  · rfl
  · simp only [Except.map, List.map_map, Function.comp_def]
    congr 1
    apply List.map_congr_left
    intro i _
    ring

theorem pairIndices_scl {c : K} (hc : 0 < c) (D : List K) (allPairs : Bool) (dist : K) :
    pairIndices (scl c D) allPairs (c * dist) = pairIndices D allPairs dist := by
  have hF : pyFirst (scl c D) = (pyFirst D).map (fun x => c * x) := npGet_map _ _ _
  have hL : pyLast (scl c D) = (pyLast D).map (fun x => c * x) := npGet_map _ _ _
  unfold pairIndices
  cases allPairs
  · simp only [Bool.false_eq_true, if_false, hF, hL, bind, Except.bind, pure, Except.pure]
    rcases pyFirst D with e | f
    · rfl
    rcases pyLast D with e | l
    · rfl
    dsimp only [Except.map]
    rw [arange_scl hc]
    rcases arange f l dist with e | st
    · rfl
    dsimp only [Except.map]
    have : (scl c st).map (searchLeft (scl c D)) = st.map (searchLeft D) := by
      rw [List.map_map]
      apply List.map_congr_left
      intro x _
      exact searchLeft_scl hc D x
    rw [this]
  · simp only [if_true]
    rw [hL]
    rcases pyLast D with e | l
    · dsimp only [Except.map, bind, Except.bind]
      rcases D with _ | ⟨a, D⟩
      · rfl
      · simp [List.zipIdx_cons, mapE]
        rfl
    dsimp only [Except.map, bind, Except.bind, pure, Except.pure]
    rw [show (scl c D).zipIdx = D.zipIdx.map (fun x => (c * x.1, x.2)) from by
      rw [List.zipIdx_map]; rfl]
    rw [mapE_ok (g := fun x : K × Nat => if x.1 + c * dist < c * l then [(x.2, x.1 + c * dist)] else []) (fun _ _ => rfl),
      mapE_ok (g := fun x : K × Nat => if x.1 + dist < l then [(x.2, x.1 + dist)] else []) (fun _ _ => rfl)]
    dsimp only
    congr 1
    rw [List.map_map]
    have h1 : ∀ x : K × Nat, ((fun x : K × Nat => if x.1 + c * dist < c * l then [(x.2, x.1 + c * dist)] else []) ∘
        fun x => (c * x.1, x.2)) x = (if x.1 + dist < l then [(x.2, x.1 + dist)] else []).map (fun x => (x.1, c * x.2)) := by
      intro x
      simp only [Function.comp_apply, ← mul_add, mul_lt_mul_iff_right₀ hc]
      split <;> rfl
    rw [List.map_congr_left (fun c _ => h1 c)]
    rw [show (fun x : K × Nat => (if x.1 + dist < l then [(x.2, x.1 + dist)] else []).map (fun x => (x.1, c * x.2)))
      = (List.map (fun x : Nat × K => (x.1, c * x.2))) ∘ (fun c : K × Nat => if c.1 + dist < l then [(c.2, c.1 + dist)] else [])
      from rfl, ← List.map_map, ← List.map_flatten, List.map_map]
    apply List.map_congr_left
    intro x _
    simp only [Function.comp_apply]
    rw [searchLeft_scl hc]

theorem filterMap_rot_div (c : K) : ∀ l : List (PairDev K),
    (l.map (fun d => { d with distance := c * d.distance, rot := d.rot.map (Option.map (fun y => y / c)) })).filterMap PairDev.rot
      = (l.filterMap PairDev.rot).map (Option.map (fun y => y / c))
  | [] => rfl
  | ⟨a, b, none⟩ :: l => filterMap_rot_div c l
  | ⟨a, b, some r⟩ :: l => by
    have := filterMap_rot_div c l
    simp only [List.map_cons, Option.map_some, List.filterMap_cons, this]

theorem filterMap_rot_pos (c : K) : ∀ l : List (PairDev K),
    (l.map (fun d => { d with pos := d.pos.map (fun y => c * y) })).filterMap PairDev.rot = l.filterMap PairDev.rot
  | [] => rfl
  | ⟨a, b, none⟩ :: l => filterMap_rot_pos c l
  | ⟨a, b, some r⟩ :: l => by
    have := filterMap_rot_pos c l
    simp only [List.map_cons, List.filterMap_cons, this]

theorem rpeGroup_scl {E : EvalLib K} (hE : IsEvalLib E) (L : RotLib K R) {c : K} (hc : 0 < c) (T U : Traj K R)
    (s : RpeSettings K) (dist : K) :
    (s.unit = .meter → rpeGroup E L (T.rescaled c) (U.rescaled c) (s.rescaled c) (c * dist)
      = (rpeGroup E L T U s dist).map (fun g => { g with
          key := c * g.key
          rotDev := g.rotDev.map (Option.map (fun x => x / c))
          pairDist := g.pairDist.map (fun x => c * x) })) ∧
    (s.unit = .second → rpeGroup E L (T.rescaled c) (U.rescaled c) s dist
      = (rpeGroup E L T U s dist).map (fun g => { g with posDev := g.posDev.map (Option.map (fun x => c * x)) })) := by
  obtain ⟨mn, mx, st, un, ap⟩ := s
  constructor
  · intro hu
    dsimp only at hu
    subst hu
    unfold rpeGroup
    simp only [RpeSettings.rescaled, pure_bind, show (U.rescaled c).arc = scl c U.arc from rfl, pairIndices_scl hc]
    rcases pairIndices U.arc ap dist with e | ps
    · rfl
    simp only [bind, Except.bind, pure, Except.pure]
    rw [mapE_map_out _ (fun x => (pairDev_scl hE L hc T U U.arc x).1)]
    rcases mapE (pairDev E L T U U.arc) ps with e | ds
    · rfl
    simp only [Except.map, filterMap_rot_div, List.map_map, Function.comp_def]
  · intro hu
    dsimp only at hu
    subst hu
    unfold rpeGroup
    simp only [pure_bind, show (U.rescaled c).tstamps = U.tstamps from rfl]
    rcases pairIndices U.tstamps ap dist with e | ps
    · rfl
    simp only [bind, Except.bind, pure, Except.pure]
    rw [mapE_map_out _ (fun x => (pairDev_scl hE L hc T U U.tstamps x).2)]
    rcases mapE (pairDev E L T U U.tstamps) ps with e | ds
    · rfl
    simp only [Except.map, filterMap_rot_pos, List.map_map, Function.comp_def]

/-- without a unit of distances there is no result -/
theorem compareRelative_other (E : EvalLib K) (L : RotLib K R) (T U : Traj K R) (s : RpeSettings K) (h1 : s.unit ≠ .meter)
    (h2 : s.unit ≠ .second) : ∃ e, compareRelative E L T U s = .error e ∧
      ∀ T' U' : Traj K R, compareRelative E L T' U' s = .error e := by
  have hg : ∀ (T U : Traj K R) (d : K), rpeGroup E L T U s d = .error .valueError := by
    intro T U d
    unfold rpeGroup
    rcases h : s.unit
    all_goals first
      | exact absurd h h1
      | exact absurd h h2
      | rfl
  have key : ∀ (T U : Traj K R), compareRelative E L T U s = (if s.minDist > s.maxDist then .error .valueError
      else match pairDists s with
        | .error e => .error e
        | .ok _ => .error .valueError) := by
    intro T U
    unfold compareRelative
    by_cases h : s.minDist > s.maxDist
    · simp only [if_pos h]
      rfl
    simp only [if_neg h, bind, Except.bind, pure, Except.pure]
    rcases pairDists s with e | ds
    · rfl
    rcases ds with _ | ⟨d, ds⟩
    · rfl
    · simp only [mapE, hg, bind, Except.bind]
  by_cases h : s.minDist > s.maxDist
  · exact ⟨_, by rw [key, if_pos h], fun _ _ => by rw [key, if_pos h]⟩
  · rcases hp : pairDists s with e | ds
    · exact ⟨e, by rw [key, if_neg h, hp], fun _ _ => by rw [key, if_neg h, hp]⟩
    · exact ⟨.valueError, by rw [key, if_neg h, hp], fun _ _ => by rw [key, if_neg h, hp]⟩

/-- **C178**: the errors of a relative comparison.  For distances along the trajectory, with the distances of the settings
in the new unit: the same pairs at distances in the new unit, the same (dimensionless) errors of positions, errors of
orientations per new unit.  For differences of time: the same pairs, errors of positions in the new unit, the same errors
of orientations.  Exceptions are the same. -/
theorem C178_relative (E : EvalLib K) (hE : IsEvalLib E) (L : RotLib K R) (c : K) (hc : 0 < c) (T U : Traj K R)
    (s : RpeSettings K) :
    compareRelative E L (T.rescaled c) (U.rescaled c) (s.rescaled c) = (compareRelative E L T U s).map (RpeResult.rescaled c) := by
  by_cases h1 : s.unit = .meter
  · have hp : pairDists (s.rescaled c) = (pairDists s).map (scl c) := by
      unfold pairDists
      simp only [RpeSettings.rescaled, h1, mul_eq_zero, hc.ne', false_or, ← mul_add, arange_scl hc]
      split
      · rfl
      · rfl
    have hcmp : ((s.rescaled c).minDist > (s.rescaled c).maxDist) ↔ s.minDist > s.maxDist := by
      simp only [RpeSettings.rescaled, h1, gt_iff_lt, mul_lt_mul_iff_right₀ hc]
    have hun : (s.rescaled c).unit = s.unit := by simp only [RpeSettings.rescaled, h1]
    unfold compareRelative
    by_cases h : s.minDist > s.maxDist
    · simp only [if_pos h, if_pos (hcmp.2 h)]
      rfl
    simp only [if_neg h, if_neg (mt hcmp.1 h), hp, hun, bind, Except.bind, pure, Except.pure]
    rcases pairDists s with e | ds
    · rfl
    simp only [Except.map]
    rw [mapE_of_map, mapE_map_out _ (fun d => (rpeGroup_scl hE L hc T U s d).1 h1)]
    rcases mapE (rpeGroup E L T U s) ds with e | gs
    · rfl
    simp only [Except.map, List.map_map, Function.comp_def, List.length_map]
    by_cases h0 : (gs.map (fun g => g.pairDist.length)).sum = 0
    · simp only [if_pos h0]
      rfl
    · simp only [if_neg h0, RpeResult.rescaled, h1]
      rfl
  · have hs : s.rescaled c = s := by
      unfold RpeSettings.rescaled
      split
      · exact absurd (by assumption) h1
      · rfl
    rw [hs]
    by_cases h2 : s.unit = .second
    · unfold compareRelative
      by_cases h : s.minDist > s.maxDist
      · simp only [if_pos h]
        rfl
      simp only [if_neg h, bind, Except.bind, pure, Except.pure]
      rcases pairDists s with e | ds
      · rfl
      dsimp only
      rw [mapE_map_out _ (fun d => (rpeGroup_scl hE L hc T U s d).2 h2)]
      rcases mapE (rpeGroup E L T U s) ds with e | gs
      · rfl
      simp only [Except.map, List.map_map, Function.comp_def]
      by_cases h0 : (gs.map (fun g => g.pairDist.length)).sum = 0
      · simp only [if_pos h0]
        rfl
      · simp only [if_neg h0, RpeResult.rescaled, h2]
        rfl
    · obtain ⟨e, e1, e2⟩ := compareRelative_other E L T U s h1 h2
      rw [e1, e2]
      rfl

/-- **C178**: the relative pose error of two trajectories, matched on the way. -/
theorem C178_rpe (lib : MetricLib K R) (hE : IsEvalLib lib.eval) (hq : UnitFree lib.mat.queryP) (c : K) (hc : 0 < c)
    (n gt est : Nat) (s : ProcSettings K) (hs : s.matching.method ≠ .nearestSpatialInterpolated) (h : Heap K R) :
    (rpe lib n (s.rescaled c) gt est (h.map (Traj.rescaled c))).1 = (rpe lib n s gt est h).1.map (RpeResult.rescaled c) := by
  have key : Lock (HScl c) (fun a b => b = RpeResult.rescaled c a) (rpe lib n s gt est) (rpe lib n (s.rescaled c) gt est) := by
    unfold rpe
    refine Lock.bind (HScl.matchTrajectories hq hc n est gt s.matching hs true) fun _ _ _ => ?_
    refine Lock.bind (HScl.rd c est) ?_
    rintro T _ rfl
    refine Lock.bind (HScl.rd c gt) ?_
    rintro U _ rfl
    refine Lock.lift ?_
    rw [show (s.rescaled c).relative = s.relative.rescaled c from rfl, C178_relative lib.eval hE lib.mat.rot c hc]
    exact OutRel.map _ _
  obtain ⟨h1, -⟩ := key h _ rfl
  revert h1
  rcases (rpe lib n s gt est h).1 with e | a <;>
    rcases (rpe lib n (s.rescaled c) gt est (h.map (Traj.rescaled c))).1 with e' | a' <;> intro h1
  · exact congrArg _ (by simpa [OutRel] using h1.symm)
  · exact absurd h1 (by simp [OutRel])
  · exact absurd h1 (by simp [OutRel])
  · exact congrArg _ h1

end

/-! ### examples -/

theorem bestFrom_scl {dist : V3 K → V3 K → K} {c : K} (hc : 0 < c) (hd : ∀ a b, dist (c • a) (c • b) = c * dist a b) (p : V3 K) :
    ∀ (ref : List (V3 K)) (i : Nat),
    bestFrom dist (c • p) (sclV c ref) i = (bestFrom dist p ref i).map (fun x => (x.1, c * x.2))
  | [], _ => rfl
  | q :: qs, i => by
    simp only [List.map_cons, bestFrom]
    rw [show List.map (fun p => c • p) qs = sclV c qs from rfl, bestFrom_scl hc hd p qs, hd]
    rcases bestFrom dist p qs (i + 1) with _ | ⟨j, d⟩
    · rfl
    · simp only [Option.map_some, mul_le_mul_iff_right₀ hc]
      split <;> rfl

/-- searching all positions one by one, with a distance that is a length -/
theorem bruteQuery_unitFree {dist : V3 K → V3 K → K} (hd : ∀ c : K, 0 < c → ∀ a b, dist (c • a) (c • b) = c * dist a b) :
    UnitFree (bruteQuery dist) := by
  intro c hc ref b test
  unfold bruteQuery
  rw [List.map_map]
  apply List.map_congr_left
  intro p _
  simp only [Function.comp_apply, bestWithin]
  rw [show List.map (fun p => c • p) ref = sclV c ref from rfl, bestFrom_scl hc (hd c hc)]
  rcases bestFrom dist p ref 0 with _ | ⟨j, d⟩
  · rfl
  · rcases b with _ | b
    · rfl
    · simp only [Option.map_some, mul_le_mul_iff_right₀ hc, mul_lt_mul_iff_right₀ hc]

/-- The hypotheses are met: numeric routines, and a search by the Euclidean distance. -/
example : IsEvalLib realEval ∧ UnitFree (bruteQuery (fun a b : V3 ℝ => realEval.nrm (a - b))) :=
  ⟨realEval_ok, bruteQuery_unitFree fun c hc a b => by rw [← smul_sub, nrm_scl realEval_ok.nrm hc]⟩

/-- relative errors of distances of one and two metres, and of 1000 and 2000 millimetres -/
def exErrors (c : ℚ) : Option (List (RpeGroup ℚ)) :=
  (compareRelative exMetric.eval exMetric.mat.rot
    (Traj.rescaled c { exEst with pos := [⟨0, 0, 0⟩, ⟨2, 0, 0⟩, ⟨2, 1, 0⟩] }) (exGt.rescaled c)
    ((exProc .nearestSpatial).relative.rescaled c)).toOption.map RpeResult.groups

/-- in millimetres: the same pair, the same error per length -/
example : exErrors 1 = some [⟨1, [some 1], [], [1]⟩, ⟨2, [], [], []⟩] ∧
    exErrors 1000 = some [⟨1000, [some 1], [], [1000]⟩, ⟨2000, [], [], []⟩] := by decide +kernel

/-- spatial matching in metres and in millimetres leaves the same samples, 4 metres and 4000 millimetres being the limit -/
example : ((matchTrajectories exMetric.mat 0 1 0 (exProc .nearestSpatial).matching true [exGt, exEst]).2.map
      fun T => (T.tstamps, T.pos.map (·.x))) = [([0, 1], [1, 2]), ([0, 2], [0, 2])] ∧
    ((matchTrajectories exMetric.mat 0 1 0 ((exProc .nearestSpatial).matching.rescaled 1000) true
      [exGt.rescaled 1000, exEst.rescaled 1000]).2.map fun T => (T.tstamps, T.pos.map (·.x)))
      = [([0, 1], [1000, 2000]), ([0, 2], [0, 2000])] := by decide +kernel

end TC
