import Verif.Props.Ate
import Verif.Props.Metrics
import Verif.Model.Stats
/-!
# C177: comparing in the other direction

`compare_trajectories_absolute` of the two trajectories in exchanged roles: deviations of positions change their sign,
those of orientations are inverted, and all statistics of their sizes are the same.
-/
set_option linter.unusedSectionVars false
namespace TC
variable {K R : Type} [Field K] [LinearOrder K]

theorem bcast_swap {α β γ δ : Type} (f : α → β → γ) (g : β → α → δ) (φ : γ → δ) (hg : ∀ x y, g y x = φ (f x y))
    (a : List α) (b : List β) : bcast g b a = (bcast f a b).map (List.map φ) := by
  unfold bcast
  by_cases h : a.length = b.length
  · rw [if_pos h, if_pos h.symm]
    simp only [Except.map]
    congr 1
    clear h
    induction a generalizing b with
    | nil => cases b <;> rfl
    | cons x a ih =>
      cases b with
      | nil => rfl
      | cons y b => simp only [List.zipWith_cons_cons, List.map_cons, hg, ih]
  · rw [if_neg h, if_neg (Ne.symm h)]
    match a, b with
    | [], [] => exact absurd rfl h
    | [], [y] => simp [Except.map]
    | [], _ :: _ :: _ => rfl
    | [x], [] => simp [Except.map]
    | [x], [y] => exact absurd rfl h
    | [x], _ :: _ :: _ => simp [Except.map, hg]
    | _ :: _ :: _, [] => rfl
    | _ :: _ :: _, [y] => simp [Except.map, hg]
    | _ :: _ :: _, _ :: _ :: _ => rfl

theorem compareAbsolute_fields {E : EvalLib K} {L : RotLib K R} {T U : Traj K R} {r : AteResult K R}
    (h : compareAbsolute E L T U = .ok r) :
    bcast (fun a b => a - b) U.pos T.pos = .ok r.posDev ∧
    (∀ q p, U.rot = some q → T.rot = some p → ∃ d, bcast (fun a b => L.mul a (L.inv b)) q p = .ok d ∧ r.rotDev = some d) ∧
    (U.rot = none ∨ T.rot = none → r.rotDev = none) := by
  unfold compareAbsolute at h
  simp only [bind, Except.bind, pure, Except.pure] at h
  rcases h1 : bcast (fun a b => a - b) U.pos T.pos with e | p
  · rw [h1] at h; cases h
  rw [h1] at h
  dsimp only at h
  rcases h2 : directedDeviations E L U.pos T.pos (rotEither U.rot T.rot) with e | q
  · rw [h2] at h; cases h
  rw [h2] at h
  dsimp only at h
  rcases hU : U.rot with _ | u <;> rcases hT : T.rot with _ | t <;> rw [hU, hT] at h <;> dsimp only at h
  · cases h
    exact ⟨rfl, (fun q p h => by cases h), fun _ => rfl⟩
  · cases h
    exact ⟨rfl, (fun q p h => by cases h), fun _ => rfl⟩
  · cases h
    exact ⟨rfl, (fun q p _ h => by cases h), fun _ => rfl⟩
  · rcases h3 : bcast (fun a b => L.mul a (L.inv b)) u t with e | d
    · rw [h3] at h; cases h
    rw [h3] at h
    cases h
    refine ⟨rfl, ?_, ?_⟩
    · rintro q p ⟨⟩ ⟨⟩
      exact ⟨d, h3, rfl⟩
    · rintro (h | h) <;> cases h

variable [IsStrictOrderedRing K]

/-- **C177**: deviations in the other direction: those of positions have the other sign, those of orientations are the
inverse rotations. -/
theorem C177_deviations (E : EvalLib K) (L : RotLib K R) (hL : IsRotLib L) (T U : Traj K R) (r r' : AteResult K R)
    (h : compareAbsolute E L T U = .ok r) (h' : compareAbsolute E L U T = .ok r') :
    r'.posDev = r.posDev.map (fun v => -v) ∧
    r'.rotDev.map (List.map L.toMat) = r.rotDev.map (List.map (fun q => (L.toMat q).transpose)) := by
  obtain ⟨p1, q1, n1⟩ := compareAbsolute_fields h
  obtain ⟨p2, q2, n2⟩ := compareAbsolute_fields h'
  constructor
  · rw [bcast_swap (fun a b : V3 K => a - b) (fun a b => a - b) (fun v => -v) (fun x y => by rw [neg_sub]) U.pos T.pos, p1] at p2
    injection p2 with p2
    exact p2.symm
  · rcases hU : U.rot with _ | u
    · rw [n1 (.inl hU), n2 (.inr hU)]; rfl
    rcases hT : T.rot with _ | t
    · rw [n1 (.inr hT), n2 (.inl hT)]; rfl
    obtain ⟨d, a1, a2⟩ := q1 u t hU hT
    obtain ⟨d', b1, b2⟩ := q2 t u hT hU
    rw [a2, b2]
    have hinv : ∀ x y, L.mul y (L.inv x) = L.inv (L.mul x (L.inv y)) := by
      intro x y
      rw [← hL.fromMat_toMat (L.mul y (L.inv x)), ← hL.fromMat_toMat (L.inv (L.mul x (L.inv y)))]
      rw [hL.toMat_mul, hL.toMat_inv, hL.toMat_inv, hL.toMat_mul, hL.toMat_inv, Matrix.transpose_mul,
        Matrix.transpose_transpose]
    rw [bcast_swap (fun a b => L.mul a (L.inv b)) (fun a b => L.mul a (L.inv b)) L.inv hinv u t, a1] at b1
    injection b1 with b1
    rw [← b1]
    simp only [Option.map_some, List.map_map]
    congr 1
    apply List.map_congr_left
    intro q _
    exact hL.toMat_inv q

/-- **C177**: the statistics of the sizes of the deviations are the same in both directions, the mean deviations of the
coordinates have the other sign. -/
theorem C177_statistics (E : EvalLib K) (hE : IsEvalLib E) (L : RotLib K R) (hL : IsRotLib L) (T U : Traj K R)
    (r r' : AteResult K R) (h : compareAbsolute E L T U = .ok r) (h' : compareAbsolute E L U T = .ok r') :
    r'.posAte E = r.posAte E ∧ r'.posDevRms E = r.posDevRms E ∧ r'.posDevStd E = r.posDevStd E ∧
    r'.posDevMedian E = r.posDevMedian E ∧ r'.posDevMax E = r.posDevMax E ∧ r'.posDevMin E = r.posDevMin E ∧
    r'.posRmsX E = r.posRmsX E ∧ r'.posRmsY E = r.posRmsY E ∧ r'.posRmsZ E = r.posRmsZ E ∧
    r'.posBiasX = r.posBiasX.map (fun x => -x) ∧ r'.posBiasY = r.posBiasY.map (fun x => -x) ∧
    r'.posBiasZ = r.posBiasZ.map (fun x => -x) ∧
    r'.rotAte E L = r.rotAte E L ∧ r'.rotDevRms E L = r.rotDevRms E L ∧ r'.rotDevStd E L = r.rotDevStd E L ∧
    r'.rotDevMedian E L = r.rotDevMedian E L ∧ r'.rotDevMax E L = r.rotDevMax E L ∧ r'.rotDevMin E L = r.rotDevMin E L := by
  obtain ⟨hp, hr⟩ := C177_deviations E L hL T U r r' h h'
  have hn : ∀ v : V3 K, E.nrm (-v) = E.nrm v := by
    intro v
    have h1 := hE.nrm.sq (-v)
    have h2 := hE.nrm.sq v
    have e : V3.normSq (-v) = V3.normSq v := by simp [V3.normSq]
    rw [e, ← h2] at h1
    exact (mul_self_inj (hE.nrm.nonneg _) (hE.nrm.nonneg _)).1 h1
  have c1 : r'.posDevComb E = r.posDevComb E := by
    unfold AteResult.posDevComb
    rw [hp, List.map_map]
    exact List.map_congr_left fun v _ => hn v
  have c2 : r'.rotDevComb E L = r.rotDevComb E L := by
    unfold AteResult.rotDevComb
    rcases h1 : r.rotDev with _ | d <;> rcases h2 : r'.rotDev with _ | d' <;> rw [h1, h2] at hr
    · simp only [hp, List.length_map]
    · cases hr
    · cases hr
    · simp only [Option.map_some, Option.some.injEq] at hr
      dsimp only
      have e : d'.map (fun q => rotAngle E (L.toMat q)) = (d'.map L.toMat).map (rotAngle E) := by
        rw [List.map_map]; rfl
      rw [e, hr, List.map_map]
      exact List.map_congr_left fun q _ => rfl
  have c3 : r'.rotDev.isSome = r.rotDev.isSome := by
    have := congrArg Option.isSome hr
    simpa using this
  have sq : ∀ (f : V3 K → K) (_ : ∀ v, f (-v) = - f v), rms E (r'.posDev.map f) = rms E (r.posDev.map f) := by
    intro f hf
    unfold rms
    rw [hp]
    have : ((r.posDev.map (fun v => -v)).map f).map (fun x => x ^ 2) = (r.posDev.map f).map (fun x => x ^ 2) := by
      simp only [List.map_map]
      apply List.map_congr_left
      intro v _
      simp only [Function.comp_apply, hf, neg_sq]
    rw [this]
  have bias : ∀ (f : V3 K → K) (_ : ∀ v, f (-v) = - f v), npMean (r'.posDev.map f)
      = (npMean (r.posDev.map f)).map (fun x => -x) := by
    intro f hf
    have e : (r.posDev.map (fun v => -v)).map f = (r.posDev.map f).map (fun x => -x) := by
      simp only [List.map_map]
      exact List.map_congr_left fun v _ => hf v
    rw [hp, e]
    generalize r.posDev.map f = l
    unfold npMean
    have hs : (l.map (fun x => -x)).sum = -l.sum := by
      induction l with
      | nil => simp
      | cons a l ih => rw [List.map_cons, List.sum_cons, List.sum_cons, ih]; ring
    rw [List.length_map, hs]
    split
    · rfl
    · simp only [Except.map, neg_div]
  unfold AteResult.posAte AteResult.posDevRms AteResult.posDevStd AteResult.posDevMedian AteResult.posDevMax
    AteResult.posDevMin AteResult.posRmsX AteResult.posRmsY AteResult.posRmsZ AteResult.posBiasX AteResult.posBiasY
    AteResult.posBiasZ AteResult.rotAte AteResult.rotDevRms AteResult.rotDevStd AteResult.rotDevMedian
    AteResult.rotDevMax AteResult.rotDevMin
  rw [c1, c2, c3]
  exact ⟨rfl, rfl, rfl, rfl, rfl, rfl, sq _ fun _ => rfl, sq _ fun _ => rfl, sq _ fun _ => rfl, bias _ fun _ => rfl,
    bias _ fun _ => rfl, bias _ fun _ => rfl, rfl, rfl, rfl, rfl, rfl, rfl⟩

/-- **C177**: two trajectories with the same number of samples can be compared in both directions. -/
theorem C177_both_directions (E : EvalLib K) (L : RotLib K R) (T U : Traj K R) (hT : Coherent T) (hU : Coherent U)
    (hl : T.tstamps.length = U.tstamps.length) :
    ∃ r r', compareAbsolute E L T U = .ok r ∧ compareAbsolute E L U T = .ok r' := by
  obtain ⟨_, -, -, h1⟩ := compareAbsolute_eq E L hT hU hl.symm
  obtain ⟨_, -, -, h2⟩ := compareAbsolute_eq E L hU hT hl
  exact ⟨_, _, h1, h2⟩

/-- Two trajectories that differ: the hypotheses are met, with other deviations in the two directions. -/
example : ∃ r r' : AteResult ℝ (RotM ℝ),
    compareAbsolute realEval (matLib fun a _ _ => a) (exPair ⟨0, 0, 0⟩ ⟨3, 0, 0⟩) (exPair ⟨1, 0, 0⟩ ⟨3, 2, 0⟩) = .ok r ∧
    compareAbsolute realEval (matLib fun a _ _ => a) (exPair ⟨1, 0, 0⟩ ⟨3, 2, 0⟩) (exPair ⟨0, 0, 0⟩ ⟨3, 0, 0⟩) = .ok r' ∧
    r.posDev = [⟨1, 0, 0⟩, ⟨0, 2, 0⟩] ∧ r'.posDev = [⟨-1, 0, 0⟩, ⟨0, -2, 0⟩] ∧ r'.posAte realEval = r.posAte realEval := by
  obtain ⟨r, r', h1, h2⟩ := C177_both_directions realEval (matLib fun a _ _ => a) (exPair (⟨0, 0, 0⟩ : V3 ℝ) ⟨3, 0, 0⟩)
    (exPair ⟨1, 0, 0⟩ ⟨3, 2, 0⟩) (exPair_coherent _ _) (exPair_coherent _ _) rfl
  have hp := (compareAbsolute_fields h1).1
  have hr : r.posDev = [⟨1, 0, 0⟩, ⟨0, 2, 0⟩] := by
    have : bcast (fun a b : V3 ℝ => a - b) (exPair (R := RotM ℝ) (⟨1, 0, 0⟩ : V3 ℝ) ⟨3, 2, 0⟩).pos
        (exPair (R := RotM ℝ) (⟨0, 0, 0⟩ : V3 ℝ) ⟨3, 0, 0⟩).pos = .ok [⟨1, 0, 0⟩, ⟨0, 2, 0⟩] := by
      simp [bcast, exPair]
      constructor <;> ext <;> simp
    rw [this] at hp
    injection hp with hp
    exact hp.symm
  refine ⟨r, r', h1, h2, hr, ?_, (C177_statistics realEval realEval_ok _ (matLib_isRotLib _) _ _ r r' h1 h2).1⟩
  rw [(C177_deviations realEval _ (matLib_isRotLib _) _ _ r r' h1 h2).1, hr]
  simp
  constructor <;> ext <;> simp

end TC
