import Verif.Props.RpeValues
import Verif.Props.RpeLocal

/-! C219: a relative comparison in the other direction. -/

namespace TC

set_option linter.unusedSectionVars false

variable {K R : Type} [Field K] [LinearOrder K] [IsStrictOrderedRing K]

theorem npGet_or {α : Type} (l : List α) (i : Int) : (∃ a ∈ l, npGet l i = .ok a) ∨ npGet l i = .error .indexError := by
  unfold npGet
  rcases pyPos l.length i with _ | j
  · exact Or.inr rfl
  · rcases h : l[j]? with _ | a
    · exact Or.inr (by simp [h])
    · exact Or.inl ⟨a, List.mem_of_getElem? h, by simp [h]⟩

theorem se3_rot {L : RotLib K R} (hL : IsRotLib L) (T : Traj K R) {P : M4 K} (h : P ∈ T.se3 L) :
    ∃ M p, P = mkPose M p ∧ IsRot M := by
  unfold Traj.se3 at h
  rcases hr : T.rot with _ | r
  · rw [hr] at h
    obtain ⟨p, -, rfl⟩ := List.mem_map.1 h
    exact ⟨1, p, rfl, isRot_one⟩
  · rw [hr] at h
    obtain ⟨k, hk⟩ := List.mem_iff_getElem?.1 h
    rw [List.getElem?_zipWith] at hk
    rcases h1 : T.pos[k]? with _ | p
    · simp [h1] at hk
    rcases h2 : r[k]? with _ | q
    · simp [h1, h2] at hk
    simp only [h1, h2, Option.some.injEq] at hk
    exact ⟨L.toMat q, p, hk.symm, hL.rot q⟩

theorem cosAngle_transpose (M : M3 K) : cosAngle M.transpose = cosAngle M := rfl

/-- the error of a pair is the same from either side -/
theorem pairDev_exchange {E : EvalLib K} (hE : IsEvalLib E) {L : RotLib K R} (hL : IsRotLib L) (T U : Traj K R) (D : List K)
    (c : Nat × Nat) : pairDev E L T U D c = pairDev E L U T D c := by
  unfold pairDev
  rcases npGet_or D (c.2 : Int) with ⟨d1, -, h1⟩ | h1 <;> rw [h1] <;> [skip; rfl]
  rcases npGet_or D (c.1 : Int) with ⟨d0, -, h0⟩ | h0 <;> rw [h0] <;> [skip; rfl]
  simp only [bind, Except.bind]
  rw [Bool.and_comm]
  split_ifs with ho
  · rcases npGet_or (U.se3 L) (c.1 : Int) with ⟨a, ma, ha⟩ | ha <;> rcases npGet_or (U.se3 L) (c.2 : Int) with ⟨b, mb, hb⟩ | hb <;>
      rcases npGet_or (T.se3 L) (c.1 : Int) with ⟨x, mx, hx⟩ | hx <;> rcases npGet_or (T.se3 L) (c.2 : Int) with ⟨y, my, hy⟩ | hy <;>
      simp only [ha, hb, hx, hy]
    obtain ⟨A, a, rfl, hA⟩ := se3_rot hL U ma
    obtain ⟨B, b, rfl, hB⟩ := se3_rot hL U mb
    obtain ⟨X, x, rfl, hX⟩ := se3_rot hL T mx
    obtain ⟨Y, y, rfl, hY⟩ := se3_rot hL T my
    have hG := hA.transpose.mul hB
    have hH := hX.transpose.mul hY
    simp only [relative_pose_eq, translationError_eq hE, rotationError_eq E (hG.transpose.mul hH),
      rotationError_eq E (hH.transpose.mul hG), hE.nrm.mulV hG.transpose, hE.nrm.mulV hH.transpose]
    rw [← cosAngle_transpose ((A.transpose * B).transpose * (X.transpose * Y)), Matrix.transpose_mul, Matrix.transpose_transpose,
      ← hE.nrm.neg, neg_sub]
  · rcases npGet_or U.pos (c.1 : Int) with ⟨a, ma, ha⟩ | ha <;> rcases npGet_or U.pos (c.2 : Int) with ⟨b, mb, hb⟩ | hb <;>
      rcases npGet_or T.pos (c.1 : Int) with ⟨x, mx, hx⟩ | hx <;> rcases npGet_or T.pos (c.2 : Int) with ⟨y, my, hy⟩ | hy <;>
      simp only [ha, hb, hx, hy, abs_sub_comm]

variable [FloorRing K]

/-- **C219**: if both trajectories have the same timestamps (for pair distances in seconds) or the same arc lengths (in
metres), the relative comparison with the roles exchanged returns in the same cases, raises the same exception, and
has the same bins with the same pair distances, position errors and rotation errors. Only the name is the other one.
Missing: different arc lengths in metres, for which it fails (`C219_metres_not`). -/
theorem C219_exchange_partial {E : EvalLib K} (hE : IsEvalLib E) {L : RotLib K R} (hL : IsRotLib L) (T U : Traj K R) (s : RpeSettings K)
    (h : pairScale s.unit T = pairScale s.unit U) :
    (∀ r, compareRelative E L T U s = .ok r → compareRelative E L U T s =
      .ok { name := U.name ++ " vs. " ++ T.name, groups := r.groups, unit := r.unit }) ∧
    (∀ e, compareRelative E L T U s = .error e → compareRelative E L U T s = .error e) := by
  have hf : ∀ D, pairDev E L T U D = pairDev E L U T D := fun D => funext (pairDev_exchange hE hL T U D)
  have hg : rpeGroup E L T U s = rpeGroup E L U T s := by
    funext d
    unfold rpeGroup
    rcases hu : s.unit <;> rw [hu] at h <;> simp only [pairScale, Option.some.injEq] at h <;> simp only [hf] <;>
      first | rfl | rw [h]
  constructor
  · intro r hr
    unfold compareRelative at hr ⊢
    rw [hg] at hr
    simp only [bind, Except.bind, pure, Except.pure] at hr ⊢
    split_ifs at hr ⊢ with h1
    rcases h2 : pairDists s with e | ds
    · rw [h2] at hr; cases hr
    rw [h2] at hr
    dsimp only at hr ⊢
    rcases h3 : mapE (rpeGroup E L U T s) ds with e | gs
    · rw [h3] at hr; cases hr
    rw [h3] at hr
    dsimp only at hr ⊢
    split_ifs at hr ⊢ with h4
    cases hr
    rfl
  · intro e hr
    unfold compareRelative at hr ⊢
    rw [hg] at hr
    simp only [bind, Except.bind, pure, Except.pure] at hr ⊢
    split_ifs at hr ⊢ with h1
    · exact hr
    rcases h2 : pairDists s with e | ds
    · rw [h2] at hr; exact hr
    rw [h2] at hr
    dsimp only at hr ⊢
    rcases h3 : mapE (rpeGroup E L U T s) ds with e | gs
    · rw [h3] at hr; exact hr
    rw [h3] at hr
    dsimp only at hr ⊢
    split_ifs at hr ⊢ with h4
    exact hr

/-! ### In metres the arc lengths of the reference count -/

/-- four samples, the given way apart -/
def exStride {R : Type} (d : ℚ) : Traj ℚ R :=
  { tstamps := [0, 1, 2, 3], pos := [⟨0, 0, 0⟩, ⟨d, 0, 0⟩, ⟨2 * d, 0, 0⟩, ⟨3 * d, 0, 0⟩], rot := none, arc := [0, d, 2 * d, 3 * d]
    speed := [0, 0, 0, 0], sorting := .time, name := "stride", epsg := 0 }

def exTwoMetres : RpeSettings ℚ := { minDist := 2, maxDist := 5 / 2, step := 1, unit := .meter, allPairs := true }

/-- **C219 fails** in metres for trajectories with different arc lengths, whatever the library routines: over pairs of two
metres and more, the one with steps of two metres gives pairs of neighbours, the one with steps of one metre pairs of
samples two apart. -/
theorem C219_metres_not {R : Type} (E : EvalLib ℚ) (L : RotLib ℚ R) (r r' : RpeResult ℚ)
    (h : compareRelative E L (exStride 1) (exStride 2) exTwoMetres = .ok r)
    (h' : compareRelative E L (exStride 2) (exStride 1) exTwoMetres = .ok r') : r'.groups ≠ r.groups := by
  have hd : pairDists exTwoMetres = .ok [2, 3] := by decide +kernel
  have p1 : pairIndices ([0, 1, 2, 3] : List ℚ) true 2 = .ok [(0, 2)] := by decide +kernel
  have p3 : pairIndices ([0, 2, 4, 6] : List ℚ) true 2 = .ok [(0, 1), (1, 2)] := by decide +kernel
  have a1 : (exStride 1 : Traj ℚ R).arc = [0, 1, 2, 3] := by norm_num [exStride]
  have a2 : (exStride 2 : Traj ℚ R).arc = [0, 2, 4, 6] := by norm_num [exStride]
  have key : ∀ (d e : ℚ) (ps : List (Nat × Nat)) (x : RpeResult ℚ),
      compareRelative E L (exStride d) (exStride e) exTwoMetres = .ok x →
      pairIndices (exStride e : Traj ℚ R).arc true 2 = .ok ps → ∃ g, x.groups[0]? = some g ∧ g.pairDist.length = ps.length := by
    intro d e ps x hx hp
    unfold compareRelative at hx
    rw [hd] at hx
    simp only [bind, Except.bind, pure, Except.pure] at hx
    split_ifs at hx
    rcases hm : mapE (rpeGroup E L (exStride d) (exStride e) exTwoMetres) [2, 3] with er | gs
    · rw [hm] at hx; cases hx
    rw [hm] at hx
    dsimp only at hx
    split_ifs at hx
    cases hx
    obtain ⟨g, hg, hgs⟩ : ∃ g, rpeGroup E L (exStride d) (exStride e) exTwoMetres 2 = .ok g ∧ gs[0]? = some g := by
      unfold mapE at hm
      simp only [bind, Except.bind] at hm
      rcases hg : rpeGroup E L (exStride d) (exStride e) exTwoMetres 2 with er | g
      · rw [hg] at hm; cases hm
      rw [hg] at hm
      dsimp only at hm
      rcases ht : mapE (rpeGroup E L (exStride d) (exStride e) exTwoMetres) [3] with er | t
      · rw [ht] at hm; cases hm
      rw [ht] at hm
      cases hm
      exact ⟨g, rfl, rfl⟩
    refine ⟨g, hgs, ?_⟩
    unfold rpeGroup at hg
    have hu : exTwoMetres.unit = .meter := rfl
    have ha : exTwoMetres.allPairs = true := rfl
    simp only [hu, ha, hp, bind, Except.bind, pure, Except.pure] at hg
    rcases hv : mapE (pairDev E L (exStride d) (exStride e) (exStride (R := R) e).arc) ps with er | ds
    · rw [hv] at hg; cases hg
    rw [hv] at hg
    cases hg
    simpa using mapE_length hv
  obtain ⟨g, hg, hl⟩ := key 1 2 _ r h (by rw [a2]; exact p3)
  obtain ⟨g', hg', hl'⟩ := key 2 1 _ r' h' (by rw [a1]; exact p1)
  intro hc
  rw [hc, hg] at hg'
  cases hg'
  rw [hl] at hl'
  simp at hl'

/-- both directions have a result -/
example : ((compareRelative exTallLib headingLib (exStride 1) (exStride 2) exTwoMetres).toOption.map
      fun r => r.groups.map RpeGroup.pairDist) = some [[2, 2], [4, 4]] ∧
    ((compareRelative exTallLib headingLib (exStride 2) (exStride 1) exTwoMetres).toOption.map
      fun r => r.groups.map RpeGroup.pairDist) = some [[2], []] := by decide +kernel

/-- in seconds the hypothesis is met by these two, and there is a result in both directions -/
example : pairScale MUnit.second (exStride (R := ℚ) 1) = pairScale .second (exStride (R := ℚ) 2) ∧
    ((compareRelative exTallLib headingLib (exStride 1) (exStride 2) { exTwoMetres with unit := .second }).toOption.map
      fun r => r.groups.map RpeGroup.pairDist) = some [[2], []] := ⟨rfl, by decide +kernel⟩

/-- library routines that are right exist -/
example : IsEvalLib realEval ∧ IsRotLib (matLib (K := ℝ) (fun a _ _ => a)) := ⟨realEval_ok, matLib_isRotLib _⟩

end TC
