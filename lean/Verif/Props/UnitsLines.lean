import Verif.Props.Units
import Verif.Props.MatchLine
/-!
# C178 for matching with fitted lines
-/
set_option linter.unusedSectionVars false
namespace TC
open H
variable {K R : Type} [Field K] [LinearOrder K] [IsStrictOrderedRing K]

/-- A search for several nearest positions finds the same ones in all units. -/
def UnitFreeK (query : KdQueryK K (V3 K)) : Prop := ∀ (c : K), 0 < c → ∀ ref bound k test,
  query (ref.map (fun p => c • p)) (Option.map (fun b => c * b) bound) k (test.map (fun p => c • p)) = query ref bound k test

/-- The line through points has the same direction in all units. -/
def SameDirection (direction : List (V3 K) → V3 K) : Prop := ∀ (c : K), 0 < c → ∀ points,
  direction (points.map (fun p => c • p)) = direction points

theorem evaluateAt_scl {dir : List (V3 K) → V3 K} (hd : SameDirection dir) {c : K} (hc : 0 < c) (nb : List (V3 K)) (p : V3 K) :
    (Line3D.fromPoints dir (sclV c nb)).evaluateAt (c • p) = c • (Line3D.fromPoints dir nb).evaluateAt p := by
  have hm : meanPoint (sclV c nb) = c • meanPoint nb := by
    unfold meanPoint
    rw [List.length_map, smul_comm]
    exact congrArg _ (List.smul_sum (r := c) (l := nb)).symm
  unfold Line3D.fromPoints Line3D.evaluateAt
  rw [hd c hc, hm]
  generalize dir nb = u
  generalize meanPoint nb = m
  apply V3.ext <;> simp <;> ring

theorem linePairs_scl {dir : List (V3 K) → V3 K} (hd : SameDirection dir) {c : K} (hc : 0 < c) (ref : List (V3 K)) :
    ∀ (ps : List (V3 K)) (cs : List (List (Option Nat))),
    linePairs dir (sclV c ref) (sclV c ps) cs = (linePairs dir ref ps cs).map (List.map (fun x => (c • x.1, c • x.2)))
  | [], _ => rfl
  | _ :: _, [] => rfl
  | p :: ps, l :: cs => by
    have ih := linePairs_scl hd hc ref ps cs
    simp only [sclV, List.map_cons] at ih ⊢
    unfold linePairs
    by_cases h : l.any (fun o => o.isNone) = true
    · simp only [if_pos h]
      exact ih
    · simp only [if_neg h, ih, Traj.take]
      rw [npTake_map]
      rcases npTake ref _ with e | nb
      · rfl
      simp only [Except.map, bind, Except.bind, pure, Except.pure]
      rcases linePairs dir ref ps cs with e | rest
      · rfl
      · simp only [List.map_cons]
        rw [show List.map (fun p => c • p) nb = sclV c nb from rfl, evaluateAt_scl hd hc]

theorem HScl.newRef (c : K) (T : Traj K R) : Lock (HScl c) Eq (H.newRef T) (H.newRef (T.rescaled c)) := by
  rintro h _ rfl
  exact ⟨by simp [H.newRef, OutRel], (by simp : h.map (Traj.rescaled c) ++ [T.rescaled c] = (h ++ [T]).map (Traj.rescaled c))⟩

theorem HScl.lines {lib : MatchLib K R} (hn : IsNorm lib.nrm) (hq : UnitFreeK lib.queryPK) (hd : SameDirection lib.lineDir)
    {c : K} (hc : 0 < c) (n t r : Nat) (m : K) (k : Nat) :
    Lock (HScl c) Eq (matchSpatialInterpolation lib n t r m k) (matchSpatialInterpolation lib n t r (c * m) k) := by
  unfold matchSpatialInterpolation
  refine Lock.bind (HScl.rd c t) ?_
  rintro T _ rfl
  refine Lock.bind (HScl.rd c r) ?_
  rintro U _ rfl
  simp only [show (T.rescaled c).pos = sclV c T.pos from rfl, show (U.rescaled c).pos = sclV c U.pos from rfl,
    show (T.rescaled c).name = T.name from rfl, show (U.rescaled c).name = U.name from rfl]
  have hcl : (if c * m = 0 then lib.queryPK (sclV c U.pos) none k (sclV c T.pos)
      else lib.queryPK (sclV c U.pos) (some (c * m)) k (sclV c T.pos))
      = if m = 0 then lib.queryPK U.pos none k T.pos else lib.queryPK U.pos (some m) k T.pos := by
    by_cases h : m = 0
    · rw [if_pos h, if_pos (by rw [h, mul_zero])]
      exact hq c hc _ none _ _
    · rw [if_neg h, if_neg (mul_ne_zero hc.ne' h)]
      exact hq c hc _ (some m) _ _
  rw [hcl]
  generalize (if m = 0 then lib.queryPK U.pos none k T.pos else lib.queryPK U.pos (some m) k T.pos) = cl
  split
  · exact fun _ _ h => ⟨rfl, h⟩
  split
  · exact fun _ _ h => ⟨rfl, h⟩
  split
  · exact fun _ _ h => ⟨rfl, h⟩
  rw [linePairs_scl hd hc]
  refine Lock.bind (Lock.lift (OutRel.map _ _)) ?_
  rintro ps _ rfl
  rw [List.length_map]
  split
  · exact fun _ _ h => ⟨rfl, h⟩
  have e1 : (Traj.new lib.nrm n { pos := (ps.map (fun x => (c • x.1, c • x.2))).map Prod.fst, name := T.name } : Except Err (Traj K R))
      = (Traj.new lib.nrm n { pos := ps.map Prod.fst, name := T.name }).map (Traj.rescaled c) := by
    rw [← C178_construct hn n _ c hc]
    simp [TrajArgs.rescaled, Function.comp_def]
  have e2 : (Traj.new lib.nrm (n + 1) { pos := (ps.map (fun x => (c • x.1, c • x.2))).map Prod.snd, name := U.name } : Except Err (Traj K R))
      = (Traj.new lib.nrm (n + 1) { pos := ps.map Prod.snd, name := U.name }).map (Traj.rescaled c) := by
    rw [← C178_construct hn (n + 1) _ c hc]
    simp [TrajArgs.rescaled, Function.comp_def]
  rw [e1, e2]
  refine Lock.bind (Lock.lift (OutRel.map _ _)) ?_
  rintro A _ rfl
  refine Lock.bind (Lock.lift (OutRel.map _ _)) ?_
  rintro B _ rfl
  refine Lock.bind (HScl.newRef c A) ?_
  rintro a _ rfl
  refine Lock.bind (HScl.newRef c B) ?_
  rintro b _ rfl
  exact Lock.pure rfl

theorem HScl.matchLines {lib : MatchLib K R} (hn : IsNorm lib.nrm) (hq : UnitFreeK lib.queryPK)
    (hd : SameDirection lib.lineDir) {c : K} (hc : 0 < c) (n f t : Nat) (s : MatchingSettings K)
    (hs : s.method = .nearestSpatialInterpolated) (inplace : Bool) :
    Lock (HScl c) Eq (H.matchTrajectories lib n f t s inplace) (H.matchTrajectories lib n f t (s.rescaled c) inplace) := by
  unfold H.matchTrajectories
  refine Lock.bind (HScl.selfOrCopy c inplace f) ?_
  rintro a _ rfl
  refine Lock.bind (HScl.selfOrCopy c inplace t) ?_
  rintro b _ rfl
  rw [show (s.rescaled c).method = s.method from rfl, hs]
  exact HScl.lines hn hq hd hc n a b s.maxDistance s.kNearest

/-- **C178**: matching with fitted lines gives the same two trajectories in the other unit, or the same exception. -/
theorem C178_match_lines (lib : MatchLib K R) (hn : IsNorm lib.nrm) (hq : UnitFreeK lib.queryPK)
    (hd : SameDirection lib.lineDir) (c : K) (hc : 0 < c) (n f t : Nat) (s : MatchingSettings K)
    (hs : s.method = .nearestSpatialInterpolated) (inplace : Bool) (h : Heap K R) :
    matchTrajectories lib n f t (s.rescaled c) inplace (h.map (Traj.rescaled c))
      = ((matchTrajectories lib n f t s inplace h).1, (matchTrajectories lib n f t s inplace h).2.map (Traj.rescaled c)) :=
  HScl.run_eq (HScl.matchLines hn hq hd hc n f t s hs inplace) h

/-- **C178**: the relative pose error with fitted lines as method of matching. -/
theorem C178_rpe_lines [FloorRing K] (lib : MetricLib K R) (hE : IsEvalLib lib.eval) (hn : IsNorm lib.mat.nrm)
    (hq : UnitFreeK lib.mat.queryPK) (hd : SameDirection lib.mat.lineDir) (c : K) (hc : 0 < c)
    (n gt est : Nat) (s : ProcSettings K) (hs : s.matching.method = .nearestSpatialInterpolated) (h : Heap K R) :
    (rpe lib n (s.rescaled c) gt est (h.map (Traj.rescaled c))).1 = (rpe lib n s gt est h).1.map (RpeResult.rescaled c) := by
  have key : Lock (HScl c) (fun a b => b = RpeResult.rescaled c a) (rpe lib n s gt est) (rpe lib n (s.rescaled c) gt est) := by
    unfold rpe
    refine Lock.bind (HScl.matchLines hn hq hd hc n est gt s.matching hs true) fun _ _ _ => ?_
    refine Lock.bind (HScl.rd c est) ?_
    rintro T _ rfl
    refine Lock.bind (HScl.rd c gt) ?_
    rintro U _ rfl
    refine Lock.lift ?_
    rw [show (s.rescaled c).relative = s.relative.rescaled c from rfl, C178_relative lib.eval hE lib.mat.rot c hc]
    exact OutRel.map _ _
  obtain ⟨h1, -⟩ := key h _ rfl
  revert h1
  rcases (rpe lib n s gt est h).1 with e | a <;>
    rcases (rpe lib n (s.rescaled c) gt est (h.map (Traj.rescaled c))).1 with e' | a' <;> intro h1
  · exact congrArg _ (by simpa [OutRel] using h1.symm)
  · exact absurd h1 (by simp [OutRel])
  · exact absurd h1 (by simp [OutRel])
  · exact congrArg _ h1

/-! ### examples -/

/-- searching all positions one by one finds the same ones in all units -/
theorem bruteQueryK_unitFree {dist : V3 K → V3 K → K} (hd : ∀ c : K, 0 < c → ∀ a b, dist (c • a) (c • b) = c * dist a b) :
    UnitFreeK (bruteQueryK dist) := by
  intro c hc ref b k test
  unfold bruteQueryK
  rw [List.map_map]
  apply List.map_congr_left
  intro p _
  have hat : ∀ i, dAt dist (sclV c ref) (c • p) i = c * dAt dist ref p i := by
    intro i
    unfold dAt
    rw [List.getElem?_map]
    rcases ref[i]? with _ | q
    · simp
    · simp [hd c hc]
  have hby : byDist dist (sclV c ref) (c • p) = byDist dist ref p := by
    unfold byDist
    simp only [hat, mul_le_mul_iff_right₀ hc, List.length_map]
  unfold bruteRow
  simp only [Function.comp_apply]
  rw [show List.map (fun p => c • p) ref = sclV c ref from rfl, hby, List.length_map]
  congr 1
  apply List.map_congr_left
  intro i _
  rw [hat]
  rcases b with _ | b
  · rfl
  · simp only [Option.map_some, Option.all_some, mul_lt_mul_iff_right₀ hc]

/-- The hypotheses are met: the length of vectors, a search by it, and the direction from the first point to the last one
normed (any direction that is found from the shape of the points alone). -/
example : IsNorm realEval.nrm ∧ UnitFreeK (bruteQueryK (fun a b : V3 ℝ => realEval.nrm (a - b))) ∧
    SameDirection (fun l : List (V3 ℝ) => (realEval.nrm (l.getLastD 0 - l.headD 0))⁻¹ • (l.getLastD 0 - l.headD 0)) := by
  refine ⟨realEval_ok.nrm, bruteQueryK_unitFree fun c hc a b => by rw [← smul_sub, nrm_scl realEval_ok.nrm hc], ?_⟩
  intro c hc l
  have h1 : (l.map (fun p : V3 ℝ => c • p)).getLastD 0 = c • l.getLastD 0 := by
    rw [List.getLastD_eq_getLast?, List.getLastD_eq_getLast?, List.getLast?_map]
    rcases l.getLast? with _ | q <;> simp
  have h2 : (l.map (fun p : V3 ℝ => c • p)).headD 0 = c • l.headD 0 := by
    rcases l with _ | ⟨q, l⟩ <;> simp
  simp only [h1, h2]
  rw [← smul_sub, nrm_scl realEval_ok.nrm hc, smul_smul, mul_inv, mul_comm c⁻¹, mul_assoc, inv_mul_cancel₀ hc.ne', mul_one]

/-- 1 and 3 metres, 1000 and 3000 millimetres: the same pairs -/
example : (matchTrajectories exMatchLib 0 0 1 (MatchingSettings.rescaled 1000 ⟨.nearestSpatialInterpolated, 1, 3, 2⟩) false
        ([exTestLine, exRefLine].map (Traj.rescaled 1000))).2.map Traj.pos = 
    (([exTestLine, exRefLine, exTestLine, exRefLine].map fun T => T.pos.map fun p => (1000 : ℚ) • p) ++
      [[⟨500, 1000, 0⟩, ⟨1500, 1000, 0⟩], [⟨500, 0, 0⟩, ⟨1500, 0, 0⟩]]) := by
  decide +kernel

end TC
