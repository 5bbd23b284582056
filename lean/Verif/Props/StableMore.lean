import Verif.Props.Stable
import Verif.Props.KnownDrift
/-!
# C213: small changes have small effects on rotation errors and relative errors
-/
namespace TC
set_option linter.unusedSectionVars false

/-- equally many orientations, each turned by at most `ε` against its partner -/
def TurnedNear {R : Type} (L : RotLib ℝ R) (ε : ℝ) (P Q : List R) : Prop :=
  P.length = Q.length ∧ ∀ (i : Nat) (p q : R), P[i]? = some p → Q[i]? = some q → matAngle (L.toMat p * (L.toMat q).transpose) ≤ ε

/-- **C213**, rotation errors: if every orientation of the estimate is turned by at most `ε`, mean, root mean square and maximum
of the rotation errors change by at most `ε`. -/
theorem C213_ate_rotations {R : Type} {L : RotLib ℝ R} (hL : IsRotLib L) {ε : ℝ} {T T' U : Traj ℝ R} {r r' : AteResult ℝ R}
    (h1 : compareAbsolute realEval L T U = .ok r) (h2 : compareAbsolute realEval L T' U = .ok r') {t t' u : List R}
    (ht : T.rot = some t) (ht' : T'.rot = some t') (hu : U.rot = some u) (hne : t ≠ []) (hl : t.length = u.length)
    (h : TurnedNear L ε t t') :
    DiffersBy ε (r.rotAte realEval L) (r'.rotAte realEval L) ∧ DiffersBy ε (r.rotDevRms realEval L) (r'.rotDevRms realEval L) ∧
    DiffersBy ε (r.rotDevMax realEval L) (r'.rotDevMax realEval L) := by
  have hlist : ∀ {A B : Traj ℝ R} {r : AteResult ℝ R} {a b : List R}, compareAbsolute realEval L A B = .ok r →
      A.rot = some a → B.rot = some b → a.length = b.length → r.rotDev.isSome = true ∧
      r.rotDevComb realEval L = List.zipWith (fun p q => matAngle (L.toMat p * (L.toMat q).transpose)) b a := by
    intro A B r a b h hA hB hl
    obtain ⟨d, e1, e2⟩ := (compareAbsolute_fields h).2.1 b a hB hA
    rw [bcast_same _ hl.symm, Except.ok.injEq] at e1
    refine ⟨by rw [e2]; rfl, ?_⟩
    unfold AteResult.rotDevComb
    rw [e2]
    dsimp only
    rw [← e1, List.map_zipWith]
    congr 1
    funext p q
    rw [hL.toMat_mul, hL.toMat_inv]
    rfl
  have htri : ∀ p q r : R, matAngle (L.toMat r * (L.toMat p).transpose) ≤ matAngle (L.toMat q * (L.toMat p).transpose) +
      matAngle (L.toMat r * (L.toMat q).transpose) := by
    intro p q r
    have h := matAngle_mul_le ((hL.rot r).mul (hL.rot q).transpose) ((hL.rot q).mul (hL.rot p).transpose)
    rw [Matrix.mul_assoc, ← Matrix.mul_assoc (L.toMat q).transpose, mul_eq_one_comm.1 (hL.rot q).1, Matrix.one_mul] at h
    linarith
  have hsym : ∀ p q : R, matAngle (L.toMat p * (L.toMat q).transpose) = matAngle (L.toMat q * (L.toMat p).transpose) := by
    intro p q
    rw [← matAngle_transpose, Matrix.transpose_mul, Matrix.transpose_transpose]
  obtain ⟨s1, l1⟩ := hlist h1 ht hu hl
  obtain ⟨s2, l2⟩ := hlist h2 ht' hu (h.1 ▸ hl)
  unfold AteResult.rotAte AteResult.rotDevRms AteResult.rotDevMax
  rw [if_pos s1, if_pos s2, l1, l2]
  have hpos : ∀ A B : List R, ∀ a ∈ List.zipWith (fun p q => matAngle (L.toMat p * (L.toMat q).transpose)) A B, 0 ≤ a := by
    intro A B a ha
    obtain ⟨i, hi, rfl⟩ := List.getElem_of_mem ha
    rw [List.getElem_zipWith]
    exact matAngle_nonneg _
  refine stats_within ?_ (hpos _ _) (hpos _ _) ?_
  · intro e
    have := congrArg List.length e
    simp [← hl] at this
    exact hne this
  · rw [List.forall₂_iff_get]
    have h0 := h.1
    refine ⟨by simp [← h0], ?_⟩
    intro i hi hi'
    simp only [List.length_zipWith] at hi hi'
    simp only [List.get_eq_getElem, List.getElem_zipWith]
    have n1 := h.2 i _ _ (List.getElem?_eq_getElem (by omega)) (List.getElem?_eq_getElem (by omega))
    generalize t[i]'(by omega) = p at *
    generalize t'[i]'(by omega) = q at *
    generalize u[i]'(by omega) = w at *
    have t1 := htri p q w
    have t2 := htri q p w
    rw [hsym q p] at t1
    exact abs_le.2 ⟨by linarith, by linarith⟩

section
variable {K R : Type} [Field K] [LinearOrder K] [IsStrictOrderedRing K]

/-- the position error of a pair changes by at most `2 ε` if its two test positions change by at most `ε` -/
theorem posError_near {nrm : V3 K → K} (hn : IsNorm nrm) {L : RotLib K R} (hL : IsRotLib L) {ε : K} {s s' z z' u u' : Sample K R}
    (hr : s.r = z.r) (h1 : nrm (s.p - z.p) ≤ ε) (h2 : nrm (s'.p - z'.p) ≤ ε) :
    |posError nrm L s s' u u' - posError nrm L z z' u u'| ≤ 2 * ε := by
  have hd : nrm ((s'.p - s.p) - (z'.p - z.p)) ≤ 2 * ε := by
    have e : (s'.p - s.p) - (z'.p - z.p) = (s'.p - z'.p) + -(s.p - z.p) := by abel
    rw [e]
    have := hn.triangle (s'.p - z'.p) (-(s.p - z.p))
    rw [hn.neg] at this
    linarith
  have hrev : ∀ a b : V3 K, |nrm a - nrm b| ≤ nrm (a - b) := by
    intro a b
    have t1 := hn.triangle (a - b) b
    have t2 := hn.triangle (b - a) a
    rw [sub_add_cancel] at t1 t2
    rw [← hn.neg (b - a), neg_sub] at t2
    exact abs_le.2 ⟨by linarith, by linarith⟩
  have hcase : ∀ a b c : K, |(|c - a| - |c - b|)| ≤ |a - b| := by
    intro a b c
    have := abs_abs_sub_abs_le_abs_sub (c - a) (c - b)
    rw [show c - a - (c - b) = -(a - b) by ring, abs_neg] at this
    exact this
  unfold posError
  rw [hr]
  rcases hz : z.r with _ | q
  · dsimp only
    exact (hcase _ _ _).trans ((hrev _ _).trans hd)
  · rcases hu : u.r with _ | o
    · dsimp only
      exact (hcase _ _ _).trans ((hrev _ _).trans hd)
    · dsimp only
      refine (hrev _ _).trans ?_
      rw [sub_sub_sub_cancel_right]
      unfold wayFrom
      rw [← mulV_sub, hn.mulV (hL.rot q).transpose]
      exact hd

variable [FloorRing K]

/-- **C213**, relative errors: if every position of the estimate changes by at most `ε` (and no orientation), the result has the same
bins and pairs, and every position error changes by at most `2 ε` per distance of its pair. -/
theorem C213_rpe {E : EvalLib K} (hE : IsEvalLib E) {L : RotLib K R} (hL : IsRotLib L) {ε : K} {T T' U : Traj K R} (hT : Coherent T)
    (hT' : Coherent T') (hU : Coherent U) (hlen : T.tstamps.length = U.tstamps.length) (hrot : T.rot = T'.rot)
    (h : PathNear E.nrm ε T.pos T'.pos) {s : RpeSettings K} {r r' : RpeResult K} (h1 : compareRelative E L T U s = .ok r)
    (h2 : compareRelative E L T' U s = .ok r') :
    r.groups.map RpeGroup.key = r'.groups.map RpeGroup.key ∧
    ∀ g ∈ r.groups, ∀ g' ∈ r'.groups, g.key = g'.key → g.pairDist = g'.pairDist ∧
      ∀ (k : Nat) (d e e' : K), g.pairDist[k]? = some d → g.posDev[k]? = some (some e) → g'.posDev[k]? = some (some e') →
        |e - e'| ≤ 2 * ε / |d| := by
  have hl' : T.tstamps.length = T'.tstamps.length := by
    rw [← hT.pos, ← hT'.pos]
    exact h.1
  have hlen' : T'.tstamps.length = U.tstamps.length := by omega
  constructor
  · obtain ⟨_, _, a1, a2⟩ := compareRelative_ok h1
    obtain ⟨_, _, b1, b2⟩ := compareRelative_ok h2
    have key : ∀ {Z : Traj K R} {ds : List K} {gs : List (RpeGroup K)}, mapE (rpeGroup E L Z U s) ds = .ok gs → gs.map RpeGroup.key = ds := by
      intro Z ds
      induction ds with
      | nil =>
        intro gs hgs
        cases hgs
        rfl
      | cons d ds ih =>
        intro gs hgs
        obtain ⟨g, gs', e1, e2, rfl⟩ := mapE_cons_inv hgs
        obtain ⟨D, ps, devs, _, _, _, e4, _⟩ := rpeGroup_ok e1
        rw [List.map_cons, ih e2, e4]
    rw [key a1, key b1]
  · intro g hg g' hg' hk
    obtain ⟨-, D, ps, devs, e1, e2, e3, e4, e5, e6⟩ := groups_of_result hT hU hlen h1 hg
    obtain ⟨-, D', ps', devs', f1, f2, f3, f4, f5, f6⟩ := groups_of_result hT' hU hlen' h2 hg'
    rw [e1] at f1
    cases f1
    rw [← hk, e2] at f2
    cases f2
    have her := errorsOf_devs hE hL hT hU e3 e4 e5
    have her' := errorsOf_devs hE hL hT' hU f3 f4 f5
    have hDl := pairScale_length hU e1
    have hdist : g.pairDist = g'.pairDist := by
      apply List.ext_getElem?
      intro k
      rcases lt_or_ge k ps.length with hkl | hkl
      · obtain ⟨a, b, ha, hb, hc⟩ := e6.dist k _ _ (List.getElem?_eq_getElem hkl)
        obtain ⟨a', b', ha', hb', hc'⟩ := f6.dist k _ _ (List.getElem?_eq_getElem hkl)
        rw [ha] at ha'
        rw [hb] at hb'
        cases ha'
        cases hb'
        rw [hc, hc']
      · rw [List.getElem?_eq_none (by rw [e6.numDist]; exact hkl), List.getElem?_eq_none (by rw [f6.numDist]; exact hkl)]
    refine ⟨hdist, ?_⟩
    intro k d e e' hd he he'
    have hkl : k < ps.length := e6.numDist ▸ (List.getElem?_eq_some_iff.1 hd).1
    rcases hp : ps[k] with ⟨i, j⟩
    have hpk : ps[k]? = some (i, j) := by rw [List.getElem?_eq_getElem hkl, hp]
    obtain ⟨a, b, ha, hb, hc⟩ := e6.dist k i j hpk
    rw [hd, Option.some.injEq] at hc
    have hi := (List.getElem?_eq_some_iff.1 ha).1
    have hj := (List.getElem?_eq_some_iff.1 hb).1
    obtain ⟨x, hx⟩ := exists_sample hT (i := i) (by omega)
    obtain ⟨x', hx'⟩ := exists_sample hT (i := j) (by omega)
    obtain ⟨z, hz⟩ := exists_sample hT' (i := i) (by omega)
    obtain ⟨z', hz'⟩ := exists_sample hT' (i := j) (by omega)
    obtain ⟨u, hu⟩ := exists_sample hU (i := i) (by omega)
    obtain ⟨u', hu'⟩ := exists_sample hU (i := j) (by omega)
    have v1 := her.pos k i j x x' u u' a b hpk hx hx' hu hu' ha hb
    have v2 := her'.pos k i j z z' u u' a b hpk hz hz' hu hu' ha hb
    rw [he, Option.some.injEq] at v1
    rw [he', Option.some.injEq] at v2
    unfold perDistance at v1 v2
    split at v1
    · cases v1
    · rename_i hne
      rw [if_neg hne] at v2
      cases v1
      cases v2
      rw [← sub_div, abs_div, hc]
      refine div_le_div_of_nonneg_right ?_ (abs_nonneg _)
      exact posError_near hE.nrm hL (same_turn hT hT' hl' hrot hx hz) (h.2 i _ _ (sample_pos hT hx) (sample_pos hT' hz))
        (h.2 j _ _ (sample_pos hT hx') (sample_pos hT' hz'))

end

/-! ### The hypotheses are met -/

/-- half a turn is the largest possible change; the same orientations differ by nothing -/
example : TurnedNear (matLib (fun a _ _ => a)) Real.pi [exUpright, exUpside] [exUpside, exUpside] ∧
    TurnedNear (matLib (fun a _ _ => a)) 0 [exUpright, exUpside] [exUpright, exUpside] := by
  have hL := matLib_isRotLib (K := ℝ) (fun a _ _ => a)
  refine ⟨⟨rfl, fun i p q _ _ => matAngle_le_pi _⟩, rfl, ?_⟩
  intro i p q hp hq
  rw [hp] at hq
  cases hq
  rw [(hL.rot p).1]
  exact ((matAngle_eq_zero isRot_one).2 rfl).le

/-- two estimates near each other, both compared with the same reference -/
example : ∃ r r', compareRelative realEval (matLib (fun a _ _ => a)) (exPosed ⟨0, 0, 0⟩ ⟨3, 0, 0⟩ exUpright exUpright)
      (exPosed ⟨0, 0, 0⟩ ⟨1, 0, 0⟩ exUpright exUpside) exPerSecond = .ok r ∧
    compareRelative realEval (matLib (fun a _ _ => a)) (exPosed ⟨1, 0, 0⟩ ⟨3, 0, 2⟩ exUpright exUpright)
      (exPosed ⟨0, 0, 0⟩ ⟨1, 0, 0⟩ exUpright exUpside) exPerSecond = .ok r' := by
  have key : ∀ a b : V3 ℝ, ∃ r, compareRelative realEval (matLib (fun a _ _ => a)) (exPosed a b exUpright exUpright)
      (exPosed ⟨0, 0, 0⟩ ⟨1, 0, 0⟩ exUpright exUpside) exPerSecond = .ok r := by
    intro a b
    have h := C65_relative_comparison_errors realEval (matLib (fun a _ _ => a)) (exPosed a b exUpright exUpright)
      (exPosed ⟨0, 0, 0⟩ ⟨1, 0, 0⟩ exUpright exUpside) (exPosed_coherent _ _ _ _)
      (exPosed_coherent _ _ _ _) rfl (by simp [exPosed, exPair]) exPerSecond (by norm_num [exPerSecond])
      (by norm_num [exPerSecond]) (by
        intro D hD
        injection hD with hD
        subst hD
        simp [exPosed, exPair])
    rcases h.2 with ⟨r, h2⟩ | h2
    · exact ⟨r, h2⟩
    · rcases h.1.1 h2 with h3 | h3 | h3
      · norm_num [exPerSecond] at h3
      · simp [exPerSecond] at h3
      · have := h3 [0, 1] rfl 0 (by simp) 1 (by simp)
        norm_num [exPerSecond] at this
  obtain ⟨r, hr⟩ := key ⟨0, 0, 0⟩ ⟨3, 0, 0⟩
  obtain ⟨r', hr'⟩ := key ⟨1, 0, 0⟩ ⟨3, 0, 2⟩
  exact ⟨r, r', hr, hr'⟩

end TC
