import Verif.Props.AteDistance
import Verif.Props.TrajInterp
import Verif.Props.Transform
import Verif.Props.Selections
/-!
# C213: small changes of positions have small effects
-/
namespace TC
set_option linter.unusedSectionVars false

/-- equally many positions, each at most `ε` from its partner -/
def PathNear {K : Type} [Field K] [LinearOrder K] (nrm : V3 K → K) (ε : K) (P Q : List (V3 K)) : Prop :=
  P.length = Q.length ∧ ∀ (i : Nat) (p q : V3 K), P[i]? = some p → Q[i]? = some q → nrm (p - q) ≤ ε

section
variable {K R : Type} [Field K] [LinearOrder K] [IsStrictOrderedRing K]

theorem StrictAsc.index_lt {ts : List K} (hs : StrictAsc ts) {i j : Nat} {a b : K} (hi : ts[i]? = some a) (hj : ts[j]? = some b)
    (h : a < b) : i < j := by
  obtain ⟨hi', rfl⟩ := List.getElem?_eq_some_iff.1 hi
  obtain ⟨hj', rfl⟩ := List.getElem?_eq_some_iff.1 hj
  by_contra hc
  rcases Nat.lt_or_eq_of_le (not_lt.1 hc) with h' | h'
  · exact absurd (List.pairwise_iff_getElem.1 hs j i hj' hi' h') (not_lt.2 h.le)
  · subst h'
    exact lt_irrefl _ h

theorem OnPolygon.near {nrm : V3 K → K} (hn : IsNorm nrm) {ε : K} {ts : List K} (hs : StrictAsc ts) {P Q : List (V3 K)}
    (h : PathNear nrm ε P Q) {t : K} {p q : V3 K} (hp : OnPolygon ts P t p) (hq : OnPolygon ts Q t q) : nrm (p - q) ≤ ε := by
  rcases hp with ⟨i, hi, hp⟩ | ⟨i, t0, t1, p0, p1, h0, h1, hp0, hp1, l0, l1, rfl⟩ <;>
    rcases hq with ⟨j, hj, hq⟩ | ⟨j, u0, u1, q0, q1, g0, g1, hq0, hq1, k0, k1, rfl⟩
  · have : i = j := by
      by_contra hc
      obtain ⟨a, a'⟩ := List.getElem?_eq_some_iff.1 hi
      obtain ⟨b, b'⟩ := List.getElem?_eq_some_iff.1 hj
      rcases Nat.lt_or_gt_of_ne hc with hc | hc
      · have := List.pairwise_iff_getElem.1 hs _ _ a b hc
        rw [a', b'] at this
        exact lt_irrefl _ this
      · have := List.pairwise_iff_getElem.1 hs _ _ b a hc
        rw [a', b'] at this
        exact lt_irrefl _ this
    subst this
    exact h.2 i p q hp hq
  · have a := hs.index_lt g0 hi k0
    have b := hs.index_lt hi g1 k1
    omega
  · have a := hs.index_lt h0 hj l0
    have b := hs.index_lt hj h1 l1
    omega
  · have a := hs.index_lt h0 g1 (l0.trans k1)
    have b := hs.index_lt g0 h1 (k0.trans l1)
    have : i = j := by omega
    subst this
    rw [h0] at g0
    rw [h1] at g1
    cases g0
    cases g1
    have hd : 0 < t1 - t0 := by linarith
    set c := (t - t0) / (t1 - t0) with hc
    have c0 : 0 ≤ c := div_nonneg (by linarith) hd.le
    have c1 : c ≤ 1 := (div_le_one hd).2 (by linarith)
    have e : p0 + c • (p1 - p0) - (q0 + c • (q1 - q0)) = (1 - c) • (p0 - q0) + c • (p1 - q1) := by
      ext <;> simp <;> ring
    rw [e]
    refine (hn.triangle _ _).trans ?_
    rw [hn.smul, hn.smul, abs_of_nonneg c0, abs_of_nonneg (by linarith : (0 : K) ≤ 1 - c)]
    have := mul_le_mul_of_nonneg_left (h.2 _ _ _ hp0 hq0) (by linarith : (0 : K) ≤ 1 - c)
    have := mul_le_mul_of_nonneg_left (h.2 _ _ _ hp1 hq1) c0
    linarith

/-- **C213**, interpolation: if two trajectories have the same timestamps and positions at most `ε` apart, then so do
the trajectories interpolated onto any times. -/
theorem C213_interpolate (L : RotLib K R) {nrm : V3 K → K} (hn : IsNorm nrm) {ε : K} {T U T' U' : Traj K R} (hT : Coherent T)
    (hU : Coherent U) (hne : T.tstamps ≠ []) (hs : StrictAsc T.tstamps) (heq : T.tstamps = U.tstamps)
    (h : PathNear nrm ε T.pos U.pos) (ts : List K) (h1 : Returns (Traj.interpolate L ts) T () T')
    (h2 : Returns (Traj.interpolate L ts) U () U') : T'.tstamps = U'.tstamps ∧ PathNear nrm ε T'.pos U'.pos := by
  have htt : T'.tstamps = U'.tstamps := by
    obtain ⟨q, rfl⟩ := interpDone_returns L hT (List.length_pos_of_ne_nil hne) h1
    obtain ⟨q', rfl⟩ := interpDone_returns L hU (List.length_pos_of_ne_nil (heq ▸ hne)) h2
    simp only [interpDone, heq]
  obtain ⟨a1, a2⟩ := C06_interpolate_positions L T T' hT hne hs ts h1
  obtain ⟨b1, b2⟩ := C06_interpolate_positions L U U' hU (heq ▸ hne) (heq ▸ hs) ts h2
  refine ⟨htt, by rw [a1, b1, htt], ?_⟩
  intro i p q hp hq
  have hi : i < T'.tstamps.length := a1 ▸ (List.getElem?_eq_some_iff.1 hp).1
  have ht := List.getElem?_eq_getElem hi
  have := b2 i T'.tstamps[i] q (by rw [← htt]; exact ht) hq
  rw [← heq] at this
  exact (a2 i _ p ht hp).near hn hs h this

/-- **C213**, arc lengths: the arc length at the `i`-th position changes by at most `2 i ε`. -/
theorem C213_arc_lengths {nrm : V3 K → K} (hn : IsNorm nrm) {ε : K} {P Q : List (V3 K)} (h : PathNear nrm ε P Q) :
    ∀ (i : Nat) (s t : K), (lengthsFromXyz nrm P)[i]? = some s → (lengthsFromXyz nrm Q)[i]? = some t →
      P ≠ [] → |s - t| ≤ 2 * i * ε := by
  intro i s t hs ht hP
  have hQ : Q ≠ [] := by
    rintro rfl
    exact hP (List.length_eq_zero_iff.1 h.1)
  have tP := C13_arc_lengths_are_travelled_distance nrm P hP
  have tQ := C13_arc_lengths_are_travelled_distance nrm Q hQ
  induction i generalizing s t with
  | zero =>
    have a := tP.start
    have b := tQ.start
    rw [hs] at a
    rw [ht] at b
    cases a
    cases b
    simp
  | succ i ih =>
    have lP := (List.getElem?_eq_some_iff.1 hs).1
    have lQ := (List.getElem?_eq_some_iff.1 ht).1
    have l1 := tP.length
    have l2 := tQ.length
    have es := tP.step i _ _ _ s (List.getElem?_eq_getElem (by omega)) (List.getElem?_eq_getElem (by omega))
      (List.getElem?_eq_getElem (by omega)) hs
    have et := tQ.step i _ _ _ t (List.getElem?_eq_getElem (by omega)) (List.getElem?_eq_getElem (by omega))
      (List.getElem?_eq_getElem (by omega)) ht
    have hi := ih _ _ (List.getElem?_eq_getElem (by omega)) (List.getElem?_eq_getElem (by omega))
    have n1 := h.2 i _ _ (List.getElem?_eq_getElem (by omega)) (List.getElem?_eq_getElem (by omega))
    have n2 := h.2 (i + 1) _ _ (List.getElem?_eq_getElem (by omega)) (List.getElem?_eq_getElem (by omega))
    generalize (lengthsFromXyz nrm P)[i]'(by omega) = s0 at *
    generalize (lengthsFromXyz nrm Q)[i]'(by omega) = t0 at *
    generalize P[i]'(by omega) = p at *
    generalize P[i + 1]'(by omega) = p' at *
    generalize Q[i]'(by omega) = q at *
    generalize Q[i + 1]'(by omega) = q' at *
    have n3 : nrm (q - p) ≤ ε := by
      rw [← hn.neg, neg_sub]
      exact n1
    have n4 : nrm (q' - p') ≤ ε := by
      rw [← hn.neg, neg_sub]
      exact n2
    have u1 : nrm (p' - p) ≤ nrm (p' - q') + (nrm (q' - q) + nrm (q - p)) := by
      have := hn.triangle (p' - q') (q' - p)
      have := hn.triangle (q' - q) (q - p)
      simp only [sub_add_sub_cancel] at *
      linarith
    have u2 : nrm (q' - q) ≤ nrm (q' - p') + (nrm (p' - p) + nrm (p - q)) := by
      have := hn.triangle (q' - p') (p' - q)
      have := hn.triangle (p' - p) (p - q)
      simp only [sub_add_sub_cancel] at *
      linarith
    rw [abs_le] at hi ⊢
    push_cast
    constructor <;> linarith [hi.1, hi.2]

/-- **C213**, transformations: rigid motions keep positions as close as they were. -/
theorem C213_transform (L : RotLib K R) (hL : IsRotLib L) {nrm : V3 K → K} (hn : IsNorm nrm) {ε : K} {T U T' U' : Traj K R}
    (hT : Coherent T) (hU : Coherent U) (hneT : T.tstamps ≠ []) (hneU : U.tstamps ≠ []) (h : PathNear nrm ε T.pos U.pos) (A : M4 K)
    (hA : IsRigid A) (h1 : Returns (Traj.applyTransformation L A) T () T')
    (h2 : Returns (Traj.applyTransformation L A) U () U') : PathNear nrm ε T'.pos U'.pos := by
  have e1 := applyTransformation_eq L hT hneT A
  have e2 := applyTransformation_eq L hU hneU A
  unfold Returns at h1 h2
  rw [h1] at e1
  rw [h2] at e2
  have f1 := (Prod.mk.inj e1).2
  have f2 := (Prod.mk.inj e2).2
  subst f1 f2
  refine ⟨by simpa using h.1, ?_⟩
  intro i p q hp hq
  simp only [List.getElem?_map, Option.map_eq_some_iff] at hp hq
  obtain ⟨a, ha, rfl⟩ := hp
  obtain ⟨b, hb, rfl⟩ := hq
  have e : mulV (poseRot A) a + posePos A - (mulV (poseRot A) b + posePos A) = mulV (poseRot A) (a - b) := by
    rw [mulV_sub]
    abel
  rw [e, hn.mulV hA.1]
  exact h.2 i a b ha hb
end

/-- two numbers that differ by at most `ε` -/
def DiffersBy (ε : ℝ) (x y : Except Err ℝ) : Prop := ∃ a b, x = .ok a ∧ y = .ok b ∧ |a - b| ≤ ε

theorem shorter_const {ε : ℝ} (he : 0 ≤ ε) : ∀ {x y : List ℝ}, (∀ a ∈ x, 0 ≤ a) → (∀ a ∈ y, 0 ≤ a) → List.Forall₂ (fun a b => |a - b| ≤ ε) x y →
    Shorter x (List.replicate x.length ε) y := by
  intro x y hx hy h
  induction h with
  | nil => exact .nil
  | @cons a b x y hab _ ih =>
    refine .cons (hx _ List.mem_cons_self) he (hy _ List.mem_cons_self) ?_
      (ih (fun c hc => hx c (List.mem_cons_of_mem _ hc)) (fun c hc => hy c (List.mem_cons_of_mem _ hc)))
    linarith [(abs_le.1 hab).1]

theorem const_stats {n : Nat} (hn : n ≠ 0) {ε : ℝ} (he : 0 ≤ ε) : npMean (List.replicate n ε) = .ok ε ∧
    rms realEval (List.replicate n ε) = .ok ε ∧ pyMax (List.replicate n ε) = .ok ε := by
  have hn' : (n : ℝ) ≠ 0 := by exact_mod_cast hn
  refine ⟨?_, ?_, ?_⟩
  · simp [npMean, hn]
  · simp [rms, npMean, hn, bind, Except.bind, pure, Except.pure, realEval, Real.sqrt_sq he]
  · obtain ⟨a, h1, h2, -⟩ := pyMax_spec (l := List.replicate n ε) (by simpa using hn)
    rw [h1, (List.mem_replicate.1 h2).2]

theorem stats_within {ε : ℝ} {x y : List ℝ} (hne : x ≠ []) (hx : ∀ a ∈ x, 0 ≤ a) (hy : ∀ a ∈ y, 0 ≤ a)
    (h : List.Forall₂ (fun a b => |a - b| ≤ ε) x y) :
    DiffersBy ε (npMean x) (npMean y) ∧ DiffersBy ε (rms realEval x) (rms realEval y) ∧ DiffersBy ε (pyMax x) (pyMax y) := by
  have hl := h.length_eq
  have hn : x.length ≠ 0 := by simpa using hne
  have hne' : y ≠ [] := by
    rintro rfl
    exact hn hl
  have he : 0 ≤ ε := by
    cases h with
    | nil => exact absurd rfl hne
    | cons h _ => exact (abs_nonneg _).trans h
  have s1 := shorter_const he hx hy h
  have s2 := shorter_const he hy hx (h.flip.imp (fun a b h => by rw [abs_sub_comm]; exact h))
  obtain ⟨a1, a2⟩ := s1.detours hne
  obtain ⟨b1, b2⟩ := s2.detours hne'
  have a3 := s1.largest hne
  have b3 := s2.largest hne'
  obtain ⟨c1, c2, c3⟩ := const_stats hn he
  obtain ⟨d1, d2, d3⟩ := const_stats (hl ▸ hn) he
  rw [c1] at a1
  rw [c2] at a2
  rw [c3] at a3
  rw [d1] at b1
  rw [d2] at b2
  rw [d3] at b3
  have key : ∀ {u v : Except Err ℝ}, Detour u (.ok ε) v → Detour v (.ok ε) u → DiffersBy ε u v := by
    rintro u v ⟨a, b, c, rfl, e, rfl, -, h1⟩ ⟨a', b', c', e1, e2, e3, -, h2⟩
    cases e
    cases e1
    cases e2
    cases e3
    exact ⟨a, c, rfl, rfl, abs_le.2 ⟨by linarith, by linarith⟩⟩
  exact ⟨key a1 b1, key a2 b2, key a3 b3⟩

/-- **C213**, absolute errors: if every position of the estimate changes by at most `ε`, mean, root mean square and maximum
of the position errors change by at most `ε`. -/
theorem C213_ate {R : Type} {L : RotLib ℝ R} {ε : ℝ} {T T' U : Traj ℝ R} {r r' : AteResult ℝ R}
    (h1 : compareAbsolute realEval L T U = .ok r) (h2 : compareAbsolute realEval L T' U = .ok r') (hne : T.pos ≠ [])
    (hl : T.pos.length = U.pos.length) (h : PathNear realNorm ε T.pos T'.pos) :
    DiffersBy ε (r.posAte realEval) (r'.posAte realEval) ∧ DiffersBy ε (r.posDevRms realEval) (r'.posDevRms realEval) ∧
    DiffersBy ε (r.posDevMax realEval) (r'.posDevMax realEval) := by
  have hn := realNorm_isNorm
  have hlist : ∀ {A B : Traj ℝ R} {r : AteResult ℝ R}, compareAbsolute realEval L A B = .ok r → A.pos.length = B.pos.length →
      r.posDevComb realEval = List.zipWith (fun p q => realNorm (p - q)) B.pos A.pos := by
    intro A B r h hl
    have := (compareAbsolute_fields h).1
    rw [bcast_same _ hl.symm, Except.ok.injEq] at this
    unfold AteResult.posDevComb
    rw [← this, List.map_zipWith]
    rfl
  unfold AteResult.posAte AteResult.posDevRms AteResult.posDevMax
  rw [hlist h1 hl, hlist h2 (h.1 ▸ hl)]
  have hpos : ∀ A B : List (V3 ℝ), ∀ a ∈ List.zipWith (fun p q => realNorm (p - q)) A B, 0 ≤ a := by
    intro A B a ha
    obtain ⟨i, hi, rfl⟩ := List.getElem_of_mem ha
    rw [List.getElem_zipWith]
    exact hn.nonneg _
  refine stats_within ?_ (hpos _ _) (hpos _ _) ?_
  · intro e
    have := congrArg List.length e
    simp [← hl] at this
    exact hne this
  · rw [List.forall₂_iff_get]
    have h0 := h.1
    refine ⟨by simp [← h0], ?_⟩
    intro i hi hi'
    simp only [List.length_zipWith] at hi hi'
    simp only [List.get_eq_getElem, List.getElem_zipWith]
    have n1 := h.2 i _ _ (List.getElem?_eq_getElem (by omega)) (List.getElem?_eq_getElem (by omega))
    generalize T.pos[i]'(by omega) = p at *
    generalize T'.pos[i]'(by omega) = q at *
    generalize U.pos[i]'(by omega) = u at *
    have n2 : realNorm (q - p) ≤ ε := by
      rw [← hn.neg, neg_sub]
      exact n1
    have t1 := hn.triangle (u - q) (q - p)
    have t2 := hn.triangle (u - p) (p - q)
    simp only [sub_add_sub_cancel] at t1 t2
    exact abs_le.2 ⟨by linarith, by linarith⟩

/-! ### The hypotheses are met -/

example : PathNear realNorm 2 (exPosed ⟨0, 0, 0⟩ ⟨3, 0, 0⟩ exUpright exUpright).pos (exPosed ⟨1, 0, 0⟩ ⟨3, 0, 2⟩ exUpright exUpright).pos := by
  refine ⟨rfl, ?_⟩
  rintro (_ | _ | i) p q hp hq <;> simp [exPosed, exPair] at hp hq <;> subst hp hq
  · have : realNorm ((⟨0, 0, 0⟩ : V3 ℝ) - ⟨1, 0, 0⟩) = 1 := by norm_num [realNorm, V3.normSq]
    rw [this]
    norm_num
  · have : realNorm ((⟨3, 0, 0⟩ : V3 ℝ) - ⟨3, 0, 2⟩) = 2 := by
      rw [realNorm, Real.sqrt_eq_iff_mul_self_eq (by simp [V3.normSq]) (by norm_num)]
      norm_num [V3.normSq]
    rw [this]

end TC
