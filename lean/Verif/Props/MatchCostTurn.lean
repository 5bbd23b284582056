import Verif.Props.MatchCost

/-! C225: what matching costs in the absolute rotation error. -/

namespace TC

set_option linter.unusedSectionVars false

open H

variable {R : Type}

/-- Specification: a turning motion that turns by at most `w` per second. -/
structure TopTurn (w : ℝ) (A : ℝ → M3 ℝ) : Prop where
  rot : ∀ t, IsRot (A t)
  rate : ∀ s t, matAngle (A t * (A s).transpose) ≤ w * |t - s|

/-- Specification: a trajectory whose orientations are off the motion by at most `e`. -/
def RecordsTurn (L : RotLib ℝ R) (A : ℝ → M3 ℝ) (e : ℝ) (T : Traj ℝ R) : Prop :=
  ∀ a ∈ samples T, ∀ q, a.r = some q → matAngle (L.toMat q * (A a.t).transpose) ≤ e

/-- two records of the same turning motion at different times -/
theorem turns_apart {L : RotLib ℝ R} (hL : IsRotLib L) {w : ℝ} {A : ℝ → M3 ℝ} (hA : TopTurn w A) (hw : 0 ≤ w) {e e' : ℝ}
    {T U : Traj ℝ R} (hT : RecordsTurn L A e T) (hU : RecordsTurn L A e' U) {a b : Sample ℝ R} (ha : a ∈ samples T)
    (hb : b ∈ samples U) {q o : R} (hq : a.r = some q) (ho : b.r = some o) {m : ℝ} (hm : |a.t - b.t| ≤ m) :
    matAngle (L.toMat o * (L.toMat q).transpose) ≤ e + e' + w * m := by
  have h1 := hT a ha q hq
  have h2 := hU b hb o ho
  have h3 := hA.rate a.t b.t
  have h4 := mul_le_mul_of_nonneg_left hm hw
  have k1 : (A b.t).transpose * A b.t = 1 := mul_eq_one_comm.1 (hA.rot b.t).1
  have k2 : (A a.t).transpose * A a.t = 1 := mul_eq_one_comm.1 (hA.rot a.t).1
  have e1 : L.toMat o * (L.toMat q).transpose = L.toMat o * (A b.t).transpose *
      (A b.t * (A a.t).transpose * (L.toMat q * (A a.t).transpose).transpose) := by
    rw [Matrix.transpose_mul, Matrix.transpose_transpose]
    calc L.toMat o * (L.toMat q).transpose
        = L.toMat o * ((A b.t).transpose * A b.t) * ((A a.t).transpose * A a.t) * (L.toMat q).transpose := by
          rw [k1, k2, Matrix.mul_one, Matrix.mul_one]
      _ = _ := by simp only [Matrix.mul_assoc]
  have r1 : IsRot (L.toMat o * (A b.t).transpose) := (hL.rot o).mul (hA.rot b.t).transpose
  have r2 : IsRot (A b.t * (A a.t).transpose) := (hA.rot b.t).mul (hA.rot a.t).transpose
  have r3 : IsRot (L.toMat q * (A a.t).transpose).transpose := ((hL.rot q).mul (hA.rot a.t).transpose).transpose
  have t1 := matAngle_mul_le r1 (r2.mul r3)
  have t2 := matAngle_mul_le r2 r3
  rw [matAngle_transpose] at t2
  rw [e1]
  rw [abs_sub_comm] at h3
  linarith

/-- a rotation error after matching belongs to a pair of samples -/
theorem paired_turn {P : Type} {dist : P → P → ℝ} {m : ℝ} {g : Sample ℝ R → P} {T U T' U' : Traj ℝ R}
    (hp : Paired dist m g T U T' U') {L : RotLib ℝ R} (hL : IsRotLib L) (hT : T.rot ≠ none) (hU : U.rot ≠ none)
    {a : AteResult ℝ R} (ha : compareAbsolute realEval L T' U' = .ok a) {d : ℝ} (hd : d ∈ a.rotDevComb realEval L) :
    ∃ x ∈ samples T, ∃ y ∈ samples U, ∃ q o, Nearest dist ((samples U).map g) (g x) (g y) ∧ Within dist m (g x) (g y) ∧
      x.r = some q ∧ y.r = some o ∧ d = matAngle (L.toMat o * (L.toMat q).transpose) := by
  obtain ⟨lt, h1⟩ : ∃ lt, T'.rot = some lt := by
    have := hp.testMeta.rot
    rw [Option.isSome_iff_ne_none.2 hT] at this
    exact Option.isSome_iff_exists.1 this
  obtain ⟨lr, h2⟩ : ∃ lr, U'.rot = some lr := by
    have := hp.refMeta.rot
    rw [Option.isSome_iff_ne_none.2 hU] at this
    exact Option.isSome_iff_exists.1 this
  have hl : lr.length = lt.length := by
    rw [hp.refCoherent.rot lr h2, hp.testCoherent.rot lt h1]
    have := hp.length
    rw [← List.length_map (f := Sample.t), ← List.length_map (as := samples U') (f := Sample.t),
      samples_map_t hp.testCoherent, samples_map_t hp.refCoherent] at this
    exact this.symm
  obtain ⟨D, e1, e2⟩ := (compareAbsolute_fields ha).2.1 lr lt h2 h1
  rw [bcast_eq hl, Except.ok.injEq] at e1
  unfold AteResult.rotDevComb at hd
  rw [e2] at hd
  obtain ⟨c, hc, rfl⟩ := List.mem_map.1 hd
  rw [← e1] at hc
  obtain ⟨i, hi⟩ := List.getElem?_of_mem hc
  rw [List.getElem?_zipWith] at hi
  rcases ho : lr[i]? with _ | o <;> rcases hq : lt[i]? with _ | q <;> rw [ho, hq] at hi <;> simp at hi
  have look : ∀ {V : Traj ℝ R} {l : List R} {k : R}, Coherent V → V.rot = some l → l[i]? = some k →
      ∃ x, (samples V)[i]? = some x ∧ x.r = some k := by
    intro V l k hV hr hk
    have := samples_map_r hV
    rw [hr] at this
    have h3 : ((samples V).map Sample.r)[i]? = some (some k) := by
      rw [this]
      simp [rotColumn, hk]
    rw [List.getElem?_map] at h3
    obtain ⟨x, hx, hx'⟩ := Option.map_eq_some_iff.1 h3
    exact ⟨x, hx, hx'⟩
  obtain ⟨x, hx, hxq⟩ := look hp.testCoherent h1 hq
  obtain ⟨y, hy, hyo⟩ := look hp.refCoherent h2 ho
  obtain ⟨n1, n2⟩ := hp.pairs i x y hx hy
  refine ⟨x, hp.test.subset (List.mem_of_getElem? hx), y, hp.ref.subset (List.mem_of_getElem? hy), q, o, n1, n2, hxq, hyo, ?_⟩
  rw [← hi, hL.toMat_mul, hL.toMat_inv]
  rfl

/-- **C225**, orientations: nearest in time, the errors of the two records and the angle that can be turned within the allowed time
difference. -/
theorem C225_turn_limit (lib : MatchLib ℝ R) (hq : IsNearestQuery (fun a b => |a - b|) lib.queryT) {L : RotLib ℝ R}
    (hL : IsRotLib L) (counter : Nat) (s : MatchingSettings ℝ) (hs : s.method = .nearestTemporal)
    (hm : 0 < s.maxTimeDiff) {w e e' : ℝ} {A : ℝ → M3 ℝ} (hA : TopTurn w A) (hw : 0 ≤ w) {T U : Traj ℝ R} (hT : Coherent T)
    (hU : Coherent U) (hne : T.tstamps ≠ []) (hTr : T.rot ≠ none) (hUr : U.rot ≠ none) (hTx : RecordsTurn L A e T)
    (hUx : RecordsTurn L A e' U) {h h' : Heap ℝ R} {f t f' t' : Nat} (hf : h[f]? = some T) (ht : h[t]? = some U) (inplace : Bool)
    (hft : inplace = true → f ≠ t) (hret : Returns (matchTrajectories lib counter f t s inplace) h (f', t') h') :
    ∃ T' U', h'[f']? = some T' ∧ h'[t']? = some U' ∧ ∀ a, compareAbsolute realEval L T' U' = .ok a →
      ∀ d ∈ a.rotDevComb realEval L, d ≤ e + e' + w * s.maxTimeDiff := by
  obtain ⟨T', U', h1, h2, hp⟩ := paired_of_returns
    (C38_temporal_matching lib hq counter s hs hm.le hT hU hne hf ht inplace hft) hret
  refine ⟨T', U', h1, h2, fun a ha d hd => ?_⟩
  obtain ⟨y, hy, z, hz, q, o, -, hwi, hyq, hzo, rfl⟩ := paired_turn hp hL hTr hUr ha hd
  rcases hwi with hwi | hwi
  · exact absurd hwi hm.ne'
  · exact turns_apart hL hA hw hTx hUx hy hz hyq hzo hwi.le

/-- **C225**, orientations: half the sampling interval of the reference in place of the allowed time difference. -/
theorem C225_turn_sampling (lib : MatchLib ℝ R) (hq : IsNearestQuery (fun a b => |a - b|) lib.queryT) {L : RotLib ℝ R}
    (hL : IsRotLib L) (counter : Nat) (s : MatchingSettings ℝ) (hs : s.method = .nearestTemporal)
    (hm : 0 ≤ s.maxTimeDiff) {w e e' : ℝ} {A : ℝ → M3 ℝ} (hA : TopTurn w A) (hw : 0 ≤ w) {T U : Traj ℝ R} (hT : Coherent T)
    (hU : Coherent U) (hne : T.tstamps ≠ []) (hTr : T.rot ≠ none) (hUr : U.rot ≠ none) (hTx : RecordsTurn L A e T)
    (hUx : RecordsTurn L A e' U) {g : ℝ} (hg0 : 0 ≤ g) (hg : GapFree g U.tstamps)
    (hspan : ∀ t ∈ T.tstamps, InSpan U.tstamps t)
    {h h' : Heap ℝ R} {f t f' t' : Nat} (hf : h[f]? = some T) (ht : h[t]? = some U) (inplace : Bool)
    (hft : inplace = true → f ≠ t) (hret : Returns (matchTrajectories lib counter f t s inplace) h (f', t') h') :
    ∃ T' U', h'[f']? = some T' ∧ h'[t']? = some U' ∧ ∀ a, compareAbsolute realEval L T' U' = .ok a →
      ∀ d ∈ a.rotDevComb realEval L, d ≤ e + e' + w * (g / 2) := by
  obtain ⟨T', U', h1, h2, hp⟩ := paired_of_returns
    (C38_temporal_matching lib hq counter s hs hm hT hU hne hf ht inplace hft) hret
  refine ⟨T', U', h1, h2, fun a ha d hd => ?_⟩
  obtain ⟨y, hy, z, hz, q, o, hn, -, hyq, hzo, rfl⟩ := paired_turn hp hL hTr hUr ha hd
  rw [samples_map_t hU] at hn
  refine turns_apart hL hA hw hTx hUx hy hz hyq hzo (nearest_half hg hg0 (hspan _ ?_) hn)
  rw [← samples_map_t hT]
  exact List.mem_map_of_mem hy

/-! ### The hypotheses are met -/

/-- a vehicle that does not turn, recorded without error, and recorded upside down -/
example : TopTurn 0 (fun _ => 1) ∧
    RecordsTurn (matLib (fun a _ _ => a)) (fun _ => 1) 0 (exPosed ⟨0, 0, 0⟩ ⟨1, 2, 0⟩ exUpright exUpright) ∧
    RecordsTurn (matLib (fun a _ _ => a)) (fun _ => 1) Real.pi (exPosed ⟨0, 0, 0⟩ ⟨1, 2, 0⟩ exUpright exUpside) := by
  refine ⟨⟨fun _ => isRot_one, fun s t => ?_⟩, ?_, fun a _ q _ => matAngle_le_pi _⟩
  · rw [Matrix.transpose_one, Matrix.mul_one, zero_mul, (matAngle_eq_zero isRot_one).2 rfl]
  · intro a ha q hq
    obtain ⟨i, hi⟩ := List.getElem?_of_mem ha
    have h1 := sample_rot (exPosed_coherent _ _ _ _) hi
    rw [hq] at h1
    have h2 : q = exUpright := by
      rcases i with _ | _ | i <;> simp [exPosed, exPair, rotColumn] at h1 <;> exact h1.symm
    subst h2
    refine le_of_eq ?_
    rw [Matrix.transpose_one, Matrix.mul_one]
    exact (matAngle_eq_zero isRot_one).2 rfl

end TC
