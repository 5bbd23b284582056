import Verif.Props.Stable
import Verif.Model.Summary
/-!
# C214: a constant error is reported as what it is
-/
namespace TC
set_option linter.unusedSectionVars false

section
variable {K R : Type} [Field K] [LinearOrder K] [IsStrictOrderedRing K]

theorem const_mean {n : Nat} (hn : n ≠ 0) (a : K) : npMean (List.replicate n a) = .ok a := by
  have hn' : (n : K) ≠ 0 := by exact_mod_cast hn
  simp [npMean, hn, hn']

theorem IsEvalLib.sqrt_of {E : EvalLib K} (hE : IsEvalLib E) {a : K} (ha : 0 ≤ a) : E.sqrt (a ^ 2) = a := by
  have h1 := hE.sqrt_sq (a ^ 2) (sq_nonneg a)
  have h2 := hE.sqrt_nonneg (a ^ 2) (sq_nonneg a)
  nlinarith [mul_self_nonneg (E.sqrt (a ^ 2) - a), sq_nonneg (E.sqrt (a ^ 2) + a), mul_nonneg ha h2,
    show (E.sqrt (a ^ 2) - a) * (E.sqrt (a ^ 2) + a) = 0 by linear_combination h1,
    (mul_eq_zero.1 (show (E.sqrt (a ^ 2) - a) * (E.sqrt (a ^ 2) + a) = 0 by linear_combination h1)).elim
      (fun h => h) (fun h => by linarith)]

/-- all statistics of one number repeated -/
theorem const_all {E : EvalLib K} (hE : IsEvalLib E) {n : Nat} (hn : n ≠ 0) {a : K} (ha : 0 ≤ a) :
    npMean (List.replicate n a) = .ok a ∧ rms E (List.replicate n a) = .ok a ∧ pyMax (List.replicate n a) = .ok a ∧
    pyMin (List.replicate n a) = .ok a ∧ npMedian (List.replicate n a) = .ok a ∧ npStd E (List.replicate n a) = .ok 0 := by
  have hne : List.replicate n a ≠ [] := by simpa using hn
  refine ⟨const_mean hn a, ?_, ?_, ?_, ?_, ?_⟩
  · unfold rms
    rw [List.map_replicate, const_mean hn]
    show Except.ok (E.sqrt (a ^ 2)) = _
    rw [hE.sqrt_of ha]
  · obtain ⟨b, h1, h2, -⟩ := pyMax_spec hne
    rw [h1, (List.mem_replicate.1 h2).2]
  · obtain ⟨b, h1, h2, -⟩ := pyMin_spec hne
    rw [h1, (List.mem_replicate.1 h2).2]
  · have hs : npSort (List.replicate n a) = List.replicate n a := npSort_eq_self (by
      rw [List.pairwise_replicate]
      exact .inr (le_refl a))
    have hg : ∀ i : Nat, i < n → npGet (List.replicate n a) (i : Int) = .ok a := by
      intro i hi
      rw [npGet_nat (by simpa using hi)]
      simp
    unfold npMedian
    rw [hs]
    simp only [List.length_replicate, if_neg hn, bind, Except.bind, pure, Except.pure]
    rw [hg _ (by omega), hg _ (by omega)]
    split <;> simp
  · unfold npStd
    rw [const_mean hn]
    show (npMean ((List.replicate n a).map (fun x => (x - a) ^ 2)) >>= fun v => Except.ok (E.sqrt v)) = _
    rw [List.map_replicate, const_mean hn, sub_self]
    show Except.ok (E.sqrt (0 ^ 2)) = _
    rw [hE.sqrt_of (le_refl 0)]

/-- **C214**: if the reference is the estimate moved by `v`, every deviation is `v`; mean, root mean square, maximum, minimum
and median of the distances are the length of `v`, their standard deviation is zero, and the biases are the components of `v`. -/
theorem C214_positions {E : EvalLib K} (hE : IsEvalLib E) {L : RotLib K R} {T U : Traj K R} {r : AteResult K R}
    (h : compareAbsolute E L T U = .ok r) (hne : T.pos ≠ []) (v : V3 K) (hp : U.pos = T.pos.map (fun p => p + v)) :
    r.posDev = List.replicate T.pos.length v ∧ r.posAte E = .ok (E.nrm v) ∧ r.posDevRms E = .ok (E.nrm v) ∧
    r.posDevMax E = .ok (E.nrm v) ∧ r.posDevMin E = .ok (E.nrm v) ∧ r.posDevMedian E = .ok (E.nrm v) ∧
    r.posDevStd E = .ok 0 ∧ r.posBiasX = .ok v.x ∧ r.posBiasY = .ok v.y ∧ r.posBiasZ = .ok v.z := by
  have hn : T.pos.length ≠ 0 := by simpa using hne
  have hd := (compareAbsolute_fields h).1
  rw [hp, bcast_same _ (by simp), Except.ok.injEq] at hd
  have hd' : r.posDev = List.replicate T.pos.length v := by
    rw [← hd, List.zipWith_map_left, List.zipWith_self, List.eq_replicate_iff]
    refine ⟨by simp, ?_⟩
    intro b hb
    obtain ⟨p, -, rfl⟩ := List.mem_map.1 hb
    abel
  obtain ⟨c1, c2, c3, c4, c5, c6⟩ := const_all hE hn (hE.nrm.nonneg v)
  unfold AteResult.posAte AteResult.posDevRms AteResult.posDevMax AteResult.posDevMin AteResult.posDevMedian AteResult.posDevStd
    AteResult.posBiasX AteResult.posBiasY AteResult.posBiasZ AteResult.posDevComb
  rw [hd']
  simp only [List.map_replicate]
  exact ⟨trivial, c1, c2, c3, c4, c5, c6, const_mean hn _, const_mean hn _, const_mean hn _⟩
end

/-- **C214**, orientations: if the reference is turned against the estimate by the same rotation `q` everywhere, every rotation
deviation is `q`, and mean, root mean square, maximum, minimum and median of the angles are the angle of `q`. -/
theorem C214_orientations {R : Type} {L : RotLib ℝ R} (hL : IsRotLib L) {T U : Traj ℝ R} {r : AteResult ℝ R}
    (h : compareAbsolute realEval L T U = .ok r) {t : List R} (ht : T.rot = some t) (hne : t ≠ []) (q : R)
    (hu : U.rot = some (t.map (fun a => L.mul q a))) :
    r.rotDev = some (List.replicate t.length q) ∧ r.rotAte realEval L = .ok (matAngle (L.toMat q)) ∧
    r.rotDevRms realEval L = .ok (matAngle (L.toMat q)) ∧ r.rotDevMax realEval L = .ok (matAngle (L.toMat q)) ∧
    r.rotDevMin realEval L = .ok (matAngle (L.toMat q)) ∧ r.rotDevMedian realEval L = .ok (matAngle (L.toMat q)) ∧
    r.rotDevStd realEval L = .ok 0 ∧
    ∀ G : AngleLib ℝ R, (∀ n a, G.mean (List.replicate (n + 1) a) = a) →
      r.rotBiasXyz G = G.euler q ∧ r.rotDevXyz G = List.replicate t.length (G.euler q) := by
  have hn : t.length ≠ 0 := by simpa using hne
  obtain ⟨d, e1, e2⟩ := (compareAbsolute_fields h).2.1 _ _ hu ht
  rw [bcast_same _ (by simp), Except.ok.injEq] at e1
  have hd : d = List.replicate t.length q := by
    rw [← e1, List.zipWith_map_left, List.zipWith_self, List.eq_replicate_iff]
    refine ⟨by simp, ?_⟩
    intro b hb
    obtain ⟨p, -, rfl⟩ := List.mem_map.1 hb
    refine toMat_inj hL ?_
    rw [hL.toMat_mul, hL.toMat_mul, hL.toMat_inv, Matrix.mul_assoc, (hL.rot p).1, Matrix.mul_one]
  subst hd
  obtain ⟨c1, c2, c3, c4, c5, c6⟩ := const_all realEval_ok hn (matAngle_nonneg (L.toMat q))
  unfold AteResult.rotAte AteResult.rotDevRms AteResult.rotDevMax AteResult.rotDevMin AteResult.rotDevMedian AteResult.rotDevStd
    AteResult.rotDevComb AteResult.rotBiasXyz AteResult.rotDevXyz
  rw [e2]
  simp only [List.map_replicate, Option.isSome_some, if_true]
  refine ⟨trivial, c1, c2, c3, c4, c5, c6, ?_⟩
  intro G hG
  obtain ⟨n, hn'⟩ := Nat.exists_eq_succ_of_ne_zero hn
  rw [hn', hG]
  exact ⟨rfl, trivial⟩

/-! ### The hypotheses are met -/

/-- half a turn and two half turns, as products of the library -/
noncomputable def exOnce : RotM ℝ := (matLib fun a _ _ => a).mul exUpside exUpright
noncomputable def exTwice : RotM ℝ := (matLib fun a _ _ => a).mul exUpside exUpside

example : ∃ r, compareAbsolute realEval (matLib fun a _ _ => a) (exPosed ⟨0, 0, 0⟩ ⟨3, 0, 0⟩ exUpright exUpside)
      (exPosed ⟨1, 2, 2⟩ ⟨4, 2, 2⟩ exOnce exTwice) = .ok r ∧
    (exPosed ⟨1, 2, 2⟩ ⟨4, 2, 2⟩ exOnce exTwice).pos =
      (exPosed ⟨0, 0, 0⟩ ⟨3, 0, 0⟩ exUpright exUpside).pos.map (fun p => p + ⟨1, 2, 2⟩) ∧
    (exPosed ⟨1, 2, 2⟩ ⟨4, 2, 2⟩ exOnce exTwice).rot = some ([exUpright, exUpside].map ((matLib fun a _ _ => a).mul exUpside)) := by
  obtain ⟨a, -, h1, -⟩ := C177_both_directions realEval (matLib fun a _ _ => a) (exPosed ⟨0, 0, 0⟩ ⟨3, 0, 0⟩ exUpright exUpside)
    (exPosed ⟨1, 2, 2⟩ ⟨4, 2, 2⟩ exOnce exTwice) (exPosed_coherent _ _ _ _) (exPosed_coherent _ _ _ _) rfl
  refine ⟨a, h1, ?_, rfl⟩
  simp only [exPosed, exPair, List.map_cons, List.map_nil, List.cons.injEq, and_true]
  constructor <;> ext <;> norm_num

end TC
