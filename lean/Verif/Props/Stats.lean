import Verif.Props.Rpe
import Verif.Proofs.Voxel
/-!
# C66, C105: statistics of deviations
-/
namespace TC
set_option linter.unusedSectionVars false
variable {K R : Type} [Field K] [LinearOrder K] [IsStrictOrderedRing K]

/-- The six numbers reported about a non-empty list of deviations. -/
structure Summary (K : Type) where
  least : K
  greatest : K
  mean : K
  median : K
  std : K
  rms : K

/-- What a user relies on about them. -/
structure IsSummary (l : List K) (s : Summary K) : Prop where
  least_mem : s.least ∈ l
  least_le : ∀ x ∈ l, s.least ≤ x
  greatest_mem : s.greatest ∈ l
  le_greatest : ∀ x ∈ l, x ≤ s.greatest
  mean : s.mean * (l.length : K) = l.sum
  median_low : l.length ≤ 2 * l.countP (fun x => decide (x ≤ s.median))
  median_high : l.length ≤ 2 * l.countP (fun x => decide (s.median ≤ x))
  std_nonneg : 0 ≤ s.std
  std : s.std ^ 2 * (l.length : K) = (l.map (fun x => (x - s.mean) ^ 2)).sum
  rms_nonneg : 0 ≤ s.rms
  rms : s.rms ^ 2 * (l.length : K) = (l.map (fun x => x ^ 2)).sum

theorem sum_map_sub_sq (l : List K) (m : K) :
    (l.map (fun x => (x - m) ^ 2)).sum
      = (l.map (fun x => x ^ 2)).sum - 2 * m * l.sum + (l.length : K) * m ^ 2 := by
  induction l with
  | nil => simp
  | cons a l ih =>
    simp only [List.map_cons, List.sum_cons, List.length_cons, ih]
    push_cast
    ring

theorem sum_sq_nonneg' (l : List K) (f : K → K) : 0 ≤ (l.map (fun x => f x ^ 2)).sum := by
  induction l with
  | nil => simp
  | cons a l ih => simp only [List.map_cons, List.sum_cons]; nlinarith [sq_nonneg (f a)]

theorem sum_sq_eq_zero {l : List K} (h : (l.map (fun x => x ^ 2)).sum = 0) : ∀ x ∈ l, x = 0 := by
  induction l with
  | nil => simp
  | cons a l ih =>
    simp only [List.map_cons, List.sum_cons] at h
    have h1 := sum_sq_nonneg' l (fun x => x)
    have h2 := sq_nonneg a
    intro x hx
    rcases List.mem_cons.1 hx with rfl | hx
    · exact pow_eq_zero_iff (n := 2) (by norm_num) |>.1 (by linarith)
    · exact ih (by linarith) x hx

theorem sum_le_mul {l : List K} {c : K} (h : ∀ x ∈ l, x ≤ c) : l.sum ≤ c * (l.length : K) := by
  induction l with
  | nil => simp
  | cons a l ih =>
    have h1 := h a (by simp)
    have h2 := ih (fun x hx => h x (by simp [hx]))
    simp only [List.sum_cons, List.length_cons]
    push_cast
    linarith

theorem mul_le_sum {l : List K} {c : K} (h : ∀ x ∈ l, c ≤ x) : c * (l.length : K) ≤ l.sum := by
  induction l with
  | nil => simp
  | cons a l ih =>
    have h1 := h a (by simp)
    have h2 := ih (fun x hx => h x (by simp [hx]))
    simp only [List.sum_cons, List.length_cons]
    push_cast
    linarith

/-- **C66.** Consequences of what the six numbers are. -/
theorem IsSummary.consistent {l : List K} {s : Summary K} (h : IsSummary l s) :
    s.least ≤ s.mean ∧ s.mean ≤ s.greatest ∧ s.rms ^ 2 = s.mean ^ 2 + s.std ^ 2 ∧
      |s.mean| ≤ s.rms ∧ (s.rms = 0 ↔ ∀ x ∈ l, x = 0) := by
  have hne : l ≠ [] := List.ne_nil_of_mem h.least_mem
  have hn : (0 : K) < (l.length : K) := by exact_mod_cast List.length_pos_of_ne_nil hne
  have e : s.rms ^ 2 = s.mean ^ 2 + s.std ^ 2 := by
    have h1 := sum_map_sub_sq l s.mean
    rw [← h.std, ← h.rms, ← h.mean] at h1
    have : (s.rms ^ 2 - (s.mean ^ 2 + s.std ^ 2)) * (l.length : K) = 0 := by linear_combination -h1
    rcases mul_eq_zero.1 this with h2 | h2
    · linarith
    · exact absurd h2 (ne_of_gt hn)
  refine ⟨?_, ?_, e, ?_, ?_⟩
  · have := mul_le_sum h.least_le
    rw [← h.mean] at this
    exact le_of_mul_le_mul_right this hn
  · have := sum_le_mul h.le_greatest
    rw [← h.mean] at this
    exact le_of_mul_le_mul_right this hn
  · apply abs_le_of_sq_le_sq _ h.rms_nonneg
    nlinarith [sq_nonneg s.std]
  · constructor
    · intro h0
      apply sum_sq_eq_zero
      rw [← h.rms, h0]
      ring
    · intro h0
      have : (l.map (fun x => x ^ 2)).sum = 0 := by
        apply List.sum_eq_zero
        intro y hy
        obtain ⟨x, hx, rfl⟩ := List.mem_map.1 hy
        rw [h0 x hx]; ring
      rw [← h.rms] at this
      rcases mul_eq_zero.1 this with h2 | h2
      · exact pow_eq_zero_iff (n := 2) (by norm_num) |>.1 h2
      · exact absurd h2 (ne_of_gt hn)

theorem npMean_ne {l : List K} (h : l ≠ []) : npMean l = .ok (l.sum / (l.length : K)) := by
  unfold npMean
  rw [if_neg (by simpa using h)]

theorem count_of_sorted_le {s : List K} (hs : s.Pairwise (· ≤ ·)) {k : Nat} (hk : k < s.length) {c : K}
    (hc : s[k] ≤ c) : k + 1 ≤ s.countP (fun x => decide (x ≤ c)) := by
  have h1 : (s.take (k + 1)).countP (fun x => decide (x ≤ c)) = (s.take (k + 1)).length := by
    rw [List.countP_eq_length]
    intro x hx
    obtain ⟨i, hi, rfl⟩ := List.mem_iff_getElem.1 hx
    rw [List.length_take] at hi
    rw [List.getElem_take]
    simp only [decide_eq_true_eq]
    exact (sorted_getElem_le hs hk (by omega)).trans hc
  have h2 := (List.take_sublist (k + 1) s).countP_le (p := fun x => decide (x ≤ c))
  rw [h1, List.length_take] at h2
  omega

theorem count_of_sorted_ge {s : List K} (hs : s.Pairwise (· ≤ ·)) {k : Nat} (hk : k < s.length) {c : K}
    (hc : c ≤ s[k]) : s.length - k ≤ s.countP (fun x => decide (c ≤ x)) := by
  have h1 : (s.drop k).countP (fun x => decide (c ≤ x)) = (s.drop k).length := by
    rw [List.countP_eq_length]
    intro x hx
    obtain ⟨i, hi, rfl⟩ := List.mem_iff_getElem.1 hx
    rw [List.length_drop] at hi
    rw [List.getElem_drop]
    simp only [decide_eq_true_eq]
    exact hc.trans (sorted_getElem_le hs (by omega) (by omega))
  have h2 := (List.drop_sublist k s).countP_le (p := fun x => decide (c ≤ x))
  rw [h1, List.length_drop] at h2
  exact h2

/-- at least half of the values are not larger, at least half not smaller than the median, which
lies between two of them -/
theorem npMedian_spec {l : List K} (h : l ≠ []) : ∃ m, npMedian l = .ok m ∧
    l.length ≤ 2 * l.countP (fun x => decide (x ≤ m)) ∧
    l.length ≤ 2 * l.countP (fun x => decide (m ≤ x)) := by
  have hlen : (npSort l).length = l.length := npSort_length l
  have hpos : 0 < l.length := List.length_pos_of_ne_nil h
  have hs := npSort_sorted l
  have hc : ∀ p : K → Bool, l.countP p = (npSort l).countP p := fun p =>
    ((npSort_perm l).countP_eq p).symm
  simp only [hc]
  unfold npMedian
  rw [if_neg (by omega)]
  by_cases hodd : (npSort l).length % 2 = 1
  · rw [if_pos hodd]
    have hk : (npSort l).length / 2 < (npSort l).length := by omega
    refine ⟨_, npGet_nat hk, ?_, ?_⟩
    · have := count_of_sorted_le hs hk (le_refl _)
      omega
    · have := count_of_sorted_ge hs hk (le_refl _)
      omega
  · rw [if_neg hodd]
    have hk : (npSort l).length / 2 < (npSort l).length := by omega
    have hk' : (npSort l).length / 2 - 1 < (npSort l).length := by omega
    have hle := sorted_getElem_le hs hk (show (npSort l).length / 2 - 1 ≤ (npSort l).length / 2 by omega)
    refine ⟨_, by rw [npGet_nat hk, npGet_nat hk']; rfl, ?_, ?_⟩
    · have := count_of_sorted_le hs hk' (c := ((npSort l)[(npSort l).length / 2 - 1]
        + (npSort l)[(npSort l).length / 2]) / 2) (by linarith)
      omega
    · have := count_of_sorted_ge hs hk (c := ((npSort l)[(npSort l).length / 2 - 1]
        + (npSort l)[(npSort l).length / 2]) / 2) (by linarith)
      omega

theorem IsSummary.median_between {l : List K} {s : Summary K} (h : IsSummary l s) :
    s.least ≤ s.median ∧ s.median ≤ s.greatest := by
  have hlen : 0 < l.length := List.length_pos_of_mem h.least_mem
  constructor
  · have h1 : 0 < l.countP (fun x => decide (x ≤ s.median)) := by have := h.median_low; omega
    obtain ⟨x, hx, hp⟩ := List.countP_pos_iff.1 h1
    exact (h.least_le x hx).trans (of_decide_eq_true hp)
  · have h1 : 0 < l.countP (fun x => decide (s.median ≤ x)) := by have := h.median_high; omega
    obtain ⟨x, hx, hp⟩ := List.countP_pos_iff.1 h1
    exact (of_decide_eq_true hp).trans (h.le_greatest x hx)

/-- each statistic is computed, and they are what their names say -/
theorem summary_of_list (E : EvalLib K) (hE : IsEvalLib E) (l : List K) (h : l ≠ []) :
    ∃ s : Summary K, pyMin l = .ok s.least ∧ pyMax l = .ok s.greatest ∧ npMean l = .ok s.mean ∧
      npMedian l = .ok s.median ∧ npStd E l = .ok s.std ∧ rms E l = .ok s.rms ∧ IsSummary l s := by
  have hn : (0 : K) < (l.length : K) := by exact_mod_cast List.length_pos_of_ne_nil h
  obtain ⟨mn, a1, a2, a3⟩ := pyMin_spec h
  obtain ⟨mx, b1, b2, b3⟩ := pyMax_spec h
  obtain ⟨md, c1, c2, c3⟩ := npMedian_spec h
  have hm := npMean_ne h
  have hq : ∀ f : K → K, npMean (l.map f) = .ok ((l.map f).sum / (l.length : K)) := by
    intro f
    rw [npMean_ne (by simpa using h), List.length_map]
  have hstd : npStd E l = .ok (E.sqrt ((l.map (fun x => (x - l.sum / (l.length : K)) ^ 2)).sum / (l.length : K))) := by
    unfold npStd
    rw [hm]
    simp only [bind, Except.bind]
    rw [hq]
    rfl
  have hrms : rms E l = .ok (E.sqrt ((l.map (fun x => x ^ 2)).sum / (l.length : K))) := by
    unfold rms
    rw [hq]
    rfl
  have n1 : 0 ≤ (l.map (fun x => (x - l.sum / (l.length : K)) ^ 2)).sum / (l.length : K) :=
    div_nonneg (sum_sq_nonneg' l (fun x => x - l.sum / (l.length : K))) hn.le
  have n2 : 0 ≤ (l.map (fun x => x ^ 2)).sum / (l.length : K) :=
    div_nonneg (sum_sq_nonneg' l (fun x => x)) hn.le
  refine ⟨⟨mn, mx, _, md, _, _⟩, a1, b1, hm, c1, hstd, hrms, ?_⟩
  refine ⟨a2, a3, b2, b3, ?_, c2, c3, hE.sqrt_nonneg _ n1, ?_, hE.sqrt_nonneg _ n2, ?_⟩
  · exact div_mul_cancel₀ _ (ne_of_gt hn)
  · rw [pow_two, hE.sqrt_sq _ n1]
    exact div_mul_cancel₀ _ (ne_of_gt hn)
  · rw [pow_two, hE.sqrt_sq _ n2]
    exact div_mul_cancel₀ _ (ne_of_gt hn)

/-- **C66.** The statistics that an ATE result reports about its position deviations. -/
theorem C66_position_statistics (E : EvalLib K) (hE : IsEvalLib E) (a : AteResult K R)
    (h : a.posDev ≠ []) :
    ∃ s : Summary K, a.posDevMin E = .ok s.least ∧ a.posDevMax E = .ok s.greatest ∧
      a.posAte E = .ok s.mean ∧ a.posDevMedian E = .ok s.median ∧ a.posDevStd E = .ok s.std ∧
      a.posDevRms E = .ok s.rms ∧ IsSummary (a.posDev.map E.nrm) s ∧
      s.least ≤ s.mean ∧ s.mean ≤ s.greatest ∧ s.least ≤ s.median ∧ s.median ≤ s.greatest ∧
      s.rms ^ 2 = s.mean ^ 2 + s.std ^ 2 ∧ |s.mean| ≤ s.rms ∧
      (s.rms = 0 ↔ ∀ v ∈ a.posDev, v = 0) := by
  obtain ⟨s, h1, h2, h3, h4, h5, h6, h7⟩ := summary_of_list E hE (a.posDevComb E)
    (by simpa [AteResult.posDevComb] using h)
  obtain ⟨c1, c2, c3, c4, c5⟩ := h7.consistent
  obtain ⟨m1, m2⟩ := h7.median_between
  refine ⟨s, h1, h2, h3, h4, h5, h6, h7, c1, c2, m1, m2, c3, c4, ?_⟩
  rw [c5]
  constructor
  · intro h0 v hv
    exact hE.nrm.eq_zero (h0 _ (List.mem_map.2 ⟨v, hv, rfl⟩))
  · intro h0 x hx
    obtain ⟨v, hv, rfl⟩ := List.mem_map.1 hx
    rw [h0 v hv, hE.nrm.zero]

/-- **C66 (rotations).** The statistics of the rotation angles. -/
theorem C66_rotation_statistics (E : EvalLib K) (hE : IsEvalLib E) (L : RotLib K R)
    (a : AteResult K R) (r : List R) (hr : a.rotDev = some r) (h : r ≠ []) :
    ∃ s : Summary K, a.rotDevMin E L = .ok s.least ∧ a.rotDevMax E L = .ok s.greatest ∧
      a.rotAte E L = .ok s.mean ∧ a.rotDevMedian E L = .ok s.median ∧
      a.rotDevStd E L = .ok s.std ∧ a.rotDevRms E L = .ok s.rms ∧
      IsSummary (r.map (fun q => rotAngle E (L.toMat q))) s ∧
      s.least ≤ s.mean ∧ s.mean ≤ s.greatest ∧ s.least ≤ s.median ∧ s.median ≤ s.greatest ∧
      s.rms ^ 2 = s.mean ^ 2 + s.std ^ 2 ∧ |s.mean| ≤ s.rms := by
  have e : a.rotDevComb E L = r.map (fun q => rotAngle E (L.toMat q)) := by
    unfold AteResult.rotDevComb
    rw [hr]
  obtain ⟨s, h1, h2, h3, h4, h5, h6, h7⟩ := summary_of_list E hE (a.rotDevComb E L)
    (by rw [e]; simpa using h)
  obtain ⟨c1, c2, c3, c4, c5⟩ := h7.consistent
  obtain ⟨m1, m2⟩ := h7.median_between
  refine ⟨s, h1, h2, h3, h4, h5, ?_, e ▸ h7, c1, c2, m1, m2, c3, c4⟩
  unfold AteResult.rotDevRms
  rw [hr]
  exact h6

/-- **C66 (order).** No statistic depends on the order of the samples. -/
theorem C66_order_does_not_matter (E : EvalLib K) (l l' : List K) (h : l.Perm l') :
    pyMin l = pyMin l' ∧ pyMax l = pyMax l' ∧ npMean l = npMean l' ∧ npMedian l = npMedian l' ∧
      npStd E l = npStd E l' ∧ rms E l = rms E l' := by
  have hmean : ∀ {l l' : List K}, l.Perm l' → npMean l = npMean l' := by
    intro l l' h
    unfold npMean
    rw [h.length_eq, h.sum_eq]
  refine ⟨?_, ?_, hmean h, ?_, ?_, ?_⟩
  · by_cases hl : l = []
    · subst hl; rw [List.nil_perm.1 h]
    · have hl' : l' ≠ [] := by rintro rfl; exact hl (List.perm_nil.1 h)
      obtain ⟨a, a1, a2, a3⟩ := pyMin_spec hl
      obtain ⟨b, b1, b2, b3⟩ := pyMin_spec hl'
      rw [a1, b1, le_antisymm (a3 b (h.mem_iff.2 b2)) (b3 a (h.mem_iff.1 a2))]
  · by_cases hl : l = []
    · subst hl; rw [List.nil_perm.1 h]
    · have hl' : l' ≠ [] := by rintro rfl; exact hl (List.perm_nil.1 h)
      obtain ⟨a, a1, a2, a3⟩ := pyMax_spec hl
      obtain ⟨b, b1, b2, b3⟩ := pyMax_spec hl'
      rw [a1, b1, le_antisymm (b3 a (h.mem_iff.1 a2)) (a3 b (h.mem_iff.2 b2))]
  · unfold npMedian
    rw [npSort_eq_of_perm h]
  · unfold npStd
    rw [hmean h]
    congr 1
    funext m
    rw [hmean (h.map _)]
  · unfold rms
    rw [hmean (h.map _)]

theorem sum_normSq {E : EvalLib K} (hE : IsEvalLib E) (l : List (V3 K)) :
    ((l.map E.nrm).map (fun x => x ^ 2)).sum = ((l.map V3.x).map (fun x => x ^ 2)).sum
      + ((l.map V3.y).map (fun x => x ^ 2)).sum + ((l.map V3.z).map (fun x => x ^ 2)).sum := by
  induction l with
  | nil => simp
  | cons v l ih =>
    simp only [List.map_cons, List.sum_cons, ih]
    have := hE.nrm.sq v
    simp only [V3.normSq] at this
    linear_combination this

theorem rms_split {E : EvalLib K} (hE : IsEvalLib E) (l : List (V3 K)) (h : l ≠ []) :
    ∃ r x y z, rms E (l.map E.nrm) = .ok r ∧ rms E (l.map V3.x) = .ok x ∧ rms E (l.map V3.y) = .ok y ∧
      rms E (l.map V3.z) = .ok z ∧ r ^ 2 = x ^ 2 + y ^ 2 + z ^ 2 := by
  have hn : (l.length : K) ≠ 0 := by
    exact_mod_cast (ne_of_gt (List.length_pos_of_ne_nil h))
  obtain ⟨s, _, _, _, _, _, h6, h7⟩ := summary_of_list E hE (l.map E.nrm) (by simpa using h)
  obtain ⟨sx, _, _, _, _, _, x6, x7⟩ := summary_of_list E hE (l.map V3.x) (by simpa using h)
  obtain ⟨sy, _, _, _, _, _, y6, y7⟩ := summary_of_list E hE (l.map V3.y) (by simpa using h)
  obtain ⟨sz, _, _, _, _, _, z6, z7⟩ := summary_of_list E hE (l.map V3.z) (by simpa using h)
  refine ⟨_, _, _, _, h6, x6, y6, z6, ?_⟩
  have e := sum_normSq hE l
  have p1 := h7.rms
  have p2 := x7.rms
  have p3 := y7.rms
  have p4 := z7.rms
  rw [List.length_map] at p1 p2 p3 p4
  rw [← p1, ← p2, ← p3, ← p4] at e
  apply mul_right_cancel₀ hn
  linear_combination e

/-- **C66 (directions).** The squared RMS of the position deviations is the sum of the squared RMS
values of their coordinates, and with orientations also of the directed deviations. -/
theorem C66_rms_of_components (E : EvalLib K) (hE : IsEvalLib E) (L : RotLib K R) (hL : IsRotLib L)
    (test ref : Traj K R) (hT : Coherent test) (hR : Coherent ref)
    (hlen : ref.tstamps.length = test.tstamps.length) (h0 : test.tstamps ≠ [])
    (hrot : ref.rot ≠ none ∨ test.rot ≠ none) :
    ∃ a r x y z u v w, compareAbsolute E L test ref = .ok a ∧ a.posDevRms E = .ok r ∧
      a.posRmsX E = .ok x ∧ a.posRmsY E = .ok y ∧ a.posRmsZ E = .ok z ∧
      a.posRmsAlong E = .ok u ∧ a.posRmsCrossH E = .ok v ∧ a.posRmsCrossV E = .ok w ∧
      r ^ 2 = x ^ 2 + y ^ 2 + z ^ 2 ∧ r ^ 2 = u ^ 2 + v ^ 2 + w ^ 2 := by
  obtain ⟨a, h1, h2, h3⟩ := C60_directed_deviations_have_full_length E L hL test ref hT hR hlen hrot
  have hd : a.directed ≠ [] := by
    intro he
    rw [he] at h2
    exact h0 (List.length_eq_zero_iff.1 h2.symm)
  have hlen' : a.posDev.length = a.directed.length := by
    have := congrArg List.length h3
    simpa using this.symm
  have hp : a.posDev ≠ [] := by
    intro he
    rw [he] at hlen'
    exact hd (List.length_eq_zero_iff.1 hlen'.symm)
  obtain ⟨r, x, y, z, e1, e2, e3, e4, e5⟩ := rms_split hE a.posDev hp
  obtain ⟨r', u, v, w, f1, f2, f3, f4, f5⟩ := rms_split hE a.directed hd
  have hnrm : a.directed.map E.nrm = a.posDev.map E.nrm := by
    apply List.ext_getElem
    · simp [hlen']
    · intro i p q
      simp only [List.getElem_map]
      apply hE.nrm.congr
      have := congrArg (fun l => l[i]?) h3
      simp only [List.getElem?_map] at this
      rw [List.getElem?_eq_getElem (by simpa using p), List.getElem?_eq_getElem (by simpa using q)] at this
      simpa using this
  rw [hnrm, e1] at f1
  injection f1 with f1
  exact ⟨a, r, x, y, z, u, v, w, h1, e1, e2, e3, e4, f2, f3, f4, e5, by rw [f1]; exact f5⟩

/-! ### C105: relative errors -/

theorem numbers_some (xs : List K) : numbers (xs.map some) = .ok xs := by
  unfold numbers
  induction xs with
  | nil => rfl
  | cons a l ih => exact mapE_cons rfl ih

theorem filter_map_isEmpty {α β : Type} (sel : α → List β) (l : List α) :
    (l.map sel).filter (fun b => !b.isEmpty) = (l.filter (fun a => !(sel a).isEmpty)).map sel := by
  rw [List.filter_map]
  rfl

/-- `compute_metric` gives one value for each group that has entries, in order -/
theorem computeMetric_ok (r : RpeResult K) (sel : RpeGroup K → List (Option K))
    (f : List K → Except Err K) (c : K)
    (hs : ∀ g ∈ r.groups, ∃ xs : List K, sel g = xs.map some)
    (hf : ∀ xs : List K, xs ≠ [] → ∃ y, f xs = .ok y) :
    ∃ out, r.computeMetric sel f c = .ok out ∧
      out.length = (r.groups.filter (fun g => !(sel g).isEmpty)).length ∧
      ∀ (k : Nat) g, (r.groups.filter (fun g => !(sel g).isEmpty))[k]? = some g →
        ∃ xs y, sel g = xs.map some ∧ xs ≠ [] ∧ f xs = .ok y ∧ out[k]? = some (y * c) := by
  unfold RpeResult.computeMetric
  rw [filter_map_isEmpty]
  have key : ∀ l ∈ (r.groups.filter (fun g => !(sel g).isEmpty)).map sel, ∃ xs y, l = xs.map some ∧
      xs ≠ [] ∧ f xs = .ok y := by
    intro l hl
    obtain ⟨g, hg, rfl⟩ := List.mem_map.1 hl
    obtain ⟨hg1, hg2⟩ := List.mem_filter.1 hg
    obtain ⟨xs, hxs⟩ := hs g hg1
    have hne : xs ≠ [] := by
      rintro rfl
      rw [hxs] at hg2
      simp at hg2
    obtain ⟨y, hy⟩ := hf xs hne
    exact ⟨xs, y, hxs, hne, hy⟩
  obtain ⟨out, hout⟩ := mapE_isOk (f := fun l => do
      let xs ← numbers l
      let y ← f xs
      return y * c) (l := (r.groups.filter (fun g => !(sel g).isEmpty)).map sel) (by
    intro l hl
    obtain ⟨xs, y, rfl, _, hy⟩ := key l hl
    exact ⟨y * c, by rw [numbers_some]; simp only [bind, Except.bind, hy]; rfl⟩)
  refine ⟨out, hout, by rw [mapE_length hout, List.length_map], ?_⟩
  intro k g hk
  have hk' : ((r.groups.filter (fun g => !(sel g).isEmpty)).map sel)[k]? = some (sel g) := by
    rw [List.getElem?_map, hk]; rfl
  obtain ⟨xs, y, h1, h2, h3⟩ := key (sel g) (List.mem_of_getElem? hk')
  obtain ⟨b, hb, hb'⟩ := mapE_getElem? hout hk'
  rw [h1, numbers_some] at hb
  simp only [bind, Except.bind, h3, pure, Except.pure] at hb
  injection hb with hb
  exact ⟨xs, y, h1, h2, h3, by rw [hb', hb]⟩

/-- **C105.** If every error of a relative comparison is a number and not negative (C101) and the
groups are the result of the comparison, the summary is consistent: there is one mean, minimum,
maximum, median, mean pair distance and pair count for each distance at which pairs were found, in
the same order; minimum, mean, median and maximum are in order; the counts add up to the length of
the result; and the reported RPE lies between the smallest minimum and the largest maximum. -/
theorem C105_relative_summary (E : EvalLib K) (hE : IsEvalLib E) (r : RpeResult K)
    (hlen : ∀ g ∈ r.groups, g.posDev.length = g.pairDist.length)
    (hnum : ∀ g ∈ r.groups, ∀ e ∈ g.posDev, ∃ x, e = some x ∧ 0 ≤ x)
    (hsome : (r.groups.map (fun g => g.pairDist.length)).sum ≠ 0) :
    ∃ means mins maxs meds dists rpe, r.posDevMean = .ok means ∧ r.posDevMin = .ok mins ∧
      r.posDevMax = .ok maxs ∧ r.posDevMedian = .ok meds ∧ r.meanPairDistances = .ok dists ∧
      r.posRpe = .ok rpe ∧
      means.length = r.numPairs.length ∧ mins.length = r.numPairs.length ∧
      maxs.length = r.numPairs.length ∧ meds.length = r.numPairs.length ∧
      dists.length = r.numPairs.length ∧ r.numPairs.sum = r.len ∧ (∀ n ∈ r.numPairs, 0 < n) ∧
      (∀ (k : Nat) mn me md mx, mins[k]? = some mn → means[k]? = some me → meds[k]? = some md →
        maxs[k]? = some mx → 0 ≤ mn ∧ mn ≤ me ∧ me ≤ mx ∧ mn ≤ md ∧ md ≤ mx) ∧
      (∃ mn ∈ mins, mn ≤ rpe) ∧ ∃ mx ∈ maxs, rpe ≤ mx := by
  have hsel : ∀ g ∈ r.groups, ∃ xs : List K, g.posDev = xs.map some := by
    intro g hg
    refine ⟨g.posDev.map (fun e => e.getD 0), ?_⟩
    rw [List.map_map]
    conv_lhs => rw [← List.map_id g.posDev]
    apply List.map_congr_left
    intro e he
    obtain ⟨x, rfl, _⟩ := hnum g hg e he
    rfl
  have hfil : r.groups.filter (fun g => !g.posDev.isEmpty)
      = r.groups.filter (fun g => !g.pairDist.isEmpty) := by
    apply List.filter_congr
    intro g hg
    have := hlen g hg
    rcases h1 : g.posDev with _ | ⟨a, l⟩ <;> rcases h2 : g.pairDist with _ | ⟨b, m⟩ <;>
      rw [h1, h2] at this <;> simp at this <;> rfl
  have hc : 0 < r.driftFactor := by
    unfold RpeResult.driftFactor
    split <;> norm_num
  obtain ⟨means, a1, a2, a3⟩ := computeMetric_ok r RpeGroup.posDev npMean r.driftFactor hsel
    (fun xs h => ⟨_, npMean_ne h⟩)
  obtain ⟨mins, b1, b2, b3⟩ := computeMetric_ok r RpeGroup.posDev pyMin r.driftFactor hsel
    (fun xs h => ⟨_, (pyMin_spec h).choose_spec.1⟩)
  obtain ⟨maxs, c1, c2, c3⟩ := computeMetric_ok r RpeGroup.posDev pyMax r.driftFactor hsel
    (fun xs h => ⟨_, (pyMax_spec h).choose_spec.1⟩)
  obtain ⟨meds, d1, d2, d3⟩ := computeMetric_ok r RpeGroup.posDev npMedian r.driftFactor hsel
    (fun xs h => ⟨_, (npMedian_spec h).choose_spec.1⟩)
  obtain ⟨dists, e1, e2, e3⟩ := computeMetric_ok r (fun g => g.pairDist.map some) npMean 1
    (fun g _ => ⟨_, rfl⟩) (fun xs h => ⟨_, npMean_ne h⟩)
  have hnp : r.numPairs.length = (r.groups.filter (fun g => !g.pairDist.isEmpty)).length := by
    unfold RpeResult.numPairs
    rw [filter_map_isEmpty, List.length_map, List.length_map]
  have hpairs : ∀ (k : Nat) mn me md mx, mins[k]? = some mn → means[k]? = some me →
      meds[k]? = some md → maxs[k]? = some mx →
      0 ≤ mn ∧ mn ≤ me ∧ me ≤ mx ∧ mn ≤ md ∧ md ≤ mx := by
    intro k mn me md mx k1 k2 k3 k4
    have hk : k < (r.groups.filter (fun g => !g.posDev.isEmpty)).length := by
      rw [← a2]; exact (List.getElem?_eq_some_iff.1 k2).1
    have hg := List.getElem?_eq_getElem hk
    set g := (r.groups.filter (fun g => !g.posDev.isEmpty))[k] with hgdef
    have hgm : g ∈ r.groups := (List.mem_filter.1 (List.getElem_mem hk)).1
    obtain ⟨xs, y1, p1, p2, p3, p4⟩ := a3 k g hg
    obtain ⟨xs2, y2, q1, q2, q3, q4⟩ := b3 k g hg
    obtain ⟨xs3, y3, r1, r2, r3, r4⟩ := c3 k g hg
    obtain ⟨xs4, y4, s1, s2, s3, s4⟩ := d3 k g hg
    have inj : ∀ {u v : List K}, u.map some = v.map some → u = v := fun h =>
      List.map_injective_iff.2 (Option.some_injective K) h
    rw [p1] at q1 r1 s1
    obtain rfl := inj q1
    obtain rfl := inj r1
    obtain rfl := inj s1
    obtain ⟨sm, t1, t2, t3, t4, _, _, t7⟩ := summary_of_list E hE xs p2
    rw [t1] at q3
    rw [t2] at r3
    rw [t3] at p3
    rw [t4] at s3
    injection q3 with q3
    injection r3 with r3
    injection p3 with p3
    injection s3 with s3
    rw [q4] at k1
    rw [p4] at k2
    rw [s4] at k3
    rw [r4] at k4
    injection k1 with k1
    injection k2 with k2
    injection k3 with k3
    injection k4 with k4
    obtain ⟨u1, u2, _⟩ := t7.consistent
    obtain ⟨v1, v2⟩ := t7.median_between
    have h0 : 0 ≤ sm.least := by
      have hm : some sm.least ∈ g.posDev := by
        rw [p1]; exact List.mem_map_of_mem t7.least_mem
      obtain ⟨x, hx, hx0⟩ := hnum g hgm _ hm
      injection hx with hx
      rw [hx]; exact hx0
    rw [← k1, ← k2, ← k3, ← k4, ← q3, ← p3, ← s3, ← r3]
    exact ⟨mul_nonneg h0 hc.le, mul_le_mul_of_nonneg_right u1 hc.le,
      mul_le_mul_of_nonneg_right u2 hc.le, mul_le_mul_of_nonneg_right v1 hc.le,
      mul_le_mul_of_nonneg_right v2 hc.le⟩
  have hmne : means ≠ [] := by
    intro he
    rw [he, hfil] at a2
    apply hsome
    rw [List.sum_eq_zero_iff]
    intro n hn
    obtain ⟨g, hg, rfl⟩ := List.mem_map.1 hn
    by_contra h0
    have : g ∈ r.groups.filter (fun g => !g.pairDist.isEmpty) :=
      List.mem_filter.2 ⟨hg, by simp; intro h; rw [h] at h0; simp at h0⟩
    rw [List.length_eq_zero_iff.1 a2.symm] at this
    simp at this
  obtain ⟨sm, _, _, t3, _, _, _, t7⟩ := summary_of_list E hE means hmne
  obtain ⟨u1, u2, _⟩ := t7.consistent
  have hget : ∀ {l : List K}, l.length = means.length → ∀ {k : Nat} {m : K}, means[k]? = some m →
      ∃ y, l[k]? = some y := by
    intro l hl k m hk
    have := (List.getElem?_eq_some_iff.1 hk).1
    exact ⟨_, List.getElem?_eq_getElem (by omega)⟩
  refine ⟨means, mins, maxs, meds, dists, sm.mean, a1, b1, c1, d1, e1, ?_, ?_, ?_, ?_, ?_, ?_, ?_, ?_,
    hpairs, ?_, ?_⟩
  · unfold RpeResult.posRpe
    rw [show r.posDevMean = .ok means from a1]
    exact t3
  · rw [a2, hfil, hnp]
  · rw [b2, hfil, hnp]
  · rw [c2, hfil, hnp]
  · rw [d2, hfil, hnp]
  · rw [e2, hnp]
    congr 1
    apply List.filter_congr
    intro g _
    simp
  · unfold RpeResult.numPairs RpeResult.len
    rw [filter_map_isEmpty, List.map_map]
    have : ∀ l : List (RpeGroup K), ((l.filter (fun g => !g.pairDist.isEmpty)).map
        (List.length ∘ RpeGroup.pairDist)).sum = (l.map (fun g => g.pairDist.length)).sum := by
      intro l
      induction l with
      | nil => rfl
      | cons g l ih =>
        by_cases hg : g.pairDist = []
        · simp [hg, ih]
        · simp [hg, ih]
    exact this _
  · intro n hn
    unfold RpeResult.numPairs at hn
    obtain ⟨l, hl, rfl⟩ := List.mem_map.1 hn
    have := (List.mem_filter.1 hl).2
    rcases l with _ | ⟨a, l⟩
    · simp at this
    · simp
  · obtain ⟨k, hk⟩ := List.mem_iff_getElem?.1 t7.least_mem
    obtain ⟨mn, k1⟩ := hget (l := mins) (by rw [b2, a2]) hk
    obtain ⟨md, k3⟩ := hget (l := meds) (by rw [d2, a2]) hk
    obtain ⟨mx, k4⟩ := hget (l := maxs) (by rw [c2, a2]) hk
    obtain ⟨_, w, _⟩ := hpairs k mn _ md mx k1 hk k3 k4
    exact ⟨mn, List.mem_of_getElem? k1, w.trans u1⟩
  · obtain ⟨k, hk⟩ := List.mem_iff_getElem?.1 t7.greatest_mem
    obtain ⟨mn, k1⟩ := hget (l := mins) (by rw [b2, a2]) hk
    obtain ⟨md, k3⟩ := hget (l := meds) (by rw [d2, a2]) hk
    obtain ⟨mx, k4⟩ := hget (l := maxs) (by rw [c2, a2]) hk
    obtain ⟨_, _, w, _⟩ := hpairs k mn _ md mx k1 hk k3 k4
    exact ⟨mx, List.mem_of_getElem? k4, u2.trans w⟩

/-- the hypotheses of C105 hold for the result of a comparison as in C101 -/
theorem C105_hypotheses [FloorRing K] (E : EvalLib K) (hE : IsEvalLib E) (L : RotLib K R)
    (test ref : Traj K R) (ht : Coherent test) (hr : Coherent ref)
    (hlen : test.tstamps.length = ref.tstamps.length)
    (s : RpeSettings K) (hmin : 0 < s.minDist) (hstep : 0 < s.step)
    (D : List K) (hD : pairScale s.unit ref = some D) (hasc : D.Pairwise (· ≤ ·))
    (hmode : s.allPairs = true) (r : RpeResult K) (h : compareRelative E L test ref s = .ok r) :
    (∀ g ∈ r.groups, g.posDev.length = g.pairDist.length) ∧
    (∀ g ∈ r.groups, ∀ e ∈ g.posDev, ∃ x, e = some x ∧ 0 ≤ x) ∧
    (r.groups.map (fun g => g.pairDist.length)).sum ≠ 0 := by
  refine ⟨?_, ?_, (compareRelative_ok h).2.2.2.2.2⟩
  · intro g hg
    obtain ⟨_, _, ps, _, _, _, _, _, _, e⟩ := groups_of_result ht hr hlen h hg
    rw [e.numPos, e.numDist]
  · intro g hg
    exact (C101_relative_errors_are_numbers_partial E hE L test ref ht hr hlen s hmin hstep D hD hasc
      (.inl hmode) r h g hg).1

/-! ### examples -/

/-- four deviations: the median is the mean of the two middle ones -/
example : npMedian [(4 : ℚ), 1, 3, 2] = .ok (5 / 2) ∧ npMean [(4 : ℚ), 1, 3, 3] = .ok (11 / 4) ∧
    npMedian [(3 : ℚ), 1, 2] = .ok 2 := by decide +kernel

/-- a non-empty list of deviations as in C66, with real routines -/
example : ∃ (a : AteResult ℝ (RotM ℝ)), IsEvalLib realEval ∧ a.posDev = [⟨3, 4, 0⟩, ⟨0, 0, 1⟩] ∧
    a.posDev ≠ [] ∧ a.rotDev = some [⟨1, isRot_one⟩, ⟨1, isRot_one⟩] :=
  ⟨{ name := "", trajectory := exPair 0 0, posDev := [⟨3, 4, 0⟩, ⟨0, 0, 1⟩], directed := [],
     rotDev := some [⟨1, isRot_one⟩, ⟨1, isRot_one⟩], rotationsUsed := true }, realEval_ok, rfl,
   by simp, rfl⟩

end TC
