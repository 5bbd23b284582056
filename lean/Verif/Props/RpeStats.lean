import Verif.Spec.RpeStats
import Verif.Props.Stats
/-!
# C166: what the statistics of a relative evaluation are, and medians
-/
namespace TC
set_option linter.unusedSectionVars false
variable {K R : Type} [Field K] [LinearOrder K] [IsStrictOrderedRing K]

/-- **C66 (median).**  The median is the middle of the values in order, or the mean of the two middle ones. -/
theorem C66_median (l : List K) (h : l ≠ []) : ∃ m, npMedian l = .ok m ∧ IsMedian l m := by
  have hlen : (npSort l).length = l.length := npSort_length l
  have hpos : 0 < l.length := List.length_pos_of_ne_nil h
  unfold npMedian
  rw [if_neg (by omega)]
  by_cases hodd : (npSort l).length % 2 = 1
  · rw [if_pos hodd]
    have hk : (npSort l).length / 2 < (npSort l).length := by omega
    refine ⟨_, npGet_nat hk, npSort l, npSort_perm l, npSort_sorted l, _, _, ?_, List.getElem?_eq_getElem hk, rfl⟩
    have : ((npSort l).length - 1) / 2 = (npSort l).length / 2 := by omega
    rw [this]
    exact List.getElem?_eq_getElem hk
  · rw [if_neg hodd]
    have hk : (npSort l).length / 2 < (npSort l).length := by omega
    have hk' : (npSort l).length / 2 - 1 < (npSort l).length := by omega
    refine ⟨_, by rw [npGet_nat hk, npGet_nat hk']; rfl, npSort l, npSort_perm l, npSort_sorted l,
      (npSort l)[(npSort l).length / 2 - 1], (npSort l)[(npSort l).length / 2], ?_, List.getElem?_eq_getElem hk, by ring⟩
    have : ((npSort l).length - 1) / 2 = (npSort l).length / 2 - 1 := by omega
    rw [this]
    exact List.getElem?_eq_getElem hk'

/-- There is only one median. -/
theorem IsMedian.unique {l : List K} {m m' : K} (h : IsMedian l m) (h' : IsMedian l m') : m = m' := by
  obtain ⟨s, h1, h2, a, b, h3, h4, h5⟩ := h
  obtain ⟨s', k1, k2, a', b', k3, k4, k5⟩ := h'
  have : s = s' := (h1.trans k1.symm).eq_of_pairwise (fun a b _ _ => le_antisymm) h2 k2
  subst this
  rw [h3] at k3
  rw [h4] at k4
  cases k3
  cases k4
  linarith

/-- **C66 (without rotations).**  The rotation statistics of a result without rotations are zero. -/
theorem C66_without_rotations (E : EvalLib K) (hE : IsEvalLib E) (L : RotLib K R) (a : AteResult K R) (hr : a.rotDev = none)
    (h : a.posDev ≠ []) :
    a.rotAte E L = .ok 0 ∧ a.rotDevMin E L = .ok 0 ∧ a.rotDevMax E L = .ok 0 ∧ a.rotDevMedian E L = .ok 0 ∧
      a.rotDevStd E L = .ok 0 ∧ a.rotDevRms E L = .ok 0 := by
  have hz : a.rotDevComb E L = List.replicate (3 * a.posDev.length) 0 := by
    unfold AteResult.rotDevComb
    rw [hr]
  have hne : List.replicate (3 * a.posDev.length) (0 : K) ≠ [] := by simpa using h
  have hn : ((3 * a.posDev.length : Nat) : K) ≠ 0 := by simpa using h
  obtain ⟨s, h1, h2, h3, h4, h5, -, h7⟩ := summary_of_list E hE _ hne
  have z : ∀ x ∈ List.replicate (3 * a.posDev.length) (0 : K), x = 0 := fun x hx => (List.mem_replicate.1 hx).2
  have e1 : s.least = 0 := z _ h7.least_mem
  have e2 : s.greatest = 0 := z _ h7.greatest_mem
  have e3 : s.mean = 0 := by
    have := h7.mean
    simp only [List.length_replicate, List.sum_replicate, smul_zero] at this
    exact (mul_eq_zero.1 this).resolve_right hn
  have e4 : s.median = 0 := le_antisymm (e2 ▸ h7.median_between.2) (e1 ▸ h7.median_between.1)
  have e5 : s.std = 0 := by
    have := h7.std
    simp only [List.length_replicate, List.map_replicate, e3, List.sum_replicate, sub_zero] at this
    have h0 : s.std ^ 2 * ((3 * a.posDev.length : Nat) : K) = 0 := by rw [this]; simp
    have := (mul_eq_zero.1 h0).resolve_right hn
    exact pow_eq_zero_iff (two_ne_zero) |>.1 this
  refine ⟨?_, ?_, ?_, ?_, ?_, ?_⟩
  · unfold AteResult.rotAte; rw [hz, h3, e3]
  · unfold AteResult.rotDevMin; rw [hz, h1, e1]
  · unfold AteResult.rotDevMax; rw [hz, h2, e2]
  · unfold AteResult.rotDevMedian; rw [hz, h4, e4]
  · unfold AteResult.rotDevStd; rw [hz, h5, e5]
  · unfold AteResult.rotDevRms; rw [hr]; rfl

theorem driftFactor_eq (r : RpeResult K) : r.driftFactor = driftScale r.unit := by
  unfold RpeResult.driftFactor driftScale
  cases r.unit <;> rfl

theorem withErrors_eq (sel : RpeGroup K → List (Option K)) (r : RpeResult K) :
    r.groups.filter (fun g => !(sel g).isEmpty) = withErrors sel r := by
  unfold withErrors
  apply List.filter_congr
  intro g _
  cases sel g <;> rfl

/-- one number for each distance with errors -/
theorem metric_each (r : RpeResult K) (sel : RpeGroup K → List (Option K)) (f : List K → Except Err K)
    (hs : ∀ g ∈ r.groups, ∃ xs : List K, sel g = xs.map some) {P : List K → K → Prop}
    (hf : ∀ xs : List K, xs ≠ [] → ∃ y, f xs = .ok y ∧ P xs y) (c : K) :
    ∃ out, r.computeMetric sel f c = .ok out ∧ OneEach (withErrors sel r) out
      (fun g y => ∃ xs z, sel g = xs.map some ∧ xs ≠ [] ∧ P xs z ∧ y = z * c) := by
  obtain ⟨out, h1, h2, h3⟩ := computeMetric_ok r sel f c hs (fun xs hx => (hf xs hx).imp (fun _ h => h.1))
  rw [withErrors_eq] at h2 h3
  refine ⟨out, h1, h2, fun k g y hk hy => ?_⟩
  obtain ⟨xs, z, k1, k2, k3, k4⟩ := h3 k g hk
  obtain ⟨z', m1, m2⟩ := hf xs k2
  rw [k3] at m1
  cases m1
  rw [k4] at hy
  cases hy
  exact ⟨xs, z, k1, k2, m2, rfl⟩

theorem OneEach.imp {α : Type} {bins : List α} {out : List K} {P Q : α → K → Prop} (h : OneEach bins out P)
    (hpq : ∀ b y, P b y → Q b y) : OneEach bins out Q :=
  ⟨h.1, fun k b y hb hy => hpq b y (h.2 k b y hb hy)⟩

theorem bins_ok (E : EvalLib K) (hE : IsEvalLib E) (r : RpeResult K) (sel : RpeGroup K → List (Option K))
    (hs : ∀ g ∈ r.groups, ∃ xs : List K, sel g = xs.map some) :
    ∃ means mins maxs medians stds, r.computeMetric sel npMean r.driftFactor = .ok means ∧
      r.computeMetric sel pyMin r.driftFactor = .ok mins ∧ r.computeMetric sel pyMax r.driftFactor = .ok maxs ∧
      r.computeMetric sel npMedian r.driftFactor = .ok medians ∧ r.computeMetric sel (npStd E) r.driftFactor = .ok stds ∧
      BinStatistics sel r means mins maxs medians stds := by
  rw [driftFactor_eq]
  have hsum := fun xs h => summary_of_list E hE xs h
  obtain ⟨means, a1, a2⟩ := metric_each r sel npMean hs (P := fun xs y => y * (xs.length : K) = xs.sum)
    (fun xs h => by obtain ⟨s, -, -, h3, -, -, -, h7⟩ := hsum xs h; exact ⟨_, h3, h7.mean⟩) (driftScale r.unit)
  obtain ⟨mins, b1, b2⟩ := metric_each r sel pyMin hs (P := fun xs x => x ∈ xs ∧ ∀ z ∈ xs, x ≤ z)
    (fun xs h => by obtain ⟨s, h1, -, -, -, -, -, h7⟩ := hsum xs h; exact ⟨_, h1, h7.least_mem, h7.least_le⟩) (driftScale r.unit)
  obtain ⟨maxs, c1, c2⟩ := metric_each r sel pyMax hs (P := fun xs x => x ∈ xs ∧ ∀ z ∈ xs, z ≤ x)
    (fun xs h => by obtain ⟨s, -, h1, -, -, -, -, h7⟩ := hsum xs h; exact ⟨_, h1, h7.greatest_mem, h7.le_greatest⟩)
    (driftScale r.unit)
  obtain ⟨meds, d1, d2⟩ := metric_each r sel npMedian hs (P := IsMedian) C66_median (driftScale r.unit)
  obtain ⟨stds, e1, e2⟩ := metric_each r sel (npStd E) hs
    (P := fun xs std => ∃ mean, mean * (xs.length : K) = xs.sum ∧ 0 ≤ std ∧
      std ^ 2 * (xs.length : K) = (xs.map (fun x => (x - mean) ^ 2)).sum)
    (fun xs h => by
      obtain ⟨s, -, -, -, -, h5, -, h7⟩ := hsum xs h
      exact ⟨_, h5, s.mean, h7.mean, h7.std_nonneg, h7.std⟩) (driftScale r.unit)
  refine ⟨means, mins, maxs, meds, stds, a1, b1, c1, d1, e1, ?_, ?_, ?_, ?_, ?_⟩
  · refine a2.imp ?_
    rintro g y ⟨xs, z, h1, h2, h3, rfl⟩
    exact ⟨xs, h1, by rw [← h3]; ring⟩
  · refine b2.imp ?_
    rintro g y ⟨xs, z, h1, h2, ⟨h3, h4⟩, rfl⟩
    exact ⟨xs, z, h1, h3, h4, rfl⟩
  · refine c2.imp ?_
    rintro g y ⟨xs, z, h1, h2, ⟨h3, h4⟩, rfl⟩
    exact ⟨xs, z, h1, h3, h4, rfl⟩
  · refine d2.imp ?_
    rintro g y ⟨xs, z, h1, h2, h3, rfl⟩
    exact ⟨xs, z, h1, h3, rfl⟩
  · refine e2.imp ?_
    rintro g y ⟨xs, z, h1, h2, ⟨mean, h3, h4, h5⟩, rfl⟩
    exact ⟨xs, mean, z, h1, h3, h4, h5, rfl⟩

/-- **C166.**  The statistics of the position errors: for each distance at which there are errors, in order, mean, least,
greatest, median and standard deviation of the errors of that distance, in per cent if the distances are metres.  The
relative error of the comparison is the mean of the means. -/
theorem C166_position_statistics (E : EvalLib K) (hE : IsEvalLib E) (r : RpeResult K)
    (hs : ∀ g ∈ r.groups, ∃ xs : List K, g.posDev = xs.map some) :
    ∃ means mins maxs medians stds, r.posDevMean = .ok means ∧ r.posDevMin = .ok mins ∧ r.posDevMax = .ok maxs ∧
      r.posDevMedian = .ok medians ∧ r.posStd E = .ok stds ∧ BinStatistics RpeGroup.posDev r means mins maxs medians stds ∧
      (means ≠ [] → ∃ y, r.posRpe = .ok y ∧ y * (means.length : K) = means.sum) := by
  obtain ⟨means, mins, maxs, meds, stds, h1, h2, h3, h4, h5, h6⟩ := bins_ok E hE r RpeGroup.posDev hs
  refine ⟨means, mins, maxs, meds, stds, h1, h2, h3, h4, h5, h6, fun hne => ?_⟩
  obtain ⟨s, -, -, k3, -, -, -, k7⟩ := summary_of_list E hE means hne
  refine ⟨s.mean, ?_, k7.mean⟩
  unfold RpeResult.posRpe
  rw [show r.posDevMean = .ok means from h1]
  exact k3

/-- **C166.**  The same for the rotation errors. -/
theorem C166_rotation_statistics (E : EvalLib K) (hE : IsEvalLib E) (r : RpeResult K)
    (hs : ∀ g ∈ r.groups, ∃ xs : List K, g.rotDev = xs.map some) :
    ∃ means mins maxs medians stds, r.rotDevMean = .ok means ∧ r.rotDevMin = .ok mins ∧ r.rotDevMax = .ok maxs ∧
      r.rotDevMedian = .ok medians ∧ r.rotStd E = .ok stds ∧ BinStatistics RpeGroup.rotDev r means mins maxs medians stds ∧
      (means ≠ [] → ∃ y, r.rotRpe = .ok y ∧ y * (means.length : K) = means.sum) := by
  obtain ⟨means, mins, maxs, meds, stds, h1, h2, h3, h4, h5, h6⟩ := bins_ok E hE r RpeGroup.rotDev hs
  have hmean : means ≠ [] → r.rotDevMean = .ok means →
      ∃ y, r.rotRpe = .ok y ∧ y * (means.length : K) = means.sum := by
    intro hne hm
    obtain ⟨s, -, -, k3, -, -, -, k7⟩ := summary_of_list E hE means hne
    refine ⟨s.mean, ?_, k7.mean⟩
    unfold RpeResult.rotRpe
    rw [hm]
    exact k3
  by_cases hr : r.hasRotDev = true
  · refine ⟨means, mins, maxs, meds, stds, ?_, ?_, ?_, ?_, ?_, h6, fun hne => hmean hne ?_⟩
    · unfold RpeResult.rotDevMean; rw [if_pos hr]; exact h1
    · unfold RpeResult.rotDevMin; rw [if_pos hr]; exact h2
    · unfold RpeResult.rotDevMax; rw [if_pos hr]; exact h3
    · unfold RpeResult.rotDevMedian; rw [if_pos hr]; exact h4
    · unfold RpeResult.rotStd; rw [if_pos hr]; exact h5
    · unfold RpeResult.rotDevMean; rw [if_pos hr]; exact h1
  · have hnil : withErrors RpeGroup.rotDev r = [] := by
      unfold withErrors
      rw [List.filter_eq_nil_iff]
      intro g hg hd
      apply hr
      unfold RpeResult.hasRotDev
      rw [List.any_eq_true]
      refine ⟨g, hg, ?_⟩
      have := of_decide_eq_true hd
      cases hgr : g.rotDev with
      | nil => exact absurd hgr this
      | cons => rfl
    have he : ∀ P : RpeGroup K → K → Prop, OneEach (withErrors RpeGroup.rotDev r) [] P := by
      intro P
      rw [hnil]
      exact ⟨rfl, fun k b y hb => by simp at hb⟩
    refine ⟨[], [], [], [], [], ?_, ?_, ?_, ?_, ?_, ⟨he _, he _, he _, he _, he _⟩, fun h => absurd rfl h⟩
    · unfold RpeResult.rotDevMean; rw [if_neg hr]
    · unfold RpeResult.rotDevMin; rw [if_neg hr]
    · unfold RpeResult.rotDevMax; rw [if_neg hr]
    · unfold RpeResult.rotDevMedian; rw [if_neg hr]
    · unfold RpeResult.rotStd; rw [if_neg hr]

/-- **C166.**  The number of pairs and the mean distance of the pairs, for each distance with pairs. -/
theorem C166_pairs (E : EvalLib K) (hE : IsEvalLib E) (r : RpeResult K) :
    r.numPairs = (r.groups.filter (fun g => decide (g.pairDist ≠ []))).map (fun g => g.pairDist.length) ∧
    ∃ out, r.meanPairDistances = .ok out ∧ OneEach (r.groups.filter (fun g => decide (g.pairDist ≠ []))) out
      (fun g y => y * (g.pairDist.length : K) = g.pairDist.sum) := by
  constructor
  · unfold RpeResult.numPairs
    rw [filter_map_isEmpty, List.map_map]
    have : r.groups.filter (fun g => !g.pairDist.isEmpty) = r.groups.filter (fun g => decide (g.pairDist ≠ [])) := by
      apply List.filter_congr
      intro g _
      cases g.pairDist <;> rfl
    rw [this]
    rfl
  · obtain ⟨out, h1, h2⟩ := metric_each r (fun g => g.pairDist.map some) npMean (fun g _ => ⟨_, rfl⟩)
      (P := fun xs y => y * (xs.length : K) = xs.sum)
      (fun xs h => by obtain ⟨s, -, -, h3, -, -, -, h7⟩ := summary_of_list E hE xs h; exact ⟨_, h3, h7.mean⟩) 1
    have hw : withErrors (fun g => g.pairDist.map some) r = r.groups.filter (fun g => decide (g.pairDist ≠ [])) := by
      unfold withErrors
      apply List.filter_congr
      intro g _
      simp
    rw [hw] at h2
    refine ⟨out, h1, h2.imp ?_⟩
    rintro g y ⟨xs, z, k1, -, k3, rfl⟩
    have : g.pairDist = xs := List.map_injective_iff.2 (Option.some_injective K) k1
    rw [this, mul_one]
    exact k3

/-- two distances with errors and one without, in metres -/
def exBins : RpeResult ℚ :=
  { unit := .meter
    name := ""
    groups := [⟨1, [some (1/10), some (3/10), some (2/10), some (2/10)], [], [1, 1, 1, 1]⟩, ⟨2, [], [], []⟩,
      ⟨3, [some (1/2)], [], [3]⟩] }

example : ∀ g ∈ exBins.groups, ∃ xs : List ℚ, g.posDev = xs.map some := by
  intro g hg
  simp only [exBins, List.mem_cons, List.not_mem_nil, or_false] at hg
  rcases hg with rfl | rfl | rfl
  · exact ⟨[1/10, 3/10, 2/10, 2/10], rfl⟩
  · exact ⟨[], rfl⟩
  · exact ⟨[1/2], rfl⟩
example : (exBins.posDevMean.toOption, exBins.posDevMin.toOption, exBins.posDevMax.toOption, exBins.posDevMedian.toOption,
    exBins.posRpe.toOption) = (some [20, 50], some [10, 50], some [30, 50], some [20, 50], some 35) := by decide +kernel

end TC
