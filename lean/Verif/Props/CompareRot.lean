import Verif.Props.Compare

/-!
The rotations in the summary of a relative error: largest and smallest value, one line for each bin, nothing without
orientations, and the number of pairs (rpe_result.py:168-221).
-/

namespace TC

set_option linter.unusedSectionVars false

section
variable {K : Type} [Field K] [LinearOrder K] [IsStrictOrderedRing K] [FloorRing K]

/-- what the summary shows of one rotation deviation, before it is turned into degrees: per 100 metres or per second -/
def IsRotDrift (r : RpeResult K) (x : K) : Prop :=
  ∃ g ∈ r.groups, ∃ y, some y ∈ g.rotDev ∧ x = y * (if r.unit = .meter then 100 else 1)

/-- the line of a bin for a mean rotation deviation `x` in degrees -/
def rotLine (r : RpeResult K) (g : RpeGroup K) (x : K) : Str × Str :=
  ("Average rotation drift at ".toList ++ fmtFixed 3 (binDistance g) ++ " (avg) ".toList ++
      (if r.unit = .meter then "m" else "s").toList,
    fmtFixed 3 x ++ ' ' :: (if r.unit = .meter then "deg/100m" else "deg/s").toList)

theorem propertyDict_rot {deg : K → K} {r : RpeResult K} {a : List (Str × Str)} (h : r.propertyDict deg = .ok a)
    (hr : r.hasRotDev = true) :
    ∃ d dists means maxs mins max min avg med, r.positionDict = .ok d ∧ r.meanPairDistances = .ok dists ∧
      r.computeMetric RpeGroup.rotDev npMean r.driftFactor = .ok means ∧
      r.computeMetric RpeGroup.rotDev pyMax r.driftFactor = .ok maxs ∧ pyMax maxs = .ok max ∧
      r.computeMetric RpeGroup.rotDev pyMin r.driftFactor = .ok mins ∧ pyMin mins = .ok min ∧
      a = strUpdate (strUpdate d (strUpdate [] (RpeResult.driftLines "rotation" r.rotUnit r.distUnit dists (means.map deg))))
        [("Maximum Rotation Drift".toList, RpeResult.withUnit r.rotUnit (deg max)),
         ("Minimum Rotation Drift".toList, RpeResult.withUnit r.rotUnit (deg min)),
         ("Average Rotation Drift".toList, RpeResult.withUnit r.rotUnit (deg avg)),
         ("Median Rotation Drift".toList, RpeResult.withUnit r.rotUnit (deg med))] := by
  unfold RpeResult.propertyDict at h
  cases hd : r.positionDict with
  | error e => rw [hd] at h; cases h
  | ok d =>
    rw [hd] at h
    simp only [bind, Except.bind] at h
    rw [if_neg (by rw [hr]; simp)] at h
    have e1 : r.rotDevMean = r.computeMetric RpeGroup.rotDev npMean r.driftFactor := by
      unfold RpeResult.rotDevMean; rw [if_pos hr]
    have e2 : r.rotDevMax = r.computeMetric RpeGroup.rotDev pyMax r.driftFactor := by
      unfold RpeResult.rotDevMax; rw [if_pos hr]
    have e3 : r.rotDevMin = r.computeMetric RpeGroup.rotDev pyMin r.driftFactor := by
      unfold RpeResult.rotDevMin; rw [if_pos hr]
    rw [e1, e2, e3] at h
    split at h; · cases h
    rename_i dists h1
    split at h; · cases h
    rename_i means h2
    split at h; · cases h
    rename_i maxs h3
    split at h; · cases h
    rename_i max h4
    split at h; · cases h
    rename_i mins h5
    split at h; · cases h
    rename_i min h6
    split at h; · cases h
    rename_i avg h7
    split at h; · cases h
    rename_i meds h8
    split at h; · cases h
    rename_i med h9
    simp only [pure, Except.pure, Except.ok.injEq] at h
    exact ⟨d, dists, means, maxs, mins, max, min, avg, med, rfl, h1, h2, h3, h4, h5, h6, h.symm⟩

theorem look_rot (d : List (Str × Str)) (x y z w : Str) :
    let a := strUpdate d [("Maximum Rotation Drift".toList, x), ("Minimum Rotation Drift".toList, y),
      ("Average Rotation Drift".toList, z), ("Median Rotation Drift".toList, w)]
    look a "Maximum Rotation Drift".toList = some x ∧ look a "Minimum Rotation Drift".toList = some y := by
  intro a
  have hn : (([("Maximum Rotation Drift".toList, x), ("Minimum Rotation Drift".toList, y),
      ("Average Rotation Drift".toList, z), ("Median Rotation Drift".toList, w)] : List (Str × Str)).map Prod.fst).Nodup := by
    show (["Maximum Rotation Drift".toList, "Minimum Rotation Drift".toList, "Average Rotation Drift".toList,
      "Median Rotation Drift".toList] : List Str).Nodup
    decide
  exact ⟨look_update_new (d := d) (e := ("Maximum Rotation Drift".toList, x)) hn (List.mem_cons_self ..),
    look_update_new (d := d) (e := ("Minimum Rotation Drift".toList, y)) hn (List.mem_cons_of_mem _ (List.mem_cons_self ..))⟩

omit [IsStrictOrderedRing K] [FloorRing K] in
theorem hasRotDev_iff (r : RpeResult K) : r.hasRotDev = true ↔ ∃ g ∈ r.groups, g.rotDev ≠ [] := by
  unfold RpeResult.hasRotDev
  rw [List.any_eq_true]
  constructor
  · rintro ⟨g, hg, h⟩
    exact ⟨g, hg, by rintro h0; rw [h0] at h; cases h⟩
  · rintro ⟨g, hg, h⟩
    exact ⟨g, hg, by simpa using h⟩

/-- **C155**, largest and smallest rotation: if a bin has rotations, the summary shows the largest and the smallest of all
rotation deviations, in degrees per 100 metres or per second.
Missing for the full property: the median, `C155_median_wrong`, and bins at nearly the same distance, `C155_line_lost`. -/
theorem C155_rotation_extremes_partial {deg : K → K} {r : RpeResult K} {a : List (Str × Str)} (h : r.propertyDict deg = .ok a)
    {g : RpeGroup K} (hg : g ∈ r.groups) (hg' : g.rotDev ≠ []) :
    ∃ max min unit, look a "Maximum Rotation Drift".toList = some (fmtFixed 3 (deg max) ++ ' ' :: unit) ∧
      look a "Minimum Rotation Drift".toList = some (fmtFixed 3 (deg min) ++ ' ' :: unit) ∧
      IsRotDrift r max ∧ (∀ x, IsRotDrift r x → x ≤ max) ∧ IsRotDrift r min ∧ (∀ x, IsRotDrift r x → min ≤ x) ∧
      unit = (if r.unit = .meter then "deg/100m" else "deg/s").toList := by
  obtain ⟨d, dists, means, maxs, mins, max, min, avg, med, -, -, -, hmaxs, hmax, hmins, hmin, rfl⟩ :=
    propertyDict_rot h ((hasRotDev_iff r).2 ⟨g, hg, hg'⟩)
  clear hg hg' g
  have hc := drift_nonneg r
  have hneMax : maxs ≠ [] := by rintro rfl; cases hmax
  have hneMin : mins ≠ [] := by rintro rfl; cases hmin
  obtain ⟨m1, hm1, hm2, hm3⟩ := pyMax_spec hneMax
  obtain ⟨m2, hm4, hm5, hm6⟩ := pyMin_spec hneMin
  rw [hmax] at hm1
  rw [hmin] at hm4
  cases hm1
  cases hm4
  refine ⟨max, min, r.rotUnit, ?_, ?_, ?_, ?_, ?_, ?_, ?_⟩
  · rw [(look_rot _ _ _ _ _).1]
    simp [RpeResult.withUnit]
  · rw [(look_rot _ _ _ _ _).2]
    simp [RpeResult.withUnit]
  · obtain ⟨g, hg, xs, z, hs, hne, hz, hy⟩ := (computeMetric_mem hmaxs max).1 hm2
    obtain ⟨z', hz', hz2, -⟩ := pyMax_spec hne
    rw [hz] at hz'
    cases hz'
    exact ⟨g, hg, z, by rw [hs]; exact List.mem_map.2 ⟨z, hz2, rfl⟩, hy⟩
  · rintro x ⟨g, hg, y, hy, rfl⟩
    obtain ⟨xs, z, hs, hne, hz, hmem⟩ := computeMetric_all hmaxs hg (by rintro h0; rw [h0] at hy; simp at hy)
    obtain ⟨z', hz', -, hz3⟩ := pyMax_spec hne
    rw [hz] at hz'
    cases hz'
    rw [hs] at hy
    obtain ⟨y', hy', hyy⟩ := List.mem_map.1 hy
    cases hyy
    exact le_trans (mul_le_mul_of_nonneg_right (hz3 y hy') hc) (hm3 _ hmem)
  · obtain ⟨g, hg, xs, z, hs, hne, hz, hy⟩ := (computeMetric_mem hmins min).1 hm5
    obtain ⟨z', hz', hz2, -⟩ := pyMin_spec hne
    rw [hz] at hz'
    cases hz'
    exact ⟨g, hg, z, by rw [hs]; exact List.mem_map.2 ⟨z, hz2, rfl⟩, hy⟩
  · rintro x ⟨g, hg, y, hy, rfl⟩
    obtain ⟨xs, z, hs, hne, hz, hmem⟩ := computeMetric_all hmins hg (by rintro h0; rw [h0] at hy; simp at hy)
    obtain ⟨z', hz', -, hz3⟩ := pyMin_spec hne
    rw [hz] at hz'
    cases hz'
    rw [hs] at hy
    obtain ⟨y', hy', hyy⟩ := List.mem_map.1 hy
    cases hyy
    exact le_trans (hm6 _ hmem) (mul_le_mul_of_nonneg_right (hz3 y hy') hc)
  · unfold RpeResult.rotUnit
    split_ifs <;> rfl

/-- **C155**, without rotations: if no bin has rotations, the summary has no line about rotations. -/
theorem C155_no_rotation_lines {deg : K → K} {r : RpeResult K} {a : List (Str × Str)} (h : r.propertyDict deg = .ok a)
    (hr : ∀ g ∈ r.groups, g.rotDev = []) {k : Str}
    (hk : k.take 10 = "Average ro".toList ∨ k.drop 8 = "Rotation Drift".toList ∨ k = "Median Rotation Drift".toList) :
    look a k = none := by
  obtain ⟨d, rest, l, hd, -, rfl, -, hl⟩ := propertyDict_prefix h
  have h0 : r.hasRotDev = false := by
    rw [← Bool.not_eq_true, hasRotDev_iff]
    rintro ⟨g, hg, h⟩
    exact h (hr g hg)
  rw [hl h0]
  show look d k = none
  unfold look
  rw [Option.map_eq_none_iff, List.find?_eq_none]
  intro e he hke
  obtain ⟨h1, h2, h3⟩ := position_keys hd he
  have hke : e.1 = k := by simpa using hke
  subst hke
  rcases hk with hk | hk | hk
  · exact h1 hk
  · exact h2 hk
  · exact h3 hk

/-- **C155**, pairs: the summary states how many pairs there are in all bins together. -/
theorem C155_number_of_pairs {deg : K → K} {r : RpeResult K} {a : List (Str × Str)} (h : r.propertyDict deg = .ok a) :
    look a "Number of pose pairs".toList = some (natStr (r.groups.map (fun g => g.pairDist.length)).sum) ∧
      look a "Name".toList = some r.name.toList := by
  obtain ⟨d, -, -, hd, -⟩ := propertyDict_prefix h
  rw [look_property h hd (by simp) (by simp) (by simp), look_property h hd (by simp) (by simp) (by simp)]
  obtain ⟨dists, means, maxs, mins, meds, max, min, avg, med, -, -, -, -, -, -, -, -, -, rfl⟩ := positionDict_inv hd
  have hst : ∀ k : Str, k = "Number of pose pairs".toList ∨ k = "Name".toList → ∀ x y z w : Str,
      ∀ e ∈ ([("Maximum Position Drift".toList, x), ("Minimum Position Drift".toList, y), ("Average Position Drift".toList, z),
        ("Median Position Drift".toList, w)] : List (Str × Str)), e.1 ≠ k := by
    intro k hk x y z w e he
    simp only [List.mem_cons, List.not_mem_nil, or_false] at he
    rcases hk with rfl | rfl <;> rcases he with rfl | rfl | rfl | rfl <;> simp
  have hln : ∀ k : Str, k = "Number of pose pairs".toList ∨ k = "Name".toList →
      ∀ e ∈ strUpdate [] (RpeResult.driftLines "position" r.posUnit r.distUnit dists means), e.1 ≠ k := by
    rintro k hk e he rfl
    rcases strUpdate_mem he with he | he
    · simp at he
    · unfold RpeResult.driftLines at he
      obtain ⟨x, -, rfl⟩ := List.mem_map.1 he
      have h10 : (("Average " ++ "position" ++ " drift at ").toList ++ fmtFixed 3 x.1 ++ " (avg) ".toList ++ r.distUnit).take 10 =
          "Average po".toList := by
        simp only [List.append_assoc]
        simp
      rcases hk with hk | hk
      · exact absurd ((congrArg (List.take 10) hk).symm.trans h10) (by decide)
      · exact absurd ((congrArg (List.take 10) hk).symm.trans h10) (by decide)
  constructor
  · rw [look_update_old (hst _ (Or.inl rfl) _ _ _ _), look_update_old (hln _ (Or.inl rfl))]
    rfl
  · rw [look_update_old (hst _ (Or.inr rfl) _ _ _ _), look_update_old (hln _ (Or.inr rfl))]
    rfl

/-- **C155**, the rotations of the bins: if all bins have a rotation for every pair and their mean distances differ in the
digits that are shown, there is a line for every bin with pairs, with its mean distance and the mean of its rotations. -/
theorem C155_rotation_lines_partial {deg : K → K} {r : RpeResult K} {a : List (Str × Str)} (h : r.propertyDict deg = .ok a)
    (hlen : ∀ g ∈ r.groups, g.rotDev.length = g.pairDist.length)
    (hd : ((r.groups.filter (fun g => !g.pairDist.isEmpty)).map (fun g => fmtFixed 3 (binDistance g))).Nodup)
    {g : RpeGroup K} (hg : g ∈ r.groups) (hne : g.pairDist ≠ []) :
    ∃ xs : List K, g.rotDev = xs.map some ∧ xs ≠ [] ∧
      look a (rotLine r g 0).1 = some (rotLine r g (deg (xs.sum / xs.length * (if r.unit = .meter then 100 else 1)))).2 := by
  have hrot : r.hasRotDev = true := (hasRotDev_iff r).2 ⟨g, hg, by
    intro h0
    have := hlen g hg
    rw [h0] at this
    exact hne (List.eq_nil_of_length_eq_zero this.symm)⟩
  obtain ⟨d, dists, means, maxs, mins, max, min, avg, med, hdd, h1, h2, -, -, -, -, rfl⟩ := propertyDict_rot h hrot
  have hdists := meanPairDistances_eq h1
  have hf : r.groups.filter (fun g => !g.rotDev.isEmpty) = r.groups.filter (fun g => !g.pairDist.isEmpty) := by
    apply List.filter_congr
    intro g hg
    have := hlen g hg
    cases hp : g.rotDev <;> cases hq : g.pairDist <;> rw [hp, hq] at this <;> simp at this ⊢
  obtain ⟨k, hk⟩ := List.mem_iff_getElem?.1 (List.mem_filter.2 ⟨hg, by simpa using hne⟩ :
    g ∈ r.groups.filter (fun g => !g.pairDist.isEmpty))
  obtain ⟨xs, z, hx, hz, hm⟩ := computeMetric_get h2 (by rw [hf]; exact hk)
  have hxne : xs ≠ [] := by
    rintro rfl
    have := hlen g hg
    rw [hx] at this
    exact hne (List.eq_nil_of_length_eq_zero this.symm)
  rw [npMean_ne hxne] at hz
  cases hz
  refine ⟨xs, hx, hxne, ?_⟩
  have hl : (((RpeResult.driftLines "rotation" r.rotUnit r.distUnit dists (means.map deg))).map Prod.fst).Nodup := by
    have : (RpeResult.driftLines "rotation" r.rotUnit r.distUnit dists (means.map deg)).map Prod.fst =
        ((dists.zip (means.map deg)).map (fun p => fmtFixed 3 p.1)).map (fun s : Str => "Average rotation drift at ".toList ++ s ++
          " (avg) ".toList ++ r.distUnit) := by
      unfold RpeResult.driftLines
      simp
    rw [this]
    apply List.Nodup.map
    · intro s t hst
      simp only [List.append_assoc] at hst
      have := List.append_cancel_left hst
      exact List.append_cancel_right this
    · have h3 : (dists.zip (means.map deg)).map (fun p => fmtFixed 3 p.1) = dists.map (fmtFixed 3) := by
        rw [show (fun p : K × K => fmtFixed 3 p.1) = fmtFixed 3 ∘ Prod.fst from rfl, ← List.map_map, List.map_fst_zip]
        rw [List.length_map, computeMetric_length h2, hf, hdists, List.length_map]
      rw [h3, hdists, List.map_map]
      exact hd
  have hline : rotLine r g (deg (xs.sum / xs.length * (if r.unit = .meter then 100 else 1))) ∈
      RpeResult.driftLines "rotation" r.rotUnit r.distUnit dists (means.map deg) := by
    unfold RpeResult.driftLines
    refine List.mem_map.2 ⟨(binDistance g, deg (xs.sum / xs.length * r.driftFactor)), ?_, ?_⟩
    · refine List.mem_of_getElem? (i := k) (List.getElem?_zip_eq_some.2 ⟨?_, ?_⟩)
      · rw [hdists, List.getElem?_map, hk]
        rfl
      · rw [List.getElem?_map, hm]
        rfl
    · unfold rotLine RpeResult.withUnit RpeResult.driftFactor RpeResult.distUnit RpeResult.rotUnit
      split_ifs <;> simp
  have hkey : (rotLine r g 0).1 = (rotLine r g (deg (xs.sum / xs.length * (if r.unit = .meter then 100 else 1)))).1 := rfl
  rw [hkey, strUpdate_nodup (l := RpeResult.driftLines "rotation" r.rotUnit r.distUnit dists (means.map deg)) hl (by simp),
    List.nil_append, look_update_old, look_update_new hl hline]
  intro e he
  have h10 : (rotLine r g (deg (xs.sum / xs.length * (if r.unit = .meter then 100 else 1)))).1.take 10 = "Average ro".toList := by
    unfold rotLine
    simp only [List.append_assoc]
    simp
  intro hke
  rw [← hke] at h10
  simp only [List.mem_cons, List.not_mem_nil, or_false] at he
  rcases he with rfl | rfl | rfl | rfl <;> simp at h10

end

-- the summary in which these lines are read, `exDrift`, has rotations in two bins with different mean distances
example : (∃ g ∈ exDrift.groups, g.rotDev ≠ []) ∧ (∀ g ∈ exDrift.groups, g.rotDev.length = g.pairDist.length) ∧
    ((exDrift.groups.filter (fun g => !g.pairDist.isEmpty)).map (fun g => fmtFixed 3 (binDistance g))).Nodup ∧
    (exDrift.propertyDict (fun x => x)).toOption.isSome = true ∧
    (∃ a, exDrift.propertyDict (fun x => x) = .ok a ∧
      look a "Maximum Rotation Drift".toList = some "100.000 deg/100m".toList ∧
      look a "Number of pose pairs".toList = some "4".toList) := by
  refine ⟨by decide, by decide, by decide +kernel, by decide +kernel, ?_⟩
  cases h : exDrift.propertyDict (fun x => x) with
  | error e =>
    have h1 : (exDrift.propertyDict (fun x => x)).toOption.isSome = true := by decide +kernel
    rw [h] at h1
    cases h1
  | ok a =>
    have h' : exDrift.propertyDict (fun x => x) = .ok a := h
    have h2 : ((exDrift.propertyDict (fun x => x)).toOption.bind (fun a => look a "Maximum Rotation Drift".toList)) =
        some "100.000 deg/100m".toList := by decide +kernel
    have h3 : ((exDrift.propertyDict (fun x => x)).toOption.bind (fun a => look a "Number of pose pairs".toList)) =
        some "4".toList := by decide +kernel
    rw [h'] at h2 h3
    exact ⟨a, rfl, h2, h3⟩

end TC
