import Verif.Props.Adjust
import Verif.Model.Metrics
/-!
# The thresholds at which the iterative estimation stops (alignment/data.py:484-507), and the lengths of the vectors it
accepts (data.py:147-173)
-/
namespace TC
set_option linter.unusedSectionVars false
variable {K : Type} [Field K] [LinearOrder K]

/-- `lo` and `hi` are the corners of the smallest box with sides along the axes around the points -/
structure IsBox (l : List (V3 K)) (lo hi : V3 K) : Prop where
  below : ∀ p ∈ l, lo.x ≤ p.x ∧ lo.y ≤ p.y ∧ lo.z ≤ p.z
  above : ∀ p ∈ l, p.x ≤ hi.x ∧ p.y ≤ hi.y ∧ p.z ≤ hi.z
  touches_lo : (∃ p ∈ l, p.x = lo.x) ∧ (∃ p ∈ l, p.y = lo.y) ∧ (∃ p ∈ l, p.z = lo.z)
  touches_hi : (∃ p ∈ l, p.x = hi.x) ∧ (∃ p ∈ l, p.y = hi.y) ∧ (∃ p ∈ l, p.z = hi.z)

theorem foldMax_spec : ∀ (ps : List (V3 K)) (p : V3 K),
    let m := ps.foldl (fun a b => (⟨max a.x b.x, max a.y b.y, max a.z b.z⟩ : V3 K)) p
    (∀ q ∈ p :: ps, q.x ≤ m.x ∧ q.y ≤ m.y ∧ q.z ≤ m.z) ∧
    (∃ q ∈ p :: ps, q.x = m.x) ∧ (∃ q ∈ p :: ps, q.y = m.y) ∧ (∃ q ∈ p :: ps, q.z = m.z)
  | [], p => by simp
  | b :: ps, p => by
    obtain ⟨h1, ⟨q1, m1, e1⟩, ⟨q2, m2, e2⟩, ⟨q3, m3, e3⟩⟩ := foldMax_spec ps ⟨max p.x b.x, max p.y b.y, max p.z b.z⟩
    simp only [List.foldl_cons]
    refine ⟨?_, ?_, ?_, ?_⟩
    · intro q hq
      have h0 := h1 _ (List.mem_cons_self ..)
      simp only [max_le_iff] at h0
      rcases List.mem_cons.1 hq with rfl | hq
      · exact ⟨h0.1.1, h0.2.1.1, h0.2.2.1⟩
      · rcases List.mem_cons.1 hq with rfl | hq
        · exact ⟨h0.1.2, h0.2.1.2, h0.2.2.2⟩
        · exact h1 q (List.mem_cons_of_mem _ hq)
    · rcases List.mem_cons.1 m1 with rfl | m1
      · rcases max_choice p.x b.x with h | h
        · exact ⟨p, by simp, by rw [← e1]; exact h.symm⟩
        · exact ⟨b, by simp, by rw [← e1]; exact h.symm⟩
      · exact ⟨q1, by simp [m1], e1⟩
    · rcases List.mem_cons.1 m2 with rfl | m2
      · rcases max_choice p.y b.y with h | h
        · exact ⟨p, by simp, by rw [← e2]; exact h.symm⟩
        · exact ⟨b, by simp, by rw [← e2]; exact h.symm⟩
      · exact ⟨q2, by simp [m2], e2⟩
    · rcases List.mem_cons.1 m3 with rfl | m3
      · rcases max_choice p.z b.z with h | h
        · exact ⟨p, by simp, by rw [← e3]; exact h.symm⟩
        · exact ⟨b, by simp, by rw [← e3]; exact h.symm⟩
      · exact ⟨q3, by simp [m3], e3⟩

theorem foldMin_spec : ∀ (ps : List (V3 K)) (p : V3 K),
    let m := ps.foldl (fun a b => (⟨min a.x b.x, min a.y b.y, min a.z b.z⟩ : V3 K)) p
    (∀ q ∈ p :: ps, m.x ≤ q.x ∧ m.y ≤ q.y ∧ m.z ≤ q.z) ∧
    (∃ q ∈ p :: ps, q.x = m.x) ∧ (∃ q ∈ p :: ps, q.y = m.y) ∧ (∃ q ∈ p :: ps, q.z = m.z)
  | [], p => by simp
  | b :: ps, p => by
    obtain ⟨h1, ⟨q1, m1, e1⟩, ⟨q2, m2, e2⟩, ⟨q3, m3, e3⟩⟩ := foldMin_spec ps ⟨min p.x b.x, min p.y b.y, min p.z b.z⟩
    simp only [List.foldl_cons]
    refine ⟨?_, ?_, ?_, ?_⟩
    · intro q hq
      have h0 := h1 _ (List.mem_cons_self ..)
      simp only [le_min_iff] at h0
      rcases List.mem_cons.1 hq with rfl | hq
      · exact ⟨h0.1.1, h0.2.1.1, h0.2.2.1⟩
      · rcases List.mem_cons.1 hq with rfl | hq
        · exact ⟨h0.1.2, h0.2.1.2, h0.2.2.2⟩
        · exact h1 q (List.mem_cons_of_mem _ hq)
    · rcases List.mem_cons.1 m1 with rfl | m1
      · rcases min_choice p.x b.x with h | h
        · exact ⟨p, by simp, by rw [← e1]; exact h.symm⟩
        · exact ⟨b, by simp, by rw [← e1]; exact h.symm⟩
      · exact ⟨q1, by simp [m1], e1⟩
    · rcases List.mem_cons.1 m2 with rfl | m2
      · rcases min_choice p.y b.y with h | h
        · exact ⟨p, by simp, by rw [← e2]; exact h.symm⟩
        · exact ⟨b, by simp, by rw [← e2]; exact h.symm⟩
      · exact ⟨q2, by simp [m2], e2⟩
    · rcases List.mem_cons.1 m3 with rfl | m3
      · rcases min_choice p.z b.z with h | h
        · exact ⟨p, by simp, by rw [← e3]; exact h.symm⟩
        · exact ⟨b, by simp, by rw [← e3]; exact h.symm⟩
      · exact ⟨q3, by simp [m3], e3⟩

/-- **C82**, the thresholds: with `m` metres and `t` seconds in the settings, the three translations, and the three components
of the lever arm, have the threshold `m`, the time shift has `t`, and rotations and scale have the angle under which `m` is seen
over the larger of the two extents (the diagonals of the boxes around the source and around the target positions). -/
theorem C82_thresholds (nrm : V3 K → K) (m t : K) {src dst : List (V3 K)} {l : List (Option K)}
    (h : Adjust.thresholds nrm m t src dst = .ok l) :
    ∃ lo hi lo' hi', IsBox src lo hi ∧ IsBox dst lo' hi' ∧ l.length = 11 ∧
      (∀ i, i < 3 ∨ 8 ≤ i ∧ i < 11 → l[i]? = some (some m)) ∧ l[7]? = some (some t) ∧
      ∀ i, 3 ≤ i → i < 7 → ∀ d, d = max (nrm (hi - lo)) (nrm (hi' - lo')) →
        l[i]? = some (if d = 0 then none else some (m / d)) := by
  unfold Adjust.thresholds at h
  rcases src with _ | ⟨p, ps⟩
  · cases h
  rcases dst with _ | ⟨q, qs⟩
  · cases h
  simp only [bind, Except.bind, pure, Except.pure, Except.ok.injEq] at h
  obtain ⟨a1, a2⟩ := foldMax_spec ps p
  obtain ⟨b1, b2⟩ := foldMin_spec ps p
  obtain ⟨c1, c2⟩ := foldMax_spec qs q
  obtain ⟨d1, d2⟩ := foldMin_spec qs q
  refine ⟨_, _, _, _, ⟨b1, a1, b2, a2⟩, ⟨d1, c1, d2, c2⟩, by rw [← h]; rfl, ?_, by rw [← h]; rfl, ?_⟩
  · intro i hi
    have : i = 0 ∨ i = 1 ∨ i = 2 ∨ i = 8 ∨ i = 9 ∨ i = 10 := by omega
    rcases this with rfl | rfl | rfl | rfl | rfl | rfl <;> rw [← h] <;> rfl
  · rintro i h3 h7 d rfl
    have : i = 3 ∨ i = 4 ∨ i = 5 ∨ i = 6 := by omega
    rcases this with rfl | rfl | rfl | rfl <;> rw [← h] <;> rfl

/-- without positions there are no thresholds: `np.max` of nothing raises -/
theorem C82_no_thresholds (nrm : V3 K → K) (m t : K) {src dst : List (V3 K)} (h : src = [] ∨ dst = []) :
    Adjust.thresholds nrm m t src dst = .error .valueError := by
  rcases h with rfl | rfl
  · rfl
  · rcases src with _ | ⟨p, ps⟩ <;> rfl

/-- **C78**, lengths: a vector of observations, variances or residuals is accepted exactly if it consists of whole epochs (six
numbers, three more with a lever arm and three more with a time shift); any other length is refused. -/
theorem C78_whole_epochs (e : EstSettings) (v : List K) :
    (6 + (if e.leverarmEnabled then 3 else 0) + (if e.timeShiftEnabled then 3 else 0) ∣ v.length → Obs.checkLength e v = .ok v) ∧
    (¬ 6 + (if e.leverarmEnabled then 3 else 0) + (if e.timeShiftEnabled then 3 else 0) ∣ v.length →
      Obs.checkLength e v = .error .valueError) := by
  unfold Obs.checkLength Obs.perEpoch
  constructor
  · intro h
    rw [if_neg (by simpa using Nat.mod_eq_zero_of_dvd h)]
  · intro h
    rw [if_pos (fun h0 => h (Nat.dvd_of_mod_eq_zero h0))]

-- the extents 3 and 4: angles are compared with a fourth of the metric threshold
example : (Adjust.thresholds (fun v : V3 ℚ => |v.x| + |v.y| + |v.z|) (1 / 100) (1 / 1000) [⟨1, 0, 0⟩, ⟨4, 0, 0⟩] [⟨0, 0, 0⟩, ⟨0, 4, 0⟩]).toOption =
    some [some (1 / 100), some (1 / 100), some (1 / 100), some (1 / 400), some (1 / 400), some (1 / 400), some (1 / 400),
      some (1 / 1000), some (1 / 100), some (1 / 100), some (1 / 100)] := by
  decide +kernel

example : (Obs.checkLength {} ([1, 2, 3, 4, 5, 6] : List ℚ)).toOption = some [1, 2, 3, 4, 5, 6] ∧
    (Obs.checkLength {} ([1, 2, 3, 4, 5, 6, 7] : List ℚ)).toOption = none := by
  decide +kernel

end TC
