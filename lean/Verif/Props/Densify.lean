import Verif.Props.Selections
import Verif.Props.Rematch
import Verif.Proofs.ExactAte
/-!
# C199: densifying a trajectory does not change its path
-/
namespace TC
variable {K R : Type} [Field K] [LinearOrder K] [IsStrictOrderedRing K]
set_option linter.unusedSectionVars false

/-- A law of spherical interpolation: between two points of an arc it runs along that arc. -/
def SlerpAlongArc (L : RotLib K R) : Prop :=
  ∀ a b s t u, 0 ≤ s → s < t → t ≤ 1 → 0 ≤ u → u ≤ 1 → L.slerp (L.slerp a b s) (L.slerp a b t) u = L.slerp a b (s + u * (t - s))

/-- the interpolated value on a closed interval between two neighbours -/
theorem interpF_closed {xp fp : List K} (hl : xp.length = fp.length) (hs : StrictAsc xp) {i : Nat}
    (hi : i + 1 < xp.length) {x : K} (h1 : xp[i] ≤ x) (h2 : x ≤ xp[i + 1]) :
    interpF xp fp x = fp[i]'(by omega) +
      ((x - xp[i]) / (xp[i + 1] - xp[i])) * (fp[i + 1]'(hl ▸ hi) - fp[i]'(by omega)) := by
  have hlt : xp[i] < xp[i + 1] := List.pairwise_iff_getElem.1 hs i (i + 1) (by omega) hi (by omega)
  rcases h1.lt_or_eq with h1 | rfl
  · rcases h2.lt_or_eq with h2 | rfl
    · exact interpF_polygon hl hs hi h1 h2
    · rw [interpF_hit hl hs hi, div_self (sub_pos.2 hlt).ne']
      ring
  · rw [interpF_hit hl hs (by omega)]
    simp

/-- the interval of a time after the first one -/
theorem half_open {xp : List K} (hs : StrictAsc xp) (h0 : 0 < xp.length) {x : K} (h1 : xp[0] < x)
    (h2 : x ≤ xp[xp.length - 1]) : ∃ i, ∃ h : i + 1 < xp.length, xp[i] < x ∧ x ≤ xp[i + 1] := by
  rcases bracket hs h0 h1.le h2 with ⟨i, hi, rfl⟩ | ⟨i, hi, h3, h4⟩
  · rcases i with _ | i
    · exact absurd h1 (lt_irrefl _)
    · exact ⟨i, hi, List.pairwise_iff_getElem.1 hs i (i + 1) (by omega) hi (by omega), le_refl _⟩
  · exact ⟨i, hi, h3, h4.le⟩

theorem slerpOne_in (L : RotLib K R) {times : List K} {rots : List R} (hs : StrictAsc times) (hl : times.length = rots.length)
    {i : Nat} (hi : i + 1 < times.length) {t : K} (h1 : times[i] < t) (h2 : t ≤ times[i + 1]) :
    Traj.slerpOne L times rots t =
      .ok (L.slerp (rots[i]'(by omega)) (rots[i + 1]'(by omega)) ((t - times[i]) / (times[i + 1] - times[i]))) := by
  unfold Traj.slerpOne
  rw [pyFirst_eq (by omega)]
  simp only [bind, Except.bind, pure, Except.pure]
  have h0 : times[0]'(by omega) ≤ times[i] := by
    rcases Nat.eq_zero_or_pos i with rfl | h
    · exact le_refl _
    · exact (List.pairwise_iff_getElem.1 hs 0 i (by omega) (by omega) h).le
  rw [if_neg (h0.trans_lt h1).ne']
  have hsr : searchLeft times t = i + 1 := by
    have h3 := (searchLeft_lt_iff hs.le t (by omega : i < times.length)).2 h1
    by_contra hne
    have h4 : i + 1 < searchLeft times t := by omega
    exact absurd h2 (not_le.2 ((searchLeft_lt_iff hs.le t hi).1 h4))
  rw [hsr]
  have hc : ((i : Int) + 1) = ((i + 1 : Nat) : Int) := by omega
  have hd : i + 1 - 1 = i := by omega
  rw [hd, hc, npGet_nat (l := times) (by omega), npGet_nat (l := times) hi,
    npGet_nat (l := rots) (by omega), npGet_nat (l := rots) (by omega)]

/-- the interval of a finer table lies in the interval of the coarser one -/
theorem finer {xp c : List K} (hs : StrictAsc xp) (hc : StrictAsc c) (hsub : ∀ x ∈ xp, x ∈ c)
    {i j : Nat} (hi : i + 1 < xp.length) (hj : j + 1 < c.length) {x : K} (h1 : xp[i] < x) (h2 : x ≤ xp[i + 1])
    (g1 : c[j] < x) (g2 : x ≤ c[j + 1]) : xp[i] ≤ c[j] ∧ c[j] < c[j + 1] ∧ c[j + 1] ≤ xp[i + 1] := by
  have hle : ∀ (i j : Nat) (hi : i < c.length) (hj : j < c.length), i ≤ j → c[i] ≤ c[j] := by
    intro i j hi hj h
    rcases Nat.lt_or_eq_of_le h with h | rfl
    · exact (List.pairwise_iff_getElem.1 hc i j hi hj h).le
    · exact le_refl _
  refine ⟨?_, g1.trans_le g2, ?_⟩
  · obtain ⟨k, hk, he⟩ := List.getElem_of_mem (hsub _ (List.getElem_mem (by omega : i < xp.length)))
    rw [← he] at h1 ⊢
    refine hle k j hk (by omega) ?_
    by_contra h
    exact absurd (h1.trans_le (g2.trans (hle (j + 1) k hj hk (by omega)))) (lt_irrefl _)
  · obtain ⟨k, hk, he⟩ := List.getElem_of_mem (hsub _ (List.getElem_mem hi))
    rw [← he] at h2 ⊢
    refine hle (j + 1) k hj hk ?_
    by_contra h
    exact absurd (g1.trans_le (h2.trans (hle k j hk (by omega) (by omega)))) (lt_irrefl _)

/-- interpolating in the interpolated finer table -/
theorem interpF_finer {xp fp c : List K} (hl : xp.length = fp.length) (hs : StrictAsc xp) (hc : StrictAsc c)
    (hsub : ∀ x ∈ xp, x ∈ c) (h0 : 0 < xp.length) (hc0 : 0 < c.length) (hc1 : c[0] = xp[0])
    (hc2 : c[c.length - 1] = xp[xp.length - 1]) {x : K} (h1 : xp[0] ≤ x) (h2 : x ≤ xp[xp.length - 1]) :
    interpF c (c.map (interpF xp fp)) x = interpF xp fp x := by
  rcases h1.lt_or_eq with h1 | h1
  · obtain ⟨i, hi, a1, a2⟩ := half_open hs h0 h1 h2
    obtain ⟨j, hj, b1, b2⟩ := half_open hc hc0 (by rw [hc1]; exact h1) (by rw [hc2]; exact h2)
    obtain ⟨f1, f2, f3⟩ := finer hs hc hsub hi hj a1 a2 b1 b2
    rw [interpF_closed (by simp) hc hj b1.le b2, interpF_closed hl hs hi a1.le a2]
    simp only [List.getElem_map]
    rw [interpF_closed hl hs hi f1 (f2.le.trans f3), interpF_closed hl hs hi (f1.trans f2.le) f3]
    have d1 : xp[i + 1] - xp[i] ≠ 0 := (sub_pos.2 (a1.trans_le a2)).ne'
    have d2 : c[j + 1] - c[j] ≠ 0 := (sub_pos.2 f2).ne'
    field_simp
    ring
  · subst h1
    rw [← hc1]
    exact interpF_twice hc (List.getElem_mem _)

/-- spherical interpolation in the interpolated finer table -/
theorem slerpOne_finer (L : RotLib K R) (hL : SlerpEnds L) (hA : SlerpAlongArc L) {xp c : List K} {r q : List R}
    (hl : xp.length = r.length) (hq : c.length = q.length) (h2 : 2 ≤ xp.length) (hs : StrictAsc xp) (hc : StrictAsc c)
    (hsub : ∀ x ∈ xp, x ∈ c) (hc0 : 2 ≤ c.length) (hc1 : c[0] = xp[0])
    (hc2 : c[c.length - 1] = xp[xp.length - 1])
    (hv : ∀ (k : Nat) t, c[k]? = some t → ∃ a, q[k]? = some a ∧ Traj.slerpOne L xp r t = .ok a)
    {x : K} (g1 : xp[0] ≤ x) (g2 : x ≤ xp[xp.length - 1]) :
    Traj.slerpOne L c q x = Traj.slerpOne L xp r x := by
  rcases g1.lt_or_eq with g1 | g1
  · obtain ⟨i, hi, a1, a2⟩ := half_open hs (by omega) g1 g2
    obtain ⟨j, hj, b1, b2⟩ := half_open hc (by omega) (by rw [hc1]; exact g1) (by rw [hc2]; exact g2)
    obtain ⟨f1, f2, f3⟩ := finer hs hc hsub hi hj a1 a2 b1 b2
    rw [slerpOne_in L hc hq hj b1 b2, slerpOne_in L hs hl hi a1 a2]
    have d1 : 0 < xp[i + 1] - xp[i] := sub_pos.2 (a1.trans_le a2)
    have d2 : 0 < c[j + 1] - c[j] := sub_pos.2 f2
    have e1 : q[j]'(by omega) = L.slerp (r[i]'(by omega)) (r[i + 1]'(by omega)) ((c[j] - xp[i]) / (xp[i + 1] - xp[i])) := by
      obtain ⟨a, k1, k2⟩ := hv j c[j] (List.getElem?_eq_getElem (by omega))
      rw [List.getElem?_eq_getElem (by omega), Option.some.injEq] at k1
      rw [k1]
      rcases f1.lt_or_eq with f1 | f1
      · rw [slerpOne_in L hs hl hi f1 (f2.le.trans f3)] at k2
        exact (Except.ok.inj k2).symm
      · rw [← f1, slerpOne_hit L hL hs hl (by omega) (by omega)] at k2
        rw [← f1, sub_self, zero_div, hL.start]
        exact (Except.ok.inj k2).symm
    have e2 : q[j + 1]'(by omega) = L.slerp (r[i]'(by omega)) (r[i + 1]'(by omega)) ((c[j + 1] - xp[i]) / (xp[i + 1] - xp[i])) := by
      obtain ⟨a, k1, k2⟩ := hv (j + 1) c[j + 1] (List.getElem?_eq_getElem (by omega))
      rw [List.getElem?_eq_getElem (by omega), Option.some.injEq] at k1
      rw [k1]
      rw [slerpOne_in L hs hl hi (f1.trans_lt f2) f3] at k2
      exact (Except.ok.inj k2).symm
    rw [e1, e2, hA _ _ _ _ _ (div_nonneg (sub_nonneg.2 f1) d1.le) (div_lt_div_of_pos_right (sub_lt_sub_right f2 _) d1)
      ((div_le_one d1).2 (sub_le_sub_right f3 _)) (div_nonneg (sub_nonneg.2 b1.le) d2.le)
      ((div_le_one d2).2 (sub_le_sub_right b2 _))]
    congr 2
    have := d1.ne'
    have := d2.ne'
    field_simp
    ring
  · subst g1
    obtain ⟨a, k1, k2⟩ := hv 0 c[0] (List.getElem?_eq_getElem (by omega))
    have hx := slerpOne_hit L hL hc hq (by omega) (k := 0) (by omega)
    rw [List.getElem?_eq_getElem (by omega), Option.some.injEq] at k1
    rw [← hc1, hx, k2, k1]

/-- **C199**: after interpolating onto times that include all own ones, every further interpolation gives the
same trajectory as it would have given before. -/
theorem C199_same_path (L : RotLib K R) (hL : SlerpEnds L) (hA : SlerpAlongArc L) {T C : Traj K R} (hT : Coherent T)
    (h2 : 2 ≤ T.tstamps.length) (hs : StrictAsc T.tstamps) (ts : List K) (hn : ts.Nodup) (hsub : ∀ t ∈ T.tstamps, t ∈ ts)
    (hC : Returns (Traj.interpolate L ts) T () C) (us : List K)
    (hk : ∃ u ∈ us, ∃ a ∈ T.tstamps, ∃ b ∈ T.tstamps, a ≤ u ∧ u ≤ b) :
    ∃ D, Returns (Traj.interpolate L us) C () D ∧ Returns (Traj.interpolate L us) T () D := by
  have h0 : 0 < T.tstamps.length := by omega
  have hleT : ∀ (i j : Nat) (hi : i < T.tstamps.length) (hj : j < T.tstamps.length), i ≤ j → T.tstamps[i] ≤ T.tstamps[j] := by
    intro i j hi hj h
    rcases Nat.lt_or_eq_of_le h with h | rfl
    · exact (List.pairwise_iff_getElem.1 hs i j hi hj h).le
    · exact le_refl _
  obtain ⟨c, hc⟩ : ∃ c, c = cropReq T.tstamps h0 ts := ⟨_, rfl⟩
  obtain ⟨q, hCe⟩ := interpDone_returns L hT h0 hC
  rw [← hc] at hCe
  have hct : C.tstamps = c := by rw [hCe]; rfl
  have hcs : StrictAsc c := by
    have h1 : c.Pairwise (· ≤ ·) := by rw [hc]; exact (npSort_sorted ts).filter _
    have h3 : c.Nodup := by rw [hc]; exact ((npSort_perm ts).nodup_iff.2 hn).filter _
    exact (h1.and h3).imp (fun h => lt_of_le_of_ne h.1 h.2)
  have hmem : ∀ t, t ∈ c ↔ t ∈ ts ∧ T.tstamps[0] ≤ t ∧ t ≤ T.tstamps[T.tstamps.length - 1] := by
    intro t
    rw [hc]
    unfold cropReq
    rw [List.mem_filter, mem_npSort, decide_eq_true_eq]
  have hown : ∀ t ∈ T.tstamps, t ∈ c := by
    intro t ht
    obtain ⟨i, hi, rfl⟩ := List.getElem_of_mem ht
    exact (hmem _).2 ⟨hsub _ ht, hleT 0 i h0 hi (by omega), hleT i _ hi (by omega) (by omega)⟩
  have hlec : ∀ (i j : Nat) (hi : i < c.length) (hj : j < c.length), i ≤ j → c[i] ≤ c[j] := by
    intro i j hi hj h
    rcases Nat.lt_or_eq_of_le h with h | rfl
    · exact (List.pairwise_iff_getElem.1 hcs i j hi hj h).le
    · exact le_refl _
  have hclen : 2 ≤ c.length := by
    have h3 : (T.tstamps.toFinset).card ≤ c.toFinset.card := Finset.card_le_card (by
      intro t ht
      rw [List.mem_toFinset] at ht ⊢
      exact hown t ht)
    rw [List.toFinset_card_of_nodup (hs.imp ne_of_lt)] at h3
    exact h2.trans (h3.trans (List.toFinset_card_le _))
  have hc1 : c[0] = T.tstamps[0] := by
    apply le_antisymm
    · obtain ⟨i, hi, he⟩ := List.getElem_of_mem (hown _ (List.getElem_mem h0))
      rw [← he]
      exact hlec 0 i _ hi (by omega)
    · exact ((hmem _).1 (List.getElem_mem _)).2.1
  have hc2 : c[c.length - 1] = T.tstamps[T.tstamps.length - 1] := by
    apply le_antisymm
    · exact ((hmem _).1 (List.getElem_mem _)).2.2
    · obtain ⟨i, hi, he⟩ := List.getElem_of_mem (hown _ (List.getElem_mem (by omega : T.tstamps.length - 1 < T.tstamps.length)))
      rw [← he]
      exact hlec i _ hi _ (by omega)
  have h0C : 0 < C.tstamps.length := by rw [hct]; omega
  have hcr : cropReq C.tstamps h0C us = cropReq T.tstamps h0 us := by
    unfold cropReq
    simp only [hct, hc1, hc2]
  obtain ⟨e, he⟩ : ∃ e, e = cropReq T.tstamps h0 us := ⟨_, rfl⟩
  have hin : ∀ t ∈ e, T.tstamps[0] ≤ t ∧ t ≤ T.tstamps[T.tstamps.length - 1] := by
    intro t ht
    rw [he] at ht
    exact (cropReq_mem ht).2
  have hene : e ≠ [] := by
    obtain ⟨u, hu, a, ha, b, hb, k1, k2⟩ := hk
    obtain ⟨i, hi, rfl⟩ := List.getElem_of_mem ha
    obtain ⟨j, hj, rfl⟩ := List.getElem_of_mem hb
    apply List.ne_nil_of_mem (a := u)
    rw [he]
    unfold cropReq
    rw [List.mem_filter, mem_npSort, decide_eq_true_eq]
    exact ⟨hu, (hleT 0 i h0 hi (by omega)).trans k1, k2.trans (hleT j _ hj (by omega) (by omega))⟩
  have hp : interpPos C e = interpPos T e := by
    unfold interpPos
    refine List.map_congr_left fun t ht => ?_
    obtain ⟨k1, k2⟩ := hin t ht
    rw [hCe]
    simp only [interpDone, interpPos, List.map_map, Function.comp_def]
    have hpl := hT.pos
    rw [interpF_finer (by simp [hpl]) hs hcs hown h0 (by omega) hc1 hc2 k1 k2,
      interpF_finer (by simp [hpl]) hs hcs hown h0 (by omega) hc1 hc2 k1 k2,
      interpF_finer (by simp [hpl]) hs hcs hown h0 (by omega) hc1 hc2 k1 k2]
  have hdone : ∀ q', interpDone C e q' = interpDone T e q' := by
    intro q'
    unfold interpDone
    rw [hp]
    simp only [Traj.mk.injEq, true_and]
    refine ⟨?_, by rw [hCe]; rfl, by rw [hCe]; rfl, by rw [hCe]; rfl⟩
    refine List.map_congr_left fun t ht => ?_
    obtain ⟨k1, k2⟩ := hin t ht
    rw [hCe]
    exact interpF_finer hT.arc.symm hs hcs hown h0 (by omega) hc1 hc2 k1 k2
  have hcne : c ≠ [] := by
    intro h
    rw [h] at hclen
    simp at hclen
  rcases hr : T.rot with _ | r
  · have i1 := interpolate_eq_noRot L hT h0 us hr
    have hCe : C = interpDone T c none := by
      unfold Returns at hC
      rw [interpolate_eq_noRot L hT h0 ts hr, ← hc] at hC
      exact ((Prod.mk.inj hC).2).symm
    have hCc : Coherent C := by rw [hCe]; exact interpDone_coherent hcne (by simp)
    have i2 := interpolate_eq_noRot L hCc h0C us (by rw [hCe]; rfl)
    refine ⟨interpDone T e none, ?_, ?_⟩
    · unfold Returns; rw [i2, hcr, ← he, hdone]
    · unfold Returns; rw [i1, ← he]
  · have hrl := hT.rot r hr
    obtain ⟨q0, s1, s2, s3⟩ := interpolate_eq_rot L hT h2 hs ts hr (by rw [← hc]; exact hcne)
    have hCe' : C = interpDone T c (some q0) := by
      unfold Returns at hC
      rw [s3, ← hc] at hC
      exact ((Prod.mk.inj hC).2).symm
    rw [← hc] at s1 s2
    have hCc : Coherent C := by rw [hCe']; exact interpDone_coherent hcne (by rintro _ ⟨⟩; exact s2)
    have hCr : C.rot = some q0 := by rw [hCe']; rfl
    obtain ⟨q1, a1, a2, a3⟩ := interpolate_eq_rot L hCc (by rw [hct]; exact hclen) (by rw [hct]; exact hcs) us hCr
      (by rw [hcr, ← he]; exact hene)
    obtain ⟨q2, b1, b2, b3⟩ := interpolate_eq_rot L hT h2 hs us hr (by rw [← he]; exact hene)
    rw [hcr, ← he] at a1 a2 a3
    rw [← he] at b1 b2 b3
    rw [hct] at a1
    have hql : q0.length = c.length := s2
    have hq12 : q1 = q2 := by
      obtain ⟨q0', c1, -, c3⟩ := slerpAll_ok L hs hrl.symm (by omega) (ts := c) (fun t ht => ((hmem t).1 ht).2)
      rw [s1] at c1
      cases c1
      obtain ⟨q2', d1, -, d3⟩ := slerpAll_ok L hs hrl.symm (by omega) (ts := e) hin
      rw [b1] at d1
      cases d1
      obtain ⟨q1', f1, -, f3⟩ := slerpAll_ok L hcs hql.symm (by omega) (ts := e) (by simp only [hc1, hc2]; exact hin)
      rw [a1] at f1
      cases f1
      apply List.ext_getElem?
      intro k
      rcases ht : e[k]? with _ | t
      · have : e.length ≤ k := List.getElem?_eq_none_iff.1 ht
        rw [List.getElem?_eq_none_iff.2 (by omega), List.getElem?_eq_none_iff.2 (by omega)]
      · obtain ⟨x, x1, x2⟩ := f3 k t ht
        obtain ⟨y, y1, y2⟩ := d3 k t ht
        obtain ⟨k1, k2⟩ := hin t (List.mem_of_getElem? ht)
        rw [slerpOne_finer L hL hA hrl.symm hql.symm h2 hs hcs hown hclen hc1 hc2 c3 k1 k2, y2] at x2
        rw [x1, y1, Except.ok.inj x2]
    subst hq12
    refine ⟨interpDone T e (some q1), ?_, b3⟩
    unfold Returns
    rw [a3, hdone]

/-- **C199**: going back to the own timestamps restores every sample. -/
theorem C199_restores (L : RotLib K R) (hL : SlerpEnds L) (hA : SlerpAlongArc L) {T C : Traj K R} (hT : Coherent T)
    (h2 : 2 ≤ T.tstamps.length) (hs : StrictAsc T.tstamps) (ts : List K) (hn : ts.Nodup) (hsub : ∀ t ∈ T.tstamps, t ∈ ts)
    (hC : Returns (Traj.interpolate L ts) T () C) :
    ∃ D, Returns (Traj.interpolate L T.tstamps) C () D ∧ SameMeta T D ∧
      D.tstamps = T.tstamps ∧ D.pos = T.pos ∧ D.arc = T.arc ∧ D.rot = T.rot := by
  have hm : T.tstamps[0] ∈ T.tstamps := List.getElem_mem _
  obtain ⟨D, d1, d2⟩ := C199_same_path L hL hA hT h2 hs ts hn hsub hC T.tstamps
    ⟨_, hm, _, hm, _, hm, le_refl _, le_refl _⟩
  obtain ⟨D', e1, -, e3, e4, e5, e6⟩ := interpolate_same L hT hs h2
  have hD : D' = D := by
    unfold Returns at d2
    rw [e1] at d2
    exact (Prod.mk.inj d2).2
  subst hD
  exact ⟨D', d1, e3, e4, e5, (C07_interpolate_own_timestamps L T D' hT (List.ne_nil_of_mem hm) hs d2).2.2, e6 hL⟩

/-! ## Examples -/

/-- headings, interpolated at constant rate -/
def headingLib : RotLib ℚ ℚ :=
  { one := 0, mul := (· + ·), inv := fun a => -a, toMat := fun _ => 1, fromMat := fun _ => 0,
    slerp := fun a b u => a + u * (b - a) }

example : SlerpEnds headingLib ∧ SlerpAlongArc headingLib :=
  ⟨⟨fun a b => by simp [headingLib], fun a b => by simp [headingLib]⟩,
    fun a b s t u _ _ _ _ _ => by simp only [headingLib]; ring⟩

/-- a corner with headings -/
def exHeadings : Traj ℚ ℚ :=
  { tstamps := [0, 2, 4], pos := [⟨0, 0, 0⟩, ⟨2, 0, 0⟩, ⟨2, 4, 0⟩], rot := some [0, 10, 90],
    arc := [0, 2, 6], speed := [⟨1, 0, 0⟩, ⟨0, 2, 0⟩, ⟨0, 0, 0⟩], sorting := .time, name := "corner", epsg := 0 }

example : Coherent exHeadings ∧ StrictAsc exHeadings.tstamps ∧ [(4 : ℚ), 1, 0, 3, 2, 9].Nodup ∧
    (∀ t ∈ exHeadings.tstamps, t ∈ [(4 : ℚ), 1, 0, 3, 2, 9]) :=
  ⟨⟨rfl, rfl, rfl, by rintro r ⟨⟩; rfl⟩, by decide +kernel, by decide +kernel, by decide +kernel⟩

/-- two samples more, then back -/
example : (Traj.interpolate headingLib [4, 1, 0, 3, 2, 9] exHeadings).1.toOption = some () ∧
    (Traj.interpolate headingLib [4, 1, 0, 3, 2, 9] exHeadings).2.rot = some [0, 5, 10, 50, 90] ∧
    (Traj.interpolate headingLib [0, 2, 4] (Traj.interpolate headingLib [4, 1, 0, 3, 2, 9] exHeadings).2).2 = exHeadings := by
  decide +kernel

/-- without the time of the corner the path is cut short -/
example : (Traj.interpolate headingLib [0, 2, 4] (Traj.interpolate headingLib [4, 1, 0, 3, 9] exHeadings).2).2.pos =
    [⟨0, 0, 0⟩, ⟨3 / 2, 1, 0⟩, ⟨2, 4, 0⟩] := by
  decide +kernel

end TC
