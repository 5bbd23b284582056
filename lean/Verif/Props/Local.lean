import Verif.Props.Densify
import Verif.Props.TotalLength
/-!
# C202: interpolation uses the neighbouring samples only
-/
namespace TC
set_option linter.unusedSectionVars false
variable {K R : Type} [Field K] [LinearOrder K] [IsStrictOrderedRing K]

/-- the entries of `l` from position `n` on begin with those of `b` -/
def PartOf {α : Type} (n : Nat) (l b : List α) : Prop := ∀ (i : Nat) (x : α), b[i]? = some x → l[n + i]? = some x

theorem PartOf.of_append {α : Type} {l a b c : List α} (h : l = a ++ b ++ c) : PartOf a.length l b := by
  intro i x hx
  have hi := (List.getElem?_eq_some_iff.1 hx).1
  rw [h, List.append_assoc, List.getElem?_append_right (by omega), List.getElem?_append_left (by omega)]
  simpa using hx

theorem PartOf.map {α β : Type} {n : Nat} {l b : List α} (h : PartOf n l b) (f : α → β) : PartOf n (l.map f) (b.map f) := by
  intro i x hx
  rw [List.getElem?_map] at hx ⊢
  obtain ⟨y, h1, h2⟩ := Option.map_eq_some_iff.1 hx
  rw [h i y h1, Option.map_some, h2]

theorem PartOf.get {α : Type} {n : Nat} {l b : List α} (h : PartOf n l b) {i : Nat} (hi : i < b.length) :
    ∃ h' : n + i < l.length, l[n + i] = b[i] :=
  List.getElem?_eq_some_iff.1 (h i _ (List.getElem?_eq_getElem hi))

theorem PartOf.strict {n : Nat} {l b : List K} (h : PartOf n l b) (hs : StrictAsc l) : StrictAsc b := by
  refine List.pairwise_iff_getElem.2 fun i j hi hj hij => ?_
  obtain ⟨h1, e1⟩ := h.get hi
  obtain ⟨h2, e2⟩ := h.get hj
  rw [← e1, ← e2]
  exact List.pairwise_iff_getElem.1 hs _ _ h1 h2 (by omega)

theorem interpF_part {n : Nat} {xp fp xb fb : List K} (hx : PartOf n xp xb) (hf : PartOf n fp fb) (hl : xp.length = fp.length)
    (hlb : xb.length = fb.length) (hs : StrictAsc xp) (h0 : 0 < xb.length) {x : K} (h1 : xb[0] ≤ x)
    (h2 : x ≤ xb[xb.length - 1]) : interpF xp fp x = interpF xb fb x := by
  have hsb := hx.strict hs
  rcases bracket hsb h0 h1 h2 with ⟨i, hi, rfl⟩ | ⟨i, hi, a1, a2⟩
  · obtain ⟨g1, e1⟩ := hx.get hi
    obtain ⟨g2, e2⟩ := hf.get (hlb ▸ hi)
    rw [interpF_hit hlb hsb hi, ← e1, interpF_hit hl hs g1, e2]
  · obtain ⟨g1, e1⟩ := hx.get (by omega : i < xb.length)
    obtain ⟨g2, e2⟩ := hx.get hi
    obtain ⟨g3, e3⟩ := hf.get (by omega : i < fb.length)
    obtain ⟨g4, e4⟩ := hf.get (by omega : i + 1 < fb.length)
    rw [interpF_polygon hlb hsb hi a1 a2, interpF_polygon hl hs (i := n + i) (by omega) (by rw [e1]; exact a1)
      (by simp only [Nat.add_assoc]; rw [e2]; exact a2)]
    simp only [Nat.add_assoc, e1, e2, e3, e4]

theorem slerpOne_part (L : RotLib K R) (hL : SlerpEnds L) {n : Nat} {xp xb : List K} {r q : List R} (hx : PartOf n xp xb)
    (hr : PartOf n r q) (hl : xp.length = r.length) (hlb : xb.length = q.length) (hs : StrictAsc xp) (h2 : 2 ≤ xb.length) {x : K}
    (h1 : xb[0] ≤ x) (h3 : x ≤ xb[xb.length - 1]) : Traj.slerpOne L xp r x = Traj.slerpOne L xb q x := by
  have hsb := hx.strict hs
  rcases h1.lt_or_eq with h1 | rfl
  · obtain ⟨i, hi, a1, a2⟩ := half_open hsb (by omega) h1 h3
    obtain ⟨g1, e1⟩ := hx.get (by omega : i < xb.length)
    obtain ⟨g2, e2⟩ := hx.get hi
    obtain ⟨g3, e3⟩ := hr.get (by omega : i < q.length)
    obtain ⟨g4, e4⟩ := hr.get (by omega : i + 1 < q.length)
    rw [slerpOne_in L hsb hlb hi a1 a2, slerpOne_in L hs hl (i := n + i) (by omega) (by rw [e1]; exact a1)
      (by simp only [Nat.add_assoc]; rw [e2]; exact a2)]
    simp only [Nat.add_assoc, e1, e2, e3, e4]
  · obtain ⟨g1, e1⟩ := hx.get (by omega : 0 < xb.length)
    obtain ⟨g2, e2⟩ := hr.get (by omega : 0 < q.length)
    obtain ⟨g3, -⟩ := hx.get (by omega : 1 < xb.length)
    rw [slerpOne_hit L hL hsb hlb (by omega) (by omega), ← e1, slerpOne_hit L hL hs hl (by omega) g1, e2]

/-- **C202**: if `B` consists of consecutive samples of `T`, both give the same trajectory when interpolated onto times
between the first and the last sample of `B`. -/
theorem C202_stretch (L : RotLib K R) (hL : SlerpEnds L) {T B : Traj K R} (hT : Coherent T) (hB : Coherent B)
    (hs : StrictAsc T.tstamps) (hm : SameMeta T B) {before after : List (Sample K R)}
    (hsplit : samples T = before ++ samples B ++ after) (h2 : 2 ≤ B.tstamps.length) (us : List K) (hus : us ≠ [])
    (hin : ∀ u ∈ us, ∃ a ∈ B.tstamps, ∃ b ∈ B.tstamps, a ≤ u ∧ u ≤ b) :
    ∃ D, Returns (Traj.interpolate L us) T () D ∧ Returns (Traj.interpolate L us) B () D := by
  have hp := PartOf.of_append hsplit
  obtain ⟨n, hn⟩ : ∃ n, n = before.length := ⟨_, rfl⟩
  rw [← hn] at hp
  have hx : PartOf n T.tstamps B.tstamps := by
    have := hp.map Sample.t
    rwa [samples_map_t hT, samples_map_t hB] at this
  have hq : PartOf n T.pos B.pos := by
    have := hp.map Sample.p
    rwa [samples_map_p hT, samples_map_p hB] at this
  have ha : PartOf n T.arc B.arc := by
    have := hp.map Sample.l
    rwa [samples_map_l hT, samples_map_l hB] at this
  have hsb := hx.strict hs
  obtain ⟨g1, e1⟩ := hx.get (by omega : 0 < B.tstamps.length)
  obtain ⟨g2, e2⟩ := hx.get (by omega : B.tstamps.length - 1 < B.tstamps.length)
  have h0 : 0 < T.tstamps.length := by omega
  have h0B : 0 < B.tstamps.length := by omega
  have hle : ∀ {l : List K}, StrictAsc l → ∀ (i j : Nat) (hi : i < l.length) (hj : j < l.length), i ≤ j → l[i] ≤ l[j] := by
    intro l hl i j hi hj h
    rcases Nat.lt_or_eq_of_le h with h | rfl
    · exact (List.pairwise_iff_getElem.1 hl i j hi hj h).le
    · exact le_refl _
  have hwin : ∀ u ∈ us, B.tstamps[0] ≤ u ∧ u ≤ B.tstamps[B.tstamps.length - 1] := by
    intro u hu
    obtain ⟨a, ha, b, hb, k1, k2⟩ := hin u hu
    obtain ⟨i, hi, rfl⟩ := List.getElem_of_mem ha
    obtain ⟨j, hj, rfl⟩ := List.getElem_of_mem hb
    exact ⟨(hle hsb 0 i h0B hi (by omega)).trans k1, k2.trans (hle hsb j _ hj (by omega) (by omega))⟩
  have hwinT : ∀ u ∈ us, T.tstamps[0] ≤ u ∧ u ≤ T.tstamps[T.tstamps.length - 1] := by
    intro u hu
    obtain ⟨k1, k2⟩ := hwin u hu
    rw [← e1] at k1
    rw [← e2] at k2
    exact ⟨(hle hs 0 _ h0 g1 (by omega)).trans k1, k2.trans (hle hs _ _ g2 (by omega) (by omega))⟩
  have c1 : cropReq T.tstamps h0 us = npSort us := by
    unfold cropReq
    exact List.filter_eq_self.2 fun t ht => by simpa using hwinT t (mem_npSort.1 ht)
  have c2 : cropReq B.tstamps h0B us = npSort us := by
    unfold cropReq
    exact List.filter_eq_self.2 fun t ht => by simpa using hwin t (mem_npSort.1 ht)
  obtain ⟨c, hc⟩ : ∃ c, c = npSort us := ⟨_, rfl⟩
  have hcm : ∀ t ∈ c, t ∈ us := fun t ht => mem_npSort.1 (hc ▸ ht)
  have hcne : c ≠ [] := by
    obtain ⟨u, hu⟩ := List.exists_mem_of_ne_nil _ hus
    exact List.ne_nil_of_mem (a := u) (hc ▸ mem_npSort.2 hu)
  have hpos : interpPos T c = interpPos B c := by
    unfold interpPos
    refine List.map_congr_left fun t ht => ?_
    obtain ⟨k1, k2⟩ := hwin t (hcm t ht)
    have t1 := hT.pos
    have t2 := hB.pos
    rw [interpF_part hx (hq.map V3.x) (by simp [t1]) (by simp [t2]) hs h0B k1 k2,
      interpF_part hx (hq.map V3.y) (by simp [t1]) (by simp [t2]) hs h0B k1 k2,
      interpF_part hx (hq.map V3.z) (by simp [t1]) (by simp [t2]) hs h0B k1 k2]
  have hdone : ∀ q', interpDone T c q' = interpDone B c q' := by
    intro q'
    unfold interpDone
    rw [hpos]
    simp only [Traj.mk.injEq, true_and]
    refine ⟨?_, hm.sorting.symm, hm.name.symm, hm.epsg.symm⟩
    refine List.map_congr_left fun t ht => ?_
    obtain ⟨k1, k2⟩ := hwin t (hcm t ht)
    exact interpF_part hx ha hT.arc.symm hB.arc.symm hs h0B k1 k2
  have hrm := hm.rot
  rcases hr : T.rot with _ | r
  · have hrB : B.rot = none := by
      rw [hr] at hrm
      simpa using hrm
    refine ⟨interpDone T c none, ?_, ?_⟩
    · unfold Returns; rw [interpolate_eq_noRot L hT h0 us hr, c1, ← hc]
    · unfold Returns; rw [interpolate_eq_noRot L hB h0B us hrB, c2, ← hc, hdone]
  · obtain ⟨rb, hrB⟩ : ∃ rb, B.rot = some rb := by
      rw [hr] at hrm
      exact Option.isSome_iff_exists.1 (by simpa using hrm)
    have l1 := hT.rot r hr
    have l2 := hB.rot rb hrB
    have hrp : PartOf n r rb := by
      intro i x hx'
      have := (hp.map Sample.r) i (some x)
      rw [samples_map_r hT, samples_map_r hB, hr, hrB] at this
      simp only [rotColumn, List.getElem?_map, Option.map_eq_some_iff] at this
      obtain ⟨y, y1, y2⟩ := this ⟨x, hx', rfl⟩
      rw [y1]
      exact y2
    have h2T : 2 ≤ T.tstamps.length := by omega
    obtain ⟨q1, a1, a2, a3⟩ := interpolate_eq_rot L hT h2T hs us hr (by rw [c1, ← hc]; exact hcne)
    obtain ⟨q2, b1, b2, b3⟩ := interpolate_eq_rot L hB h2 hsb us hrB (by rw [c2, ← hc]; exact hcne)
    rw [c1, ← hc] at a1 a2 a3
    rw [c2, ← hc] at b1 b2 b3
    have hq12 : q1 = q2 := by
      obtain ⟨q1', d1, -, d3⟩ := slerpAll_ok L hs l1.symm (by omega) (ts := c) (fun t ht => hwinT t (hcm t ht))
      rw [a1] at d1
      cases d1
      obtain ⟨q2', f1, -, f3⟩ := slerpAll_ok L hsb l2.symm (by omega) (ts := c) (fun t ht => hwin t (hcm t ht))
      rw [b1] at f1
      cases f1
      apply List.ext_getElem?
      intro k
      rcases ht : c[k]? with _ | t
      · have : c.length ≤ k := List.getElem?_eq_none_iff.1 ht
        rw [List.getElem?_eq_none_iff.2 (by omega), List.getElem?_eq_none_iff.2 (by omega)]
      · obtain ⟨x, x1, x2⟩ := d3 k t ht
        obtain ⟨y, y1, y2⟩ := f3 k t ht
        obtain ⟨k1, k2⟩ := hwin t (hcm t (List.mem_of_getElem? ht))
        rw [slerpOne_part L hL hx hrp l1.symm l2.symm hs h2 k1 k2, y2] at x2
        rw [x1, y1, Except.ok.inj x2]
    subst hq12
    refine ⟨interpDone T c (some q1), a3, ?_⟩
    unfold Returns
    rw [b3, hdone]

/-- **C202**: it makes no difference whether a trajectory is cropped before it is interpolated, as long as the times
asked for lie between samples that are kept. -/
theorem C202_crop (L : RotLib K R) (hL : SlerpEnds L) {T B : Traj K R} (hT : Coherent T) (hs : StrictAsc T.tstamps) (a b : K)
    (hk : ∃ t ∈ T.tstamps, a ≤ t ∧ t ≤ b) (hcrop : Returns (Traj.crop a b false) T () B) (h2 : 2 ≤ B.tstamps.length) (us : List K) (hus : us ≠ [])
    (hin : ∀ u ∈ us, ∃ x ∈ B.tstamps, ∃ y ∈ B.tstamps, x ≤ u ∧ u ≤ y) :
    ∃ D, Returns (Traj.interpolate L us) T () D ∧ Returns (Traj.interpolate L us) B () D := by
  obtain ⟨B', h1, hB, hm, e⟩ := C03_crop_keeps_exactly_the_window T hT a b (.inr hk)
  have : B' = B := by
    unfold Returns at h1 hcrop
    rw [h1] at hcrop
    exact (Prod.mk.inj hcrop).2
  subst this
  obtain ⟨A, C, hAC, -⟩ := window_split Sample.t a b (samples T) (by rw [samples_map_t hT]; exact hs.imp le_of_lt)
  rw [← e] at hAC
  exact C202_stretch L hL hT hB hs hm hAC h2 us hus hin

/-! ### The hypotheses are met -/

/-- six samples of a bent way with headings -/
def exBentWay : Traj ℚ ℚ :=
  { tstamps := [0, 1, 2, 4, 5, 7], pos := [⟨0, 0, 0⟩, ⟨1, 0, 0⟩, ⟨1, 3, 0⟩, ⟨1, 3, 4⟩, ⟨6, 3, 4⟩, ⟨6, 6, 6⟩]
    rot := some [0, 10, 90, 80, 0, 40], arc := [0, 1, 4, 8, 13, 17], speed := List.replicate 6 0
    sorting := .time, name := "bent", epsg := 0 }

example : Coherent exBentWay ∧ StrictAsc exBentWay.tstamps ∧
    (Traj.crop (1 / 2) 5 false exBentWay).2.tstamps = [1, 2, 4, 5] :=
  ⟨⟨rfl, rfl, rfl, by rintro r ⟨⟩; rfl⟩, by decide +kernel, by decide +kernel⟩

/-- the same samples, whether cropped first or not, here at 9/2, 1 and 3 -/
example : (Traj.interpolate headingLib [9 / 2, 1, 3] exBentWay).2 =
      (Traj.interpolate headingLib [9 / 2, 1, 3] (Traj.crop (1 / 2) 5 false exBentWay).2).2 ∧
    (Traj.interpolate headingLib [9 / 2, 1, 3] exBentWay).2.pos = [⟨1, 0, 0⟩, ⟨1, 3, 2⟩, ⟨7 / 2, 3, 4⟩] := by
  decide +kernel

end TC
