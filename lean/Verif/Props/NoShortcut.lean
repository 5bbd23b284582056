import Verif.Props.Stable
import Verif.Props.Intersect
import Verif.Props.Construct
import Verif.Props.Arc
import Verif.Props.Histories
import Verif.Props.InterpMore

/-! C218: the arc lengths of two samples differ by at least their straight-line distance, whatever is done to the
trajectory by cropping, intersecting, interpolating and rigid motion. -/

namespace TC

set_option linter.unusedSectionVars false

variable {K R : Type} [Field K] [LinearOrder K] [IsStrictOrderedRing K] [FloorRing K]

/-- Specification: of any two samples, the later one is farther along the path than the earlier one by at least the
straight-line distance between them. -/
def NoShortcut (nrm : V3 K → K) (T : Traj K R) : Prop :=
  (samples T).Pairwise (fun a b => nrm (b.p - a.p) ≤ b.l - a.l)

theorem noShortcut_iff (nrm : V3 K → K) {T : Traj K R} (hT : Coherent T) :
    NoShortcut nrm T ↔ ∀ (i j : Nat) (p q : V3 K) (s t : K), i < j → T.pos[i]? = some p → T.pos[j]? = some q →
      T.arc[i]? = some s → T.arc[j]? = some t → nrm (q - p) ≤ t - s := by
  unfold NoShortcut
  rw [List.pairwise_iff_getElem]
  constructor
  · intro h i j p q s t hij hp hq hs ht
    rw [← samples_map_p hT, List.getElem?_map] at hp hq
    rw [← samples_map_l hT, List.getElem?_map] at hs ht
    obtain ⟨a, ha, rfl⟩ := Option.map_eq_some_iff.1 hp
    obtain ⟨b, hb, rfl⟩ := Option.map_eq_some_iff.1 hq
    rw [ha] at hs
    rw [hb] at ht
    simp only [Option.map_some, Option.some.injEq] at hs ht
    subst hs ht
    obtain ⟨hi, rfl⟩ := List.getElem?_eq_some_iff.1 ha
    obtain ⟨hj, rfl⟩ := List.getElem?_eq_some_iff.1 hb
    exact h i j hi hj hij
  · intro h i j hi hj hij
    refine h i j _ _ _ _ hij ?_ ?_ ?_ ?_
    · rw [← samples_map_p hT, List.getElem?_map, List.getElem?_eq_getElem hi]; rfl
    · rw [← samples_map_p hT, List.getElem?_map, List.getElem?_eq_getElem hj]; rfl
    · rw [← samples_map_l hT, List.getElem?_map, List.getElem?_eq_getElem hi]; rfl
    · rw [← samples_map_l hT, List.getElem?_map, List.getElem?_eq_getElem hj]; rfl

/-- **C218**, start: a trajectory constructed without arc lengths has no shortcut. -/
theorem C218_constructed {nrm : V3 K → K} (hn : IsNorm nrm) (counter : Nat) (a : TrajArgs K R)
    (hrot : ∀ r, a.rot = some r → r.length = a.pos.length) (hne : a.pos ≠ [])
    (hts : ∀ t, a.tstamps = some t → t.length = a.pos.length) (harc : a.arc = none) :
    ∃ T, Traj.new nrm counter a = .ok T ∧ Coherent T ∧ T.pos = a.pos ∧ NoShortcut nrm T := by
  obtain ⟨T, h1, h2, h3, -, -, -, -, h4, -, -⟩ := new_eq nrm counter a hrot hne hts
  refine ⟨T, h1, h2, h3, (noShortcut_iff nrm h2).2 ?_⟩
  intro i j p q s t hij hp hq hs ht
  rw [h4 (by simp [harc]), ← h3] at hs ht
  exact C13_arc_length_at_least_straight_line nrm hn T.pos i j hij.le p q s t hp hq hs ht

theorem NoShortcut.sublist {nrm : V3 K → K} {T T' : Traj K R} (h : NoShortcut nrm T)
    (hsub : List.Sublist (samples T') (samples T)) : NoShortcut nrm T' :=
  List.Pairwise.sublist hsub h

/-- **C218**, cropping: whenever it returns. -/
theorem C218_crop {nrm : V3 K → K} {T T' : Traj K R} (hT : Coherent T) (h : NoShortcut nrm T) (hne : T.tstamps ≠ [])
    (a b : K) (hret : Returns (Traj.crop a b false) T () T') : Coherent T' ∧ NoShortcut nrm T' := by
  by_cases hk : T.rot = none ∨ ∃ t ∈ T.tstamps, a ≤ t ∧ t ≤ b
  · obtain ⟨T1, h1, hc, -, h2⟩ := C03_crop_keeps_exactly_the_window T hT a b hk
    have e : T' = T1 := (Prod.mk.inj (hret.symm.trans h1)).2
    subst e
    exact ⟨hc, h.sublist (h2 ▸ List.filter_sublist)⟩
  · push Not at hk
    obtain ⟨T1, h1, -⟩ := C97_crop_tears T hT hk.1 hne a b (fun t ht hw => absurd (hk.2 t ht hw.1) (not_lt.2 hw.2))
    cases (Prod.mk.inj (hret.symm.trans h1)).1

/-- **C218**, intersecting with another set of timestamps: whenever it returns. -/
theorem C218_intersect {nrm : V3 K → K} {T T' : Traj K R} (hT : Coherent T) (h : NoShortcut nrm T)
    (hne : T.tstamps ≠ []) (ts : List K) (hts : ts ≠ []) (g : K) (hret : Returns (Traj.intersect ts g) T () T') :
    Coherent T' ∧ NoShortcut nrm T' := by
  classical
  by_cases ho : Overlap ts T.tstamps
  · by_cases hk : T.rot = none ∨ ∃ t ∈ T.tstamps, Covered ts g t
    · obtain ⟨T1, h1, hc, -, h2⟩ := C09_intersect_keeps_exactly_the_covered_samples T hT hne ts hts g ho hk
      have e : T' = T1 := (Prod.mk.inj (hret.symm.trans h1)).2
      subst e
      exact ⟨hc, h.sublist (h2 ▸ List.filter_sublist)⟩
    · push Not at hk
      obtain ⟨T1, h1, -⟩ := C97_intersect_tears T hT hk.1 hne ts hts g ho hk.2
      cases (Prod.mk.inj (hret.symm.trans h1)).1
  · cases (Prod.mk.inj (hret.symm.trans (C09_intersect_without_overlap_raises T hne ts hts g ho))).1

/-- A point of the path between two samples (or at one). -/
theorem polygon_joint {ts : List K} (hs : StrictAsc ts) {P : List (V3 K)} {A : List K} {t : K} {p : V3 K} {l : K}
    (hp : OnPolygon ts P t p) (hl : OnPolygon ts A t l) :
    (∃ i : Nat, ts[i]? = some t ∧ P[i]? = some p ∧ A[i]? = some l) ∨
    (∃ (i : Nat) (t₀ t₁ : K) (p₀ p₁ : V3 K) (l₀ l₁ : K), ts[i]? = some t₀ ∧ ts[i + 1]? = some t₁ ∧
      P[i]? = some p₀ ∧ P[i + 1]? = some p₁ ∧ A[i]? = some l₀ ∧ A[i + 1]? = some l₁ ∧ t₀ < t ∧ t < t₁ ∧
      p = p₀ + ((t - t₀) / (t₁ - t₀)) • (p₁ - p₀) ∧ l = l₀ + ((t - t₀) / (t₁ - t₀)) * (l₁ - l₀)) := by
  rcases hp with ⟨i, hi, hp⟩ | ⟨i, t0, t1, p0, p1, h0, h1, hp0, hp1, k0, k1, rfl⟩ <;>
    rcases hl with ⟨j, hj, hq⟩ | ⟨j, u0, u1, q0, q1, g0, g1, hq0, hq1, m0, m1, rfl⟩
  · have : i = j := by
      by_contra hc
      obtain ⟨a, a'⟩ := List.getElem?_eq_some_iff.1 hi
      obtain ⟨b, b'⟩ := List.getElem?_eq_some_iff.1 hj
      rcases Nat.lt_or_gt_of_ne hc with hc | hc
      · have := hs.getElem_lt b hc
        rw [a', b'] at this
        exact lt_irrefl _ this
      · have := hs.getElem_lt a hc
        rw [a', b'] at this
        exact lt_irrefl _ this
    subst this
    exact Or.inl ⟨i, hi, hp, hq⟩
  · have a := hs.index_lt g0 hi m0
    have b := hs.index_lt hi g1 m1
    omega
  · have a := hs.index_lt h0 hj k0
    have b := hs.index_lt hj h1 k1
    omega
  · have a := hs.index_lt h0 g1 (k0.trans m1)
    have b := hs.index_lt g0 h1 (m0.trans k1)
    have : i = j := by omega
    subst this
    rw [h0] at g0
    rw [h1] at g1
    cases g0
    cases g1
    exact Or.inr ⟨i, t0, t1, p0, p1, q0, q1, h0, h1, hp0, hp1, hq0, hq1, k0, k1, rfl, by simp⟩

theorem part_norm {nrm : V3 K → K} (hn : IsNorm nrm) {v : V3 K} {d : K} (h : nrm v ≤ d) {c : K} (hc : 0 ≤ c) :
    nrm (c • v) ≤ c * d := by
  rw [hn.smul, abs_of_nonneg hc]
  exact mul_le_mul_of_nonneg_left h hc

/-- Two points on the lines between samples are no farther apart than their numbers in a second column, if this is so for
all samples. -/
theorem polygon_distance {nrm : V3 K → K} (hn : IsNorm nrm) {ts : List K} (hs : StrictAsc ts) {P : List (V3 K)} {A : List K}
    (hge : ∀ (i j : Nat) (p q : V3 K) (s t : K), i ≤ j → P[i]? = some p → P[j]? = some q → A[i]? = some s →
      A[j]? = some t → nrm (q - p) ≤ t - s) {τ σ : K} (hle : τ ≤ σ) {p q : V3 K} {s t : K} (hP : OnPolygon ts P τ p)
    (hA : OnPolygon ts A τ s) (hQ : OnPolygon ts P σ q) (hB : OnPolygon ts A σ t) : nrm (q - p) ≤ t - s := by
  have tri : ∀ a b c : V3 K, nrm (c - a) ≤ nrm (b - a) + nrm (c - b) := by
    intro a b c
    have := hn.triangle (b - a) (c - b)
    rwa [show b - a + (c - b) = c - a by abel] at this
  rcases polygon_joint hs hP hA with
      ⟨a, ha, pa, la⟩ | ⟨a, t0, t1, p0, p1, l0, l1, h0, h1, hp0, hp1, hl0, hl1, k0, k1, rfl, rfl⟩ <;>
    rcases polygon_joint hs hQ hB with
      ⟨b, hb, pb, lb⟩ | ⟨b, u0, u1, q0, q1, m0, m1, g0, g1, hq0, hq1, hm0, hm1, n0, n1, rfl, rfl⟩
  · refine hge a b p q s t ?_ pa pb la lb
    by_contra hc
    obtain ⟨x, x'⟩ := List.getElem?_eq_some_iff.1 ha
    obtain ⟨y, y'⟩ := List.getElem?_eq_some_iff.1 hb
    have := hs.getElem_lt x (not_le.1 hc)
    rw [x', y'] at this
    exact absurd hle (not_le.2 this)
  · have hab : a ≤ b := by
      have := hs.index_lt ha g1 (hle.trans_lt n1)
      omega
    have e1 := hge a b p q0 s m0 hab pa hq0 la hm0
    have hd : 0 < u1 - u0 := by linarith
    have e2 := part_norm hn (hge b (b + 1) q0 q1 m0 m1 (by omega) hq0 hq1 hm0 hm1)
      (div_nonneg (by linarith) hd.le : 0 ≤ (σ - u0) / (u1 - u0))
    have e3 := tri p q0 (q0 + ((σ - u0) / (u1 - u0)) • (q1 - q0))
    rw [add_sub_cancel_left] at e3
    linarith
  · have hab : a + 1 ≤ b := by
      have := hs.index_lt h0 hb (k0.trans_le hle)
      omega
    have e1 := hge (a + 1) b p1 q l1 t hab hp1 pb hl1 lb
    have hd : 0 < t1 - t0 := by linarith
    have c1 : (τ - t0) / (t1 - t0) ≤ 1 := (div_le_one hd).2 (by linarith)
    set c := (τ - t0) / (t1 - t0) with hc
    have e2 := part_norm hn (hge a (a + 1) p0 p1 l0 l1 (by omega) hp0 hp1 hl0 hl1)
      (by linarith : 0 ≤ 1 - c)
    have e3 := tri (p0 + c • (p1 - p0)) p1 q
    rw [show p1 - (p0 + c • (p1 - p0)) = (1 - c) • (p1 - p0) by ext <;> simp <;> ring] at e3
    linarith
  · have hab : a ≤ b := by
      have := hs.index_lt h0 g1 (k0.trans (hle.trans_lt n1))
      omega
    have hd : 0 < t1 - t0 := by linarith
    have hd' : 0 < u1 - u0 := by linarith
    have c1 : (τ - t0) / (t1 - t0) ≤ 1 := (div_le_one hd).2 (by linarith)
    have c0 : 0 ≤ (σ - u0) / (u1 - u0) := div_nonneg (by linarith) hd'.le
    rcases Nat.lt_or_eq_of_le hab with hlt | rfl
    · set c := (τ - t0) / (t1 - t0) with hc
      set d := (σ - u0) / (u1 - u0) with hd2
      have e1 := hge (a + 1) b p1 q0 l1 m0 hlt hp1 hq0 hl1 hm0
      have e2 := part_norm hn (hge a (a + 1) p0 p1 l0 l1 (by omega) hp0 hp1 hl0 hl1)
        (by linarith : 0 ≤ 1 - c)
      have e4 := part_norm hn (hge b (b + 1) q0 q1 m0 m1 (by omega) hq0 hq1 hm0 hm1) c0
      have e3 := tri (p0 + c • (p1 - p0)) p1 (q0 + d • (q1 - q0))
      have e5 := tri p1 q0 (q0 + d • (q1 - q0))
      rw [show p1 - (p0 + c • (p1 - p0)) = (1 - c) • (p1 - p0) by ext <;> simp <;> ring] at e3
      rw [add_sub_cancel_left] at e5
      linarith
    · rw [h0] at g0
      rw [h1] at g1
      rw [hp0] at hq0
      rw [hp1] at hq1
      rw [hl0] at hm0
      rw [hl1] at hm1
      cases g0
      cases g1
      cases hq0
      cases hq1
      cases hm0
      cases hm1
      have cd : (τ - t0) / (t1 - t0) ≤ (σ - t0) / (t1 - t0) := by
        rw [div_le_div_iff_of_pos_right hd]
        linarith
      set c := (τ - t0) / (t1 - t0) with hc
      set d := (σ - t0) / (t1 - t0) with hd2
      have e2 := part_norm hn (hge a (a + 1) p0 p1 l0 l1 (by omega) hp0 hp1 hl0 hl1)
        (by linarith : 0 ≤ d - c)
      rw [show p0 + d • (p1 - p0) - (p0 + c • (p1 - p0)) = (d - c) • (p1 - p0) by ext <;> simp <;> ring]
      linarith

/-- **C218**, interpolation onto any times: the points found between the samples keep the property. -/
theorem C218_interpolate (L : RotLib K R) {nrm : V3 K → K} (hn : IsNorm nrm) {T T' : Traj K R} (hT : Coherent T)
    (h : NoShortcut nrm T) (hne : T.tstamps ≠ []) (hs : StrictAsc T.tstamps) (ts : List K)
    (hts : ∃ t ∈ ts, ∃ a b, T.tstamps.head? = some a ∧ T.tstamps.getLast? = some b ∧ a ≤ t ∧ t ≤ b)
    (hret : Returns (Traj.interpolate L ts) T () T') : Coherent T' ∧ NoShortcut nrm T' := by
  have hT' : Coherent T' := by
    have := stepOk_interpolate (L := L) hT (Or.inr hts)
    unfold StepOk at this
    unfold Returns at hret
    rw [hret] at this
    simpa using this
  refine ⟨hT', ?_⟩
  rw [noShortcut_iff nrm hT] at h
  rw [noShortcut_iff nrm hT']
  have hge : ∀ (i j : Nat) (p q : V3 K) (s t : K), i ≤ j → T.pos[i]? = some p → T.pos[j]? = some q →
      T.arc[i]? = some s → T.arc[j]? = some t → nrm (q - p) ≤ t - s := by
    intro i j p q s t hij hp hq h1 h2
    rcases Nat.lt_or_eq_of_le hij with hlt | rfl
    · exact h i j p q s t hlt hp hq h1 h2
    · rw [hp] at hq
      rw [h1] at h2
      cases hq
      cases h2
      simp [hn.zero]
  have hP := (C06_interpolate_positions L T T' hT hne hs ts hret).2
  have hA := (C06_interpolate_arc_lengths L T T' hT hne hs ts hret).2
  have hmono : T'.tstamps.Pairwise (· ≤ ·) := by
    obtain ⟨f, hf⟩ : ∃ f, T.tstamps.head? = some f := ⟨_, List.head?_eq_some_head hne⟩
    obtain ⟨l, hl⟩ : ∃ l, T.tstamps.getLast? = some l := ⟨_, List.getLast?_eq_some_getLast hne⟩
    exact (C05_interpolate_timestamps L T T' hT ts f l hf hl hret).1
  intro i j p q s t hij hp hq hl hm
  have hlen : ∀ {k : Nat} {v : V3 K}, T'.pos[k]? = some v → ∃ τ, T'.tstamps[k]? = some τ := by
    intro k v hv
    obtain ⟨hk, -⟩ := List.getElem?_eq_some_iff.1 hv
    exact ⟨_, List.getElem?_eq_getElem (hT'.pos ▸ hk)⟩
  obtain ⟨τ, hτ⟩ := hlen hp
  obtain ⟨σ, hσ⟩ := hlen hq
  have hle : τ ≤ σ := by
    obtain ⟨a, rfl⟩ := List.getElem?_eq_some_iff.1 hτ
    obtain ⟨b, rfl⟩ := List.getElem?_eq_some_iff.1 hσ
    exact sorted_getElem_le hmono b hij.le
  exact polygon_distance hn hs hge hle (hP i τ p hτ hp) (hA i τ s hτ hl) (hP j σ q hσ hq) (hA j σ t hσ hm)

/-- **C218**, rigid motion: a turn and a shift change neither distances nor arc lengths. -/
theorem C218_rigid (L : RotLib K R) {nrm : V3 K → K} (hn : IsNorm nrm) {T T' : Traj K R} (hT : Coherent T)
    (h : NoShortcut nrm T) (hne : T.tstamps ≠ []) (A : M4 K) (hA : IsRot (poseRot A))
    (hret : Returns (Traj.applyTransformation L A) T () T') : Coherent T' ∧ NoShortcut nrm T' := by
  have hT' : Coherent T' := by
    have := stepOk_transform (L := L) (A := A) hT
    unfold StepOk at this
    unfold Returns at hret
    rw [hret] at this
    simpa using this
  refine ⟨hT', ?_⟩
  have e := congrArg Prod.snd (hret.symm.trans (applyTransformation_eq L hT hne A))
  rw [noShortcut_iff nrm hT] at h
  rw [noShortcut_iff nrm hT']
  intro i j p q s t hij hp hq hs ht
  simp only at e
  subst e
  simp only [List.getElem?_map] at hp hq hs ht
  obtain ⟨a, ha, rfl⟩ := Option.map_eq_some_iff.1 hp
  obtain ⟨b, hb, rfl⟩ := Option.map_eq_some_iff.1 hq
  have := h i j a b s t hij ha hb hs ht
  rwa [add_sub_add_right_eq_sub, show mulV (poseRot A) b - mulV (poseRot A) a = mulV (poseRot A) (b - a) by
    ext <;> simp [mulV] <;> ring, hn.mulV hA]

/-- One of the operations above, on a trajectory with samples. -/
inductive PathStep (L : RotLib K R) : Traj K R → Traj K R → Prop
  | crop {T T' : Traj K R} (a b : K) (hne : T.tstamps ≠ []) (h : Returns (Traj.crop a b false) T () T') : PathStep L T T'
  | intersect {T T' : Traj K R} (ts : List K) (g : K) (hne : T.tstamps ≠ []) (hts : ts ≠ [])
      (h : Returns (Traj.intersect ts g) T () T') : PathStep L T T'
  | interpolate {T T' : Traj K R} (ts : List K) (hne : T.tstamps ≠ []) (hs : StrictAsc T.tstamps)
      (hts : ∃ t ∈ ts, ∃ a b, T.tstamps.head? = some a ∧ T.tstamps.getLast? = some b ∧ a ≤ t ∧ t ≤ b)
      (h : Returns (Traj.interpolate L ts) T () T') : PathStep L T T'
  | move {T T' : Traj K R} (A : M4 K) (hne : T.tstamps ≠ []) (hA : IsRot (poseRot A))
      (h : Returns (Traj.applyTransformation L A) T () T') : PathStep L T T'

/-- **C218**, any sequence of these operations, in any order and of any length, on a trajectory constructed without
arc lengths. Missing: transformations that enlarge, for which it fails (`C218_not_enlarged`). -/
theorem C218_any_sequence_partial (L : RotLib K R) {nrm : V3 K → K} (hn : IsNorm nrm) (counter : Nat) (a : TrajArgs K R)
    (hrot : ∀ r, a.rot = some r → r.length = a.pos.length) (hne : a.pos ≠ [])
    (hts : ∀ t, a.tstamps = some t → t.length = a.pos.length) (harc : a.arc = none) {T T' : Traj K R}
    (hnew : Traj.new nrm counter a = .ok T) (hsteps : Relation.ReflTransGen (PathStep L) T T') :
    Coherent T' ∧ NoShortcut nrm T' := by
  obtain ⟨T1, h1, h2, -, h3⟩ := C218_constructed hn counter a hrot hne hts harc
  have e : T = T1 := by
    rw [hnew] at h1
    exact Except.ok.inj h1
  subst e
  clear hnew h1
  induction hsteps with
  | refl => exact ⟨h2, h3⟩
  | tail _ hstep ih =>
    cases hstep with
    | crop a b hne h => exact C218_crop ih.1 ih.2 hne a b h
    | intersect ts g hne hts h => exact C218_intersect ih.1 ih.2 hne ts hts g h
    | interpolate ts hne hs hts h => exact C218_interpolate L hn ih.1 ih.2 hne hs ts hts h
    | move A hne hA h => exact C218_rigid L hn ih.1 ih.2 hne A hA h

/-- **C218 fails** after enlarging: if a trajectory with its own arc lengths moves at all and is enlarged by a factor
above one, there are two samples farther apart than their arc lengths say. -/
theorem C218_not_enlarged (L : RotLib K R) {nrm : V3 K → K} (hn : IsNorm nrm) {T : Traj K R} (hT : Coherent T)
    (hne : T.tstamps ≠ []) (harc : T.arc = lengthsFromXyz nrm T.pos) {i : Nat} {p q : V3 K} (hp : T.pos[i]? = some p)
    (hq : T.pos[i + 1]? = some q) (hpq : p ≠ q) {c : K} (hc : 1 < c) (A : M4 K) (hA : ∀ v, mulV (poseRot A) v = c • v) :
    ∃ T', Returns (Traj.applyTransformation L A) T () T' ∧ Coherent T' ∧ ¬ NoShortcut nrm T' := by
  have hT' := stepOk_transform (L := L) (A := A) hT
  have e := applyTransformation_eq L hT hne A
  refine ⟨_, e, ?_, ?_⟩
  · unfold StepOk at hT'
    rw [e] at hT'
    simpa using hT'
  have hc' : Coherent (Traj.applyTransformation L A T).2 := by
    unfold StepOk at hT'
    rw [e] at hT' ⊢
    simpa using hT'
  rw [e] at hc'
  simp only at hc'
  rw [noShortcut_iff nrm hc']
  intro h
  have hP : T.pos ≠ [] := by
    intro h0
    rw [h0] at hp
    simp at hp
  have hI := C13_arc_lengths_are_travelled_distance nrm T.pos hP
  rw [← harc] at hI
  have hl : ∀ (k : Nat) v, T.pos[k]? = some v → ∃ s, T.arc[k]? = some s := by
    intro k v hv
    obtain ⟨hk, -⟩ := List.getElem?_eq_some_iff.1 hv
    exact ⟨_, List.getElem?_eq_getElem (by rw [hT.arc, ← hT.pos]; exact hk)⟩
  obtain ⟨s, hs⟩ := hl i p hp
  obtain ⟨t, ht⟩ := hl (i + 1) q hq
  have h1 := hI.step i p q s t hp hq hs ht
  have h2 := h i (i + 1) (mulV (poseRot A) p + posePos A) (mulV (poseRot A) q + posePos A) s t (by omega)
    (by simp [hp]) (by simp [hq]) hs ht
  rw [add_sub_add_right_eq_sub, hA, hA, ← smul_sub, hn.smul, abs_of_pos (by linarith)] at h2
  have h3 : 0 < nrm (q - p) := by
    refine lt_of_le_of_ne (hn.nonneg _) (fun h0 => hpq ?_)
    exact (sub_eq_zero.1 (hn.eq_zero h0.symm)).symm
  nlinarith

/-! ### The hypotheses are met -/

/-- three samples of a bent path, given without arc lengths -/
def exTwoLegs : TrajArgs ℝ ℝ :=
  { pos := [⟨0, 0, 0⟩, ⟨3, 0, 0⟩, ⟨3, 4, 0⟩], epsg := 0, rot := none, tstamps := some [0, 1, 2] }

/-- constructing it, and cropping the result to its last two samples -/
example (L : RotLib ℝ ℝ) : ∃ T T' : Traj ℝ ℝ, Traj.new realNorm 0 exTwoLegs = .ok T ∧ PathStep L T T' ∧ NoShortcut realNorm T' ∧
    T'.tstamps = [1, 2] := by
  obtain ⟨T, h1, h2, h3, h4, h5, -⟩ := new_eq realNorm 0 exTwoLegs (by rintro r ⟨⟩) (by simp [exTwoLegs])
    (by rintro t ⟨⟩; rfl)
  have h5' : T.tstamps = [0, 1, 2] := by simpa [exTwoLegs] using h5
  obtain ⟨T', g1, g2, -, g3⟩ := C03_crop_keeps_exactly_the_window T h2 1 2 (Or.inl h4)
  have st : PathStep L T T' := .crop 1 2 (by simp [h5']) g1
  refine ⟨T, T', h1, st, (C218_any_sequence_partial L realNorm_isNorm 0 exTwoLegs (by rintro r ⟨⟩) (by simp [exTwoLegs])
    (by rintro t ⟨⟩; rfl) rfl h1 (.single st)).2, ?_⟩
  rw [← samples_map_t g2, g3]
  have : ((samples T).filter (fun s => decide (1 ≤ s.t ∧ s.t ≤ 2))).map Sample.t =
      ((samples T).map Sample.t).filter (fun t => decide (1 ≤ t ∧ t ≤ 2)) := by
    rw [List.filter_map]; rfl
  rw [this, samples_map_t h2, h5']
  norm_num [List.filter]

end TC
