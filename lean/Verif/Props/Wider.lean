import Verif.Props.MatchTraj
import Verif.Props.MatchLine
/-!
# C201: matching with a wider limit
-/
namespace TC
open H
set_option linter.unusedSectionVars false
variable {K R P : Type} [Field K] [LinearOrder K] [IsStrictOrderedRing K]

/-- the limit `m'` admits every pair that `m` admits; the limit 0 means no limit -/
def WiderLimit (m m' : K) : Prop := m' = 0 ∨ (m ≠ 0 ∧ m ≤ m')

/-- no sample of `T` is equally near to two samples of `U` -/
def ClearlyNearest (dist : P → P → K) (g : Sample K R → P) (T U : Traj K R) : Prop :=
  ∀ a ∈ samples T, ∀ b ∈ samples U, ∀ b' ∈ samples U, Nearest dist ((samples U).map g) (g a) (g b) →
    Nearest dist ((samples U).map g) (g a) (g b') → b = b'

theorem WiderLimit.within {dist : P → P → K} {m m' : K} (h : WiderLimit m m') {p q : P} (hw : Within dist m p q) :
    Within dist m' p q := by
  rcases h with h | ⟨h0, h⟩
  · exact .inl h
  · rcases hw with hw | hw
    · exact absurd hw h0
    · exact .inr (lt_of_lt_of_le hw h)

/-- sublists of the same list without repetition, one a part of the other -/
theorem sublist_of_subset {α : Type} : ∀ {l a b : List α}, l.Nodup → a.Sublist l → b.Sublist l → (∀ x ∈ a, x ∈ b) → a.Sublist b := by
  intro l
  induction l with
  | nil => intro a b _ ha _ _; rw [List.eq_nil_of_sublist_nil ha]; exact List.nil_sublist _
  | cons x l ih =>
    intro a b hn ha hb hab
    obtain ⟨hx, hn⟩ := List.nodup_cons.1 hn
    cases ha with
    | cons _ ha =>
      cases hb with
      | cons _ hb => exact ih hn ha hb hab
      | cons_cons _ hb =>
        refine (ih hn ha hb (fun y hy => ?_)).trans (List.sublist_cons_self _ _)
        rcases List.mem_cons.1 (hab y hy) with rfl | h
        · exact absurd (ha.subset hy) hx
        · exact h
    | cons_cons _ ha =>
      rename_i a
      cases hb with
      | cons _ hb => exact absurd (hb.subset (hab x (by simp))) hx
      | cons_cons _ hb =>
        refine (ih hn ha hb (fun y hy => ?_)).cons_cons _
        rcases List.mem_cons.1 (hab y (by simp [hy])) with rfl | h
        · exact absurd (ha.subset hy) hx
        · exact h

/-- what the two promises give -/
theorem wider_of_promises {dist : P → P → K} {g : Sample K R → P} {T U : Traj K R} {m m' : K} (hw : WiderLimit m m')
    (hc : ClearlyNearest dist g T U) (hn : (samples U).Nodup) {h : Heap K R} {f t : Nat} {inplace : Bool}
    {call call' : SE (Heap K R) (Nat × Nat)} (p : MatchPromise dist m g T U f t h inplace call)
    (p' : MatchPromise dist m' g T U f t h inplace call') {f1 t1 : Nat} {h1 : Heap K R} (hr : Returns call h (f1, t1) h1) :
    ∃ T1 U1 f2 t2 h2 T2 U2, h1[f1]? = some T1 ∧ h1[t1]? = some U1 ∧ Returns call' h (f2, t2) h2 ∧
      h2[f2]? = some T2 ∧ h2[t2]? = some U2 ∧ (samples U1).Sublist (samples U2) ∧
      (samples T1).length ≤ (samples T2).length := by
  classical
  have hex : ∃ a ∈ samples T, ∃ b ∈ samples U, Within dist m (g a) (g b) := by
    by_contra hno
    push Not at hno
    obtain ⟨h', e, -⟩ := p.2 hno
    unfold Returns at hr
    unfold Raises at e
    rw [e] at hr
    cases hr
  obtain ⟨f', t', h', T1, U1, e, g1, g2, k, -⟩ := p.1 hex
  unfold Returns at hr
  rw [Returns] at e
  rw [hr] at e
  cases e
  obtain ⟨a, ha, b, hb, hab⟩ := hex
  obtain ⟨f2, t2, h2, T2, U2, e', g3, g4, k', -⟩ := p'.1 ⟨a, ha, b, hb, hw.within hab⟩
  have hsub : (samples U1).Sublist (samples U2) := by
    refine sublist_of_subset hn k.ref k'.ref (fun y hy => ?_)
    obtain ⟨i, hi, rfl⟩ := List.getElem_of_mem hy
    have hi' : i < (samples T1).length := by rw [k.length]; exact hi
    obtain ⟨n1, n2⟩ := k.pairs i _ _ (List.getElem?_eq_getElem hi') (List.getElem?_eq_getElem hi)
    have ha : (samples T1)[i] ∈ samples T := k.test.subset (List.getElem_mem hi')
    have hb : (samples U1)[i] ∈ samples U := k.ref.subset hy
    obtain ⟨b', hb', hn'⟩ := k'.complete _ ha ⟨_, hb, hw.within n2⟩
    rwa [hc _ ha _ hb b' (k'.ref.subset hb') n1 hn']
  refine ⟨T1, U1, f2, t2, h2, T2, U2, g1, g2, e', g3, g4, hsub, ?_⟩
  rw [k.length, k'.length]
  exact hsub.length_le

/-- **C201**, what holds, in time: if no test sample lies midway between two reference samples, a wider limit loses no
matched reference sample, and no pair in number.  Missing: the pairs themselves, see `C201_exact_pair_replaced`. -/
theorem C201_wider_in_time_partial (lib : MatchLib K R) (hq : IsNearestQuery (fun a b => |a - b|) lib.queryT) (counter : Nat)
    (s s' : MatchingSettings K) (hs : s.method = .nearestTemporal) (hs' : s'.method = .nearestTemporal)
    (hm : 0 ≤ s.maxTimeDiff) (hm' : 0 ≤ s'.maxTimeDiff) (hw : WiderLimit s.maxTimeDiff s'.maxTimeDiff) {T U : Traj K R}
    (hT : Coherent T) (hU : Coherent U) (hne : T.tstamps ≠ []) (hc : ClearlyNearest (fun a b => |a - b|) Sample.t T U)
    (hn : (samples U).Nodup) {h : Heap K R} {f t : Nat} (hf : h[f]? = some T) (ht : h[t]? = some U) (inplace : Bool)
    (hft : inplace = true → f ≠ t) {f1 t1 : Nat} {h1 : Heap K R}
    (hr : Returns (matchTrajectories lib counter f t s inplace) h (f1, t1) h1) :
    ∃ T1 U1 f2 t2 h2 T2 U2, h1[f1]? = some T1 ∧ h1[t1]? = some U1 ∧
      Returns (matchTrajectories lib counter f t s' inplace) h (f2, t2) h2 ∧
      h2[f2]? = some T2 ∧ h2[t2]? = some U2 ∧ (samples U1).Sublist (samples U2) ∧
      (samples T1).length ≤ (samples T2).length :=
  wider_of_promises hw hc hn (C38_temporal_matching lib hq counter s hs hm hT hU hne hf ht inplace hft)
    (C38_temporal_matching lib hq counter s' hs' hm' hT hU hne hf ht inplace hft) hr

/-- **C201**, what holds, in space. -/
theorem C201_wider_in_space_partial (lib : MatchLib K R) (hq : IsNearestQuery (fun a b => lib.nrm (a - b)) lib.queryP)
    (counter : Nat) (s s' : MatchingSettings K) (hs : s.method = .nearestSpatial) (hs' : s'.method = .nearestSpatial)
    (hm : 0 ≤ s.maxDistance) (hm' : 0 ≤ s'.maxDistance) (hw : WiderLimit s.maxDistance s'.maxDistance) {T U : Traj K R}
    (hT : Coherent T) (hU : Coherent U) (hne : T.tstamps ≠ []) (hc : ClearlyNearest (fun a b => lib.nrm (a - b)) Sample.p T U)
    (hn : (samples U).Nodup) {h : Heap K R} {f t : Nat} (hf : h[f]? = some T) (ht : h[t]? = some U) (inplace : Bool)
    (hft : inplace = true → f ≠ t) {f1 t1 : Nat} {h1 : Heap K R}
    (hr : Returns (matchTrajectories lib counter f t s inplace) h (f1, t1) h1) :
    ∃ T1 U1 f2 t2 h2 T2 U2, h1[f1]? = some T1 ∧ h1[t1]? = some U1 ∧
      Returns (matchTrajectories lib counter f t s' inplace) h (f2, t2) h2 ∧
      h2[f2]? = some T2 ∧ h2[t2]? = some U2 ∧ (samples U1).Sublist (samples U2) ∧
      (samples T1).length ≤ (samples T2).length :=
  wider_of_promises hw hc hn (C39_spatial_matching lib hq counter s hs hm hT hU hne hf ht inplace hft)
    (C39_spatial_matching lib hq counter s' hs' hm' hT hU hne hf ht inplace hft) hr

/-- one reference time, both test times in reach: the first one is taken -/
theorem kdMatcher_first {query : KdQuery K K} (hq : IsNearestQuery (fun a b => |a - b|) query) {x y z m : K} (hm : 0 < m)
    (hy : |y - x| < m) : kdMatcher query [x] [y, z] m = .ok ([0], [0]) := by
  have h0 : (closestOf query [x] [y, z] m)[0]? = some (some 0) := by
    obtain ⟨r, hr⟩ := closestOf_exists hq hm.le (ref := [x]) (test := [y, z]) (t := 0) (p := y) rfl (List.mem_singleton.2 rfl) (Or.inr hy)
    obtain ⟨_, q, -, h2, -⟩ := closestOf_found hq hm.le hr
    have h3 := (List.getElem?_eq_some_iff.1 h2).1
    rw [List.length_singleton, Nat.lt_one_iff] at h3
    rw [h3] at hr
    exact hr
  obtain ⟨refs, tests, h, h0', h1, h2, h3, h4⟩ := kdMatcher_some query [x] [y, z] m (by simp) ⟨0, 0, h0⟩
  rw [h]
  have hall : ∀ r ∈ refs, r = 0 := by
    intro r hr
    obtain ⟨t, ht⟩ := (h3 r).1 hr
    obtain ⟨_, q, -, hq', -⟩ := closestOf_found hq hm.le ht
    have := (List.getElem?_eq_some_iff.1 hq').1
    simpa using this
  match refs, tests, h0', h1, h2, hall, h4 with
  | [a], [b], _, _, _, hall, h4 =>
    obtain rfl := hall a (by simp)
    have := (h4 0 0 b rfl rfl).2
    have hb : b = 0 := by
      by_contra hb
      exact this 0 (by omega) h0
    rw [hb]
  | a :: b :: l, _, _, _, h2, hall, _ =>
    have h5 := (List.pairwise_cons.1 h2).1 b (by simp)
    have h6 := hall b (by simp)
    have h7 := hall a (by simp)
    omega

/-- **C201 is false of the code** for the pairs: whatever the search tree, if a reference sample has a test sample of
exactly its time and another test sample `e` before it, a limit up to `e` pairs it with the former, any wider limit
with the latter. -/
theorem C201_exact_pair_replaced (lib : MatchLib K R) (hq : IsNearestQuery (fun a b => |a - b|) lib.queryT) (counter : Nat)
    (s s' : MatchingSettings K) (hs : s.method = .nearestTemporal) (hs' : s'.method = .nearestTemporal) {x e : K}
    (hm : 0 < s.maxTimeDiff) (hme : s.maxTimeDiff ≤ e) (hm' : e < s'.maxTimeDiff) {T U : Traj K R} (hT : Coherent T) (hU : Coherent U)
    (hTt : T.tstamps = [x - e, x]) (hUt : U.tstamps = [x]) {h : Heap K R} {f t : Nat} (hf : h[f]? = some T)
    (ht : h[t]? = some U) (hft : f ≠ t) :
    (∃ h1 T1 U1, Returns (matchTrajectories lib counter f t s true) h (f, t) h1 ∧ h1[f]? = some T1 ∧ h1[t]? = some U1 ∧
      T1.tstamps = [x] ∧ U1.tstamps = [x]) ∧
    ∃ h2 T2 U2, Returns (matchTrajectories lib counter f t s' true) h (f, t) h2 ∧ h2[f]? = some T2 ∧ h2[t]? = some U2 ∧
      T2.tstamps = [x - e] ∧ U2.tstamps = [x] := by
  have he : 0 < e := lt_of_lt_of_le hm hme
  have mT := samples_map_t hT
  have mU := samples_map_t hU
  have lf := (List.getElem?_eq_some_iff.1 hf).1
  have lt := (List.getElem?_eq_some_iff.1 ht).1
  constructor
  · rw [hTt] at mT
    rw [hUt] at mU
    obtain ⟨b, hb, hbx⟩ : ∃ b, samples U = [b] ∧ b.t = x := by
      rcases hU' : samples U with _ | ⟨b, _ | ⟨c, l⟩⟩ <;> rw [hU'] at mU <;> simp at mU
      exact ⟨b, rfl, mU⟩
    obtain ⟨a1, a2, ha, ha1, ha2⟩ : ∃ a1 a2, samples T = [a1, a2] ∧ a1.t = x - e ∧ a2.t = x := by
      rcases hT' : samples T with _ | ⟨b, _ | ⟨c, _ | ⟨d, l⟩⟩⟩ <;> rw [hT'] at mT <;> simp at mT
      exact ⟨b, c, rfl, mT.1, mT.2⟩
    obtain ⟨f', t', h', T1, U1, r, g1, g2, k, hin, -⟩ := (C38_temporal_matching lib hq counter s hs hm.le hT hU
      (by rw [hTt]; simp) hf ht true (fun _ => hft)).1 ⟨a2, by simp [ha], b, by simp [hb], .inr (by simp [ha2, hbx, hm])⟩
    obtain ⟨rfl, rfl⟩ := hin rfl
    have hU1 : samples U1 = [b] := by
      have h1 := k.ref
      rw [hb] at h1
      rcases List.sublist_cons_iff.1 h1 with h1 | ⟨r, h1, h2⟩
      · have := k.length
        rw [List.eq_nil_of_sublist_nil h1] at this
        exact absurd (List.length_eq_zero_iff.1 this) k.nonempty
      · rw [h1, List.eq_nil_of_sublist_nil h2]
    have hl : (samples T1).length = 1 := by rw [k.length, hU1]; rfl
    obtain ⟨a, hT1⟩ := List.length_eq_one_iff.1 hl
    have hp := (k.pairs 0 a b (by rw [hT1]; rfl) (by rw [hU1]; rfl)).2
    have hax : a.t = x := by
      have hmem : a ∈ samples T := k.test.subset (by rw [hT1]; simp)
      rw [ha] at hmem
      rcases List.mem_cons.1 hmem with rfl | hmem
      · exfalso
        rcases hp with hp | hp
        · exact hm.ne' hp
        · rw [ha1, hbx] at hp
          have : |x - e - x| = e := by rw [show x - e - x = -e by ring, abs_neg, abs_of_pos he]
          simp only [this] at hp
          exact absurd hp (not_lt.2 hme)
      · rw [List.mem_singleton.1 hmem]; exact ha2
    refine ⟨h', T1, U1, r, g1, g2, ?_, ?_⟩
    · rw [← samples_map_t k.testCoherent, hT1]; simp [hax]
    · rw [← samples_map_t k.refCoherent, hU1]; simp [hbx]
  · have hk := kdMatcher_first hq (x := x) (y := x - e) (z := x) (m := s'.maxTimeDiff) (lt_trans he hm')
      (by rw [show x - e - x = -e by ring, abs_neg, abs_of_pos he]; exact hm')
    have hr : InRange U.tstamps.length [0] := by rw [hUt]; intro i hi; simp at hi ⊢; omega
    have hts : InRange T.tstamps.length [0] := by rw [hTt]; intro i hi; simp at hi ⊢; omega
    refine ⟨(h.set f (pickTraj (.ints [0]) T)).set t (pickTraj (.ints [0]) U), pickTraj (.ints [0]) T, pickTraj (.ints [0]) U, ?_, ?_, ?_, ?_, ?_⟩
    rotate_left
    · rw [List.getElem?_set_ne (Ne.symm hft)]; exact List.getElem?_set_self lf
    · exact List.getElem?_set_self (by simpa using lt)
    · show pick (.ints [0]) T.tstamps = _
      have := pick_ints_nat hts
      simp only [List.map_cons, List.map_nil] at this
      rw [show (Index.ints [0]) = Index.ints [((0 : Nat) : Int)] from rfl, this, hTt]
      rfl
    · show pick (.ints [0]) U.tstamps = _
      have := pick_ints_nat hr
      simp only [List.map_cons, List.map_nil] at this
      rw [show (Index.ints [0]) = Index.ints [((0 : Nat) : Int)] from rfl, this, hUt]
      rfl
    · unfold Returns
      have : matchTrajectories lib counter f t s' true h = matchTemporal lib f t s'.maxTimeDiff h := by
        unfold matchTrajectories
        rw [hs']
        rfl
      rw [this]
      show (rd t >>= fun o => rd f >>= fun p =>
        SE.lift (kdMatcher lib.queryT o.tstamps p.tstamps s'.maxTimeDiff) >>= fun mt => applyMatch f t mt) h = _
      rw [SE.run_bind_ok (rd_run ht), SE.run_bind_ok (rd_run hf), hTt, hUt, hk, SE.run_bind_ok (SE.run_lift _ h)]
      exact applyMatch_eq hT hU hf ht hft hr hts (by simp) rfl

/-! ### The hypotheses are met -/

/-- half a second is wider than a quarter, and no limit is wider than any -/
example : WiderLimit (1 / 4 : ℚ) (1 / 2) ∧ WiderLimit (1 / 4 : ℚ) 0 ∧ ¬ WiderLimit (0 : ℚ) 1 := by
  refine ⟨.inr (by norm_num), .inl rfl, ?_⟩
  rintro (h | h)
  · norm_num at h
  · exact h.1 rfl

/-- three reference samples a second apart, test samples a little off -/
def exOffTimes : Traj ℚ Nat := { exRefLine with tstamps := [1 / 8, 5 / 8, 15 / 8], name := "test" }

example : ClearlyNearest (fun a b => |a - b|) Sample.t exOffTimes exRefLine := by
  have hs : samples exRefLine = [⟨0, ⟨0, 0, 0⟩, none, 0, 0⟩, ⟨1, ⟨1, 0, 0⟩, none, 1, 0⟩, ⟨2, ⟨2, 0, 0⟩, none, 2, 0⟩] := rfl
  have ht : ∀ a ∈ samples exOffTimes, a.t = 1 / 8 ∨ a.t = 5 / 8 ∨ a.t = 15 / 8 := by
    intro a ha
    have : a.t ∈ (samples exOffTimes).map Sample.t := List.mem_map_of_mem ha
    simpa [exOffTimes, exRefLine, samples, rotColumn] using this
  intro a ha b hb b' hb' ⟨_, h1⟩ ⟨_, h2⟩
  rw [hs] at hb hb' h1 h2
  simp only [List.mem_cons, List.not_mem_nil, or_false] at hb hb'
  have e1 := h1 b'.t (by rcases hb' with rfl | rfl | rfl <;> simp)
  have e2 := h2 b.t (by rcases hb with rfl | rfl | rfl <;> simp)
  simp only at e1 e2
  rcases ht a ha with h | h | h <;> rw [h] at e1 e2 <;> rcases hb with rfl | rfl | rfl <;>
    rcases hb' with rfl | rfl | rfl <;> first | rfl | (exfalso; revert e1 e2; norm_num [abs_of_pos, abs_of_neg])

/-- a quarter of a second finds two pairs, half a second all three -/
example : ((matchTrajectories exMatchLib 0 0 1 ⟨.nearestTemporal, 1 / 4, 0, 0⟩ true [exOffTimes, exRefLine]).2.map Traj.tstamps =
      [[1 / 8, 15 / 8], [0, 2]]) ∧
    ((matchTrajectories exMatchLib 0 0 1 ⟨.nearestTemporal, 1 / 2, 0, 0⟩ true [exOffTimes, exRefLine]).2.map Traj.tstamps =
      [[1 / 8, 5 / 8, 15 / 8], [0, 1, 2]]) := by
  decide +kernel

end TC
