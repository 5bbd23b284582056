import Verif.Props.MatchRest
import Verif.Props.MatchInterp
import Verif.Props.Construct
import Verif.Props.Utils
/-!
# C42: spatial matching with line interpolation
-/
namespace TC
set_option linter.unusedSectionVars false
open H
variable {K R P : Type} [Field K] [LinearOrder K]

theorem countP_eq_indices (ref : List P) (w : P → Bool) :
    ref.countP w = ((List.range ref.length).filter (fun j => (ref[j]?).any w)).length := by
  rw [← List.countP_eq_length_filter]
  have : ref.map some = (List.range ref.length).map (fun j => ref[j]?) := by
    apply List.ext_getElem
    · simp
    · intro i h1 h2
      simp at h1
      simp [h1]
  have h2 := congrArg (List.countP (fun o : Option P => o.any w)) this
  rw [List.countP_map, List.countP_map] at h2
  exact h2

open Classical in
/-- all `k` neighbours are found exactly if `k` points are in reach -/
theorem IsKNearest.full_iff {dist : P → P → K} {ref : List P} {m : K} {k : Nat} {p : P}
    {c : List (Option Nat)}
    (h : IsKNearest dist ref (if m = 0 then none else some m) k p c) :
    none ∉ c ↔ k ≤ ref.countP (fun q => decide (Within dist m p q)) := by
  have hw : ∀ q, (∀ m', (if m = 0 then none else some m) = some m' → dist p q < m') ↔
      Within dist m p q := by
    intro q
    unfold Within
    by_cases h0 : m = 0
    · simp [h0]
    · simp [h0]
  rw [countP_eq_indices]
  have hmem : ∀ j, j ∈ (List.range ref.length).filter
      (fun j => (ref[j]?).any (fun q => decide (Within dist m p q))) ↔
      ∃ q, ref[j]? = some q ∧ Within dist m p q := by
    intro j
    rw [List.mem_filter, List.mem_range, Option.any_eq_true]
    constructor
    · rintro ⟨-, q, h1, h2⟩
      exact ⟨q, h1, by simpa using h2⟩
    · rintro ⟨q, h1, h2⟩
      exact ⟨(List.getElem?_eq_some_iff.1 h1).1, q, h1, by simpa using h2⟩
  have hnd : ((List.range ref.length).filter
      (fun j => (ref[j]?).any (fun q => decide (Within dist m p q)))).Nodup :=
    List.nodup_range.filter _
  have hsub : c.filterMap id ⊆ (List.range ref.length).filter
      (fun j => (ref[j]?).any (fun q => decide (Within dist m p q))) := by
    intro r hr
    obtain ⟨o, ho, ho'⟩ := List.mem_filterMap.1 hr
    simp only [id] at ho'
    subst ho'
    obtain ⟨q, h1, h2⟩ := h.found r ho
    exact (hmem r).2 ⟨q, h1, (hw q).1 h2⟩
  have hlen := h.length
  constructor
  · intro hn
    have : (c.filterMap id).length = c.length := by
      rw [List.filterMap_length_eq_length]
      intro o ho
      cases o with
      | none => exact absurd ho hn
      | some r => rfl
    have h2 := (List.subperm_of_subset h.nodup hsub).length_le
    omega
  · intro hk hn
    have hsub' : (List.range ref.length).filter
        (fun j => (ref[j]?).any (fun q => decide (Within dist m p q))) ⊆ c.filterMap id := by
      intro j hj
      obtain ⟨q, h1, h2⟩ := (hmem j).1 hj
      exact List.mem_filterMap.2 ⟨some j, h.missing hn j q h1 ((hw q).2 h2), rfl⟩
    have h2 := (List.subperm_of_subset hnd hsub').length_le
    have h3 : (c.filterMap id).length ≠ c.length := by
      rw [Ne, List.filterMap_length_eq_length]
      intro hall
      have := hall none hn
      simp at this
    have h4 := List.length_filterMap_le (id : Option Nat → Option Nat) c
    omega

/-- `linePairs` in closed form -/
theorem linePairs_eq (dir : List (V3 K) → V3 K) (ref : List (V3 K)) (ps : List (V3 K))
    (cs : List (List (Option Nat))) (hc : ∀ c ∈ cs, InRange ref.length (c.filterMap id)) :
    linePairs dir ref ps cs = .ok (((ps.zip cs).filter (fun x => !x.2.any (fun o => o.isNone))).map
      (fun x => (x.1, (Line3D.fromPoints dir (sel ref (x.2.filterMap id))).evaluateAt x.1))) := by
  induction ps generalizing cs with
  | nil => simp [linePairs]
  | cons p ps ih =>
    cases cs with
    | nil => simp [linePairs]
    | cons c cs =>
      have ih' := ih cs (fun c hc' => hc c (List.mem_cons_of_mem _ hc'))
      rw [linePairs, List.zip_cons_cons, List.filter_cons]
      split_ifs with h1 h2
      · simp [h1] at h2
      · exact ih'
      · rw [take_eq (hc c (by simp)), ih']
        rfl
      · simp [h1] at *

variable [IsStrictOrderedRing K]

/-- the reference position paired with `p`: the foot of `p` on the line through the mean of the `k`
nearest reference positions -/
def FootOnFittedLine (lib : MatchLib K R) (ref : List (V3 K)) (m : K) (k : Nat) (p q : V3 K) : Prop :=
  ∃ idx : List Nat, idx.length = k ∧ idx.Nodup ∧
    (∀ r ∈ idx, ∃ a, ref[r]? = some a ∧ Within (fun a b => lib.nrm (a - b)) m p a ∧
      ∀ (j : Nat) b, j ∉ idx → ref[j]? = some b → lib.nrm (p - a) ≤ lib.nrm (p - b)) ∧
    let nb := sel ref idx
    (∃ s : K, q = meanPoint nb + s • lib.lineDir nb) ∧
    ∀ s : K, (p - q).normSq ≤ (p - (meanPoint nb + s • lib.lineDir nb)).normSq

open Classical in
/-- **C42.** For `k ≥ 2`: the call returns exactly if some test position has `k` reference positions
within the limit.  Then it returns two new trajectories; the test positions are exactly those with
`k` reference positions within the limit, in order, each paired with its foot on the line fitted
to its `k` nearest reference positions. -/
theorem C42_line_interpolated_matching (lib : MatchLib K R)
    (hq : IsKNearestQuery (fun a b => lib.nrm (a - b)) lib.queryPK)
    (hdir : ∀ nb, (lib.lineDir nb).normSq = 1) (counter : Nat) (s : MatchingSettings K)
    (hs : s.method = .nearestSpatialInterpolated) (hm : 0 ≤ s.maxDistance) (hk : 2 ≤ s.kNearest)
    {T U : Traj K R} {h : Heap K R} {f t : Nat} (hf : h[f]? = some T) (ht : h[t]? = some U)
    (inplace : Bool) (hft : inplace = true → f ≠ t) :
    let used := T.pos.filter (fun p => decide (s.kNearest ≤ U.pos.countP
      (fun q => decide (Within (fun a b => lib.nrm (a - b)) s.maxDistance p q))))
    (used ≠ [] → ∃ f' t' h' A B, Returns (matchTrajectories lib counter f t s inplace) h (f', t') h' ∧
      h'[f']? = some A ∧ h'[t']? = some B ∧ h.length ≤ f' ∧ h.length ≤ t' ∧ h'.take h.length = h ∧
      Coherent A ∧ Coherent B ∧ A.rot = none ∧ B.rot = none ∧
      A.pos = used ∧ B.pos.length = used.length ∧
      ∀ (i : Nat) p q, A.pos[i]? = some p → B.pos[i]? = some q →
        FootOnFittedLine lib U.pos s.maxDistance s.kNearest p q) ∧
    (used = [] → ∃ e h', Raises (matchTrajectories lib counter f t s inplace) h e h' ∧
      h'.take h.length = h ∧ (e = .valueError ∨ e = .indexError)) := by
  intro used
  obtain ⟨f1, t1, h0, e, hf1, ht1, -, hin, hout⟩ := match_start inplace hf ht hft
    (fun test ref => matchSpatialInterpolation lib counter test ref s.maxDistance s.kNearest)
  have hcall : matchTrajectories lib counter f t s inplace h =
      matchSpatialInterpolation lib counter f1 t1 s.maxDistance s.kNearest h0 := by
    rw [← e]
    unfold matchTrajectories
    rw [hs]
  have h0take : h0.take h.length = h ∧ h.length ≤ h0.length := by
    cases inplace with
    | true => rw [(hin rfl).2.2]; simp
    | false => rw [(hout rfl).2.2]; simp
  generalize hmm : s.maxDistance = m at *
  generalize hkk : s.kNearest = k at *
  -- the rows of the query
  generalize hcl : lib.queryPK U.pos (if m = 0 then none else some m) k T.pos = closest
  have hcl' : (if m = 0 then lib.queryPK U.pos none k T.pos else lib.queryPK U.pos (some m) k T.pos)
      = closest := by
    rw [← hcl]
    split_ifs <;> rfl
  have hlen : closest.length = T.pos.length := by rw [← hcl]; exact hq.length _ _ _ _
  have hrow : ∀ (i : Nat) p c, T.pos[i]? = some p → closest[i]? = some c →
      IsKNearest (fun a b => lib.nrm (a - b)) U.pos (if m = 0 then none else some m) k p c := by
    intro i p c hp hc
    rw [← hcl] at hc
    refine hq.row _ _ _ _ ?_ i p c hp hc
    intro m' hm'
    split_ifs at hm' with h0
    obtain rfl := Option.some.inj hm'
    exact lt_of_le_of_ne hm (Ne.symm h0)
  have hzip : ∀ x ∈ T.pos.zip closest,
      IsKNearest (fun a b => lib.nrm (a - b)) U.pos (if m = 0 then none else some m) k x.1 x.2 := by
    intro x hx
    obtain ⟨i, hi, rfl⟩ := List.getElem_of_mem hx
    rw [List.length_zip] at hi
    rw [List.getElem_zip]
    exact hrow i _ _ (List.getElem?_eq_getElem (by omega)) (List.getElem?_eq_getElem (by omega))
  have hrange : ∀ c ∈ closest, InRange U.pos.length (c.filterMap id) := by
    intro c hc r hr
    obtain ⟨i, hi, rfl⟩ := List.getElem_of_mem hc
    have := hrow i _ _ (List.getElem?_eq_getElem (by omega)) (List.getElem?_eq_getElem hi)
    obtain ⟨o, ho, ho'⟩ := List.mem_filterMap.1 hr
    simp only [id] at ho'
    subst ho'
    obtain ⟨q, h1, -⟩ := this.found r ho
    exact (List.getElem?_eq_some_iff.1 h1).1
  have hpairs := linePairs_eq lib.lineDir U.pos T.pos closest hrange
  generalize hP : ((T.pos.zip closest).filter (fun x => !x.2.any (fun o => o.isNone))).map
      (fun x => (x.1, (Line3D.fromPoints lib.lineDir (sel U.pos (x.2.filterMap id))).evaluateAt x.1))
      = pairs at hpairs
  have hfull : ∀ x ∈ T.pos.zip closest, (!x.2.any (fun o => o.isNone)) = true ↔ none ∉ x.2 := by
    intro x _
    simp only [Bool.not_eq_true', List.any_eq_false, Option.isNone_iff_eq_none]
    constructor
    · intro h hn
      exact h none hn rfl
    · rintro h o ho rfl
      exact h ho
  have hfst : pairs.map Prod.fst = used := by
    rw [← hP, List.map_map]
    have h1 : (Prod.fst ∘ fun x : V3 K × List (Option Nat) => (x.1,
        (Line3D.fromPoints lib.lineDir (sel U.pos (x.2.filterMap id))).evaluateAt x.1)) = Prod.fst :=
      rfl
    rw [h1, List.filter_congr (q := fun x => (fun p => decide (k ≤ U.pos.countP
      (fun q => decide (Within (fun a b => lib.nrm (a - b)) m p q)))) x.1)]
    · have h2 : (T.pos.zip closest).map Prod.fst = T.pos := by
        rw [List.map_fst_zip (by omega)]
      show _ = T.pos.filter _
      conv_rhs => rw [← h2, List.filter_map]
      rw [hmm, hkk]
      rfl
    · intro x hx
      rw [Bool.eq_iff_iff, hfull x hx, (hzip x hx).full_iff, decide_eq_true_eq]
  unfold Returns Raises
  rw [hcall]
  unfold matchSpatialInterpolation
  rw [SE.run_bind_ok (rd_run hf1), SE.run_bind_ok (rd_run ht1)]
  simp only [hcl']
  rw [if_neg (by omega : ¬ k = 0)]
  constructor
  · intro hne
    have hpne : pairs ≠ [] := by
      rintro rfl
      exact hne hfst.symm
    -- some row is complete
    have hnotall : ¬ (closest.all (fun c => c.all (fun i => i.isNone)) = true) := by
      obtain ⟨y, hy⟩ := List.exists_mem_of_ne_nil _ hpne
      rw [← hP] at hy
      obtain ⟨x, hx, -⟩ := List.mem_map.1 hy
      obtain ⟨hxm, hxf⟩ := List.mem_filter.1 hx
      have hxn := (hfull x hxm).1 hxf
      have hxl := (hzip x hxm).length
      intro hall
      rw [List.all_eq_true] at hall
      have := hall x.2 (List.of_mem_zip (show (x.1, x.2) ∈ T.pos.zip closest from hxm)).2
      rw [List.all_eq_true] at this
      obtain ⟨o, ho⟩ : ∃ o, o ∈ x.2 := List.exists_mem_of_length_pos (by omega)
      have := this o ho
      rw [Option.isNone_iff_eq_none] at this
      subst this
      exact hxn ho
    rw [if_neg hnotall, if_neg (by omega : ¬ k = 1), SE.run_bind_ok (by rw [SE.run_lift, hpairs])]
    rw [if_neg (fun hc => hpne (List.length_eq_zero_iff.1 hc))]
    obtain ⟨A, hA, hAc, hAp, hAr, -⟩ := new_eq lib.nrm counter
      ({ pos := pairs.map Prod.fst, name := T.name } : TrajArgs K R) (by simp)
      (by simpa using hpne) (by simp)
    obtain ⟨B, hB, hBc, hBp, hBr, -⟩ := new_eq lib.nrm (counter + 1)
      ({ pos := pairs.map Prod.snd, name := U.name } : TrajArgs K R) (by simp)
      (by simpa using hpne) (by simp)
    rw [SE.run_bind_ok (by rw [SE.run_lift, hA]), SE.run_bind_ok (by rw [SE.run_lift, hB])]
    refine ⟨h0.length, h0.length + 1, h0 ++ [A] ++ [B], A, B, ?_, by simp, by simp, h0take.2,
      by omega, ?_, hAc, hBc, hAr, hBr, ?_, ?_, ?_⟩
    · have e1 : newRef A h0 = (.ok h0.length, h0 ++ [A]) := rfl
      rw [SE.run_bind_ok e1]
      have e2 : newRef B (h0 ++ [A]) = (.ok (h0.length + 1), h0 ++ [A] ++ [B]) := by
        simp [newRef]
      rw [SE.run_bind_ok e2, SE.run_pure]
    · rw [List.append_assoc, List.take_append_of_le_length h0take.2, h0take.1]
    · rw [hAp, ← hfst]
    · rw [hBp, ← hfst]; simp
    · intro i p q hp hq'
      rw [hAp] at hp
      rw [hBp] at hq'
      simp only at hp hq'
      rw [← hP, List.map_map, List.getElem?_map] at hp hq'
      obtain ⟨x, hx, rfl⟩ := Option.map_eq_some_iff.1 hp
      rw [hx] at hq'
      obtain rfl := Option.some.inj hq'
      obtain ⟨hxm, hxf⟩ := List.mem_filter.1 (List.mem_of_getElem? hx)
      have hxn := (hfull x hxm).1 hxf
      have hK := hzip x hxm
      have hin' : ∀ r, r ∈ x.2.filterMap id ↔ some r ∈ x.2 := by
        intro r
        simp [List.mem_filterMap]
      refine ⟨x.2.filterMap id, ?_, hK.nodup, ?_, ?_⟩
      · rw [← hK.length, List.filterMap_length_eq_length]
        intro o ho
        cases o with
        | none => exact absurd ho hxn
        | some r => rfl
      · intro r hr
        have hr' := (hin' r).1 hr
        obtain ⟨a, ha1, ha2⟩ := hK.found r hr'
        refine ⟨a, ha1, ?_, ?_⟩
        · by_cases h0 : m = 0
          · exact Or.inl h0
          · exact Or.inr (ha2 m (by rw [if_neg h0]))
        · intro j b hj hb
          exact hK.nearest r a hr' ha1 j b hb (fun hc => hj ((hin' j).2 hc))
      · obtain ⟨c1, c2, -⟩ := C31_projection_is_nearest
          (Line3D.fromPoints lib.lineDir (sel U.pos (x.2.filterMap id))) (hdir _) x.1
        exact ⟨c1, c2⟩
  · intro hemp
    have hpe : pairs = [] := by
      rw [hemp] at hfst
      exact List.map_eq_nil_iff.1 hfst
    by_cases c1 : closest.all (fun c => c.all (fun i => i.isNone)) = true
    · rw [if_pos c1]
      exact ⟨.valueError, h0, rfl, h0take.1, Or.inl rfl⟩
    · rw [if_neg c1, if_neg (by omega : ¬ k = 1), SE.run_bind_ok (by rw [SE.run_lift, hpairs]), hpe]
      exact ⟨.indexError, h0, rfl, h0take.1, Or.inr rfl⟩

/-- **C42, finding**: with `k = 1` the call never returns. -/
theorem C42_one_neighbour_never_returns (lib : MatchLib K R) (counter : Nat)
    (s : MatchingSettings K) (hs : s.method = .nearestSpatialInterpolated) (hk : s.kNearest = 1)
    (h h' : Heap K R) (f t : Nat) (inplace : Bool) (a : Nat × Nat) :
    ¬ Returns (matchTrajectories lib counter f t s inplace) h a h' := by
  intro hret
  unfold Returns matchTrajectories at hret
  rw [hs, hk] at hret
  obtain ⟨x, h1, -, hret⟩ := returns_bind hret
  obtain ⟨y, h2, -, hret⟩ := returns_bind hret
  simp only at hret
  unfold matchSpatialInterpolation at hret
  obtain ⟨p, h3, -, hret⟩ := returns_bind hret
  obtain ⟨o, h4, -, hret⟩ := returns_bind hret
  simp only [one_ne_zero, if_false, if_true] at hret
  split_ifs at hret <;> simp [SE.run_bind] at hret

/-! ### The hypotheses are met -/

/-- distance of the reference point number `i` -/
def dAt (dist : P → P → K) (ref : List P) (p : P) (i : Nat) : K := ((ref[i]?).map (dist p)).getD 0

/-- the positions by increasing distance -/
def byDist (dist : P → P → K) (ref : List P) (p : P) : List Nat :=
  (List.range ref.length).insertionSort (fun i j => dAt dist ref p i ≤ dAt dist ref p j)

/-- exhaustive search for the `k` nearest points -/
def bruteRow (dist : P → P → K) (ref : List P) (b : Option K) (k : Nat) (p : P) :
    List (Option Nat) :=
  ((byDist dist ref p).take k).map
      (fun i => if b.all (fun m => decide (dAt dist ref p i < m)) then some i else none) ++
    List.replicate (k - ref.length) none

def bruteQueryK (dist : P → P → K) : KdQueryK K P :=
  fun ref b k test => test.map (bruteRow dist ref b k)

theorem bruteQueryK_isKNearest (dist : P → P → K) : IsKNearestQuery dist (bruteQueryK dist) where
  length ref b k test := by simp [bruteQueryK]
  row ref b k test hb i p c hp hc := by
    simp only [bruteQueryK, List.getElem?_map, hp, Option.map_some, Option.some.injEq] at hc
    subst hc
    have hperm : (byDist dist ref p).Perm (List.range ref.length) := List.perm_insertionSort _ _
    have hlen : (byDist dist ref p).length = ref.length := by simpa using hperm.length_eq
    have hsort : (byDist dist ref p).Pairwise
        (fun i j => dAt dist ref p i ≤ dAt dist ref p j) := by
      have : Std.Total (fun i j => dAt dist ref p i ≤ dAt dist ref p j) := ⟨fun _ _ => le_total _ _⟩
      have : IsTrans Nat (fun i j => dAt dist ref p i ≤ dAt dist ref p j) :=
        ⟨fun _ _ _ => le_trans⟩
      exact List.pairwise_insertionSort _ _
    have hnd : (byDist dist ref p).Nodup := hperm.nodup_iff.2 List.nodup_range
    have hd : ∀ j q, ref[j]? = some q → dAt dist ref p j = dist p q := by
      intro j q hj
      simp [dAt, hj]
    have hin : ∀ r, some r ∈ bruteRow dist ref b k p ↔ r ∈ (byDist dist ref p).take k ∧
        b.all (fun m => decide (dAt dist ref p r < m)) = true := by
      intro r
      unfold bruteRow
      rw [List.mem_append, List.mem_map]
      constructor
      · rintro (⟨j, hj, h⟩ | h)
        · split_ifs at h with h'
          obtain rfl := Option.some.inj h
          exact ⟨hj, h'⟩
        · exact absurd (List.mem_replicate.1 h).2 (by simp)
      · rintro ⟨h1, h2⟩
        exact Or.inl ⟨r, h1, by rw [if_pos h2]⟩
    have hall : ∀ x : K, b.all (fun m => decide (x < m)) = true ↔ ∀ m, b = some m → x < m := by
      intro x
      cases b <;> simp
    have htake : ∀ r ∈ (byDist dist ref p).take k, r < ref.length := fun r hr => by
      simpa using (hperm.mem_iff.1 (List.mem_of_mem_take hr))
    have hsplit : ∀ j, j < ref.length → j ∉ (byDist dist ref p).take k →
        j ∈ (byDist dist ref p).drop k := by
      intro j hj hn
      have : j ∈ byDist dist ref p := hperm.mem_iff.2 (List.mem_range.2 hj)
      rw [← List.take_append_drop k (byDist dist ref p), List.mem_append] at this
      exact this.resolve_left hn
    have hcross : ∀ r ∈ (byDist dist ref p).take k, ∀ j ∈ (byDist dist ref p).drop k,
        dAt dist ref p r ≤ dAt dist ref p j := by
      have := hsort
      rw [← List.take_append_drop k (byDist dist ref p), List.pairwise_append] at this
      exact this.2.2
    refine ⟨?_, ?_, ?_, ?_, ?_⟩
    · unfold bruteRow
      simp [hlen]
      omega
    · unfold bruteRow
      rw [List.filterMap_append, List.filterMap_map, List.filterMap_replicate_of_none (by rfl),
        List.append_nil]
      have : (id ∘ fun i => if b.all (fun m => decide (dAt dist ref p i < m)) = true then some i
          else none) = Option.guard (fun i => b.all (fun m => decide (dAt dist ref p i < m))) := by
        funext i
        simp [Option.guard]
      rw [this, List.filterMap_eq_filter]
      exact (hnd.sublist (List.take_sublist _ _)).filter _
    · intro r hr
      obtain ⟨h1, h2⟩ := (hin r).1 hr
      have hq := List.getElem?_eq_getElem (htake r h1)
      refine ⟨_, hq, ?_⟩
      rw [← hd r _ hq]
      exact (hall _).1 h2
    · intro r q hr hq j q' hj hnj
      obtain ⟨h1, h2⟩ := (hin r).1 hr
      rw [← hd r q hq, ← hd j q' hj]
      have hjl := (List.getElem?_eq_some_iff.1 hj).1
      by_cases hjt : j ∈ (byDist dist ref p).take k
      · have : ¬ (b.all (fun m => decide (dAt dist ref p j < m)) = true) :=
          fun h => hnj ((hin j).2 ⟨hjt, h⟩)
        rw [hall] at this h2
        push Not at this
        obtain ⟨m, hm, hle⟩ := this
        exact le_trans (le_of_lt (h2 m hm)) hle
      · exact hcross r h1 j (hsplit j hjl hjt)
    · intro hnone j q hj hlt
      rw [← hd j q hj] at hlt
      have hjl := (List.getElem?_eq_some_iff.1 hj).1
      by_cases hjt : j ∈ (byDist dist ref p).take k
      · exact (hin j).2 ⟨hjt, (hall _).2 hlt⟩
      · have hjd := hsplit j hjl hjt
        have hkl : k < ref.length := by
          by_contra hc
          rw [List.drop_eq_nil_of_le (by omega)] at hjd
          simp at hjd
        unfold bruteRow at hnone
        rw [show k - ref.length = 0 by omega, List.replicate_zero, List.append_nil,
          List.mem_map] at hnone
        obtain ⟨r, hr, hr'⟩ := hnone
        split_ifs at hr' with hc
        rw [hall] at hc
        push Not at hc
        obtain ⟨m, hm, hle⟩ := hc
        exact absurd (hlt m hm) (not_lt.2 (le_trans hle (hcross r hr j hjd)))

/-- a reference on the x axis, a test trajectory beside it and one sample far away -/
def exRefLine : Traj ℚ Nat :=
  { tstamps := [0, 1, 2], pos := [⟨0, 0, 0⟩, ⟨1, 0, 0⟩, ⟨2, 0, 0⟩], rot := none, arc := [0, 1, 2]
    speed := [0, 0, 0], sorting := .time, name := "ref", epsg := 0 }

def exTestLine : Traj ℚ Nat :=
  { exRefLine with pos := [⟨1/2, 1, 0⟩, ⟨9, 0, 0⟩, ⟨3/2, 1, 0⟩], name := "test" }

def exMatchLib : MatchLib ℚ Nat :=
  { rot := exLib, nrm := fun v => max (|v.x|) (max |v.y| |v.z|)
    queryT := exQuery
    queryP := bruteQuery (fun a b => max (|a.x - b.x|) (max |a.y - b.y| |a.z - b.z|))
    queryPK := bruteQueryK (fun a b => max (|a.x - b.x|) (max |a.y - b.y| |a.z - b.z|))
    lineDir := fun _ => ⟨1, 0, 0⟩ }

example : let r := (matchTrajectories exMatchLib 0 0 1 ⟨.nearestSpatialInterpolated, 1, 3, 2⟩ false
        [exTestLine, exRefLine]);
    r.1 = .ok (4, 5) ∧ r.2.map Traj.pos = [exTestLine.pos, exRefLine.pos, exTestLine.pos,
      exRefLine.pos, [⟨1/2, 1, 0⟩, ⟨3/2, 1, 0⟩], [⟨1/2, 0, 0⟩, ⟨3/2, 0, 0⟩]] := by
  decide +kernel
example : (matchTrajectories exMatchLib 0 0 1 ⟨.nearestSpatialInterpolated, 1, 3, 1⟩ false
      [exTestLine, exRefLine]).1 = .error .typeError := by decide +kernel
/-- temporal and spatial matching and matching by interpolation on the same pair -/
example : ((matchTrajectories exMatchLib 0 0 1 ⟨.nearestTemporal, 1, 3, 1⟩ true
      [exTestLine, exRefLine]).2.map Traj.tstamps) = [[0, 1, 2], [0, 1, 2]] := by decide +kernel
example : ((matchTrajectories exMatchLib 0 0 1 ⟨.nearestSpatial, 1, 2, 1⟩ true
      [exTestLine, exRefLine]).2.map Traj.pos) = [[⟨1/2, 1, 0⟩, ⟨3/2, 1, 0⟩],
        [⟨0, 0, 0⟩, ⟨1, 0, 0⟩]] := by decide +kernel
/-- the reference is sampled at 0, 1, 2, the test trajectory at 1/2, 3/2, 5 -/
example : let r := (matchTrajectories exMatchLib 0 0 1 ⟨.interpolation, 1, 2, 1⟩ true
        [{ exTestLine with tstamps := [1/2, 3/2, 5] }, exRefLine]);
    r.1 = .ok (0, 1) ∧ r.2.map Traj.tstamps = [[1], [1]] ∧ r.2.map Traj.pos =
      [[⟨19/4, 1/2, 0⟩], [⟨1, 0, 0⟩]] := by decide +kernel
/-- rough offset of a copy shifted by 7 -/
example : (roughTimestampMatching exMatchLib 1 0 0
      [exRefLine, { exRefLine with tstamps := [7, 8, 9] }]).1 = .ok 7 := by decide +kernel

end TC
