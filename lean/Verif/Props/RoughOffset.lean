import Verif.Props.MatchRest
import Verif.Props.RpeStats
import Verif.Props.MatchLine
/-!
# C43: the rough time offset of any two trajectories
-/
namespace TC
set_option linter.unusedSectionVars false
open H
variable {K R : Type} [Field K] [LinearOrder K] [IsStrictOrderedRing K]

theorem median_isMedian (l : List K) (h : l ≠ []) : IsMedian l (median l) := by
  have hlen : (npSort l).length = l.length := npSort_length l
  have hpos : 0 < l.length := List.length_pos_of_ne_nil h
  have hk : (npSort l).length / 2 < (npSort l).length := by omega
  have hk' : (npSort l).length / 2 - 1 < (npSort l).length := by omega
  have g : ∀ i (hi : i < (npSort l).length), (npSort l).getD i 0 = (npSort l)[i] := fun i hi => by
    rw [List.getD_eq_getElem?_getD, List.getElem?_eq_getElem hi]; rfl
  unfold median
  simp only
  by_cases hodd : (npSort l).length % 2 = 1
  · rw [if_pos hodd, g _ hk]
    refine ⟨npSort l, npSort_perm l, npSort_sorted l, _, _, ?_, List.getElem?_eq_getElem hk, rfl⟩
    have : ((npSort l).length - 1) / 2 = (npSort l).length / 2 := by omega
    rw [this]
    exact List.getElem?_eq_getElem hk
  · rw [if_neg hodd, g _ hk, g _ hk']
    refine ⟨npSort l, npSort_perm l, npSort_sorted l, (npSort l)[(npSort l).length / 2 - 1],
      (npSort l)[(npSort l).length / 2], ?_, List.getElem?_eq_getElem hk, by ring⟩
    have : ((npSort l).length - 1) / 2 = (npSort l).length / 2 - 1 := by omega
    rw [this]
    exact List.getElem?_eq_getElem hk'

/-- in an ascending list, an entry at one of the two middle places is the value that more than half of the entries have -/
theorem middle_majority {s : List K} (hs : s.Pairwise (· ≤ ·)) {d a : K} (hd : s.length < 2 * s.count d) {i : Nat}
    (hi : i = (s.length - 1) / 2 ∨ i = s.length / 2) (ha : s[i]? = some a) : a = d := by
  obtain ⟨hil, rfl⟩ := List.getElem?_eq_some_iff.1 ha
  have split : s.count d = (s.take i).count d + (s.drop i).count d := by rw [← List.count_append, List.take_append_drop]
  have split' : s.count d = (s.take (i + 1)).count d + (s.drop (i + 1)).count d := by
    rw [← List.count_append, List.take_append_drop]
  rcases lt_trichotomy s[i] d with h | h | h
  · exfalso
    have z : (s.take (i + 1)).count d = 0 := by
      rw [List.count_eq_zero]
      intro hm
      obtain ⟨j, hj, e⟩ := List.getElem_of_mem hm
      rw [List.getElem_take] at e
      have hj' : j < i + 1 := by rw [List.length_take] at hj; omega
      have : s[j] ≤ s[i] := by
        rcases Nat.lt_or_eq_of_le (Nat.lt_succ_iff.1 hj') with hlt | rfl
        · exact List.pairwise_iff_getElem.1 hs j i (by omega) hil hlt
        · exact le_rfl
      rw [e] at this
      exact absurd h (not_lt.2 this)
    have c := List.count_le_length (a := d) (l := s.drop (i + 1))
    rw [List.length_drop] at c
    omega
  · exact h
  · exfalso
    have z : (s.drop i).count d = 0 := by
      rw [List.count_eq_zero]
      intro hm
      obtain ⟨j, hj, e⟩ := List.getElem_of_mem hm
      rw [List.getElem_drop] at e
      rw [List.length_drop] at hj
      have : s[i] ≤ s[i + j] := by
        rcases Nat.eq_zero_or_pos j with rfl | hp
        · exact le_rfl
        · exact List.pairwise_iff_getElem.1 hs i (i + j) hil (by omega) (by omega)
      rw [e] at this
      exact absurd h (not_lt.2 this)
    have c := List.count_le_length (a := d) (l := s.take i)
    rw [List.length_take] at c
    omega

theorem IsMedian.majority {l : List K} {m d : K} (h : IsMedian l m) (hd : l.length < 2 * l.count d) : m = d := by
  obtain ⟨s, hp, hs, a, b, ha, hb, e⟩ := h
  rw [← hp.length_eq, ← hp.count_eq] at hd
  have ea := middle_majority hs hd (.inl rfl) ha
  have eb := middle_majority hs hd (.inr rfl) hb
  subst ea
  have : 2 * m = 2 * a := by rw [two_mul, two_mul, e, eb]
  exact mul_left_cancel₀ two_ne_zero this

/-- **C43**, value for any two trajectories: the median of the time differences (reference minus test) of the pairs found by
matching positions.  So if more than half of the pairs have the same difference, it is this difference. -/
theorem C43_median (lib : MatchLib K R) (hq : IsNearestQuery (fun a b => lib.nrm (a - b)) lib.queryP) {T U : Traj K R}
    (hT : Coherent T) (hU : Coherent U) (hne : T.tstamps ≠ []) {m : K} (hm : 0 ≤ m) {h : Heap K R} {ref test : Nat}
    (ht : h[test]? = some T) (hr : h[ref]? = some U)
    (hw : ∃ a ∈ samples T, ∃ b ∈ samples U, Within (fun a b => lib.nrm (a - b)) m a.p b.p) :
    ∃ v h' T' U', Returns (roughTimestampMatching lib ref test m) h v h' ∧
      Paired (fun a b => lib.nrm (a - b)) m Sample.p T U T' U' ∧
      IsMedian (List.zipWith (fun b a => b.t - a.t) (samples U') (samples T')) v ∧
      ∀ d, (samples T').length < 2 * (List.zipWith (fun b a => b.t - a.t) (samples U') (samples T')).count d → v = d := by
  obtain ⟨f', t', h0, e, hf', ht', hft', -, -⟩ := match_start false ht hr (by simp)
    (fun t r => (do
      let (t, r) ← matchSpatial lib t r m
      let o ← rd r
      let p ← rd t
      return median (List.zipWith (fun a b => a - b) o.tstamps p.tstamps) : SE (Heap K R) K))
  obtain ⟨n1, -⟩ := nearest_match hq hT hU Sample.p Traj.pos (samples_map_p hT).symm
    (samples_map_p hU).symm hm hf' ht' hft' hne
  obtain ⟨T', U', hret, hp⟩ := n1 hw
  have l1 := (List.getElem?_eq_some_iff.1 hf').1
  have l2 := (List.getElem?_eq_some_iff.1 ht').1
  have g1 : ((h0.set f' T').set t' U')[f']? = some T' := by
    rw [List.getElem?_set_ne (Ne.symm hft')]; simp [l1]
  have g2 : ((h0.set f' T').set t' U')[t']? = some U' := by simp [l2]
  have ez : List.zipWith (fun b a : K => b - a) U'.tstamps T'.tstamps
      = List.zipWith (fun b a => b.t - a.t) (samples U') (samples T') := by
    rw [← samples_map_t hp.testCoherent, ← samples_map_t hp.refCoherent, List.zipWith_map]
  have lz : (List.zipWith (fun b a : Sample K R => b.t - a.t) (samples U') (samples T')).length = (samples T').length := by
    rw [List.length_zipWith, hp.length, Nat.min_self]
  have med := median_isMedian (List.zipWith (fun b a : Sample K R => b.t - a.t) (samples U') (samples T')) (by
    intro hc
    rw [hc] at lz
    exact hp.nonempty (List.length_eq_zero_iff.1 lz.symm))
  refine ⟨_, (h0.set f' T').set t' U', T', U', ?_, hp, med, fun d hd => med.majority (by rw [lz]; exact hd)⟩
  have hcall : roughTimestampMatching lib ref test m h = _ := e
  unfold Returns at *
  rw [hcall]
  have hret' : matchSpatial lib f' t' m h0 = (.ok (f', t'), (h0.set f' T').set t' U') := hret
  rw [SE.run_bind_ok hret']
  simp only
  rw [SE.run_bind_ok (rd_run g2), SE.run_bind_ok (rd_run g1), SE.run_pure, ez]

/-! ### Two of three pairs are 7 s apart, the third 20 s -/

example : (roughTimestampMatching exMatchLib 1 0 0 [exRefLine, { exRefLine with tstamps := [7, 8, 22] }]).1.toOption = some 7 := by
  decide +kernel

example : IsNearestQuery (fun a b => max (|a.x - b.x|) (max |a.y - b.y| |a.z - b.z|)) exMatchLib.queryP := bruteQuery_isNearest _

end TC
