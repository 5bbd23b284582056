import Verif.Props.MatchTraj
import Verif.Proofs.Frame
import Verif.Proofs.Arc
import Verif.Proofs.Intersect
/-!
# C41: `match_trajectories(inplace=False)`, C43: rough time offset
-/
namespace TC
set_option linter.unusedSectionVars false
open H
variable {K R : Type} [Field K] [LinearOrder K]

/-- two copies are made, the rest works on objects that did not exist before -/
theorem frame_copies {α : Type} {n f t : Nat} {body : Nat → Nat → SE (Heap K R) α}
    (hb : ∀ a b, n ≤ a → n ≤ b → Frame n (body a b)) :
    Frame n (do
      let test ← copyRef f
      let ref ← copyRef t
      body test ref : SE (Heap K R) α) := by
  refine Frame.bind' Frame.copyRef (fun h a h' hn ha => ?_)
  refine Frame.bind' Frame.copyRef (fun h1 b h1' hn1 hb1 => ?_)
  exact hb a b (by rw [copyRef_ok ha]; exact hn) (by rw [copyRef_ok hb1]; exact hn1)

/-- **C41.** With `inplace=False` every object that existed before is unchanged, for all methods
and settings, whether the call returns or raises. -/
theorem C41_not_inplace_leaves_inputs (lib : MatchLib K R) (counter f t : Nat)
    (s : MatchingSettings K) (h : Heap K R) :
    (matchTrajectories lib counter f t s false h).2.take h.length = h := by
  have : Frame h.length (matchTrajectories lib counter f t s false) := by
    unfold matchTrajectories
    refine frame_copies (fun a b ha hb => ?_)
    rcases s.method with _ | _ | _ | _ | _
    · exact Frame.matchSpatial ha hb lib _
    · exact Frame.matchTemporal ha hb lib _
    · exact Frame.matchInterpolation ha hb lib
    · exact Frame.matchSpatialInterpolation lib _ _ _
    · exact Frame.raise _
  have h2 := (this h (le_refl _)).2
  rwa [List.take_length] at h2

/-- **C41**, unsupported methods: `ValueError`, and no object is changed, with either flag. -/
theorem C41_unknown_method_raises (lib : MatchLib K R) (counter f t : Nat)
    (s : MatchingSettings K) (hs : s.method = .unknown) (h : Heap K R) (hf : f < h.length)
    (ht : t < h.length) (inplace : Bool) :
    ∃ h', Raises (matchTrajectories lib counter f t s inplace) h .valueError h' ∧
      h'.take h.length = h ∧ (inplace = true → h' = h) := by
  unfold Raises matchTrajectories
  rw [hs]
  cases inplace with
  | true => exact ⟨h, rfl, by simp, fun _ => rfl⟩
  | false =>
    refine ⟨h ++ [h[f], h[t]], ?_, by simp, by simp⟩
    rw [SE.run_bind_ok (copyRef_run (List.getElem?_eq_getElem hf))]
    have : (h ++ [h[f]])[t]? = some h[t] := by
      rw [List.getElem?_append_left ht, List.getElem?_eq_getElem ht]
    rw [SE.run_bind_ok (copyRef_run this)]
    simp

theorem C43_frame {n : Nat} (lib : MatchLib K R) (ref test : Nat) (m : K) :
    Frame n (roughTimestampMatching lib ref test m) := by
  unfold roughTimestampMatching
  refine frame_copies (fun a b ha hb => ?_)
  refine Frame.bind (Frame.matchSpatial ha hb lib m) (fun p => ?_)
  exact Frame.bind Frame.rd (fun _ => Frame.bind Frame.rd (fun _ => Frame.pure _))

/-- **C43**, inputs: they are unchanged. -/
theorem C43_inputs_unchanged (lib : MatchLib K R) (ref test : Nat) (m : K) (h : Heap K R) :
    (roughTimestampMatching lib ref test m h).2.take h.length = h := by
  have h2 := (C43_frame lib ref test m h (le_refl _)).2
  rwa [List.take_length] at h2

variable [IsStrictOrderedRing K]

theorem median_const {l : List K} {d : K} (hne : l ≠ []) (hl : ∀ x ∈ l, x = d) : median l = d := by
  have h0 : 0 < l.length := List.length_pos_of_ne_nil hne
  have hs : npSort l = List.replicate l.length d := by
    rw [List.eq_replicate_iff]
    exact ⟨npSort_length l, fun x hx => hl x (mem_npSort.1 hx)⟩
  unfold median
  simp only [hs, List.length_replicate]
  have g : ∀ i, i < l.length → (List.replicate l.length d).getD i 0 = d := by
    intro i hi
    rw [List.getD_eq_getElem?_getD, List.getElem?_replicate, if_pos hi]
    rfl
  split_ifs with hp
  · exact g _ (by omega)
  · rw [g _ (by omega), g _ (by omega)]
    field_simp
    norm_num

/-- **C43**, value: if the reference trajectory has the positions of the test trajectory (no two
equal) and its timestamps shifted by `d`, the result is `d`. -/
theorem C43_rough_offset (lib : MatchLib K R) (hn : IsNorm lib.nrm)
    (hq : IsNearestQuery (fun a b => lib.nrm (a - b)) lib.queryP) {T U : Traj K R}
    (hT : Coherent T) (hU : Coherent U) (hne : T.tstamps ≠ []) (hnd : T.pos.Nodup) (d : K)
    (hpos : U.pos = T.pos) (hts : U.tstamps = T.tstamps.map (· + d)) {m : K} (hm : 0 ≤ m)
    {h : Heap K R} {ref test : Nat} (ht : h[test]? = some T) (hr : h[ref]? = some U) :
    ∃ h', Returns (roughTimestampMatching lib ref test m) h d h' := by
  obtain ⟨f', t', h0, e, hf', ht', hft', -, -⟩ := match_start false ht hr (by simp)
    (fun t r => (do
      let (t, r) ← matchSpatial lib t r m
      let o ← rd r
      let p ← rd t
      return median (List.zipWith (fun a b => a - b) o.tstamps p.tstamps) : SE (Heap K R) K))
  obtain ⟨n1, -⟩ := nearest_match hq hT hU Sample.p Traj.pos (samples_map_p hT).symm
    (samples_map_p hU).symm hm hf' ht' hft' hne
  -- a sample of `T` and a sample of `U` at the same position differ by `d` in time
  have hdiff : ∀ a ∈ samples T, ∀ b ∈ samples U, a.p = b.p → b.t - a.t = d := by
    intro a ha b hb hab
    obtain ⟨i, hi, rfl⟩ := List.getElem_of_mem ha
    obtain ⟨j, hj, rfl⟩ := List.getElem_of_mem hb
    have pT := samples_map_p hT
    have pU := samples_map_p hU
    have tT := samples_map_t hT
    have tU := samples_map_t hU
    have e1 : T.pos[i]? = some (samples T)[i].p := by
      rw [← pT, List.getElem?_map, List.getElem?_eq_getElem hi]; rfl
    have e2 : T.pos[j]? = some (samples U)[j].p := by
      rw [← hpos, ← pU, List.getElem?_map, List.getElem?_eq_getElem hj]; rfl
    have e3 : T.tstamps[i]? = some (samples T)[i].t := by
      rw [← tT, List.getElem?_map, List.getElem?_eq_getElem hi]; rfl
    have e4 : (T.tstamps.map (· + d))[j]? = some (samples U)[j].t := by
      rw [← hts, ← tU, List.getElem?_map, List.getElem?_eq_getElem hj]; rfl
    obtain ⟨l1, g1⟩ := List.getElem?_eq_some_iff.1 e1
    obtain ⟨l2, g2⟩ := List.getElem?_eq_some_iff.1 e2
    have hij : i = j := (List.Nodup.getElem_inj_iff hnd).1 (by rw [g1, g2, hab])
    subst hij
    rw [List.getElem?_map, e3] at e4
    have := Option.some.inj e4
    rw [← this]
    ring
  have h0T : 0 < (samples T).length := by
    rw [samples_length hT]; exact List.length_pos_of_ne_nil hne
  have hUT : (samples U).map Sample.p = (samples T).map Sample.p := by
    rw [samples_map_p hU, samples_map_p hT, hpos]
  have self : ∀ a ∈ samples T, ∃ b ∈ samples U, a.p = b.p := by
    intro a ha
    have : a.p ∈ (samples U).map Sample.p := by rw [hUT]; exact List.mem_map_of_mem ha
    obtain ⟨b, hb, hb'⟩ := List.mem_map.1 this
    exact ⟨b, hb, hb'.symm⟩
  have zero : ∀ p : V3 K, lib.nrm (p - p) = 0 := by
    intro p
    rw [sub_self, hn.zero]
  obtain ⟨T', U', hret, hp⟩ := n1 (by
    obtain ⟨b, hb, hab⟩ := self _ (List.getElem_mem h0T)
    refine ⟨_, List.getElem_mem h0T, b, hb, ?_⟩
    rcases eq_or_lt_of_le hm with h | h
    · exact Or.inl h.symm
    · refine Or.inr ?_
      show lib.nrm (_ - b.p) < m
      rw [hab, zero]
      exact h)
  have l1 := (List.getElem?_eq_some_iff.1 hf').1
  have l2 := (List.getElem?_eq_some_iff.1 ht').1
  have g1 : ((h0.set f' T').set t' U')[f']? = some T' := by
    rw [List.getElem?_set_ne (Ne.symm hft')]; simp [l1]
  have g2 : ((h0.set f' T').set t' U')[t']? = some U' := by simp [l2]
  refine ⟨(h0.set f' T').set t' U', ?_⟩
  have hcall : roughTimestampMatching lib ref test m h = _ := e
  unfold Returns at *
  rw [hcall]
  have hret' : matchSpatial lib f' t' m h0 = (.ok (f', t'), (h0.set f' T').set t' U') := hret
  rw [SE.run_bind_ok hret']
  simp only
  rw [SE.run_bind_ok (rd_run g2), SE.run_bind_ok (rd_run g1), SE.run_pure]
  congr 2
  have lenT : T'.tstamps.length = (samples T').length := (samples_length hp.testCoherent).symm
  have lenU : U'.tstamps.length = (samples U').length := (samples_length hp.refCoherent).symm
  apply median_const
  · intro hc
    have := congrArg List.length hc
    rw [List.length_zipWith, lenT, lenU, ← hp.length, Nat.min_self] at this
    exact hp.nonempty (List.length_eq_zero_iff.1 this)
  · intro x hx
    obtain ⟨k, hk, rfl⟩ := List.getElem_of_mem hx
    rw [List.length_zipWith] at hk
    have kU : k < (samples U').length := by omega
    have kT : k < (samples T').length := by omega
    rw [List.getElem_zipWith]
    have eT : T'.tstamps[k]'(by omega) = (samples T')[k].t := by
      have := samples_map_t hp.testCoherent
      simp only [← this, List.getElem_map]
    have eU : U'.tstamps[k]'(by omega) = (samples U')[k].t := by
      have := samples_map_t hp.refCoherent
      simp only [← this, List.getElem_map]
    rw [eT, eU]
    have mT : (samples T')[k] ∈ samples T := hp.test.subset (List.getElem_mem kT)
    have mU : (samples U')[k] ∈ samples U := hp.ref.subset (List.getElem_mem kU)
    apply hdiff _ mT _ mU
    obtain ⟨hnear, -⟩ := hp.pairs k _ _ (List.getElem?_eq_getElem kT) (List.getElem?_eq_getElem kU)
    obtain ⟨b, hb, hab⟩ := self _ mT
    have hle := hnear.2 b.p (List.mem_map_of_mem hb)
    simp only at hle
    rw [← hab, zero] at hle
    have := hn.eq_zero (le_antisymm hle (hn.nonneg _))
    exact sub_eq_zero.1 this

end TC
