import Verif.Model.Match
import Verif.Proofs.Heap
/-!
# Frames: computations that leave the first objects of the heap alone
-/
namespace TC
set_option linter.unusedSectionVars false
open H
variable {K R α β : Type} [Field K] [LinearOrder K]

/-- the computation keeps the first `n` objects, whatever its outcome -/
def Frame (n : Nat) (m : SE (Heap K R) α) : Prop :=
  ∀ h, n ≤ h.length → n ≤ (m h).2.length ∧ (m h).2.take n = h.take n

theorem Frame.pure {n : Nat} (a : α) : Frame n (Pure.pure a : SE (Heap K R) α) :=
  fun _ hn => ⟨hn, rfl⟩

theorem Frame.lift {n : Nat} (e : Except Err α) : Frame n (SE.lift e : SE (Heap K R) α) :=
  fun _ hn => ⟨hn, rfl⟩

theorem Frame.raise {n : Nat} (e : Err) : Frame n (SE.raise e : SE (Heap K R) α) :=
  fun _ hn => ⟨hn, rfl⟩

theorem Frame.bind {n : Nat} {m : SE (Heap K R) α} {f : α → SE (Heap K R) β} (h1 : Frame n m)
    (h2 : ∀ a, Frame n (f a)) : Frame n (m >>= f) := by
  intro h hn
  obtain ⟨a1, a2⟩ := h1 h hn
  rw [SE.run_bind]
  rcases hm : m h with ⟨e | a, h'⟩
  · rw [hm] at a1 a2
    exact ⟨a1, a2⟩
  · rw [hm] at a1 a2
    obtain ⟨b1, b2⟩ := h2 a h' a1
    exact ⟨b1, b2.trans a2⟩

/-- like `bind`, when only the values the first part can return matter -/
theorem Frame.bind' {n : Nat} {m : SE (Heap K R) α} {f : α → SE (Heap K R) β} (h1 : Frame n m)
    (h2 : ∀ h a h', n ≤ h.length → m h = (.ok a, h') → Frame n (f a)) : Frame n (m >>= f) := by
  intro h hn
  obtain ⟨a1, a2⟩ := h1 h hn
  rw [SE.run_bind]
  rcases hm : m h with ⟨e | a, h'⟩
  · rw [hm] at a1 a2
    exact ⟨a1, a2⟩
  · rw [hm] at a1 a2
    obtain ⟨b1, b2⟩ := h2 h a h' hn hm h' a1
    exact ⟨b1, b2.trans a2⟩

theorem Frame.rd {n r : Nat} : Frame n (rd r : SE (Heap K R) _) := by
  intro h hn
  unfold TC.rd
  cases h[r]? <;> exact ⟨hn, rfl⟩

theorem Frame.onRef {n r : Nat} (hr : n ≤ r) (m : SE (Traj K R) α) : Frame n (onRef r m) := by
  intro h hn
  unfold TC.onRef
  cases h[r]? with
  | none => exact ⟨hn, rfl⟩
  | some T => exact ⟨by simpa using hn, List.take_set_of_le hr⟩

theorem Frame.copyRef {n r : Nat} : Frame n (copyRef r : SE (Heap K R) Nat) := by
  intro h hn
  unfold TC.copyRef
  cases h[r]? with
  | none => exact ⟨hn, rfl⟩
  | some T => exact ⟨by simp; omega, List.take_append_of_le_length hn⟩

theorem Frame.newRef {n : Nat} (T : Traj K R) : Frame n (H.newRef T) := by
  intro h hn
  exact ⟨by simp [H.newRef]; omega, List.take_append_of_le_length hn⟩

theorem Frame.ite {n : Nat} {c : Prop} [Decidable c] {a b : SE (Heap K R) α} (ha : Frame n a)
    (hb : Frame n b) : Frame n (if c then a else b) := by
  split_ifs <;> assumption

theorem Frame.applyIndex {n r : Nat} (hr : n ≤ r) (i : Index) :
    Frame n (H.applyIndex r i true : SE (Heap K R) Nat) :=
  show Frame n (TC.onRef r (Traj.applyIndex i) >>= fun _ => Pure.pure r) from
    Frame.bind (Frame.onRef hr _) (fun _ => Frame.pure r)

theorem Frame.crop {n r : Nat} (hr : n ≤ r) (a b : K) (inv : Bool) :
    Frame n (H.crop r a b inv true : SE (Heap K R) Nat) :=
  Frame.bind Frame.rd (fun _ => Frame.applyIndex hr _)

theorem Frame.intersect {n r : Nat} (hr : n ≤ r) (ts : List K) (g : K) :
    Frame n (H.intersect r ts g true : SE (Heap K R) Nat) := by
  unfold H.intersect
  rw [selfOrCopy_true, pure_bind']
  refine Frame.bind Frame.rd (fun o => Frame.bind (Frame.lift _) (fun sp => ?_))
  rcases sp with _ | ⟨a, b⟩
  · exact Frame.raise _
  · exact Frame.bind (Frame.crop hr _ _ _) (fun _ => Frame.bind Frame.rd (fun _ =>
      Frame.bind (Frame.lift _) (fun _ => Frame.bind (Frame.applyIndex hr _) (fun _ => Frame.pure _))))

theorem Frame.interpolate {n r : Nat} (hr : n ≤ r) (L : RotLib K R) (ts : List K) :
    Frame n (H.interpolate L r ts true : SE (Heap K R) Nat) := by
  unfold H.interpolate
  simp only
  rw [selfOrCopy_true, pure_bind']
  exact Frame.bind Frame.rd (fun _ => Frame.bind (Frame.lift _) (fun _ =>
    Frame.bind (Frame.onRef hr _) (fun _ => Frame.bind (Frame.onRef hr _) (fun _ =>
    Frame.bind Frame.rd (fun _ => Frame.bind (Frame.lift _) (fun _ =>
    Frame.bind (Frame.onRef hr _) (fun _ => Frame.bind Frame.rd (fun _ =>
    Frame.bind (Frame.lift _) (fun _ => Frame.bind (Frame.onRef hr _) (fun _ =>
    Frame.bind (Frame.onRef hr _) (fun _ => Frame.pure _)))))))))))

theorem Frame.matchInterpolation {n f t : Nat} (hf : n ≤ f) (ht : n ≤ t) (lib : MatchLib K R) :
    Frame n (H.matchInterpolation lib f t) :=
  Frame.bind Frame.rd (fun _ => Frame.bind (Frame.intersect hf _ _) (fun _ =>
    Frame.bind Frame.rd (fun _ => Frame.bind (Frame.intersect ht _ _) (fun _ =>
    Frame.bind Frame.rd (fun _ => Frame.bind (Frame.interpolate hf _ _) (fun _ =>
    Frame.bind Frame.rd (fun _ => Frame.bind (Frame.onRef hf _) (fun _ => Frame.pure _))))))))

theorem Frame.applyMatch {n f t : Nat} (hf : n ≤ f) (ht : n ≤ t) (m : List Nat × List Nat) :
    Frame n (H.applyMatch f t m : SE (Heap K R) _) :=
  Frame.bind (Frame.applyIndex hf _) (fun _ => Frame.bind (Frame.applyIndex ht _)
    (fun _ => Frame.pure _))

theorem Frame.matchTemporal {n f t : Nat} (hf : n ≤ f) (ht : n ≤ t) (lib : MatchLib K R) (m : K) :
    Frame n (H.matchTemporal lib f t m) :=
  Frame.bind Frame.rd (fun _ => Frame.bind Frame.rd (fun _ => Frame.bind (Frame.lift _)
    (fun _ => Frame.applyMatch hf ht _)))

theorem Frame.matchSpatial {n f t : Nat} (hf : n ≤ f) (ht : n ≤ t) (lib : MatchLib K R) (m : K) :
    Frame n (H.matchSpatial lib f t m) :=
  Frame.bind Frame.rd (fun _ => Frame.bind Frame.rd (fun _ => Frame.bind (Frame.lift _)
    (fun _ => Frame.applyMatch hf ht _)))

/-- `if c: raise e`, followed by the rest -/
theorem Frame.guard {n : Nat} {c : Prop} [Decidable c] {e : Err} {f : Unit → SE (Heap K R) α}
    (hf : ∀ u, Frame n (f u)) :
    Frame n (if c then (SE.raise e : SE (Heap K R) Unit) >>= f else f ()) :=
  Frame.ite (Frame.bind (Frame.raise _) hf) (hf ())

theorem Frame.matchSpatialInterpolation {n f t : Nat} (lib : MatchLib K R) (c : Nat) (m : K)
    (k : Nat) : Frame n (H.matchSpatialInterpolation lib c f t m k) := by
  unfold H.matchSpatialInterpolation
  refine Frame.bind Frame.rd (fun p => Frame.bind Frame.rd (fun o => ?_))
  refine Frame.guard (fun _ => Frame.guard (fun _ => Frame.guard (fun _ => ?_)))
  refine Frame.bind (Frame.lift _) (fun pairs => Frame.guard (fun _ => ?_))
  exact Frame.bind (Frame.lift _) (fun _ => Frame.bind (Frame.lift _) (fun _ =>
      Frame.bind (Frame.newRef _) (fun _ => Frame.bind (Frame.newRef _) (fun _ => Frame.pure _))))

theorem copyRef_ok {h h' : Heap K R} {r a : Nat} (hc : TC.copyRef r h = (.ok a, h')) :
    a = h.length := by
  unfold TC.copyRef at hc
  split at hc
  · simpa using (Prod.mk.inj hc).1.symm
  · simp at hc

end TC
