import Verif.Proofs.Heap
import Verif.Props.TrajInterp
/-!
# C12: `inplace=False`, C20: `apply_alignment` with default arguments
-/
namespace TC
open H
variable {K R : Type} [Field K] [LinearOrder K]

/-- **C12**, non-interference: whatever the call and whether it returns or raises, with
`inplace=False` every object that existed before the call is unchanged. -/
theorem C12_not_inplace_leaves_objects_alone (lib : Lib K R) (c : Call K R) (h : Heap K R)
    (r : Nat) (hr : r < h.length) (i : Nat) (T : Traj K R) (hi : h[i]? = some T) :
    (H.run lib c r false h).2[i]? = some T := by
  have hlt := (List.getElem?_eq_some_iff.1 hi).1
  rcases run_copy lib c h r h[r] (List.getElem?_eq_getElem hr) with he | ⟨e, _, he⟩
  · rw [he]
    simp only
    rw [List.getElem?_append_left hlt, hi]
  · rw [he]
    exact hi

/-- **C12**, result: if the call returns, the returned reference is new, and the new object holds
what the in-place call makes of the receiver. -/
theorem C12_not_inplace_returns_what_inplace_makes (lib : Lib K R) (c : Call K R)
    (hc : ∀ q s, c ≠ .applyAlignment q s) (h h' : Heap K R)
    (r s : Nat) (hr : r < h.length) (hret : Returns (H.run lib c r false) h s h') :
    s = h.length ∧ ∃ T', h' = h ++ [T'] ∧ Returns (H.run lib c r true) h r (h.set r T') := by
  unfold Returns at *
  have hT := List.getElem?_eq_getElem hr
  rcases run_copy lib c h r h[r] hT with he | ⟨e, _, he⟩
  · rw [he] at hret
    rcases hb : (bodyOf lib c h[r]).1 with e | u
    · rw [hb] at hret; simp [Except.map] at hret
    · rw [hb] at hret
      simp only [Except.map, Prod.mk.injEq, Except.ok.injEq] at hret
      refine ⟨hret.1.symm, _, hret.2.symm, ?_⟩
      rw [run_inplace lib c hc r h h[r] hT, hb]
      rfl
  · rw [he] at hret
    simp at hret

/-- **C12**, exceptions: the call with `inplace=False` raises exactly if the in-place call does,
and the same exception. -/
theorem C12_not_inplace_raises_iff_inplace_raises (lib : Lib K R) (c : Call K R)
    (hc : ∀ q s, c ≠ .applyAlignment q s) (h : Heap K R) (r : Nat) (hr : r < h.length) (e : Err) :
    (∃ h', Raises (H.run lib c r false) h e h') ↔ ∃ h', Raises (H.run lib c r true) h e h' := by
  unfold Raises
  have hT := List.getElem?_eq_getElem hr
  rw [run_inplace lib c hc r h h[r] hT]
  rcases run_copy lib c h r h[r] hT with he | ⟨e', hb, he⟩
  · rw [he]
    rcases hb : (bodyOf lib c h[r]).1 with e' | u <;> simp [Except.map]
  · rw [he, hb]
    simp [Except.map]

/-- **C12**, in place: the receiver itself is returned and no other object is touched. -/
theorem C12_inplace_touches_only_the_receiver (lib : Lib K R) (c : Call K R) (h : Heap K R)
    (r : Nat) (hr : r < h.length) (i : Nat) (hi : i ≠ r) :
    (H.run lib c r true h).2[i]? = h[i]? ∧
    ∀ s, (H.run lib c r true h).1 = .ok s → s = r := by
  by_cases hc : ∀ q s, c ≠ .applyAlignment q s
  · rw [run_inplace lib c hc r h h[r] (List.getElem?_eq_getElem hr)]
    refine ⟨List.getElem?_set_ne (fun h => hi h.symm), ?_⟩
    intro s hs
    simp only at hs
    rcases hb : (bodyOf lib c h[r]).1 with e | u
    · rw [hb] at hs; simp [Except.map] at hs
    · rw [hb] at hs
      exact (Except.ok.inj hs).symm
  · push Not at hc
    obtain ⟨q, s, rfl⟩ := hc
    exact ⟨rfl, fun s hs => by simp [H.run, H.applyAlignment, SE.run_bind] at hs⟩

/-- **C20 is false of the code**: with the default `inplace=True` the call raises for every
trajectory and every alignment. -/
theorem C20_apply_alignment_inplace_always_raises (lib : Lib K R) (q : Equations.Params K)
    (sensor : R) (h : Heap K R) (r : Nat) :
    Raises (H.run lib (.applyAlignment q sensor) r true) h .unboundLocal h := rfl

/-! ### The hypotheses are met -/

/-- the routines of the examples -/
def exH : Lib ℚ Nat :=
  { rot := exLib, trig := ⟨fun _ => 1, fun _ => 0⟩, toEuler := fun _ => 0, fromEuler := fun _ => 0
    argsort := stableArgsort, argsortN := stableArgsort
    sortMls := fun p => .ok (List.range p.length, p.map V3.x)
    cubic := fun _ x => .ok x, rotAvg := fun _ r => .ok r }

/-- two objects, the second one is cropped into a new third one -/
example : H.run exH (.crop 1 2 false) 1 false [exDup, exT]
    = (.ok 2, [exDup, exT, (Traj.crop 1 2 false exT).2]) := by decide +kernel
example : (H.run exH (.crop 1 2 false) 1 true [exDup, exT]).1 = .ok 1 := by decide +kernel
example : (H.run exH (.interpolate [0, 1/2]) 0 false [exDup, exT]).1 = .error .valueError := by
  decide +kernel

end TC
