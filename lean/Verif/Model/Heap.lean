import Verif.Model.ApplyAlignment
/-!
# Object identity: the `inplace` flag

Trajectory objects live in a heap; a reference is a position.  The methods are written down again
at this level, with the receiver and the copy as different references, exactly where the code
uses `self` and `traj_self`.
-/
namespace TC
variable {K R : Type} [Field K] [LinearOrder K]

/-- all trajectory objects -/
abbrev Heap (K R : Type) := List (Traj K R)

/-- read an object (a dangling reference cannot occur in Python; it is an error here) -/
def rd (r : Nat) : SE (Heap K R) (Traj K R) := fun h =>
  match h[r]? with
  | some T => (.ok T, h)
  | none => (.error .attributeError, h)

/-- statements that work on one object -/
def onRef {α : Type} (r : Nat) (body : SE (Traj K R) α) : SE (Heap K R) α := fun h =>
  match h[r]? with
  | some T => ((body T).1, h.set r (body T).2)
  | none => (.error .attributeError, h)

/-- `copy` (trajectory.py:134-142): `copy.deepcopy(self)`, a new object -/
def copyRef (r : Nat) : SE (Heap K R) Nat := fun h =>
  match h[r]? with
  | some T => (.ok h.length, h ++ [T])
  | none => (.error .attributeError, h)

/-- `self if inplace else self.copy()` (trajectory.py:451, 516, 548, 588, 617, 738, 760, 775, 790) -/
def selfOrCopy (inplace : Bool) (r : Nat) : SE (Heap K R) Nat :=
  if inplace then pure r else copyRef r

namespace H

/-- `apply_index` (trajectory.py:569-604) -/
def applyIndex (r : Nat) (index : Index) (inplace : Bool) : SE (Heap K R) Nat := do
  let s ← selfOrCopy inplace r
  onRef s (Traj.applyIndex index)
  return s

/-- `crop` (trajectory.py:408-431): the mask is computed from the receiver -/
def crop (r : Nat) (a b : K) (inverse inplace : Bool) : SE (Heap K R) Nat := do
  let me ← rd r
  let filt := if inverse then me.tstamps.map (fun t => !decide (a ≤ t ∧ t ≤ b))
    else me.tstamps.map (fun t => decide (a ≤ t ∧ t ≤ b))
  applyIndex r (.mask filt) inplace

/-- `interpolate` (trajectory.py:433-462): the cropped timestamps come from the receiver, the
assignments go to `traj_self` -/
def interpolate (L : RotLib K R) (r : Nat) (ts : List K) (inplace : Bool) : SE (Heap K R) Nat := do
  let sorted := npSort ts
  let s ← selfOrCopy inplace r
  let me ← rd r
  let cropped ← SE.lift (Traj.cropStamps me.tstamps sorted)
  onRef s (Traj.interpolatePositions cropped)
  onRef s (Traj.interpolateRotations L cropped)
  let o ← rd s
  let g ← SE.lift (gradient3d o.pos cropped)
  onRef s (SE.modify (fun s => { s with speed := g }))
  let o ← rd s
  let as ← SE.lift (npInterp cropped o.tstamps o.arc)
  onRef s (SE.modify (fun s => { s with arc := as }))
  onRef s (SE.modify (fun s => { s with tstamps := cropped }))
  return s

/-- `match_timestamps` (trajectory.py:507-520) -/
def matchTimestamps (r : Nat) (ts : List K) (inplace : Bool) : SE (Heap K R) Nat := do
  let s ← selfOrCopy inplace r
  let o ← rd s
  let _ ← applyIndex s (.ints (Traj.intersectIdx o.tstamps ts)) true
  return s

/-- `intersect` (trajectory.py:522-567) -/
def intersect (r : Nat) (ts : List K) (maxGap : K) (inplace : Bool) : SE (Heap K R) Nat := do
  let s ← selfOrCopy inplace r
  let o ← rd s
  let span ← SE.lift (commonTimeSpan ts o.tstamps)
  match span with
  | none => SE.raise Err.valueError
  | some (t0, t1) => do
    let _ ← crop s t0 t1 false true
    let o ← rd s
    let idx ← SE.lift (Traj.gapFilter (npSort ts) maxGap o.tstamps 0)
    let _ ← applyIndex s (.ints idx) true
    return s

/-- `apply_transformation` (trajectory.py:606-619) -/
def applyTransformation (L : RotLib K R) (r : Nat) (A : M4 K) (inplace : Bool) :
    SE (Heap K R) Nat := do
  let s ← selfOrCopy inplace r
  let o ← rd s
  onRef s (Traj.setSe3 L ((o.se3 L).map (fun p => A * p)))
  return s

/-- `apply_alignment` (trajectory.py:621-692).  Line 653 reads the local variable `trajectory`
before it is assigned when `inplace` is true, which raises `UnboundLocalError`. -/
def applyAlignment (L : RotLib K R) (τ : Trig K) (toEuler : R → V3 K) (r : Nat)
    (q : Equations.Params K) (sensor : R) (inplace : Bool) : SE (Heap K R) Nat := do
  let s ← if inplace then SE.raise Err.unboundLocal else copyRef r
  onRef s (Traj.applyAlignmentBody L τ toEuler q sensor)
  return s

/-- `sort_spatially` (trajectory.py:694-713): the order is computed from the receiver before any
copy is made -/
def sortSpatially (argsortN : List Nat → List Nat)
    (sortMls : List (V3 K) → Except Err (List Nat × List K)) (r : Nat) (inplace : Bool) :
    SE (Heap K R) Nat := do
  let me ← rd r
  let (sortIdx, arcs) ← SE.lift (sortMls me.pos)
  let argSort := argsortN sortIdx
  let s ← applyIndex r (.ints ((npSort sortIdx).map (fun i : Nat => (i : Int)))) inplace
  let as ← SE.lift (Traj.take arcs argSort)
  onRef s (SE.modify (fun s => { s with arc := as }))
  onRef s (SE.modify (fun s => { s with sorting := .arcLength }))
  return s

/-- `approximate` (trajectory.py:715-748): views and switching index are read from the receiver,
also after `traj_approx` has been changed -/
def approximate (argsort : List K → List Nat) (argsortN : List Nat → List Nat)
    (cubic : List K → List (V3 K) → Except Err (List (V3 K)))
    (rotAvg : List K → List R → Except Err (List R)) (r : Nat) (inplace : Bool) :
    SE (Heap K R) Nat := do
  let me ← rd r
  let f ← SE.lift (me.functionOf argsort)
  let x ← SE.lift (me.xyz argsort)
  let xa ← SE.lift (cubic f x)
  let s ← selfOrCopy inplace r
  let me ← rd r
  let p ← SE.lift (Traj.take xa (me.sortSwitchingIndex argsort argsortN))
  onRef s (SE.modify (fun s => { s with pos := p }))
  let o ← rd s
  match o.rot with
  | none => return s
  | some ro =>
    if ro.length = 0 then return s
    else do
      let me ← rd r
      match me.rot with
      | none => SE.raise Err.attributeError
      | some rr => do
        let f ← SE.lift (me.functionOf argsort)
        let q ← SE.lift (Traj.take rr (me.sortingIndex argsort))
        let qa ← SE.lift (rotAvg f q)
        let q' ← SE.lift (Traj.take qa (me.sortSwitchingIndex argsort argsortN))
        onRef s (SE.modify (fun s => { s with rot := some q' }))
        return s

/-- `adopt_first_position` (trajectory.py:765-778): the target reference is overwritten -/
def adoptFirstPosition (r : Nat) (_target : Nat) (inplace : Bool) : SE (Heap K R) Nat := do
  let t ← selfOrCopy inplace r
  let o ← rd t
  let a ← SE.lift (npGet o.pos 0)
  let b ← SE.lift (npGet o.pos 0)
  onRef t (SE.modify (fun s => { s with pos := s.pos.map (fun p => p + (a - b)) }))
  return t

/-- `adopt_first_orientation` (trajectory.py:780-797) -/
def adoptFirstOrientation (toEuler : R → V3 K) (fromEuler : V3 K → R) (r : Nat) (_target : Nat)
    (inplace : Bool) : SE (Heap K R) Nat := do
  let t ← selfOrCopy inplace r
  let me ← rd r
  let o ← rd t
  match me.rot, o.rot with
  | some _, some q => do
    let rpy := q.map toEuler
    let a ← SE.lift (npGet (q.map toEuler) 0)
    let b ← SE.lift (npGet rpy 0)
    onRef t (SE.modify (fun s => { s with rot := some (rpy.map (fun e => fromEuler (e + (a - b)))) }))
    return t
  | _, _ => return t

/-- `adopt_first_pose` (trajectory.py:750-763) -/
def adoptFirstPose (toEuler : R → V3 K) (fromEuler : V3 K → R) (r : Nat) (_target : Nat)
    (inplace : Bool) : SE (Heap K R) Nat := do
  let t ← selfOrCopy inplace r
  let _ ← adoptFirstPosition t t true
  let _ ← adoptFirstOrientation toEuler fromEuler t t true
  return t

/-- Library routines used by the methods, as parameters. -/
structure Lib (K R : Type) where
  rot : RotLib K R
  trig : Trig K
  toEuler : R → V3 K
  fromEuler : V3 K → R
  argsort : List K → List Nat
  argsortN : List Nat → List Nat
  sortMls : List (V3 K) → Except Err (List Nat × List K)
  cubic : List K → List (V3 K) → Except Err (List (V3 K))
  rotAvg : List K → List R → Except Err (List R)

/-- A call of a public method of `Trajectory` that has an `inplace` argument. -/
inductive Call (K R : Type)
  | applyIndex (index : Index)
  | crop (a b : K) (inverse : Bool)
  | interpolate (ts : List K)
  | matchTimestamps (ts : List K)
  | intersect (ts : List K) (maxGap : K)
  | applyTransformation (A : M4 K)
  | applyAlignment (q : Equations.Params K) (sensor : R)
  | sortSpatially
  | approximate
  | adoptFirstPosition (target : Nat)
  | adoptFirstOrientation (target : Nat)
  | adoptFirstPose (target : Nat)

/-- perform a call on object `r` -/
def run (lib : Lib K R) (c : Call K R) (r : Nat) (inplace : Bool) : SE (Heap K R) Nat :=
  match c with
  | .applyIndex index => applyIndex r index inplace
  | .crop a b inverse => crop r a b inverse inplace
  | .interpolate ts => interpolate lib.rot r ts inplace
  | .matchTimestamps ts => matchTimestamps r ts inplace
  | .intersect ts g => intersect r ts g inplace
  | .applyTransformation A => applyTransformation lib.rot r A inplace
  | .applyAlignment q sensor => applyAlignment lib.rot lib.trig lib.toEuler r q sensor inplace
  | .sortSpatially => sortSpatially lib.argsortN lib.sortMls r inplace
  | .approximate => approximate lib.argsort lib.argsortN lib.cubic lib.rotAvg r inplace
  | .adoptFirstPosition t => adoptFirstPosition r t inplace
  | .adoptFirstOrientation t => adoptFirstOrientation lib.toEuler lib.fromEuler r t inplace
  | .adoptFirstPose t => adoptFirstPose lib.toEuler lib.fromEuler r t inplace

end H
end TC
