import Verif.Model.Utils
import Verif.Model.Rot
/-!
# `trajectopy_core/trajectory.py`: the `Trajectory` class

A trajectory is a mutable record.  Methods are computations `SE (Traj K R) _` on the record that
is called `traj_self` in the code; `inplace` and object identity are added in `Model/Heap.lean`.
-/
namespace TC

/-- `Sorting` (sorting.py:24-26) -/
inductive Sorting
  | time
  | arcLength
  deriving DecidableEq, Repr

/-- The attributes of a `Trajectory` (trajectory.py:60-79).  `pos` is the coordinate array of the
`PointSet` and `epsg` its EPSG code; the local transformer is not modelled (`to_local` is the
identity). -/
structure Traj (K R : Type) where
  tstamps : List K
  pos : List (V3 K)
  rot : Option (List R)
  arc : List K
  speed : List (V3 K)
  sorting : Sorting
  name : String
  epsg : Int
  deriving DecidableEq

/-- The arguments of the constructor (trajectory.py:47-56); `none` = argument omitted. -/
structure TrajArgs (K R : Type) where
  pos : List (V3 K)
  epsg : Int := 0
  rot : Option (List R) := none
  tstamps : Option (List K) := none
  name : String := ""
  arc : Option (List K) := none
  speed : Option (List (V3 K)) := none
  sorting : Sorting := .time

variable {K R : Type} [Field K] [LinearOrder K]

namespace Traj

/-- `Trajectory.__init__` (trajectory.py:47-81); `counter` is the class variable `_counter`. -/
def new (nrm : V3 K → K) (counter : Nat) (a : TrajArgs K R) : Except Err (Traj K R) := do
  match a.rot with
  | some r => if r.length ≠ a.pos.length then throw Err.valueError
  | none => pure ()
  let tstamps := match a.tstamps with
    | none => (List.range a.pos.length).map (fun i : Nat => (i : K))
    | some t => t
  let computeSpeed := gradient3d a.pos tstamps
  let speed ← match a.speed with
    | some v => if v.length = a.pos.length then pure v else computeSpeed
    | none => computeSpeed
  let arc := match a.arc with
    | some l => if l.length = a.pos.length then l else lengthsFromXyz nrm a.pos
    | none => lengthsFromXyz nrm a.pos
  let name := if a.name = "" then "Trajectory " ++ toString counter else a.name
  return { tstamps := tstamps, pos := a.pos, rot := a.rot, arc := arc, speed := speed,
           sorting := a.sorting, name := name, epsg := a.epsg }

/-- `has_orientation` (trajectory.py:102-106) -/
def hasOrientation (T : Traj K R) : Bool :=
  match T.rot with
  | some r => decide (r.length > 0)
  | none => false

/-- `__len__` (trajectory.py:111-115) -/
def len (T : Traj K R) : Nat := T.pos.length

/-- `sorting_index` (trajectory.py:193-198), with `np.argsort` as a parameter -/
def sortingIndex (argsort : List K → List Nat) (T : Traj K R) : List Nat :=
  match T.sorting with
  | .time => argsort T.tstamps
  | .arcLength => argsort T.arc

/-- `a[p]` for an index array of non-negative integers -/
def take {α : Type} (l : List α) (p : List Nat) : Except Err (List α) :=
  npTake l (p.map (fun i : Nat => (i : Int)))

/-- `function_of` (trajectory.py:200-207) -/
def functionOf (argsort : List K → List Nat) (T : Traj K R) : Except Err (List K) :=
  match T.sorting with
  | .time => take T.tstamps (T.sortingIndex argsort)
  | .arcLength => take T.arc (T.sortingIndex argsort)

/-- `xyz` (trajectory.py:223-231) -/
def xyz (argsort : List K → List Nat) (T : Traj K R) : Except Err (List (V3 K)) :=
  take T.pos (T.sortingIndex argsort)

/-- `quat` (trajectory.py:233-244) for a trajectory with orientations; the rotations themselves
stand for their quaternions.  (Without orientations the code returns zero rows, which are not
rotations; that branch is `none`.) -/
def quat (argsort : List K → List Nat) (T : Traj K R) : Except Err (Option (List R)) :=
  match T.rot with
  | none => .ok none
  | some r => do
    let q ← take r (T.sortingIndex argsort)
    return some q

/-- `data_rate` (trajectory.py:373-378); the mean of an empty array is not a number in numpy, here
`Err.valueError` marks that no number is returned. -/
def dataRate (T : Traj K R) : Except Err K :=
  let d := diffs (npSort T.tstamps)
  if d.length = 0 then .error .valueError
  else .ok (1 / (d.sum / (d.length : K)))

/-- `total_length` (trajectory.py:380-385) -/
def totalLength (T : Traj K R) : Except Err K :=
  if T.arc.length = 0 then .ok 0 else pyLast T.arc

/-- `sort_switching_index` (trajectory.py:186-191); `argsortN` sorts integer arrays -/
def sortSwitchingIndex (argsort : List K → List Nat) (argsortN : List Nat → List Nat)
    (T : Traj K R) : List Nat :=
  argsortN (T.sortingIndex argsort)

/-! ### Operations that change the trajectory -/

/-- `apply_index` (trajectory.py:569-604), assignment by assignment.  Line 597: scipy (1.13, see
poetry.lock) refuses to build an empty set of rotations: `from_quat` of zero rows raises
`ValueError`, at a point where timestamps and positions have already been replaced. -/
def applyIndex (index : Index) : SE (Traj K R) Unit := do
  let s ← SE.get
  let ts ← SE.lift (npIndex s.tstamps index)
  SE.modify (fun s => { s with tstamps := ts })
  let s ← SE.get
  let ps ← SE.lift (npIndex s.pos index)
  SE.modify (fun s => { s with pos := ps })
  let s ← SE.get
  match s.rot with
  | some r => do
    let q ← SE.lift (npIndex r index)
    if q.length = 0 then SE.raise Err.valueError
    else SE.modify (fun s => { s with rot := some q })
  | none => pure ()
  let s ← SE.get
  let as ← SE.lift (npIndex s.arc index)
  SE.modify (fun s => { s with arc := as })
  let s ← SE.get
  let vs ← SE.lift (npIndex s.speed index)
  SE.modify (fun s => { s with speed := vs })

/-- `crop` (trajectory.py:408-431) -/
def crop (tStart tEnd : K) (inverse : Bool) : SE (Traj K R) Unit := do
  let s ← SE.get
  let filt := if inverse then s.tstamps.map (fun t => !decide (tStart ≤ t ∧ t ≤ tEnd))
    else s.tstamps.map (fun t => decide (tStart ≤ t ∧ t ≤ tEnd))
  applyIndex (.mask filt)

/-- the list comprehension in trajectory.py:452; `self.tstamps[0]` is only evaluated when there
is a requested timestamp, `self.tstamps[-1]` only if the first comparison holds. -/
def cropStamps (own : List K) : List K → Except Err (List K)
  | [] => .ok []
  | t :: ts => do
    let f ← pyFirst own
    let keep ← if f ≤ t then (do let l ← pyLast own; return decide (t ≤ l)) else pure false
    let rest ← cropStamps own ts
    return if keep then t :: rest else rest

/-- `_interpolate_positions` (trajectory.py:489-505) -/
def interpolatePositions (ts : List K) : SE (Traj K R) Unit := do
  let s ← SE.get
  let xi ← SE.lift (npInterp ts s.tstamps (s.pos.map V3.x))
  let yi ← SE.lift (npInterp ts s.tstamps (s.pos.map V3.y))
  let zi ← SE.lift (npInterp ts s.tstamps (s.pos.map V3.z))
  SE.modify (fun s => { s with pos := List.zipWith (fun x yz => ⟨x, yz.1, yz.2⟩) xi (yi.zip zi) })

/-- one evaluation of scipy's `Slerp` at `t`: the interval is `searchsorted(times, t) - 1`, and
`0` for the first time itself -/
def slerpOne (L : RotLib K R) (times : List K) (rots : List R) (t : K) : Except Err R := do
  let f ← pyFirst times
  let ind : Nat := if t = f then 0 else searchLeft times t - 1
  let t0 ← npGet times (ind : Int)
  let t1 ← npGet times ((ind : Int) + 1)
  let r0 ← npGet rots (ind : Int)
  let r1 ← npGet rots ((ind : Int) + 1)
  return L.slerp r0 r1 ((t - t0) / (t1 - t0))

/-- all evaluations of a `Slerp` call -/
def slerpAll (L : RotLib K R) (times : List K) (rots : List R) : List K → Except Err (List R)
  | [] => .ok []
  | t :: ts => do
    let r ← slerpOne L times rots t
    let rs ← slerpAll L times rots ts
    return r :: rs

/-- scipy's `Slerp(times, rots)(ts)` (trajectory.py:484-485): raises `ValueError` for fewer than
two rotations, for different lengths, for times that do not strictly increase and for queries
outside the time range. -/
def slerpCall (L : RotLib K R) (times : List K) (rots : List R) (ts : List K) :
    Except Err (List R) := do
  if rots.length < 2 then throw Err.valueError
  if times.length ≠ rots.length then throw Err.valueError
  if ¬ StrictAsc times then throw Err.valueError
  let f ← pyFirst times
  let l ← pyLast times
  if ts.any (fun t => decide (t < f ∨ l < t)) then throw Err.valueError
  slerpAll L times rots ts

/-- `_interpolate_rotations` (trajectory.py:464-487) -/
def interpolateRotations (L : RotLib K R) (ts : List K) : SE (Traj K R) Unit := do
  let s ← SE.get
  match s.rot with
  | none => pure ()
  | some r =>
    if ts.length = 0 then pure ()
    else do
      let q ← SE.lift (slerpCall L s.tstamps r ts)
      SE.modify (fun s => { s with rot := some q })

/-- `interpolate` (trajectory.py:433-462) -/
def interpolate (L : RotLib K R) (tstamps : List K) : SE (Traj K R) Unit := do
  let s ← SE.get
  let cropped ← SE.lift (cropStamps s.tstamps (npSort tstamps))
  interpolatePositions cropped
  interpolateRotations L cropped
  let s ← SE.get
  let g ← SE.lift (gradient3d s.pos cropped)
  SE.modify (fun s => { s with speed := g })
  let s ← SE.get
  let as ← SE.lift (npInterp cropped s.tstamps s.arc)
  SE.modify (fun s => { s with arc := as })
  SE.modify (fun s => { s with tstamps := cropped })

/-- the index part of `np.intersect1d(own, ts, return_indices=True)` (trajectory.py:518): for each
distinct common value, ascending, the first position in `own` -/
def intersectIdx (own ts : List K) : List Int :=
  (((npSort own).dedup).filter (fun t => decide (t ∈ ts))).map
    (fun t => ((own.findIdx (fun u => decide (u = t)) : Nat) : Int))

/-- `match_timestamps` (trajectory.py:507-520) -/
def matchTimestamps (ts : List K) : SE (Traj K R) Unit := do
  let s ← SE.get
  applyIndex (.ints (intersectIdx s.tstamps ts))

/-- the condition in trajectory.py:560-563; an index of `-1` wraps around as in Python -/
def gapKeep (sorted : List K) (maxGap t : K) : Except Err Bool := do
  let ln : Int := (searchRight sorted t : Int) - 1
  let a ← npGet sorted ln
  if a = t then return true
  else
    let b ← npGet sorted (ln + 1)
    let c ← npGet sorted ln
    return decide (b - c ≤ maxGap)

/-- the list comprehension in trajectory.py:557-564, starting at position `i` -/
def gapFilter (sorted : List K) (maxGap : K) : List K → Nat → Except Err (List Int)
  | [], _ => .ok []
  | t :: ts, i => do
    let keep ← gapKeep sorted maxGap t
    let rest ← gapFilter sorted maxGap ts (i + 1)
    return if keep then (i : Int) :: rest else rest

/-- `intersect` (trajectory.py:522-567) -/
def intersect (ts : List K) (maxGap : K) : SE (Traj K R) Unit := do
  let s ← SE.get
  let span ← SE.lift (commonTimeSpan ts s.tstamps)
  match span with
  | none => SE.raise Err.valueError
  | some (t0, t1) => do
    crop t0 t1 false
    let s ← SE.get
    let idx ← SE.lift (gapFilter (npSort ts) maxGap s.tstamps 0)
    applyIndex (.ints idx)

/-- getter of `se3` (trajectory.py:339-356); `zip` truncates to the shorter list -/
def se3 (L : RotLib K R) (T : Traj K R) : List (M4 K) :=
  match T.rot with
  | none => T.pos.map (fun t => mkPose 1 t)
  | some r => List.zipWith (fun t q => mkPose (L.toMat q) t) T.pos r

/-- setter of `se3` (trajectory.py:358-371).  As in `applyIndex`, `from_matrix` of an empty stack
raises `ValueError` (after the positions have been assigned). -/
def setSe3 (L : RotLib K R) (ps : List (M4 K)) : SE (Traj K R) Unit := do
  SE.modify (fun s => { s with pos := ps.map posePos })
  if ps.length = 0 then SE.raise Err.valueError
  else SE.modify (fun s => { s with rot := some (ps.map (fun p => L.fromMat (poseRot p))) })

/-- `apply_transformation` (trajectory.py:606-619) -/
def applyTransformation (L : RotLib K R) (A : M4 K) : SE (Traj K R) Unit := do
  let s ← SE.get
  setSe3 L ((s.se3 L).map (fun p => A * p))

/-- `sort_spatially` (trajectory.py:694-713); `sortMls` is the result of `sort_mls` (an exception,
or index list and arc lengths), `argsortN` is `np.argsort` on integers. -/
def sortSpatially (argsortN : List Nat → List Nat)
    (sortMls : List (V3 K) → Except Err (List Nat × List K)) : SE (Traj K R) Unit := do
  let s ← SE.get
  let (sortIdx, arcs) ← SE.lift (sortMls s.pos)
  let argSort := argsortN sortIdx
  applyIndex (.ints ((npSort sortIdx).map (fun i : Nat => (i : Int))))
  let as ← SE.lift (take arcs argSort)
  SE.modify (fun s => { s with arc := as })
  SE.modify (fun s => { s with sorting := .arcLength })

/-- `approximate` (trajectory.py:715-748); `cubic` is `piecewise_cubic` with the settings filled in,
`rotAvg` is `rot_average_window`. -/
def approximate (argsort : List K → List Nat) (argsortN : List Nat → List Nat)
    (cubic : List K → List (V3 K) → Except Err (List (V3 K)))
    (rotAvg : List K → List R → Except Err (List R)) : SE (Traj K R) Unit := do
  let s ← SE.get
  let f ← SE.lift (s.functionOf argsort)
  let x ← SE.lift (s.xyz argsort)
  let xa ← SE.lift (cubic f x)
  let p ← SE.lift (take xa (s.sortSwitchingIndex argsort argsortN))
  SE.modify (fun s => { s with pos := p })
  let s ← SE.get
  match s.rot with
  | none => pure ()
  | some r =>
    if r.length = 0 then pure ()
    else do
      let f ← SE.lift (s.functionOf argsort)
      let q ← SE.lift (take r (s.sortingIndex argsort))
      let qa ← SE.lift (rotAvg f q)
      let q' ← SE.lift (take qa (s.sortSwitchingIndex argsort argsortN))
      SE.modify (fun s => { s with rot := some q' })

/-- `adopt_first_position` (trajectory.py:765-778).  The parameter `trajectory` is overwritten by
the receiver in line 775, so the target `_target` is never read. -/
def adoptFirstPosition (_target : Traj K R) : SE (Traj K R) Unit := do
  let s ← SE.get
  let a ← SE.lift (npGet s.pos 0)
  let b ← SE.lift (npGet s.pos 0)
  SE.modify (fun s => { s with pos := s.pos.map (fun p => p + (a - b)) })

/-- `adopt_first_orientation` (trajectory.py:780-797), with the Euler-angle conversions
`toEuler`, `fromEuler`; the target is overwritten in line 790. -/
def adoptFirstOrientation (toEuler : R → V3 K) (fromEuler : V3 K → R) (_target : Traj K R) :
    SE (Traj K R) Unit := do
  let s ← SE.get
  match s.rot with
  | none => pure ()
  | some r => do
    let rpy := r.map toEuler
    let a ← SE.lift (npGet (r.map toEuler) 0)
    let b ← SE.lift (npGet rpy 0)
    SE.modify (fun s => { s with rot := some (rpy.map (fun e => fromEuler (e + (a - b)))) })

/-- `adopt_first_pose` (trajectory.py:750-763): passes the receiver itself on as the target. -/
def adoptFirstPose (toEuler : R → V3 K) (fromEuler : V3 K → R) (_target : Traj K R) :
    SE (Traj K R) Unit := do
  let s ← SE.get
  adoptFirstPosition s
  let s ← SE.get
  adoptFirstOrientation toEuler fromEuler s

end Traj
end TC
