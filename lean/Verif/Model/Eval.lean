import Verif.Model.Traj
import Verif.Model.Arange
/-!
# `trajectopy_core/evaluation/comparison.py`, `evaluation/utils.py`, `evaluation/deviations.py`
-/
namespace TC
variable {K R : Type} [Field K] [LinearOrder K]

/-- numeric routines used by the evaluation: `np.linalg.norm` of a row (comparison.py:150, 265),
`np.sqrt` (comparison.py:199, 297), `np.arccos` (comparison.py:191) -/
structure EvalLib (K : Type) where
  nrm : V3 K → K
  sqrt : K → K
  acos : K → K

/-- evaluate an expression for the entries of a list one after the other; the first exception
leaves the loop -/
def mapE {α β : Type} (f : α → Except Err β) : List α → Except Err (List β)
  | [] => .ok []
  | a :: as => do
    let b ← f a
    let bs ← mapE f as
    return b :: bs

/-- an operation on two arrays, row by row, with numpy's broadcasting of the first axis
(comparison.py:36; scipy's composition of rotation stacks has the same rule, comparison.py:44) -/
def bcast {α β γ : Type} (f : α → β → γ) (a : List α) (b : List β) : Except Err (List γ) :=
  if a.length = b.length then .ok (List.zipWith f a b)
  else match a with
    | [x] => .ok (b.map (f x))
    | _ => match b with
      | [y] => .ok (a.map (fun x => f x y))
      | _ => .error .valueError

/-- `np.sign` (comparison.py:265, 295) -/
def npSign (x : K) : K := if 0 < x then 1 else if x < 0 then -1 else 0

/-- `nearest_point` (evaluation/utils.py:29-58): the point and the parameter `t` -/
def nearestPoint (E : EvalLib K) (p a b : V3 K) : V3 K × K :=
  let rv := b - a
  let n := E.nrm rv
  if n = 0 then (a, 0)
  else
    let rv := n⁻¹ • rv
    let t := V3.dot (p - a) rv
    (a + t • rv, t)

/-- `_along_track_dev` (comparison.py:256-271) -/
def alongTrackDev (E : EvalLib K) (p a b : V3 K) (isLast : Bool) : K :=
  let (q, t) := nearestPoint E p a b
  if isLast = false then npSign t * E.nrm (q - a)
  else if E.nrm (b - a) > E.nrm (q - a) then -E.nrm (q - b)
  else E.nrm (q - b)

/-- `_cross_track_dev` (comparison.py:274-314), horizontal and vertical; `z_slope_dist` is never
set by a caller and is left out -/
def crossTrackDev (E : EvalLib K) (p a b : V3 K) : K × K :=
  let (q, _) := nearestPoint E p a b
  let side := (p.x - a.x) * (b.y - a.y) + (p.y - a.y) * (-(b.x - a.x))
  let dSign := -npSign side
  let diff := q - p
  (dSign * E.sqrt (diff.x ^ 2 + diff.y ^ 2), diff.z)

/-- one pass of the loop in `derive_dev_directions_no_rot` (comparison.py:227-235); `N` is the
number of test positions -/
def devNoRot (E : EvalLib K) (xyzRef xyzTest : List (V3 K)) (i : Nat) : Except Err (V3 K) := do
  let cur ← npGet xyzRef (i : Int)
  let isLast := decide (i + 1 = xyzTest.length)
  let nxt ← if isLast then npGet xyzRef ((i : Int) - 1) else npGet xyzRef ((i : Int) + 1)
  let (a, b) := if isLast then (nxt, cur) else (cur, nxt)
  let p ← npGet xyzTest (i : Int)
  let (h, v) := crossTrackDev E p a b
  let al := alongTrackDev E p a b isLast
  return ⟨al, h, v⟩

/-- `derive_dev_directions_no_rot` (comparison.py:211-237) -/
def devDirectionsNoRot (E : EvalLib K) (xyzRef xyzTest : List (V3 K)) : Except Err (List (V3 K)) :=
  mapE (devNoRot E xyzRef xyzTest) (List.range xyzTest.length)

/-- `derive_dev_directions_with_rot` (comparison.py:240-253), arguments reference, test, rotation
matrices: one row per test position, the rows of the reference positions are filled in.  `v @ M`
is the transposed matrix applied to `v`. -/
def devDirectionsWithRot : List (V3 K) → List (V3 K) → List (M3 K) → Except Err (List (V3 K))
  | [], test, _ => .ok (test.map (fun _ => 0))
  | p :: ps, q :: qs, m :: ms => do
    let rest ← devDirectionsWithRot ps qs ms
    return mulV m.transpose (q - p) :: rest
  | _ :: _, _, _ => .error .indexError

/-- `get_directed_deviations` (comparison.py:202-208) -/
def directedDeviations (E : EvalLib K) (L : RotLib K R) (xyzRef xyzTest : List (V3 K))
    (rot : Option (List R)) : Except Err (List (V3 K)) :=
  match rot with
  | none => devDirectionsNoRot E xyzRef xyzTest
  | some r => devDirectionsWithRot xyzRef xyzTest (r.map L.toMat)

/-- `ATEResult` (evaluation/ate_result.py:31-41) with its `AbsoluteTrajectoryDeviations`
(evaluation/deviations.py:30-35) -/
structure AteResult (K R : Type) where
  name : String
  trajectory : Traj K R
  posDev : List (V3 K)
  directed : List (V3 K)
  rotDev : Option (List R)
  rotationsUsed : Bool
  deriving DecidableEq

/-- `a or b` for optional rotations (comparison.py:40, 52; a `Rotation` object is always true) -/
def rotEither (a b : Option (List R)) : Option (List R) :=
  match a with
  | some r => some r
  | none => b

/-- `compare_trajectories_absolute` (comparison.py:24-59) -/
def compareAbsolute (E : EvalLib K) (L : RotLib K R) (test ref : Traj K R) :
    Except Err (AteResult K R) := do
  let posDev ← bcast (fun a b => a - b) ref.pos test.pos
  let directed ← directedDeviations E L ref.pos test.pos (rotEither ref.rot test.rot)
  let rotDev ← match ref.rot, test.rot with
    | some r, some t => do
      let d ← bcast (fun a b => L.mul a (L.inv b)) r t
      pure (some d)
    | _, _ => pure none
  return { name := test.name ++ " vs. " ++ ref.name
           trajectory := test
           posDev := posDev
           directed := directed
           rotDev := rotDev
           rotationsUsed := (rotEither ref.rot test.rot).isSome }

/-! ### relative comparison -/

/-- `Unit` (definitions.py:15-25) -/
inductive MUnit
  | degree
  | radian
  | meter
  | second
  | scale
  | none
  deriving DecidableEq, Repr

/-- `RelativeComparisonSettings` (settings/comparison.py:33-49) -/
structure RpeSettings (K : Type) where
  minDist : K
  maxDist : K
  step : K
  unit : MUnit
  allPairs : Bool

/-- `_get_pair_indices` (comparison.py:62-91).  `np.searchsorted` presupposes ascending distances. -/
def pairIndices [FloorRing K] (distances : List K) (allPairs : Bool) (dist : K) :
    Except Err (List (Nat × Nat)) :=
  if allPairs then do
    let rows ← mapE (fun c : K × Nat => do
      let l ← pyLast distances
      return if c.1 + dist < l then [(c.2, c.1 + dist)] else []) distances.zipIdx
    let steps := rows.flatten
    return steps.map (fun c => (c.1, searchLeft distances c.2))
  else do
    let f ← pyFirst distances
    let l ← pyLast distances
    let steps ← arange f l dist
    let idx := steps.map (searchLeft distances)
    return idx.dropLast.zip idx.tail

/-- `a / b` for numpy floats: division by zero gives `nan` or `inf`, `none` here -/
def npDiv (a b : K) : Option K := if b = 0 then none else some (a / b)

/-- `se3_inv` (comparison.py:174-182) -/
def se3Inv (P : M4 K) : M4 K :=
  mkPose (poseRot P).transpose (-mulV (poseRot P).transpose (posePos P))

/-- `rotation_error` (comparison.py:185-191) -/
def rotationError (E : EvalLib K) (P : M4 K) : K :=
  E.acos (max (min ((1 / 2) * (P 0 0 + P 1 1 + P 2 2 - 1)) 1) (-1))

/-- `translation_error` (comparison.py:194-199) -/
def translationError (E : EvalLib K) (P : M4 K) : K :=
  E.sqrt (P 0 3 * P 0 3 + P 1 3 * P 1 3 + P 2 3 * P 2 3)

/-- what one pass of the inner loop (comparison.py:134-155) appends: the distance, the position
deviation and, with orientations, the rotation deviation -/
structure PairDev (K : Type) where
  distance : K
  pos : Option K
  rot : Option (Option K)
  deriving DecidableEq

/-- one pass of the inner loop (comparison.py:134-155); `D` are the arc lengths or timestamps of
the reference -/
def pairDev (E : EvalLib K) (L : RotLib K R) (test ref : Traj K R) (D : List K) (c : Nat × Nat) :
    Except Err (PairDev K) := do
  let d1 ← npGet D (c.2 : Int)
  let d0 ← npGet D (c.1 : Int)
  let distance := d1 - d0
  if ref.hasOrientation && test.hasOrientation then do
    let g0 ← npGet (ref.se3 L) (c.1 : Int)
    let g1 ← npGet (ref.se3 L) (c.2 : Int)
    let t0 ← npGet (test.se3 L) (c.1 : Int)
    let t1 ← npGet (test.se3 L) (c.2 : Int)
    let deltaGt := se3Inv g0 * g1
    let deltaTest := se3Inv t0 * t1
    let err := se3Inv deltaGt * deltaTest
    return { distance := distance
             pos := npDiv (translationError E err) distance
             rot := some (npDiv (rotationError E err) distance) }
  else do
    let g1 ← npGet ref.pos (c.2 : Int)
    let g0 ← npGet ref.pos (c.1 : Int)
    let t1 ← npGet test.pos (c.2 : Int)
    let t0 ← npGet test.pos (c.1 : Int)
    return { distance := distance
             pos := npDiv |E.nrm (g1 - g0) - E.nrm (t1 - t0)| distance
             rot := none }

/-- One entry of the dictionaries of `RelativeTrajectoryDeviations` (evaluation/deviations.py:17-22),
which have the same keys.  `none` stands for `nan` or `inf`. -/
structure RpeGroup (K : Type) where
  key : K
  posDev : List (Option K)
  rotDev : List (Option K)
  pairDist : List K
  deriving DecidableEq

/-- `RPEResult` (evaluation/rpe_result.py:28-34) with its deviations; the dictionaries keep the
order of insertion -/
structure RpeResult (K : Type) where
  name : String
  groups : List (RpeGroup K)
  unit : MUnit
  deriving DecidableEq

/-- the requested distances (comparison.py:102-106); with Python floats a zero step raises
`ZeroDivisionError` -/
def pairDists [FloorRing K] (s : RpeSettings K) : Except Err (List K) :=
  if s.step = 0 then .error .zeroDivision
  else arange s.minDist (s.maxDist + s.step) s.step

/-- one pass of the outer loop (comparison.py:116-155).  The keys are different from each other
(rounding of floats is not modelled), so no entry is overwritten. -/
def rpeGroup [FloorRing K] (E : EvalLib K) (L : RotLib K R) (test ref : Traj K R)
    (s : RpeSettings K) (dist : K) : Except Err (RpeGroup K) := do
  let D ← match s.unit with
    | .meter => pure ref.arc
    | .second => pure ref.tstamps
    | _ => throw Err.valueError
  let pairs ← pairIndices D s.allPairs dist
  let devs ← mapE (pairDev E L test ref D) pairs
  return { key := dist
           posDev := devs.map PairDev.pos
           rotDev := devs.filterMap PairDev.rot
           pairDist := devs.map PairDev.distance }

/-- `compare_trajectories_relative` (comparison.py:94-171) -/
def compareRelative [FloorRing K] (E : EvalLib K) (L : RotLib K R) (test ref : Traj K R)
    (s : RpeSettings K) : Except Err (RpeResult K) := do
  if s.minDist > s.maxDist then throw Err.valueError
  let dists ← pairDists s
  let groups ← mapE (rpeGroup E L test ref s) dists
  if (groups.map (fun g => g.pairDist.length)).sum = 0 then throw Err.valueError
  return { name := test.name ++ " vs. " ++ ref.name, groups := groups, unit := s.unit }

end TC
