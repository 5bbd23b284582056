import Verif.Model.Heap
import Verif.Model.Line
/-!
# `trajectopy_core/matching.py`
-/
namespace TC
variable {K R : Type} [Field K] [LinearOrder K]

/-- `scipy.spatial.KDTree(ref).query(test, k=1, distance_upper_bound=bound)` (matching.py:216-218):
for every query point the position of the found neighbour, or none (distance `inf`).
`bound = none` is the call without upper bound. -/
abbrev KdQuery (K P : Type) := List P → Option K → List P → List (Option Nat)

/-- the same with `k` neighbours per query point (matching.py:168-173) -/
abbrev KdQueryK (K P : Type) := List P → Option K → Nat → List P → List (List (Option Nat))

/-- positions of the query points that have a neighbour, with that neighbour: (neighbour, position)
(matching.py:222-223, 230-231) -/
def foundPairs : List (Option Nat) → Nat → List (Nat × Nat)
  | [], _ => []
  | none :: cs, i => foundPairs cs (i + 1)
  | some r :: cs, i => (r, i) :: foundPairs cs (i + 1)

/-- `np.unique(l, return_index=True)[1]` (matching.py:228): for the distinct values in ascending
order the position of the first occurrence -/
def uniqueIndex (l : List Nat) : List Nat :=
  (npSort l.dedup).map (fun v => l.findIdx (fun u => decide (u = v)))

/-- `kd_matcher` (matching.py:204-233): reference indices and test indices.  Without query points
the index matrix of line 222 has one dimension and line 223 raises `IndexError`. -/
def kdMatcher {P : Type} (query : KdQuery K P) (ref test : List P) (maxDistance : K) :
    Except Err (List Nat × List Nat) := do
  let closest := if maxDistance = 0 then query ref none test
    else query ref (some maxDistance) test
  if test.length = 0 then throw Err.indexError
  let found := foundPairs closest 0
  if found.length = 0 then throw Err.valueError
  let uniq := uniqueIndex (found.map Prod.fst)
  let r ← Traj.take (found.map Prod.fst) uniq
  let t ← Traj.take (found.map Prod.snd) uniq
  return (r, t)

/-- `MatchingMethod` (settings/matching.py:16-21) -/
inductive MatchingMethod
  | nearestSpatial
  | nearestTemporal
  | interpolation
  | nearestSpatialInterpolated
  | unknown
  deriving DecidableEq

/-- `MatchingSettings` (settings/matching.py:24-29) -/
structure MatchingSettings (K : Type) where
  method : MatchingMethod
  maxTimeDiff : K
  maxDistance : K
  kNearest : Nat

/-- library routines used by the matching functions -/
structure MatchLib (K R : Type) where
  rot : RotLib K R
  nrm : V3 K → K
  /-- query on timestamps. The code adds a column of zeros (matching.py:111-112), which does not
  change distances; it is left out. -/
  queryT : KdQuery K K
  queryP : KdQuery K (V3 K)
  queryPK : KdQueryK K (V3 K)
  /-- direction of the fitted line, see `Line3D.fromPoints` -/
  lineDir : List (V3 K) → V3 K

namespace H

/-- default of `max_gap_size` (trajectory.py:522) -/
def defaultGap : K := 2

/-- `match_trajectories_interpolation` (matching.py:65-89) -/
def matchInterpolation (lib : MatchLib K R) (test ref : Nat) : SE (Heap K R) (Nat × Nat) := do
  let o ← rd ref
  let _ ← intersect test o.tstamps defaultGap true
  let o ← rd test
  let _ ← intersect ref o.tstamps defaultGap true
  let o ← rd ref
  let _ ← interpolate lib.rot test o.tstamps true
  let o ← rd ref
  onRef test (SE.modify (fun s => { s with arc := o.arc }))
  return (test, ref)

/-- lines 114 and 138: both trajectories are reduced to the matched samples -/
def applyMatch (test ref : Nat) (m : List Nat × List Nat) : SE (Heap K R) (Nat × Nat) := do
  let t ← applyIndex test (.ints (m.2.map (fun i : Nat => (i : Int)))) true
  let r ← applyIndex ref (.ints (m.1.map (fun i : Nat => (i : Int)))) true
  return (t, r)

/-- `match_trajectories_temporal` (matching.py:92-114) -/
def matchTemporal (lib : MatchLib K R) (test ref : Nat) (maxDistance : K) :
    SE (Heap K R) (Nat × Nat) := do
  let o ← rd ref
  let p ← rd test
  let m ← SE.lift (kdMatcher lib.queryT o.tstamps p.tstamps maxDistance)
  applyMatch test ref m

/-- `match_trajectories_spatial` (matching.py:117-138) -/
def matchSpatial (lib : MatchLib K R) (test ref : Nat) (maxDistance : K) :
    SE (Heap K R) (Nat × Nat) := do
  let o ← rd ref
  let p ← rd test
  let m ← SE.lift (kdMatcher lib.queryP o.pos p.pos maxDistance)
  applyMatch test ref m

/-- a new object -/
def newRef (T : Traj K R) : SE (Heap K R) Nat := fun h => (.ok h.length, h ++ [T])

/-- lines 178-191: the matched positions, test first -/
def linePairs (lineDir : List (V3 K) → V3 K) (refXyz : List (V3 K)) :
    List (V3 K) → List (List (Option Nat)) → Except Err (List (V3 K × V3 K))
  | p :: ps, c :: cs =>
    if c.any (fun o => o.isNone) then linePairs lineDir refXyz ps cs
    else do
      let nb ← Traj.take refXyz (c.filterMap id)
      let q := (Line3D.fromPoints lineDir nb).evaluateAt p
      let rest ← linePairs lineDir refXyz ps cs
      return (p, q) :: rest
  | _, _ => .ok []

/-- `match_trajectories_spatial_interpolation` (matching.py:141-201).
For `k = 0` scipy raises `ValueError`; for `k = 1` it returns one-dimensional arrays and line 180
raises `TypeError` (a single value is not iterable) unless there is no row or nothing was found.
If all rows are skipped, the empty position array is rejected when the trajectory is built
(`IndexError`).  The local transformers are not modelled, `counter` is the class variable that
numbers unnamed trajectories. -/
def matchSpatialInterpolation (lib : MatchLib K R) (counter : Nat) (test ref : Nat)
    (maxDistance : K) (k : Nat) : SE (Heap K R) (Nat × Nat) := do
  let p ← rd test
  let o ← rd ref
  if k = 0 then SE.raise Err.valueError
  let closest := if maxDistance = 0 then lib.queryPK o.pos none k p.pos
    else lib.queryPK o.pos (some maxDistance) k p.pos
  if closest.all (fun c => c.all (fun i => i.isNone)) then SE.raise Err.valueError
  if k = 1 then SE.raise Err.typeError
  let pairs ← SE.lift (linePairs lib.lineDir o.pos p.pos closest)
  if pairs.length = 0 then SE.raise Err.indexError
  let a ← SE.lift (Traj.new lib.nrm counter { pos := pairs.map Prod.fst, name := p.name })
  let b ← SE.lift (Traj.new lib.nrm (counter + 1) { pos := pairs.map Prod.snd, name := o.name })
  let t ← newRef a
  let r ← newRef b
  return (t, r)

/-- `match_trajectories` (matching.py:23-62) -/
def matchTrajectories (lib : MatchLib K R) (counter : Nat) (fromRef toRef : Nat)
    (s : MatchingSettings K) (inplace : Bool) : SE (Heap K R) (Nat × Nat) := do
  let test ← selfOrCopy inplace fromRef
  let ref ← selfOrCopy inplace toRef
  match s.method with
  | .interpolation => matchInterpolation lib test ref
  | .nearestTemporal => matchTemporal lib test ref s.maxTimeDiff
  | .nearestSpatial => matchSpatial lib test ref s.maxDistance
  | .nearestSpatialInterpolated =>
    matchSpatialInterpolation lib counter test ref s.maxDistance s.kNearest
  | .unknown => SE.raise Err.valueError

/-- `np.median` (matching.py:248): the middle of the sorted values, or the mean of the two middle
ones. (For no values numpy returns `nan`; here 0.) -/
def median (l : List K) : K :=
  let s := npSort l
  if s.length % 2 = 1 then s.getD (s.length / 2) 0
  else (s.getD (s.length / 2 - 1) 0 + s.getD (s.length / 2) 0) / 2

/-- `rough_timestamp_matching` (matching.py:236-250) -/
def roughTimestampMatching (lib : MatchLib K R) (ref test : Nat) (maxDistance : K) :
    SE (Heap K R) K := do
  let t ← copyRef test
  let r ← copyRef ref
  let (t, r) ← matchSpatial lib t r maxDistance
  let o ← rd r
  let p ← rd t
  return median (List.zipWith (fun a b => a - b) o.tstamps p.tstamps)

end H
end TC
