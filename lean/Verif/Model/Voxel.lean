import Verif.Model.Arange
import Verif.Model.Match
/-!
# `approximation/voxelizer.py` and `approximation/mls_approximation.py`
-/
namespace TC
variable {K : Type} [Field K] [LinearOrder K] [FloorRing K]

/-- the characters of a voxel id -/
abbrev VoxelId := List Char

/-- `f"{x_id}{y_id}{z_id}"` (voxelizer.py:83): the decimal digits, without separator -/
def voxelId (x y z : Nat) : VoxelId := Nat.toDigits 10 x ++ Nat.toDigits 10 y ++ Nat.toDigits 10 z

/-- `Voxel` (voxelizer.py:15-44); the size is left out, it is not used -/
structure Voxel (K : Type) where
  id : VoxelId
  points : List (V3 K)
  deriving DecidableEq

/-- lines 84-86: append to the voxel with this id, a new one is added at the end (dictionaries keep
the insertion order) -/
def addToVoxel (id : VoxelId) (p : V3 K) : List (Voxel K) → List (Voxel K)
  | [] => [⟨id, [p]⟩]
  | v :: vs => if v.id = id then ⟨v.id, v.points ++ [p]⟩ :: vs else v :: addToVoxel id p vs

/-- the grid of one axis (voxelizer.py:73-75) -/
def voxelGrid (c : List K) (size : K) : Except Err (List K) := do
  let a ← pyMin c
  let b ← pyMax c
  arange a (b + size) size

/-- lines 82-86 -/
def fillVoxels (gx gy gz : List K) : List (V3 K) → List (Voxel K) → List (Voxel K)
  | [], vs => vs
  | p :: ps, vs => fillVoxels gx gy gz ps
      (addToVoxel (voxelId (searchLeft gx p.x) (searchLeft gy p.y) (searchLeft gz p.z)) p vs)

/-- `Voxelizer._create_voxels` (voxelizer.py:63-88).  For a negative voxel size the grids are not
ascending; `searchLeft` is only meaningful for a positive size. -/
def createVoxels (xyz : List (V3 K)) (size : K) : Except Err (List (Voxel K)) := do
  let gx ← voxelGrid (xyz.map V3.x) size
  let gy ← voxelGrid (xyz.map V3.y) size
  let gz ← voxelGrid (xyz.map V3.z) size
  return fillVoxels gx gy gz xyz []

/-- library routines: the KD tree, the direction of a fitted line, the length of a vector and the
order in which a frozenset of the given ids is traversed (it depends on hash values) -/
structure MlsLib (K : Type) where
  query : KdQueryK K (V3 K)
  lineDir : List (V3 K) → V3 K
  nrm : V3 K → K
  frozen : List VoxelId → List VoxelId

/-- `[self.index_to_id(index) for index in voxel_list]` (voxelizer.py:98-99, 131): a missing
neighbour has the number of voxels as its index, so that the lookup raises `IndexError` -/
def idsOf (vs : List (Voxel K)) : List (Option Nat) → Except Err (List VoxelId)
  | [] => .ok []
  | none :: _ => .error .indexError
  | some i :: is => do
    let v ← npGet vs (i : Int)
    let rest ← idsOf vs is
    return v.id :: rest

/-- all rows of line 131 -/
def idRows (lib : MlsLib K) (vs : List (Voxel K)) :
    List (List (Option Nat)) → Except Err (List (List VoxelId))
  | [] => .ok []
  | c :: cs => do
    let ids ← idsOf vs c
    let rest ← idRows lib vs cs
    return lib.frozen ids :: rest

/-- `Voxelizer.k_nearest_query` (voxelizer.py:117-131).  scipy rejects `k = 0` with `ValueError`; for
`k = 1` it returns one index per point instead of a row, so that line 131 raises `TypeError`. -/
def kNearestQuery (lib : MlsLib K) (vs : List (Voxel K)) (xyz : List (V3 K)) (k : Nat) :
    Except Err (List (List VoxelId)) := do
  if k = 0 then throw Err.valueError
  if k = 1 ∧ xyz.length > 0 then throw Err.typeError
  idRows lib vs (lib.query (vs.map (fun v => meanPoint v.points)) none k xyz)

/-- `Voxelizer.points_from_voxel_set` (voxelizer.py:133-138) -/
def pointsFromVoxelSet (vs : List (Voxel K)) : List VoxelId → Except Err (List (V3 K))
  | [] => .ok []
  | id :: ids => match vs.find? (fun v => decide (v.id = id)) with
    | none => .error .keyError
    | some v => do
      let rest ← pointsFromVoxelSet vs ids
      return v.points ++ rest

/-- the body of `cached_line_approximator` (mls_approximation.py:101-102) -/
def lineApproximator (lib : MlsLib K) (vs : List (Voxel K)) (set : List VoxelId) :
    Except Err (Option (Line3D K)) := do
  let points ← pointsFromVoxelSet vs set
  return if points.length > 1 then some (Line3D.fromPoints lib.lineDir points) else none

/-- The state behind `lru_cache(maxsize=None)` (mls_approximation.py:87): the voxelizers created so
far (they are compared by identity, and kept alive by the cache) and the stored results. -/
structure MlsCache (K : Type) where
  voxelizers : List (List (Voxel K))
  entries : List (Nat × List VoxelId × Option (Line3D K))

/-- equality of frozensets -/
def sameSet (a b : List VoxelId) : Bool :=
  a.all (fun i => decide (i ∈ b)) && b.all (fun i => decide (i ∈ a))

/-- `cached_line_approximator` (mls_approximation.py:87-102): look the arguments up, otherwise compute
and store.  An exception is not stored. -/
def cachedLine (lib : MlsLib K) (ref : Nat) (set : List VoxelId) :
    SE (MlsCache K) (Option (Line3D K)) := do
  let c ← SE.get
  match c.entries.find? (fun e => decide (e.1 = ref) && sameSet e.2.1 set) with
  | some e => return e.2.2
  | none =>
    let vs ← SE.lift (npGet c.voxelizers (ref : Int))
    let line ← SE.lift (lineApproximator lib vs set)
    SE.modify (fun c => ({ c with entries := c.entries ++ [(ref, set, line)] } : MlsCache K))
    return line

/-- a point moved onto its line (mls_approximation.py:81) -/
def moveToLine (p : V3 K) : Option (Line3D K) → V3 K
  | some l => l.evaluateAt p
  | none => p

/-- the loop in mls_approximation.py:79-81 -/
def mlsPoints (lib : MlsLib K) (ref : Nat) :
    List (V3 K) → List (List VoxelId) → SE (MlsCache K) (List (V3 K))
  | p :: ps, set :: sets => do
    let line ← cachedLine lib ref set
    let rest ← mlsPoints lib ref ps sets
    return moveToLine p line :: rest
  | _, _ => return []

/-- the average movement (mls_approximation.py:83) -/
def avgMovement (nrm : V3 K → K) (xyz moved : List (V3 K)) : K :=
  (List.zipWith (fun p q => nrm (p - q)) xyz moved).sum / (xyz.length : K)

/-- `mls_single` (mls_approximation.py:62-84) -/
def mlsSingle (lib : MlsLib K) (size : K) (k : Nat) (xyz : List (V3 K)) :
    SE (MlsCache K) (List (V3 K) × K) := do
  let vs ← SE.lift (createVoxels xyz size)
  let c ← SE.get
  let ref := c.voxelizers.length
  SE.modify (fun c => ({ c with voxelizers := c.voxelizers ++ [vs] } : MlsCache K))
  let sets ← SE.lift (kNearestQuery lib vs xyz k)
  let moved ← mlsPoints lib ref xyz sets
  return (moved, avgMovement lib.nrm xyz moved)

/-- the loop of `mls_iterative` (mls_approximation.py:51-58); the first argument is the number of
passes still allowed, `11 - cnt`.  The movement before the first pass is infinite, so there is at
least one pass. -/
def mlsLoop (lib : MlsLib K) (size : K) (k : Nat) (threshold : K) :
    Nat → List (V3 K) → SE (MlsCache K) (List (V3 K))
  | 0, xyz => return xyz
  | n + 1, xyz => do
    let r ← mlsSingle lib size k xyz
    if n = 0 then return r.1
    else if r.2 > threshold then mlsLoop lib size k threshold n r.1
    else return r.1

/-- `mls_iterative` (mls_approximation.py:22-59) -/
def mlsIterative (lib : MlsLib K) (size : K) (k : Nat) (threshold : K) (xyz : List (V3 K)) :
    SE (MlsCache K) (List (V3 K)) := mlsLoop lib size k threshold 10 xyz

end TC
