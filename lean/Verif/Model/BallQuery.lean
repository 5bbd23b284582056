import Verif.Model.Voxel
/-!
# `Voxelizer.ball_query` (approximation/voxelizer.py)
-/
namespace TC
variable {K : Type} [Field K] [LinearOrder K] [FloorRing K]

/-- `KDTree.query_ball_point`: centres, radius and query points to the numbers of the centres found -/
abbrev BallSearch (K : Type) := List (V3 K) → K → List (V3 K) → List (List Nat)

/-- the rows of line 115; `frozen` is the order in which a frozenset of the given ids is traversed -/
def ballRows (frozen : List VoxelId → List VoxelId) (vs : List (Voxel K)) : List (List Nat) → Except Err (List (List VoxelId))
  | [] => .ok []
  | c :: cs => do
    let ids ← idsOf vs (c.map some)
    let rest ← ballRows frozen vs cs
    return frozen ids :: rest

/-- `Voxelizer.ball_query` (voxelizer.py:101-115); the tree holds the mean points of the voxels in the order of the
dictionary (voxelizer.py:59-61, 90-99) -/
def ballQuery (ball : BallSearch K) (frozen : List VoxelId → List VoxelId) (vs : List (Voxel K)) (xyz : List (V3 K)) (r : K) :
    Except Err (List (List VoxelId)) :=
  ballRows frozen vs (ball (vs.map (fun v => meanPoint v.points)) r xyz)

end TC
