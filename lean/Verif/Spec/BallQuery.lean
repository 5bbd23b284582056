import Verif.Model.BallQuery
/-!
# Specification of searching voxels around a position
-/
namespace TC
variable {K : Type} [Field K] [LinearOrder K] [FloorRing K]

/-- the (Euclidean) distance of `p` and `q` is at most `r` -/
def Reaches (r : K) (p q : V3 K) : Prop :=
  0 ≤ r ∧ (p.x - q.x) ^ 2 + (p.y - q.y) ^ 2 + (p.z - q.z) ^ 2 ≤ r ^ 2

instance (r : K) (p q : V3 K) : Decidable (Reaches r p q) := inferInstanceAs (Decidable (_ ∧ _))

/-- `c` is the centre of the points -/
def IsCentre (points : List (V3 K)) (c : V3 K) : Prop := (points.length : K) • c = points.sum

/-- What is assumed of the search tree: for every query point the numbers of all points within the radius, each once. -/
structure IsBallSearch (ball : BallSearch K) : Prop where
  length : ∀ ref r test, (ball ref r test).length = test.length
  row : ∀ ref r test (i : Nat) p (c : List Nat), test[i]? = some p → (ball ref r test)[i]? = some c →
    c.Nodup ∧ ∀ j, j ∈ c ↔ ∃ q, ref[j]? = some q ∧ Reaches r p q

/-- a frozenset holds each given id once, in some order -/
structure IsFrozenset (frozen : List VoxelId → List VoxelId) : Prop where
  nodup : ∀ ids, (frozen ids).Nodup
  mem : ∀ ids i, i ∈ frozen ids ↔ i ∈ ids

end TC
