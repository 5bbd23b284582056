import Verif.Model.Voxel
import Verif.Spec.Match
/-!
# Specification vocabulary for the line smoothing
-/
namespace TC
variable {K : Type} [Field K] [LinearOrder K] [FloorRing K]

/-- What is assumed of the libraries: the tree answers every query point, a frozenset holds each given
id once, in some order, and the fitted direction does not depend on the order of the points (it is
an eigenvector of their covariance matrix). -/
structure MlsLibOk (lib : MlsLib K) : Prop where
  rows : ∀ ref b k test, (lib.query ref b k test).length = test.length
  frozen_nodup : ∀ ids, (lib.frozen ids).Nodup
  frozen_mem : ∀ ids i, i ∈ lib.frozen ids ↔ i ∈ ids
  dir : ∀ l l' : List (V3 K), l.Perm l' → lib.lineDir l = lib.lineDir l'

/-- every line computed anew -/
def freshPoints (lib : MlsLib K) (vs : List (Voxel K)) :
    List (V3 K) → List (List VoxelId) → Except Err (List (V3 K))
  | p :: ps, set :: sets => do
    let line ← lineApproximator lib vs set
    let rest ← freshPoints lib vs ps sets
    return moveToLine p line :: rest
  | _, _ => .ok []

/-- one pass without any cache -/
def freshPass (lib : MlsLib K) (size : K) (k : Nat) (xyz : List (V3 K)) :
    Except Err (List (V3 K) × K) := do
  let vs ← createVoxels xyz size
  let sets ← kNearestQuery lib vs xyz k
  let moved ← freshPoints lib vs xyz sets
  return (moved, avgMovement lib.nrm xyz moved)

/-- `out` is what repeated passes lead to: at least one and at most ten of them, each applied to the
result of the one before; each but the last moved the points by more than the threshold on average,
and the last one did not or was the tenth. -/
def Smoothed (pass : List (V3 K) → Except Err (List (V3 K) × K)) (threshold : K)
    (xyz out : List (V3 K)) : Prop :=
  ∃ (m : Nat) (x : Nat → List (V3 K)) (mv : Nat → K), 1 ≤ m ∧ m ≤ 10 ∧ x 0 = xyz ∧ x m = out ∧
    (∀ j, j < m → pass (x j) = .ok (x (j + 1), mv j)) ∧
    (∀ j, j + 1 < m → threshold < mv j) ∧ (m = 10 ∨ mv (m - 1) ≤ threshold)

/-- the line through `a` with direction `d` is a best fit of the points: with suitable feet on it the sum of the
squared distances is not above that for any feet on any line -/
def IsBestLine (points : List (V3 K)) (a d : V3 K) : Prop :=
  d.normSq = 1 ∧ ∃ foot : V3 K → K, ∀ a' d' : V3 K, d'.normSq = 1 → ∀ foot' : V3 K → K,
    (points.map (fun p => (p - (a + foot p • d)).normSq)).sum ≤ (points.map (fun p => (p - (a' + foot' p • d')).normSq)).sum

/-- `q` is `p` moved to the nearest point of a best line of the points; a single point has no line and `p` stays -/
def SnappedTo (points : List (V3 K)) (p q : V3 K) : Prop :=
  (points.length ≤ 1 → q = p) ∧
  (1 < points.length → ∃ a d, IsBestLine points a d ∧ (∃ s : K, q = a + s • d) ∧
    ∀ s : K, (p - q).normSq ≤ (p - (a + s • d)).normSq)

/-- `near` are `k` voxels whose centres are nearest to `p` -/
structure IsNearVoxels (dist : V3 K → V3 K → K) (vs : List (Voxel K)) (k : Nat) (p : V3 K) (near : List (Voxel K)) : Prop where
  nodup : near.Nodup
  length : near.length = k
  subset : ∀ v ∈ near, v ∈ vs
  nearest : ∀ v ∈ near, ∀ w ∈ vs, w ∉ near →
    dist p ((v.points.length : K)⁻¹ • v.points.sum) ≤ dist p ((w.points.length : K)⁻¹ • w.points.sum)

/-- one call of `mls_iterative` -/
structure MlsCall (K : Type) where
  size : K
  k : Nat
  threshold : K
  xyz : List (V3 K)

/-- the cache after a history of calls, starting from a fresh process; a call that raises leaves the
entries it made -/
def cacheAfter (lib : MlsLib K) : List (MlsCall K) → MlsCache K
  | [] => ⟨[], []⟩
  | c :: cs => (mlsIterative lib c.size c.k c.threshold c.xyz (cacheAfter lib cs)).2

end TC
