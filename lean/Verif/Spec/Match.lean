import Verif.Model.Match
import Verif.Spec.Traj
/-!
# Specification vocabulary for matching
-/
namespace TC
variable {K P : Type} [Field K] [LinearOrder K]

/-- What is assumed of the search tree: for a positive bound, or none, every query point gets the
position of a closest reference point, with a distance strictly below the bound; a query point
gets nothing only if no reference point is that close.  Ties may be broken in any way. -/
structure IsNearestQuery (dist : P → P → K) (query : KdQuery K P) : Prop where
  length : ∀ ref b test, (query ref b test).length = test.length
  found : ∀ ref b test, (∀ m, b = some m → 0 < m) → ∀ (i : Nat) p r, test[i]? = some p →
    (query ref b test)[i]? = some (some r) →
    ∃ q, ref[r]? = some q ∧ (∀ q' ∈ ref, dist p q ≤ dist p q') ∧ ∀ m, b = some m → dist p q < m
  missing : ∀ ref b test, (∀ m, b = some m → 0 < m) → ∀ (i : Nat) p, test[i]? = some p →
    (query ref b test)[i]? = some none → ∀ q ∈ ref, ∃ m, b = some m ∧ m ≤ dist p q

/-- the reference points within the limit; the limit 0 means no limit -/
def Within (dist : P → P → K) (maxDistance : K) (p q : P) : Prop :=
  maxDistance = 0 ∨ dist p q < maxDistance

/-- `q` is a closest point of `ref` to `p` -/
def Nearest (dist : P → P → K) (ref : List P) (p q : P) : Prop :=
  q ∈ ref ∧ ∀ q' ∈ ref, dist p q ≤ dist p q'

/-- `c` are the positions of the `k` nearest points of `ref` to `p`, as far as they are closer than the
bound; missing ones are `none`. -/
structure IsKNearest (dist : P → P → K) (ref : List P) (b : Option K) (k : Nat) (p : P)
    (c : List (Option Nat)) : Prop where
  length : c.length = k
  nodup : (c.filterMap id).Nodup
  found : ∀ r, some r ∈ c → ∃ q, ref[r]? = some q ∧ ∀ m, b = some m → dist p q < m
  nearest : ∀ r q, some r ∈ c → ref[r]? = some q → ∀ (j : Nat) q', ref[j]? = some q' → some j ∉ c →
    dist p q ≤ dist p q'
  missing : none ∈ c → ∀ (j : Nat) q, ref[j]? = some q → (∀ m, b = some m → dist p q < m) → some j ∈ c

/-- What is assumed of the search tree asked for `k` neighbours. -/
structure IsKNearestQuery (dist : P → P → K) (query : KdQueryK K P) : Prop where
  length : ∀ ref b k test, (query ref b k test).length = test.length
  row : ∀ ref b k test, (∀ m, b = some m → 0 < m) → ∀ (i : Nat) p c, test[i]? = some p →
    (query ref b k test)[i]? = some c → IsKNearest dist ref b k p c

/-- What matching by nearest neighbours promises.  `g` is the compared quantity of a sample (its
time or its position), `T`, `U` are the test and the reference trajectory, `T'`, `U'` the matched
ones. -/
structure Paired {R : Type} (dist : P → P → K) (maxDistance : K) (g : Sample K R → P)
    (T U T' U' : Traj K R) : Prop where
  testCoherent : Coherent T'
  refCoherent : Coherent U'
  testMeta : SameMeta T T'
  refMeta : SameMeta U U'
  nonempty : samples T' ≠ []
  length : (samples T').length = (samples U').length
  /-- every matched test sample is an original one, none is used twice -/
  test : (samples T').Subperm (samples T)
  /-- the matched reference samples are original ones, none used twice, in the original order -/
  ref : (samples U').Sublist (samples U)
  /-- the samples at equal positions belong together -/
  pairs : ∀ (i : Nat) a b, (samples T')[i]? = some a → (samples U')[i]? = some b →
    Nearest dist ((samples U).map g) (g a) (g b) ∧ Within dist maxDistance (g a) (g b)
  /-- no neighbour is forgotten -/
  complete : ∀ a ∈ samples T, (∃ b ∈ samples U, Within dist maxDistance (g a) (g b)) →
    ∃ b ∈ samples U', Nearest dist ((samples U).map g) (g a) (g b)

end TC
