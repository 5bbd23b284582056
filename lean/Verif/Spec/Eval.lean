import Verif.Model.Stats
import Verif.Spec.Rot
import Verif.Spec.Traj
/-!
# Specification vocabulary for the evaluation
-/
namespace TC
variable {K R : Type} [Field K] [LinearOrder K]

/-- What is assumed of the numeric routines: Euclidean norm, square root of non-negative numbers,
and that the angle of cosine 1 is 0. -/
structure IsEvalLib (E : EvalLib K) : Prop where
  nrm : IsNorm E.nrm
  sqrt_nonneg : ∀ x, 0 ≤ x → 0 ≤ E.sqrt x
  sqrt_sq : ∀ x, 0 ≤ x → E.sqrt x * E.sqrt x = x
  acos_one : E.acos 1 = 0

/-- `T'` is `T` moved as a whole by the rigid motion `A`: every position is moved, every
orientation (if there are any) is turned, everything else is the same. -/
structure MovedBy (L : RotLib K R) (A : M4 K) (T T' : Traj K R) : Prop where
  rigid : IsRigid A
  pos : T'.pos = T.pos.map (fun p => mulV (poseRot A) p + posePos A)
  rot : T'.rot.map (fun r => r.map L.toMat) = T.rot.map (fun r => r.map (fun q => poseRot A * L.toMat q))
  tstamps : T'.tstamps = T.tstamps
  arc : T'.arc = T.arc
  speed : T'.speed = T.speed
  sorting : T'.sorting = T.sorting
  name : T'.name = T.name
  epsg : T'.epsg = T.epsg

/-- `j` is the first sample at least `d` further than sample `i`. -/
structure FirstAtLeast (D : List K) (d : K) (i j : Nat) : Prop where
  lt : i < j
  reached : ∃ a b, D[i]? = some a ∧ D[j]? = some b ∧ d ≤ b - a
  first : ∀ a b (k : Nat), k < j → D[i]? = some a → D[k]? = some b → b - a < d

/-- the reference quantity along which pose pairs are selected -/
def pairScale (u : MUnit) (ref : Traj K R) : Option (List K) :=
  match u with
  | .meter => some ref.arc
  | .second => some ref.tstamps
  | _ => none

/-- the entries of one group belong to the index pairs `ps`: one pair distance and one position
deviation for each, and one rotation deviation for each if there are orientations -/
structure EntriesOf (D : List K) (test ref : Traj K R) (ps : List (Nat × Nat)) (g : RpeGroup K) :
    Prop where
  dist : ∀ (k i j : Nat), ps[k]? = some (i, j) → ∃ a b, D[i]? = some a ∧ D[j]? = some b ∧
    g.pairDist[k]? = some (b - a)
  numDist : g.pairDist.length = ps.length
  numPos : g.posDev.length = ps.length
  numRot : g.rotDev.length = if test.rot ≠ none ∧ ref.rot ≠ none then ps.length else 0

/-- `i` is the first sample at or beyond the mark `x` -/
structure FirstReached (D : List K) (x : K) (i : Nat) : Prop where
  reached : ∃ a, D[i]? = some a ∧ x ≤ a
  first : ∀ a (k : Nat), k < i → D[k]? = some a → a < x

/-- neighbouring samples are at most `gap` apart -/
def GapsAtMost (gap : K) (D : List K) : Prop :=
  ∀ (k : Nat) a b, D[k]? = some a → D[k + 1]? = some b → b - a ≤ gap

end TC
