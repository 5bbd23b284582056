import Verif.Model.ResultIO
import Verif.Spec.IO
/-!
# Closeness of results
-/
namespace TC
variable {K R : Type} [Field K] [LinearOrder K]

/-- two optional numbers (missing values are `none`) agree up to `ε` -/
def CloseOpt (ε : K) : Option K → Option K → Prop
  | none, none => True
  | some a, some b => Close ε a b
  | _, _ => False

/-- the mean of the distances of a group -/
def RpeGroup.mean (g : RpeGroup K) : K := g.pairDist.sum / (g.pairDist.length : K)

/-- two groups have the same number of pairs, and their distances and deviations agree up to `ε` -/
structure CloseGroup (ε : K) (g g' : RpeGroup K) : Prop where
  dist : List.Forall₂ (fun a b => Close ε b a) g.pairDist g'.pairDist
  pos : List.Forall₂ (fun a b => CloseOpt ε b a) g.posDev g'.posDev
  rot : List.Forall₂ (fun a b => CloseOpt ε b a) g.rotDev g'.rotDev

/-- every pair has one position deviation and, if there are rotation deviations at all, one
rotation deviation -/
structure PairsComplete (r : RpeResult K) : Prop where
  pos : ∀ g ∈ r.groups, g.posDev.length = g.pairDist.length
  rot : (∃ g ∈ r.groups, g.rotDev ≠ []) → ∀ g ∈ r.groups, g.rotDev.length = g.pairDist.length

/-- the groups that contain pairs -/
def RpeResult.filled (r : RpeResult K) : List (RpeGroup K) := r.groups.filter (fun g => !g.pairDist.isEmpty)

/-- the parts of a result fit together: one deviation per sample of the trajectory, at least one sample -/
structure AteFits (r : AteResult K R) : Prop where
  traj : Coherent r.trajectory
  ne : r.trajectory.tstamps ≠ []
  pos : r.posDev.length = r.trajectory.tstamps.length
  dir : r.directed.length = r.trajectory.tstamps.length
  rot : ∀ q, r.rotDev = some q → q.length = r.trajectory.tstamps.length

/-- two optional lists of rotations: both absent, or as many rotations whose matrices agree up to `δ`
in each entry -/
def CloseRots (L : RotLib K R) (δ : K) : Option (List R) → Option (List R) → Prop
  | none, none => True
  | some a, some b => List.Forall₂ (fun x y => CloseM δ (L.toMat y) (L.toMat x)) a b
  | _, _ => False

/-- two ATE results agree: numbers up to `ε`, matrix entries of rotations up to `δ`; speeds are left
out -/
structure CloseAte (L : RotLib K R) (ε δ : K) (r r' : AteResult K R) : Prop where
  name : r'.name = r.name
  epsg : r'.trajectory.epsg = r.trajectory.epsg
  times : List.Forall₂ (fun a b => Close ε b a) r.trajectory.tstamps r'.trajectory.tstamps
  arc : List.Forall₂ (fun a b => Close ε b a) r.trajectory.arc r'.trajectory.arc
  pos : List.Forall₂ (fun a b => Close3 ε b a) r.trajectory.pos r'.trajectory.pos
  rot : CloseRots L δ r.trajectory.rot r'.trajectory.rot
  posDev : List.Forall₂ (fun a b => Close3 ε b a) r.posDev r'.posDev
  directed : List.Forall₂ (fun a b => Close3 ε b a) r.directed r'.directed
  rotDev : CloseRots L δ r.rotDev r'.rotDev

end TC
