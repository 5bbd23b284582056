import Verif.Spec.Metrics
import Verif.Spec.Adjust
import Verif.Spec.Match
import Verif.Spec.Direct
import Verif.Proofs.GhmStep
import Verif.Proofs.Euler
/-!
# Two trajectories that differ by a similarity only
-/
namespace TC
open Adjust

/-- `U` passes the same instants as `T`, and its positions are those of `T` turned by `Q`, scaled by `κ` and shifted
by `b`. -/
structure MovedCopy {R : Type} (Q : M3 ℝ) (κ : ℝ) (b : V3 ℝ) (T U : Traj ℝ R) : Prop where
  times : U.tstamps = T.tstamps
  pos : U.pos = T.pos.map (fun p => b + κ • mulV Q p)

/-- no plane contains all the points -/
def Spread (pts : List (V3 ℝ)) : Prop := ∀ (n : V3 ℝ) (h : ℝ), (∀ p ∈ pts, V3.dot n p = h) → n = 0

/-- the library routines do what their documentation says, without rounding -/
structure RightLib {R : Type} (lib : MetricLib ℝ R) : Prop where
  grad : IsGrad lib.grad
  trig : lib.trig = realTrig
  adj : IsAdjLib lib.adj
  norm : IsNorm lib.init.nrm
  dist : IsNorm lib.mat.nrm
  angles : ∀ A, IsRot A → eulerMat realTrig (lib.init.euler A) = A
  svd : ∀ M, ∃ s, IsSvd M (lib.init.svd M).1 s (lib.init.svd M).2
  euler : ∀ o, eulerMat lib.trig (lib.toEuler o) = lib.mat.rot.toMat o
  time : IsNearestQuery (fun a b => |a - b|) lib.mat.queryT

end TC
