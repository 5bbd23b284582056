import Verif.Model.TrajIO
import Verif.Spec.Rot
import Verif.Spec.Text
/-!
# What is assumed of the quaternion routines, and closeness of trajectories
-/
namespace TC
variable {K R : Type} [Field K] [LinearOrder K]

/-- scipy's quaternions: `as_quat` gives a unit quaternion of the rotation, `from_quat` accepts
exactly the quaternions different from zero and gives their rotation -/
structure IsIoLib (io : IoLib K R) : Prop where
  rot : IsRotLib io.rot
  unit : ∀ r, (io.asQuat r).normSq = 1
  mat : ∀ r, quatMat (io.asQuat r) = io.rot.toMat r
  fromQuat : ∀ q : Q4 K, q.normSq ≠ 0 → ∃ r, io.fromQuat q = .ok r ∧ io.rot.toMat r = quatMat q
  zero : ∀ q : Q4 K, q.normSq = 0 → io.fromQuat q = .error .valueError

/-- two samples agree up to `ε` in time, position, arc length and speed, and up to `δ` in the
entries of the rotation matrices -/
structure CloseSample (L : RotLib K R) (ε δ : K) (s s' : Sample K R) : Prop where
  t : Close ε s'.t s.t
  p : Close3 ε s'.p s.p
  l : Close ε s'.l s.l
  v : Close3 ε s'.v s.v
  r : match s.r, s'.r with
    | none, none => True
    | some a, some b => CloseM δ (L.toMat b) (L.toMat a)
    | _, _ => False

end TC
