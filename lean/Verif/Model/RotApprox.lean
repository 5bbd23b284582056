import Verif.Model.Utils
import Mathlib.Data.List.Dedup
/-!
# `approximation/rot_approximation.py`
-/
namespace TC
variable {K Q : Type} [Field K] [LinearOrder K] [FloorRing K]

/-- `int(np.floor(steps / 2))` with `steps` from line 45: half the odd number of samples per window.
`rnd` is `np.round`; the division of two lengths raises `ZeroDivisionError` without samples. -/
def windowExt (rnd : K → K) (functionOf : List K) (winSize : K) : Except Err Nat :=
  let groups := (functionOf.map (fun x => rnd (x / winSize))).dedup.length
  if groups = 0 then .error .zeroDivision
  else .ok (rndodd ((functionOf.length : K) / (groups : K)) / 2).toNat

/-- `quat[window_start_index:window_end_index, :]` (rot_approximation.py:57-59) -/
def window (quat : List Q) (ext i : Nat) : List Q :=
  let start := i - ext
  let stop := min (quat.length - 1) (i + ext)
  (quat.take stop).drop start

/-- the loop in lines 56-61; the argument counts the rows -/
def averageRows (mean : List Q → Except Err Q) (quat : List Q) (ext : Nat) :
    List Nat → Except Err (List Q)
  | [] => .ok []
  | i :: is => do
    let q ← mean (window quat ext i)
    let qs ← averageRows mean quat ext is
    return q :: qs

/-- `rot_average_window` (rot_approximation.py:19-62).  `mean` is
`RotationSet.from_quat(…).mean().as_quat()`.  The result has a row of zeros per missing quaternion if
there are fewer quaternions than positions; at the only call site (trajectory.py:741) there are as
many, so this is left out. -/
def rotAverageWindow (rnd : K → K) (mean : List Q → Except Err Q) (functionOf : List K)
    (quat : List Q) (winSize : K) : Except Err (List Q) := do
  let ext ← windowExt rnd functionOf winSize
  if ext = 0 then return quat
  averageRows mean quat ext (List.range quat.length)

end TC
