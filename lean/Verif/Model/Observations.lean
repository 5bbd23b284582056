import Verif.Model.AlignSettings
import Verif.Model.Utils
/-!
# Observations of an alignment (alignment/data.py)

The three vectors of `AlignmentData` (observations, variances, residuals) are lists of numbers in
which the numbers of one epoch stand side by side.
-/
namespace TC
variable {K : Type} [Field K] [LinearOrder K]

/-- the keys of `observation_groups` (data.py:100-126) -/
inductive ObsKey
  | xyFrom | zFrom | xyzFrom | xyTo | zTo | xyzTo | positions | rollPitch | yaw | rpy | speed
  deriving DecidableEq, Repr

/-- `AlignmentStochastics` (settings/alignment.py:219-259) as far as the adjustment reads it; the error
probability only enters a log message -/
structure Stochastics (K : Type) where
  stdXyFrom : K
  stdZFrom : K
  stdXyTo : K
  stdZTo : K
  stdRollPitch : K
  stdYaw : K
  stdSpeed : K
  varianceEstimation : Bool

namespace Obs

/-- `observation_groups` (data.py:100-126); `(None, None)` is `none` -/
def group (e : EstSettings) : ObsKey → Option (Nat × Nat)
  | .xyFrom => some (0, 2)
  | .zFrom => some (2, 3)
  | .xyzFrom => some (0, 3)
  | .xyTo => some (3, 5)
  | .zTo => some (5, 6)
  | .xyzTo => some (3, 6)
  | .positions => some (0, 6)
  | .rollPitch => if e.leverarmEnabled then some (6, 8) else none
  | .yaw => if e.leverarmEnabled then some (8, 9) else none
  | .rpy => if e.leverarmEnabled then some (6, 9) else none
  | .speed =>
    if !e.timeShiftEnabled then none else if e.leverarmEnabled then some (9, 12) else some (6, 9)

/-- `variance_groups` (data.py:128-139) -/
def varianceGroups (e : EstSettings) : List ObsKey :=
  [.xyFrom, .zFrom, .xyTo, .zTo] ++ (if e.leverarmEnabled then [.rollPitch, .yaw] else []) ++
  (if e.timeShiftEnabled then [.speed] else [])

/-- `num_obs_per_epoch` (data.py:197-211) -/
def perEpoch (e : EstSettings) : Nat :=
  6 + (if e.leverarmEnabled then 3 else 0) + (if e.timeShiftEnabled then 3 else 0)

/-- the number of entries of `vector[i::n]` for a vector of length `len` (data.py:325, 337) -/
def strideLen (n i len : Nat) : Nat := (len - i + (n - 1)) / n

/-- `vector[i::n]` (data.py:325) -/
def stride {α : Type} (n i : Nat) (v : List α) : List α :=
  (List.range (strideLen n i v.length)).filterMap (fun k => v[i + k * n]?)

/-- `vector[i::n] = values` (data.py:337): as many values as entries, or a single one -/
def setStride {α : Type} (n i : Nat) (v vals : List α) : Except Err (List α) :=
  if vals.length = strideLen n i v.length then
    .ok (v.mapIdx (fun k x => if i ≤ k ∧ (k - i) % n = 0 then vals.getD ((k - i) / n) x else x))
  else match vals with
    | [c] => .ok (v.mapIdx (fun k x => if i ≤ k ∧ (k - i) % n = 0 then c else x))
    | _ => .error .valueError

/-- `_extract_from_vector` (data.py:319-326): the columns of a group -/
def extract (e : EstSettings) (v : List K) (key : ObsKey) : Except Err (List (List K)) :=
  match group e key with
  | none => .error .valueError
  | some (a, b) => .ok ((List.range (b - a)).map (fun c => stride (perEpoch e) (a + c) v))

/-- the loop of `_set_vector_components` (data.py:328-337) over the columns from `i` on -/
def setLoop (n : Nat) (v : List K) (i : Nat) : List (List K) → Except Err (List K)
  | [] => .ok v
  | c :: cs => do
    let w ← setStride n i v c
    setLoop n w (i + 1) cs

/-- `_set_vector_components` (data.py:328-337); `cols` are the columns of the array `values`.  All columns
have the same length, so a column is only rejected if the first one is, before the vector is changed. -/
def setComponents (e : EstSettings) (v : List K) (cols : List (List K)) (key : ObsKey) : Except Err (List K) :=
  match group e key with
  | none => .error .valueError
  | some (a, b) => if cols.length ≠ b - a then .error .valueError else setLoop (perEpoch e) v a cols

/-- one row of an `n × 3` array -/
def row (p : V3 K) : List K := [p.x, p.y, p.z]

/-- `np.c_[a, b]` of two arrays with rows (data.py:233, 236, 253) -/
def hcat (a b : List (List K)) : Except Err (List (List K)) :=
  if a.length = b.length then .ok (List.zipWith (fun x y => x ++ y) a b) else .error .valueError

/-- `speed[:, not filter] = 0` (data.py:252): `not` of a list is one truth value, `True` only for the empty
list.  An index `False` selects nothing, an index `True` selects everything. -/
def zeroSpeed (filter : List Bool) (speed : List (V3 K)) : List (V3 K) :=
  if filter.isEmpty then speed.map (fun _ => 0) else speed

/-- `build_obs_vector` (data.py:213-255).  `rpy` are the Euler angles of `rot_from`; `tstamps` are the
timestamps of the source trajectory, which is always there. -/
def build (e : EstSettings) (tstamps : List K) (xyzFrom xyzTo : List (V3 K)) (rpy speed : Option (List (V3 K))) :
    Except Err (List K) := do
  let obs ← hcat (xyzFrom.map row) (xyzTo.map row)
  let obs ← if e.leverarmEnabled then
      (match rpy with
      | some r => hcat obs (r.map row)
      | none => .error .valueError)
    else .ok obs
  let obs ← if e.timeShiftEnabled then do
      let v ← (match speed with
        | some v => .ok v
        | none => gradient3d xyzFrom tstamps)
      hcat obs ((zeroSpeed e.timeShiftFilter v).map row)
    else .ok obs
  return obs.flatten

/-- `number_of_epochs` (data.py:193-195) -/
def numEpochs (e : EstSettings) (v : List K) : Nat := v.length / perEpoch e

/-- three columns with the same number in the first two and another one in the third (data.py:275-282) -/
def varCols (n : Nat) (a b : K) : List (List K) := [List.replicate n a, List.replicate n a, List.replicate n b]

/-- `build_var_vector` (data.py:257-293) -/
def buildVar (e : EstSettings) (s : Stochastics K) (obs : List K) : Except Err (List K) := do
  let n := numEpochs e obs
  let v := List.replicate obs.length (1 : K)
  let v ← setComponents e v (varCols n (s.stdXyFrom ^ 2) (s.stdZFrom ^ 2)) .xyzFrom
  let v ← setComponents e v (varCols n (s.stdXyTo ^ 2) (s.stdZTo ^ 2)) .xyzTo
  let v ← if e.leverarmEnabled then
      setComponents e v (varCols n (s.stdRollPitch ^ 2) (s.stdYaw ^ 2)) .rpy
    else .ok v
  if e.timeShiftEnabled then
    setComponents e v (varCols n (s.stdSpeed ^ 2) (s.stdSpeed ^ 2)) .speed
  else .ok v

/-- `build_res_vector` (data.py:295-296) -/
def buildRes (obs : List K) : List K := obs.map (fun _ => 0)

/-- the check of the three setters (data.py:147-173) -/
def checkLength (e : EstSettings) (v : List K) : Except Err (List K) :=
  if v.length % perEpoch e ≠ 0 then .error .valueError else .ok v

/-- `np.c_[columns]` of three columns of equal length, as points (data.py:347, 351, 358, 365) -/
def toPoints : List (List K) → List (V3 K)
  | [xs, ys, zs] => List.zipWith (fun x (yz : K × K) => ⟨x, yz.1, yz.2⟩) xs (ys.zip zs)
  | _ => []

/-- `xyz_from`, `xyz_to`, `rpy_from`, `speed` (data.py:359-364) and the versions of the adjusted observations
(data.py:415-436): `0` for a group that is not there.  `key` is one of the four groups with three columns. -/
def points (e : EstSettings) (v : List K) (key : ObsKey) : List (V3 K) :=
  match extract e v key with
  | .ok cols => toPoints cols
  | .error _ => List.replicate (numEpochs e v) 0

end Obs
end TC
