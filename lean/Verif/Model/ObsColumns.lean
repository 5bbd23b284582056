import Verif.Model.ObsEdit
/-!
# The named columns of an `AlignmentData` object (alignment/data.py:344-482)
-/
namespace TC
variable {K : Type} [Field K] [LinearOrder K]

/-- the properties that return one column (data.py:366-412, and with the prefix `est_` 438-482) -/
inductive ColumnProperty
  | x_from | y_from | z_from | x_to | y_to | z_to | speed_x | speed_y | speed_z | euler_x | euler_y | euler_z
  deriving DecidableEq, Repr

namespace Obs

/-- `np.zeros((self.number_of_epochs, 3))` as columns (data.py:355, 362, 425, 432) -/
def zeroColumns (e : EstSettings) (s : AlignVectors K) : List (List K) := List.replicate 3 (List.replicate (numEpochs e s.obs) 0)

/-- `xyz_from`, `xyz_to`, `rpy_from`, `speed` (data.py:344-364) for `adjusted = false`, the same with the prefix `est_`
(data.py:414-436) for `true`, as columns -/
def groupColumns (e : EstSettings) (s : AlignVectors K) (adjusted : Bool) (key : ObsKey) : Except Err (List (List K)) :=
  let read := if adjusted then getEstGroup e s key else getGroup e s .obs key
  match key with
  | .rpy => if !e.leverarmEnabled then .ok (zeroColumns e s) else read
  | .speed => if !e.timeShiftEnabled then .ok (zeroColumns e s) else read
  | _ => read

/-- `array[:, i]` -/
def columnAt (columns : Except Err (List (List K))) (i : Nat) : Except Err (List K) := do
  let cs ← columns
  match cs[i]? with
  | some c => return c
  | none => .error .indexError

/-- the properties of single columns (data.py:366-412, 438-482) -/
def columnProperty (e : EstSettings) (s : AlignVectors K) (adjusted : Bool) : ColumnProperty → Except Err (List K)
  | .x_from => columnAt (groupColumns e s adjusted .xyzFrom) 0
  | .y_from => columnAt (groupColumns e s adjusted .xyzFrom) 1
  | .z_from => columnAt (groupColumns e s adjusted .xyzFrom) 2
  | .x_to => columnAt (groupColumns e s adjusted .xyzTo) 0
  | .y_to => columnAt (groupColumns e s adjusted .xyzTo) 1
  | .z_to => columnAt (groupColumns e s adjusted .xyzTo) 2
  | .speed_x => columnAt (groupColumns e s adjusted .speed) 0
  | .speed_y => columnAt (groupColumns e s adjusted .speed) 1
  | .speed_z => columnAt (groupColumns e s adjusted .speed) 2
  | .euler_x => columnAt (groupColumns e s adjusted .rpy) 0
  | .euler_y => columnAt (groupColumns e s adjusted .rpy) 1
  | .euler_z => columnAt (groupColumns e s adjusted .rpy) 2

/-- `len(data)` (data.py:145-146) and `number_of_epochs` (data.py:193-195) -/
def dataLength (e : EstSettings) (s : AlignVectors K) : Nat := s.obs.length / perEpoch e

end Obs
end TC
