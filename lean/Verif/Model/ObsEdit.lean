import Verif.Model.Observations
/-!
# Changing the vectors of an alignment (alignment/data.py)

The three vectors of an `AlignmentData` object and the methods that read and write parts of them.
-/
namespace TC
variable {K : Type} [Field K] [LinearOrder K]

/-- the three vectors of an `AlignmentData` object (data.py:94-99) -/
inductive VecName
  | obs | var | res
  deriving DecidableEq, Repr

/-- `_obs_vector`, `_var_vector` and `_res_vector` (data.py:94-99) -/
structure AlignVectors (K : Type) where
  obs : List K
  var : List K
  res : List K
  deriving DecidableEq, Repr

namespace Obs

/-- reading an attribute (data.py:142-143, 155-157, 166-168) -/
def get (s : AlignVectors K) : VecName → List K
  | .obs => s.obs
  | .var => s.var
  | .res => s.res

/-- binding an attribute (data.py:153, 164, 175) -/
def put (s : AlignVectors K) : VecName → List K → AlignVectors K
  | .obs, v => { s with obs := v }
  | .var, v => { s with var := v }
  | .res, v => { s with res := v }

/-- `vector[i::n] = column` (data.py:337): the array is changed in place -/
def assignColumn (e : EstSettings) (w : VecName) (i : Nat) (column : List K) : SE (AlignVectors K) Unit := do
  let s ← SE.get
  let v ← SE.lift (setStride (perEpoch e) i (get s w) column)
  SE.modify (fun s => put s w v)

/-- the loop over the columns from `i` on (data.py:336-337) -/
def assignColumns (e : EstSettings) (w : VecName) : Nat → List (List K) → SE (AlignVectors K) Unit
  | _, [] => pure ()
  | i, c :: cs => do
    assignColumn e w i c
    assignColumns e w (i + 1) cs

/-- `set_obs_group`, `set_var_group`, `set_res_group` (data.py:304-305, 310-311, 316-317) with
`_set_vector_components` (data.py:328-337).  `columns` are the columns of the array `values`. -/
def setGroup (e : EstSettings) (w : VecName) (key : ObsKey) (columns : List (List K)) : SE (AlignVectors K) Unit :=
  match group e key with
  | none => SE.raise .valueError
  | some (a, b) => if columns.length ≠ b - a then SE.raise .valueError else assignColumns e w a columns

/-- the setters of `obs_vector`, `var_vector` and `res_vector` (data.py:148-153, 159-164, 170-175) -/
def setVector (e : EstSettings) (w : VecName) (values : List K) : SE (AlignVectors K) Unit := do
  let v ← SE.lift (checkLength e values)
  SE.modify (fun s => put s w v)

/-- `get_obs_group`, `get_var_group`, `get_res_group` (data.py:298-299, 307-308, 313-314) -/
def getGroup (e : EstSettings) (s : AlignVectors K) (w : VecName) (key : ObsKey) : Except Err (List (List K)) :=
  extract e (get s w) key

/-- `est_obs_vector` (data.py:177-179).  The lengths are multiples of at least six, so that numpy's special
treatment of arrays with one element does not occur. -/
def estVector (s : AlignVectors K) : Except Err (List K) :=
  if s.obs.length = s.res.length then .ok (List.zipWith (· + ·) s.obs s.res) else .error .valueError

/-- `get_est_obs_group` (data.py:301-302).  The vector is computed before the group is looked up. -/
def getEstGroup (e : EstSettings) (s : AlignVectors K) (key : ObsKey) : Except Err (List (List K)) := do
  let v ← estVector s
  extract e v key

end Obs
end TC
