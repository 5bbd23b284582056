import Verif.Model.AlignSettings
import Verif.Model.Eval
/-!
# Sets of parameters (alignment/parameters.py)

The `Parameter` objects of a set are mutable and may be shared with other sets; here a set owns its
parameters, and each method is described by the set afterwards.
-/
namespace TC
variable {K : Type} [Field K] [LinearOrder K]

/-- `Parameter` (parameters.py:25-70): `raw` and `rawVar` are `_value` and `_variance` -/
structure Param (K : Type) where
  raw : K
  rawVar : K
  default : K
  enabled : Bool
  name : String
  unit : MUnit
  deriving DecidableEq

namespace Param

/-- `value` (parameters.py:95-97) -/
def value (p : Param K) : K := if p.enabled then p.raw else p.default

/-- `variance` (parameters.py:103-105) -/
def variance (p : Param K) : K := if p.enabled then p.rawVar else 0

/-- `__neg__` (parameters.py:85-93) -/
def neg (p : Param K) : Param K :=
  { p with
    raw := -p.value
    rawVar := p.variance
    default := -p.default }

end Param

/-- a `ParameterSet` (parameters.py:118-145): the parameters in the order of the fields, the rows
of the covariance matrix -/
structure PSet (K : Type) where
  enabled : Bool := true
  cov : List (List K)
  params : List (Param K)
  deriving DecidableEq

/-- `np.zeros((n, n))` -/
def zeroRows (n : Nat) : List (List K) := List.replicate n (List.replicate n 0)

namespace PSet

/-- `values` (parameters.py:283-285) -/
def values (s : PSet K) : List K := s.params.map Param.value

/-- `values_enabled` (parameters.py:291-293) -/
def valuesEnabled (s : PSet K) : List K := (s.params.filter (fun p => p.enabled)).map Param.value

/-- `variances` (parameters.py:299-301) -/
def variances (s : PSet K) : List K := s.params.map Param.variance

/-- `variances_enabled` (parameters.py:308-310) -/
def variancesEnabled (s : PSet K) : List K := (s.params.filter (fun p => p.enabled)).map Param.variance

/-- `__len__` (parameters.py:138-139) -/
def len (s : PSet K) : Nat := s.values.length

/-- `num_enabled` (parameters.py:156-158) -/
def numEnabled (s : PSet K) : Nat := s.valuesEnabled.length

/-- `any_enabled` (parameters.py:152-154) -/
def anyEnabled (s : PSet K) : Bool := decide (s.numEnabled > 0)

/-- `enabled_bool_list` (parameters.py:204-206) -/
def enabledBoolList (s : PSet K) : List Bool := s.params.map Param.enabled

/-- the setter of `enabled_bool_list` (parameters.py:208-211): `zip` stops at the shorter list -/
def setEnabledBoolList (s : PSet K) (l : List Bool) : PSet K :=
  { s with
    params := List.zipWith (fun p b => { p with enabled := b }) s.params l ++ s.params.drop l.length }

/-- `enabled_indices` (parameters.py:213-215) -/
def enabledIndices (s : PSet K) : List Nat :=
  (s.enabledBoolList.zipIdx.filter (fun x => x.1)).map (fun x => x.2)

/-- the loop of `_set` (parameters.py:271-281) -/
def setLoop (upd : Param K → K → Param K) (enabledOnly : Bool) : List (Param K) → List K → List (Param K)
  | [], _ => []
  | p :: ps, vs =>
    if p.enabled = false ∧ enabledOnly = true then p :: setLoop upd enabledOnly ps vs
    else match vs with
      | [] => p :: setLoop upd enabledOnly ps []
      | v :: vs => upd p v :: setLoop upd enabledOnly ps vs

/-- `_set` (parameters.py:259-281); because of the two checks the index of line 277 is in range -/
def set (s : PSet K) (upd : Param K → K → Param K) (vals : List K) (enabledOnly : Bool) : Except Err (PSet K) :=
  if s.numEnabled ≠ vals.length ∧ enabledOnly = true then .error .valueError
  else if s.len ≠ vals.length ∧ enabledOnly = false then .error .valueError
  else .ok { s with params := setLoop upd enabledOnly s.params vals }

/-- assignment to `_value` -/
def updValue (p : Param K) (v : K) : Param K := { p with raw := v }
/-- assignment to `_variance` -/
def updVariance (p : Param K) (v : K) : Param K := { p with rawVar := v }

/-- the setter of `values` (parameters.py:287-289) -/
def setValues (s : PSet K) (vals : List K) : Except Err (PSet K) := s.set updValue vals false

/-- the setter of `values_enabled` (parameters.py:295-297) -/
def setValuesEnabled (s : PSet K) (vals : List K) : Except Err (PSet K) := s.set updValue vals true

/-- `values_enabled += delta` (estimation.py:324): the addition in place takes an array of equal
length or of length 1 -/
def addValuesEnabled (s : PSet K) (delta : List K) : Except Err (PSet K) :=
  if s.valuesEnabled.length = delta.length then
    s.setValuesEnabled (List.zipWith (fun a b => a + b) s.valuesEnabled delta)
  else match delta with
    | [d] => s.setValuesEnabled (s.valuesEnabled.map (fun a => a + d))
    | _ => .error .valueError

/-- an entry of a matrix; only used in range -/
def entry (m : List (List K)) (i j : Nat) : K := (m.getD i []).getD j 0

/-- `np.diag(matrix)` of a square matrix -/
def diag (m : List (List K)) : List K := (List.range m.length).map (fun i => entry m i i)

/-- `np.fill_diagonal(matrix, vals)` with as many values as rows -/
def fillDiag (m : List (List K)) (vals : List K) : List (List K) :=
  m.mapIdx (fun i row => match vals[i]? with
    | some v => row.set i v
    | none => row)

/-- the setter of `variances` (parameters.py:303-306) -/
def setVariances (s : PSet K) (vals : List K) : Except Err (PSet K) := do
  let t ← s.set updVariance vals false
  return { t with cov := fillDiag t.cov vals }

/-- the setter of `variances_enabled` (parameters.py:312-315) -/
def setVariancesEnabled (s : PSet K) (vals : List K) : Except Err (PSet K) := do
  let t ← s.set updVariance vals true
  return { t with
    cov := (t.enabledIndices.zip vals).foldl (fun m iv => m.modify iv.1 (fun row => row.set iv.1 iv.2)) t.cov }

/-- `get_covariance_matrix` (parameters.py:160-164) -/
def getCovariance (s : PSet K) (enabledOnly : Bool) : List (List K) :=
  if enabledOnly then s.enabledIndices.map (fun i => s.enabledIndices.map (fun j => entry s.cov i j))
  else s.cov

/-- `covariance_matrix[np.ix_(idx, idx)] = sub` for a zero matrix of size `n` (parameters.py:184-190):
the entry `(i, j)` is the entry of `sub` at the positions of `i` and `j` in `idx` -/
def scatter (n : Nat) (idx : List Nat) (sub : List (List K)) : List (List K) :=
  (List.range n).map (fun i => (List.range n).map (fun j =>
    match idx.findIdx? (fun x => decide (x = i)), idx.findIdx? (fun x => decide (x = j)) with
    | some a, some b => entry sub a b
    | _, _ => 0))

/-- `validate_covariance` (parameters.py:170-192).  The shape is that of the rows: `rows` many, the
first one's length wide (a matrix without rows counts as square). -/
def validateCovariance (s : PSet K) : Except Err (PSet K) :=
  if s.cov.length ≠ (s.cov.headD (List.replicate s.cov.length 0)).length then .error .alignmentParameters
  else if s.cov.length = s.len then s.setVariances (diag s.cov)
  else if s.cov.length ≠ s.numEnabled then .error .alignmentParameters
  else
    let t : PSet K := { s with cov := scatter s.len s.enabledIndices s.cov }
    t.setVariancesEnabled (diag (t.getCovariance true))

/-- `set_covariance_matrix` (parameters.py:166-168) -/
def setCovariance (s : PSet K) (m : List (List K)) : Except Err (PSet K) :=
  validateCovariance { s with cov := m }

/-- `__post_init__` (parameters.py:131-136) -/
def postInit (s : PSet K) : Except Err (PSet K) :=
  if s.cov.length = s.len then s.validateCovariance
  else .ok { s with cov := zeroRows s.len }

/-- `enable` (parameters.py:194-197) -/
def enable (s : PSet K) : PSet K :=
  { s with
    enabled := true
    params := s.params.map (fun p => { p with enabled := true }) }

/-- `disable` (parameters.py:199-202) -/
def disable (s : PSet K) : PSet K :=
  { s with
    enabled := false
    params := s.params.map (fun p => { p with enabled := false }) }

end PSet

/-- the names of the parameters of an alignment (parameters.py:403-433) -/
def alignNames : List (String × MUnit) :=
  [("Translation x", .meter), ("Translation y", .meter), ("Translation z", .meter),
   ("Rotation x", .radian), ("Rotation y", .radian), ("Rotation z", .radian), ("Scale", .scale),
   ("Time Shift", .second), ("Leverarm x", .meter), ("Leverarm y", .meter), ("Leverarm z", .meter)]

/-- neutral values of the parameters of an alignment (parameters.py:403-433) -/
def alignDefaults : List K := [0, 0, 0, 0, 0, 0, 1, 0, 0, 0, 0]

namespace AlignParams

/-- `AlignmentParameters()` (parameters.py:399-433) -/
def new : PSet K :=
  { cov := zeroRows 11
    params := List.zipWith (fun n d => ⟨d, 0, d, false, n.1, n.2⟩) alignNames alignDefaults }

/-- `from_settings` (parameters.py:457-471).  The names given by the counter of `Parameter` are left
out. -/
def fromSettings (e : EstSettings) : PSet K :=
  { cov := zeroRows 11
    params := List.zipWith (fun b d => ⟨d, 0, d, b, "", .none⟩)
      [e.transX, e.transX, e.transX, e.rotX, e.rotY, e.rotZ, e.scale, e.timeShift, e.leverX, e.leverY, e.leverZ]
      alignDefaults }

/-- `apply_settings` (parameters.py:473-487) -/
def applySettings (s : PSet K) (e : EstSettings) : PSet K :=
  s.setEnabledBoolList
    [e.transX && e.helmertEnabled, e.transY && e.helmertEnabled, e.transZ && e.helmertEnabled,
     e.rotX && e.helmertEnabled, e.rotY && e.helmertEnabled, e.rotZ && e.helmertEnabled,
     e.scale && e.helmertEnabled, e.timeShiftEnabled,
     e.leverX && e.leverarmEnabled, e.leverY && e.leverarmEnabled, e.leverZ && e.leverarmEnabled]

/-- `to_estimation_settings` (parameters.py:553-566) of a set with eleven parameters -/
def toEstimationSettings (s : PSet K) : EstSettings :=
  let b := s.enabledBoolList
  { transX := b.getD 0 false, transY := b.getD 1 false, transZ := b.getD 2 false
    rotX := b.getD 3 false, rotY := b.getD 4 false, rotZ := b.getD 5 false
    scale := b.getD 6 false
    timeShift := b.getD 7 false
    leverX := b.getD 8 false, leverY := b.getD 9 false, leverZ := b.getD 10 false }

end AlignParams

/-- `SensorRotationParameters()` (parameters.py:569-601) -/
def SensorParams.new : PSet K :=
  { cov := zeroRows 3
    params := ["x", "y", "z"].map (fun a => ⟨0, 0, 0, false, "Sensor Rotation " ++ a, .radian⟩) }

end TC
