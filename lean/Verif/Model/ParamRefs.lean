import Verif.Model.Params
import Verif.Model.V3
/-!
# Sets of parameters that share their parameters (alignment/parameters.py)

In Python a `ParameterSet` refers to `Parameter` objects and to a numpy array, which may be shared with other sets and with
the caller.  Here both live in a memory.  `Verif.Model.Params` describes the methods for a set that owns its parameters;
that this is right for sets without shared parameters is proved in `Verif.Props.ParamRefs`.
-/
namespace TC.Shared
variable {K : Type} [Field K] [LinearOrder K]

/-- the `Parameter` objects and the arrays (the rows of each matrix) -/
structure Mem (K : Type) where
  params : List (Param K)
  mats : List (List (List K))
  deriving DecidableEq

/-- a `ParameterSet` (parameters.py:118-145): where its parameters are, in the order of the fields, and where its
covariance matrix is -/
structure RSet where
  enabled : Bool := true
  cov : Nat
  refs : List Nat
  deriving DecidableEq

/-- a set together with the memory -/
abbrev St (K : Type) := RSet × Mem K

/-- what a set looks like (`__parameter_fields`, parameters.py:234-243) -/
def view (x : St K) : PSet K :=
  { enabled := x.1.enabled
    cov := x.2.mats.getD x.1.cov []
    params := x.1.refs.filterMap (fun r => x.2.params[r]?) }

/-- the loop of `_set` (parameters.py:271-281) -/
def setLoop (upd : Param K → K → Param K) (enabledOnly : Bool) : List Nat → List K → List (Param K) → List (Param K)
  | [], _, h => h
  | r :: rs, vs, h => match h[r]? with
    | none => setLoop upd enabledOnly rs vs h
    | some p =>
      if p.enabled = false ∧ enabledOnly = true then setLoop upd enabledOnly rs vs h
      else match vs with
        | [] => setLoop upd enabledOnly rs [] h
        | v :: vs => setLoop upd enabledOnly rs vs (h.set r (upd p v))

/-- assignments to attributes of parameters, one after the other -/
def write : List (Nat × (Param K → Param K)) → List (Param K) → List (Param K)
  | [], h => h
  | w :: ws, h => write ws (h.modify w.1 w.2)

/-- `_set` (parameters.py:259-281) -/
def set (upd : Param K → K → Param K) (vals : List K) (enabledOnly : Bool) : SE (St K) Unit := do
  let x ← SE.get
  if (view x).numEnabled ≠ vals.length ∧ enabledOnly = true then SE.raise .valueError
  else if (view x).len ≠ vals.length ∧ enabledOnly = false then SE.raise .valueError
  else SE.modify (fun x => (x.1, { x.2 with params := setLoop upd enabledOnly x.1.refs vals x.2.params }))

/-- the setter of `values` (parameters.py:287-289) -/
def setValues (vals : List K) : SE (St K) Unit := set PSet.updValue vals false

/-- the setter of `values_enabled` (parameters.py:295-297) -/
def setValuesEnabled (vals : List K) : SE (St K) Unit := set PSet.updValue vals true

/-- a change of the array in place -/
def inPlace (f : List (List K) → List (List K)) : SE (St K) Unit :=
  SE.modify (fun x => (x.1, { x.2 with mats := x.2.mats.modify x.1.cov f }))

/-- the setter of `variances` (parameters.py:303-306) -/
def setVariances (vals : List K) : SE (St K) Unit := do
  set PSet.updVariance vals false
  inPlace (fun m => PSet.fillDiag m vals)

/-- the setter of `variances_enabled` (parameters.py:312-315) -/
def setVariancesEnabled (vals : List K) : SE (St K) Unit := do
  set PSet.updVariance vals true
  let x ← SE.get
  inPlace (fun m =>
    ((view x).enabledIndices.zip vals).foldl (fun m iv => m.modify iv.1 (fun row => row.set iv.1 iv.2)) m)

/-- `validate_covariance` (parameters.py:170-192): for a matrix of the enabled parameters a new array is made -/
def validate : SE (St K) Unit := do
  let x ← SE.get
  let m := (view x).cov
  if m.length ≠ (m.headD (List.replicate m.length 0)).length then SE.raise .alignmentParameters
  else if m.length = (view x).len then setVariances (PSet.diag m)
  else if m.length ≠ (view x).numEnabled then SE.raise .alignmentParameters
  else do
    SE.modify (fun x =>
      ({ x.1 with cov := x.2.mats.length },
       { x.2 with mats := x.2.mats ++ [PSet.scatter (view x).len (view x).enabledIndices m] }))
    let y ← SE.get
    setVariancesEnabled (PSet.diag ((view y).getCovariance true))

/-- `set_covariance_matrix` (parameters.py:166-168) of the array `c` of the caller: the array is kept, not copied, and it
is kept before it is checked -/
def setCovariance (c : Nat) : SE (St K) Unit := do
  SE.modify (fun x => ({ x.1 with cov := c }, x.2))
  validate

/-- `enable` (parameters.py:194-197, 111-112) -/
def enable : SE (St K) Unit :=
  SE.modify (fun x => ({ x.1 with enabled := true },
    { x.2 with params := write (x.1.refs.map (fun r => (r, fun p => { p with enabled := true }))) x.2.params }))

/-- `disable` (parameters.py:199-202, 114-115) -/
def disable : SE (St K) Unit :=
  SE.modify (fun x => ({ x.1 with enabled := false },
    { x.2 with params := write (x.1.refs.map (fun r => (r, fun p => { p with enabled := false }))) x.2.params }))

/-- the setter of `enabled_bool_list` (parameters.py:208-211) -/
def setEnabledBoolList (l : List Bool) : SE (St K) Unit :=
  SE.modify (fun x => (x.1,
    { x.2 with params := write (List.zipWith (fun r b => (r, fun p => { p with enabled := b })) x.1.refs l) x.2.params }))

/-- a set made of given parameters without a matrix: `__post_init__` makes a matrix of zeros (parameters.py:131-136) -/
def newSet (refs : List Nat) (m : Mem K) : St K :=
  ({ cov := m.mats.length, refs := refs }, { m with mats := m.mats ++ [zeroRows refs.length] })

/-- `AlignmentParameters.helmert` (parameters.py:489-499): translation, rotation and scale of the alignment -/
def helmert (a : RSet) (m : Mem K) : St K := newSet (a.refs.take 7) m

/-- `AlignmentParameters.leverarm` (parameters.py:501-503) -/
def leverarm (a : RSet) (m : Mem K) : St K := newSet (a.refs.drop 8) m

/-- `x.value = v[0]`, … for three parameters -/
def assign3 (refs : List Nat) (v : V3 K) (h : List (Param K)) : List (Param K) :=
  write (List.zipWith (fun r c => (r, fun p => PSet.updValue p c)) refs [v.x, v.y, v.z]) h

/-- the setter of `translation` of a `HelmertTransformation` (parameters.py:334-338) -/
def setTranslation (v : V3 K) : SE (St K) Unit :=
  SE.modify (fun x => (x.1, { x.2 with params := assign3 (x.1.refs.take 3) v x.2.params }))

/-- the setter of `rotation` of a `HelmertTransformation` (parameters.py:344-348) -/
def setRotation (v : V3 K) : SE (St K) Unit :=
  SE.modify (fun x => (x.1, { x.2 with params := assign3 ((x.1.refs.drop 3).take 3) v x.2.params }))

/-- `translation` (parameters.py:330-332) -/
def translation (x : St K) : List K := (view x).values.take 3

/-- `rotation` (parameters.py:340-342) -/
def rotation (x : St K) : List K := ((view x).values.drop 3).take 3

end TC.Shared
