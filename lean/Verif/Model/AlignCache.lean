import Verif.Model.ObsEdit
import Verif.Model.Adjust
/-!
# What an alignment keeps once it was asked for (alignment/data.py)

`observation_groups` and `thresholds` are cached properties: the first successful reading stores the value in the
object, later readings return the stored one.  The settings are a separate object that can be changed at any time.
-/
namespace TC
variable {K : Type} [Field K] [LinearOrder K]

/-- an `AlignmentData` object as far as these properties read it (data.py:30-98, 100-126, 484-507): its vectors, the
settings it refers to, and the two stored values -/
structure AlignObject (K : Type) where
  vec : AlignVectors K
  /-- `alignment_settings.estimation_settings` -/
  est : EstSettings
  /-- `alignment_settings.metric_threshold` -/
  metric : K
  /-- `alignment_settings.time_threshold` -/
  time : K
  /-- the stored value of `observation_groups` -/
  groups : Option (ObsKey → Option (Nat × Nat))
  /-- the stored value of `thresholds` -/
  ths : Option (List (Option K))

namespace Obs

/-- the object at the end of `__post_init__` (data.py:86-98).  The table of groups is already stored, because
`build_var_vector` has set the variances of the positions (data.py:284-285, 329); nothing has asked for the
thresholds. -/
def newObject (e : EstSettings) (metric time : K) (v : AlignVectors K) : AlignObject K :=
  ⟨v, e, metric, time, some (group e), none⟩

/-- `observation_groups` (data.py:100-126) with `functools.cached_property` -/
def groupsOf : SE (AlignObject K) (ObsKey → Option (Nat × Nat)) := do
  let s ← SE.get
  match s.groups with
  | some t => pure t
  | none => do
    SE.modify (fun s => { s with groups := some (group s.est) })
    pure (group s.est)

/-- `get_obs_group`, `get_var_group`, `get_res_group` (data.py:298-299, 307-308, 313-314, 319-326) -/
def readColumns (w : VecName) (key : ObsKey) : SE (AlignObject K) (List (List K)) := do
  let t ← groupsOf
  let s ← SE.get
  match t key with
  | none => SE.raise .valueError
  | some (a, b) => pure ((List.range (b - a)).map (fun c => stride (perEpoch s.est) (a + c) (get s.vec w)))

/-- a call that works on the vectors only -/
def onVectors {α : Type} (f : SE (AlignVectors K) α) : SE (AlignObject K) α :=
  fun s => ((f s.vec).1, { s with vec := (f s.vec).2 })

/-- `set_obs_group`, `set_var_group`, `set_res_group` (data.py:304-305, 310-311, 316-317, 328-337) -/
def writeGroup (w : VecName) (key : ObsKey) (columns : List (List K)) : SE (AlignObject K) Unit := do
  let t ← groupsOf
  let s ← SE.get
  match t key with
  | none => SE.raise .valueError
  | some (a, b) =>
    if columns.length ≠ b - a then SE.raise .valueError else onVectors (assignColumns s.est w a columns)

/-- the setters of `obs_vector`, `var_vector` and `res_vector` (data.py:148-153, 159-164, 170-175) -/
def writeVector (w : VecName) (values : List K) : SE (AlignObject K) Unit := do
  let s ← SE.get
  onVectors (setVector s.est w values)

/-- `xyz_from`, `xyz_to` (data.py:344-350); `np.c_` refuses columns of different lengths -/
def readPoints (key : ObsKey) : SE (AlignObject K) (List (V3 K)) := do
  let cols ← readColumns .obs key
  if cols.all (fun c => decide (c.length = (cols.headD []).length)) then pure (toPoints cols) else SE.raise .valueError

/-- `thresholds` (data.py:484-507) with `functools.cached_property`: nothing is stored if the computation raises -/
def readThresholds (nrm : V3 K → K) : SE (AlignObject K) (List (Option K)) := do
  let s ← SE.get
  match s.ths with
  | some t => pure t
  | none => do
    let a ← readPoints .xyzFrom
    let b ← readPoints .xyzTo
    let s ← SE.get
    let t ← SE.lift (Adjust.thresholds nrm s.metric s.time a b)
    SE.modify (fun s => { s with ths := some t })
    pure t

/-- what can be done with the object: change a vector, read a group, ask for the thresholds, change the settings it
refers to (settings/alignment.py:30-56, 281-300) -/
inductive DataCall (K : Type)
  | edit (w : VecName) (key : ObsKey) (columns : List (List K))
  | assign (w : VecName) (values : List K)
  | read (w : VecName) (key : ObsKey)
  | thresholds
  | flags (e : EstSettings)
  | limits (metric time : K)

/-- what a call gives back -/
inductive DataAnswer (K : Type)
  | done
  | columns (c : List (List K))
  | numbers (l : List (Option K))

/-- one call -/
def DataCall.run (nrm : V3 K → K) : DataCall K → SE (AlignObject K) (DataAnswer K)
  | .edit w key columns => do writeGroup w key columns; pure .done
  | .assign w values => do writeVector w values; pure .done
  | .read w key => do let c ← readColumns w key; pure (.columns c)
  | .thresholds => do let l ← readThresholds nrm; pure (.numbers l)
  | .flags e => do SE.modify (fun s => { s with est := e }); pure .done
  | .limits m t => do SE.modify (fun s => { s with metric := m, time := t }); pure .done

end Obs
end TC
