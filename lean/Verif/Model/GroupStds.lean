import Verif.Model.Observations
import Verif.Model.Params
import Verif.Model.Stats
/-!
# Summaries of the observations and of the parameters of an alignment
-/
namespace TC
variable {K : Type} [Field K] [LinearOrder K]

namespace Obs

/-- `group_stds` (data.py:340-342) with `get_var_group` (data.py:307-308); `np.sqrt` of the tuple of columns is an array, `np.mean`
the mean of all its entries.  The dictionary is the list of its entries in the order of `variance_groups`, the keys of which differ. -/
def groupStds (sqrt : K → K) (e : EstSettings) (var : List K) : Except Err (List (ObsKey × K)) :=
  mapE (fun key => do
    let cols ← extract e var key
    let m ← npMean (cols.flatten.map sqrt)
    return (key, m)) (varianceGroups e)

end Obs

namespace PSet

/-- `d[key] = v` for a dictionary in the order of insertion: an existing key keeps its place -/
def dictPut {α : Type} (d : List (String × α)) (key : String) (v : α) : List (String × α) :=
  if d.any (fun e => e.1 == key) then d.map (fun e => if e.1 = key then (key, v) else e) else d ++ [(key, v)]

/-- `to_dict` (parameters.py:227-232): value and variance under the name -/
def toDict (s : PSet K) (enabledOnly : Bool) : List (String × (K × K)) :=
  (s.params.filter (fun p => p.enabled || !enabledOnly)).foldl (fun d p => dictPut d p.name (p.value, p.variance)) []

/-- `AlignmentParameters.__add__` (parameters.py:437-438): an array, of two sets with the same number of parameters -/
def add (s t : PSet K) : Except Err (List K) :=
  if s.values.length = t.values.length then .ok (List.zipWith (fun a b => a + b) s.values t.values) else .error .valueError

/-- `AlignmentParameters.__sub__` (parameters.py:440-441) -/
def sub (s t : PSet K) : Except Err (List K) :=
  if s.values.length = t.values.length then .ok (List.zipWith (fun a b => a - b) s.values t.values) else .error .valueError

end PSet

end TC
