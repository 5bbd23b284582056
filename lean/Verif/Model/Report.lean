import Verif.Model.Stats
import Verif.Model.Text
/-!
# Report data: `report/data.py`, `report/utils.py` and what `report/single.py`, `report/multi.py` show

Plots, templates and images are not modelled, only the numbers and names they show.
-/
namespace TC
namespace Report
variable {K R : Type} [Field K] [LinearOrder K]

/-- `padded.reshape(-1, w)` for an array with `n * w` entries (report/utils.py:66) -/
def rows {α : Type} (n w : Nat) (l : List α) : List (List α) :=
  (List.range n).map (fun i => (l.drop (i * w)).take w)

/-- `np.nanmean(rows, 1)` (report/utils.py:69) of one row; `none` is `nan` -/
def nanMean (row : List (Option K)) : K :=
  let v := row.filterMap id
  v.sum / (v.length : K)

/-- `shrink_data` (report/utils.py:44-69) for a one-dimensional array of numbers.  `-len(data) % 0` raises
`ZeroDivisionError` (line 62).  If no row is left, `np.nanmean(np.array([]), 1)` raises an `AxisError`, which is a
`ValueError`. -/
def shrinkData (data : List K) (maxSize : Int) : Except Err (List K) :=
  if maxSize < 0 then .ok data
  else if (data.length : Int) ≤ maxSize then .ok data
  else if maxSize = 0 then .error .zeroDivision
  else
    let m := maxSize.toNat
    let arraySize := ((-(data.length : Int)) % maxSize + data.length).toNat
    let padded := data ++ List.replicate (arraySize - data.length) 0
    let nans := padded.map (fun x => if x = 0 then none else some x)
    let kept := (rows m (padded.length / m) nans).filter (fun row => !(row.all Option.isNone))
    if kept.length = 0 then .error .valueError
    else .ok (kept.map nanMean)

/-- `ATEReportData.__post_init__` (report/data.py:33-36): `results` are all ATE results of the program, the report data
refer to number `i`.  The arrays are multiplied in place. -/
def postInit (mm : Bool) (i : Nat) : SE (List (AteResult K R)) Unit := fun results =>
  match results[i]? with
  | none => (.error .attributeError, results)
  | some r =>
    if mm then
      (.ok (), results.set i { r with posDev := r.posDev.map (fun v => (1000 : K) • v)
                                      directed := r.directed.map (fun v => (1000 : K) • v) })
    else (.ok (), results)

/-- the construction of the report data of several results (report/multi.py:75-81) -/
def postInits (mm : Bool) : List Nat → SE (List (AteResult K R)) Unit
  | [] => pure ()
  | i :: is => do
    postInit mm i
    postInits mm is

/-- the position ATE in a single report, before it is formatted (report/single.py:107-123) -/
def singleReport (E : EvalLib K) (mm : Bool) (i : Nat) : SE (List (AteResult K R)) K := fun results =>
  match postInit mm i results with
  | (.error e, s) => (.error e, s)
  | (.ok _, s) =>
    match s[i]? with
    | none => (.error .attributeError, s)
    | some r => (r.posAte E, s)

/-- the rotation ATE in a single report, before it is converted to degrees and formatted (report/single.py:124) -/
def singleReportRot (E : EvalLib K) (L : RotLib K R) (mm : Bool) (i : Nat) : SE (List (AteResult K R)) K := fun results =>
  match postInit mm i results with
  | (.error e, s) => (.error e, s)
  | (.ok _, s) =>
    match s[i]? with
    | none => (.error .attributeError, s)
    | some r => (r.rotAte E L, s)

/-- the position ATEs in the bar plot of a multi report (report/multi.py:75-90, plotting/plotly/bar_plots.py:21-42); all
report data are constructed before anything is shown -/
def multiReport (E : EvalLib K) (mm : Bool) (is : List Nat) : SE (List (AteResult K R)) (List K) := fun results =>
  match postInits mm is results with
  | (.error e, s) => (.error e, s)
  | (.ok _, s) => (is.mapM (fun i => match s[i]? with
      | none => .error .attributeError
      | some r => r.posAte E), s)

/-- the part of a string before the first `vs` (`name.split("vs")[0]`, report/data.py:40) -/
def beforeVs : Str → Str
  | [] => []
  | 'v' :: 's' :: _ => []
  | c :: s => c :: beforeVs s

/-- `short_name` (report/data.py:38-40) -/
def shortName (r : AteResult K R) : Str := beforeVs r.name.toList

end Report
end TC
