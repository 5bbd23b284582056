import Verif.Model.Plots
import Verif.Model.Mpl
/-!
# Plots of trajectories: axis labels and paths

`plotting/utils.py`, `plotting/mpl/trajectory_plot.py`, `plotting/plotly/scatter_plots.py`, `report/trajectory.py`.  The
coordinate reference system of an EPSG code (pyproj) is a parameter: the list of its axes, or nothing.
-/
namespace TC
namespace Plot
variable {K R : Type} [Field K] [LinearOrder K]

/-- an entry of `crs.axis_info` -/
structure AxisInfo where
  name : Str
  unit : Str
  deriving DecidableEq

/-- `s.replace(old, new)` for an `old` that is not empty; `skip` is the number of characters still to be dropped -/
def pyReplaceAux (old new : Str) : Nat → Str → Str
  | _, [] => []
  | 0, c :: s => if old.isPrefixOf (c :: s) then new ++ pyReplaceAux old new (old.length - 1) s
                 else c :: pyReplaceAux old new 0 s
  | n + 1, _ :: s => pyReplaceAux old new n s

/-- `unit.replace("metre", "m").replace("degree", "°")` (plotting/utils.py:33, 45) -/
def shortUnit (u : Str) : Str := pyReplaceAux "degree".toList "°".toList 0 (pyReplaceAux "metre".toList "m".toList 0 u)

/-- `f"{name} [{unit}]"` (plotting/utils.py:52-54) -/
def axisText (name unit : Str) : Str := name ++ ' ' :: bracket unit

/-- the unit of the first axis (plotting/utils.py:32) -/
def firstUnit (crs : Int → Option (List AxisInfo)) (T : Traj K R) : Except Err Str :=
  match crs T.epsg with
  | none => .ok "unknown".toList
  | some [] => .error .indexError
  | some (a :: _) => .ok a.unit

/-- the labels from the axes of the first trajectory (plotting/utils.py:39-55); `None.axis_info` raises `AttributeError` -/
def labelsOf (axes : Option (List AxisInfo)) (unit : Str) : Except Err (List Str) :=
  match axes with
  | none => .error .attributeError
  | some (a :: b :: c :: _) => .ok [axisText a.name (shortUnit unit), axisText b.name (shortUnit unit), axisText c.name (shortUnit c.unit)]
  | some [a, b] => .ok [axisText a.name (shortUnit unit), axisText b.name (shortUnit unit), axisText "z".toList "m".toList]
  | some _ => .error .indexError

/-- `get_axis_label` (plotting/utils.py:27-55, and the copy in mpl/trajectory_plot.py:84-112).  If there is only one unit,
it is the one that `unit_set.pop()` returns. -/
def axisLabels (crs : Int → Option (List AxisInfo)) (ts : List (Traj K R)) : Except Err (List Str) :=
  if ts.all (fun T => decide (T.epsg = 0)) then .ok ["x [m]".toList, "y [m]".toList, "z [m]".toList]
  else do
    let units ← mapE (firstUnit crs) ts
    match units.dedup, ts with
    | [u], T :: _ => labelsOf (crs T.epsg) u
    | _, _ => return ["x".toList, "y".toList, "z".toList]

/-- a figure with the paths of trajectories -/
structure PathFigure (K : Type) where
  labels : List Str
  paths : List (Str × List (List K))
  deriving DecidableEq

/-- `pos_axis_labels[axes_indices[i]]` (scatter_plots.py:286-299) -/
def pickLabel (labels : List Str) (idx : List Nat) (i : Nat) : Except Err Str :=
  match idx[i]? with
  | none => .error .indexError
  | some a => match labels[a]? with
    | none => .error .indexError
    | some l => .ok l

/-- `render_trajectories` (scatter_plots.py:248-307): another number of axes than two or three raises `ValueError` as soon as
there is a trajectory -/
def pathPlot (crs : Int → Option (List AxisInfo)) (argsort : List K → List Nat) (order : Str) (ts : List (Traj K R)) :
    Except Err (PathFigure K) := do
  let labels ← axisLabels crs ts
  let idx ← mapE Geo.axisIndex order
  let paths ← mapE (fun T : Traj K R => do
    let p ← T.xyz argsort
    if idx.length = 2 ∨ idx.length = 3 then return (T.name.toList, p.map (fun v => idx.map (fun i => Geo.coordinate i v)))
    else throw Err.valueError) ts
  let l ← mapE (pickLabel labels idx) (if idx.length = 3 then [0, 1, 2] else [0, 1])
  return { labels := l, paths := paths }

/-- `plot_pos` (mpl/trajectory_plot.py:28-58): the positions in the order in which they are stored -/
def mplPath (crs : Int → Option (List AxisInfo)) (dim : Nat) (ts : List (Traj K R)) : Except Err (PathFigure K) := do
  let labels ← axisLabels crs ts
  if dim = 2 then return { labels := labels.take 2, paths := ts.map (fun T => (T.name.toList, T.pos.map (fun v => [v.x, v.y]))) }
  else if dim = 3 then return { labels := labels, paths := ts.map (fun T => (T.name.toList, T.pos.map (fun v => [v.x, v.y, v.z]))) }
  else throw Err.valueError

/-- the figures of a report of trajectories -/
inductive TrajFig
  | map (ts : List Str)
  | path (ts : List Str)
  | coordinates (ts : List Str)
  | angles (ts : List Str)
  deriving DecidableEq

/-- `render_one_line_plots` (report/trajectory.py:21-36): which figures there are and which trajectories are in them -/
def trajFigures (mapbox : Bool) (ts : List (Traj K R)) : List TrajFig :=
  let names := ts.map (fun T => T.name.toList)
  let rot := (ts.filter (fun T => T.hasOrientation)).map (fun T => T.name.toList)
  (if mapbox then TrajFig.map names else TrajFig.path names) :: TrajFig.coordinates names ::
    (if rot.isEmpty then [] else [TrajFig.angles rot])

/-- the title of the report (report/trajectory.py:55) -/
def trajTitle (ts : List (Traj K R)) : Str :=
  match ts with
  | [T] => T.name.toList
  | _ => "Trajectory Plot".toList

end Plot
end TC
