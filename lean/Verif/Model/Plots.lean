import Verif.Model.Report
import Verif.Model.Geo
/-!
# What the plots of `plotting/plotly` show

A figure is reduced to what a reader sees: curves with the name in the legend, the subplot (row) they are in, and the
points; and the texts at the axes.  Colours, sizes, HTML and the export settings are not modelled.
-/
namespace TC
namespace Plot
variable {K R : Type} [Field K] [LinearOrder K]

/-- the numeric routines the plots use: those of the evaluation, `as_euler(seq="xyz")`, `np.rad2deg`, `np.argsort` -/
structure PlotLib (K R : Type) where
  eval : EvalLib K
  rot : RotLib K R
  euler : R → V3 K
  deg : K → K
  argsort : List K → List Nat

/-- the fields of `ReportSettings` that say what is shown (settings/report.py:78-114) -/
structure Names (K : Type) where
  ateMm : Bool
  directed : Bool
  posX : Str
  posY : Str
  posZ : Str
  dirX : Str
  dirY : Str
  dirZ : Str
  rotX : Str
  rotY : Str
  rotZ : Str
  rotUnit : Str
  maxStd : K
  axisOrder : Str
  detailed : Bool

/-- one `go.Scattergl` trace -/
structure Trace (K : Type) where
  row : Nat
  name : Str
  x : List K
  y : List K
  deriving DecidableEq

/-- a figure with subplots one above the other -/
structure Figure (K : Type) where
  xLabel : Str
  yLabels : List Str
  traces : List (Trace K)
  deriving DecidableEq

/-! ### `ATEReportData` (report/data.py) -/

/-- `ate_unit` (report/data.py:42-44) -/
def ateUnit (s : Names K) : Str := if s.ateMm then "mm".toList else "m".toList

/-- `function_of` (report/data.py:66-68) -/
def functionOf (P : PlotLib K R) (d : AteResult K R) : Except Err (List K) := d.trajectory.functionOf P.argsort

/-- `function_of_label` (trajectory.py:216-221) -/
def functionOfLabel (d : AteResult K R) : Str :=
  match d.trajectory.sorting with
  | .time => "time [s]".toList
  | .arcLength => "arc length [m]".toList

/-- `pos_dev_x`, `pos_dev_y`, `pos_dev_z` (report/data.py:74-84) -/
def posDevs (s : Names K) (d : AteResult K R) : List (List K) :=
  if s.directed then [d.directed.map V3.x, d.directed.map V3.y, d.directed.map V3.z]
  else [d.posDev.map V3.x, d.posDev.map V3.y, d.posDev.map V3.z]

/-- `pos_dev_x_name`, `pos_dev_y_name`, `pos_dev_z_name` (report/data.py:86-96) -/
def posDevNames (s : Names K) : List Str :=
  if s.directed then [s.dirX, s.dirY, s.dirZ] else [s.posX, s.posY, s.posZ]

/-- `rot_dev_x`, `rot_dev_y`, `rot_dev_z` (report/data.py:126-145) -/
def rotDevs (P : PlotLib K R) (d : AteResult K R) : Except Err (List (List K)) :=
  match d.rotDev with
  | none => .error .valueError
  | some r => .ok [r.map (fun q => P.deg (P.euler q).x), r.map (fun q => P.deg (P.euler q).y),
      r.map (fun q => P.deg (P.euler q).z)]

/-- `comb_dev_rot` (report/data.py:119-124) -/
def combDevRot (P : PlotLib K R) (d : AteResult K R) : Except Err (List K) :=
  match d.rotDev with
  | none => .error .valueError
  | some _ => .ok ((d.rotDevComb P.eval P.rot).map P.deg)

/-- `has_ate_rot` (report/data.py:46-48) -/
def hasRot (d : AteResult K R) : Bool := d.rotDev.isSome

/-- `[unit]` -/
def bracket (u : Str) : Str := '[' :: u ++ [']']

/-! ### Figures with several trajectories (plotting/plotly/multi_line_plots.py) -/

/-- the curves of one trajectory (multi_line_plots.py:293-308) -/
def curves (x : List K) (name : Str) (ys : List (Option (List K))) : List (Trace K) :=
  ys.zipIdx.filterMap (fun yi => yi.1.map (fun y => { row := yi.2 + 1, name := name, x := x, y := y }))

/-- `render_shared_x_plot` (multi_line_plots.py:268-316); `height_dict[len(y_labels)]` raises `KeyError` (line 283) -/
def sharedX (xs : List (List K)) (ys : List (List (Option (List K)))) (names : List Str) (xLabel : Str)
    (yLabels : List Str) : Except Err (Figure K) :=
  if yLabels.length = 1 ∨ yLabels.length = 2 ∨ yLabels.length = 3 then
    .ok { xLabel := xLabel, yLabels := yLabels,
          traces := (xs.zip (ys.zip names)).flatMap (fun t => curves t.1 t.2.2 t.2.1) }
  else .error .keyError

/-- `items[0]` (multi_line_plots.py:24, 103, 131, 149) -/
def first {α : Type} : List α → Except Err α
  | [] => .error .indexError
  | a :: _ => .ok a

/-- `render_dev_comb_plot` (multi_line_plots.py:102-127) -/
def devCombPlot (P : PlotLib K R) (s : Names K) (items : List (AteResult K R)) : Except Err (Figure K) := do
  let d ← first items
  let anyRot := items.any hasRot
  let ys ← mapE (fun d =>
    if anyRot then do
      let r ← if hasRot d then (combDevRot P d).map some else .ok none
      return [some (d.posDevComb P.eval), r]
    else .ok [some (d.posDevComb P.eval)]) items
  let xs ← mapE (functionOf P) items
  sharedX xs ys (items.map Report.shortName) (functionOfLabel d)
    (if anyRot then [bracket (ateUnit s), bracket s.rotUnit] else [bracket (ateUnit s)])

/-- `name [unit]` -/
def withUnit (name u : Str) : Str := name ++ ' ' :: bracket u

/-- `render_dev_pos_plot` (multi_line_plots.py:130-145) -/
def devPosPlot (P : PlotLib K R) (s : Names K) (items : List (AteResult K R)) : Except Err (Figure K) := do
  let d ← first items
  let xs ← mapE (functionOf P) items
  sharedX xs (items.map (fun d => (posDevs s d).map some)) (items.map Report.shortName) (functionOfLabel d)
    ((posDevNames s).map (fun n => withUnit n (ateUnit s)))

/-- `render_dev_rot_plot` (multi_line_plots.py:148-167): the list of deviations leaves out the trajectories without
orientations, the lists of abscissas and names do not -/
def devRotPlot (P : PlotLib K R) (s : Names K) (items : List (AteResult K R)) : Except Err (Figure K) := do
  let d ← first items
  let xs ← mapE (functionOf P) items
  let ys ← mapE (rotDevs P) (items.filter hasRot)
  sharedX xs (ys.map (fun y => y.map some)) (items.map Report.shortName) (functionOfLabel d)
    ([s.rotX, s.rotY, s.rotZ].map (fun n => withUnit n s.rotUnit))

/-- the cumulative curve of some deviations (multi_line_plots.py:48-49, line_plots.py:22-23,
mpl/deviation_plot.py:141-142): `np.sort(dev)` against `np.arange(n) / float(n)` -/
def edf (dev : List K) : List K × List K :=
  let s := npSort dev
  (s, (List.range s.length).map (fun i : Nat => (i : K) / (s.length : K)))

/-- `render_dev_edf` (multi_line_plots.py:23-77) -/
def devEdf (P : PlotLib K R) (s : Names K) (items : List (AteResult K R)) : Except Err (Figure K) := do
  let _ ← first items
  let traces ← mapE (fun d => do
    let p := edf (d.posDevComb P.eval)
    if hasRot d then do
      let r ← combDevRot P d
      return [{ row := 1, name := Report.shortName d, x := p.1, y := p.2 },
              { row := 2, name := Report.shortName d, x := (edf r).1, y := (edf r).2 }]
    else return [{ row := 1, name := Report.shortName d, x := p.1, y := p.2 }]) items
  return { xLabel := bracket (ateUnit s), yLabels := ["CDF".toList], traces := traces.flatten }

/-! ### Figures with one trajectory (plotting/plotly/line_plots.py, scatter_plots.py) -/

/-- `render_dev_comb_plot` (line_plots.py:227-266) -/
def devComb1 (P : PlotLib K R) (s : Names K) (d : AteResult K R) : Except Err (Figure K) := do
  let x ← functionOf P d
  let t : Trace K := { row := 1, name := "position".toList, x := x, y := d.posDevComb P.eval }
  if hasRot d then do
    let r ← combDevRot P d
    return { xLabel := functionOfLabel d, yLabels := [bracket (ateUnit s), bracket s.rotUnit],
             traces := [t, { row := 2, name := "rotation".toList, x := x, y := r }] }
  else return { xLabel := functionOfLabel d, yLabels := [bracket (ateUnit s)], traces := [t] }

/-- three subplots (line_plots.py:55-224): `render_pos_plot`, `render_rot_plot`, `render_dev_pos_plot` and
`render_dev_rot_plot` differ in data, names and units only -/
def three (x : List K) (ys : List (List K)) (names : List Str) (xLabel : Str) (yLabels : List Str) : Figure K :=
  { xLabel := xLabel, yLabels := yLabels
    traces := (ys.zip names).zipIdx.map (fun t => { row := t.2 + 1, name := t.1.2, x := x, y := t.1.1 }) }

/-- `render_dev_pos_plot` (line_plots.py:141-181) -/
def devPos1 (P : PlotLib K R) (s : Names K) (d : AteResult K R) : Except Err (Figure K) := do
  let x ← functionOf P d
  return three x (posDevs s d) (posDevNames s) (functionOfLabel d)
    [bracket (ateUnit s), bracket (ateUnit s), bracket (ateUnit s)]

/-- `render_dev_rot_plot` (line_plots.py:184-224) -/
def devRot1 (P : PlotLib K R) (s : Names K) (d : AteResult K R) : Except Err (Figure K) := do
  let x ← functionOf P d
  let ys ← rotDevs P d
  return three x ys [s.rotX, s.rotY, s.rotZ] (functionOfLabel d) [bracket s.rotUnit, bracket s.rotUnit, bracket s.rotUnit]

/-- a cloud of points with colours, the title of the figure, the title and the limits of the colour bar -/
structure Cloud (K : Type) where
  labels : List Str
  points : List (List K)
  colours : List K
  title : Str
  barTitle : Str
  lower : K
  upper : K

/-- the limits of the colour bar (`get_marker_dict`, scatter_plots.py:147-161); Python's `min` and numpy's `max` of no
values raise `ValueError` -/
def markerRange (E : EvalLib K) (maxStd : K) (colours : List K) : Except Err (K × K) := do
  let lo ← pyMin colours
  let hi ← pyMax colours
  let sd ← npStd E colours
  return (lo, min hi (lo + sd * maxStd))

/-- `scatter_plot` (scatter_plots.py:87-144) with `setup_pos_axis_indices` (scatter_plots.py:22-30): `labels` are the
three position labels.  An order of another length than 2 or 3 raises `ValueError`. -/
def scatter (E : EvalLib K) (s : Names K) (labels : List Str) (pos : List (V3 K)) (colours : List K)
    (title barTitle : Str) : Except Err (Cloud K) := do
  let range ← markerRange E s.maxStd colours
  let idx ← mapE Geo.axisIndex s.axisOrder
  if idx.length = 2 ∨ idx.length = 3 then
    return { labels := idx.map (fun i => labels.getD i []), points := pos.map (fun v => idx.map (fun i => Geo.coordinate i v)),
             colours := colours, title := title, barTitle := barTitle, lower := range.1, upper := range.2 }
  else throw Err.valueError

/-- `render_pos_devs` (scatter_plots.py:164-173) -/
def posDevCloud (P : PlotLib K R) (s : Names K) (labels : List Str) (d : AteResult K R) : Except Err (Cloud K) := do
  let pos ← d.trajectory.xyz P.argsort
  scatter P.eval s labels pos (d.posDevComb P.eval) "Position Deviations".toList (bracket (ateUnit s))

/-- `str.capitalize` for ASCII letters (scatter_plots.py:181) -/
def capitalize : Str → Str
  | [] => []
  | c :: cs => c.toUpper :: pyLower cs

/-- `render_pos_x_devs`, `render_pos_y_devs`, `render_pos_z_devs` (scatter_plots.py:176-203) for `i` = 0, 1, 2: the title
of the colour bar takes the name of the coordinate, whatever is shown -/
def posDevCloudOf (i : Nat) (P : PlotLib K R) (s : Names K) (labels : List Str) (d : AteResult K R) :
    Except Err (Cloud K) := do
  let pos ← d.trajectory.xyz P.argsort
  scatter P.eval s labels pos ((posDevs s d).getD i []) (capitalize ((posDevNames s).getD i []) ++ " Deviations".toList)
    (withUnit ([s.posX, s.posY, s.posZ].getD i []) (ateUnit s))

/-- `render_rot_devs` (scatter_plots.py:236-245) -/
def rotDevCloud (P : PlotLib K R) (s : Names K) (labels : List Str) (d : AteResult K R) : Except Err (Cloud K) := do
  let c ← combDevRot P d
  let pos ← d.trajectory.xyz P.argsort
  scatter P.eval s labels pos c "Rotation Deviations".toList (bracket s.rotUnit)

/-- `render_rot_x_devs`, `render_rot_y_devs`, `render_rot_z_devs` (scatter_plots.py:206-233) for `i` = 0, 1, 2 -/
def rotDevCloudOf (i : Nat) (P : PlotLib K R) (s : Names K) (labels : List Str) (d : AteResult K R) :
    Except Err (Cloud K) := do
  let pos ← d.trajectory.xyz P.argsort
  let ys ← rotDevs P d
  scatter P.eval s labels pos (ys.getD i []) (capitalize ([s.rotX, s.rotY, s.rotZ].getD i []) ++ " Deviations".toList)
    (withUnit ([s.rotX, s.rotY, s.rotZ].getD i []) s.rotUnit)

/-! ### Bar plots (plotting/plotly/bar_plots.py) -/

/-- a row of the table of metrics: trajectory, metric, value -/
structure Bar (K : Type) where
  trajectory : Str
  metric : Str
  value : K
  deriving DecidableEq

/-- the names in bar_plots.py:26, 54 -/
def metricNames : List Str :=
  ["ATE".toList, "ATE Min".toList, "ATE Max".toList, "ATE Median".toList, "ATE RMS".toList, "ATE Std".toList]

/-- the rows of one trajectory -/
def barRows (name : Str) (values : List K) : List (Bar K) :=
  (metricNames.zip values).map (fun mv => { trajectory := name, metric := mv.1, value := mv.2 })

/-- `to_pos_metrics_df` (bar_plots.py:21-40) -/
def posBars (E : EvalLib K) (items : List (AteResult K R)) : Except Err (List (Bar K)) := do
  let rows ← mapE (fun d => do
    let a ← d.posAte E
    let b ← d.posDevMin E
    let c ← d.posDevMax E
    let e ← d.posDevMedian E
    let f ← d.posDevRms E
    let g ← d.posDevStd E
    return barRows (Report.shortName d) [a, b, c, e, f, g]) items
  return rows.flatten

/-- `to_rot_metrics_df` (bar_plots.py:43-68) -/
def rotBars (P : PlotLib K R) (items : List (AteResult K R)) : Except Err (List (Bar K)) := do
  let rows ← mapE (fun d =>
    if hasRot d then do
      let a ← d.rotAte P.eval P.rot
      let b ← d.rotDevMin P.eval P.rot
      let c ← d.rotDevMax P.eval P.rot
      let e ← d.rotDevMedian P.eval P.rot
      let f ← d.rotDevRms P.eval P.rot
      let g ← d.rotDevStd P.eval P.rot
      return barRows (Report.shortName d) [P.deg a, P.deg b, P.deg c, P.deg e, P.deg f, P.deg g]
    else .ok []) items
  return rows.flatten

/-! ### Which figures a report has (report/single.py, report/multi.py) -/

/-- the figures of the reports -/
inductive Fig
  | scatterPos | scatterRot | rpe | histPos | histRot | barPos | barRot | edf | devComb | devPos | devRot
  | scatterX | scatterY | scatterZ | scatterRoll | scatterPitch | scatterYaw
  deriving DecidableEq

/-- `list.insert(i, x)` (report/single.py:67-68, report/multi.py:46) -/
def pyInsert {α : Type} (l : List α) (i : Nat) (x : α) : List α := l.take i ++ x :: l.drop i

/-- `render_one_line_plots` (report/single.py:35-79); `ate` says whether there are rotation deviations -/
def oneLine1 (detailed : Bool) (ate : Option Bool) (rpe : Bool) : List Fig :=
  let l := if rpe then [Fig.rpe] else []
  match ate with
  | none => l
  | some rot =>
    let l := l ++ [.histPos, .barPos, .edf, .devComb, .devPos]
    let l := if detailed then l ++ [.scatterX, .scatterY, .scatterZ] else l
    if rot then
      let l := pyInsert l 2 .histRot
      let l := pyInsert l 4 .barRot
      let l := l ++ [.devRot]
      if detailed then l ++ [.scatterRoll, .scatterPitch, .scatterYaw] else l
    else l

/-- the side-by-side and the one-line figures of `render_single_report` (report/single.py:24-32, 101-119) -/
def single (detailed : Bool) (ate : Option Bool) (rpe : Bool) : Except Err (List Fig × List Fig) :=
  if ate = none ∧ rpe = false then .error .valueError
  else
    let side := match ate with
      | none => []
      | some rot => if rot then [Fig.scatterPos, Fig.scatterRot] else [Fig.scatterPos]
    let line := oneLine1 detailed ate rpe
    if side.length = 1 then .ok ([], side ++ line) else .ok (side, line)

/-- the figures of `render_multi_report` (report/multi.py:23-48, 69-90) -/
def multi (ate : Option Bool) (rpe : Bool) : Except Err (List Fig) :=
  match ate, rpe with
  | none, false => .error .valueError
  | none, true => .ok [.rpe]
  | some rot, rpe =>
    let l := [Fig.devComb, .edf, .barPos, .devPos]
    let l := if rot then l ++ [.barRot, .devRot] else l
    .ok (if rpe then pyInsert l 1 .rpe else l)

end Plot
end TC
