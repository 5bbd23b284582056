import Verif.Model.Plots
import Verif.Model.Mpl
import Verif.Model.Compare
/-!
# The plots of the relative error

`plotting/plotly/multi_line_plots.py`, `plotting/plotly/line_plots.py` and `plotting/mpl/deviation_plot.py`.  Colours and
sizes are not modelled.
-/
namespace TC
variable {K R : Type} [Field K] [LinearOrder K]

namespace RpeResult

/-- `pos_std` (rpe_result.py:89-91) -/
def posStd (E : EvalLib K) (r : RpeResult K) : Except Err (List K) :=
  r.computeMetric RpeGroup.posDev (npStd E) r.driftFactor

/-- `rot_std` (rpe_result.py:93-98) -/
def rotStd (E : EvalLib K) (r : RpeResult K) : Except Err (List K) :=
  if r.hasRotDev then r.computeMetric RpeGroup.rotDev (npStd E) r.driftFactor else .ok []

/-- `step` (rpe_result.py:49-51) -/
def step (r : RpeResult K) : Except Err K := do
  let m ← r.meanPairDistances
  if 1 < m.length then npMean (m.tail.zipWith (· - ·) m) else return 0

end RpeResult

namespace Plot

/-- a curve with error bars (`error_y`) -/
structure BarTrace (K : Type) where
  row : Nat
  name : Str
  x : List K
  y : List K
  err : List K
  deriving DecidableEq

/-- the figure of relative errors: the subplot with the text at its x axis, the texts at the y axes, the curves -/
structure RpeFigure (K : Type) where
  xRow : Nat
  xLabel : Str
  yLabels : List Str
  traces : List (BarTrace K)
  deriving DecidableEq

/-- `short_name` of a relative error (report/data.py:162-164) -/
def rpeShortName (r : RpeResult K) : Str := Report.beforeVs r.name.toList

/-- the text at the x axis (multi_line_plots.py:179, 186, line_plots.py:317-319) -/
def poseDistance (unit : Str) : Str := "Pose Distance ".toList ++ bracket unit

/-- the curve of the positions (multi_line_plots.py:200-215, line_plots.py:275-289) -/
def rpePosTrace (E : EvalLib K) (name : Str) (r : RpeResult K) : Except Err (BarTrace K) := do
  let x ← r.meanPairDistances
  let y ← r.posDevMean
  let e ← r.posStd E
  return { row := 1, name := name, x := x, y := y, err := e }

/-- the curve of the rotations, none without rotations (multi_line_plots.py:217-235, line_plots.py:291-306) -/
def rpeRotTrace (P : PlotLib K R) (name : Str) (r : RpeResult K) : Except Err (List (BarTrace K)) :=
  if r.hasRotDev then do
    let x ← r.meanPairDistances
    let y ← r.rotDevMean
    let e ← r.rotStd P.eval
    return [{ row := 2, name := name, x := x, y := y.map P.deg, err := e.map P.deg }]
  else return []

/-- the texts at the axes (`setup_rpe_axis`, multi_line_plots.py:170-191 with report/data.py:191-204) -/
def rpeAxes (items : List (RpeResult K)) : Except Err (Nat × Str × List Str) := do
  let d ← first items
  match items.filter RpeResult.hasRotDev with
  | [] => return (1, poseDistance d.distUnit, [bracket d.posUnit])
  | r :: _ => return (2, poseDistance r.distUnit, [bracket d.posUnit, bracket r.rotUnit])

/-- `render_rpe` for several results (multi_line_plots.py:194-237) -/
def rpePlot (P : PlotLib K R) (items : List (RpeResult K)) : Except Err (RpeFigure K) := do
  let axes ← rpeAxes items
  let ts ← mapE (fun r => do
    let p ← rpePosTrace P.eval (rpeShortName r) r
    let q ← rpeRotTrace P (rpeShortName r) r
    return p :: q) items
  return { xRow := axes.1, xLabel := axes.2.1, yLabels := axes.2.2, traces := ts.flatten }

/-- `render_rpe` for one result (line_plots.py:269-322) -/
def rpeSinglePlot (P : PlotLib K R) (r : RpeResult K) : Except Err (RpeFigure K) := do
  let p ← rpePosTrace P.eval "position".toList r
  let q ← rpeRotTrace P "rotation".toList r
  if r.hasRotDev then
    return { xRow := 2, xLabel := poseDistance r.distUnit, yLabels := [bracket r.posUnit, bracket r.rotUnit], traces := p :: q }
  else
    return { xRow := 1, xLabel := poseDistance r.distUnit, yLabels := [bracket r.posUnit], traces := p :: q }

/-! ### matplotlib -/

/-- a violin: where it is and of which numbers -/
structure Violin (K : Type) where
  position : K
  values : List K
  deriving DecidableEq

/-- what one result adds to a subplot: its curve and the violins with their width -/
structure RpeLine (K : Type) where
  name : Str
  x : List K
  y : List K
  width : K
  violins : List (Violin K)
  deriving DecidableEq

/-- the two figures: over distances in metres or in seconds -/
inductive RpeAxis | metric | time
  deriving DecidableEq

/-- the entry of the dictionary of the figures; other units raise `KeyError` (deviation_plot.py:295-298) -/
def rpeAxisOf (u : MUnit) : Except Err RpeAxis :=
  match u with
  | .meter => .ok .metric
  | .second => .ok .time
  | _ => .error .keyError

/-- more results than different units: no violins (deviation_plot.py:325, 352) -/
def crowded (devs : List (RpeResult K)) : Bool := decide ((devs.map RpeResult.unit).dedup.length < devs.length)

/-- `violinplot`: another number of positions than lists raises `ValueError`, and so does an empty list of lists -/
def violins (values : List (List K)) (positions : List K) : Except Err (List (Violin K)) :=
  if values.isEmpty then .error .valueError
  else if values.length = positions.length then .ok (List.zipWith Violin.mk positions values)
  else .error .valueError

/-- the numbers of the bins (`if pos_list`) in the unit of the plot (deviation_plot.py:329-333, 356-360) -/
def binValues (r : RpeResult K) (sel : RpeGroup K → List (Option K)) (conv : K → K) : Except Err (List (List K)) :=
  mapE (fun l => do
    let xs ← numbers l
    return xs.map (fun v => conv v * r.driftFactor)) ((r.groups.map sel).filter (fun l => !l.isEmpty))

/-- the violins of a result with their width (deviation_plot.py:328-337, 355-364); none if there are more results than
units -/
def violinsOf (devs : List (RpeResult K)) (r : RpeResult K) (sel : RpeGroup K → List (Option K)) (conv : K → K)
    (x : List K) : Except Err (K × List (Violin K)) :=
  if crowded devs then return (0, [])
  else do
    let vals ← binValues r sel conv
    let s ← r.step
    let vs ← violins vals x
    return (max (1 / 2) (s / 4), vs)

/-- `_plot_rpe_pos` (deviation_plot.py:319-338) for one result -/
def rpePosLine (devs : List (RpeResult K)) (r : RpeResult K) : Except Err (RpeAxis × RpeLine K) := do
  let a ← rpeAxisOf r.unit
  let x ← r.meanPairDistances
  let y ← r.posDevMean
  let v ← violinsOf devs r RpeGroup.posDev id x
  return (a, { name := r.name.toList, x := x, y := y, width := v.1, violins := v.2 })

/-- `_plot_rpe_rot` (deviation_plot.py:341-365) for one result with rotations -/
def rpeRotLine (deg : K → K) (devs : List (RpeResult K)) (r : RpeResult K) : Except Err (RpeAxis × RpeLine K) := do
  let a ← rpeAxisOf r.unit
  let x ← r.meanPairDistances
  let y ← r.rotDevMean
  let v ← violinsOf devs r RpeGroup.rotDev deg x
  return (a, { name := r.name.toList, x := x, y := y.map deg, width := v.1, violins := v.2 })

/-- a figure of matplotlib with its two subplots: the texts (deviation_plot.py:283-293) and the curves -/
structure RpePair (K : Type) where
  xLabel : Str
  posLabel : Str
  rotLabel : Str
  pos : List (RpeLine K)
  rot : List (RpeLine K)
  deriving DecidableEq

/-- `plot_rpe` (deviation_plot.py:268-316): the figures over metres and over seconds, each only if there is a result -/
def rpeMpl (deg : K → K) (devs : List (RpeResult K)) : Except Err (Option (RpePair K) × Option (RpePair K)) := do
  let pos ← mapE (rpePosLine devs) devs
  let rot ← mapE (rpeRotLine deg devs) (devs.filter RpeResult.hasRotDev)
  let lines := fun (a : RpeAxis) (l : List (RpeAxis × RpeLine K)) => (l.filter (fun e => decide (e.1 = a))).map Prod.snd
  let metric : RpePair K :=
    { xLabel := "pair distance [m]".toList, posLabel := "Position RPE [%]".toList, rotLabel := "Rotation RPE [deg / 100m]".toList,
      pos := lines .metric pos, rot := lines .metric rot }
  let time : RpePair K :=
    { xLabel := "pair distance [s]".toList, posLabel := "Position RPE [m/s]".toList, rotLabel := "Rotation RPE [deg/s]".toList,
      pos := lines .time pos, rot := lines .time rot }
  return (if devs.any (fun r => decide (r.unit = .meter)) then some metric else none,
          if devs.any (fun r => decide (r.unit = .second)) then some time else none)

end Plot
end TC
