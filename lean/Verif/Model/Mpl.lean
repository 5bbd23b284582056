import Verif.Model.Plots
import Verif.Model.Text
/-!
# What the matplotlib plots show (`plotting/mpl/deviation_plot.py`, `plotting/mpl/trajectory_plot.py`)

Curves, bars and texts as in `Model/Plots.lean`; styles, figure windows and the automatic choice of bins are not modelled.
-/
namespace TC
namespace Plot
variable {K R : Type} [Field K] [LinearOrder K]

/-- `MPLPlotSettings` (settings/mpl_settings.py:16-27), the fields the plots use; a negative number of steps is not modelled -/
structure MplSettings (K : Type) where
  showZero : Bool
  steps : Nat
  sigma : K
  mm : Bool
  directed : Bool
  stairs : Bool

/-- the default values (settings/mpl_settings.py:20-27) -/
def mplDefaults : MplSettings K :=
  { showZero := true, steps := 4, sigma := 3, mm := false, directed := false, stairs := false }

/-- `unit_multiplier` (settings/mpl_settings.py:29-31) -/
def unitFactor (s : MplSettings K) : K := if s.mm then 1000 else 1

/-! ### Histograms -/

/-- the values that are counted (deviation_plot.py:31, 45) -/
def histValues (l : List K) : List K := l.filter (fun x => decide (1 / 1000000 < |x|))

/-- a histogram: its entry in the legend, the values it counts, and the factor of the bin edges -/
structure Hist (K : Type) where
  label : Str
  values : List K
  factor : K
  deriving DecidableEq

/-- `plot_position_hist` (deviation_plot.py:90-113): drawn in the order z, y, x; `plt.legend` gives the labels to the
histograms in the order in which they were drawn -/
def posHist (s : MplSettings K) (d : AteResult K R) : List (Hist K) :=
  let v := if s.directed then d.directed else d.posDev
  let labels := if s.directed then ["vertical".toList, "horizontal".toList, "along".toList]
    else ["x".toList, "y".toList, "z".toList]
  (labels.zip [v.map V3.z, v.map V3.y, v.map V3.x]).map
    (fun t => { label := t.1, values := histValues t.2, factor := unitFactor s })

/-- `plot_rotation_hist` (deviation_plot.py:72-87) with rotation deviations -/
def rotHist (P : PlotLib K R) (r : List R) : List (Hist K) :=
  (["yaw".toList, "pitch".toList, "roll".toList].zip [r.map (fun q => P.deg (P.euler q).z), r.map (fun q => P.deg (P.euler q).y),
    r.map (fun q => P.deg (P.euler q).x)]).map (fun t => { label := t.1, values := histValues t.2, factor := 1 })

/-- `render_pos_devs` of the reports (plotting/plotly/histograms.py:14-41) -/
def posHistReport (s : Names K) (d : AteResult K R) : List (Hist K) :=
  ((posDevNames s).zip (posDevs s d)).map (fun t => { label := t.1, values := t.2, factor := 1 })

/-- `render_rot_devs` of the reports (plotting/plotly/histograms.py:44-78) -/
def rotHistReport (P : PlotLib K R) (s : Names K) (d : AteResult K R) : Except Err (List (Hist K)) := do
  let ys ← rotDevs P d
  return ([s.rotX, s.rotY, s.rotZ].zip ys).map (fun t => { label := t.1, values := t.2, factor := 1 })

/-! ### Deviations over time or length -/

/-- `derive_xlabel_from_sortings` (plotting/utils.py:16-24) -/
def xLabelOf (sortings : List Sorting) : Str :=
  if sortings.all (fun s => s = .arcLength) then "trajectory length [m]".toList
  else if sortings.all (fun s => s = .time) then "time [s]".toList
  else "time [s] / trajectory length [m]".toList

/-- a line in one of the two subplots -/
structure Line (K : Type) where
  row : Nat
  x : List K
  y : List K
  deriving DecidableEq

/-- the lines of one result in `plot_deviations` (deviation_plot.py:237-258): none if it has no samples.  Without rotation
deviations `rot_dev_comb` is an `n × 3` array of zeros, which gives three lines. -/
def devLines (P : PlotLib K R) (s : MplSettings K) (anyRot : Bool) (d : AteResult K R) :
    Except Err (List (Line K) × List (Line K)) := do
  let f ← functionOf P d
  if f.length = 0 then return ([], [])
  let p := P.argsort f
  let x ← Traj.take f p
  let y ← Traj.take (d.posDevComb P.eval) p
  let pos : Line K := { row := 1, x := x, y := y.map (fun v => v * unitFactor s) }
  if anyRot then
    match d.rotDev with
    | some _ => do
      let r ← Traj.take (d.rotDevComb P.eval P.rot) p
      return ([pos], [{ row := 2, x := x, y := r.map P.deg }])
    | none => do
      let z ← Traj.take (List.replicate d.posDev.length (0 : K)) p
      return ([pos], List.replicate 3 { row := 2, x := x, y := z.map P.deg })
  else return ([pos], [])

/-- a figure of `plot_deviations` -/
structure DevFigure (K : Type) where
  xLabel : Str
  lines : List (Line K)
  legend : List (Str × Line K)
  deriving DecidableEq

/-- `plot_deviations` (deviation_plot.py:214-265).  `set_xlim` refuses the infinite limits that are left if there is no data;
without rotation deviations `ax_rot` is `None` and has no method `set_xlim`.  `fig.legend(names)` gives the names to the lines
in the order in which they are found, those of the first subplot first. -/
def plotDeviations (P : PlotLib K R) (s : MplSettings K) (items : List (AteResult K R)) : Except Err (DevFigure K) := do
  let anyRot := items.any hasRot
  let ls ← mapE (devLines P s anyRot) items
  let pos := (ls.map Prod.fst).flatten
  let rot := (ls.map Prod.snd).flatten
  if pos.length = 0 then throw Err.valueError
  if anyRot = false then throw Err.attributeError
  return { xLabel := xLabelOf (items.map (fun d => d.trajectory.sorting)), lines := pos ++ rot
           legend := (items.map (fun d => d.name.toList)).zip (pos ++ rot) }

/-! ### Bars -/

/-- `np.linspace(a, b, n)` (deviation_plot.py:173-177) -/
def npLinspace (a b : K) (n : Nat) : List K :=
  (List.range n).map (fun i : Nat => if n = 1 then a else a + (i : K) * ((b - a) / ((n : K) - 1)))

/-- a bar: whose it is, which characteristic, from where to where, and how high -/
structure PlacedBar (K : Type) where
  name : Str
  group : Nat
  left : K
  right : K
  height : K
  deriving DecidableEq

/-- the positions of the bars (deviation_plot.py:170-179) -/
def barWidth (n : Nat) : K := 9 / 10 / (n : K)

/-- `ax.bar(x_positions + spacing, data, width=bar_width)` (deviation_plot.py:204) -/
def placed (w spacing : K) (name : Str) (data : List K) : List (PlacedBar K) :=
  data.zipIdx.map (fun t => { name := name, group := t.2, left := (t.2 : K) + spacing - w / 2,
                              right := (t.2 : K) + spacing + w / 2, height := t.1 })

/-- what the bars are about -/
inductive BarMode | positions | rotations | other
  deriving DecidableEq

/-- the heights for one result (deviation_plot.py:181-203); `none` if the result is left out -/
def barData (P : PlotLib K R) (s : MplSettings K) (mode : BarMode) (d : AteResult K R) : Except Err (Option (List K)) :=
  match mode with
  | .positions => do
    let a ← d.posDevMin P.eval
    let b ← d.posDevMax P.eval
    let c ← d.posAte P.eval
    let e ← d.posDevMedian P.eval
    let f ← d.posDevRms P.eval
    let g ← d.posDevStd P.eval
    return some ([a, b, c, e, f, g].map (fun v => v * unitFactor s))
  | .rotations =>
    if hasRot d then do
      let a ← d.rotDevMin P.eval P.rot
      let b ← d.rotDevMax P.eval P.rot
      let c ← d.rotAte P.eval P.rot
      let e ← d.rotDevMedian P.eval P.rot
      let f ← d.rotDevRms P.eval P.rot
      let g ← d.rotDevStd P.eval P.rot
      return some ([a, b, c, e, f, g].map P.deg)
    else .ok none
  | .other => .error .valueError

/-- the names at the groups (deviation_plot.py:171) -/
def characteristics : List Str :=
  ["Min".toList, "Max".toList, "Mean".toList, "Median".toList, "RMS".toList, "STD".toList]

/-- `plot_bars` (deviation_plot.py:163-211); no results divide by zero -/
def plotBars (P : PlotLib K R) (s : MplSettings K) (mode : BarMode) (items : List (AteResult K R)) :
    Except Err (List (PlacedBar K)) := do
  if items.length = 0 then throw Err.zeroDivision
  let w : K := barWidth items.length
  let h := w * ((items.length : K) - 1) / 2
  let bars ← mapE (fun t => do
    let data ← barData P s mode t.1
    match data with
    | some l => return placed w t.2 t.1.name.toList l
    | none => return []) (items.zip (npLinspace (-h) h items.length))
  return bars.flatten

/-! ### Colours of positions -/

/-- setting an entry of a dictionary (deviation_plot.py:456-462, 472) -/
def dictSet {β : Type} (d : List (K × β)) (k : K) (v : β) : List (K × β) :=
  if d.any (fun e => e.1 = k) then d.map (fun e => if e.1 = k then (k, v) else e) else d ++ [(k, v)]

/-- what `_setup_cbar_params` returns -/
structure ColourBar (K : Type) where
  colours : List K
  lower : K
  upper : K
  ticks : List (K × Str)
  deriving DecidableEq

/-- the tick number `i` (deviation_plot.py:457-460) -/
def tickAt (lower range : K) (steps i : Nat) : K := lower + (i : K) / (steps : K) * range

/-- the text in front of the number (deviation_plot.py:449, 453) -/
def tickMark (sigma : K) (steps i : Nat) : Str :=
  if sigma = 0 then []
  else if i = steps then "$\\geq$".toList else if i = 0 then "$\\leq$".toList else []

/-- `_setup_cbar_params` (deviation_plot.py:444-477) -/
def colourBar [FloorRing K] (E : EvalLib K) (s : MplSettings K) (c : List K) : Except Err (ColourBar K) := do
  let lo ← pyMin c
  let hi ← pyMax c
  let m ← npMean c
  let sd ← npStd E c
  let lower := if s.sigma = 0 then lo else max lo (m - s.sigma * sd)
  let upper := if s.sigma = 0 then hi else min hi (m + s.sigma * sd)
  let range := |upper - lower|
  if s.steps = 0 then throw Err.zeroDivision
  let ticks := (List.range (s.steps + 1)).foldl (fun d i =>
    dictSet d (tickAt lower range s.steps i) (tickMark s.sigma s.steps i ++ fmtFixed 2 (tickAt lower range s.steps i))) []
  let ticks := if lower < 0 ∧ 0 < upper ∧ s.showZero = true then
      dictSet (ticks.filter (fun e => decide (1 / 2 / (s.steps : K) * range < |e.1|))) 0 "0".toList
    else ticks
  return { colours := c.map (fun v => min (max v lower) upper), lower := lower, upper := upper, ticks := ticks }

/-- a scatter plot: points with the colours, and the colour bar -/
structure ColouredPoints (K : Type) where
  points : List (K × K)
  bar : ColourBar K
  label : Str
  deriving DecidableEq

/-- `_colored_scatter_plot` (deviation_plot.py:413-441) -/
def colouredScatter [FloorRing K] (E : EvalLib K) (s : MplSettings K) (pos : List (V3 K)) (c : List K) (label : Str) :
    Except Err (ColouredPoints K) := do
  let bar ← colourBar E s c
  return { points := pos.map (fun v => (v.x, v.y)), bar := bar, label := label }

/-- `scatter_deviations` (deviation_plot.py:394-410): the settings are not handed on, the defaults are used.
`has_orientation` says whether there are rotation deviations (ate_result.py:88-93). -/
def scatterDeviations [FloorRing K] (P : PlotLib K R) (s : MplSettings K) (d : AteResult K R) :
    Except Err (List (ColouredPoints K)) := do
  let a ← colouredScatter P.eval mplDefaults d.trajectory.pos ((d.posDevComb P.eval).map (fun v => v * unitFactor s))
    ("Deviation ".toList ++ bracket (if s.mm then "mm".toList else "m".toList))
  if d.rotDev.isSome then do
    let b ← colouredScatter P.eval mplDefaults d.trajectory.pos ((d.rotDevComb P.eval P.rot).map P.deg) "Deviation [°]".toList
    return [a, b]
  else return [a]

/-! ### Trajectories -/

/-- `plot_xyz` (mpl/trajectory_plot.py:61-81) and `render_pos_plot` of the reports (multi_line_plots.py:237-249): one curve
for each coordinate, over time or length.  The labels at the coordinate axes are in `axisLabels`. -/
def xyzPlot (argsort : List K → List Nat) (ts : List (Traj K R)) : Except Err (Str × List (Trace K)) := do
  let curves ← mapE (fun T : Traj K R => do
    let x ← T.functionOf argsort
    let v ← T.xyz argsort
    return [{ row := 1, name := T.name.toList, x := x, y := v.map V3.x }, { row := 2, name := T.name.toList, x := x, y := v.map V3.y },
      ({ row := 3, name := T.name.toList, x := x, y := v.map V3.z } : Trace K)]) ts
  return (xLabelOf (ts.map (fun T => T.sorting)), curves.flatten)

/-- `render_rot_plot` of the reports (multi_line_plots.py:252-265) for trajectories with orientations
(report/trajectory.py:33-34); without orientations `from_quat` refuses the zero quaternions -/
def rpyPlot (P : PlotLib K R) (ts : List (Traj K R)) : Except Err (Str × List (Trace K)) := do
  let curves ← mapE (fun T : Traj K R => do
    let x ← T.functionOf P.argsort
    let q ← T.quat P.argsort
    match q with
    | none => throw Err.valueError
    | some r => return [{ row := 1, name := T.name.toList, x := x, y := r.map (fun q => P.deg (P.euler q).x) },
        { row := 2, name := T.name.toList, x := x, y := r.map (fun q => P.deg (P.euler q).y) },
        ({ row := 3, name := T.name.toList, x := x, y := r.map (fun q => P.deg (P.euler q).z) } : Trace K)]) ts
  return (xLabelOf (ts.map (fun T => T.sorting)), curves.flatten)

end Plot
end TC
