import Verif.Model.Mpl
import Verif.Model.AlignReport
/-!
# More of the matplotlib plots: positions, axes of equal length, orientations, cumulative curves, covariances

Lines, texts and limits as in `Model/Mpl.lean`; styles are not modelled.
-/
namespace TC
namespace Plot
variable {K R : Type} [Field K] [LinearOrder K]

/-! ### Axes of equal length -/

/-- the limits of an axis, as `get_xlim3d` gives them -/
abbrev Limits (K : Type) := K × K

/-- `np.mean` of the two limits (mpl/trajectory_plot.py:147-149) -/
def middle (l : Limits K) : K := (l.1 + l.2) / 2

/-- `plot_radius` (mpl/trajectory_plot.py:151-153): `max` over the six distances, axis by axis -/
def plotRadius (x y z : Limits K) : K :=
  ([|x.2 - middle x|, |y.1 - middle y|, |y.2 - middle y|, |z.1 - middle z|, |z.2 - middle z|]).foldl max |x.1 - middle x|

/-- `[mean - plot_radius, mean + plot_radius]` (mpl/trajectory_plot.py:155-157) -/
def around (r : K) (l : Limits K) : Limits K := (middle l - r, middle l + r)

/-- `set_aspect_equal_3d` (mpl/trajectory_plot.py:139-157): the limits before and after -/
def setAspectEqual (x y z : Limits K) : Limits K × Limits K × Limits K :=
  let r := plotRadius x y z
  (around r x, around r y, around r z)

/-! ### Trajectories -/

/-- the coordinates that are handed to `ax_pos.plot` (mpl/trajectory_plot.py:48-51); other dimensions are refused before -/
def posCurve (dim : Nat) (T : Traj K R) : List (List K) :=
  if dim = 2 then [T.pos.map V3.x, T.pos.map V3.y] else [T.pos.map V3.x, T.pos.map V3.y, T.pos.map V3.z]

/-- `plot_pos` (mpl/trajectory_plot.py:28-58) without the labels at the axes, which are in `axisLabels`: for each trajectory its
name and its curve.  The positions are taken as they are stored, not in the order of `traj.xyz`. -/
def plotPos (dim : Nat) (ts : List (Traj K R)) : Except Err (List (Str × List (List K))) :=
  if dim = 2 ∨ dim = 3 then .ok ((ts.map (fun T => T.name.toList)).zip (ts.map (posCurve dim))) else .error .valueError

/-- `traj.rot and len(traj.rot) > 0` (mpl/trajectory_plot.py:125) -/
def drawsRpy (T : Traj K R) : Bool :=
  match T.rot with
  | some (_ :: _) => true
  | _ => false

/-- a figure with three subplots: the text at the abscissa, the lines, and the legend -/
structure RpyFigure (K : Type) where
  xLabel : Str
  lines : List (Line K)
  legend : List (Str × Line K)
  deriving DecidableEq

/-- the lines of one trajectory in `plot_rpy` (mpl/trajectory_plot.py:127-131), one in each subplot -/
def rpyLines (P : PlotLib K R) (T : Traj K R) : Except Err (List (Line K)) := do
  let q ← T.quat P.argsort
  let x ← T.functionOf P.argsort
  match q with
  | none => throw Err.valueError
  | some r => return [{ row := 1, x := x, y := r.map (fun q => P.deg (P.euler q).x) },
      { row := 2, x := x, y := r.map (fun q => P.deg (P.euler q).y) }, { row := 3, x := x, y := r.map (fun q => P.deg (P.euler q).z) }]

/-- the order in which `fig.legend(names)` finds the lines: subplot by subplot (mpl/trajectory_plot.py:134,
mpl/deviation_plot.py:127) -/
def inLegendOrder (rows : List Nat) (ls : List (Line K)) : List (Line K) := rows.flatMap (fun i => ls.filter (fun l => l.row = i))

/-- `plot_rpy` (mpl/trajectory_plot.py:115-136) -/
def plotRpy (P : PlotLib K R) (ts : List (Traj K R)) : Except Err (Option (RpyFigure K)) := do
  let ls ← mapE (rpyLines P) (ts.filter drawsRpy)
  if ts.any drawsRpy then
    return some { xLabel := xLabelOf (ts.map (fun T => T.sorting)), lines := ls.flatten
                  legend := ((ts.filter drawsRpy).map (fun T => T.name.toList)).zip (inLegendOrder [1, 2, 3] ls.flatten) }
  else return none

/-! ### Cumulative curves -/

/-- the line of `plot_position_edf` (mpl/deviation_plot.py:140-143) -/
def posEdfLine (P : PlotLib K R) (s : MplSettings K) (d : AteResult K R) : Line K :=
  let c := edf (d.posDevComb P.eval)
  { row := 1, x := c.1.map (fun v => v * unitFactor s), y := c.2 }

/-- the line of `plot_rotation_edf` (mpl/deviation_plot.py:155-160) -/
def rotEdfLine (P : PlotLib K R) (d : AteResult K R) : Line K :=
  let c := edf ((d.rotDevComb P.eval P.rot).map P.deg)
  { row := 2, x := c.1, y := c.2 }

/-- a figure of `plot_edf`: the texts at the abscissas of the subplots, the lines, and the legend -/
structure EdfFigure (K : Type) where
  xLabels : List Str
  lines : List (Line K)
  legend : List (Str × Line K)
  deriving DecidableEq

/-- `plot_edf` (mpl/deviation_plot.py:116-160); the second subplot is only made if there are rotation deviations -/
def plotEdf (P : PlotLib K R) (s : MplSettings K) (items : List (AteResult K R)) : EdfFigure K :=
  let pos := items.map (posEdfLine P s)
  let rot := (items.filter hasRot).map (rotEdfLine P)
  { xLabels := withUnit "Deviation".toList (if s.mm then "mm".toList else "m".toList) :: (if items.any hasRot then ["Deviation [°]".toList] else [])
    lines := pos ++ rot
    legend := (items.map (fun d => d.name.toList)).zip (inLegendOrder [1, 2] (pos ++ rot)) }

/-- `plot_compact_hist` (mpl/deviation_plot.py:54-69): the histograms of the two subplots -/
def compactHist (P : PlotLib K R) (s : MplSettings K) (d : AteResult K R) : List (List (Hist K)) :=
  match d.rotDev with
  | some r => [posHist s d, rotHist P r]
  | none => [posHist s d]

end Plot

variable {K : Type} [Field K] [LinearOrder K]

/-- `plot_covariance_heatmap` (mpl/alignment_plot.py:174-200): the labels of rows and columns, and the text in each cell
(`"{x:.3f}"`, mpl/alignment_plot.py:134-138) -/
def covarianceMap [FloorRing K] (s : PSet K) (enabledOnly : Bool) : List Str × List (List Str) :=
  (s.toNameList enabledOnly true, (s.getCovariance enabledOnly).map (fun row => row.map (fmtFixed 3)))

end TC
