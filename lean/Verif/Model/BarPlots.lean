import Verif.Model.Plots
/-!
# The bar plots of the absolute error (plotting/plotly/bar_plots.py)
-/
namespace TC
namespace Plot
variable {K R : Type} [Field K] [LinearOrder K]

/-- a bar plot: title, text at the vertical axis, and the table `px.bar` draws, one bar for each row -/
structure BarFigure (K : Type) where
  title : Str
  yLabel : Str
  bars : List (Bar K)
  deriving DecidableEq

/-- `render_multi_pos_bar_plot` (bar_plots.py:71-81), for one result `render_pos_bar_plot` (84-85).  Simplified: the settings of the
first item are given; sizes and the configuration of the export are left out. -/
def posBarPlot (E : EvalLib K) (s : Names K) (items : List (AteResult K R)) : Except Err (BarFigure K) := do
  let df ← posBars E items
  let _ ← match items with
    | [] => Except.error Err.indexError
    | _ :: _ => .ok ()
  return { title := "Absolute Trajectory Error (ATE) - Position".toList
           yLabel := "Value [".toList ++ ateUnit s ++ "]".toList
           bars := df }

/-- `render_multi_rot_bar_plot` (bar_plots.py:88-98), for one result `render_rot_bar_plot` (101-102): `px.bar` refuses a table without
columns -/
def rotBarPlot (P : PlotLib K R) (s : Names K) (items : List (AteResult K R)) : Except Err (BarFigure K) := do
  let df ← rotBars P items
  let _ ← if items.any hasRot then Except.ok () else .error .valueError
  return { title := "Absolute Trajectory Error (ATE) - Rotation".toList
           yLabel := "Value [".toList ++ s.rotUnit ++ "]".toList
           bars := df }

end Plot
end TC
