import Verif.Model.Mpl
import Verif.Spec.Plots
/-!
# What the matplotlib plots should show
-/
namespace TC
namespace Plot
variable {K R : Type} [Field K] [LinearOrder K]

/-- the deviations a label stands for -/
def component (d : AteResult K R) (label : Str) : Option (List K) :=
  if label = "x".toList then some (d.posDev.map V3.x)
  else if label = "y".toList then some (d.posDev.map V3.y)
  else if label = "z".toList then some (d.posDev.map V3.z)
  else if label = "along".toList then some (d.directed.map V3.x)
  else if label = "horizontal".toList then some (d.directed.map V3.y)
  else if label = "vertical".toList then some (d.directed.map V3.z)
  else none

/-- the line of the position deviations of a result -/
def ownLine (E : EvalLib K) (s : MplSettings K) (d : AteResult K R) : Line K :=
  { row := 1, x := abscissas d.trajectory, y := d.posDev.map (fun v => E.nrm v * (if s.mm then 1000 else 1)) }

/-- the line of the rotation deviations of a result, in degrees -/
def ownRotLine (P : PlotLib K R) (d : AteResult K R) (r : List R) : Line K :=
  { row := 2, x := abscissas d.trajectory, y := r.map (fun q => P.deg (rotAngle P.eval (P.rot.toMat q))) }

end Plot
end TC
