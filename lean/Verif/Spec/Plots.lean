import Verif.Model.Plots
import Verif.Spec.Traj
/-!
# What plots should show
-/
namespace TC
namespace Plot
variable {K R : Type} [Field K] [LinearOrder K]

/-- the quantity over which a trajectory is plotted, sample by sample in the order of the deviations -/
def abscissas (T : Traj K R) : List K :=
  match T.sorting with
  | .time => T.tstamps
  | .arcLength => T.arc

/-- a comparison result as the evaluation makes it: one deviation for each sample -/
structure FullResult (d : AteResult K R) : Prop where
  traj : Coherent d.trajectory
  pos : d.posDev.length = d.trajectory.tstamps.length
  directed : d.directed.length = d.trajectory.tstamps.length
  rot : ∀ r, d.rotDev = some r → r.length = d.trajectory.tstamps.length

/-- the curves of one result: one subplot for each component, over the result's own abscissas, under its own name -/
def OwnCurves (P : PlotLib K R) (d : AteResult K R) (components : List (List K)) (ts : List (Trace K)) : Prop :=
  ∃ x, functionOf P d = .ok x ∧ ts.length = components.length ∧
    ∀ (i : Nat) y, components[i]? = some y → ts[i]? = some { row := i + 1, name := Report.shortName d, x := x, y := y }

/-- the curves of a figure are those of the results, one result after the other -/
def ShowsOwn (P : PlotLib K R) (components : AteResult K R → List (List K)) (items : List (AteResult K R))
    (ts : List (Trace K)) : Prop :=
  ∃ tss, ts = tss.flatten ∧ List.Forall₂ (fun d t => OwnCurves P d (components d) t) items tss

/-- the rotation deviations about the three axes, in degrees -/
def rotComponents (P : PlotLib K R) (d : AteResult K R) : List (List K) :=
  match d.rotDev with
  | none => []
  | some r => [r.map (fun q => P.deg (P.euler q).x), r.map (fun q => P.deg (P.euler q).y),
      r.map (fun q => P.deg (P.euler q).z)]

/-- the position deviations and, if there are some, the rotation deviations -/
def combined (P : PlotLib K R) (d : AteResult K R) : List (List K) :=
  match d.rotDev with
  | none => [d.posDevComb P.eval]
  | some r => [d.posDevComb P.eval, r.map (fun q => P.deg (rotAngle P.eval (P.rot.toMat q)))]

/-- the share of the values that satisfy a condition -/
def share (l : List K) (p : K → Bool) : K := ((l.countP p : Nat) : K) / (l.length : K)

end Plot
end TC
