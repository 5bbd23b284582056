import Verif.Model.TrajPlots
import Verif.Spec.Plots
/-!
# What plots of trajectories should show
-/
namespace TC
namespace Plot
variable {K R : Type} [Field K] [LinearOrder K]

/-- the symbol of a unit -/
def symbol (unit : Str) : Str :=
  if unit = "metre".toList then "m".toList else if unit = "degree".toList then "°".toList else unit

/-- the units of the usual coordinate systems -/
def UsualUnit (unit : Str) : Prop := unit = "metre".toList ∨ unit = "degree".toList

/-- the text for an axis: its name and the symbol of its unit -/
def axisName (a : AxisInfo) : Str := a.name ++ " [".toList ++ symbol a.unit ++ "]".toList

/-- the axes of a coordinate system; a third axis that is missing is the height in metres -/
def threeAxes (axes : List AxisInfo) : List AxisInfo :=
  if axes.length = 2 then axes ++ [⟨"z".toList, "metre".toList⟩] else axes.take 3

/-- the labels are those of the coordinate system of a trajectory -/
def LabelsOf (crs : Int → Option (List AxisInfo)) (labels : List Str) (T : Traj K R) : Prop :=
  ∀ axes, crs T.epsg = some axes → labels = (threeAxes axes).map axisName

/-- a path through the positions of a trajectory in ascending order of time or length -/
def Ascending (T : Traj K R) (ps : List (V3 K)) : Prop :=
  ∃ x : List K, x.Pairwise (· ≤ ·) ∧ x.length = ps.length ∧ (x.zip ps).Perm ((abscissas T).zip T.pos)

/-- the coordinates of a position along the axes with the given letters -/
def coordsAlong (order : Str) (p : V3 K) : List K :=
  order.filterMap (fun c => if c = 'x' then some p.x else if c = 'y' then some p.y else if c = 'z' then some p.z else none)

end Plot
end TC
