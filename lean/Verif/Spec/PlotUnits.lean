import Verif.Spec.Plots

/-!
# Specification: the axis under which a curve is drawn
-/

namespace TC
namespace Plot

variable {K : Type}

/-- the values of a curve and the text at the vertical axis of its subplot; the subplots are counted from one -/
def DrawnAs (F : Figure K) (t : Trace K) (c : List K × Str) : Prop :=
  t.y = c.1 ∧ 1 ≤ t.row ∧ F.yLabels[t.row - 1]? = some c.2

/-- the curves of a figure, each in a subplot of its own, with the texts at their axes -/
def Draws (F : Figure K) (cs : List (List K × Str)) : Prop :=
  List.Forall₂ (DrawnAs F) F.traces cs ∧ (F.traces.map Trace.row).Nodup

/-- a unit in brackets -/
def inBrackets (u : Str) : Str := "[".toList ++ u ++ "]".toList

/-- the unit of lengths -/
def lengthUnit (mm : Bool) : Str := if mm then "mm".toList else "m".toList

end Plot
end TC
