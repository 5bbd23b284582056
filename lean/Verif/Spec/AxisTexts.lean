import Verif.Spec.Plots
import Verif.Spec.PlotUnits

/-!
# Specification: the texts at the axes
-/

namespace TC
namespace Plot

variable {K R : Type} [Field K] [LinearOrder K]

/-- the name and unit of the quantity over which a trajectory is plotted -/
def quantityText (T : Traj K R) : Str :=
  match T.sorting with
  | .time => "time [s]".toList
  | .arcLength => "arc length [m]".toList

/-- a word is found in a text -/
def Occurs (word text : Str) : Prop := ∃ a b, text = a ++ word ++ b

/-- the text after every occurrence of a word, searched from the left, has been replaced by another word -/
inductive Replaced (old new : Str) : Str → Str → Prop
  | none {s : Str} : ¬ Occurs old s → Replaced old new s s
  | found {a b b' : Str} : ¬ Occurs old (a ++ old.dropLast) → Replaced old new b b' →
      Replaced old new (a ++ old ++ b) (a ++ new ++ b')

end Plot
end TC
