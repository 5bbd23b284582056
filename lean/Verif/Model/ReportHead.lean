import Verif.Model.Report
import Verif.Model.Compare
/-!
# The head of the report on one comparison (`report/single.py`, `report/templates/single_template.html`)

The template inserts the texts as they are (no escaping).  Simplified: exceptions raised while the figures are made
(`Verif.Model.Plots`) are not modelled here.
-/
namespace TC
namespace Report
variable {K R : Type} [Field K] [LinearOrder K]

/-- `number_to_string` (report/utils.py:28-29).  In the model the mean of no numbers, or of a list with `nan`, is an
exception (`Verif.Model.Stats`); numpy returns `nan`, which is shown.  Infinite values are not told apart from `nan`. -/
def numberText [FloorRing K] : Except Err K → Str
  | .ok x => fmtFixed 3 x
  | .error _ => "nan".toList

/-- what stands above the figures: the title and the table of labels and values (single_template.html:196-223) -/
structure Head where
  title : Str
  rows : List (Str × Str)
  deriving DecidableEq

/-- a label (single_template.html:202-219) -/
def label (quantity : String) (unit : Str) : Str := quantity.toList ++ " [".toList ++ unit ++ "]:".toList

/-- the rows of the absolute error (report/single.py:123-124, 129, 134, single_template.html:201-208); a dash without one -/
def ateRows [FloorRing K] (E : EvalLib K) (L : RotLib K R) (deg : K → K) (mm : Bool) (rotUnit : Str)
    (ate : Option (AteResult K R)) : List (Str × Str) :=
  [(label "ATE Position" (if mm then "mm".toList else "m".toList), match ate with
      | some r => numberText (r.posAte E)
      | none => ['-']),
   (label "ATE Rotation" rotUnit, match ate with
      | some r => numberText ((r.rotAte E L).map deg)
      | none => ['-'])]

/-- the rows of the relative error (report/single.py:125-128, 130, single_template.html:210-221); none without one -/
def rpeRows [FloorRing K] (deg : K → K) (rpe : Option (RpeResult K)) : List (Str × Str) :=
  match rpe with
  | none => []
  | some r => [(label "RPE Position" r.posUnit, numberText r.posRpe), (label "RPE Rotation" r.rotUnit, numberText (r.rotRpe.map deg))]

/-- `render_single_report` (report/single.py:82-137), what stands above the figures.  `ate` is the number of the absolute
result among the results of the program. -/
def singleHead [FloorRing K] (E : EvalLib K) (L : RotLib K R) (deg : K → K) (mm : Bool) (rotUnit : Str) (ate : Option Nat)
    (rpe : Option (RpeResult K)) : SE (List (AteResult K R)) Head := fun results =>
  match ate with
  | none => match rpe with
    | none => (.error .valueError, results)
    | some r => (.ok { title := r.name.toList, rows := ateRows E L deg mm rotUnit none ++ rpeRows deg rpe }, results)
  | some i => match postInit mm i results with
    | (.error e, s) => (.error e, s)
    | (.ok _, s) => match s[i]? with
      | none => (.error .attributeError, s)
      | some r => (.ok { title := r.name.toList, rows := ateRows E L deg mm rotUnit (some r) ++ rpeRows deg rpe }, s)

end Report
end TC
