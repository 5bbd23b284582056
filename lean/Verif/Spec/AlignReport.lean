import Verif.Model.AlignReport
/-!
# What the report of an alignment should show
-/
namespace TC
variable {K : Type} [Field K] [LinearOrder K]

/-- a text that shows a number with `d` decimals and a unit, with blanks between them -/
def ShowsQuantity [FloorRing K] (text : Str) (x : K) (d : Nat) (unit : String) : Prop :=
  ∃ n, text = fmtFixed d x ++ List.replicate n ' ' ++ unit.toList

/-- a text shows a value: metres, degrees, milliseconds or a plain number; `deg` is the number of degrees of a radian -/
def ShowsValue [FloorRing K] (deg : K) (unit : MUnit) (x : K) (text : Str) : Prop :=
  match unit with
  | .meter => ShowsQuantity text x 3 "m"
  | .radian => ShowsQuantity text (x * deg) 3 "°"
  | .degree => ShowsQuantity text x 3 "°"
  | .second => ShowsQuantity text (x * 1000) 1 "ms"
  | .scale => ShowsQuantity text x 3 "-"
  | .none => ShowsQuantity text x 3 "-"

/-- a text shows a standard deviation: millimetres, degrees, milliseconds, parts per million or a plain number -/
def ShowsDeviation [FloorRing K] (deg : K) (unit : MUnit) (x : K) (text : Str) : Prop :=
  match unit with
  | .meter => ShowsQuantity text (x * 1000) 1 "mm"
  | .radian => ShowsQuantity text (x * deg) 3 "°"
  | .degree => ShowsQuantity text x 3 "°"
  | .second => ShowsQuantity text (x * 1000) 1 "ms"
  | .scale => ShowsQuantity text (x * 1000000) 1 "ppm"
  | .none => ShowsQuantity text x 3 "-"

/-- the parameters that are estimated -/
def estimatedParams (s : PSet K) : List (Param K) := s.params.filter (fun p => p.enabled)

/-- an entry of a matrix, 0 outside -/
def cell (m : List (List K)) (i j : Nat) : K := (m.getD i []).getD j 0

/-- a covariance matrix of `n` parameters: symmetric and without negative variance in any direction -/
structure IsCovariance (n : Nat) (m : List (List K)) : Prop where
  symm : ∀ i j, cell m i j = cell m j i
  psd : ∀ x : Nat → K, 0 ≤ ((List.range n).map (fun i => ((List.range n).map (fun j => x i * cell m i j * x j)).sum)).sum

end TC
