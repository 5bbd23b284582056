import Verif.Model.Params
import Verif.Model.Text
import Verif.Model.Eval
/-!
# The report of an alignment: table of parameters, correlation matrix

The layout, the colours and the templates are not modelled, only the texts and the numbers that are shown.
-/
namespace TC
variable {K : Type} [Field K] [LinearOrder K]

/-! ### `Parameter.__str__` -/

/-- `f"{s:<n}"` (parameters.py:71): blanks behind the text up to `n` characters -/
def pyLjust (n : Nat) (s : Str) : Str := s ++ List.replicate (n - s.length) ' '

/-- `UNIT_FORMAT_RULES[unit]["normal"]` (definitions.py:54-61, parameters.py:69): factor, text and decimals; `deg` is `180 / np.pi` -/
def unitNormal (deg : K) : MUnit → K × Str × Nat
  | .meter => (1, ['m'], 3)
  | .radian => (deg, ['°'], 3)
  | .degree => (1, ['°'], 3)
  | .second => (1000, ['m', 's'], 1)
  | .scale => (1, ['-'], 3)
  | .none => (1, ['-'], 3)

/-- the entry `"precise"`, without one the entry `"normal"` (definitions.py:54-61, parameters.py:70) -/
def unitPrecise (deg : K) : MUnit → K × Str × Nat
  | .meter => (1000, ['m', 'm'], 1)
  | .second => (1000, ['m', 's'], 1)
  | .scale => (1000000, ['p', 'p', 'm'], 1)
  | u => unitNormal deg u

/-- `Parameter.__str__` (parameters.py:68-71) -/
def Param.text [FloorRing K] (sqrt : K → K) (deg : K) (p : Param K) : Str :=
  let v := unitNormal deg p.unit
  let w := unitPrecise deg p.unit
  pyLjust 16 p.name.toList ++ " = ".toList ++ pyLjust 8 (fmtFixed v.2.2 (p.value * v.1)) ++ pyLjust 4 v.2.1 ++
    "  s-dev.: ".toList ++ pyLjust 8 (fmtFixed w.2.2 (sqrt p.variance * w.1)) ++ pyLjust 4 w.2.1

namespace PSet

/-- the parameters that a list is made of (parameters.py:218, 224): `param.enabled or not enabled_only` -/
def shownParams (s : PSet K) (enabledOnly : Bool) : List (Param K) := s.params.filter (fun p => p.enabled || !enabledOnly)

/-- `to_string_list` (parameters.py:217-218) -/
def toStringList [FloorRing K] (sqrt : K → K) (deg : K) (s : PSet K) (enabledOnly : Bool := true) : List Str :=
  (s.shownParams enabledOnly).map (Param.text sqrt deg)

/-- `to_name_list`, `params_labels` (parameters.py:220-225, 443-444) -/
def toNameList (s : PSet K) (enabledOnly lowerCase : Bool) : List Str :=
  (s.shownParams enabledOnly).map (fun p => if lowerCase then pyLower p.name.toList else p.name.toList)

end PSet

/-! ### `plotting/plotly/tables.py` -/

/-- `extract_value` (tables.py:22-23) -/
def extractValue (s : Str) : Except Err Str :=
  match (pySplitOn '=' s)[1]? with
  | none => .error .indexError
  | some x => .ok (pyStrip ((pySplitOn 's' x).headD []))

/-- `extract_std` (tables.py:25-26) -/
def extractStd (s : Str) : Str := pyStrip ((pySplitOn ':' s).getLastD [])

/-- the three columns of the table (tables.py:29-40) -/
structure AlignTable where
  labels : List Str
  values : List Str
  stds : List Str

/-- `render_alignment_table` (tables.py:8-43) without the layout -/
def reportTable [FloorRing K] (sqrt : K → K) (deg : K) (s : PSet K) : Except Err AlignTable := do
  let vs ← mapE extractValue (s.toStringList sqrt deg)
  return ⟨s.toNameList true false, vs, (s.toStringList sqrt deg).map extractStd⟩

/-! ### `report/alignment.py`, `plotting/mpl/alignment_plot.py` -/

/-- `build_correlation_dataframe` (report/alignment.py:23-33), `plot_correlation_heatmap` (alignment_plot.py:151-154): the labels of
rows and columns, and the matrix.  `none` stands for `nan` and `inf`; the diagonal is `nan`.  Simplified: no negative
variances, of which the square root would be `nan`. -/
def correlation (sqrt : K → K) (s : PSet K) (enabledOnly : Bool) : List Str × List (List (Option K)) :=
  let m := s.getCovariance enabledOnly
  let std := (PSet.diag m).map sqrt
  (s.toNameList enabledOnly true,
    m.mapIdx (fun i row => row.mapIdx (fun j c =>
      if i = j then none
      else
        let d := std.getD i 0 * std.getD j 0
        if d = 0 then none else some (c / d))))

end TC
