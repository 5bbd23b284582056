import Verif.Spec.Text
import Verif.Spec.Header
import Verif.Proofs.Text
/-!
# Specification: a trajectory file as a table with named columns
-/
namespace TC
variable {K : Type} [Field K]

/-- the file consists of header lines and, below them, of rows of equally many (at least two) cells
with the character `sep` between them -/
structure TableFile (content : Str) (sep : Char) (rows : List (List Str)) : Prop where
  text : ∃ hdr : List Str, (∀ l ∈ hdr, OneLine l ∧ ∃ r, l = '#' :: r) ∧
    content = linesText hdr ++ linesText (rows.map (List.intercalate [sep]))
  some_row : rows ≠ []
  width : ∃ w, 2 ≤ w ∧ ∀ row ∈ rows, row.length = w
  cell : ∀ row ∈ rows, ∀ c ∈ row, sep ∉ c ∧ '#' ∉ c ∧ OneLine c
  not_blank : ∀ row ∈ rows, ∃ c ∈ row, ∃ a ∈ c, pySpace a = false
  sep_plain : sep ≠ '#' ∧ sep ≠ '\n' ∧ sep ≠ '\r'

/-- `i` is the first column called `name` -/
def Column (names : List Str) (name : String) (i : Nat) : Prop :=
  names[i]? = some name.toList ∧ ∀ j < i, names[j]? ≠ some name.toList

/-- the row holds the number `x` in the column called `name`; blanks around it do not matter -/
def Holds (names row : List Str) (name : String) (x : K) : Prop :=
  ∃ i c w, Column names name i ∧ row[i]? = some c ∧ NumText w x ∧
    ∃ g g' : Str, (∀ a ∈ g ++ g', pySpace a = true) ∧ c = g ++ w ++ g'

end TC
