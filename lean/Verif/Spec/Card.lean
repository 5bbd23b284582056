import Verif.Model.Text
/-!
# How the text that describes a trajectory is read (C186)
-/
namespace TC

/-- the text without blanks at both ends -/
def trimBlanks (s : Str) : Str := ((s.dropWhile (· == ' ')).reverse.dropWhile (· == ' ')).reverse

/-- what a reader finds under a heading: the first line that starts with it, between the colon and the bar at the end -/
def underHeading (heading : String) (text : Str) : Option Str :=
  ((pySplitOn '\n' text).find? (fun l => ("| " ++ heading ++ ":").toList.isPrefixOf l)).map
    (fun l => trimBlanks ((l.drop (heading.toList.length + 3)).dropLast))

end TC
