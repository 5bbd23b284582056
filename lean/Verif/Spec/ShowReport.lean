import Verif.Model.ShowReport
/-!
# What it means that a report is on the disk
-/
namespace TC
namespace Report

/-- the contents of a file -/
def Disk.content (d : Disk) (p : Str) : Option Str := (d.files.find? (fun f => decide (f.1 = p))).map Prod.snd

/-- `d'` is `d` with the text in the file `p`; all other files are the same -/
structure Saved (d d' : Disk) (p text : Str) : Prop where
  saved : d'.content p = some text
  others : ∀ q, q ≠ p → d'.content q = d.content q

/-- the name of a file in the current directory -/
def PlainName (p : Str) : Prop := '/' ∉ p

end Report
end TC
