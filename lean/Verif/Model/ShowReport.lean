import Verif.Model.Text
/-!
# Writing and showing a report (`report/utils.py`)

The disk is a list of directories and a list of files with their contents.  Paths are compared as texts; `.`, `..`, repeated
slashes and links are not resolved.  The current directory always exists.
-/
namespace TC
namespace Report

/-- `FileNotFoundError`, `IsADirectoryError`, `NotADirectoryError` -/
inductive FsErr | notFound | isDirectory | notDirectory
  deriving DecidableEq

/-- the disk -/
structure Disk where
  dirs : List Str
  files : List (Str × Str)
  deriving DecidableEq

/-- the part of a path up to and with the last slash -/
def uptoSlash (p : Str) : Str := (p.reverse.dropWhile (fun c => c ≠ '/')).reverse

/-- `os.path.dirname` (posixpath) -/
def dirname (p : Str) : Str :=
  let head := uptoSlash p
  if head.all (fun c => c = '/') then head else (head.reverse.dropWhile (fun c => c = '/')).reverse

/-- `os.path.exists`: the empty path does not exist -/
def Disk.exists (d : Disk) (p : Str) : Bool := decide (p ≠ [] ∧ (p ∈ d.dirs ∨ p ∈ d.files.map Prod.fst))

/-- there is a directory in which `p` is or may be -/
def Disk.parent (d : Disk) (p : Str) : Bool := decide (dirname p = []) || decide (dirname p ∈ d.dirs)

/-- `os.mkdir` of something that does not exist -/
def Disk.mkdir (d : Disk) (p : Str) : Except FsErr Unit × Disk :=
  if p = [] then (.error .notFound, d)
  else if d.parent p then (.ok (), { d with dirs := p :: d.dirs })
  else (.error .notFound, d)

/-- `open(p, "w")` and `write`: an existing file is replaced -/
def Disk.write (d : Disk) (p text : Str) : Except FsErr Unit × Disk :=
  if p = [] then (.error .notFound, d)
  else if p ∈ d.dirs then (.error .isDirectory, d)
  else if dirname p ∈ d.files.map Prod.fst then (.error .notDirectory, d)
  else if d.parent p then (.ok (), { d with files := (p, text) :: d.files.filter (fun f => decide (f.1 ≠ p)) })
  else (.error .notFound, d)

/-- `write_report` (report/utils.py:74-85) -/
def writeReport (outputFile text : Str) (d : Disk) : Except FsErr Unit × Disk := d.write outputFile text

/-- `os.path.join(dirname, name)` (report/utils.py:103) -/
def joinPath (dir name : Str) : Str := if dir = [] then name else if dir.getLast? = some '/' then dir ++ name else dir ++ '/' :: name

/-- `show_report` (report/utils.py:88-108): the path that is opened in the browser; `random` is the random part of the name -/
def showReport (random text filepath : Str) (d : Disk) : Except FsErr Str × Disk :=
  let dir := dirname filepath
  let r := if d.exists dir then (.ok (), d) else d.mkdir dir
  match r with
  | (.error e, d) => (.error e, d)
  | (.ok (), d) =>
    let file := if filepath = [] then joinPath dir (random ++ ".html".toList) else filepath
    match d.write file text with
    | (.error e, d) => (.error e, d)
    | (.ok (), d) => (.ok file, d)

end Report
end TC
