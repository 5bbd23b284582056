import Verif.Model.TrajIO
import Verif.Model.ResultIO

/-!
# Saving that is interrupted

`to_file` writes to the file itself: it opens it, writes the header lines, closes it, and lets pandas
open it again in mode "a" for the table (trajectory.py:298-328, ate_result.py:457-464,
rpe_result.py:238-246).  If the program is stopped in between, the file holds what was there before it
was opened, or what is left of that by opening it and a beginning of what is to be written.

Simplification: characters reach the file in the order in which they are written; there may be any
number of them (how much is buffered is up to the operating system).
-/

namespace TC

variable {K R : Type} [Field K] [LinearOrder K] [FloorRing K]

/-- what the file may contain if the program is stopped during `to_file` (trajectory.py:298-328):
the rows are built first (lines 316-325), then the file is opened; `old` was its content -/
inductive Traj.Interrupted (io : IoLib K R) (T : Traj K R) (append : Bool) (old : Str) : Str → Prop
  | before : Traj.Interrupted io T append old old
  | during {rows : List (List K)} {p : Str} : T.fileRows io = .ok rows →
      p <+: T.fileHeader ++ csvRows (rows.map (fun r => r.map (fmtFixed 9))) →
      Traj.Interrupted io T append old (openMode append old ++ p)

/-- what the file may contain if the program is stopped during `ATEResult.to_file`
(ate_result.py:457-464): the header is written and the file closed before the table is built, so that
an exception raised there also stops the program after the header -/
inductive AteResult.Interrupted (io : IoLib K R) (r : AteResult K R) (append : Bool) (old : Str) : Str → Prop
  | before : AteResult.Interrupted io r append old old
  | header {p : Str} : p <+: "#name ".toList ++ r.name.toList ++ ['\n'] ++
      ("#epsg ".toList ++ intStr r.trajectory.epsg ++ ['\n']) →
      AteResult.Interrupted io r append old (openMode append old ++ p)
  | table {rows : List (List K)} {p : Str} : r.frameRows io = .ok rows →
      p <+: "#name ".toList ++ r.name.toList ++ ['\n'] ++
        ("#epsg ".toList ++ intStr r.trajectory.epsg ++ ['\n']) ++
        csvRows (r.columns :: rows.map (fun c => c.map (fmtFixed 12))) →
      AteResult.Interrupted io r append old (openMode append old ++ p)

/-- what the file may contain if the program is stopped during `RPEResult.to_file`
(rpe_result.py:238-246), which proceeds in the same way -/
inductive RpeResult.Interrupted (r : RpeResult K) (append : Bool) (old : Str) : Str → Prop
  | before : RpeResult.Interrupted r append old old
  | header {p : Str} : p <+: r.fileHeader → RpeResult.Interrupted r append old (openMode append old ++ p)
  | table {rows : List (List (Option K))} {p : Str} : r.frameRows = .ok rows →
      p <+: r.fileHeader ++ csvRows (r.columns :: rows.map (fun c => c.map (fmtCell 12))) →
      RpeResult.Interrupted r append old (openMode append old ++ p)

end TC
