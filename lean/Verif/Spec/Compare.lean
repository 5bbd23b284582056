import Verif.Model.Compare
import Verif.Spec.Traj
/-!
# What it means that two objects are equal, and what a table shows
-/
namespace TC
variable {K R : Type} [Field K] [LinearOrder K]

/-- `a` is `b` up to numpy's tolerance -/
def Near (a b : K) : Prop := |a - b| ≤ 1 / 100000000 + 1 / 100000 * |b|

/-- the same for vectors -/
def Near3 (a b : V3 K) : Prop := Near a.x b.x ∧ Near a.y b.y ∧ Near a.z b.z

/-- the same for quaternions -/
def Near4 (a b : Q4 K) : Prop := Near a.x b.x ∧ Near a.y b.y ∧ Near a.z b.z ∧ Near a.w b.w

/-- two samples are equal up to the tolerance: both with an orientation or both without -/
structure NearSample (quat : R → Q4 K) (s u : Sample K R) : Prop where
  t : Near s.t u.t
  p : Near3 s.p u.p
  l : Near s.l u.l
  v : Near3 s.v u.v
  r : match s.r, u.r with
    | none, none => True
    | some a, some b => Near4 (quat a) (quat b)
    | _, _ => False

/-- the number of a sample that belongs to a column -/
def cellOf (quat : R → Q4 K) (s : Sample K R) (column : String) : Option K :=
  match column with
  | "time" => some s.t
  | "arc_length" => some s.l
  | "pos_x" => some s.p.x
  | "pos_y" => some s.p.y
  | "pos_z" => some s.p.z
  | "rot_x" => s.r.map (fun r => (quat r).x)
  | "rot_y" => s.r.map (fun r => (quat r).y)
  | "rot_z" => s.r.map (fun r => (quat r).z)
  | "rot_w" => s.r.map (fun r => (quat r).w)
  | "speed_x" => some s.v.x
  | "speed_y" => some s.v.y
  | "speed_z" => some s.v.z
  | _ => none

/-- the columns of the table of a trajectory -/
def tableColumns (hasRot : Bool) : List Str :=
  (if hasRot then ["time", "arc_length", "pos_x", "pos_y", "pos_z", "rot_x", "rot_y", "rot_z", "rot_w", "speed_x", "speed_y", "speed_z"]
    else ["time", "arc_length", "pos_x", "pos_y", "pos_z", "speed_x", "speed_y", "speed_z"]).map String.toList

/-- the column a trajectory is sorted by -/
def sortColumn : Sorting → Str
  | .time => "time".toList
  | .arcLength => "arc_length".toList

/-- a row of a table shows a sample: in every column the number of the sample that belongs there -/
def Shows (quat : R → Q4 K) (columns : List Str) (row : List K) (s : Sample K R) : Prop :=
  row.map some = columns.map (fun c => cellOf quat s (String.ofList c))

/-- what a dictionary says for a key -/
def look (d : List (Str × Str)) (k : Str) : Option Str := (d.find? (fun e => decide (e.1 = k))).map Prod.snd

/-- two alignments agree: parameters and covariances up to the tolerance, the settings exactly -/
structure SameAlignment (r s : AlignResult K) : Prop where
  values : List.Forall₂ Near r.position.values s.position.values
  cov : List.Forall₂ (List.Forall₂ Near) r.position.cov s.position.cov
  rotation : List.Forall₂ Near r.rotation.values s.rotation.values
  settings : r.estimationOf = s.estimationOf

/-- the parameters and the matrix have the same shape -/
structure SameShape (r s : AlignResult K) : Prop where
  values : r.position.values.length = s.position.values.length
  cov : r.position.cov.map List.length = s.position.cov.map List.length
  rotation : r.rotation.values.length = s.rotation.values.length

/-- a deviation of some bin, in the unit that is shown: per cent of the distance or metres for each second -/
def IsDrift (r : RpeResult K) (x : K) : Prop :=
  ∃ g ∈ r.groups, ∃ y, some y ∈ g.posDev ∧ x = y * (if r.unit = .meter then 100 else 1)

/-- the mean distance of the pairs of a bin -/
def binDistance (g : RpeGroup K) : K := g.pairDist.sum / g.pairDist.length

/-- the line of a bin in the summary, with its drift -/
def binLine [FloorRing K] (r : RpeResult K) (g : RpeGroup K) (drift : K) : Str × Str :=
  ("Average position drift at ".toList ++ fmtFixed 3 (binDistance g) ++ " (avg) ".toList ++ (if r.unit = .meter then "m" else "s").toList,
   fmtFixed 3 drift ++ (if r.unit = .meter then " %" else " m/s").toList)

end TC
