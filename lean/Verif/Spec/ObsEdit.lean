import Verif.Model.ObsEdit
import Verif.Spec.Observations
/-!
The vectors of an alignment seen as tables: one column for each measured quantity, one row for each epoch.
-/
namespace TC
variable {K : Type} [Field K] [LinearOrder K]

/-- what is measured in an epoch -/
inductive Quantity
  | fromX | fromY | fromZ | toX | toY | toZ | roll | pitch | yaw | speedX | speedY | speedZ
  deriving DecidableEq, Repr

/-- the quantities of an epoch in their order: angles belong to it if a lever arm is estimated, speeds if a
time shift is estimated -/
def epochNames (leverarm timeShift : Bool) : List Quantity :=
  [.fromX, .fromY, .fromZ, .toX, .toY, .toZ] ++ (if leverarm then [.roll, .pitch, .yaw] else []) ++
  (if timeShift then [.speedX, .speedY, .speedZ] else [])

/-- the quantities of a group, as its key says -/
def ObsKey.names : ObsKey → List Quantity
  | .xyFrom => [.fromX, .fromY]
  | .zFrom => [.fromZ]
  | .xyzFrom => [.fromX, .fromY, .fromZ]
  | .xyTo => [.toX, .toY]
  | .zTo => [.toZ]
  | .xyzTo => [.toX, .toY, .toZ]
  | .positions => [.fromX, .fromY, .fromZ, .toX, .toY, .toZ]
  | .rollPitch => [.roll, .pitch]
  | .yaw => [.yaw]
  | .rpy => [.roll, .pitch, .yaw]
  | .speed => [.speedX, .speedY, .speedZ]

/-- a table: a number of epochs, and a column for every quantity that is part of it -/
@[ext] structure Sheet (K : Type) where
  epochs : Nat
  column : Quantity → Option (List K)

/-- a vector as a table: the numbers of an epoch stand side by side -/
def sheetOf (leverarm timeShift : Bool) (v : List K) : Sheet K where
  epochs := v.length / (epochNames leverarm timeShift).length
  column q := if q ∈ epochNames leverarm timeShift then
      some ((List.range (v.length / (epochNames leverarm timeShift).length)).map (fun k =>
        (block (epochNames leverarm timeShift).length v k).getD ((epochNames leverarm timeShift).idxOf q) 0))
    else none

/-- a vector holds whole epochs -/
def WholeEpochs (leverarm timeShift : Bool) (v : List K) : Prop := (epochNames leverarm timeShift).length ∣ v.length

/-- an array of numbers given by its columns -/
structure IsArray (rows : Nat) (columns : List (List K)) : Prop where
  length : ∀ c ∈ columns, c.length = rows

/-- an array can replace a group: every quantity of the group is part of the table, there is one column for
each, and one row for each epoch, or a single row that is repeated -/
def Sheet.Accepts (s : Sheet K) (key : ObsKey) (rows : Nat) (columns : List (List K)) : Prop :=
  (∀ q ∈ key.names, (s.column q).isSome) ∧ columns.length = key.names.length ∧ (rows = s.epochs ∨ rows = 1)

/-- a single row is repeated for every epoch -/
def spread (epochs : Nat) (column : List K) : List K :=
  match column with
  | [c] => List.replicate epochs c
  | cs => cs

/-- the table after a group was replaced: the quantities of the group have the new columns, in the order of
the group; every other quantity is as before -/
def Sheet.replace (s : Sheet K) (key : ObsKey) (columns : List (List K)) : Sheet K where
  epochs := s.epochs
  column q := if q ∈ key.names then (columns[key.names.idxOf q]?).map (spread s.epochs) else s.column q

/-- a change of one of the three vectors: a group is replaced by the columns of an array, or the whole vector
by another one -/
inductive VecEdit (K : Type)
  | group (w : VecName) (key : ObsKey) (rows : Nat) (columns : List (List K))
  | vector (w : VecName) (values : List K)

/-- the arrays of a change are arrays -/
def VecEdit.Array : VecEdit K → Prop
  | .group _ _ rows columns => IsArray rows columns
  | .vector _ _ => True

/-- the call that makes a change -/
def VecEdit.call (e : EstSettings) : VecEdit K → SE (AlignVectors K) Unit
  | .group w key _ columns => Obs.setGroup e w key columns
  | .vector w values => Obs.setVector e w values

/-- the change is accepted -/
def VecEdit.Accepted (leverarm timeShift : Bool) (t : VecName → Sheet K) : VecEdit K → Prop
  | .group w key rows columns => (t w).Accepts key rows columns
  | .vector _ values => WholeEpochs leverarm timeShift values

/-- the three tables after an accepted change -/
def VecEdit.changed (leverarm timeShift : Bool) (t : VecName → Sheet K) : VecEdit K → VecName → Sheet K
  | .group w key _ columns => fun w' => if w' = w then (t w).replace key columns else t w'
  | .vector w values => fun w' => if w' = w then sheetOf leverarm timeShift values else t w'

open Classical in
/-- the three tables after any number of changes, of which those that are not accepted have no effect -/
noncomputable def afterEdits (leverarm timeShift : Bool) (t : VecName → Sheet K) : List (VecEdit K) → VecName → Sheet K
  | [] => t
  | c :: cs => afterEdits leverarm timeShift
      (if c.Accepted leverarm timeShift t then c.changed leverarm timeShift t else t) cs

/-- the three vectors of an object as tables -/
def tablesOf (leverarm timeShift : Bool) (s : AlignVectors K) : VecName → Sheet K
  | .obs => sheetOf leverarm timeShift s.obs
  | .var => sheetOf leverarm timeShift s.var
  | .res => sheetOf leverarm timeShift s.res

end TC
