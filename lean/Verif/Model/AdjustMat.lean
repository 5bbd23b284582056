import Verif.Model.Observations
import Verif.Model.Equations
import Verif.Model.Direct
/-!
# The matrices of the adjustment (alignment/egrad_interface.py, alignment/estimation.py)

The functions of `equations.py` take numbered arguments; `autograd` differentiates with respect to an
argument number.  It is a parameter here: `D f i args`.
-/
namespace TC
variable {K : Type} [Field K] [LinearOrder K]

/-- the three functions of `FunctionalRelationship` (egrad_interface.py:26-28) -/
inductive Axis3
  | x | y | z
  deriving DecidableEq, Repr

/-- the observations of one epoch -/
structure Epoch (K : Type) where
  source : V3 K
  target : V3 K
  rpy : V3 K
  speed : V3 K
  deriving DecidableEq

/-- `autograd.elementwise_grad(f, i)`, applied to positional arguments -/
abbrev Grad (K : Type) := (List K → K) → Nat → List K → K

/-- the names of the arguments (equations.py:12-32) -/
inductive Arg
  | fromX | fromY | fromZ | target | eulerX | eulerY | eulerZ | speedX | speedY | speedZ
  | trans | rotX | rotY | rotZ | scale | time | leverX | leverY | leverZ
  deriving DecidableEq, Repr

namespace Adjust
open Equations

/-- `functional_relationship_x`, `_y`, `_z` of positional arguments (equations.py:12-32, 63-83, 112-131) -/
def rel (τ : Trig K) : Axis3 → List K → K
  | .x, a => funX τ ⟨a.getD 0 0, a.getD 1 0, a.getD 2 0⟩ (a.getD 3 0) ⟨a.getD 4 0, a.getD 5 0, a.getD 6 0⟩
      ⟨a.getD 7 0, a.getD 8 0, a.getD 9 0⟩ (a.getD 10 0) (a.getD 11 0) (a.getD 12 0) (a.getD 13 0) (a.getD 14 0)
      (a.getD 15 0) ⟨a.getD 16 0, a.getD 17 0, a.getD 18 0⟩
  | .y, a => funY τ ⟨a.getD 0 0, a.getD 1 0, a.getD 2 0⟩ (a.getD 3 0) ⟨a.getD 4 0, a.getD 5 0, a.getD 6 0⟩
      ⟨a.getD 7 0, a.getD 8 0, a.getD 9 0⟩ (a.getD 10 0) (a.getD 11 0) (a.getD 12 0) (a.getD 13 0) (a.getD 14 0)
      (a.getD 15 0) ⟨a.getD 16 0, a.getD 17 0, a.getD 18 0⟩
  | .z, a => funZ τ ⟨a.getD 0 0, a.getD 1 0, a.getD 2 0⟩ (a.getD 3 0) ⟨a.getD 4 0, a.getD 5 0, a.getD 6 0⟩
      ⟨a.getD 7 0, a.getD 8 0, a.getD 9 0⟩ (a.getD 10 0) (a.getD 11 0) (a.getD 12 0) (a.getD 13 0)
      (a.getD 14 0) ⟨a.getD 15 0, a.getD 16 0, a.getD 17 0⟩

/-- the arguments that `eval` passes (egrad_interface.py:92-165), for one epoch -/
def argsOf (o : Epoch K) (q : Params K) : Axis3 → List K
  | .x => [o.source.x, o.source.y, o.source.z, o.target.x, o.rpy.x, o.rpy.y, o.rpy.z,
      o.speed.x, o.speed.y, o.speed.z, q.trans.x, q.rot.x, q.rot.y, q.rot.z, q.scale, q.time,
      q.lever.x, q.lever.y, q.lever.z]
  | .y => [o.source.x, o.source.y, o.source.z, o.target.y, o.rpy.x, o.rpy.y, o.rpy.z,
      o.speed.x, o.speed.y, o.speed.z, q.trans.y, q.rot.x, q.rot.y, q.rot.z, q.scale, q.time,
      q.lever.x, q.lever.y, q.lever.z]
  | .z => [o.source.x, o.source.y, o.source.z, o.target.z, o.rpy.x, o.rpy.y, o.rpy.z,
      o.speed.x, o.speed.y, o.speed.z, q.trans.z, q.rot.x, q.rot.y, q.scale, q.time,
      q.lever.x, q.lever.y, q.lever.z]

/-- the argument numbers in the constructor of `FunctionalRelationship` (egrad_interface.py:30-90); the
function of z has no argument `sim_rot_z` -/
def argNo : Axis3 → Arg → Nat
  | .x, .fromX => 0 | .x, .fromY => 1 | .x, .fromZ => 2 | .x, .target => 3
  | .x, .eulerX => 4 | .x, .eulerY => 5 | .x, .eulerZ => 6
  | .x, .speedX => 7 | .x, .speedY => 8 | .x, .speedZ => 9
  | .x, .trans => 10 | .x, .rotX => 11 | .x, .rotY => 12 | .x, .rotZ => 13
  | .x, .scale => 14 | .x, .time => 15 | .x, .leverX => 16 | .x, .leverY => 17 | .x, .leverZ => 18
  | .y, .fromX => 0 | .y, .fromY => 1 | .y, .fromZ => 2 | .y, .target => 3
  | .y, .eulerX => 4 | .y, .eulerY => 5 | .y, .eulerZ => 6
  | .y, .speedX => 7 | .y, .speedY => 8 | .y, .speedZ => 9
  | .y, .trans => 10 | .y, .rotX => 11 | .y, .rotY => 12 | .y, .rotZ => 13
  | .y, .scale => 14 | .y, .time => 15 | .y, .leverX => 16 | .y, .leverY => 17 | .y, .leverZ => 18
  | .z, .fromX => 0 | .z, .fromY => 1 | .z, .fromZ => 2 | .z, .target => 3
  | .z, .eulerX => 4 | .z, .eulerY => 5 | .z, .eulerZ => 6
  | .z, .speedX => 7 | .z, .speedY => 8 | .z, .speedZ => 9
  | .z, .trans => 10 | .z, .rotX => 11 | .z, .rotY => 12 | .z, .rotZ => 18
  | .z, .scale => 13 | .z, .time => 14 | .z, .leverX => 15 | .z, .leverY => 16 | .z, .leverZ => 17

/-- `funcrel.eval(func=funcrel.d…_d…)` for one epoch (egrad_interface.py:92-165) -/
def grad (D : Grad K) (τ : Trig K) (o : Epoch K) (q : Params K) (ax : Axis3) (a : Arg) : K :=
  D (rel τ ax) (argNo ax a) (argsOf o q ax)

/-- one row of `_get_design_x`, `_get_design_y`, `_get_design_z` (estimation.py:374-521) -/
def designRow (D : Grad K) (τ : Trig K) (o : Epoch K) (q : Params K) : Axis3 → List K
  | .x => let g := grad D τ o q .x
    [g .trans, 0, 0, g .rotX, g .rotY, g .rotZ, g .scale, g .time, g .leverX, g .leverY, g .leverZ]
  | .y => let g := grad D τ o q .y
    [0, g .trans, 0, g .rotX, g .rotY, g .rotZ, g .scale, g .time, g .leverX, g .leverY, g .leverZ]
  | .z => let g := grad D τ o q .z
    [0, 0, g .trans, g .rotX, g .rotY, 0, g .scale, g .time, g .leverX, g .leverY, g .leverZ]

/-- `_get_design_matrix` (estimation.py:367-372), as rows -/
def designMatrix (D : Grad K) (τ : Trig K) (eps : List (Epoch K)) (q : Params K) : Except Err (List (List K)) := do
  let a := List.replicate (eps.length * 3) (List.replicate 11 (0 : K))
  let a ← Obs.setStride 3 0 a (eps.map (fun o => designRow D τ o q .x))
  let a ← Obs.setStride 3 1 a (eps.map (fun o => designRow D τ o q .y))
  Obs.setStride 3 2 a (eps.map (fun o => designRow D τ o q .z))

/-- `_eval_functional_relationship` (estimation.py:523-529) -/
def evalRel (τ : Trig K) (eps : List (Epoch K)) (q : Params K) : Except Err (List K) := do
  let f := List.replicate (eps.length * 3) (0 : K)
  let f ← Obs.setStride 3 0 f (eps.map (fun o => rel τ .x (argsOf o q .x)))
  let f ← Obs.setStride 3 1 f (eps.map (fun o => rel τ .y (argsOf o q .y)))
  Obs.setStride 3 2 f (eps.map (fun o => rel τ .z (argsOf o q .z)))

/-- one row of `_get_condition_xyz_from` (estimation.py:718-769) -/
def condFrom (D : Grad K) (τ : Trig K) (o : Epoch K) (q : Params K) (ax : Axis3) : List K :=
  [grad D τ o q ax .fromX, grad D τ o q ax .fromY, grad D τ o q ax .fromZ]

/-- one row of `_condition_xyz_to` (estimation.py:771-793) -/
def condTo : Axis3 → List K
  | .x => [-1, 0, 0]
  | .y => [0, -1, 0]
  | .z => [0, 0, -1]

/-- one row of `_get_condition_rpy_body` (estimation.py:662-716) -/
def condRpy (D : Grad K) (τ : Trig K) (o : Epoch K) (q : Params K) (ax : Axis3) : List K :=
  [grad D τ o q ax .eulerX, grad D τ o q ax .eulerY, grad D τ o q ax .eulerZ]

/-- one row of `_get_condition_speed_to` (estimation.py:795-847) -/
def condSpeed (D : Grad K) (τ : Trig K) (o : Epoch K) (q : Params K) (ax : Axis3) : List K :=
  [grad D τ o q ax .speedX, grad D τ o q ax .speedY, grad D τ o q ax .speedZ]

/-- the block of one equation in `_get_condition_stack` (estimation.py:581-660) -/
def condRow (D : Grad K) (τ : Trig K) (e : EstSettings) (o : Epoch K) (q : Params K) (ax : Axis3) : List K :=
  if e.leverarmEnabled && !e.timeShiftEnabled then condFrom D τ o q ax ++ condTo ax ++ condRpy D τ o q ax
  else if e.timeShiftEnabled && !e.leverarmEnabled then condFrom D τ o q ax ++ condTo ax ++ condSpeed D τ o q ax
  else if e.leverarmEnabled && e.timeShiftEnabled then
    condFrom D τ o q ax ++ condTo ax ++ condRpy D τ o q ax ++ condSpeed D τ o q ax
  else condFrom D τ o q ax ++ condTo ax

/-- one row of `_get_condition_stack` (estimation.py:581-660): the blocks of the three equations of one epoch -/
def condStack (D : Grad K) (τ : Trig K) (e : EstSettings) (q : Params K) (o : Epoch K) : List K :=
  condRow D τ e o q .x ++ condRow D τ e o q .y ++ condRow D τ e o q .z

/-- `row_idx` (estimation.py:558), for `n` epochs with `p` observations each -/
def rowIdx (n p : Nat) : List Nat := (List.range (n * 3)).flatMap (fun r => List.replicate p r)

/-- `col_idx` (estimation.py:561-577) -/
def colIdx (n p : Nat) : List Nat :=
  ((List.range n).flatMap (fun k => List.replicate 3 (k * p))).flatMap (fun off => (List.range p).map (fun c => c + off))

/-- `csc_matrix((data, (row, col)))` (estimation.py:579): entries at the same place are added.  The shape is
inferred from the largest indices, which are those of the last equation and observation. -/
def coo (m n : Nat) (data : List K) (row col : List Nat) : Matrix (Fin m) (Fin n) K :=
  fun i j => ((data.zip (row.zip col)).map (fun t => if t.2.1 = i.val ∧ t.2.2 = j.val then t.1 else 0)).sum

/-- `_get_condition_matrix` (estimation.py:531-579) -/
def condMatrix (D : Grad K) (τ : Trig K) (e : EstSettings) (eps : List (Epoch K)) (q : Params K) :
    Matrix (Fin (eps.length * 3)) (Fin (eps.length * Obs.perEpoch e)) K :=
  coo _ _ (eps.map (condStack D τ e q)).flatten (rowIdx eps.length (Obs.perEpoch e)) (colIdx eps.length (Obs.perEpoch e))

/-- the (adjusted) observations epoch by epoch: `est_xyz_from` and so on (data.py:415-482) -/
def epochsOf (e : EstSettings) (v : List K) : List (Epoch K) :=
  let s := Obs.points e v .xyzFrom
  let t := Obs.points e v .xyzTo
  let r := Obs.points e v .rpy
  let w := Obs.points e v .speed
  (s.zip (t.zip (r.zip w))).map (fun x => ⟨x.1, x.2.1, x.2.2.1, x.2.2.2⟩)

/-- the parameters as the equations take them: `sim_trans_x.value` and so on (egrad_interface.py:111-164) -/
def paramsOf (v : List K) : Params K :=
  { trans := ⟨v.getD 0 0, v.getD 1 0, v.getD 2 0⟩
    rot := ⟨v.getD 3 0, v.getD 4 0, v.getD 5 0⟩
    scale := v.getD 6 0
    time := v.getD 7 0
    lever := ⟨v.getD 8 0, v.getD 9 0, v.getD 10 0⟩ }

end Adjust
end TC
