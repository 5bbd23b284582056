import Verif.Model.Params
import Verif.Model.ApplyAlignment
import Verif.Model.Lsq
/-!
# Direct estimates (alignment/direct.py)

`np.linalg.svd`, `Rotation.from_matrix(·).as_euler("xyz")` and `Rotation.mean` are parameters.
-/
namespace TC
variable {K R : Type} [Field K] [LinearOrder K]

/-- `a[:, None] @ b[None, :]`, one term of the moment matrix (direct.py:48) -/
def outerV (a b : V3 K) : M3 K :=
  !![a.x * b.x, a.x * b.y, a.x * b.z; a.y * b.x, a.y * b.y, a.y * b.z; a.z * b.x, a.z * b.y, a.z * b.z]

namespace Direct

/-- one weight, source point and target point -/
abbrev Pts (K : Type) := List (K × V3 K × V3 K)

/-- `np.sum(weights)` (direct.py:40) -/
def sumWeights (d : Pts K) : K := (d.map (fun x => x.1)).sum

/-- `weighted_centroid_from` (direct.py:41) -/
def centroidFrom (d : Pts K) : V3 K := (sumWeights d)⁻¹ • (d.map (fun x => x.1 • x.2.1)).sum

/-- `weighted_centroid_to` (direct.py:43) -/
def centroidTo (d : Pts K) : V3 K := (sumWeights d)⁻¹ • (d.map (fun x => x.1 • x.2.2)).sum

/-- `centered_from`, `centered_to` (direct.py:45-46), with the weights -/
def centered (d : Pts K) : Pts K := d.map (fun x => (x.1, x.2.1 - centroidFrom d, x.2.2 - centroidTo d))

/-- `weights * centered_from.T @ centered_to` (direct.py:48) -/
def moment (c : Pts K) : M3 K := (c.map (fun x => x.1 • outerV x.2.1 x.2.2)).sum

/-- `(weights * distances_from) @ distances_from` (direct.py:50-51) -/
def spread (nrm : V3 K → K) (c : Pts K) : K := (c.map (fun x => x.1 * nrm x.2.1 * nrm x.2.1)).sum

/-- the row `g @ A` (direct.py:57) -/
def rowMul (g : V3 K) (A : M3 K) : V3 K := mulV A.transpose g

/-- rotation, scale and translation of `direct_helmert_transformation` (direct.py:40-60).  `svd` gives
`u` and `v` (the transposed right factor) of `np.linalg.svd`. -/
def helmertCore (nrm : V3 K → K) (svd : M3 K → M3 K × M3 K) (d : Pts K) : M3 K × K × V3 K :=
  let c := centered d
  let uv := svd (moment c)
  let rot := uv.2.transpose * uv.1.transpose
  let scale := (c.map (fun x => V3.dot (rowMul (x.1 • x.2.2) rot) x.2.1)).sum / spread nrm c
  let trans := centroidTo d - scale • mulV rot (centroidFrom d)
  (rot, scale, trans)

/-- a `Parameter` as `direct.py` makes it, enabled and without variance (parameters.py:48-64) -/
def newParam (value default : K) (name : String) (unit : MUnit) : Param K := ⟨value, 0, default, true, name, unit⟩

/-- `direct_helmert_transformation` (direct.py:22-72) with its default weights.  `euler` is
`RotationSet.from_matrix(·).as_euler("xyz")`.  Simplification: numpy would repeat a single point to match the
other set; here different lengths are rejected. -/
def helmert (nrm : V3 K → K) (svd : M3 K → M3 K × M3 K) (euler : M3 K → V3 K) (weights : List K)
    (source target : List (V3 K)) : Except Err (List (Param K)) :=
  let weights := if weights.length = 0 then source.map (fun _ => 1) else weights
  if weights.length ≠ source.length ∨ target.length ≠ source.length then .error .valueError
  else
    let m := helmertCore nrm svd (weights.zip (source.zip target))
    let a := euler m.1
    .ok [newParam m.2.2.x 0 "Translation x" .meter, newParam m.2.2.y 0 "Translation y" .meter,
      newParam m.2.2.z 0 "Translation z" .meter, newParam a.x 0 "Rotation x" .radian,
      newParam a.y 0 "Rotation y" .radian, newParam a.z 0 "Rotation z" .radian, newParam m.2.1 1 "Scale" .scale]

/-- `HelmertTransformation()` (parameters.py:318-328); the names come from a counter and are left out -/
def noHelmert : List (Param K) :=
  [newParam 0 0 "" .none, newParam 0 0 "" .none, newParam 0 0 "" .none, newParam 0 0 "" .none,
   newParam 0 0 "" .none, newParam 0 0 "" .none, newParam 1 1 "" .none]

/-- `HelmertTransformation.apply_to` (parameters.py:358-359) for one row, from the seven parameters -/
def helmertApplyTo (τ : Trig K) (ps : List (Param K)) (p : V3 K) : V3 K :=
  let v := ps.map Param.value
  (⟨v.getD 0 0, v.getD 1 0, v.getD 2 0⟩ : V3 K) +
    v.getD 6 0 • mulV (eulerMat τ ⟨v.getD 3 0, v.getD 4 0, v.getD 5 0⟩) p

/-- the three rows of one epoch in `_leverarm_design_matrix` (direct.py:180-192) -/
def leverRowX (τ : Trig K) (r : V3 K) : List K :=
  [τ.cos r.y * τ.cos r.z, -τ.cos r.x * τ.sin r.z + τ.sin r.x * τ.sin r.y * τ.cos r.z,
   τ.sin r.x * τ.sin r.z + τ.cos r.x * τ.sin r.y * τ.cos r.z]
/-- (direct.py:186-190) -/
def leverRowY (τ : Trig K) (r : V3 K) : List K :=
  [τ.cos r.y * τ.sin r.z, τ.sin r.x * τ.sin r.y * τ.sin r.z + τ.cos r.x * τ.cos r.z,
   -τ.sin r.x * τ.cos r.z + τ.cos r.x * τ.sin r.y * τ.sin r.z]
/-- (direct.py:192) -/
def leverRowZ (τ : Trig K) (r : V3 K) : List K :=
  [-τ.sin r.y, τ.sin r.x * τ.cos r.y, τ.cos r.x * τ.cos r.y]

/-- `_leverarm_design_matrix` (direct.py:156-200): first all rows of x, then of y, then of z; with speeds
one more column in front -/
def leverDesign (τ : Trig K) (rpy : List (V3 K)) (speed : Option (List (V3 K))) : Except Err (List (List K)) :=
  let rows := rpy.map (leverRowX τ) ++ rpy.map (leverRowY τ) ++ rpy.map (leverRowZ τ)
  match speed with
  | none => .ok rows
  | some v =>
    let col := v.map V3.x ++ v.map V3.y ++ v.map V3.z
    if col.length ≠ rows.length then .error .valueError
    else .ok (List.zipWith (fun c r => c :: r) col rows)

/-- an array given by its rows as a matrix; only used for lists of the right sizes -/
def toMat (m n : Nat) (rows : List (List K)) : Matrix (Fin m) (Fin n) K := fun i j => (rows.getD i []).getD j 0

/-- a one-dimensional array as a vector -/
def toVec (m : Nat) (l : List K) : Fin m → K := fun i => l.getD i 0

/-- `np.r_[...]` of the coordinate differences (direct.py:129-133, 244-248) -/
def differences (source target : List (V3 K)) : List K :=
  let d := List.zipWith (fun t s => t - s) target source
  d.map V3.x ++ d.map V3.y ++ d.map V3.z

/-- `direct_leverarm` (direct.py:75-153) without weights, as its only caller calls it: the three parameters of
the lever arm and the time shift -/
def leverarm (τ : Trig K) (solve : Solver K) (target source rpy : List (V3 K)) (speed : Option (List (V3 K))) :
    Except Err (List (Param K) × Param K) := do
  if target.length ≠ source.length ∨ source.length ≠ rpy.length then Except.error Err.valueError
  else
    let rows ← leverDesign τ rpy speed
    let m := 3 * rpy.length
    let n := match speed with
      | some _ => 4
      | none => 3
    let r ← leastSquares solve (toMat m n rows) (toVec m (differences source target)) (some 1)
    let est := List.ofFn r.1
    let off := match speed with
      | some _ => 1
      | none => 0
    let time := match speed with
      | some _ => est.getD 0 0
      | none => 0
    return ([newParam (est.getD off 0) 0 "Leverarm x" .meter, newParam (est.getD (off + 1) 0) 0 "Leverarm y" .meter,
      newParam (est.getD (off + 2) 0) 0 "Leverarm z" .meter], newParam time 0 "Time shift" .second)

/-- `Leverarm()` (parameters.py:366-377): disabled -/
def noLeverarm : List (Param K) :=
  ["x", "y", "z"].map (fun a => ⟨0, 0, 0, false, "Leverarm " ++ a, .meter⟩)

/-- `direct_timeshift` (direct.py:203-256) with its default weights (an array without entries, which
`least_squares` takes for the identity) -/
def timeshift (solve : Solver K) (target source speed : List (V3 K)) : Except Err (Param K) := do
  if target.length ≠ source.length then Except.error Err.valueError
  else
    let m := 3 * speed.length
    if 3 * source.length ≠ m then Except.error Err.valueError
    else
      let rows := (speed.map V3.x ++ speed.map V3.y ++ speed.map V3.z).map (fun c => [c])
      let r ← leastSquares solve (toMat m 1 rows) (toVec m (differences source target)) none
      return newParam ((List.ofFn r.1).getD 0 0) 0 "Time shift" .second

/-- `align_rotations` (direct.py:259-271) of two sets of rotations; `mean` and `euler` are scipy's `mean` and
`as_euler("xyz")`.  scipy multiplies sets of equal length one by one; a single rotation would be repeated,
which is left out. -/
def alignRotations (L : RotLib K R) (mean : List R → Except Err R) (euler : R → V3 K) (source target : List R) :
    Except Err (List (Param K)) := do
  if target.length ≠ source.length then Except.error Err.valueError
  else
    let m ← mean (List.zipWith (fun t s => L.mul t (L.inv s)) target source)
    let a := euler m
    return [newParam a.x 0 "Rotation x" .radian, newParam a.y 0 "Rotation y" .radian,
      newParam a.z 0 "Rotation z" .radian]

end Direct
end TC
