import Verif.Model.Py
import Verif.Model.V3
import Mathlib.Algebra.Order.Floor.Ring
/-!
# `trajectopy_core/utils.py`
-/
namespace TC
variable {K : Type} [Field K] [LinearOrder K]

/-- `a[1:] - a[:-1]` (utils.py:94-97, 115-116; `np.diff`) -/
def diffs {α : Type} [Sub α] (l : List α) : List α :=
  List.zipWith (fun b a => b - a) l.tail l.dropLast

/-- `np.r_[0, np.cumsum(d)]` (utils.py:100) -/
def cumFrom (acc : K) : List K → List K
  | [] => [acc]
  | d :: ds => acc :: cumFrom (acc + d) ds

/-- `lengths_from_xyz` (utils.py:77-100 and sorting.py:82-105, the same code).  The type check
in lines 90-92 is left out (the argument is an array). For zero points the code returns `[0]`. -/
def lengthsFromXyz (nrm : V3 K → K) (xyz : List (V3 K)) : List K :=
  cumFrom 0 ((diffs xyz).map nrm)

/-- `diff / t_diff[:, None]` with numpy broadcasting of the first axis (utils.py:119).
Division by a zero time difference gives `inf`/`nan` with a warning in numpy; here it is the
field's `x / 0`, so theorems about values assume distinct consecutive timestamps. -/
def bcastDiv (d : List (V3 K)) (t : List K) : Except Err (List (V3 K)) :=
  if d.length = t.length then .ok (List.zipWith (fun v s => s⁻¹ • v) d t)
  else match t with
    | [s] => .ok (d.map (fun v => s⁻¹ • v))
    | _ => match d with
      | [v] => .ok (t.map (fun s => s⁻¹ • v))
      | _ => .error .valueError

/-- `gradient_3d` (utils.py:103-119, alignment/utils.py:54-70) -/
def gradient3d (xyz : List (V3 K)) (tstamps : List K) : Except Err (List (V3 K)) := do
  let g ← bcastDiv (diffs xyz) (diffs tstamps)
  return g ++ [0]

/-- `common_time_span` (utils.py:122-150) -/
def commonTimeSpan (tstamps1 tstamps2 : List K) : Except Err (Option (K × K)) := do
  let s1 := npSort tstamps1
  let s2 := npSort tstamps2
  let f1 ← pyFirst s1
  let f2 ← pyFirst s2
  let l1 ← pyLast s1
  let l2 ← pyLast s2
  if (f1 ≤ f2 ∧ f2 ≤ l1) ∨ (f1 ≤ l2 ∧ l2 ≤ l1) ∨ (f2 ≤ f1 ∧ f1 ≤ l2) ∨ (f2 ≤ l1 ∧ l1 ≤ l2) then
    return some (max f1 f2, min l1 l2)
  else
    return none

/-- `np.interp(x, xp, fp)` for one query and an ascending `xp` (call sites
trajectory.py:457, 501-503): left/right of the table the border value, an exact hit its value,
otherwise `slope * (x - xp[j]) + fp[j]` with `j` the last index with `xp[j] ≤ x`.
The caller has checked that `xp` is non-empty and as long as `fp`. -/
def interpOne (xp fp : List K) (x : K) : Except Err K := do
  let j : Nat := searchRight xp x
  if j = 0 then npGet fp 0
  else if j = xp.length then npGet fp ((j : Int) - 1)
  else
    let x0 ← npGet xp ((j : Int) - 1)
    let f0 ← npGet fp ((j : Int) - 1)
    if x0 = x then return f0
    else
      let x1 ← npGet xp (j : Int)
      let f1 ← npGet fp (j : Int)
      return (f1 - f0) / (x1 - x0) * (x - x0) + f0

/-- all queries of an `np.interp` call -/
def interpAll (xp fp : List K) : List K → Except Err (List K)
  | [] => .ok []
  | q :: qs => do
    let v ← interpOne xp fp q
    let vs ← interpAll xp fp qs
    return v :: vs

/-- `np.interp(qs, xp, fp)`: raises `ValueError` for an empty table and for tables of different
length. -/
def npInterp (qs xp fp : List K) : Except Err (List K) :=
  if xp.length = 0 then .error .valueError
  else if xp.length ≠ fp.length then .error .valueError
  else interpAll xp fp qs

/-- `rndodd` (utils.py:153-168); `s % 2` is Python's floored modulo `s - 2*floor(s/2)`. -/
def rndodd [FloorRing K] (s : K) : Int :=
  let r : K := s - 2 * (⌊s / 2⌋ : K)
  if r < 1 then ⌊s⌋ + 1 else ⌊s⌋

end TC
