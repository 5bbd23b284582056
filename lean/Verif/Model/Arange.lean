import Verif.Model.Py
import Mathlib.Algebra.Order.Floor.Ring
/-!
# `np.arange` and Python's `min`, `max`
-/
namespace TC
variable {K : Type} [Field K] [LinearOrder K] [FloorRing K]

/-- number of steps of `np.arange`: `ceil((stop - start) / step)`, at least 0 -/
def arangeLen (start stop step : K) : Nat := ⌈(stop - start) / step⌉.toNat

/-- `np.arange(start, stop, step)` for floats (call sites approximation/voxelizer.py:73-75,
approximation/cubic_approximation.py:79, evaluation/comparison.py:85, 102): `start + i * step`.
A zero step gives an infinite length, numpy raises `ValueError`. Rounding of floats, by which numpy
can return one entry more, is not modelled. -/
def arange (start stop step : K) : Except Err (List K) :=
  if step = 0 then .error .valueError
  else .ok ((List.range (arangeLen start stop step)).map (fun i : Nat => start + (i : K) * step))

omit [Field K] [FloorRing K] in
/-- Python's `min` of a sequence; raises `ValueError` if it is empty -/
def pyMin : List K → Except Err K
  | [] => .error .valueError
  | a :: l => .ok (l.foldl min a)

omit [Field K] [FloorRing K] in
/-- Python's `max` of a sequence; raises `ValueError` if it is empty -/
def pyMax : List K → Except Err K
  | [] => .error .valueError
  | a :: l => .ok (l.foldl max a)

end TC
