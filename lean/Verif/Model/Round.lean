import Verif.Model.Py
import Mathlib.Data.List.Dedup
/-!
# `round_to_precision` (utils.py:171-201)
-/
namespace TC
variable {K : Type} [Field K] [LinearOrder K]

/-- entry `k` of the full convolution of two lists: `Σ_j a[j] * v[k-j]` (`np.convolve`) -/
def convEntry (a v : List K) (k : Nat) : K :=
  ((List.range (k + 1)).map (fun j => a.getD j 0 * v.getD (k - j) 0)).sum

/-- `np.convolve(a, v, "same")` (utils.py:192): as many entries as the longer argument, starting
at entry `(n - 1) / 2` of the full convolution, `n` the length of the shorter one.  Raises
`ValueError` if one is empty. -/
def convolveSame (a v : List K) : Except Err (List K) :=
  if a.length = 0 ∨ v.length = 0 then .error .valueError
  else .ok ((List.range (max a.length v.length)).map
    (fun i => convEntry a v (i + (min a.length v.length - 1) / 2)))

/-- `np.unique(rows, return_index=True, axis=0)[1]` followed by `np.sort` (utils.py:194-195): the
positions of first occurrences, ascending -/
def firstIndices {α : Type} [DecidableEq α] (rows : List α) : List Nat :=
  (List.range rows.length).filter (fun i => decide (rows[i]? ∉ (rows.take i).map some))

/-- `round_to_precision` (utils.py:171-201).  `L` is the type of a row of `function_of`, `rnd` is
`np.round`. `np.c_` (line 194) raises `ValueError` for a different number of rows. -/
def roundToPrecision {L : Type} [DecidableEq L] (rnd : K → K) (functionOf : List L) (data : List K)
    (resolution : K) (filterSize : Nat) : Except Err (List L × List K) := do
  if filterSize = 0 then throw Err.zeroDivision
  let smoothed ← convolveSame data (List.replicate filterSize (1 / (filterSize : K)))
  let rounded := smoothed.map (fun s => rnd (s / resolution) * resolution)
  if functionOf.length ≠ rounded.length then throw Err.valueError
  let idx := firstIndices (functionOf.zip rounded)
  let f ← npTake functionOf (idx.map (fun i : Nat => (i : Int)))
  let d ← npTake smoothed (idx.map (fun i : Nat => (i : Int)))
  return (f, d)

end TC
