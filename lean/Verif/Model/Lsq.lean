import Mathlib.Data.Matrix.Mul
import Verif.Model.Py
/-!
# Least squares (`utils.py`, `alignment/utils.py`)

`numpy` arrays of shape `(m, n)` are `Matrix (Fin m) (Fin n) K`.
-/
namespace TC
variable {K : Type} [Field K]
open Matrix

/-- the type of `scipy.linalg.solve` and `scipy.sparse.linalg.spsolve` -/
abbrev Solver (K : Type) :=
  ∀ n : Nat, Matrix (Fin n) (Fin n) K → (Fin n → K) → Except Err (Fin n → K)

/-- `least_squares` (utils.py:271-304, alignment/utils.py:18-51, the same code).
`sigma = none` is the default argument (an array without rows). -/
def leastSquares (solve : Solver K) {m n : Nat} (A : Matrix (Fin m) (Fin n) K) (l : Fin m → K)
    (sigma : Option (Matrix (Fin m) (Fin m) K)) :
    Except Err ((Fin n → K) × (Fin m → K) × (Fin m → K)) := do
  let W := sigma.getD 1
  let x ← solve n (Aᵀ * W * A) ((Aᵀ * W) *ᵥ l)
  let ls := A *ᵥ x
  return (x, ls, ls - l)

/-- `sparse_least_squares` (utils.py:246-268).  `observations` is a column as at its only call site
(approximation/cubic_approximation.py:145), so that the residuals of line 266 are a column. -/
def sparseLeastSquares (solve : Solver K) {m n : Nat} (A : Matrix (Fin m) (Fin n) K)
    (l : Fin m → K) : Except Err ((Fin n → K) × (Fin m → K) × (Fin m → K)) := do
  let x ← solve n (Aᵀ * A) (Aᵀ *ᵥ l)
  let ls := A *ᵥ x
  return (x, ls, ls - l)

/-- `fit_line_2d` (utils.py:218-243): the design matrix has the columns `x` and 1, the weights
are put on a diagonal, no weights mean ones. -/
def fitLine2d (solve : Solver K) {m : Nat} (x y : Fin m → K) (weights : Option (Fin m → K)) :
    Except Err ((Fin 2 → K) × (Fin m → K) × (Fin m → K)) :=
  let A : Matrix (Fin m) (Fin 2) K := Matrix.of fun i j => if j = 0 then x i else 1
  let w := weights.getD (fun _ => 1)
  leastSquares solve A y (some (Matrix.diagonal w))

end TC
