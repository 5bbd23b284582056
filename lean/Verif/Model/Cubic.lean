import Verif.Model.Arange
import Verif.Model.Lsq
import Verif.Model.V3
/-!
# `approximation/cubic_approximation.py`
-/
namespace TC
variable {K : Type} [Field K] [LinearOrder K] [FloorRing K]

/-- the four coefficients of one row -/
structure C4 (K : Type) where
  c0 : K
  c1 : K
  c2 : K
  c3 : K
  deriving DecidableEq

omit [LinearOrder K] [FloorRing K] in
/-- `_compute_c` (cubic_approximation.py:155-181), for one location.  For an interval of length zero
numpy yields `nan`, here the field's `x / 0` is used. -/
def computeC (location start stop : K) : C4 K :=
  let u := (location - start) / (stop - start)
  { c0 := 1 - 3 * u ^ 2 + 2 * u ^ 3
    c1 := (location - start) * (1 - 2 * (location - start) / (stop - start) + u ^ 2)
    c2 := 3 * u ^ 2 - 2 * u ^ 3
    c3 := (location - start) * (u ^ 2 - u) }

/-- the variables of the loop in lines 86-130 -/
structure CubicSt (K : Type) where
  tFinal : List K
  intervals : List (List K)
  coeffs : List (List (C4 K))
  intList : List K
  startIdx : Nat
  deriving DecidableEq

/-- the loop in lines 94-130, from position `i` on; the second list are the values from there -/
def cubicLoop (varRed : List K) (intSize : K) (minObs : Nat) :
    Nat → List K → CubicSt K → Except Err (CubicSt K)
  | _, [], st => .ok st
  | i, p :: ps, st => do
    let s ← npGet varRed (st.startIdx : Int)
    let intLen := p - s
    let intList := st.intList ++ [p]
    let lastInt := decide (i + 1 = varRed.length)
    if (intList.length ≥ minObs ∧ intLen ≥ intSize) ∨ lastInt = true then
      if lastInt = true ∧ intList.length < minObs then
        let t ← npGet varRed ((st.startIdx : Int) - 1)
        let prev ← pyLast st.intervals
        let merged := prev ++ intList
        cubicLoop varRed intSize minObs (i + 1) ps
          { tFinal := st.tFinal
            intervals := st.intervals.dropLast ++ [merged]
            coeffs := st.coeffs.dropLast ++ [merged.map (fun x => computeC x t p)]
            intList := []
            startIdx := i + 1 }
      else
        cubicLoop varRed intSize minObs (i + 1) ps
          { tFinal := st.tFinal ++ [s]
            intervals := st.intervals ++ [intList]
            coeffs := st.coeffs ++ [intList.map (fun x => computeC x s p)]
            intList := []
            startIdx := i + 1 }
    else cubicLoop varRed intSize minObs (i + 1) ps { st with intList := intList }

omit [LinearOrder K] [FloorRing K] in
/-- the rows of the design matrix with the number of their first column: it grows by two with each
interval (lines 189-210) -/
def designRows : Nat → List (List (C4 K)) → List (Nat × C4 K)
  | _, [] => []
  | off, c :: cs => c.map (fun r => (off, r)) ++ designRows (off + 2) cs

omit [LinearOrder K] [FloorRing K] in
/-- one row of the design matrix -/
def rowEntry (r : Nat × C4 K) (j : Nat) : K :=
  if j = r.1 then r.2.c0 else if j = r.1 + 1 then r.2.c1 else if j = r.1 + 2 then r.2.c2
  else if j = r.1 + 3 then r.2.c3 else 0

omit [LinearOrder K] [FloorRing K] in
/-- `_design_matrix` (cubic_approximation.py:184-217) -/
def designMatrix (rows : List (Nat × C4 K)) (n : Nat) : Matrix (Fin rows.length) (Fin n) K :=
  Matrix.of fun i j => rowEntry rows[i] j.1

/-- `CubicApproximation` after construction (cubic_approximation.py:35-39) -/
structure Cubic (K : Type) where
  parameters : List K
  estObs : List K
  residuals : List K
  intervalSteps : List K

/-- `_cubic_approx` (cubic_approximation.py:72-151).  The interval steps of lines 79-83 are not used
later, but computing them can raise. -/
def cubicApprox (solve : Solver K) (functionOf values : List K) (intSize : K) (minObs : Nat) :
    Except Err (Cubic K) := do
  let f0 ← pyFirst functionOf
  let varRed := functionOf.map (fun x => x - f0)
  let last ← pyLast varRed
  let steps ← arange 0 last intSize
  let _ ← pyLast steps
  let st ← cubicLoop varRed intSize minObs 0 varRed ⟨[], [], [], [], 0⟩
  let rows := designRows 0 st.coeffs
  if rows.length ≠ functionOf.length then throw Err.valueError
  if values.length ≠ functionOf.length then throw Err.valueError
  let n := 2 * st.coeffs.length + 2
  let (x, l, v) ← sparseLeastSquares solve (designMatrix rows n) (fun i => values.getD i.1 0)
  return { parameters := List.ofFn x
           estObs := List.ofFn l
           residuals := List.ofFn v
           intervalSteps := (st.tFinal ++ [last]).map (fun t => t + f0) }

/-- `piecewise_cubic` (cubic_approximation.py:220-246) for positions: one approximation per column,
the approximated values put together again -/
def piecewiseCubic (solve : Solver K) (functionOf : List K) (values : List (V3 K)) (intSize : K)
    (minObs : Nat) : Except Err (List (V3 K)) := do
  let x ← cubicApprox solve functionOf (values.map V3.x) intSize minObs
  let y ← cubicApprox solve functionOf (values.map V3.y) intSize minObs
  let z ← cubicApprox solve functionOf (values.map V3.z) intSize minObs
  return List.zipWith (fun a (b : K × K) => ⟨a, b.1, b.2⟩) x.estObs (y.estObs.zip z.estObs)

omit [Field K] [LinearOrder K] [FloorRing K] in
/-- `l[::2]` -/
def everySecond : List K → List K
  | [] => []
  | [a] => [a]
  | a :: _ :: l => a :: everySecond l

/-- one location of `eval` (cubic_approximation.py:59-70) -/
def cubicEvalOne (c : Cubic K) (x : K) : Except Err K := do
  let f := everySecond c.parameters
  let d := everySecond c.parameters.tail
  let i := searchLeft c.intervalSteps x
  let a ← npGet c.intervalSteps ((i : Int) - 1)
  let e ← npGet c.intervalSteps (i : Int)
  let fa ← npGet f ((i : Int) - 1)
  let da ← npGet d ((i : Int) - 1)
  let fe ← npGet f (i : Int)
  let de ← npGet d (i : Int)
  let k := computeC x a e
  return fa * k.c0 + da * k.c1 + fe * k.c2 + de * k.c3

/-- all locations -/
def cubicEvalAll (c : Cubic K) : List K → Except Err (List K)
  | [] => .ok []
  | x :: xs => do
    let y ← cubicEvalOne c x
    let ys ← cubicEvalAll c xs
    return y :: ys

/-- `eval` (cubic_approximation.py:44-70); `np.min` of an empty array raises `ValueError` -/
def cubicEval (c : Cubic K) (locations : List K) : Except Err (List K) := do
  let lo ← pyMin locations
  let hi ← pyMax locations
  let smin ← pyMin c.intervalSteps
  let smax ← pyMax c.intervalSteps
  if lo > smax ∨ hi < smin then throw Err.valueError
  cubicEvalAll c locations

end TC
