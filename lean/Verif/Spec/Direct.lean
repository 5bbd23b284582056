import Verif.Model.Direct
import Mathlib.LinearAlgebra.Matrix.Determinant.Basic
/-!
What a similarity fitted to points should be.
-/
namespace TC
variable {K : Type} [Field K] [LinearOrder K]

/-- `u`, `s`, `v` are a singular value decomposition of `M`: what `np.linalg.svd` promises -/
structure IsSvd (M u : M3 K) (s : Fin 3 → K) (v : M3 K) : Prop where
  left : u * u.transpose = 1
  right : v * v.transpose = 1
  nonneg : ∀ i, 0 ≤ s i
  eq : M = u * Matrix.diagonal s * v

/-- weighted sum of squared distances between the target points and the source points moved by rotation part
`Q`, scale `k`, translation `b` -/
def sqErr (d : List (K × V3 K × V3 K)) (Q : M3 K) (k : K) (b : V3 K) : K :=
  (d.map (fun x => x.1 * V3.normSq (x.2.2 - (b + k • mulV Q x.2.1)))).sum

/-- weighted mean of points -/
def wMean (d : List (K × V3 K)) : V3 K := (d.map (fun x => x.1)).sum⁻¹ • (d.map (fun x => x.1 • x.2)).sum

/-- the points with their weights; no weights mean equal weights -/
def weighted (weights : List K) (source target : List (V3 K)) : List (K × V3 K × V3 K) :=
  (if weights = [] then source.map (fun _ => 1) else weights).zip (source.zip target)

/-- weighted mean of the source points -/
def sourceMean (d : List (K × V3 K × V3 K)) : V3 K := wMean (d.map (fun x => (x.1, x.2.1)))
/-- weighted mean of the target points -/
def targetMean (d : List (K × V3 K × V3 K)) : V3 K := wMean (d.map (fun x => (x.1, x.2.2)))

/-- the matrix `∑ w (p - mean) (q - mean)ᵀ` over the points `p` and `q` -/
def crossCov (d : List (K × V3 K × V3 K)) : M3 K :=
  (d.map (fun x => x.1 • outerV (x.2.1 - sourceMean d) (x.2.2 - targetMean d))).sum

end TC
