import Verif.Model.Stats
import Verif.Model.Compare
import Verif.Model.RpePlots
/-!
# Specification: statistics of relative errors
-/
namespace TC
variable {K : Type} [Field K] [LinearOrder K]

/-- the median of some values, put in order: the middle one, or the mean of the two middle ones -/
def IsMedian (l : List K) (m : K) : Prop :=
  ∃ s : List K, s.Perm l ∧ s.Pairwise (· ≤ ·) ∧
    ∃ a b, s[(s.length - 1) / 2]? = some a ∧ s[s.length / 2]? = some b ∧ m + m = a + b

/-- per cent for errors per metre, plain numbers for errors per second -/
def driftScale (u : MUnit) : K := match u with
  | .meter => 100
  | _ => 1

/-- the entries of `out` belong to those of `bins`, one for one, by `P` -/
def OneEach {α : Type} (bins : List α) (out : List K) (P : α → K → Prop) : Prop :=
  out.length = bins.length ∧ ∀ (k : Nat) b y, bins[k]? = some b → out[k]? = some y → P b y

/-- the distances at which there are errors -/
def withErrors (sel : RpeGroup K → List (Option K)) (r : RpeResult K) : List (RpeGroup K) :=
  r.groups.filter (fun g => decide (sel g ≠ []))

/-- the statistics of the errors of each distance: mean, least, greatest, median and standard deviation -/
structure BinStatistics (sel : RpeGroup K → List (Option K)) (r : RpeResult K) (means mins maxs medians stds : List K) :
    Prop where
  means : OneEach (withErrors sel r) means (fun g y => ∃ xs : List K, sel g = xs.map some ∧
    y * (xs.length : K) = xs.sum * driftScale r.unit)
  mins : OneEach (withErrors sel r) mins (fun g y => ∃ (xs : List K) (x : K), sel g = xs.map some ∧
    x ∈ xs ∧ (∀ z ∈ xs, x ≤ z) ∧ y = x * driftScale r.unit)
  maxs : OneEach (withErrors sel r) maxs (fun g y => ∃ (xs : List K) (x : K), sel g = xs.map some ∧
    x ∈ xs ∧ (∀ z ∈ xs, z ≤ x) ∧ y = x * driftScale r.unit)
  medians : OneEach (withErrors sel r) medians (fun g y => ∃ (xs : List K) (x : K), sel g = xs.map some ∧
    IsMedian xs x ∧ y = x * driftScale r.unit)
  stds : OneEach (withErrors sel r) stds (fun g y => ∃ (xs : List K) (mean std : K), sel g = xs.map some ∧
    mean * (xs.length : K) = xs.sum ∧ 0 ≤ std ∧ std ^ 2 * (xs.length : K) = (xs.map (fun x => (x - mean) ^ 2)).sum ∧
    y = std * driftScale r.unit)

end TC
