import Mathlib.Order.Lattice
import Mathlib.Order.Defs.LinearOrder
/-!
# Specification vocabulary for timestamps
-/
namespace TC
variable {K : Type} [LinearOrder K]

/-- The instant `x` lies in the closed range covered by the timestamps `l`. -/
def InSpan (l : List K) (x : K) : Prop := (∃ a ∈ l, a ≤ x) ∧ (∃ b ∈ l, x ≤ b)

/-- Some instant is covered by both. -/
def Overlap (l m : List K) : Prop := ∃ x, InSpan l x ∧ InSpan m x

/-- `a` and `b` are two successive timestamps of `l` (no timestamp strictly between). -/
def Successive (l : List K) (a b : K) : Prop :=
  a ∈ l ∧ b ∈ l ∧ a < b ∧ ∀ c ∈ l, ¬ (a < c ∧ c < b)

end TC
