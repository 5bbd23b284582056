import Verif.Model.Report
/-!
# What reports should show
-/
namespace TC
namespace Report
variable {K R : Type} [Field K] [LinearOrder K]

/-- the width of the blocks to be averaged: the least width with which `m` blocks cover `n` values -/
def width (n m : Nat) : Nat := (n + (m - 1)) / m

/-- block `i` of the data; the last block may be shorter -/
def block (w i : Nat) (data : List K) : List K := (data.drop (i * w)).take w

/-- the mean of some values -/
def mean (l : List K) : K := l.sum / (l.length : K)

/-- the deviations of a result in another unit -/
def inUnit (f : K) (r : AteResult K R) : AteResult K R :=
  { r with posDev := r.posDev.map (fun v => f • v), directed := r.directed.map (fun v => f • v) }

end Report
end TC
