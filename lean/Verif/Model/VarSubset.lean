import Verif.Model.Observations
import Verif.Model.Traj
/-!
# The subset used to estimate variances (alignment/data.py:509-544)

`nrm` is the length of a row (`np.linalg.norm`), `std` the standard deviation of a window (pandas, `ddof=1`, so that
it is NaN for fewer than two numbers).  NaN in the rolling column is `none`.
-/
namespace TC
variable {K R : Type} [Field K] [LinearOrder K]
namespace Obs

/-- the length of each row of `obs_matrix` (data.py:529, 533) -/
def epochNorms (nrm : List K → K) (e : EstSettings) (obs : List K) : List K :=
  (List.range (numEpochs e obs)).map (fun k => nrm ((obs.drop (k * perEpoch e)).take (perEpoch e)))

/-- `obs_series.rolling(window=num).std()` (data.py:534-535): the entry at `i` belongs to the `num` numbers ending
with the one at `i`; the first `num - 1` entries are NaN -/
def rollingStd (std : List K → K) (num : Nat) (xs : List K) : List (Option K) :=
  (List.range xs.length).map (fun i =>
    if i + 1 < num ∨ num < 2 then none else some (std ((xs.drop (i + 1 - num)).take num)))

/-- `Series.idxmax` (data.py:535): the first position of the largest number, NaN is skipped; `none` is the NaN
returned (pandas 2.2) if there is none -/
def idxmax (xs : List (Option K)) : Option Nat :=
  xs.findIdx? (fun a => match a with
    | none => false
    | some a => xs.all (fun b => match b with
      | none => true
      | some b => decide (b ≤ a)))

/-- the epochs selected (data.py:529-537): `none` for all, otherwise `np.arange(max_idx - num_obs, max_idx)`, which
raises `ValueError` for NaN -/
def varianceIndex (nrm std : List K → K) (e : EstSettings) (num : Nat) (obs : List K) :
    Except Err (Option (List Int)) :=
  if numEpochs e obs ≤ num then .ok none
  else match idxmax (rollingStd std num (epochNorms nrm e obs)) with
    | none => .error .valueError
    | some m => .ok (some ((List.range num).map (fun j : Nat => (m : Int) - (num : Int) + (j : Int))))

/-- `get_variance_estimation_subset` (data.py:509-544) up to the construction of the new `AlignmentData`: the two
trajectories handed to it.  `apply_index(…, inplace=False)` works on copies, so that the given trajectories stay. -/
def varianceSubset (nrm std : List K → K) (e : EstSettings) (num : Nat) (obs : List K) (F T : Traj K R) :
    Except Err (Traj K R × Traj K R) := do
  match ← varianceIndex nrm std e num obs with
  | none => return (F, T)
  | some idx =>
    match Traj.applyIndex (.ints idx) F, Traj.applyIndex (.ints idx) T with
    | (.ok _, F'), (.ok _, T') => return (F', T')
    | (.error err, _), _ => throw err
    | _, (.error err, _) => throw err

end Obs
end TC
