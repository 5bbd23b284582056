import Verif.Model.Eval
/-!
# Statistics of deviations: `evaluation/ate_result.py`, `evaluation/rpe_result.py`

`np.mean`, `np.median`, `np.std` of no values give `nan` with a warning, `np.min` and `np.max`
raise `ValueError`; here all of them give `valueError`: no number is returned.
-/
namespace TC
variable {K R : Type} [Field K] [LinearOrder K]

/-- `np.mean` (call sites ate_result.py:113, 233; rpe_result.py:78) -/
def npMean (l : List K) : Except Err K :=
  if l.length = 0 then .error .valueError else .ok (l.sum / (l.length : K))

/-- `np.median` (ate_result.py:256): the middle of the sorted values or the mean of the two middle
ones -/
def npMedian (l : List K) : Except Err K := do
  let s := npSort l
  if s.length = 0 then throw Err.valueError
  if s.length % 2 = 1 then npGet s ((s.length / 2 : Nat) : Int)
  else do
    let b ← npGet s ((s.length / 2 : Nat) : Int)
    let a ← npGet s ((s.length / 2 - 1 : Nat) : Int)
    return (a + b) / 2

/-- `np.std` (ate_result.py:263): root of the mean squared distance from the mean -/
def npStd (E : EvalLib K) (l : List K) : Except Err K := do
  let m ← npMean l
  let v ← npMean (l.map (fun x => (x - m) ^ 2))
  return E.sqrt v

/-- `rms` (evaluation/utils.py:16-26) -/
def rms (E : EvalLib K) (l : List K) : Except Err K := do
  let m ← npMean (l.map (fun x => x ^ 2))
  return E.sqrt m

/-- `RotationSet.rotangle` (rotationset.py:43-50): the rotation angle, here by the trace of the
matrix; scipy computes the length of the rotation vector from the quaternion, the same angle. -/
def rotAngle (E : EvalLib K) (A : M3 K) : K :=
  E.acos ((1 / 2) * (A 0 0 + A 1 1 + A 2 2 - 1))

namespace AteResult

/-- `pos_dev_comb` (ate_result.py:207-212) -/
def posDevComb (E : EvalLib K) (a : AteResult K R) : List K := a.posDev.map E.nrm

/-- `rot_dev_comb` (ate_result.py:214-221) with rotation deviations; without them the code returns
an `n × 3` array of zeros, whose statistics are those of `3 n` zeros -/
def rotDevComb (E : EvalLib K) (L : RotLib K R) (a : AteResult K R) : List K :=
  match a.rotDev with
  | some r => r.map (fun q => rotAngle E (L.toMat q))
  | none => List.replicate (3 * a.posDev.length) 0

/-- `pos_ate` (ate_result.py:230-235) -/
def posAte (E : EvalLib K) (a : AteResult K R) : Except Err K := npMean (a.posDevComb E)
/-- `pos_dev_rms` (ate_result.py:223-228) -/
def posDevRms (E : EvalLib K) (a : AteResult K R) : Except Err K := rms E (a.posDevComb E)
/-- `pos_dev_std` (ate_result.py:258-263) -/
def posDevStd (E : EvalLib K) (a : AteResult K R) : Except Err K := npStd E (a.posDevComb E)
/-- `pos_dev_median` (ate_result.py:251-256) -/
def posDevMedian (E : EvalLib K) (a : AteResult K R) : Except Err K := npMedian (a.posDevComb E)
/-- `pos_dev_max` (ate_result.py:237-242) -/
def posDevMax (E : EvalLib K) (a : AteResult K R) : Except Err K := pyMax (a.posDevComb E)
/-- `pos_dev_min` (ate_result.py:244-249) -/
def posDevMin (E : EvalLib K) (a : AteResult K R) : Except Err K := pyMin (a.posDevComb E)
/-- `pos_rms_x` (ate_result.py:328-333) -/
def posRmsX (E : EvalLib K) (a : AteResult K R) : Except Err K := rms E (a.posDev.map V3.x)
/-- `pos_rms_y` (ate_result.py:335-340) -/
def posRmsY (E : EvalLib K) (a : AteResult K R) : Except Err K := rms E (a.posDev.map V3.y)
/-- `pos_rms_z` (ate_result.py:342-347) -/
def posRmsZ (E : EvalLib K) (a : AteResult K R) : Except Err K := rms E (a.posDev.map V3.z)
/-- `pos_rms_along` (ate_result.py:307-312) -/
def posRmsAlong (E : EvalLib K) (a : AteResult K R) : Except Err K := rms E (a.directed.map V3.x)
/-- `pos_rms_cross_h` (ate_result.py:314-319) -/
def posRmsCrossH (E : EvalLib K) (a : AteResult K R) : Except Err K := rms E (a.directed.map V3.y)
/-- `pos_rms_cross_v` (ate_result.py:321-326) -/
def posRmsCrossV (E : EvalLib K) (a : AteResult K R) : Except Err K := rms E (a.directed.map V3.z)
/-- `pos_bias_x` (ate_result.py:110-113) -/
def posBiasX (a : AteResult K R) : Except Err K := npMean (a.posDev.map V3.x)
/-- `pos_bias_y` (ate_result.py:115-118) -/
def posBiasY (a : AteResult K R) : Except Err K := npMean (a.posDev.map V3.y)
/-- `pos_bias_z` (ate_result.py:120-123) -/
def posBiasZ (a : AteResult K R) : Except Err K := npMean (a.posDev.map V3.z)
/-- `rot_ate` (ate_result.py:279-284) -/
def rotAte (E : EvalLib K) (L : RotLib K R) (a : AteResult K R) : Except Err K :=
  npMean (a.rotDevComb E L)

/-- `rot_dev_std` (ate_result.py:272-277) -/
def rotDevStd (E : EvalLib K) (L : RotLib K R) (a : AteResult K R) : Except Err K :=
  npStd E (a.rotDevComb E L)
/-- `rot_dev_median` (ate_result.py:286-291) -/
def rotDevMedian (E : EvalLib K) (L : RotLib K R) (a : AteResult K R) : Except Err K :=
  npMedian (a.rotDevComb E L)
/-- `rot_dev_min` (ate_result.py:293-298) -/
def rotDevMin (E : EvalLib K) (L : RotLib K R) (a : AteResult K R) : Except Err K :=
  pyMin (a.rotDevComb E L)
/-- `rot_dev_max` (ate_result.py:300-305) -/
def rotDevMax (E : EvalLib K) (L : RotLib K R) (a : AteResult K R) : Except Err K :=
  pyMax (a.rotDevComb E L)
/-- `rot_dev_rms` (ate_result.py:265-270) -/
def rotDevRms (E : EvalLib K) (L : RotLib K R) (a : AteResult K R) : Except Err K :=
  if a.rotDev.isSome then rms E (a.rotDevComb E L) else .ok 0
/-- `pos_bias_along` (ate_result.py:135-138) -/
def posBiasAlong (a : AteResult K R) : Except Err K := npMean (a.directed.map V3.x)
/-- `pos_bias_cross_h` (ate_result.py:125-128) -/
def posBiasCrossH (a : AteResult K R) : Except Err K := npMean (a.directed.map V3.y)
/-- `pos_bias_cross_v` (ate_result.py:130-133) -/
def posBiasCrossV (a : AteResult K R) : Except Err K := npMean (a.directed.map V3.z)

end AteResult

/-! ### `evaluation/rpe_result.py` -/

/-- the numbers of a list in which `none` stands for `nan` or `inf`; no number comes out of a
statistic with such an entry (the code's `np.min`/`np.max` ignore an `inf` on the other side, which
is not modelled) -/
def numbers (l : List (Option K)) : Except Err (List K) :=
  mapE (fun x => match x with
    | some a => .ok a
    | none => .error .valueError) l

namespace RpeResult

/-- `has_rot_dev` (rpe_result.py:45-47) -/
def hasRotDev (r : RpeResult K) : Bool := r.groups.any (fun g => !g.rotDev.isEmpty)

/-- `drift_factor` (rpe_result.py:65-67) -/
def driftFactor (r : RpeResult K) : K := if r.unit = .meter then 100 else 1

/-- `compute_metric` (rpe_result.py:69-70) for the list `sel` of each group -/
def computeMetric (r : RpeResult K) (sel : RpeGroup K → List (Option K))
    (f : List K → Except Err K) (factor : K) : Except Err (List K) :=
  mapE (fun l => do
    let xs ← numbers l
    let y ← f xs
    return y * factor) ((r.groups.map sel).filter (fun l => !l.isEmpty))

/-- `len(result)` (rpe_result.py:42-43, deviations.py:24-26) -/
def len (r : RpeResult K) : Nat := (r.groups.map (fun g => g.pairDist.length)).sum

/-- `num_pairs` (rpe_result.py:72-74) -/
def numPairs (r : RpeResult K) : List Nat :=
  ((r.groups.map RpeGroup.pairDist).filter (fun l => !l.isEmpty)).map List.length

/-- `mean_pair_distances` (rpe_result.py:76-78) -/
def meanPairDistances (r : RpeResult K) : Except Err (List K) :=
  r.computeMetric (fun g => g.pairDist.map some) npMean 1

/-- `pos_dev_mean` (rpe_result.py:100-102) -/
def posDevMean (r : RpeResult K) : Except Err (List K) :=
  r.computeMetric RpeGroup.posDev npMean r.driftFactor
/-- `pos_dev_min` (rpe_result.py:104-106) -/
def posDevMin (r : RpeResult K) : Except Err (List K) :=
  r.computeMetric RpeGroup.posDev pyMin r.driftFactor
/-- `pos_dev_max` (rpe_result.py:108-110) -/
def posDevMax (r : RpeResult K) : Except Err (List K) :=
  r.computeMetric RpeGroup.posDev pyMax r.driftFactor
/-- `pos_dev_median` (rpe_result.py:112-114) -/
def posDevMedian (r : RpeResult K) : Except Err (List K) :=
  r.computeMetric RpeGroup.posDev npMedian r.driftFactor
/-- `rot_dev_mean` (rpe_result.py:116-121) -/
def rotDevMean (r : RpeResult K) : Except Err (List K) :=
  if r.hasRotDev then r.computeMetric RpeGroup.rotDev npMean r.driftFactor else .ok []
/-- `pos_rpe` (rpe_result.py:80-82) -/
def posRpe (r : RpeResult K) : Except Err K := do
  let m ← r.posDevMean
  npMean m
/-- `rot_rpe` (rpe_result.py:84-87) -/
def rotRpe (r : RpeResult K) : Except Err K := do
  let m ← r.rotDevMean
  npMean m

end RpeResult

end TC
