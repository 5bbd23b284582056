import Verif.Model.Adjust
import Verif.Model.Match
import Verif.Model.Eval
import Verif.Model.ParamsIO
/-!
# The whole evaluation: `AlignmentData`, `estimate_alignment`, `ate`, `rpe`

All trajectories are objects in the heap.  A NaN that comes out of the adjustment is `none`: what scipy does with
it afterwards is not described.
-/
namespace TC
variable {K R : Type} [Field K] [LinearOrder K]

/-- `AlignmentSettings` (settings/alignment.py:262-290) with `AlignmentPreprocessing` (settings/alignment.py:19-25) -/
structure AlignSettings (K : Type) where
  minSpeed : K
  timeStart : K
  timeEnd : K
  est : EstSettings
  stoch : Stochastics K
  metricThreshold : K
  timeThreshold : K

/-- `ProcessingSettings` (settings/processing.py:18-26) as far as `ate` and `rpe` read it -/
structure ProcSettings (K : Type) where
  align : AlignSettings K
  matching : MatchingSettings K
  relative : RpeSettings K

/-- library routines used by the evaluation -/
structure MetricLib (K R : Type) where
  mat : MatchLib K R
  trig : Trig K
  toEuler : R → V3 K
  fromEuler : V3 K → R
  mean : List R → Except Err R
  grad : Grad K
  adj : AdjLib K
  init : Adjust.InitLib K
  eval : EvalLib K

/-- `AlignmentData` (alignment/data.py:33-98) after its construction: the two copies and the vectors -/
structure AlignData (K : Type) where
  source : Nat
  target : Nat
  obs : List K
  var : List K

namespace H

/-- one of the two filters by speed (alignment/data.py:57-58) -/
def speedFilter (nrm : V3 K → K) (r : Nat) (minSpeed : K) : SE (Heap K R) Unit := do
  let o ← rd r
  let _ ← applyIndex r (.mask (o.speed.map (fun v => decide (minSpeed ≤ nrm v)))) true
  return ()

/-- the selection of a time span (alignment/data.py:60-69) -/
def timeFilter (s : AlignSettings K) (f t : Nat) : SE (Heap K R) Unit :=
  if s.timeStart ≠ 0 ∨ s.timeEnd ≠ 0 then do
    let o ← rd f
    let t0 ← SE.lift (npGet o.tstamps 0)
    let _ ← crop t (t0 + s.timeStart) (t0 + s.timeEnd) false true
    let _ ← crop f (t0 + s.timeStart) (t0 + s.timeEnd) false true
    return ()
  else return ()

/-- `AlignmentData.setup` (alignment/data.py:49-98).  What `match_trajectories` returns is not used. -/
def setup (lib : MetricLib K R) (counter : Nat) (s : AlignSettings K) (ms : MatchingSettings K) (f t : Nat) :
    SE (Heap K R) (List K × List K) := do
  speedFilter lib.mat.nrm t s.minSpeed
  speedFilter lib.mat.nrm f s.minSpeed
  timeFilter s f t
  let o ← rd f
  let p ← rd t
  if o.pos.length = 0 ∨ p.pos.length = 0 then SE.raise Err.valueError
  let _ ← matchTrajectories lib.mat counter f t ms true
  let o ← rd f
  let p ← rd t
  let _ ← SE.lift (pyLast o.tstamps)
  let obs ← SE.lift (Obs.build s.est o.tstamps o.pos p.pos (o.rot.map (fun r => r.map lib.toEuler)) (some o.speed))
  let obs ← SE.lift (Obs.checkLength s.est obs)
  let var ← SE.lift (Obs.buildVar s.est s.stoch obs)
  let var ← SE.lift (Obs.checkLength s.est var)
  return (obs, var)

/-- `AlignmentData(...)` (alignment/data.py:42-47): both trajectories are copied -/
def alignData (lib : MetricLib K R) (counter : Nat) (s : AlignSettings K) (ms : MatchingSettings K) (f t : Nat) :
    SE (Heap K R) (AlignData K) := do
  let f' ← copyRef f
  let t' ← copyRef t
  let v ← setup lib counter s ms f' t'
  return ⟨f', t', v.1, v.2⟩

/-- `AlignmentEstimation(data).estimate_parameters()` (alignment/estimation.py:76-77).  The thresholds
(alignment/data.py:484-507) are computed first and not at the first use; there is at least one epoch, so this
raises nothing. -/
def runEstimation (lib : MetricLib K R) (s : AlignSettings K) (d : AlignData K) : Except Err (Adjust.EstEnd K) := do
  let ths ← Adjust.thresholds lib.mat.nrm s.metricThreshold s.timeThreshold (Obs.points s.est d.obs .xyzFrom)
    (Obs.points s.est d.obs .xyzTo)
  Adjust.estimate lib.init ⟨lib.grad, lib.trig, lib.adj, s.est, d.obs, ths⟩ s.stoch.varianceEstimation d.var

/-- the sensor rotation (alignment/estimation.py:79-91) -/
def sensorRotation (lib : MetricLib K R) (s : AlignSettings K) (d : AlignData K) (p : PSet K) :
    SE (Heap K R) (PSet K) := do
  let o ← rd d.source
  let q ← rd d.target
  match o.rot, q.rot, s.est.sensorRotation with
  | some _, some rt, true => do
    let pre ← applyTransformation lib.mat.rot d.source (sim3Matrix lib.trig (Adjust.paramsOf p.values)) false
    let o ← rd pre
    match o.rot with
    | some rf => do
      let ps ← SE.lift (Direct.alignRotations lib.mat.rot lib.mean lib.toEuler rf rt)
      SE.lift (PSet.postInit { cov := [], params := ps })
    | none => SE.raise Err.attributeError
  | _, _, _ => return { SensorParams.new with enabled := false }

/-- `estimate_alignment` (alignment/estimation.py:42-99) -/
def estimateAlignment (lib : MetricLib K R) (counter : Nat) (s : AlignSettings K) (ms : MatchingSettings K)
    (f t : Nat) : SE (Heap K R) (Option (AlignResult K)) := do
  let d ← alignData lib counter s ms f t
  let e ← SE.lift (runEstimation lib s d)
  match e.params with
  | none => return none
  | some p => do
    let q ← sensorRotation lib s d p
    let o ← rd d.source
    let u ← rd d.target
    return some { name := o.name ++ " to " ++ u.name, position := p, rotation := q, estimationOf := s.est,
                  converged := e.hasResults }

/-- `SensorRotationParameters.rotation_set` (alignment/parameters.py:603-609) -/
def sensorOf (lib : MetricLib K R) (a : AlignResult K) : R :=
  lib.fromEuler ⟨a.rotation.values.getD 0 0, a.rotation.values.getD 1 0, a.rotation.values.getD 2 0⟩

/-- `ate` (evaluation/metrics.py:13-46), with the alignment.  What `match_trajectories` returns is not used. -/
def ate (lib : MetricLib K R) (counter : Nat) (s : ProcSettings K) (gt est : Nat) :
    SE (Heap K R) (Option (AteResult K R × AlignResult K)) := do
  let _ ← matchTrajectories lib.mat counter est gt s.matching true
  let al ← estimateAlignment lib counter s.align s.matching est gt
  match al with
  | none => return none
  | some a => do
    let t ← applyAlignment lib.mat.rot lib.trig lib.toEuler est (Adjust.paramsOf a.position.values) (sensorOf lib a) false
    let o ← rd t
    let u ← rd gt
    let r ← SE.lift (compareAbsolute lib.eval lib.mat.rot o u)
    return some (r, a)

/-- `rpe` (evaluation/metrics.py:49-55) -/
def rpe [FloorRing K] (lib : MetricLib K R) (counter : Nat) (s : ProcSettings K) (gt est : Nat) :
    SE (Heap K R) (RpeResult K) := do
  let _ ← matchTrajectories lib.mat counter est gt s.matching true
  let o ← rd est
  let u ← rd gt
  SE.lift (compareRelative lib.eval lib.mat.rot o u s.relative)

end H
end TC
