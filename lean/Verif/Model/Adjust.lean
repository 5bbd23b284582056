import Verif.Model.AdjustMat
/-!
# The iterative adjustment (alignment/estimation.py)

Numbers are exact.  The only "not a number" that is modelled is the one `spsolve` fills its result with if
the matrix is singular: from there on every number of the adjustment is NaN, so a result `none` stands for
it.  `spsolve`, `pinv`, `svd` and `autograd` are parameters.
-/
namespace TC
variable {K : Type} [Field K] [LinearOrder K]
open Matrix

/-- the routines of scipy and numpy that the adjustment calls -/
structure AdjLib (K : Type) where
  /-- `spsolve` with one column on the right; `none` if it fills the result with NaN -/
  solve : ∀ n : Nat, Matrix (Fin n) (Fin n) K → (Fin n → K) → Option (Fin n → K)
  /-- `spsolve` with a sparse right side of several columns -/
  solveMany : ∀ n m : Nat, Matrix (Fin n) (Fin n) K → Matrix (Fin n) (Fin m) K → Except Err (Matrix (Fin n) (Fin m) K)
  /-- `np.linalg.pinv` -/
  pinv : ∀ n : Nat, Matrix (Fin n) (Fin n) K → Matrix (Fin n) (Fin n) K

/-- the values of `delta_params` -/
inductive Upd (K : Type) where
  /-- `np.ones(…) * np.Inf` (estimation.py:291) -/
  | inf
  | nums (l : List K)

/-- all that one adjustment is given: derivatives, functions, routines, settings, observations -/
structure AdjCfg (K : Type) where
  D : Grad K
  τ : Trig K
  lib : AdjLib K
  e : EstSettings
  obs : List K
  /-- `data.thresholds`; `none` is a threshold that is infinite or NaN, which nothing exceeds -/
  thresholds : List (Option K)

/-- the variables of the loop (estimation.py:290-327); `normal` is `a_design.T @ spsolve(bbt, a_design)` for the
last `a_design` and `bbt`, if there are any -/
structure AdjState (K : Type) where
  params : PSet K
  res : List K
  w : List K
  delta : Upd K
  normal : Option (Sigma fun u : Nat => Matrix (Fin u) (Fin u) K)

/-- how a loop ended: the variables (`none`: NaN), `_converged`, the number of iterations -/
structure LoopEnd (α : Type) where
  state : Option α
  converged : Bool
  count : Nat

namespace Adjust
open Equations

/-- `thresholds` (data.py:484-507) -/
def thresholds (nrm : V3 K → K) (metric time : K) (source target : List (V3 K)) : Except Err (List (Option K)) := do
  let dist (l : List (V3 K)) : Except Err K :=
    match l with
    | [] => .error .valueError
    | p :: ps =>
      let hi := ps.foldl (fun a b => ⟨max a.x b.x, max a.y b.y, max a.z b.z⟩) p
      let lo := ps.foldl (fun a b => ⟨min a.x b.x, min a.y b.y, min a.z b.z⟩) p
      .ok (nrm (hi - lo))
  let a ← dist source
  let b ← dist target
  let d := max a b
  let angle := if d = 0 then none else some (metric / d)
  return [some metric, some metric, some metric, angle, angle, angle, angle, some time,
    some metric, some metric, some metric]

/-- `any(abs(value) > threshold for value, threshold in zip(delta_params, thresholds))` (estimation.py:299) -/
def exceeds (ths : List (Option K)) : Upd K → Bool
  | .inf => ths.any (fun t => t.isSome)
  | .nums l => (l.zip ths).any (fun x =>
      match x.2 with
      | some t => decide (|x.1| > t)
      | none => false)

/-- `a[:, mask]` for one row (estimation.py:312) -/
def compress {α : Type} (mask : List Bool) (r : List α) : List α :=
  ((r.zip mask).filter (fun x => x.2)).map (fun x => x.1)

/-- `est_obs_vector` (data.py:175-177) -/
def estObs (obs res : List K) : List K := List.zipWith (fun a b => a + b) obs res

/-- `a_design` after the filter (estimation.py:309-312), as rows -/
def design (c : AdjCfg K) (eps : List (Epoch K)) (q : Params K) : Except Err (List (List K)) := do
  let rows ← designMatrix c.D c.τ eps q
  return rows.map (compress c.e.lqParameterFilter)

/-- `a_design.T @ spsolve(bbt, a_design)` (estimation.py:333, 342, 347): for one column `spsolve` sees a
vector.  `none`: NaN. -/
def normalMat (lib : AdjLib K) {m u : Nat} (A : Matrix (Fin m) (Fin u) K) (bbt : Matrix (Fin m) (Fin m) K) :
    Except Err (Option (Matrix (Fin u) (Fin u) K)) :=
  if u = 1 then
    .ok (if h : 0 < u then (lib.solve m bbt (fun i => A i ⟨0, h⟩)).map (fun x => fun j _ => (Aᵀ *ᵥ x) j) else none)
  else do
    let X ← lib.solveMany m u bbt A
    return some (Aᵀ * X)

/-- `_compute_parameter_deltas` (estimation.py:339-350).  A quotient with denominator 0 is NaN or infinite; the
numerator is then 0 whenever `spsolve` is right, which makes it NaN. -/
def deltas (lib : AdjLib K) {m u : Nat} (w : Fin m → K) (A : Matrix (Fin m) (Fin u) K)
    (bbt : Matrix (Fin m) (Fin m) K) : Except Err (Option (Fin u → K)) := do
  let N ← normalMat lib A bbt
  match N, lib.solve m bbt w with
  | some N, some y =>
    if u = 1 then
      return (if ∃ j, N j j = 0 then none else some (fun j => -((Aᵀ *ᵥ y) j) / N j j))
    else return (lib.solve u N (Aᵀ *ᵥ y)).map (fun x => -x)
  | _, _ => return none

/-- one pass of the loop (estimation.py:309-327); `none`: NaN -/
def step (c : AdjCfg K) (var : List K) (s : AdjState K) : Except Err (Option (AdjState K)) := do
  let eps := epochsOf c.e (estObs c.obs s.res)
  let q := paramsOf s.params.values
  let rows ← design c eps q
  let u := (c.e.lqParameterFilter.filter id).length
  let m := eps.length * 3
  let n := eps.length * Obs.perEpoch c.e
  let A : Matrix (Fin m) (Fin u) K := Direct.toMat m u rows
  let B : Matrix (Fin m) (Fin n) K := condMatrix c.D c.τ c.e eps q
  let S : Matrix (Fin n) (Fin n) K := Matrix.diagonal (Direct.toVec n var)
  let bbt := B * S * Bᵀ
  let N ← normalMat c.lib A bbt
  match N, ← deltas c.lib (Direct.toVec m s.w) A bbt with
  | some N, some δ =>
    match c.lib.solve m bbt (A *ᵥ δ + Direct.toVec m s.w) with
    | none => return none
    | some k =>
      let res := S *ᵥ (Bᵀ *ᵥ (-k))
      let params ← s.params.addValuesEnabled (List.ofFn δ)
      let f ← evalRel c.τ (epochsOf c.e (estObs c.obs (List.ofFn res))) (paramsOf params.values)
      return some
        { params := params
          res := List.ofFn res
          w := List.zipWith (fun a b => a - b) f (List.ofFn (B *ᵥ res))
          delta := .nums (List.ofFn δ)
          normal := some ⟨u, N⟩ }
  | _, _ => return none

/-- the loop of `_estimate_parameters` (estimation.py:296-327), for any test and any pass.  A pass that ends
in NaN makes the test of line 299 false. -/
def loop {α : Type} (test : α → Bool) (pass : α → Except Err (Option α)) (it : Nat) (s : α) :
    Except Err (LoopEnd α) :=
  if test s then
    if it > 15 then .ok ⟨some s, false, it⟩
    else do
      match ← pass s with
      | none => return ⟨none, true, it + 1⟩
      | some t => loop test pass (it + 1) t
  else .ok ⟨some s, true, it⟩
termination_by 16 - it

/-- the variables before the loop (estimation.py:291-294) -/
def start (c : AdjCfg K) (params : PSet K) : Except Err (AdjState K) := do
  let res := Obs.buildRes c.obs
  let w ← evalRel c.τ (epochsOf c.e (estObs c.obs res)) (paramsOf params.values)
  return ⟨params, res, w, .inf, none⟩

/-- `_compute_parameter_variances` (estimation.py:332-337).  `np.reciprocal` and `pinv`; `a_design` and `bbt` of
an adjustment without any pass are unbound. -/
def variances (lib : AdjLib K) (s : AdjState K) : Except Err (PSet K) :=
  match s.normal with
  | none => .error .unboundLocal
  | some ⟨u, N⟩ =>
    let P := if u = 1 then (fun i j => (N i j)⁻¹) else lib.pinv u N
    s.params.setCovariance (List.ofFn (fun i => List.ofFn (P i)))

/-- `_estimate_parameters` (estimation.py:280-330) -/
def estimateOnce (c : AdjCfg K) (var : List K) (params : PSet K) : Except Err (LoopEnd (AdjState K)) := do
  let s ← start c params
  let r ← loop (fun s => exceeds c.thresholds s.delta) (step c var) 0 s
  match r.state with
  | none => return r
  | some t =>
    let p ← variances c.lib t
    return { r with state := some { t with params := p } }

/-- `redundancy` (estimation.py:263-270), an integer -/
def redundancy (c : AdjCfg K) (params : PSet K) : Int := (Obs.numEpochs c.e c.obs * 3 : Nat) - (params.numEnabled : Int)

/-- `variance_factor` (estimation.py:272-276): `none` is NaN, if `sigma_ll` is singular, or if the redundancy is
0 (then the residuals are 0 as well) -/
def varianceFactor (c : AdjCfg K) (var : List K) (s : AdjState K) : Option K :=
  if var.any (fun x => decide (x = 0)) then none
  else if redundancy c s.params = 0 then none
  else some ((List.zipWith (fun r v => r * (r / v)) s.res var).sum / (redundancy c s.params : K))

/-- what the loop over the runs leaves: the last run, the variances, the number of runs -/
structure OuterEnd (K : Type) where
  last : LoopEnd (AdjState K)
  runs : Nat

/-- `var_fac_tol` (estimation.py:222) -/
def varFacTol : K := 1 / 1000

/-- the loop of `estimate_parameters` (estimation.py:224-242), entered with a true condition.  A variance factor
NaN makes the next condition false. -/
def outer (c : AdjCfg K) (varEst : Bool) (cnt : Nat) (var : List K) (params : PSet K) :
    Except Err (OuterEnd K) := do
  let r ← estimateOnce c var params
  match r.state with
  | none => return ⟨r, cnt + 1⟩
  | some s =>
    if !varEst then return ⟨r, cnt + 1⟩
    else
      match varianceFactor c var s with
      | none => return ⟨r, cnt + 1⟩
      | some f =>
        if |f - 1| > varFacTol ∧ cnt + 1 < 5 then outer c varEst (cnt + 1) (var.map (fun x => x * f)) s.params
        else return ⟨r, cnt + 1⟩
termination_by 5 - cnt

/-- what `estimate_parameters` gives back: parameters (`none`: the values of the enabled ones are NaN) and the
property `has_results` afterwards -/
structure EstEnd (K : Type) where
  params : Option (PSet K)
  hasResults : Bool

/-- the routines behind the initial parameters -/
structure InitLib (K : Type) where
  nrm : V3 K → K
  svd : M3 K → M3 K × M3 K
  euler : M3 K → V3 K
  lsq : Solver K

/-- `helmert_init` (estimation.py:163-169) -/
def initHelmert (i : InitLib K) (e : EstSettings) (source target : List (V3 K)) : Except Err (List (Param K)) :=
  if e.helmertEnabled then Direct.helmert i.nrm i.svd i.euler [] source target else .ok Direct.noHelmert

/-- `xyz_init` (estimation.py:165, 168) -/
def initXyz (τ : Trig K) (e : EstSettings) (hel : List (Param K)) (source : List (V3 K)) : List (V3 K) :=
  if e.helmertEnabled then source.map (Direct.helmertApplyTo τ hel) else source

/-- `time_shift_init` (estimation.py:172-178) -/
def initTime (i : InitLib K) (e : EstSettings) (init target speed : List (V3 K)) : Except Err (Param K) :=
  if e.timeShiftEnabled && !e.leverarmEnabled then Direct.timeshift i.lsq target init speed
  else .ok (Direct.newParam 0 0 "Time shift" .second)

/-- `leverarm_init`, with the time shift (estimation.py:182-190) -/
def initLever (i : InitLib K) (τ : Trig K) (e : EstSettings) (init target rpy speed : List (V3 K)) (time : Param K) :
    Except Err (List (Param K) × Param K) :=
  if e.leverarmEnabled then
    Direct.leverarm τ i.lsq target init rpy (if e.timeShiftEnabled then some speed else none)
  else .ok (Direct.noLeverarm, time)

/-- `init_parameters` (estimation.py:149-209) -/
def initParameters (i : InitLib K) (τ : Trig K) (e : EstSettings) (obs : List K) : Except Err (PSet K) := do
  let source := Obs.points e obs .xyzFrom
  let target := Obs.points e obs .xyzTo
  let hel ← initHelmert i e source target
  let init := initXyz τ e hel source
  let time ← initTime i e init target (Obs.points e obs .speed)
  let lt ← initLever i τ e init target (Obs.points e obs .rpy) (Obs.points e obs .speed) time
  let s ← PSet.postInit { cov := [], params := hel ++ [lt.2] ++ lt.1 }
  return AlignParams.applySettings s e

/-- the constructor and `estimate_parameters` (estimation.py:117-144, 211-250) -/
def estimate (i : InitLib K) (c : AdjCfg K) (varEst : Bool) (var : List K) : Except Err (EstEnd K) := do
  let init ← initParameters i c.τ c.e c.obs
  if c.e.allLqDisabled then return ⟨some AlignParams.new, false⟩
  else
    let r ← outer c varEst 0 var init
    if !r.last.converged then
      let p ← initParameters i c.τ c.e c.obs
      return ⟨some p, false⟩
    else return ⟨r.last.state.map (fun s => s.params), true⟩

end Adjust
end TC
