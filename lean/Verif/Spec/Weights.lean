import Verif.Model.Adjust
import Verif.Model.Metrics
/-!
# What the size of the standard deviations changes in an alignment (C181)
-/
namespace TC
variable {K : Type} [Field K] [LinearOrder K]
open Matrix

/-- the routines of scipy and numpy treat multiples of a matrix as exact arithmetic does -/
structure ScaleFree (lib : AdjLib K) : Prop where
  left : ∀ (c : K) (n : Nat) (M : Matrix (Fin n) (Fin n) K) (b : Fin n → K), 0 < c →
    lib.solve n (c • M) b = (lib.solve n M b).map (fun x => c⁻¹ • x)
  right : ∀ (c : K) (n : Nat) (M : Matrix (Fin n) (Fin n) K) (b : Fin n → K), 0 < c →
    lib.solve n M (c • b) = (lib.solve n M b).map (fun x => c • x)
  many : ∀ (c : K) (n m : Nat) (M : Matrix (Fin n) (Fin n) K) (B : Matrix (Fin n) (Fin m) K), 0 < c →
    lib.solveMany n m (c • M) B = (lib.solveMany n m M B).map (fun X => c⁻¹ • X)
  pinv : ∀ (c : K) (n : Nat) (M : Matrix (Fin n) (Fin n) K), 0 < c → lib.pinv n (c • M) = c⁻¹ • lib.pinv n M

/-- the same parameters with the same values; variances and covariances are multiplied by `c` -/
structure Widened (c : K) (p p' : PSet K) : Prop where
  values : p'.values = p.values
  variances : p'.variances = p.variances.map (fun v => c * v)
  cov : p'.cov = p.cov.map (fun row => row.map (fun x => c * x))
  enabled : p'.enabledBoolList = p.enabledBoolList
  names : p'.params.map (fun a => (a.name, a.unit)) = p.params.map (fun a => (a.name, a.unit))

/-- both raise the same exception, or both results are related -/
inductive Both {α : Type} (R : α → α → Prop) : Except Err α → Except Err α → Prop
  | error (e : Err) : Both R (.error e) (.error e)
  | ok {a b : α} : R a b → Both R (.ok a) (.ok b)

/-- both are NaN, or none is -/
inductive BothSome {α : Type} (R : α → α → Prop) : Option α → Option α → Prop
  | none : BothSome R none none
  | some {a b : α} : R a b → BothSome R (some a) (some b)

/-- `f` is the factor by which the first run of the estimation would correct the variances -/
def FirstFactor (i : Adjust.InitLib K) (cf : AdjCfg K) (var : List K) (f : K) : Prop :=
  ∃ init r s, Adjust.initParameters i cf.τ cf.e cf.obs = .ok init ∧ cf.e.allLqDisabled = false ∧
    Adjust.estimateOnce cf var init = .ok r ∧ r.state = some s ∧ Adjust.varianceFactor cf var s = some f

/-- the standard deviations, all multiplied by `k` -/
def Stochastics.times (k : K) (s : Stochastics K) : Stochastics K :=
  { s with
    stdXyFrom := k * s.stdXyFrom
    stdZFrom := k * s.stdZFrom
    stdXyTo := k * s.stdXyTo
    stdZTo := k * s.stdZTo
    stdRollPitch := k * s.stdRollPitch
    stdYaw := k * s.stdYaw
    stdSpeed := k * s.stdSpeed }

/-- the settings with these standard deviations -/
def AlignSettings.times (k : K) (s : AlignSettings K) : AlignSettings K := { s with stoch := s.stoch.times k }

/-- two alignments that differ in the variances and covariances of the parameters only, by the factor `c`, if the adjustment
converged -/
structure SameUpToWeights (c : K) (a a' : AlignResult K) : Prop where
  name : a'.name = a.name
  rotation : a'.rotation = a.rotation
  estimationOf : a'.estimationOf = a.estimationOf
  converged : a'.converged = a.converged
  values : a'.position.values = a.position.values
  widened : a.converged = true → Widened c a.position a'.position
  otherwise : a.converged = false → a'.position = a.position

end TC
