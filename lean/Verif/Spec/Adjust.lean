import Verif.Spec.Observations
import Verif.Model.Adjust
import Verif.Proofs.Euler
import Mathlib.Analysis.Calculus.Deriv.Basic
/-!
What the matrices of the adjustment stand for, said with derivatives of the equations.
-/
namespace TC
variable {K : Type} [Field K] [LinearOrder K]

/-- the coordinate with number 0, 1 or 2 -/
def coord (p : V3 K) : Nat → K
  | 0 => p.x
  | 1 => p.y
  | _ => p.z

/-- three neighbouring numbers as a point -/
def pointAt (b : List K) (i : Nat) : V3 K := ⟨b.getD i 0, b.getD (i + 1) 0, b.getD (i + 2) 0⟩

/-- what the numbers of one epoch mean (see `epochNumbers`); what is not there counts as 0 -/
def epochOfNumbers (e : EstSettings) (b : List K) : Epoch K :=
  { source := pointAt b 0
    target := pointAt b 3
    rpy := if e.leverarmEnabled then pointAt b 6 else 0
    speed := if e.timeShiftEnabled then pointAt b (if e.leverarmEnabled then 9 else 6) else 0 }

/-- how far the transformed source position of an epoch is from its target position: the lever arm is turned by
the attitude and added, the time shift adds way, then rotation, scale and translation -/
def misfit (τ : Trig K) (q : Equations.Params K) (o : Epoch K) : V3 K :=
  (q.trans + q.scale • mulV (eulerMat τ q.rot) (o.source + (mulV (eulerMat τ o.rpy) q.lever + q.time • o.speed)))
    - o.target

/-- the equation with number `i`: coordinate `i % 3` of epoch `i / 3` -/
def equation (τ : Trig K) (e : EstSettings) (q : Equations.Params K) (v : List K) (i : Nat) : K :=
  coord (misfit τ q (epochOfNumbers e (block (Obs.perEpoch e) v (i / 3)))) (i % 3)

/-- the numbers of the parameters that are estimated, in their order -/
def estimated (e : EstSettings) : List Nat := (List.range 11).filter (fun j => e.lqParameterFilter.getD j false)

/-- `autograd` is right: the derivative of a function of positional arguments with respect to argument `i` -/
def IsGrad (D : Grad ℝ) : Prop :=
  ∀ (f : List ℝ → ℝ) (i : Nat) (a : List ℝ), i < a.length → D f i a = deriv (fun t => f (a.set i t)) (a.getD i 0)

/-- some number exceeds the threshold at the same place; `none` is exceeded by nothing -/
def TooLarge (ths : List (Option K)) (l : List K) : Prop :=
  ∃ (k : Nat) (d t : K), l[k]? = some d ∧ ths[k]? = some (some t) ∧ t < |d|

/-- no estimated parameter was changed by more than the threshold of that parameter; `l` are the changes of the
estimated parameters -/
def Settled (e : EstSettings) (ths : List (Option K)) (l : List K) : Prop :=
  ∀ (a j : Nat) (d t : K), (estimated e)[a]? = some j → l[a]? = some d → ths[j]? = some (some t) → |d| ≤ t

/-- `A` and `B` hold the derivatives of the equations with respect to the estimated parameters and to the
observations, for parameter values `p` and observations `v` -/
structure Linearised (e : EstSettings) (p v : List ℝ) {m u n : Nat} (A : Matrix (Fin m) (Fin u) ℝ)
    (B : Matrix (Fin m) (Fin n) ℝ) : Prop where
  params : ∀ (i : Fin m) (a : Fin u) (j : Nat), (estimated e)[a.val]? = some j →
    HasDerivAt (fun t => equation realTrig e (Adjust.paramsOf (p.set j t)) v i) (A i a) (p.getD j 0)
  obs : ∀ (i : Fin m) (j : Fin n),
    HasDerivAt (fun t => equation realTrig e (Adjust.paramsOf p) (v.set j t) i) (B i j) (v.getD j 0)

/-- no plane contains all the points -/
def NotCoplanar (E : Nat) (pts : Nat → V3 ℝ) : Prop :=
  ∀ (n : V3 ℝ) (h : ℝ), (∀ k < E, V3.dot n (pts k) = h) → n = 0

end TC
