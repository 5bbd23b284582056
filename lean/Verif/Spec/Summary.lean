import Verif.Model.Summary
import Verif.Spec.Compare
/-!
# What the summary of an absolute error says (C159)
-/
namespace TC
variable {K R : Type} [Field K] [LinearOrder K]

/-- under `key` stands a number with four decimals that is at most half a unit of the last one away from `x` -/
def SaysNumber (d : List (Str × Str)) (key : String) (x : K) : Prop :=
  ∃ (text : Str) (y : K) (n : ℤ), look d key.toList = some text ∧ parseNum text = some y ∧ y = n / 10000 ∧ |y - x| ≤ 1 / 20000

/-- the mean of numbers -/
def IsMean (l : List K) (m : K) : Prop := m * (l.length : K) = l.sum

/-- the root of the mean square of numbers -/
def IsRms (l : List K) (r : K) : Prop := 0 ≤ r ∧ r ^ 2 * (l.length : K) = (l.map (fun x => x ^ 2)).sum

/-- the summary names `bias` and `rms` of numbers -/
def SaysColumn (d : List (Str × Str)) (bias rms : String) (l : List K) : Prop :=
  ∃ b r, SaysNumber d bias b ∧ SaysNumber d rms r ∧ IsMean l b ∧ IsRms l r

/-- the lines about rotations -/
def rotationKeys : List String :=
  ["Maximum rotation deviation [°]", "Mean rotation deviation [°]", "Median rotation deviation [°]",
   "Minimum rotation deviation [°]", "RMS Rotation [°]", "STD Rotation [°]", "RMS Roll [°]", "RMS Pitch [°]", "RMS Yaw [°]",
   "Bias Roll [°]", "Bias Pitch [°]", "Bias Yaw [°]"]

end TC
