import Verif.Spec.Traj
import Verif.Model.Metrics
/-!
# Specification: the samples used for an alignment
-/
namespace TC
variable {K R : Type} [Field K] [LinearOrder K]

/-- `T'` is `T` without the samples that do not satisfy `p` -/
structure Restricted (p : Sample K R → Prop) [DecidablePred p] (T T' : Traj K R) : Prop where
  samples : samples T' = (samples T).filter (fun x => decide (p x))
  same : SameMeta T T'
  coherent : Coherent T'

/-- the sample is not slower than the smallest speed asked for -/
def Fast (nrm : V3 K → K) (s : AlignSettings K) (x : Sample K R) : Prop := s.minSpeed ≤ nrm x.v

/-- the sample lies in the time span asked for, if there is one, counted from `t0` -/
def InTimeSpan (s : AlignSettings K) (t0 : K) (x : Sample K R) : Prop :=
  s.timeStart = 0 ∧ s.timeEnd = 0 ∨ t0 + s.timeStart ≤ x.t ∧ x.t ≤ t0 + s.timeEnd

instance (nrm : V3 K → K) (s : AlignSettings K) : DecidablePred (Fast (R := R) nrm s) := fun x =>
  inferInstanceAs (Decidable (s.minSpeed ≤ nrm x.v))

instance (s : AlignSettings K) (t0 : K) : DecidablePred (InTimeSpan (R := R) s t0) := fun x =>
  inferInstanceAs (Decidable (s.timeStart = 0 ∧ s.timeEnd = 0 ∨ t0 + s.timeStart ≤ x.t ∧ x.t ≤ t0 + s.timeEnd))

/-- the same settings without preprocessing -/
def AlignSettings.unfiltered (s : AlignSettings K) : AlignSettings K :=
  { s with minSpeed := 0, timeStart := 0, timeEnd := 0 }

end TC
