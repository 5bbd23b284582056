import Verif.Model.Traj
/-!
# Speeds that belong to positions: specification for C188
-/
namespace TC
variable {K R : Type} [Field K] [LinearOrder K]

/-- one speed per position; every speed but the last leads from its position to the next one in the time between them -/
structure IsSpeed (pos : List (V3 K)) (tstamps : List K) (speed : List (V3 K)) : Prop where
  length : speed.length = pos.length
  leads : ∀ (i : Nat) p p' t t', pos[i]? = some p → pos[i + 1]? = some p' → tstamps[i]? = some t → tstamps[i + 1]? = some t' →
    t ≠ t' → ∃ v, speed[i]? = some v ∧ p + (t' - t) • v = p'

end TC
