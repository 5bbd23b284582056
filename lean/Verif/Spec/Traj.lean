import Verif.Model.Traj
/-!
# Specification vocabulary for trajectories

What a user sees of a trajectory: a list of samples.
-/
namespace TC

/-- One sample of a trajectory: time, position, orientation (if any), arc length, speed. -/
structure Sample (K R : Type) where
  t : K
  p : V3 K
  r : Option R
  l : K
  v : V3 K
  deriving DecidableEq

/-- The orientations, one optional entry per sample. -/
def rotColumn {R : Type} (n : Nat) : Option (List R) → List (Option R)
  | none => List.replicate n none
  | some r => r.map some

/-- The samples of a trajectory, in stored order. -/
def samples {K R : Type} (T : Traj K R) : List (Sample K R) :=
  (T.tstamps.zip (T.pos.zip ((rotColumn T.tstamps.length T.rot).zip (T.arc.zip T.speed)))).map
    (fun s => ⟨s.1, s.2.1, s.2.2.1, s.2.2.2.1, s.2.2.2.2⟩)

/-- Every channel has one entry per timestamp. -/
structure Coherent {K R : Type} (T : Traj K R) : Prop where
  pos : T.pos.length = T.tstamps.length
  arc : T.arc.length = T.tstamps.length
  speed : T.speed.length = T.tstamps.length
  rot : ∀ r, T.rot = some r → r.length = T.tstamps.length

/-- The attributes that are not per-sample are the same, and orientations are present in both or
in neither. -/
structure SameMeta {K R : Type} (T T' : Traj K R) : Prop where
  name : T'.name = T.name
  sorting : T'.sorting = T.sorting
  epsg : T'.epsg = T.epsg
  rot : T'.rot.isSome = T.rot.isSome

/-- The call returned normally and left the trajectory in state `T'`. -/
def Returns {σ α : Type} (m : SE σ α) (s : σ) (a : α) (s' : σ) : Prop := m s = (.ok a, s')

/-- The call raised `e` and left the trajectory in state `T'`. -/
def Raises {σ α : Type} (m : SE σ α) (s : σ) (e : Err) (s' : σ) : Prop := m s = (.error e, s')

end TC
