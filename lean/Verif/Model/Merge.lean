import Verif.Model.Traj
/-!
# `trajectopy_core/merging.py`
-/
namespace TC
variable {K R : Type} [Field K] [LinearOrder K]

/-- the rows one trajectory contributes to `merged_quat` (merging.py:46-49): its rotations, or as
many identities as it has positions.  scipy (1.13) rejects `identity(0)` with `ValueError`. -/
def mergeQuat (L : RotLib K R) (T : Traj K R) : Except Err (List R) :=
  match T.hasOrientation, T.rot with
  | true, some r => .ok r
  | _, _ => if T.len = 0 then .error .valueError else .ok (List.replicate T.len L.one)

/-- the list comprehension in merging.py:47 -/
def mergeQuats (L : RotLib K R) : List (Traj K R) → Except Err (List R)
  | [] => .ok []
  | T :: Ts => do
    let q ← mergeQuat L T
    let qs ← mergeQuats L Ts
    return q ++ qs

/-- `merge_trajectories` (merging.py:20-61).  `pop` picks an element of the set of EPSG codes
(`set.pop`, line 43, raises `KeyError` for the empty set); different codes only cause a warning.
`counter` is the class variable of `Trajectory`, not used because a name is given. -/
def mergeTrajectories (L : RotLib K R) (nrm : V3 K → K) (argsort : List K → List Nat)
    (pop : List Int → Int) (Ts : List (Traj K R)) : Except Err (Traj K R) := do
  if Ts.length = 0 then throw Err.keyError
  let epsg := pop (Ts.map Traj.epsg)
  let xyz := Ts.flatMap Traj.pos
  let quat ← mergeQuats L Ts
  let stamps := Ts.flatMap Traj.tstamps
  let merged ← Traj.new nrm 0
    { pos := xyz
      epsg := epsg
      rot := if Ts.any Traj.hasOrientation then some quat else none
      tstamps := some stamps
      name := "Merged" }
  match Traj.applyIndex (.ints ((argsort merged.tstamps).map (fun i : Nat => (i : Int)))) merged with
  | (.ok _, T) => return T
  | (.error e, _) => throw e

end TC
