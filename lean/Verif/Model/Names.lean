import Verif.Model.Traj
/-!
# Constructing trajectories one after the other
-/
namespace TC
variable {K R : Type} [Field K] [LinearOrder K]

/-- `Trajectory(...)` as a statement: the class variable `_counter` is increased at the end, after everything that may
raise (trajectory.py:79-81) -/
def Traj.construct (nrm : V3 K → K) (a : TrajArgs K R) : SE Nat (Traj K R) := fun counter =>
  match Traj.new nrm counter a with
  | .ok T => (.ok T, counter + 1)
  | .error e => (.error e, counter)

/-- a program that constructs trajectories one after the other and catches the exceptions; the class variable
`_counter` (trajectory.py:45) is shared by all of them -/
def Traj.session (nrm : V3 K → K) : List (TrajArgs K R) → Nat → List (Except Err (Traj K R))
  | [], _ => []
  | a :: rest, counter => (Traj.construct nrm a counter).1 :: Traj.session nrm rest (Traj.construct nrm a counter).2

end TC
