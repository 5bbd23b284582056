import Verif.Model.Metrics
/-!
# Another origin of the time scale: specification for C176
-/
namespace TC
variable {K R : Type} [Field K] [LinearOrder K]

/-- the same trajectory with all its times counted from another origin (seconds of the week instead of seconds since
1970, say) -/
def Traj.later (d : K) (T : Traj K R) : Traj K R := { T with tstamps := T.tstamps.map (fun t => t + d) }

/-- the same result, of a trajectory with times counted from another origin -/
def AteResult.later (d : K) (r : AteResult K R) : AteResult K R := { r with trajectory := r.trajectory.later d }

/-- A search for the nearest point of time finds the same samples for all origins. -/
def OriginFree (query : KdQuery K K) : Prop := ∀ d ref bound test,
  query (ref.map (fun t => t + d)) bound (test.map (fun t => t + d)) = query ref bound test

/-- the same call with its times counted from another origin -/
def H.Call.later (d : K) : H.Call K R → H.Call K R
  | .crop a b inverse => .crop (a + d) (b + d) inverse
  | .interpolate ts => .interpolate (ts.map (fun t => t + d))
  | .matchTimestamps ts => .matchTimestamps (ts.map (fun t => t + d))
  | .intersect ts g => .intersect (ts.map (fun t => t + d)) g
  | c => c

/-- Sorting numbers gives the same order for all origins. -/
def SortsAlike (argsort : List K → List Nat) : Prop := ∀ (d : K) (l : List K),
  argsort (l.map (fun t => t + d)) = argsort l

/-- Rounding to the nearest integer (to the even one of two, say) commutes with adding an even number. -/
def RoundsAlike (rnd : K → K) : Prop := ∀ (x : K) (k : Int), rnd (x + 2 * (k : K)) = rnd x + 2 * (k : K)

end TC
