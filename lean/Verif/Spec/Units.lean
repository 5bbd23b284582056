import Verif.Model.Metrics
/-!
# Another unit of length: specification for C178
-/
namespace TC
variable {K R : Type} [Field K] [LinearOrder K]

/-- the same trajectory with lengths in another unit, of which there are `c` in the old one: positions, arc lengths and
speeds are multiplied, times and orientations are not -/
def Traj.rescaled (c : K) (T : Traj K R) : Traj K R :=
  { T with pos := T.pos.map (fun p => c • p), arc := T.arc.map (fun l => c * l), speed := T.speed.map (fun v => c • v) }

/-- the arguments of the constructor in the other unit -/
def TrajArgs.rescaled (c : K) (a : TrajArgs K R) : TrajArgs K R :=
  { a with
    pos := a.pos.map (fun p => c • p)
    arc := a.arc.map (List.map (fun l => c * l))
    speed := a.speed.map (List.map (fun v => c • v)) }

/-- the same deviations in the other unit; deviations of orientations have no unit of length -/
def AteResult.rescaled (c : K) (r : AteResult K R) : AteResult K R :=
  { r with
    trajectory := r.trajectory.rescaled c
    posDev := r.posDev.map (fun v => c • v)
    directed := r.directed.map (fun v => c • v) }

/-- the settings of a relative comparison in the other unit: distances between two poses are lengths only if they are
measured along the trajectory -/
def RpeSettings.rescaled (c : K) (s : RpeSettings K) : RpeSettings K :=
  match s.unit with
  | .meter => { s with minDist := c * s.minDist, maxDist := c * s.maxDist, step := c * s.step }
  | _ => s

/-- the same relative errors in the other unit.  For distances along the trajectory: errors of positions are ratios of
lengths and stay, errors of orientations are angles per length.  For differences of time: errors of positions are lengths
per time, errors of orientations are angles per time. -/
def RpeResult.rescaled (c : K) (r : RpeResult K) : RpeResult K :=
  match r.unit with
  | .meter => { r with
      groups := r.groups.map (fun g => { g with
        key := c * g.key
        rotDev := g.rotDev.map (Option.map (fun x => x / c))
        pairDist := g.pairDist.map (fun x => c * x) }) }
  | _ => { r with groups := r.groups.map (fun g => { g with posDev := g.posDev.map (Option.map (fun x => c * x)) }) }

/-- A search for the nearest position finds the same ones in all units. -/
def UnitFree (query : KdQuery K (V3 K)) : Prop := ∀ (c : K), 0 < c → ∀ ref bound test,
  query (ref.map (fun p => c • p)) (Option.map (fun b => c * b) bound) (test.map (fun p => c • p)) = query ref bound test

/-- the settings of a matching in the other unit -/
def MatchingSettings.rescaled (c : K) (s : MatchingSettings K) : MatchingSettings K :=
  { s with maxDistance := c * s.maxDistance }

/-- the settings of an evaluation in the other unit (those of the alignment are not used for relative errors) -/
def ProcSettings.rescaled (c : K) (s : ProcSettings K) : ProcSettings K :=
  { s with matching := s.matching.rescaled c, relative := s.relative.rescaled c }

/-- the arguments of a call in the other unit: the shift of a transformation, translation and lever arm of an alignment -/
def H.Call.rescaled (c : K) : H.Call K R → H.Call K R
  | .applyTransformation A => .applyTransformation (Matrix.of fun i j => if i < 3 ∧ j = 3 then c * A i j else A i j)
  | .applyAlignment q sensor => .applyAlignment { q with trans := c • q.trans, lever := c • q.lever } sensor
  | f => f

end TC
