import Verif.Model.Geo
import Verif.Model.TrajIO
import Verif.Spec.Traj
/-!
# What geographic output means, independently of how it is produced
-/
namespace TC
namespace Geo
variable {K R : Type} [Field K] [LinearOrder K]

/-- what a reader of the `coordinates` element sees: lines of comma separated numbers -/
def readCoordinates (text : Str) : List (List (Except Err K)) :=
  (pySplitOn '\n' text).map (fun line => (pySplitOn ',' line).map cellVal)

/-- the row shows longitude, latitude, height 0 of a position with nine decimals -/
def ShowsPosition (latlon : K × K) (row : List (Except Err K)) : Prop :=
  ∃ lon lat, row = [.ok lon, .ok lat, .ok 0] ∧ |lon - latlon.2| ≤ 1 / (2 * 10 ^ 9) ∧ |lat - latlon.1| ≤ 1 / (2 * 10 ^ 9)

/-- latitude and longitude of the positions of `T`, rounded -/
def roundedLatLon (conv : Int → V3 K → V3 K) (rnd : V3 K → V3 K) (T : Traj K R) : List (K × K) :=
  T.pos.map (fun p => ((rnd (conv T.epsg p)).x, (rnd (conv T.epsg p)).y))

/-- the trajectory in geographic coordinates -/
def inWgs84 (conv : Int → V3 K → V3 K) (T : Traj K R) : Traj K R :=
  { T with pos := T.pos.map (conv T.epsg), epsg := 4326 }

/-- the map shows every trajectory at its latitudes and longitudes and is centred at their mean; `T r` are the
trajectories, `conv r` their conversions -/
def ShowsMap (refs : List Nat) (conv : Nat → Int → V3 K → V3 K) (T : Nat → Traj K R) (fig : MapFigure K) : Prop :=
  let latlon := fun r => (T r).pos.map (fun p => ((conv r (T r).epsg p).x, (conv r (T r).epsg p).y))
  fig.traces = refs.map (fun r => ((T r).name, (latlon r).map Prod.fst, (latlon r).map Prod.snd)) ∧
  fig.centre = (((refs.flatMap latlon).map Prod.fst).sum / (refs.flatMap latlon).length,
                ((refs.flatMap latlon).map Prod.snd).sum / (refs.flatMap latlon).length)

end Geo
end TC
