import Verif.Model.Heap
import Verif.Model.Text
import Verif.Model.Round
/-!
# Geographic output: `kml.py` and the map of `plotting/plotly/scatter_plots.py`

The coordinate conversions of the pointset library are parameters: `conv e p` are the coordinates in EPSG 4326 of the
point with coordinates `p` in the system with code `e`, `rnd` is `PointSet.round_to`.  A trajectory has a transformer
(`some conv`) or none.  Simplified: of the KML file the text of the elements that depend on the trajectory is modelled;
of the figure its data.
-/
namespace TC
namespace Geo
variable {K R : Type} [Field K] [LinearOrder K]

/-- the coordinate conversion of a point set (`local_transformer`), `none` without -/
abbrev Transformer (K : Type) := Option (Int → V3 K → V3 K)

/-- `PointSet.to_epsg(4326)` (kml.py:27, plotting/plotly/scatter_plots.py:41): converts the point set itself -/
def toWgs84 (conv : Int → V3 K → V3 K) : SE (Traj K R) Unit :=
  SE.modify (fun T => { T with pos := T.pos.map (conv T.epsg), epsg := 4326 })

/-- the contents of the elements `name` and `coordinates` (kml.py:36-50) -/
structure KmlDoc where
  name : String
  coordinates : Str
  deriving DecidableEq

/-- one line of the coordinates (kml.py:50) -/
def kmlLine [FloorRing K] (p : V3 K) : Str :=
  [' ', ' '] ++ fmtFixed 9 p.y ++ ',' :: fmtFixed 9 p.x ++ ',' :: fmtFixed 3 (0 : K)

/-- `create_kml` (kml.py:14-54) -/
def createKml [FloorRing K] (tr : Transformer K) (rnd : K → V3 K → V3 K) (precision : K) : SE (Traj K R) KmlDoc := do
  match tr with
  | none => SE.raise .valueError
  | some conv =>
    toWgs84 conv
    SE.modify (fun T => { T with pos := T.pos.map (rnd precision) })
    let T ← SE.get
    let indices := firstIndices (T.pos.map (fun p => (p.x, p.y)))
    Traj.applyIndex (.ints (indices.map (fun i : Nat => (i : Int))))
    let T ← SE.get
    return { name := T.name, coordinates := pyJoin ['\n'] (T.pos.map kmlLine) }

/-- `axes.index(ax_char)` (plotting/plotly/scatter_plots.py:28-29) -/
def axisIndex (c : Char) : Except Err Nat :=
  if c = 'x' then .ok 0 else if c = 'y' then .ok 1 else if c = 'z' then .ok 2 else .error .valueError

/-- `pos[:, axis]` (plotting/plotly/scatter_plots.py:53-54) -/
def coordinate (axis : Nat) (p : V3 K) : K := if axis = 0 then p.x else if axis = 1 then p.y else p.z

/-- the data of the map: its centre and, per trajectory, the name, latitudes and longitudes -/
structure MapFigure (K : Type) where
  centre : K × K
  traces : List (String × List K × List K)
  deriving DecidableEq

/-- the conversion of all trajectories (plotting/plotly/scatter_plots.py:40-41) -/
def convertAll : List (Nat × (Int → V3 K → V3 K)) → SE (Heap K R) Unit
  | [] => pure ()
  | (r, conv) :: rs => do
    onRef r (toWgs84 conv)
    convertAll rs

/-- the current positions and names (plotting/plotly/scatter_plots.py:48-60) -/
def readAll : List Nat → SE (Heap K R) (List (String × List (V3 K)))
  | [] => pure []
  | r :: rs => do
    let T ← rd r
    let Ts ← readAll rs
    return (T.name, T.pos) :: Ts

/-- `render_trajectories_mapbox` (plotting/plotly/scatter_plots.py:32-85): `none` is the empty result; no trajectories
at all make `np.row_stack` raise `ValueError`.  `np.mean` of no positions is NaN (here 0) -/
def renderMap (axisOrder : Str) (trajs : List (Nat × Transformer K)) : SE (Heap K R) (Option (MapFigure K)) := do
  let plotable := trajs.filterMap (fun s => s.2.map (fun conv => (s.1, conv)))
  if plotable.length ≠ trajs.length then return none
  convertAll plotable
  let axes ← SE.lift (mapE axisIndex axisOrder)
  let data ← readAll (plotable.map (fun s => s.1))
  if data = [] then SE.raise .valueError
  let all := (data.map (fun d => d.2)).flatten
  let mean (f : V3 K → K) : K := (all.map f).sum / all.length
  match axes with
  | a :: b :: _ => return some { centre := (mean (fun p => p.x), mean (fun p => p.y)),
                                 traces := data.map (fun d => (d.1, d.2.map (coordinate a), d.2.map (coordinate b))) }
  | _ => SE.raise .indexError

end Geo
end TC
