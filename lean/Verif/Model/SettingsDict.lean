import Verif.Model.Match
import Verif.Model.Eval
/-!
# Settings as dictionaries: `trajectopy_core/settings/base.py` and the settings classes

Settings objects and dictionaries are values.  Simplified: two settings objects never share a nested settings object.
-/
namespace TC

/-- the settings classes (settings/alignment.py, approximation.py, comparison.py, matching.py, processing.py,
report.py, sorting.py) -/
inductive Cls
  | preprocessing | estimation | stochastics | alignment | matching | comparison | approximation | sorting
  | processing | export | report
  deriving DecidableEq, Repr

/-- The Python values that occur in settings and in JSON data.  `obj` is a settings object: its class and its `__dict__`
in insertion order. -/
inductive PyVal (K : Type)
  | none
  | bool (b : Bool)
  | int (n : Int)
  | float (x : K)
  | str (s : String)
  | method (m : MatchingMethod)
  | unit (u : MUnit)
  | list (l : List (PyVal K))
  | dict (d : List (String × PyVal K))
  | obj (c : Cls) (attrs : List (String × PyVal K))

namespace Settings
variable {K : Type}

/-- `d[key]` for a dictionary with insertion order; `none` if `key not in d` -/
def lookup (d : List (String × PyVal K)) (key : String) : Option (PyVal K) :=
  match d with
  | [] => Option.none
  | (k, v) :: d => if k = key then some v else lookup d key

/-- `d[key] = v`, also `setattr(o, key, v)` on the `__dict__` of `o` -/
def store (d : List (String × PyVal K)) (key : String) (v : PyVal K) : List (String × PyVal K) :=
  match d with
  | [] => [(key, v)]
  | (k, w) :: d => if k = key then (k, v) :: d else (k, w) :: store d key v

/-- `cls.__annotations__`: the attribute names, with the class for attributes whose type is a settings class
(settings/alignment.py:23-25, 35-54, 223-231, 283-287; approximation.py:10-12; comparison.py:46-50; matching.py:25-28;
processing.py:22-26; report.py:15-18, 74-118; sorting.py:14-17) -/
def annotations : Cls → List (String × Option Cls)
  | .preprocessing => ["min_speed", "time_start", "time_end"].map (·, Option.none)
  | .estimation => ["trans_x", "trans_y", "trans_z", "rot_x", "rot_y", "rot_z", "scale", "time_shift", "use_x_speed",
      "use_y_speed", "use_z_speed", "lever_x", "lever_y", "lever_z", "sensor_rotation", "auto_update"].map (·, Option.none)
  | .stochastics => ["std_xy_from", "std_z_from", "std_xy_to", "std_z_to", "std_roll_pitch", "std_yaw", "std_speed",
      "error_probability", "variance_estimation"].map (·, Option.none)
  | .alignment => [("preprocessing", some .preprocessing), ("estimation_settings", some .estimation),
      ("stochastics", some .stochastics), ("metric_threshold", Option.none), ("time_threshold", Option.none)]
  | .matching => ["method", "max_time_diff", "max_distance", "k_nearest"].map (·, Option.none)
  | .comparison => ["pair_min_distance", "pair_max_distance", "pair_distance_step", "pair_distance_unit",
      "use_all_pose_pairs"].map (·, Option.none)
  | .approximation => ["fe_int_size", "fe_min_obs", "rot_approx_win_size"].map (·, Option.none)
  | .sorting => ["discard_missing", "voxel_size", "movement_threshold", "k_nearest"].map (·, Option.none)
  | .processing => [("alignment", some .alignment), ("matching", some .matching),
      ("relative_comparison", some .comparison), ("approximation", some .approximation), ("sorting", some .sorting)]
  | .export => ["format", "height", "width", "scale"].map (·, Option.none)
  | .report => ["single_plot_height", "two_subplots_height", "three_subplots_height", "scatter_max_std",
      "ate_unit_is_mm", "directed_ate", "histogram_opacity", "histogram_bargap", "histogram_barmode",
      "histogram_yaxis_title", "plot_mode", "scatter_mode", "scatter_colorscale", "scatter_axis_order",
      "scatter_marker_size", "scatter_detailed", "scatter_mapbox", "scatter_mapbox_style", "scatter_mapbox_zoom",
      "scatter_mapbox_token", "pos_x_name", "pos_y_name", "pos_z_name", "pos_x_unit", "pos_y_unit", "pos_z_unit",
      "pos_dir_dev_x_name", "pos_dir_dev_y_name", "pos_dir_dev_z_name", "rot_x_name", "rot_y_name", "rot_z_name",
      "rot_unit"].map (·, Option.none) ++
      [("single_plot_export", some .export), ("two_subplots_export", some .export),
       ("three_subplots_export", some .export)]

/-- `MatchingMethod.value`: `auto()` numbers the members from 1 (settings/matching.py:16-20) -/
def methodValue : MatchingMethod → Int
  | .nearestSpatial => 1
  | .nearestTemporal => 2
  | .interpolation => 3
  | .nearestSpatialInterpolated => 4
  | .unknown => 5

/-- `Unit.value` (definitions.py:20-25) -/
def unitValue : MUnit → Int
  | .degree => 1
  | .radian => 2
  | .meter => 3
  | .second => 4
  | .scale => 5
  | .none => 6

/-- `MatchingMethod(value)`: `ValueError` if no member has this value (settings/matching.py:36).  Simplified: a float
or a bool equal to a member value is rejected, Python accepts it. -/
def methodOf : PyVal K → Except Err (PyVal K)
  | .int 1 => .ok (.method .nearestSpatial)
  | .int 2 => .ok (.method .nearestTemporal)
  | .int 3 => .ok (.method .interpolation)
  | .int 4 => .ok (.method .nearestSpatialInterpolated)
  | .int 5 => .ok (.method .unknown)
  | .method m => .ok (.method m)
  | _ => .error .valueError

/-- `Unit(value)` (settings/comparison.py:61); simplified like `methodOf` -/
def unitOf : PyVal K → Except Err (PyVal K)
  | .int 1 => .ok (.unit .degree)
  | .int 2 => .ok (.unit .radian)
  | .int 3 => .ok (.unit .meter)
  | .int 4 => .ok (.unit .second)
  | .int 5 => .ok (.unit .scale)
  | .int 6 => .ok (.unit .none)
  | .unit u => .ok (.unit u)
  | _ => .error .valueError

/-- `value.value`: `AttributeError` for values that are no enumeration members -/
def enumValue : PyVal K → Except Err (PyVal K)
  | .method m => .ok (.int (methodValue m))
  | .unit u => .ok (.int (unitValue u))
  | _ => .error .attributeError

/-- `encoder` (settings/base.py:28-31, matching.py:30-32, comparison.py:52-56) -/
def encoder (c : Cls) (name : String) (v : PyVal K) : Except Err (PyVal K) :=
  match c with
  | .matching => if name = "method" then enumValue v else .ok v
  | .comparison => if name = "pair_distance_unit" then enumValue v else .ok v
  | _ => .ok v

/-- `decoder` (settings/base.py:33-36, matching.py:34-36, comparison.py:58-62) -/
def decoder (c : Cls) (name : String) (v : PyVal K) : Except Err (PyVal K) :=
  match c with
  | .matching => if name = "method" then methodOf v else .ok v
  | .comparison => if name = "pair_distance_unit" then unitOf v else .ok v
  | _ => .ok v

mutual
/-- `Settings.to_dict` (settings/base.py:18-26) on the `__dict__` of an object of class `c` -/
def attrsToDict (c : Cls) : List (String × PyVal K) → Except Err (List (String × PyVal K))
  | [] => .ok []
  | (key, v) :: rest => do
    let e ← valueToDict c key v
    let r ← attrsToDict c rest
    return (key, e) :: r
/-- the body of the loop (settings/base.py:21-24): nested settings are converted themselves, other values encoded -/
def valueToDict (c : Cls) (key : String) : PyVal K → Except Err (PyVal K)
  | .obj c' attrs => do
    let d ← attrsToDict c' attrs
    return .dict d
  | v => encoder c key v
end

/-- `Settings.to_dict` (settings/base.py:18-26) -/
def toDict : PyVal K → Except Err (PyVal K)
  | .obj c attrs => do
    let d ← attrsToDict c attrs
    return .dict d
  | _ => .error .attributeError

/-- how deeply settings are nested in a class; only used to bound the recursion -/
def depth : Cls → Nat
  | .processing => 3
  | .alignment => 2
  | .report => 2
  | _ => 1

section
variable [Field K]

/-- the attributes of `cls()` for the classes without nested settings (settings/base.py:47 and the fields of the
classes); `deg` is `np.deg2rad(1.0)` -/
def leafDefaults (deg : K) : Cls → List (String × PyVal K)
  | .preprocessing => [("min_speed", .float 0), ("time_start", .float 0), ("time_end", .float 0)]
  | .estimation => [("trans_x", .bool true), ("trans_y", .bool true), ("trans_z", .bool true), ("rot_x", .bool true),
      ("rot_y", .bool true), ("rot_z", .bool true), ("scale", .bool false), ("time_shift", .bool false),
      ("use_x_speed", .bool true), ("use_y_speed", .bool true), ("use_z_speed", .bool true), ("lever_x", .bool false),
      ("lever_y", .bool false), ("lever_z", .bool false), ("sensor_rotation", .bool false),
      ("auto_update", .bool false)]
  | .stochastics => [("std_xy_from", .float 1), ("std_z_from", .float 1), ("std_xy_to", .float 1),
      ("std_z_to", .float 1), ("std_roll_pitch", .float deg), ("std_yaw", .float deg), ("std_speed", .float 1),
      ("error_probability", .float (5 / 100)), ("variance_estimation", .bool false)]
  | .matching => [("method", .method .interpolation), ("max_time_diff", .float (1 / 100)), ("max_distance", .float 0),
      ("k_nearest", .int 10)]
  | .comparison => [("pair_min_distance", .float 100), ("pair_max_distance", .float 800),
      ("pair_distance_step", .float 100), ("pair_distance_unit", .unit .meter), ("use_all_pose_pairs", .bool true)]
  | .approximation => [("fe_int_size", .float (15 / 100)), ("fe_min_obs", .int 25),
      ("rot_approx_win_size", .float (15 / 100))]
  | .sorting => [("discard_missing", .bool true), ("voxel_size", .float (5 / 100)),
      ("movement_threshold", .float (5 / 1000)), ("k_nearest", .int 4)]
  | .export => [("format", .str "png"), ("height", .int 500), ("width", .int 800), ("scale", .int 1)]
  | _ => []

/-- the attributes of `AlignmentSettings()` (settings/alignment.py:283-287) -/
def alignmentDefaults (deg : K) : List (String × PyVal K) :=
  [("preprocessing", .obj .preprocessing (leafDefaults deg .preprocessing)),
   ("estimation_settings", .obj .estimation (leafDefaults deg .estimation)),
   ("stochastics", .obj .stochastics (leafDefaults deg .stochastics)),
   ("metric_threshold", .float (1 / 10000)), ("time_threshold", .float (1 / 10000))]

/-- `ExportSettings(width=width, height=height)` (settings/report.py:15-18) -/
def exportOf (width height : Int) : PyVal K :=
  .obj .export [("format", .str "png"), ("height", .int height), ("width", .int width), ("scale", .int 1)]

/-- the attributes of `ReportSettings()` (settings/report.py:74-118) -/
def reportDefaults : List (String × PyVal K) :=
  [("single_plot_height", .int 640), ("two_subplots_height", .int 750), ("three_subplots_height", .int 860),
   ("scatter_max_std", .float 4), ("ate_unit_is_mm", .bool false), ("directed_ate", .bool true),
   ("histogram_opacity", .float (7 / 10)), ("histogram_bargap", .float (1 / 10)), ("histogram_barmode", .str "overlay"),
   ("histogram_yaxis_title", .str "Count"), ("plot_mode", .str "lines+markers"), ("scatter_mode", .str "markers"),
   ("scatter_colorscale", .str "RdYlBu_r"), ("scatter_axis_order", .str "xy"), ("scatter_marker_size", .int 5),
   ("scatter_detailed", .bool false), ("scatter_mapbox", .bool false),
   ("scatter_mapbox_style", .str "open-street-map"), ("scatter_mapbox_zoom", .int 15),
   ("scatter_mapbox_token", .str ""), ("pos_x_name", .str "x"), ("pos_y_name", .str "y"), ("pos_z_name", .str "z"),
   ("pos_x_unit", .str "m"), ("pos_y_unit", .str "m"), ("pos_z_unit", .str "m"), ("pos_dir_dev_x_name", .str "along"),
   ("pos_dir_dev_y_name", .str "cross-h"), ("pos_dir_dev_z_name", .str "cross-v"), ("rot_x_name", .str "roll"),
   ("rot_y_name", .str "pitch"), ("rot_z_name", .str "yaw"), ("rot_unit", .str "°"),
   ("single_plot_export", exportOf 800 540), ("two_subplots_export", exportOf 800 540),
   ("three_subplots_export", exportOf 800 750)]

/-- the attributes of `cls()` (settings/base.py:47 and the fields of the classes) -/
def defaults (deg : K) : Cls → List (String × PyVal K)
  | .alignment => alignmentDefaults deg
  | .report => reportDefaults
  | .processing => [("alignment", .obj .alignment (alignmentDefaults deg)),
      ("matching", .obj .matching (leafDefaults deg .matching)),
      ("relative_comparison", .obj .comparison (leafDefaults deg .comparison)),
      ("approximation", .obj .approximation (leafDefaults deg .approximation)),
      ("sorting", .obj .sorting (leafDefaults deg .sorting))]
  | c => leafDefaults deg c

end

/-- the new value of an attribute in `from_dict` (settings/base.py:52-56): nested settings are read from a dictionary,
everything else is decoded -/
def decodeAttr (nested : Cls → List (String × PyVal K) → Except Err (PyVal K)) (c : Cls) (name : String)
    (ty : Option Cls) (data : PyVal K) : Except Err (PyVal K) :=
  match data, ty with
  | .dict d', some c' => nested c' d'
  | data, _ => decoder c name data

/-- the loop of `from_dict` (settings/base.py:48-56) over the remaining annotations, `o` the attributes of `settings` so
far and `nested` the recursive call -/
def fillFrom (nested : Cls → List (String × PyVal K) → Except Err (PyVal K)) (c : Cls) (d : List (String × PyVal K)) :
    List (String × Option Cls) → List (String × PyVal K) → Except Err (List (String × PyVal K))
  | [], o => .ok o
  | (name, ty) :: rest, o =>
    match lookup d name with
    | Option.none => .error .valueError
    | some data => do
      let v ← decodeAttr nested c name ty data
      fillFrom nested c d rest (store o name v)

/-- `from_dict` (settings/base.py:45-58) for classes nested at most `n` deep -/
def fromDictAt [Field K] (deg : K) : Nat → Cls → List (String × PyVal K) → Except Err (PyVal K)
  | 0, _, _ => .error .valueError
  | n + 1, c, d => do
    let o ← fillFrom (fromDictAt deg n) c d (annotations c) (defaults deg c)
    return .obj c o

/-- `cls.from_dict(dct)` (settings/base.py:45-58) -/
def fromDict [Field K] (deg : K) (c : Cls) (d : List (String × PyVal K)) : Except Err (PyVal K) :=
  fromDictAt deg (depth c) c d

/-- the loop of `update_from_dict` (settings/base.py:68-76); the attributes are those at the raise point.  `nested` is the
call on the attribute's own object. -/
def updateLoop (nested : PyVal K → List (String × PyVal K) → Except Err Unit × PyVal K) (c : Cls)
    (d : List (String × PyVal K)) :
    List (String × Option Cls) → List (String × PyVal K) → Except Err Unit × List (String × PyVal K)
  | [], o => (.ok (), o)
  | (name, ty) :: rest, o =>
    match lookup d name with
    | Option.none => (.error .valueError, o)
    | some data =>
      match data, ty with
      | .dict d', some _ =>
        match lookup o name with
        | Option.none => (.error .attributeError, o)
        | some cur =>
          match nested cur d' with
          | (.ok _, cur') => updateLoop nested c d rest (store o name cur')
          | (.error e, cur') => (.error e, store o name cur')
      | _, _ =>
        match decoder c name data with
        | .error e => (.error e, o)
        | .ok v => updateLoop nested c d rest (store o name v)

/-- `update_from_dict` (settings/base.py:67-76); an attribute without this method (no settings object) raises
`AttributeError` -/
def updateAt : Nat → PyVal K → List (String × PyVal K) → Except Err Unit × PyVal K
  | 0, v, _ => (.error .valueError, v)
  | n + 1, .obj c o, d =>
    let r := updateLoop (updateAt n) c d (annotations c) o
    (r.1, .obj c r.2)
  | _ + 1, v, _ => (.error .attributeError, v)

/-- `settings.update_from_dict(dct)` (settings/base.py:67-76).  Simplified: settings objects nested more deeply than the
class of `settings` allows are not followed. -/
def update (v : PyVal K) (d : List (String × PyVal K)) : Except Err Unit × PyVal K :=
  match v with
  | .obj c _ => updateAt (depth c) v d
  | v => (.error .attributeError, v)

/-- `json.dumps` and `json.load` (settings/base.py:39, 63); `T` is the type of texts -/
structure JsonLib (K T : Type) where
  dumps : PyVal K → Except Err T
  loads : T → Except Err (PyVal K)

/-- `to_file` (settings/base.py:38-43): the text that is written -/
def toFile {T : Type} (J : JsonLib K T) (v : PyVal K) : Except Err T := do
  let d ← toDict v
  J.dumps d

/-- `from_file` (settings/base.py:60-65) on the text of the file; `dct[name]` on something that is no dictionary raises
`TypeError` -/
def fromFile {T : Type} [Field K] (J : JsonLib K T) (deg : K) (c : Cls) (text : T) : Except Err (PyVal K) := do
  let d ← J.loads text
  match d with
  | .dict d => fromDict deg c d
  | _ => throw Err.typeError

end Settings
end TC
