import Verif.Model.Compare
/-!
# The summary of an absolute error: `ATEResult.property_dict` (evaluation/ate_result.py:41-86)

The dictionary is the list of its entries in order of insertion, its keys are literals and all different.  `cached_property`
(ate_result.py:155, 197) keeps the Euler angles of the first access; no code changes the rotation deviations of a result,
so the cache is not modelled.  `°` is one character.
-/
namespace TC
variable {K R : Type} [Field K] [LinearOrder K]

/-- functions of numpy and scipy on angles and rotations: `as_euler("xyz")` (roll, pitch, yaw in radians), `Rotation.mean`,
`np.rad2deg` (call sites ate_result.py:67-85, 158, 203) -/
structure AngleLib (K R : Type) where
  euler : R → V3 K
  mean : List R → R
  deg : K → K

namespace AteResult

/-- `rot_dev_xyz` (ate_result.py:197-205) -/
def rotDevXyz (G : AngleLib K R) (a : AteResult K R) : List (V3 K) :=
  match a.rotDev with
  | some r => r.map G.euler
  | none => a.posDev.map (fun _ => ⟨0, 0, 0⟩)

/-- `rot_bias_xyz` (ate_result.py:155-158) -/
def rotBiasXyz (G : AngleLib K R) (a : AteResult K R) : V3 K :=
  match a.rotDev with
  | some r => G.euler (G.mean r)
  | none => ⟨0, 0, 0⟩

/-- `rot_rms_x` (ate_result.py:349-354, 140-143) -/
def rotRmsX (E : EvalLib K) (G : AngleLib K R) (a : AteResult K R) : Except Err K := rms E ((a.rotDevXyz G).map V3.x)
/-- `rot_rms_y` (ate_result.py:356-361, 145-148) -/
def rotRmsY (E : EvalLib K) (G : AngleLib K R) (a : AteResult K R) : Except Err K := rms E ((a.rotDevXyz G).map V3.y)
/-- `rot_rms_z` (ate_result.py:363-368, 150-153) -/
def rotRmsZ (E : EvalLib K) (G : AngleLib K R) (a : AteResult K R) : Except Err K := rms E ((a.rotDevXyz G).map V3.z)

/-- an entry with four decimals (ate_result.py:48-65) -/
def entry [FloorRing K] (key : String) (x : Except Err K) : Except Err (Str × Str) := do
  let v ← x
  return (key.toList, fmtFixed 4 v)

/-- an entry about rotations (ate_result.py:66-85): degrees, a dash without rotation deviations -/
def rotEntry [FloorRing K] (G : AngleLib K R) (a : AteResult K R) (key : String) (x : Except Err K) : Except Err (Str × Str) :=
  if a.rotDev.isSome then do
    let v ← x
    return (key.toList, fmtFixed 4 (G.deg v))
  else .ok (key.toList, ['-'])

/-- the lines in metres (ate_result.py:48-65) -/
def positionLines [FloorRing K] (E : EvalLib K) (a : AteResult K R) : Except Err (List (Str × Str)) :=
  mapE id
    [entry "Maximum position deviation [m]" (a.posDevMax E), entry "Mean position deviation [m]" (a.posAte E),
     entry "Median position deviation [m]" (a.posDevMedian E), entry "Minimum position deviation [m]" (a.posDevMin E),
     entry "RMS Position [m]" (a.posDevRms E), entry "STD Position [m]" (a.posDevStd E),
     entry "Bias X [m]" a.posBiasX, entry "Bias Y [m]" a.posBiasY, entry "Bias Z [m]" a.posBiasZ,
     entry "RMS X [m]" (a.posRmsX E), entry "RMS Y [m]" (a.posRmsY E), entry "RMS Z [m]" (a.posRmsZ E),
     entry "Bias Along-Track [m]" a.posBiasAlong, entry "Bias Horizontal Cross-Track [m]" a.posBiasCrossH,
     entry "Bias Vertical Cross-Track [m]" a.posBiasCrossV, entry "RMS Along-Track [m]" (a.posRmsAlong E),
     entry "RMS Horizontal Cross-Track [m]" (a.posRmsCrossH E), entry "RMS Vertical Cross-Track [m]" (a.posRmsCrossV E)]

/-- the lines in degrees (ate_result.py:66-85) -/
def rotationLines [FloorRing K] (E : EvalLib K) (L : RotLib K R) (G : AngleLib K R) (a : AteResult K R) :
    Except Err (List (Str × Str)) :=
  mapE id
    [rotEntry G a "Maximum rotation deviation [°]" (a.rotDevMax E L), rotEntry G a "Mean rotation deviation [°]" (a.rotAte E L),
     rotEntry G a "Median rotation deviation [°]" (a.rotDevMedian E L), rotEntry G a "Minimum rotation deviation [°]" (a.rotDevMin E L),
     rotEntry G a "RMS Rotation [°]" (a.rotDevRms E L), rotEntry G a "STD Rotation [°]" (a.rotDevStd E L),
     rotEntry G a "RMS Roll [°]" (a.rotRmsX E G), rotEntry G a "RMS Pitch [°]" (a.rotRmsY E G),
     rotEntry G a "RMS Yaw [°]" (a.rotRmsZ E G), rotEntry G a "Bias Roll [°]" (.ok (a.rotBiasXyz G).x),
     rotEntry G a "Bias Pitch [°]" (.ok (a.rotBiasXyz G).y), rotEntry G a "Bias Yaw [°]" (.ok (a.rotBiasXyz G).z)]

/-- the lines that do not depend on the deviations' values (ate_result.py:44-47) -/
def headLines (a : AteResult K R) : List (Str × Str) :=
  [("Name".toList, a.name.toList), ("Type".toList, "ATEResult".toList),
    ("Number of deviations".toList, natStr a.posDev.length),
    ("Deviation directions derived using".toList,
      if a.rotationsUsed then "Rotations".toList else "Positions / Unkown".toList)]

/-- `property_dict` (ate_result.py:41-86) -/
def propertyDict [FloorRing K] (E : EvalLib K) (L : RotLib K R) (G : AngleLib K R) (a : AteResult K R) :
    Except Err (List (Str × Str)) := do
  let pos ← a.positionLines E
  let rot ← a.rotationLines E L G
  return a.headLines ++ pos ++ rot

end AteResult

end TC
