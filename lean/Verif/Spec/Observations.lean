import Verif.Model.Observations
/-!
What the vectors of an alignment hold, said without any index arithmetic.
-/
namespace TC
variable {K : Type} [Field K] [LinearOrder K]

/-- the numbers of one epoch in their order: source position, target position, then the Euler angles if a
lever arm is estimated, then the speed if a time shift is estimated -/
def epochNumbers (e : EstSettings) (source target rpy speed : V3 K) : List K :=
  [source.x, source.y, source.z, target.x, target.y, target.z] ++
  (if e.leverarmEnabled then [rpy.x, rpy.y, rpy.z] else []) ++
  (if e.timeShiftEnabled then [speed.x, speed.y, speed.z] else [])

/-- the `k`-th group of `p` numbers of a vector -/
def block (p : Nat) (v : List K) (k : Nat) : List K := (v.drop (k * p)).take p

/-- the columns a key stands for, given all data; `none` if the settings do not estimate what needs them -/
def columnsOf (e : EstSettings) (source target rpy speed : List (V3 K)) : ObsKey → Option (List (List K))
  | .xyFrom => some [source.map V3.x, source.map V3.y]
  | .zFrom => some [source.map V3.z]
  | .xyzFrom => some [source.map V3.x, source.map V3.y, source.map V3.z]
  | .xyTo => some [target.map V3.x, target.map V3.y]
  | .zTo => some [target.map V3.z]
  | .xyzTo => some [target.map V3.x, target.map V3.y, target.map V3.z]
  | .positions => some [source.map V3.x, source.map V3.y, source.map V3.z,
      target.map V3.x, target.map V3.y, target.map V3.z]
  | .rollPitch => if e.leverarmEnabled then some [rpy.map V3.x, rpy.map V3.y] else none
  | .yaw => if e.leverarmEnabled then some [rpy.map V3.z] else none
  | .rpy => if e.leverarmEnabled then some [rpy.map V3.x, rpy.map V3.y, rpy.map V3.z] else none
  | .speed => if e.timeShiftEnabled then some [speed.map V3.x, speed.map V3.y, speed.map V3.z] else none

end TC
