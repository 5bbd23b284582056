import Verif.Model.Trig
/-!
# `trajectopy_core/alignment/equations.py`

Scalar versions of the (elementwise) numpy expressions.
-/
namespace TC.Equations
variable {K : Type} [Field K]

/-- `functional_helmert_component_x` (equations.py:334-356) -/
def helmertX (τ : Trig K) (x y z tx rx ry rz s : K) : K :=
  let a := τ.cos ry * τ.cos rz
  let b := τ.sin rx * τ.sin ry * τ.cos rz - τ.cos rx * τ.sin rz
  let c := τ.cos rx * τ.sin ry * τ.cos rz + τ.sin rx * τ.sin rz
  tx + s * (a * x + b * y + c * z)

/-- `functional_helmert_component_y` (equations.py:359-378) -/
def helmertY (τ : Trig K) (x y z ty rx ry rz s : K) : K :=
  let d := τ.cos ry * τ.sin rz
  let e := τ.sin rx * τ.sin ry * τ.sin rz + τ.cos rx * τ.cos rz
  let f := τ.cos rx * τ.sin ry * τ.sin rz - τ.sin rx * τ.cos rz
  ty + s * (d * x + e * y + f * z)

/-- `functional_helmert_component_z` (equations.py:381-397) -/
def helmertZ (τ : Trig K) (x y z tz rx ry s : K) : K :=
  let g := -τ.sin ry
  let h := τ.sin rx * τ.cos ry
  let i := τ.cos rx * τ.cos ry
  tz + s * (g * x + h * y + i * z)

/-- `functional_leverarm_time_component_x` (equations.py:400-420) -/
def leverTimeX (τ : Trig K) (ex ey ez lx ly lz dt v : K) : K :=
  let a := τ.cos ey * τ.cos ez
  let b := τ.sin ex * τ.sin ey * τ.cos ez - τ.cos ex * τ.sin ez
  let c := τ.cos ex * τ.sin ey * τ.cos ez + τ.sin ex * τ.sin ez
  a * lx + b * ly + c * lz + dt * v

/-- `functional_leverarm_time_component_y` (equations.py:423-443) -/
def leverTimeY (τ : Trig K) (ex ey ez lx ly lz dt v : K) : K :=
  let d := τ.cos ey * τ.sin ez
  let e := τ.sin ex * τ.sin ey * τ.sin ez + τ.cos ex * τ.cos ez
  let f := τ.cos ex * τ.sin ey * τ.sin ez - τ.sin ex * τ.cos ez
  d * lx + e * ly + f * lz + dt * v

/-- `functional_leverarm_time_component_z` (equations.py:446-462) -/
def leverTimeZ (τ : Trig K) (ex ey lx ly lz dt v : K) : K :=
  let g := -τ.sin ey
  let h := τ.sin ex * τ.cos ey
  let i := τ.cos ex * τ.cos ey
  g * lx + h * ly + i * lz + dt * v

/-- `leverarm_time_component` (equations.py:159-201): Euler angles `e`, speed `v`, time shift `dt`,
lever arm `l`; the triple of results as a vector -/
def leverTime (τ : Trig K) (e v : V3 K) (dt : K) (l : V3 K) : V3 K :=
  ⟨leverTimeX τ e.x e.y e.z l.x l.y l.z dt v.x,
   leverTimeY τ e.x e.y e.z l.x l.y l.z dt v.y,
   leverTimeZ τ e.x e.y l.x l.y l.z dt v.z⟩

/-- The eleven alignment parameters (parameters.py:403-435), as values. -/
structure Params (K : Type) where
  trans : V3 K
  rot : V3 K
  scale : K
  time : K
  lever : V3 K
  deriving DecidableEq

/-- `transformed_x_from` (equations.py:204-247) -/
def transformedX (τ : Trig K) (p e v : V3 K) (tx rx ry rz s dt : K) (l : V3 K) : K :=
  let lt := leverTime τ e v dt l
  helmertX τ (p.x + lt.x) (p.y + lt.y) (p.z + lt.z) tx rx ry rz s

/-- `transformed_y_from` (equations.py:250-291) -/
def transformedY (τ : Trig K) (p e v : V3 K) (ty rx ry rz s dt : K) (l : V3 K) : K :=
  let lt := leverTime τ e v dt l
  helmertY τ (p.x + lt.x) (p.y + lt.y) (p.z + lt.z) ty rx ry rz s

/-- `transformed_z_from` (equations.py:294-331) -/
def transformedZ (τ : Trig K) (p e v : V3 K) (tz rx ry s dt : K) (l : V3 K) : K :=
  let lt := leverTime τ e v dt l
  helmertZ τ (p.x + lt.x) (p.y + lt.y) (p.z + lt.z) tz rx ry s

/-- `functional_relationship_x` (equations.py:12-60) -/
def funX (τ : Trig K) (p : V3 K) (xTo : K) (e v : V3 K) (tx rx ry rz s dt : K) (l : V3 K) : K :=
  -xTo + transformedX τ p e v tx rx ry rz s dt l

/-- `functional_relationship_y` (equations.py:63-109) -/
def funY (τ : Trig K) (p : V3 K) (yTo : K) (e v : V3 K) (ty rx ry rz s dt : K) (l : V3 K) : K :=
  -yTo + transformedY τ p e v ty rx ry rz s dt l

/-- `functional_relationship_z` (equations.py:112-156) -/
def funZ (τ : Trig K) (p : V3 K) (zTo : K) (e v : V3 K) (tz rx ry s dt : K) (l : V3 K) : K :=
  -zTo + transformedZ τ p e v tz rx ry s dt l

/-- the three equations for one epoch (call sites estimation.py, data.py) -/
def contradiction (τ : Trig K) (p target e v : V3 K) (q : Params K) : V3 K :=
  ⟨funX τ p target.x e v q.trans.x q.rot.x q.rot.y q.rot.z q.scale q.time q.lever,
   funY τ p target.y e v q.trans.y q.rot.x q.rot.y q.rot.z q.scale q.time q.lever,
   funZ τ p target.z e v q.trans.z q.rot.x q.rot.y q.scale q.time q.lever⟩

end TC.Equations
