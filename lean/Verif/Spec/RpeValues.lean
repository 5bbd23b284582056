import Verif.Spec.Eval
/-!
# What a relative error is

`s`, `s'` are the samples of the test trajectory at the begin and the end of a pair, `u`, `u'` those of the reference.
-/
namespace TC
variable {K R : Type} [Field K] [LinearOrder K]

/-- where the end of a pair is, seen from the pose at its begin -/
def wayFrom (L : RotLib K R) (q : R) (a b : V3 K) : V3 K := mulV (L.toMat q).transpose (b - a)

/-- the turn from the begin to the end of a pair -/
def turnFrom (L : RotLib K R) (q q' : R) : M3 K := (L.toMat q).transpose * L.toMat q'

/-- the position error of a pair: with orientations the distance between the two ways, without orientations the
difference of the two lengths -/
def posError (nrm : V3 K → K) (L : RotLib K R) (s s' u u' : Sample K R) : K :=
  match s.r, u.r with
  | some q, some o => nrm (wayFrom L q s.p s'.p - wayFrom L o u.p u'.p)
  | _, _ => |nrm (u'.p - u.p) - nrm (s'.p - s.p)|

/-- the cosine of the angle of a rotation -/
def cosAngle (M : M3 K) : K := (M 0 0 + M 1 1 + M 2 2 - 1) / 2

/-- an error per unit of distance; no number if there is no distance -/
def perDistance (e d : K) : Option K := if d = 0 then none else some (e / d)

/-- the entries of a group are the errors of the pairs `ps`, per unit of distance -/
structure ErrorsOf (E : EvalLib K) (L : RotLib K R) (D : List K) (test ref : Traj K R) (ps : List (Nat × Nat))
    (g : RpeGroup K) : Prop where
  pos : ∀ (k i j : Nat) s s' u u' a b, ps[k]? = some (i, j) →
    (samples test)[i]? = some s → (samples test)[j]? = some s' →
    (samples ref)[i]? = some u → (samples ref)[j]? = some u' → D[i]? = some a → D[j]? = some b →
    g.posDev[k]? = some (perDistance (posError E.nrm L s s' u u') (b - a))
  rot : ∀ (k i j : Nat) s s' u u' a b q q' o o', ps[k]? = some (i, j) →
    (samples test)[i]? = some s → (samples test)[j]? = some s' →
    (samples ref)[i]? = some u → (samples ref)[j]? = some u' → D[i]? = some a → D[j]? = some b →
    s.r = some q → s'.r = some q' → u.r = some o → u'.r = some o' →
    g.rotDev[k]? = some (perDistance (E.acos (cosAngle ((turnFrom L o o').transpose * turnFrom L q q'))) (b - a))

end TC
