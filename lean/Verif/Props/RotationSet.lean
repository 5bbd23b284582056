import Verif.Model.RotationSet
import Verif.Spec.Rot
import Verif.Proofs.RotAngle
/-!
# C210: adding and subtracting sets of orientations; C211: the skew-symmetric matrix of a vector
-/
namespace TC
set_option linter.unusedSectionVars false
variable {K R : Type} [Field K] [LinearOrder K]

/-- two sets fit: as many orientations, or a single one that is repeated -/
def SetsFit {α β : Type} (a : List α) (b : List β) : Prop := a.length = b.length ∨ a.length = 1 ∨ b.length = 1

/-- the `i`-th orientation of a set that may be a single one -/
def setRow {α : Type} (a : List α) (i : Nat) : Option α := if a.length = 1 then a[0]? else a[i]?

theorem bcast_row {α β γ : Type} (f : α → β → γ) {a : List α} {b : List β} (ha : a ≠ []) (hb : b ≠ []) :
    (¬ SetsFit a b → bcast f a b = .error .valueError) ∧
    (SetsFit a b → ∃ c, bcast f a b = .ok c ∧ c.length = max a.length b.length ∧
      ∀ i < max a.length b.length, ∃ x y, setRow a i = some x ∧ setRow b i = some y ∧ c[i]? = some (f x y)) := by
  have hpa := List.length_pos_iff.2 ha
  have hpb := List.length_pos_iff.2 hb
  constructor
  · intro h
    unfold SetsFit at h
    push Not at h
    obtain ⟨h1, h2, h3⟩ := h
    unfold bcast
    rw [if_neg h1]
    split
    · simp at h2
    · split
      · simp at h3
      · rfl
  · intro h
    unfold bcast
    by_cases he : a.length = b.length
    · rw [if_pos he]
      refine ⟨_, rfl, by simp [he], fun i hi => ?_⟩
      rw [he, max_self] at hi
      have hia : i < a.length := by omega
      refine ⟨a[i], b[i], ?_, ?_, ?_⟩
      · unfold setRow
        split_ifs with h1
        · have : i = 0 := by omega
          subst this
          exact List.getElem?_eq_getElem hia
        · exact List.getElem?_eq_getElem hia
      · unfold setRow
        split_ifs with h1
        · have : i = 0 := by omega
          subst this
          exact List.getElem?_eq_getElem hi
        · exact List.getElem?_eq_getElem hi
      · simp [List.getElem?_zipWith, List.getElem?_eq_getElem hia, List.getElem?_eq_getElem hi]
    · rw [if_neg he]
      rcases h with h | h | h
      · exact absurd h he
      · obtain ⟨x, rfl⟩ := List.length_eq_one_iff.1 h
        refine ⟨_, rfl, by simp; omega, fun i hi => ?_⟩
        have hib : i < b.length := by simp at hi; omega
        refine ⟨x, b[i], by simp [setRow], ?_, by simp [List.getElem?_eq_getElem hib]⟩
        unfold setRow
        rw [if_neg (by simpa using fun h => he h.symm)]
        exact List.getElem?_eq_getElem hib
      · obtain ⟨y, rfl⟩ := List.length_eq_one_iff.1 h
        have e : (match a with
            | [x] => Except.ok ([y].map (f x))
            | _ => (Except.ok (a.map (fun x => f x y)) : Except Err (List γ))) = .ok (a.map (fun x => f x y)) := by
          split
          · rfl
          · rfl
        refine ⟨a.map (fun x => f x y), e, by simp; omega, fun i hi => ?_⟩
        have hia : i < a.length := by simp at hi; omega
        refine ⟨a[i], y, ?_, by simp [setRow], by simp [List.getElem?_eq_getElem hia]⟩
        unfold setRow
        rw [if_neg (by simpa using he)]
        exact List.getElem?_eq_getElem hia

theorem setRow_map {α β : Type} (f : α → β) (a : List α) (i : Nat) : setRow (a.map f) i = (setRow a i).map f := by
  unfold setRow
  rw [List.length_map]
  split_ifs <;> simp

/-- **C210**: two sets of orientations can be added and subtracted exactly if they have equally many or one of them has
one, which is repeated; otherwise `ValueError`.  As matrices the sum is the product and the difference the product
with the transposed matrix, orientation by orientation. -/
theorem C210_rows {L : RotLib K R} (hL : IsRotLib L) {a b : List R} (ha : a ≠ []) (hb : b ≠ []) :
    (¬ SetsFit a b → rotAdd L a b = .error .valueError ∧ rotSub L a b = .error .valueError) ∧
    (SetsFit a b → ∃ s d, rotAdd L a b = .ok s ∧ rotSub L a b = .ok d ∧ s.length = max a.length b.length ∧
      d.length = max a.length b.length ∧ ∀ i < max a.length b.length, ∃ x y u v, setRow a i = some x ∧ setRow b i = some y ∧
        s[i]? = some u ∧ d[i]? = some v ∧ L.toMat u = L.toMat x * L.toMat y ∧
        L.toMat v = L.toMat x * (L.toMat y).transpose) := by
  have hb' : b.map L.inv ≠ [] := by simpa using hb
  obtain ⟨h1, h2⟩ := bcast_row L.mul ha hb
  obtain ⟨h3, h4⟩ := bcast_row L.mul ha hb'
  have hfit : SetsFit a (b.map L.inv) ↔ SetsFit a b := by simp [SetsFit]
  rw [hfit] at h3 h4
  rw [List.length_map] at h4
  refine ⟨fun h => ⟨h1 h, h3 h⟩, fun h => ?_⟩
  obtain ⟨s, e1, e2, e3⟩ := h2 h
  obtain ⟨d, e4, e5, e6⟩ := h4 h
  refine ⟨s, d, e1, e4, e2, e5, fun i hi => ?_⟩
  obtain ⟨x, y, f1, f2, f3⟩ := e3 i hi
  obtain ⟨x', y', f4, f5, f6⟩ := e6 i hi
  rw [f1] at f4
  cases f4
  rw [setRow_map, f2] at f5
  cases f5
  exact ⟨x, y, _, _, f1, f2, f3, f6, hL.toMat_mul _ _, by rw [hL.toMat_mul, hL.toMat_inv]⟩

theorem toMat_inj {L : RotLib K R} (hL : IsRotLib L) {x y : R} (h : L.toMat x = L.toMat y) : x = y := by
  rw [← hL.fromMat_toMat x, h, hL.fromMat_toMat]

theorem bcast_same {α β γ : Type} (f : α → β → γ) {a : List α} {b : List β} (h : a.length = b.length) :
    bcast f a b = .ok (List.zipWith f a b) := if_pos h

theorem mul_inv_cancel_lib {L : RotLib K R} (hL : IsRotLib L) (x y : R) : L.mul (L.mul x y) (L.inv y) = x := by
  refine toMat_inj hL ?_
  rw [hL.toMat_mul, hL.toMat_mul, hL.toMat_inv, Matrix.mul_assoc, (hL.rot y).1, Matrix.mul_one]

theorem inv_mul_cancel_lib {L : RotLib K R} (hL : IsRotLib L) (x y : R) : L.mul (L.mul x (L.inv y)) y = x := by
  refine toMat_inj hL ?_
  rw [hL.toMat_mul, hL.toMat_mul, hL.toMat_inv, Matrix.mul_assoc, mul_eq_one_comm.1 (hL.rot y).1, Matrix.mul_one]

/-- **C210**: subtracting what was added gives the orientations back, and adding what was subtracted; adding the same
orientations to both sets does not change their difference. -/
theorem C210_undo {L : RotLib K R} (hL : IsRotLib L) {a b c : List R} (hab : a.length = b.length) (hbc : b.length = c.length) :
    (∃ s, rotAdd L a b = .ok s ∧ rotSub L s b = .ok a) ∧ (∃ d, rotSub L a b = .ok d ∧ rotAdd L d b = .ok a) ∧
    (∃ s t, rotAdd L a c = .ok s ∧ rotAdd L b c = .ok t ∧ rotSub L s t = rotSub L a b) := by
  unfold rotAdd rotSub
  refine ⟨⟨_, bcast_same _ hab, ?_⟩, ⟨_, bcast_same _ (by simpa using hab), ?_⟩,
    ⟨_, _, bcast_same _ (hab.trans hbc), bcast_same _ hbc, ?_⟩⟩
  · rw [bcast_same _ (by simp [hab])]
    congr 1
    clear hbc
    induction a generalizing b with
    | nil => simp
    | cons x a ih => cases b with
      | nil => simp at hab
      | cons y b => simp [mul_inv_cancel_lib hL, ih (b := b) (by simpa using hab)]
  · rw [bcast_same _ (by simp [hab])]
    congr 1
    clear hbc
    induction a generalizing b with
    | nil => simp
    | cons x a ih => cases b with
      | nil => simp at hab
      | cons y b => simp [inv_mul_cancel_lib hL, ih (b := b) (by simpa using hab)]
  · rw [bcast_same _ (by simp [hab, hbc]), bcast_same _ (by simpa using hab)]
    congr 1
    induction a generalizing b c with
    | nil => simp
    | cons x a ih => cases b with
      | nil => simp at hab
      | cons y b => cases c with
        | nil => simp at hbc
        | cons z c =>
          have e : L.mul (L.mul x z) (L.inv (L.mul y z)) = L.mul x (L.inv y) := by
            refine toMat_inj hL ?_
            rw [hL.toMat_mul, hL.toMat_mul, hL.toMat_inv, hL.toMat_mul, hL.toMat_mul, hL.toMat_inv, Matrix.transpose_mul,
              Matrix.mul_assoc, ← Matrix.mul_assoc (L.toMat z), (hL.rot z).1, Matrix.one_mul]
          simp only [List.zipWith_cons_cons, List.map_cons, e, ih (b := b) (c := c) (by simpa using hab) (by simpa using hbc)]

/-- **C210**: the angles of the differences are a distance of orientations: between 0 and 180 degrees, zero exactly for
equal orientations, the same in both directions, not larger than the sum of two angles over a third set, and
unchanged if both sets are turned by the same rotation. -/
theorem C210_angle {L : RotLib ℝ R} (hL : IsRotLib L) {E : EvalLib ℝ} (hE : ∀ x, E.acos x = Real.arccos x)
    {a b c : List R} (hab : a.length = b.length) (hbc : b.length = c.length) :
    ∃ ab ba bc ac, rotSub L a b = .ok ab ∧ rotSub L b a = .ok ba ∧ rotSub L b c = .ok bc ∧ rotSub L a c = .ok ac ∧
      rotAngles E L ba = rotAngles E L ab ∧ (rotAngles E L ab).length = a.length ∧
      (∀ (i : Nat) x, (rotAngles E L ab)[i]? = some x → 0 ≤ x ∧ x ≤ Real.pi ∧ (x = 0 ↔ a[i]? = b[i]?) ∧
        ∃ y z, (rotAngles E L bc)[i]? = some y ∧ (rotAngles E L ac)[i]? = some z ∧ z ≤ x + y) ∧
      ∀ q : R, ∃ qa qb d, rotAdd L [q] a = .ok qa ∧ rotAdd L [q] b = .ok qb ∧ rotSub L qa qb = .ok d ∧
        rotAngles E L d = rotAngles E L ab := by
  have hang : ∀ A : M3 ℝ, rotAngle E A = matAngle A := fun A => hE _
  have hget : ∀ (u v : List R) (i : Nat) (x y : R), u[i]? = some x → v[i]? = some y →
      (rotAngles E L (List.zipWith L.mul u (v.map L.inv)))[i]? = some (matAngle (L.toMat x * (L.toMat y).transpose)) := by
    intro u v i x y hx hy
    simp only [rotAngles, List.getElem?_map, List.getElem?_zipWith, hx, hy, Option.map_some]
    rw [hang, hL.toMat_mul, hL.toMat_inv]
  have hsingle : ∀ (q : R) (l : List R), rotAdd L [q] l = .ok (l.map (L.mul q)) := by
    intro q l
    unfold rotAdd bcast
    split_ifs with h
    · obtain ⟨y, rfl⟩ := List.length_eq_one_iff.1 h.symm
      rfl
    · rfl
  refine ⟨_, _, _, _, bcast_same _ (by simpa using hab), bcast_same _ (by simpa using hab.symm), bcast_same _ (by simpa using hbc),
    bcast_same _ (by simpa using hab.trans hbc), ?_, by simp [rotAngles, hab], ?_, ?_⟩
  · refine List.ext_getElem? fun i => ?_
    by_cases hi : i < a.length
    · rw [hget b a i b[i] a[i] (List.getElem?_eq_getElem (hab ▸ hi)) (List.getElem?_eq_getElem hi),
        hget a b i a[i] b[i] (List.getElem?_eq_getElem hi) (List.getElem?_eq_getElem (hab ▸ hi)),
        ← matAngle_transpose, Matrix.transpose_mul, Matrix.transpose_transpose]
    · rw [List.getElem?_eq_none (by simp [rotAngles]; omega), List.getElem?_eq_none (by simp [rotAngles]; omega)]
  · intro i x hx
    have hi : i < a.length := by
      have := (List.getElem?_eq_some_iff.1 hx).1
      simp [rotAngles] at this
      omega
    have h1 := List.getElem?_eq_getElem hi
    have h2 := List.getElem?_eq_getElem (hab ▸ hi : i < b.length)
    have h3 := List.getElem?_eq_getElem (hbc ▸ hab ▸ hi : i < c.length)
    have ra := hL.rot a[i]
    have rb := hL.rot (b[i]'(hab ▸ hi))
    have rc := hL.rot (c[i]'(hbc ▸ hab ▸ hi))
    rw [hget a b i _ _ h1 h2, Option.some.injEq] at hx
    subst hx
    refine ⟨matAngle_nonneg _, matAngle_le_pi _, ?_, _, _, hget b c i _ _ h2 h3, hget a c i _ _ h1 h3, ?_⟩
    · rw [matAngle_eq_zero (ra.mul rb.transpose), h1, h2, Option.some.injEq]
      constructor
      · intro h
        refine toMat_inj hL ?_
        have := congrArg (· * L.toMat (b[i]'(hab ▸ hi))) h
        simpa [Matrix.mul_assoc, mul_eq_one_comm.1 rb.1] using this
      · intro h
        rw [h]
        exact rb.1
    · have h := matAngle_mul_le (ra.mul rb.transpose) (rb.mul rc.transpose)
      have e : L.toMat a[i] * (L.toMat (b[i]'(hab ▸ hi))).transpose * (L.toMat (b[i]'(hab ▸ hi)) *
          (L.toMat (c[i]'(hbc ▸ hab ▸ hi))).transpose) = L.toMat a[i] * (L.toMat (c[i]'(hbc ▸ hab ▸ hi))).transpose := by
        rw [Matrix.mul_assoc, ← Matrix.mul_assoc (L.toMat (b[i]'(hab ▸ hi))).transpose, mul_eq_one_comm.1 rb.1, Matrix.one_mul]
      rwa [e] at h
  · intro q
    refine ⟨_, _, _, hsingle q a, hsingle q b, bcast_same _ (by simpa using hab), ?_⟩
    refine List.ext_getElem? fun i => ?_
    by_cases hi : i < a.length
    · have h1 := List.getElem?_eq_getElem hi
      have h2 := List.getElem?_eq_getElem (hab ▸ hi : i < b.length)
      rw [hget a b i _ _ h1 h2, hget (a.map (L.mul q)) (b.map (L.mul q)) i (L.mul q a[i]) (L.mul q (b[i]'(hab ▸ hi)))
        (by rw [List.getElem?_map, h1]; rfl) (by rw [List.getElem?_map, h2]; rfl), hL.toMat_mul, hL.toMat_mul,
        Matrix.transpose_mul, Matrix.mul_assoc, ← Matrix.mul_assoc (L.toMat a[i]), ← Matrix.mul_assoc, matAngle_conj (hL.rot q)]
    · rw [List.getElem?_eq_none (by simp [rotAngles]; omega), List.getElem?_eq_none (by simp [rotAngles]; omega)]

/-- the cross product -/
def cross (v w : V3 K) : V3 K := ⟨v.y * w.z - v.z * w.y, v.z * w.x - v.x * w.z, v.x * w.y - v.y * w.x⟩

/-- **C211**: the skew-symmetric matrix of a vector times any vector is the cross product, it is the only matrix with
this property, and its transpose is its negative. -/
theorem C211_cross (v : V3 K) : (∀ w, mulV (skewMatrix v) w = cross v w) ∧ (skewMatrix v).transpose = -skewMatrix v ∧
    ∀ A : M3 K, (∀ w, mulV A w = cross v w) → A = skewMatrix v := by
  refine ⟨fun w => ?_, ?_, fun A hA => ?_⟩
  · ext <;> simp [mulV, skewMatrix, cross] <;> ring
  · ext i j
    fin_cases i <;> fin_cases j <;> simp [skewMatrix]
  · have h0 := hA ⟨1, 0, 0⟩
    have h1 := hA ⟨0, 1, 0⟩
    have h2 := hA ⟨0, 0, 1⟩
    simp [mulV, cross] at h0 h1 h2
    ext i j
    fin_cases i <;> fin_cases j <;> simp [skewMatrix, h0, h1, h2]

/-- **C211**: turning the vector turns the matrix. -/
theorem C211_turned {A : M3 K} (hA : IsRot A) (v : V3 K) : skewMatrix (mulV A v) = A * skewMatrix v * A.transpose := by
  have hT : A.transpose = A.adjugate := by
    have h1 : A * A.adjugate = 1 := by rw [Matrix.mul_adjugate, hA.2, one_smul]
    calc A.transpose = A.transpose * (A * A.adjugate) := by rw [h1, Matrix.mul_one]
      _ = _ := by rw [← Matrix.mul_assoc, mul_eq_one_comm.1 hA.1, Matrix.one_mul]
  have hc : ∀ i j, A i j = A.adjugate j i := fun i j => by rw [← hT]; rfl
  have c := fun i j => hc i j
  have e00 := c 0 0
  have e01 := c 0 1
  have e02 := c 0 2
  have e10 := c 1 0
  have e11 := c 1 1
  have e12 := c 1 2
  have e20 := c 2 0
  have e21 := c 2 1
  have e22 := c 2 2
  simp [Matrix.adjugate_fin_three] at e00 e01 e02 e10 e11 e12 e20 e21 e22
  ext i j
  fin_cases i <;> fin_cases j <;>
    simp [skewMatrix, mulV, Matrix.mul_apply, Fin.sum_univ_three]
  · ring
  · linear_combination -v.x * e20 - v.y * e21 - v.z * e22
  · linear_combination v.x * e10 + v.y * e11 + v.z * e12
  · linear_combination v.x * e20 + v.y * e21 + v.z * e22
  · ring
  · linear_combination -v.x * e00 - v.y * e01 - v.z * e02
  · linear_combination -v.x * e10 - v.y * e11 - v.z * e12
  · linear_combination v.x * e00 + v.y * e01 + v.z * e02
  · ring

/-! ### The hypotheses are met -/

/-- rotations about z and x by 90 degrees -/
def exTurnZ : RotM ℚ := ⟨!![0, -1, 0; 1, 0, 0; 0, 0, 1], by decide +kernel⟩
def exTurnX : RotM ℚ := ⟨!![1, 0, 0; 0, 0, -1; 0, 1, 0], by decide +kernel⟩

example : IsRotLib (matLib (K := ℚ) (fun a _ _ => a)) ∧ SetsFit [exTurnZ, exTurnX] [exTurnX] ∧ ¬ SetsFit [exTurnZ, exTurnX] [exTurnX, exTurnX, exTurnZ] ∧
    (rotSub (matLib (K := ℚ) (fun a _ _ => a)) [exTurnZ, exTurnX] [exTurnX]).toOption.map (fun l => l.map Subtype.val) =
      some [!![0, 0, -1; 1, 0, 0; 0, -1, 0], 1] := by
  refine ⟨matLib_isRotLib _, by simp [SetsFit], by simp [SetsFit], by decide +kernel⟩

/-- the angles exist over the reals -/
example : IsRotLib (matLib (K := ℝ) (fun a _ _ => a)) ∧ ∃ E : EvalLib ℝ, ∀ x, E.acos x = Real.arccos x :=
  ⟨matLib_isRotLib _, ⟨fun _ => 0, Real.sqrt, Real.arccos⟩, fun _ => rfl⟩

example : IsRot exTurnZ.val ∧ skewMatrix (mulV exTurnZ.val ⟨1, 2, 3⟩) = !![0, -3, 1; 3, 0, 2; -1, -2, 0] := by decide +kernel

end TC
