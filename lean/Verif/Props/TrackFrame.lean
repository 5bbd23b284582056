import Verif.Props.Ate
/-!
# C196: the axes of the directed deviations

README: "The along-track direction is defined as positive in the direction of travel. The horizontal cross-track direction is
defined as positive to the right of the along-track direction. The vertical cross-track direction is defined as positive
upwards."  The along-track direction is the subject of C103; here are the other two.
-/
namespace TC
variable {K R : Type} [Field K] [LinearOrder K] [IsStrictOrderedRing K]

/-- how far, times the horizontal length of the way from `c` to `d`, the point `p` is to the right of that way -/
def toTheRight (c d p : V3 K) : K := (p.x - c.x) * (d.y - c.y) - (p.y - c.y) * (d.x - c.x)

/-- east of a way to the north is right -/
example : 0 < toTheRight (⟨0, 0, 0⟩ : V3 ℚ) ⟨0, 10, 0⟩ ⟨1, 5, 0⟩ := by decide +kernel

theorem crossTrack_side {E : EvalLib K} (hE : IsEvalLib E) {p a b : V3 K} (hab : a ≠ b) :
    (0 < toTheRight a b p → (crossTrackDev E p a b).1 < 0) ∧ (toTheRight a b p < 0 → 0 < (crossTrackDev E p a b).1) := by
  have hside : (p.x - a.x) * (b.y - a.y) + (p.y - a.y) * (-(b.x - a.x)) = toTheRight a b p := by
    unfold toTheRight; ring
  have hpos : toTheRight a b p ≠ 0 → 0 < E.sqrt (((nearestPoint E p a b).1 - p).x ^ 2 + ((nearestPoint E p a b).1 - p).y ^ 2) := by
    intro h
    have hnn : 0 ≤ ((nearestPoint E p a b).1 - p).x ^ 2 + ((nearestPoint E p a b).1 - p).y ^ 2 := by positivity
    refine lt_of_le_of_ne (hE.sqrt_nonneg _ hnn) (fun h0 => h ?_)
    have hs := hE.sqrt_sq _ hnn
    rw [← h0, mul_zero] at hs
    have hx : ((nearestPoint E p a b).1 - p).x = 0 := by
      have : ((nearestPoint E p a b).1 - p).x ^ 2 = 0 := le_antisymm (by
        have := sq_nonneg ((nearestPoint E p a b).1 - p).y; linarith) (sq_nonneg _)
      exact pow_eq_zero_iff (two_ne_zero) |>.1 this
    have hy : ((nearestPoint E p a b).1 - p).y = 0 := by
      have : ((nearestPoint E p a b).1 - p).y ^ 2 = 0 := by rw [hx] at hs; simpa using hs.symm
      exact pow_eq_zero_iff (two_ne_zero) |>.1 this
    rw [nearestPoint_of_ne hE hab] at hx hy
    simp only [V3.sub_x, V3.sub_y, V3.add_x, V3.add_y, V3.smul_x, V3.smul_y] at hx hy
    unfold toTheRight
    linear_combination (-(b.y - a.y)) * hx + (b.x - a.x) * hy
  unfold crossTrackDev
  simp only [hside]
  constructor
  · intro h
    have := hpos (ne_of_gt h)
    simp only [npSign, if_neg (not_lt.2 h.le), if_pos h]
    linarith
  · intro h
    have := hpos (ne_of_lt h)
    simp only [npSign, if_pos h, if_neg (not_lt.2 h.le)]
    linarith

/-- **C196 is false of the code**: without orientations, every position to the right of the track has a negative horizontal
deviation and every position to the left a positive one, the opposite of what is documented; the vertical deviation of a
position above the track is negative. (`i` is the start of the piece of the track to which the sample `j` belongs.) -/
theorem C196_right_is_negative (E : EvalLib K) (hE : IsEvalLib E) (L : RotLib K R) (test ref : Traj K R) (hT : Coherent test)
    (hR : Coherent ref) (hlen : ref.tstamps.length = test.tstamps.length) (hr : ref.rot = none) (ht : test.rot = none) :
    ∃ a, compareAbsolute E L test ref = .ok a ∧
      ∀ (i j : Nat) p c d v, (j = i ∧ i + 1 < test.pos.length ∨ (j = i + 1 ∧ test.pos.length = i + 2)) →
        test.pos[j]? = some p → ref.pos[i]? = some c → ref.pos[i + 1]? = some d → c ≠ d → a.directed[j]? = some v →
        (0 < toTheRight c d p → v.y < 0) ∧ (toTheRight c d p < 0 → 0 < v.y) ∧
        v.z = (c.z + V3.dot (p - c) (d - c) / (d - c).normSq * (d.z - c.z)) - p.z := by
  obtain ⟨a, h1, h2, h3⟩ := directed_of_sample E L hT hR hlen hr ht
  refine ⟨a, h1, ?_⟩
  intro i j p c d v hj hp hc hd hcd hv
  have hl : trackLine ref.pos test.pos.length j = some (c, d) := by
    rcases hj with ⟨rfl, hi⟩ | ⟨rfl, hi⟩
    · unfold trackLine; rw [if_neg (by omega), hc, hd]; rfl
    · unfold trackLine; rw [if_pos (by omega), if_neg (by omega)]; simp [hc, hd]
  rw [h3 j p c d hp hl] at hv
  obtain rfl := Option.some.inj hv
  refine ⟨(crossTrack_side hE hcd).1, (crossTrack_side hE hcd).2, ?_⟩
  unfold crossTrackDev
  rw [nearestPoint_of_ne hE hcd]
  simp [V3.sub_z, V3.add_z, V3.smul_z]

/-- **C196 is false of the code** with orientations too: the documented axes form a left-handed frame.  If the first axis of
the sensor looks along a level track with the course `(c, s)`, the first component is positive ahead; if the second axis looks
to the right, then a position above the track has a negative vertical deviation; if the third axis looks upwards, then a
position to the right has a negative horizontal deviation. -/
theorem C196_never_with_orientations (E : EvalLib K) (L : RotLib K R) (hL : IsRotLib L) (test ref : Traj K R)
    (hT : Coherent test) (hR : Coherent ref) (hlen : ref.tstamps.length = test.tstamps.length) {r : List R}
    (hr : ref.rot = some r) :
    ∃ a, compareAbsolute E L test ref = .ok a ∧
      ∀ (i : Nat) o p q v (c s : K), r[i]? = some o → test.pos[i]? = some p → ref.pos[i]? = some q →
        a.directed[i]? = some v → c * c + s * s = 1 → mulV (L.toMat o) ⟨1, 0, 0⟩ = ⟨c, s, 0⟩ →
        v.x = c * (p.x - q.x) + s * (p.y - q.y) ∧
        (mulV (L.toMat o) ⟨0, 1, 0⟩ = ⟨s, -c, 0⟩ →
          v.y = s * (p.x - q.x) - c * (p.y - q.y) ∧ v.z = -(p.z - q.z)) ∧
        (mulV (L.toMat o) ⟨0, 0, 1⟩ = ⟨0, 0, 1⟩ →
          v.y = -(s * (p.x - q.x) - c * (p.y - q.y)) ∧ v.z = p.z - q.z) := by
  obtain ⟨dir, h1, h2, h3⟩ := compareAbsolute_eq E L hT hR hlen
  refine ⟨_, h3, ?_⟩
  intro i o p q v c s ho hp hq hv hcs hx
  have hrl : r.length = ref.pos.length := by rw [hR.rot _ hr, hR.pos]
  rw [hr] at h1
  have h1' : devDirectionsWithRot ref.pos test.pos (r.map L.toMat) = .ok dir := h1
  rw [devDirectionsWithRot_eq (by rw [hT.pos, hR.pos, hlen]) (by simp [hrl])] at h1'
  have hv' : dir[i]? = some v := hv
  rw [← Except.ok.inj h1', List.getElem?_zipWith, List.getElem?_zipWith, List.getElem?_map, ho, hp, hq] at hv'
  obtain rfl := Option.some.inj hv'
  have hd := (hL.rot o).2
  have a0 := congrArg V3.x hx
  have a1 := congrArg V3.y hx
  have a2 := congrArg V3.z hx
  have hT' : (L.toMat o).transpose * L.toMat o = 1 := mul_eq_one_comm.1 (hL.rot o).1
  rw [Matrix.det_fin_three] at hd
  simp only [mulV, mul_one, mul_zero, add_zero] at a0 a1 a2
  have g : ∀ j k, ((L.toMat o).transpose * L.toMat o) j k = (1 : M3 K) j k := fun j k => by rw [hT']
  simp only [Matrix.mul_apply, Fin.sum_univ_three, Matrix.transpose_apply] at g
  have g01 := g 0 1
  have g02 := g 0 2
  have g12 := g 1 2
  have g11 := g 1 1
  have g22 := g 2 2
  simp only [Matrix.one_apply, Fin.reduceEq, if_false, if_true] at g01 g02 g12 g11 g22
  set m := L.toMat o with hm
  rw [a0, a1, a2] at g01 g02
  rw [a0, a1, a2] at hd
  refine ⟨?_, ?_, ?_⟩
  · simp only [mulV, Matrix.transpose_apply, V3.sub_x, V3.sub_y, V3.sub_z, a0, a1, a2]; ring
  · intro hy
    have b0 := congrArg V3.x hy
    have b1 := congrArg V3.y hy
    have b2 := congrArg V3.z hy
    simp only [mulV, mul_one, mul_zero, add_zero, zero_add] at b0 b1 b2
    rw [b0, b1, b2] at g12 hd
    have c2 : m 2 2 = -1 := by linear_combination (-1) * hd - (m 2 2) * hcs
    have c0 : m 0 2 = 0 := by linear_combination c * g02 + s * g12 - (m 0 2) * hcs
    have c1 : m 1 2 = 0 := by linear_combination s * g02 - c * g12 - (m 1 2) * hcs
    constructor <;> simp only [mulV, Matrix.transpose_apply, V3.sub_x, V3.sub_y, V3.sub_z, b0, b1, b2, c0, c1, c2] <;> ring
  · intro hz
    have b0 := congrArg V3.x hz
    have b1 := congrArg V3.y hz
    have b2 := congrArg V3.z hz
    simp only [mulV, mul_one, mul_zero, add_zero, zero_add] at b0 b1 b2
    rw [b0, b1, b2] at g12 hd
    have c2 : m 2 1 = 0 := by linear_combination g12
    have e1 : c * m 1 1 - s * m 0 1 = 1 := by linear_combination hd
    have c0 : m 0 1 = -s := by linear_combination c * g01 - s * e1 - (m 0 1) * hcs
    have c1 : m 1 1 = c := by linear_combination s * g01 + c * e1 - (m 1 1) * hcs
    constructor <;> simp only [mulV, Matrix.transpose_apply, V3.sub_x, V3.sub_y, V3.sub_z, b0, b1, b2, c0, c1, c2] <;> ring

/-- the hypotheses are met: a way to the north-east with a climb, a sample on either side; and a sensor looking to the north
with its second axis to the east (right) -/
example : ∃ T U : Traj ℝ (RotM ℝ), Coherent T ∧ Coherent U ∧ U.tstamps.length = T.tstamps.length ∧ U.rot = none ∧ T.rot = none ∧
    T.pos[0]? = some ⟨3, 0, 1⟩ ∧ U.pos[0]? = some ⟨0, 0, 0⟩ ∧ U.pos[1]? = some ⟨1, 1, 1⟩ ∧
    0 < toTheRight (⟨0, 0, 0⟩ : V3 ℝ) ⟨1, 1, 1⟩ ⟨3, 0, 1⟩ ∧ toTheRight (⟨0, 0, 0⟩ : V3 ℝ) ⟨1, 1, 1⟩ ⟨0, 3, 1⟩ < 0 :=
  ⟨exPair ⟨3, 0, 1⟩ ⟨0, 3, 1⟩, exPair ⟨0, 0, 0⟩ ⟨1, 1, 1⟩, exPair_coherent _ _, exPair_coherent _ _, rfl, rfl, rfl, rfl, rfl, rfl,
    by norm_num [toTheRight], by norm_num [toTheRight]⟩

example : ∃ o : RotM ℚ, mulV o.1 ⟨1, 0, 0⟩ = ⟨0, 1, 0⟩ ∧ mulV o.1 ⟨0, 1, 0⟩ = ⟨1, -0, 0⟩ :=
  ⟨⟨!![0, 1, 0; 1, 0, 0; 0, 0, -1], by decide +kernel⟩, by decide +kernel, by decide +kernel⟩

example : ∃ o : RotM ℚ, mulV o.1 ⟨1, 0, 0⟩ = ⟨3 / 5, 4 / 5, 0⟩ ∧ mulV o.1 ⟨0, 0, 1⟩ = ⟨0, 0, 1⟩ :=
  ⟨⟨!![3 / 5, -4 / 5, 0; 4 / 5, 3 / 5, 0; 0, 0, 1], by decide +kernel⟩, by decide +kernel, by decide +kernel⟩

end TC
