import Verif.Spec.Eval
import Verif.Proofs.Pose
import Verif.Proofs.Arc
import Verif.Proofs.Index
import Verif.Proofs.Interp
import Mathlib.Tactic.FieldSimp
import Mathlib.Tactic.LinearCombination
/-!
Lemmas about loops that evaluate an expression per entry, and the geometry of a track.
-/
namespace TC
set_option linter.unusedSectionVars false

section
variable {α β γ : Type}

theorem mapE_cons {f : α → Except Err β} {a : α} {l : List α} {b : β} {bs : List β}
    (h : f a = .ok b) (hs : mapE f l = .ok bs) : mapE f (a :: l) = .ok (b :: bs) := by
  simp only [mapE, h, hs]; rfl

theorem mapE_ok {f : α → Except Err β} {g : α → β} {l : List α} (h : ∀ a ∈ l, f a = .ok (g a)) :
    mapE f l = .ok (l.map g) := by
  induction l with
  | nil => rfl
  | cons a l ih =>
    exact mapE_cons (h a (by simp)) (ih (fun b hb => h b (by simp [hb])))

theorem mapE_cons_inv {f : α → Except Err β} {a : α} {l : List α} {r : List β}
    (h : mapE f (a :: l) = .ok r) :
    ∃ b bs, f a = .ok b ∧ mapE f l = .ok bs ∧ r = b :: bs := by
  simp only [mapE] at h
  rcases h1 : f a with e | b
  · rw [h1] at h; cases h
  rcases h2 : mapE f l with e | bs
  · rw [h1, h2] at h; cases h
  rw [h1, h2] at h
  injection h with h
  exact ⟨b, bs, rfl, rfl, h.symm⟩

theorem mapE_length {f : α → Except Err β} {l : List α} {r : List β} (h : mapE f l = .ok r) :
    r.length = l.length := by
  induction l generalizing r with
  | nil => cases h; rfl
  | cons a l ih =>
    obtain ⟨b, bs, _, h2, rfl⟩ := mapE_cons_inv h
    simp [ih h2]

theorem mapE_getElem? {f : α → Except Err β} {l : List α} {r : List β} (h : mapE f l = .ok r)
    {i : Nat} {a : α} (ha : l[i]? = some a) : ∃ b, f a = .ok b ∧ r[i]? = some b := by
  induction l generalizing r i with
  | nil => simp at ha
  | cons c l ih =>
    obtain ⟨b, bs, h1, h2, rfl⟩ := mapE_cons_inv h
    cases i with
    | zero => simp at ha; subst ha; exact ⟨b, h1, rfl⟩
    | succ i => simp at ha; obtain ⟨d, hd, he⟩ := ih h2 ha; exact ⟨d, hd, by simpa using he⟩

theorem mapE_mem {f : α → Except Err β} {l : List α} {r : List β} (h : mapE f l = .ok r)
    {b : β} (hb : b ∈ r) : ∃ a ∈ l, f a = .ok b := by
  induction l generalizing r with
  | nil => cases h; simp at hb
  | cons c l ih =>
    obtain ⟨b', bs, h1, h2, rfl⟩ := mapE_cons_inv h
    rcases List.mem_cons.1 hb with rfl | hb
    · exact ⟨c, by simp, h1⟩
    · obtain ⟨a, ha, hf⟩ := ih h2 hb; exact ⟨a, by simp [ha], hf⟩

theorem mapE_congr {f g : α → Except Err β} {l : List α} (h : ∀ a ∈ l, f a = g a) :
    mapE f l = mapE g l := by
  induction l with
  | nil => rfl
  | cons a l ih =>
    simp only [mapE, h a (by simp), ih (fun b hb => h b (by simp [hb]))]

theorem mapE_isOk {f : α → Except Err β} {l : List α} (h : ∀ a ∈ l, ∃ b, f a = .ok b) :
    ∃ r, mapE f l = .ok r := by
  induction l with
  | nil => exact ⟨[], rfl⟩
  | cons a l ih =>
    obtain ⟨b, hb⟩ := h a (by simp)
    obtain ⟨bs, hbs⟩ := ih (fun b hb => h b (by simp [hb]))
    exact ⟨_, mapE_cons hb hbs⟩

theorem mapE_error {f : α → Except Err β} {l : List α} {e : Err} (h : mapE f l = .error e) :
    ∃ a ∈ l, f a = .error e := by
  induction l with
  | nil => cases h
  | cons a l ih =>
    simp only [mapE] at h
    rcases h1 : f a with e' | b
    · rw [h1] at h; injection h with h; subst h; exact ⟨a, by simp, h1⟩
    · rcases h2 : mapE f l with e' | bs
      · rw [h1, h2] at h; injection h with h; subst h
        obtain ⟨c, hc, hf⟩ := ih h2
        exact ⟨c, by simp [hc], hf⟩
      · rw [h1, h2] at h; cases h

theorem bcast_eq {f : α → β → γ} {a : List α} {b : List β} (h : a.length = b.length) :
    bcast f a b = .ok (List.zipWith f a b) := by simp [bcast, h]

end

variable {K R : Type} [Field K] [LinearOrder K] [IsStrictOrderedRing K]

theorem npSign_mul_abs (x : K) : npSign x * |x| = x := by
  unfold npSign
  split_ifs with h1 h2
  · rw [abs_of_pos h1, one_mul]
  · rw [abs_of_neg h2]; ring
  · have : x = 0 := le_antisymm (not_lt.1 h1) (not_lt.1 h2)
    simp [this]

theorem npSign_mul_of_pos (c x : K) (hc : 0 < c) : npSign (c * x) = npSign x := by
  unfold npSign
  have h1 : 0 < c * x ↔ 0 < x := by constructor <;> intro h <;> [exact (pos_iff_pos_of_mul_pos h).1 hc; positivity]
  have h2 : c * x < 0 ↔ x < 0 := by
    constructor
    · intro h; by_contra hx; exact absurd (mul_nonneg hc.le (not_lt.1 hx)) (not_le.2 h)
    · intro h; exact mul_neg_of_pos_of_neg hc h
  simp only [h1, h2]

theorem npSign_neg (x : K) : npSign (-x) = -npSign x := by
  unfold npSign
  rcases lt_trichotomy x 0 with h | h | h
  · simp [h, not_lt.2 h.le]
  · simp [h]
  · simp [h, not_lt.2 h.le]

theorem npSign_sq {x : K} (h : x ≠ 0) : npSign x * npSign x = 1 := by
  unfold npSign
  rcases lt_or_gt_of_ne h with h | h
  · simp [h, not_lt.2 h.le]
  · simp [h]

theorem IsEvalLib.sqrt_unique {E : EvalLib K} (hE : IsEvalLib E) {x c : K} (hc : 0 ≤ c)
    (h : x = c * c) : E.sqrt x = c := by
  have hx : 0 ≤ x := by rw [h]; exact mul_self_nonneg c
  have h1 := hE.sqrt_sq x hx
  have h2 := hE.sqrt_nonneg x hx
  exact (mul_self_inj h2 hc).1 (by rw [h1, h])

theorem IsEvalLib.sqrt_zero {E : EvalLib K} (hE : IsEvalLib E) : E.sqrt 0 = 0 :=
  hE.sqrt_unique le_rfl (by ring)

theorem IsEvalLib.sqrt_abs {E : EvalLib K} (hE : IsEvalLib E) (x : K) : E.sqrt (x * x) = |x| :=
  hE.sqrt_unique (abs_nonneg x) (by rw [abs_mul_abs_self])

/-! ### the nearest point of a line -/

theorem normSq_eq_dot (v : V3 K) : v.normSq = V3.dot v v := rfl

theorem nrm_pos {nrm : V3 K → K} (h : IsNorm nrm) {v : V3 K} (hv : v ≠ 0) : 0 < nrm v :=
  lt_of_le_of_ne (h.nonneg v) (fun e => hv (h.eq_zero e.symm))

theorem nearestPoint_of_ne {E : EvalLib K} (hE : IsEvalLib E) {p a b : V3 K} (hab : a ≠ b) :
    nearestPoint E p a b =
      (a + (V3.dot (p - a) (b - a) / (b - a).normSq) • (b - a),
        V3.dot (p - a) (b - a) / E.nrm (b - a)) := by
  have hv : b - a ≠ 0 := fun h => hab (sub_eq_zero.1 h).symm
  have hn := nrm_pos hE.nrm hv
  have hsq := hE.nrm.sq (b - a)
  unfold nearestPoint
  simp only
  rw [if_neg (ne_of_gt hn)]
  refine Prod.ext ?_ ?_
  · simp only
    rw [smul_smul]
    congr 2
    rw [← hsq]
    simp only [V3.dot, V3.smul_x, V3.smul_y, V3.smul_z]
    field_simp
  · simp only [V3.dot, V3.smul_x, V3.smul_y, V3.smul_z]
    field_simp

theorem normSq_pos {v : V3 K} (h : v ≠ 0) : 0 < v.normSq := by
  unfold V3.normSq
  rcases eq_or_ne v.x 0 with hx | hx
  · rcases eq_or_ne v.y 0 with hy | hy
    · rcases eq_or_ne v.z 0 with hz | hz
      · exact absurd (V3.ext hx hy hz) h
      · have := mul_self_pos.2 hz
        have := mul_self_nonneg v.x
        have := mul_self_nonneg v.y
        linarith
    · have := mul_self_pos.2 hy
      have := mul_self_nonneg v.x
      have := mul_self_nonneg v.z
      linarith
  · have := mul_self_pos.2 hx
    have := mul_self_nonneg v.y
    have := mul_self_nonneg v.z
    linarith

theorem nearestPoint_start (E : EvalLib K) (a b : V3 K) : nearestPoint E a a b = (a, 0) := by
  unfold nearestPoint
  simp only
  split_ifs
  · rfl
  · have h : V3.dot (a - a) ((E.nrm (b - a))⁻¹ • (b - a)) = 0 := by simp [V3.dot]
    rw [h]; simp

theorem nearestPoint_end {E : EvalLib K} (hE : IsEvalLib E) (a b : V3 K) :
    (nearestPoint E b a b).1 = b := by
  rcases eq_or_ne a b with rfl | hab
  · rw [nearestPoint_start]
  · rw [nearestPoint_of_ne hE hab]
    have hv : b - a ≠ 0 := fun h => hab (sub_eq_zero.1 h).symm
    simp only
    rw [← normSq_eq_dot, div_self (ne_of_gt (normSq_pos hv)), one_smul]
    abel

theorem crossTrackDev_of_nearest {E : EvalLib K} (hE : IsEvalLib E) {p a b : V3 K}
    (h : (nearestPoint E p a b).1 = p) : crossTrackDev E p a b = (0, 0) := by
  unfold crossTrackDev
  simp only [h]
  simp [hE.sqrt_zero]

theorem alongTrackDev_start (E : EvalLib K) (a b : V3 K) :
    alongTrackDev E a a b false = 0 := by
  unfold alongTrackDev
  simp [nearestPoint_start, npSign]

theorem alongTrackDev_end {E : EvalLib K} (hE : IsEvalLib E) (a b : V3 K) :
    alongTrackDev E b a b true = 0 := by
  unfold alongTrackDev
  simp only [nearestPoint_end hE]
  simp [hE.nrm.zero]

/-- the points between which the line for sample `i` of `n` is drawn -/
def trackLine (ref : List (V3 K)) (n i : Nat) : Option (V3 K × V3 K) :=
  if i + 1 = n then (if i = 0 then (fun b => (b, b)) <$> ref[0]?
    else (fun a b => (a, b)) <$> ref[i - 1]? <*> ref[i]?)
  else (fun a b => (a, b)) <$> ref[i]? <*> ref[i + 1]?

theorem devNoRot_eq (E : EvalLib K) {ref test : List (V3 K)} (hlen : ref.length = test.length)
    {i : Nat} (hi : i < test.length) {p a b : V3 K} (hp : test[i]? = some p)
    (hl : trackLine ref test.length i = some (a, b)) :
    devNoRot E ref test i = .ok ⟨alongTrackDev E p a b (decide (i + 1 = test.length)),
      (crossTrackDev E p a b).1, (crossTrackDev E p a b).2⟩ := by
  have e0 : npGet ref (i : Int) = .ok (ref[i]'(by omega)) := npGet_nat (by omega)
  have e1 : npGet test (i : Int) = .ok p := by
    rw [npGet_nat hi]; rw [List.getElem?_eq_getElem hi] at hp; injection hp with hp; rw [hp]
  unfold devNoRot
  rw [e0, e1]
  by_cases hlast : i + 1 = test.length
  · have hm : npGet ref ((i : Int) - 1) = .ok a ∧ ref[i]'(by omega) = b := by
      unfold trackLine at hl
      rw [if_pos hlast] at hl
      rcases Nat.eq_zero_or_pos i with h0 | h0
      · subst h0
        rw [if_pos rfl] at hl
        have h1 : ref.length = 1 := by omega
        have : npGet ref (-1) = .ok (ref[ref.length - 1]'(by omega)) := npGet_neg_one (by omega)
        rw [List.getElem?_eq_getElem (by omega)] at hl
        simp at hl
        constructor
        · simp only [Nat.cast_zero, zero_sub, this, h1]
          simpa using hl.1
        · exact hl.2
      · rw [if_neg (by omega), List.getElem?_eq_getElem (show i - 1 < ref.length by omega),
          List.getElem?_eq_getElem (show i < ref.length by omega)] at hl
        simp at hl
        refine ⟨?_, hl.2⟩
        have : (i : Int) - 1 = ((i - 1 : Nat) : Int) := by omega
        rw [this, npGet_nat (by omega)]
        rw [← hl.1]
    simp only [hlast, decide_true, if_true]
    rw [hm.1, hm.2]
    rfl
  · have hm : npGet ref ((i : Int) + 1) = .ok b ∧ ref[i]'(by omega) = a := by
      unfold trackLine at hl
      rw [if_neg hlast, List.getElem?_eq_getElem (show i < ref.length by omega),
          List.getElem?_eq_getElem (show i + 1 < ref.length by omega)] at hl
      simp at hl
      refine ⟨?_, hl.1⟩
      have : (i : Int) + 1 = ((i + 1 : Nat) : Int) := by omega
      rw [this, npGet_nat (by omega), hl.2]
    simp only [hlast, decide_false]
    simp only [Bool.false_eq_true, if_false]
    rw [hm.1, hm.2]
    rfl

theorem trackLine_isSome {ref : List (V3 K)} {n i : Nat} (hlen : ref.length = n) (hi : i < n) :
    ∃ a b, trackLine ref n i = some (a, b) ∧
      (i + 1 = n → ref[i]? = some b) ∧ (i + 1 ≠ n → ref[i]? = some a) := by
  unfold trackLine
  rcases Nat.lt_or_ge (i + 1) n with h | h
  · rw [if_neg (by omega), List.getElem?_eq_getElem (show i < ref.length by omega),
      List.getElem?_eq_getElem (show i + 1 < ref.length by omega)]
    exact ⟨_, _, rfl, by omega, fun _ => rfl⟩
  · rw [if_pos (by omega)]
    rcases Nat.eq_zero_or_pos i with h0 | h0
    · subst h0
      rw [if_pos rfl, List.getElem?_eq_getElem (show 0 < ref.length by omega)]
      exact ⟨_, _, rfl, fun _ => rfl, by omega⟩
    · rw [if_neg (by omega), List.getElem?_eq_getElem (show i < ref.length by omega),
        List.getElem?_eq_getElem (show i - 1 < ref.length by omega)]
      exact ⟨_, _, rfl, fun _ => rfl, by omega⟩

theorem devDirectionsNoRot_isOk (E : EvalLib K) {ref test : List (V3 K)}
    (hlen : ref.length = test.length) : ∃ d, devDirectionsNoRot E ref test = .ok d ∧
      d.length = test.length := by
  have : ∀ i ∈ List.range test.length, ∃ b, devNoRot E ref test i = .ok b := by
    intro i hi
    have hi' := List.mem_range.1 hi
    obtain ⟨a, b, h, _⟩ := trackLine_isSome hlen hi'
    exact ⟨_, devNoRot_eq E hlen hi' (List.getElem?_eq_getElem hi') h⟩
  obtain ⟨d, hd⟩ := mapE_isOk this
  exact ⟨d, hd, by rw [mapE_length hd, List.length_range]⟩

theorem devDirectionsWithRot_eq {ref test : List (V3 K)} {rot : List (M3 K)}
    (h1 : ref.length = test.length) (h2 : ref.length = rot.length) :
    devDirectionsWithRot ref test rot = .ok (List.zipWith (fun m d => mulV m.transpose d) rot
      (List.zipWith (fun q p => q - p) test ref)) := by
  induction ref generalizing test rot with
  | nil =>
    have : test = [] := List.length_eq_zero_iff.1 (by simpa using h1.symm)
    subst this
    simp [devDirectionsWithRot]
  | cons p ps ih =>
    rcases test with _ | ⟨q, qs⟩
    · simp at h1
    rcases rot with _ | ⟨m, ms⟩
    · simp at h2
    simp only [devDirectionsWithRot, ih (by simpa using h1) (by simpa using h2)]
    rfl

/-- the comparison of two trajectories with the same number of samples -/
theorem compareAbsolute_eq (E : EvalLib K) (L : RotLib K R) {test ref : Traj K R}
    (hT : Coherent test) (hR : Coherent ref) (hlen : ref.tstamps.length = test.tstamps.length) :
    ∃ dir, directedDeviations E L ref.pos test.pos (rotEither ref.rot test.rot) = .ok dir ∧
      dir.length = test.tstamps.length ∧
      compareAbsolute E L test ref = .ok
        { name := test.name ++ " vs. " ++ ref.name
          trajectory := test
          posDev := List.zipWith (fun a b => a - b) ref.pos test.pos
          directed := dir
          rotDev := match ref.rot, test.rot with
            | some r, some t => some (List.zipWith (fun a b => L.mul a (L.inv b)) r t)
            | _, _ => none
          rotationsUsed := (rotEither ref.rot test.rot).isSome } := by
  have hp : ref.pos.length = test.pos.length := by rw [hT.pos, hR.pos, hlen]
  have hdir : ∃ dir, directedDeviations E L ref.pos test.pos (rotEither ref.rot test.rot) = .ok dir ∧
      dir.length = test.tstamps.length := by
    rcases h : rotEither ref.rot test.rot with _ | r
    · obtain ⟨d, h1, h2⟩ := devDirectionsNoRot_isOk E hp
      exact ⟨d, h1, by rw [h2, hT.pos]⟩
    · have hr : r.length = ref.pos.length := by
        unfold rotEither at h
        rcases h3 : ref.rot with _ | r'
        · rw [h3] at h; rw [hT.rot r h, hR.pos, hlen]
        · rw [h3] at h; injection h with h; subst h; rw [hR.rot _ h3, hR.pos]
      refine ⟨_, devDirectionsWithRot_eq hp (by simp [hr]), ?_⟩
      simp [hr, hT.pos, hR.pos, hlen]
  obtain ⟨dir, h1, h2⟩ := hdir
  refine ⟨dir, h1, h2, ?_⟩
  unfold compareAbsolute
  rw [bcast_eq hp, h1]
  rcases hr : ref.rot with _ | r
  · rfl
  · rcases ht : test.rot with _ | t
    · rfl
    · have : r.length = t.length := by rw [hR.rot r hr, hT.rot t ht, hlen]
      have e := bcast_eq (f := fun a b => L.mul a (L.inv b)) this
      simp only [e]
      rfl

end TC
