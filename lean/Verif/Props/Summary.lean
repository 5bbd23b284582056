import Verif.Spec.Summary
import Verif.Props.Stats
import Verif.Props.Report
import Verif.Props.TrajFile
import Verif.Props.Ate
import Verif.Spec.Plots
/-!
# C159: the summary of an absolute error
-/
namespace TC
set_option linter.unusedSectionVars false
variable {K R : Type} [Field K] [LinearOrder K] [IsStrictOrderedRing K] [FloorRing K]

/-- a number in the text is the number rounded -/
theorem says_fmt {d : List (Str × Str)} {key : String} {x : K} (h : look d key.toList = some (fmtFixed 4 x)) : SaysNumber d key x := by
  have hc := roundTo_close 4 x
  refine ⟨_, roundTo 4 x, if x < 0 then -(roundEven (|x| * 10 ^ 4) : ℤ) else (roundEven (|x| * 10 ^ 4) : ℤ), h,
    parseNum_fmtFixed 4 x, ?_, ?_⟩
  · unfold roundTo
    split_ifs
    · push_cast
      norm_num
      ring
    · push_cast
      norm_num
  · norm_num at hc ⊢
    exact hc

theorem entry_ok {key : String} {x : Except Err K} {v : K} (h : x = .ok v) :
    AteResult.entry key x = .ok (key.toList, fmtFixed 4 v) := by rw [h]; rfl

theorem rotEntry_some {G : AngleLib K R} {a : AteResult K R} {r : List R} (hr : a.rotDev = some r) {key : String} {x : Except Err K}
    {v : K} (h : x = .ok v) : AteResult.rotEntry G a key x = .ok (key.toList, fmtFixed 4 (G.deg v)) := by
  unfold AteResult.rotEntry
  rw [h, hr]
  rfl

theorem rotEntry_none {G : AngleLib K R} {a : AteResult K R} (hr : a.rotDev = none) {key : String} {x : Except Err K} :
    AteResult.rotEntry G a key x = .ok (key.toList, ['-']) := by
  unfold AteResult.rotEntry
  rw [hr]
  rfl

/-- the column of a nonempty list -/
theorem rms_ok {E : EvalLib K} (hE : IsEvalLib E) {l : List K} (h : l ≠ []) : ∃ v, rms E l = .ok v ∧ IsRms l v := by
  obtain ⟨s, -, -, -, -, -, h6, h7⟩ := summary_of_list E hE l h
  exact ⟨_, h6, h7.rms_nonneg, h7.rms⟩

theorem mean_ok {l : List K} (h : l ≠ []) : ∃ v, npMean l = .ok v ∧ IsMean l v := by
  refine ⟨_, npMean_ne h, ?_⟩
  have : (l.length : K) ≠ 0 := by exact_mod_cast (List.length_pos_of_ne_nil h).ne'
  unfold IsMean
  rw [div_mul_cancel₀ _ this]

/-- the lines in metres, as a function of the statistics -/
def posTexts (s : Summary K) (b r bd rd : V3 K) : List (Str × Str) :=
  [("Maximum position deviation [m]".toList, fmtFixed 4 s.greatest), ("Mean position deviation [m]".toList, fmtFixed 4 s.mean),
   ("Median position deviation [m]".toList, fmtFixed 4 s.median), ("Minimum position deviation [m]".toList, fmtFixed 4 s.least),
   ("RMS Position [m]".toList, fmtFixed 4 s.rms), ("STD Position [m]".toList, fmtFixed 4 s.std),
   ("Bias X [m]".toList, fmtFixed 4 b.x), ("Bias Y [m]".toList, fmtFixed 4 b.y), ("Bias Z [m]".toList, fmtFixed 4 b.z),
   ("RMS X [m]".toList, fmtFixed 4 r.x), ("RMS Y [m]".toList, fmtFixed 4 r.y), ("RMS Z [m]".toList, fmtFixed 4 r.z),
   ("Bias Along-Track [m]".toList, fmtFixed 4 bd.x), ("Bias Horizontal Cross-Track [m]".toList, fmtFixed 4 bd.y),
   ("Bias Vertical Cross-Track [m]".toList, fmtFixed 4 bd.z), ("RMS Along-Track [m]".toList, fmtFixed 4 rd.x),
   ("RMS Horizontal Cross-Track [m]".toList, fmtFixed 4 rd.y), ("RMS Vertical Cross-Track [m]".toList, fmtFixed 4 rd.z)]

/-- the lines in degrees -/
def rotTexts (G : AngleLib K R) (s : Summary K) (r b : V3 K) : List (Str × Str) :=
  [("Maximum rotation deviation [°]".toList, fmtFixed 4 (G.deg s.greatest)), ("Mean rotation deviation [°]".toList, fmtFixed 4 (G.deg s.mean)),
   ("Median rotation deviation [°]".toList, fmtFixed 4 (G.deg s.median)), ("Minimum rotation deviation [°]".toList, fmtFixed 4 (G.deg s.least)),
   ("RMS Rotation [°]".toList, fmtFixed 4 (G.deg s.rms)), ("STD Rotation [°]".toList, fmtFixed 4 (G.deg s.std)),
   ("RMS Roll [°]".toList, fmtFixed 4 (G.deg r.x)), ("RMS Pitch [°]".toList, fmtFixed 4 (G.deg r.y)),
   ("RMS Yaw [°]".toList, fmtFixed 4 (G.deg r.z)), ("Bias Roll [°]".toList, fmtFixed 4 (G.deg b.x)),
   ("Bias Pitch [°]".toList, fmtFixed 4 (G.deg b.y)), ("Bias Yaw [°]".toList, fmtFixed 4 (G.deg b.z))]

/-- mean and root mean square of the three columns of a nonempty array -/
structure IsColumns (l : List (V3 K)) (b r : V3 K) : Prop where
  bx : npMean (l.map V3.x) = .ok b.x ∧ IsMean (l.map V3.x) b.x
  bY : npMean (l.map V3.y) = .ok b.y ∧ IsMean (l.map V3.y) b.y
  bz : npMean (l.map V3.z) = .ok b.z ∧ IsMean (l.map V3.z) b.z
  rx : IsRms (l.map V3.x) r.x
  ry : IsRms (l.map V3.y) r.y
  rz : IsRms (l.map V3.z) r.z

theorem columns_ok {E : EvalLib K} (hE : IsEvalLib E) {l : List (V3 K)} (h : l ≠ []) : ∃ b r, IsColumns l b r ∧
    rms E (l.map V3.x) = .ok r.x ∧ rms E (l.map V3.y) = .ok r.y ∧ rms E (l.map V3.z) = .ok r.z := by
  have nx : ∀ f : V3 K → K, l.map f ≠ [] := fun f => by simpa using h
  obtain ⟨bx, ebx, ibx⟩ := mean_ok (nx V3.x)
  obtain ⟨bY, eby, iby⟩ := mean_ok (nx V3.y)
  obtain ⟨bz, ebz, ibz⟩ := mean_ok (nx V3.z)
  obtain ⟨rx, erx, irx⟩ := rms_ok hE (nx V3.x)
  obtain ⟨ry, ery, iry⟩ := rms_ok hE (nx V3.y)
  obtain ⟨rz, erz, irz⟩ := rms_ok hE (nx V3.z)
  exact ⟨⟨bx, bY, bz⟩, ⟨rx, ry, rz⟩, ⟨⟨ebx, ibx⟩, ⟨eby, iby⟩, ⟨ebz, ibz⟩, irx, iry, irz⟩, erx, ery, erz⟩

theorem positionLines_ok {E : EvalLib K} (hE : IsEvalLib E) {a : AteResult K R} (hne : a.posDev ≠ []) (hdir : a.directed ≠ []) :
    ∃ s b r bd rd, IsSummary (a.posDev.map E.nrm) s ∧ IsColumns a.posDev b r ∧ IsColumns a.directed bd rd ∧
      a.positionLines E = .ok (posTexts s b r bd rd) := by
  obtain ⟨s, h1, h2, h3, h4, h5, h6, h7, -⟩ := C66_position_statistics E hE a hne
  obtain ⟨b, r, hc, e1, e2, e3⟩ := columns_ok hE hne
  obtain ⟨bd, rd, hd, e4, e5, e6⟩ := columns_ok hE hdir
  refine ⟨s, b, r, bd, rd, h7, hc, hd, ?_⟩
  unfold AteResult.positionLines
  rw [entry_ok h1, entry_ok h2, entry_ok h3, entry_ok h4, entry_ok h5, entry_ok h6,
    entry_ok (x := a.posBiasX) hc.bx.1, entry_ok (x := a.posBiasY) hc.bY.1, entry_ok (x := a.posBiasZ) hc.bz.1,
    entry_ok (x := a.posRmsX E) e1, entry_ok (x := a.posRmsY E) e2, entry_ok (x := a.posRmsZ E) e3,
    entry_ok (x := a.posBiasAlong) hd.bx.1, entry_ok (x := a.posBiasCrossH) hd.bY.1, entry_ok (x := a.posBiasCrossV) hd.bz.1,
    entry_ok (x := a.posRmsAlong E) e4, entry_ok (x := a.posRmsCrossH E) e5, entry_ok (x := a.posRmsCrossV E) e6]
  rfl

theorem rotationLines_some {E : EvalLib K} (hE : IsEvalLib E) (L : RotLib K R) (G : AngleLib K R) {a : AteResult K R}
    {q : List R} (hq : a.rotDev = some q) (hne : q ≠ []) :
    ∃ s b r, IsSummary (q.map (fun q => rotAngle E (L.toMat q))) s ∧ IsColumns (q.map G.euler) b r ∧
      a.rotationLines E L G = .ok (rotTexts G s r (G.euler (G.mean q))) := by
  obtain ⟨s, h1, h2, h3, h4, h5, h6, h7, -⟩ := C66_rotation_statistics E hE L a q hq hne
  have hx : a.rotDevXyz G = q.map G.euler := by unfold AteResult.rotDevXyz; rw [hq]
  have hb : a.rotBiasXyz G = G.euler (G.mean q) := by unfold AteResult.rotBiasXyz; rw [hq]
  obtain ⟨b, r, hc, e1, e2, e3⟩ := columns_ok hE (l := a.rotDevXyz G) (by rw [hx]; simpa using hne)
  rw [hx] at hc
  refine ⟨s, b, r, h7, hc, ?_⟩
  unfold AteResult.rotationLines
  rw [rotEntry_some hq h1, rotEntry_some hq h2, rotEntry_some hq h3, rotEntry_some hq h4, rotEntry_some hq h5, rotEntry_some hq h6,
    rotEntry_some hq (x := a.rotRmsX E G) e1, rotEntry_some hq (x := a.rotRmsY E G) e2, rotEntry_some hq (x := a.rotRmsZ E G) e3,
    rotEntry_some hq rfl, rotEntry_some hq rfl, rotEntry_some hq rfl, hb]
  rfl

theorem rotationLines_none (E : EvalLib K) (L : RotLib K R) (G : AngleLib K R) {a : AteResult K R} (hq : a.rotDev = none) :
    a.rotationLines E L G = .ok (rotationKeys.map (fun k => (k.toList, ['-']))) := by
  unfold AteResult.rotationLines
  rw [rotEntry_none hq, rotEntry_none hq, rotEntry_none hq, rotEntry_none hq, rotEntry_none hq, rotEntry_none hq, rotEntry_none hq,
    rotEntry_none hq, rotEntry_none hq, rotEntry_none hq, rotEntry_none hq, rotEntry_none hq]
  rfl

theorem propertyDict_ok {E : EvalLib K} {L : RotLib K R} {G : AngleLib K R} {a : AteResult K R} {p r : List (Str × Str)}
    (hp : a.positionLines E = .ok p) (hr : a.rotationLines E L G = .ok r) :
    a.propertyDict E L G = .ok (a.headLines ++ p ++ r) := by
  unfold AteResult.propertyDict
  rw [hp, hr]
  rfl

theorem rotationLines_ok {E : EvalLib K} (hE : IsEvalLib E) (L : RotLib K R) (G : AngleLib K R) {a : AteResult K R}
    (hrot : a.rotDev ≠ some []) : ∃ l, a.rotationLines E L G = .ok l := by
  rcases hq : a.rotDev with _ | q
  · exact ⟨_, rotationLines_none E L G hq⟩
  · obtain ⟨s, b, r, -, -, h⟩ := rotationLines_some hE L G hq (by rintro rfl; exact hrot hq)
    exact ⟨_, h⟩

/-- **C159**, positions: the summary of an absolute error with deviations exists, and its lines say, to four decimals, what their
names say about the deviations: statistics of their lengths, mean and root mean square of each coordinate and of each directed
component.
Missing for the full property: the unit after a report in millimetres, see `C159_unit_wrong`. -/
theorem C159_positions_partial {E : EvalLib K} (hE : IsEvalLib E) (L : RotLib K R) (G : AngleLib K R) (a : AteResult K R)
    (hne : a.posDev ≠ []) (hdir : a.directed ≠ []) (hrot : a.rotDev ≠ some []) :
    ∃ d s, a.propertyDict E L G = .ok d ∧ look d "Name".toList = some a.name.toList ∧
      look d "Number of deviations".toList = some (natStr a.posDev.length) ∧
      IsSummary (a.posDev.map E.nrm) s ∧
      SaysNumber d "Minimum position deviation [m]" s.least ∧ SaysNumber d "Maximum position deviation [m]" s.greatest ∧
      SaysNumber d "Mean position deviation [m]" s.mean ∧ SaysNumber d "Median position deviation [m]" s.median ∧
      SaysNumber d "STD Position [m]" s.std ∧ SaysNumber d "RMS Position [m]" s.rms ∧
      SaysColumn d "Bias X [m]" "RMS X [m]" (a.posDev.map V3.x) ∧ SaysColumn d "Bias Y [m]" "RMS Y [m]" (a.posDev.map V3.y) ∧
      SaysColumn d "Bias Z [m]" "RMS Z [m]" (a.posDev.map V3.z) ∧
      SaysColumn d "Bias Along-Track [m]" "RMS Along-Track [m]" (a.directed.map V3.x) ∧
      SaysColumn d "Bias Horizontal Cross-Track [m]" "RMS Horizontal Cross-Track [m]" (a.directed.map V3.y) ∧
      SaysColumn d "Bias Vertical Cross-Track [m]" "RMS Vertical Cross-Track [m]" (a.directed.map V3.z) := by
  obtain ⟨s, b, r, bd, rd, hs, hc, hd, hp⟩ := positionLines_ok hE hne hdir
  obtain ⟨l, hl⟩ := rotationLines_ok hE L G hrot
  refine ⟨_, s, propertyDict_ok hp hl, rfl, rfl, hs, says_fmt rfl, says_fmt rfl, says_fmt rfl, says_fmt rfl, says_fmt rfl,
    says_fmt rfl, ⟨_, _, says_fmt rfl, says_fmt rfl, hc.bx.2, hc.rx⟩, ⟨_, _, says_fmt rfl, says_fmt rfl, hc.bY.2, hc.ry⟩,
    ⟨_, _, says_fmt rfl, says_fmt rfl, hc.bz.2, hc.rz⟩, ⟨_, _, says_fmt rfl, says_fmt rfl, hd.bx.2, hd.rx⟩,
    ⟨_, _, says_fmt rfl, says_fmt rfl, hd.bY.2, hd.ry⟩, ⟨_, _, says_fmt rfl, says_fmt rfl, hd.bz.2, hd.rz⟩⟩

/-- **C159**, rotations: with rotation deviations the lines about rotations say, in degrees, the statistics of their angles, the
root mean squares of roll, pitch and yaw, and roll, pitch and yaw of the mean rotation. -/
theorem C159_rotations {E : EvalLib K} (hE : IsEvalLib E) (L : RotLib K R) (G : AngleLib K R) (a : AteResult K R)
    (hpos : a.posDev ≠ []) (hdir : a.directed ≠ []) {q : List R} (hq : a.rotDev = some q) (hne : q ≠ []) :
    ∃ (d : List (Str × Str)) (s : Summary K) (r : V3 K), a.propertyDict E L G = .ok d ∧ IsSummary (q.map (fun q => rotAngle E (L.toMat q))) s ∧
      SaysNumber d "Minimum rotation deviation [°]" (G.deg s.least) ∧ SaysNumber d "Maximum rotation deviation [°]" (G.deg s.greatest) ∧
      SaysNumber d "Mean rotation deviation [°]" (G.deg s.mean) ∧ SaysNumber d "Median rotation deviation [°]" (G.deg s.median) ∧
      SaysNumber d "STD Rotation [°]" (G.deg s.std) ∧ SaysNumber d "RMS Rotation [°]" (G.deg s.rms) ∧
      SaysNumber d "RMS Roll [°]" (G.deg r.x) ∧ IsRms (q.map (fun q => (G.euler q).x)) r.x ∧
      SaysNumber d "RMS Pitch [°]" (G.deg r.y) ∧ IsRms (q.map (fun q => (G.euler q).y)) r.y ∧
      SaysNumber d "RMS Yaw [°]" (G.deg r.z) ∧ IsRms (q.map (fun q => (G.euler q).z)) r.z ∧
      SaysNumber d "Bias Roll [°]" (G.deg (G.euler (G.mean q)).x) ∧ SaysNumber d "Bias Pitch [°]" (G.deg (G.euler (G.mean q)).y) ∧
      SaysNumber d "Bias Yaw [°]" (G.deg (G.euler (G.mean q)).z) := by
  obtain ⟨s, b, r, bd, rd, -, -, -, hp⟩ := positionLines_ok hE hpos hdir
  obtain ⟨s', b', r', hs, hc, hl⟩ := rotationLines_some hE L G hq hne
  have hx := hc.rx
  have hy := hc.ry
  have hz := hc.rz
  rw [List.map_map] at hx hy hz
  exact ⟨_, s', r', propertyDict_ok hp hl, hs, says_fmt rfl, says_fmt rfl, says_fmt rfl, says_fmt rfl, says_fmt rfl, says_fmt rfl,
    says_fmt rfl, hx, says_fmt rfl, hy, says_fmt rfl, hz, says_fmt rfl, says_fmt rfl, says_fmt rfl⟩

omit [FloorRing K] in
theorem dash_ne_fmt [FloorRing K] (x : K) : fmtFixed 4 x ≠ ['-'] := by
  intro h
  have := fmtFixed_dot 4 x
  rw [h] at this
  simp at this

/-- **C159**, dashes: a line about rotations is a dash if and only if the result has no rotation deviations. -/
theorem C159_dashes {E : EvalLib K} (hE : IsEvalLib E) (L : RotLib K R) (G : AngleLib K R) (a : AteResult K R)
    (hpos : a.posDev ≠ []) (hdir : a.directed ≠ []) (hrot : a.rotDev ≠ some []) {d : List (Str × Str)}
    (h : a.propertyDict E L G = .ok d) {key : String} (hk : key ∈ rotationKeys) :
    look d key.toList = some ['-'] ↔ a.rotDev = none := by
  obtain ⟨s, b, r, bd, rd, -, -, -, hp⟩ := positionLines_ok hE hpos hdir
  rcases hq : a.rotDev with _ | q
  · rw [propertyDict_ok hp (rotationLines_none E L G hq)] at h
    cases h
    simp only [rotationKeys, List.mem_cons, List.not_mem_nil, or_false] at hk
    simp only [iff_true]
    rcases hk with rfl | rfl | rfl | rfl | rfl | rfl | rfl | rfl | rfl | rfl | rfl | rfl <;> rfl
  · obtain ⟨s', b', r', -, -, hl⟩ := rotationLines_some hE L G hq (by rintro rfl; exact hrot hq)
    rw [propertyDict_ok hp hl] at h
    cases h
    simp only [rotationKeys, List.mem_cons, List.not_mem_nil, or_false] at hk
    simp only [reduceCtorEq, iff_false]
    rcases hk with rfl | rfl | rfl | rfl | rfl | rfl | rfl | rfl | rfl | rfl | rfl | rfl <;>
      exact fun h => dash_ne_fmt _ (Option.some.inj h)

/-- the numbers that are shown under two keys -/
def ShownInOrder (d : List (Str × Str)) (k k' : String) : Prop :=
  ∃ t t' : Str, ∃ y y' : K, look d k.toList = some t ∧ look d k'.toList = some t' ∧ parseNum t = some y ∧ parseNum t' = some y' ∧ y ≤ y'

theorem shown_mono {d : List (Str × Str)} {k k' : String} {x x' : K} (h : look d k.toList = some (fmtFixed 4 x))
    (h' : look d k'.toList = some (fmtFixed 4 x')) (hx : x ≤ x') : ShownInOrder (K := K) d k k' :=
  ⟨_, _, _, _, h, h', parseNum_fmtFixed 4 x, parseNum_fmtFixed 4 x', roundTo_mono 4 hx⟩

/-- **C159**, order: also the rounded numbers are in the order of the statistics; rounding does not show a minimum above the
median or the mean, or one of them above the maximum, or a mean above the root mean square. -/
theorem C159_order {E : EvalLib K} (hE : IsEvalLib E) (L : RotLib K R) (G : AngleLib K R) (a : AteResult K R)
    (hpos : a.posDev ≠ []) (hdir : a.directed ≠ []) {d : List (Str × Str)} (h : a.propertyDict E L G = .ok d) :
    ShownInOrder (K := K) d "Minimum position deviation [m]" "Median position deviation [m]" ∧
      ShownInOrder (K := K) d "Median position deviation [m]" "Maximum position deviation [m]" ∧
      ShownInOrder (K := K) d "Minimum position deviation [m]" "Mean position deviation [m]" ∧
      ShownInOrder (K := K) d "Mean position deviation [m]" "RMS Position [m]" ∧
      ShownInOrder (K := K) d "RMS Position [m]" "Maximum position deviation [m]" := by
  obtain ⟨s, b, r, bd, rd, hs, -, -, hp⟩ := positionLines_ok hE hpos hdir
  obtain ⟨c1, c2, c3, c4, c5⟩ := hs.consistent
  obtain ⟨m1, m2⟩ := hs.median_between
  have hg : 0 ≤ s.greatest := by
    obtain ⟨v, -, hv⟩ := List.mem_map.1 hs.greatest_mem
    rw [← hv]
    exact hE.nrm.nonneg v
  have hr : s.rms ≤ s.greatest := by
    apply le_of_sq_le_sq _ hg
    have hn : (0 : K) < ((a.posDev.map E.nrm).length : K) := by
      exact_mod_cast List.length_pos_of_ne_nil (by simpa using hpos)
    have : ((a.posDev.map E.nrm).map (fun x => x ^ 2)).sum ≤ s.greatest ^ 2 * ((a.posDev.map E.nrm).length : K) := by
      have := sum_le_mul (l := (a.posDev.map E.nrm).map (fun x => x ^ 2)) (c := s.greatest ^ 2) (by
        intro y hy
        obtain ⟨x, hx, rfl⟩ := List.mem_map.1 hy
        have h1 := hs.le_greatest x hx
        obtain ⟨v, -, rfl⟩ := List.mem_map.1 hx
        exact pow_le_pow_left₀ (hE.nrm.nonneg v) h1 2)
      rwa [List.length_map] at this
    rw [← hs.rms] at this
    exact le_of_mul_le_mul_right this hn
  unfold AteResult.propertyDict at h
  rw [hp] at h
  simp only [bind, Except.bind] at h
  cases hl : a.rotationLines E L G with
  | error e => rw [hl] at h; cases h
  | ok l =>
    rw [hl] at h
    cases h
    exact ⟨shown_mono rfl rfl m1, shown_mono rfl rfl m2, shown_mono rfl rfl c1, shown_mono rfl rfl ((le_abs_self _).trans c4),
      shown_mono rfl rfl hr⟩

section
open Report

/-- **C159 is false of the code**: after `n` reports in millimetres on a result, its summary still has the lines in metres, and
under "Maximum position deviation [m]" stands `1000 ^ n` times the largest deviation in metres. -/
theorem C159_unit_wrong {E : EvalLib K} (hE : IsEvalLib E) (L : RotLib K R) (G : AngleLib K R) {i : Nat}
    {results results' : List (AteResult K R)} {a : AteResult K R} (hi : results[i]? = some a) (hpos : a.posDev ≠ [])
    (hdir : a.directed ≠ []) (hrot : a.rotDev ≠ some []) {x : K} (hx : a.posDevMax E = .ok x) (n : Nat)
    (hn : postInits true (List.replicate n i) results = (.ok (), results')) :
    ∃ a' d, results'[i]? = some a' ∧ a'.propertyDict E L G = .ok d ∧
      SaysNumber d "Maximum position deviation [m]" (1000 ^ n * x) ∧
      (0 < n → 1 ≤ x → ¬ SaysNumber d "Maximum position deviation [m]" x) := by
  obtain ⟨s, e1, e2, -⟩ := C94_millimetres_change_results (K := K) (R := R) n hi
  rw [hn] at e1
  obtain ⟨-, rfl⟩ := Prod.mk.inj e1
  have h1 : (inUnit (1000 ^ n : K) a).posDev ≠ [] := by simpa [inUnit] using hpos
  have h2 : (inUnit (1000 ^ n : K) a).directed ≠ [] := by simpa [inUnit] using hdir
  have h3 : (inUnit (1000 ^ n : K) a).rotDev ≠ some [] := hrot
  obtain ⟨s, b, r, bd, rd, hs, -, -, hp⟩ := positionLines_ok hE h1 h2
  obtain ⟨l, hl⟩ := rotationLines_ok hE L G h3
  have hg : s.greatest = 1000 ^ n * x := by
    obtain ⟨m, hm, hm2, hm3⟩ := pyMax_spec (l := a.posDevComb E) (by simpa [AteResult.posDevComb] using hpos)
    have hm' : m = x := by
      unfold AteResult.posDevMax at hx
      rw [hm] at hx
      cases hx
      rfl
    subst hm'
    have hk : (0 : K) ≤ 1000 ^ n := by positivity
    have he : (inUnit (1000 ^ n : K) a).posDev.map E.nrm = (a.posDevComb E).map (fun y => 1000 ^ n * y) := by
      simp only [inUnit, AteResult.posDevComb, List.map_map]
      apply List.map_congr_left
      intro v _
      exact nrm_smul hE.nrm hk v
    have hmem := hs.greatest_mem
    have hle := hs.le_greatest
    rw [he] at hmem hle
    obtain ⟨y, hy, hy2⟩ := List.mem_map.1 hmem
    apply le_antisymm
    · rw [← hy2]
      exact mul_le_mul_of_nonneg_left (hm3 y hy) hk
    · exact hle _ (List.mem_map.2 ⟨m, hm2, rfl⟩)
  have hsays : look ((inUnit (1000 ^ n : K) a).headLines ++ posTexts s b r bd rd ++ l) "Maximum position deviation [m]".toList
    = some (fmtFixed 4 s.greatest) := rfl
  refine ⟨_, _, e2, propertyDict_ok hp hl, hg ▸ says_fmt hsays, ?_⟩
  rintro hn0 hx1 ⟨t, y, m, ht, hy, -, hc⟩
  rw [hsays] at ht
  cases ht
  rw [parseNum_fmtFixed] at hy
  cases hy
  have hc' := roundTo_close 4 s.greatest
  rw [hg] at hc hc'
  have hk : (1000 : K) ≤ 1000 ^ n := by
    calc (1000 : K) = 1000 ^ 1 := (pow_one _).symm
      _ ≤ 1000 ^ n := pow_le_pow_right₀ (by norm_num) hn0
  have hkx : 1000 * x ≤ 1000 ^ n * x := mul_le_mul_of_nonneg_right hk (by linarith)
  rw [abs_le] at hc hc'
  norm_num at hc'
  linarith [hc.1, hc.2, hc'.1, hc'.2]

end

/-- What the evaluation makes of two trajectories with the same number of samples is a full result: one deviation for each sample
of the test trajectory. -/
theorem C159_comparison_full (E : EvalLib K) (L : RotLib K R) {test ref : Traj K R} (hT : Coherent test) (hR : Coherent ref)
    (hlen : ref.tstamps.length = test.tstamps.length) :
    ∃ a, compareAbsolute E L test ref = .ok a ∧ Plot.FullResult a ∧ a.trajectory = test ∧
      a.posDev = List.zipWith (fun r t => r - t) ref.pos test.pos ∧ (a.rotDev = none ↔ test.rot = none ∨ ref.rot = none) := by
  obtain ⟨dir, -, hdl, h⟩ := compareAbsolute_eq E L hT hR hlen
  refine ⟨_, h, ⟨hT, ?_, hdl, ?_⟩, rfl, rfl, ?_⟩
  · simp [hT.pos, hR.pos, hlen]
  · intro r hr
    rcases h1 : ref.rot with _ | q <;> rcases h2 : test.rot with _ | q' <;> rw [h1, h2] at hr <;> simp at hr
    subst hr
    simp [hT.rot _ h2, hR.rot _ h1, hlen]
  · rcases h1 : ref.rot with _ | q <;> rcases h2 : test.rot with _ | q' <;> simp

/-- **C159**, from the trajectories to the text: for two trajectories with the same positive number of samples, the summary of the
comparison says, to four decimals, the mean and the largest of the distances between corresponding positions, and its lines
about rotations are dashes exactly if one of the trajectories has no orientations. -/
theorem C159_comparison {E : EvalLib K} (hE : IsEvalLib E) (L : RotLib K R) (G : AngleLib K R) {test ref : Traj K R}
    (hT : Coherent test) (hR : Coherent ref) (hlen : ref.tstamps.length = test.tstamps.length) (hne : test.tstamps ≠ []) :
    ∃ a d m g, compareAbsolute E L test ref = .ok a ∧ a.propertyDict E L G = .ok d ∧
      look d "Number of deviations".toList = some (natStr test.tstamps.length) ∧
      SaysNumber d "Mean position deviation [m]" m ∧ IsMean (List.zipWith (fun r t => E.nrm (r - t)) ref.pos test.pos) m ∧
      SaysNumber d "Maximum position deviation [m]" g ∧ g ∈ List.zipWith (fun r t => E.nrm (r - t)) ref.pos test.pos ∧
      (∀ x ∈ List.zipWith (fun r t => E.nrm (r - t)) ref.pos test.pos, x ≤ g) ∧
      ∀ key ∈ rotationKeys, (look d key.toList = some ['-'] ↔ test.rot = none ∨ ref.rot = none) := by
  obtain ⟨a, ha, hf, rfl, hp, hr⟩ := C159_comparison_full E L hT hR hlen
  have hn : 0 < a.trajectory.tstamps.length := List.length_pos_of_ne_nil hne
  have h1 : a.posDev ≠ [] := List.ne_nil_of_length_pos (by rw [hf.pos]; exact hn)
  have h2 : a.directed ≠ [] := List.ne_nil_of_length_pos (by rw [hf.directed]; exact hn)
  have h3 : a.rotDev ≠ some [] := fun h => by have := hf.rot _ h; simp at this; omega
  obtain ⟨d, s, hd, -, hnum, hs, -, hmax, hmean, -⟩ := C159_positions_partial hE L G a h1 h2 h3
  have he : a.posDev.map E.nrm = List.zipWith (fun r t => E.nrm (r - t)) ref.pos a.trajectory.pos := by
    rw [hp, List.map_zipWith]
  rw [he] at hs
  refine ⟨a, d, _, _, ha, hd, by rw [hnum, hf.pos], hmean, hs.mean, hmax, hs.greatest_mem, hs.le_greatest, fun key hk => ?_⟩
  rw [C159_dashes hE L G a h1 h2 h3 hd hk, hr]

/-! ### examples -/

/-- two deviations with rotations, to which all theorems apply -/
noncomputable def exSummed : AteResult ℝ (RotM ℝ) :=
  { name := "a", trajectory := exPair 0 0, posDev := [⟨3, 4, 0⟩, ⟨0, 0, 1⟩], directed := [⟨5, 0, 0⟩, ⟨0, 0, -1⟩],
    rotDev := some [⟨1, isRot_one⟩, ⟨1, isRot_one⟩], rotationsUsed := true }

example : IsEvalLib realEval ∧ exSummed.posDev ≠ [] ∧ exSummed.directed ≠ [] ∧ exSummed.rotDev ≠ some [] ∧
    exSummed.rotDev ≠ none :=
  ⟨realEval_ok, by simp [exSummed], by simp [exSummed], by simp [exSummed], by simp [exSummed]⟩

/-- and one whose largest deviation is at least one metre, as in `C159_unit_wrong` -/
example : ∃ x, exSummed.posDevMax realEval = .ok x ∧ 1 ≤ x := by
  obtain ⟨s, -, h, -, -, -, -, hs, -⟩ := C66_position_statistics realEval realEval_ok exSummed (by simp [exSummed])
  refine ⟨_, h, ?_⟩
  have h1 := hs.le_greatest (realNorm ⟨0, 0, 1⟩) (by simp [exSummed, realEval])
  have h2 : realNorm ⟨0, 0, 1⟩ = 1 := by simp [realNorm, V3.normSq]
  rw [h2] at h1
  exact h1

end TC
