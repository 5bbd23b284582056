import Verif.Props.Plots
import Verif.Proofs.Voxel
import Verif.Props.Stats
/-!
# C138, C140, C141, C142: bars, colour limits, figures and axes of reports
-/
namespace TC
namespace Plot
set_option linter.unusedSectionVars false
variable {K R : Type} [Field K] [LinearOrder K]

/-! ### C138: bars -/

/-- the six bars of a result: the name of the metric says what the height is -/
structure Bars (name : Str) (mean least greatest median root std : K) (l : List (Bar K)) : Prop where
  six : l.length = 6
  mine : ∀ b ∈ l, b.trajectory = name
  mean : (⟨name, "ATE".toList, mean⟩ : Bar K) ∈ l
  least : (⟨name, "ATE Min".toList, least⟩ : Bar K) ∈ l
  greatest : (⟨name, "ATE Max".toList, greatest⟩ : Bar K) ∈ l
  median : (⟨name, "ATE Median".toList, median⟩ : Bar K) ∈ l
  root : (⟨name, "ATE RMS".toList, root⟩ : Bar K) ∈ l
  std : (⟨name, "ATE Std".toList, std⟩ : Bar K) ∈ l

theorem barRows_bars (name : Str) (a b c e f g : K) : Bars name a b c e f g (barRows name [a, b, c, e, f, g]) := by
  constructor
  · rfl
  · intro x hx
    simp only [barRows, metricNames, List.zip_cons_cons, List.zip_nil_right, List.map_cons, List.map_nil,
      List.mem_cons, List.not_mem_nil, or_false] at hx
    rcases hx with rfl | rfl | rfl | rfl | rfl | rfl <;> rfl
  all_goals simp [barRows, metricNames]

theorem forall₂_of_mapE {α β : Type} {f : α → Except Err β} {p : α → β → Prop} {l : List α} {r : List β}
    (h : mapE f l = .ok r) (hp : ∀ a b, f a = .ok b → p a b) : List.Forall₂ p l r := by
  induction l generalizing r with
  | nil => cases h; exact .nil
  | cons a l ih =>
    obtain ⟨b, bs, h1, h2, rfl⟩ := mapE_cons_inv h
    exact .cons (hp a b h1) (ih h2)

/-- **C138**, positions: the table of the bars has six rows for each result, one for each statistic of its position
deviations, under its own name. -/
theorem C138_position_bars {E : EvalLib K} {items : List (AteResult K R)} {rows : List (Bar K)}
    (h : posBars E items = .ok rows) :
    ∃ groups, rows = groups.flatten ∧ List.Forall₂ (fun d g => ∃ m lo hi md rt sd, d.posAte E = .ok m ∧
      d.posDevMin E = .ok lo ∧ d.posDevMax E = .ok hi ∧ d.posDevMedian E = .ok md ∧ d.posDevRms E = .ok rt ∧
      d.posDevStd E = .ok sd ∧ Bars (Report.shortName d) m lo hi md rt sd g) items groups := by
  unfold posBars at h
  simp only [bind, Except.bind] at h
  split at h
  · cases h
  · rename_i groups hg
    cases h
    refine ⟨groups, rfl, forall₂_of_mapE hg ?_⟩
    intro d g hd
    split at hd; · cases hd
    rename_i m h1
    split at hd; · cases hd
    rename_i lo h2
    split at hd; · cases hd
    rename_i hi h3
    split at hd; · cases hd
    rename_i md h4
    split at hd; · cases hd
    rename_i rt h5
    split at hd; · cases hd
    rename_i sd h6
    cases hd
    exact ⟨m, lo, hi, md, rt, sd, h1, h2, h3, h4, h5, h6, barRows_bars _ _ _ _ _ _ _⟩

/-- **C138**, rotations: the same for the rotation deviations in degrees; results without orientations have no row. -/
theorem C138_rotation_bars {P : PlotLib K R} {items : List (AteResult K R)} {rows : List (Bar K)}
    (h : rotBars P items = .ok rows) :
    ∃ groups, rows = groups.flatten ∧ List.Forall₂ (fun d g => (d.rotDev = none → g = []) ∧ (d.rotDev ≠ none →
      ∃ m lo hi md rt sd, d.rotAte P.eval P.rot = .ok m ∧ d.rotDevMin P.eval P.rot = .ok lo ∧
      d.rotDevMax P.eval P.rot = .ok hi ∧ d.rotDevMedian P.eval P.rot = .ok md ∧ d.rotDevRms P.eval P.rot = .ok rt ∧
      d.rotDevStd P.eval P.rot = .ok sd ∧
      Bars (Report.shortName d) (P.deg m) (P.deg lo) (P.deg hi) (P.deg md) (P.deg rt) (P.deg sd) g)) items groups := by
  unfold rotBars at h
  simp only [bind, Except.bind] at h
  split at h
  · cases h
  · rename_i groups hg
    cases h
    refine ⟨groups, rfl, forall₂_of_mapE hg ?_⟩
    intro d g hd
    rcases hr : d.rotDev with _ | r
    · simp only [hasRot, hr, Option.isSome_none, Bool.false_eq_true, if_false] at hd
      cases hd
      exact ⟨fun _ => rfl, fun h => absurd rfl h⟩
    · simp only [hasRot, hr, Option.isSome_some, if_true] at hd
      refine ⟨fun h => (by cases h), fun _ => ?_⟩
      split at hd; · cases hd
      rename_i m h1
      split at hd; · cases hd
      rename_i lo h2
      split at hd; · cases hd
      rename_i hi h3
      split at hd; · cases hd
      rename_i md h4
      split at hd; · cases hd
      rename_i rt h5
      split at hd; · cases hd
      rename_i sd h6
      cases hd
      exact ⟨m, lo, hi, md, rt, sd, h1, h2, h3, h4, h5, h6, barRows_bars _ _ _ _ _ _ _⟩

theorem npStd_ne [IsStrictOrderedRing K] (E : EvalLib K) {l : List K} (h : l ≠ []) :
    npStd E l = .ok (E.sqrt ((l.map (fun x => (x - l.sum / (l.length : K)) ^ 2)).sum / (l.length : K))) := by
  unfold npStd
  rw [npMean_ne h]
  simp only [bind, Except.bind]
  rw [npMean_ne (by simpa using h)]
  simp [pure, Except.pure]

theorem rms_ne [IsStrictOrderedRing K] (E : EvalLib K) {l : List K} (h : l ≠ []) : ∃ m, rms E l = .ok m := by
  unfold rms
  rw [npMean_ne (by simpa using h)]
  exact ⟨_, rfl⟩

/-- **C138**, existence: the tables exist if every result has deviations. -/
theorem C138_bars_exist [IsStrictOrderedRing K] (P : PlotLib K R) {items : List (AteResult K R)} (h : ∀ d ∈ items, d.posDev ≠ [])
    (hr : ∀ d ∈ items, ∀ r, d.rotDev = some r → r ≠ []) :
    (∃ rows, posBars P.eval items = .ok rows) ∧ ∃ rows, rotBars P items = .ok rows := by
  have stats : ∀ l : List K, l ≠ [] → (∃ x, npMean l = .ok x) ∧ (∃ x, pyMin l = .ok x) ∧ (∃ x, pyMax l = .ok x) ∧
      (∃ x, npMedian l = .ok x) ∧ (∃ x, rms P.eval l = .ok x) ∧ ∃ x, npStd P.eval l = .ok x := by
    intro l hl
    obtain ⟨a, ha, -⟩ := pyMin_spec hl
    obtain ⟨b, hb, -⟩ := pyMax_spec hl
    obtain ⟨c, hc, -⟩ := npMedian_spec hl
    exact ⟨⟨_, npMean_ne hl⟩, ⟨a, ha⟩, ⟨b, hb⟩, ⟨c, hc⟩, rms_ne _ hl, ⟨_, npStd_ne _ hl⟩⟩
  constructor
  · unfold posBars
    obtain ⟨g, hg⟩ : ∃ g, mapE (fun d : AteResult K R => (do
        let a ← d.posAte P.eval
        let b ← d.posDevMin P.eval
        let c ← d.posDevMax P.eval
        let e ← d.posDevMedian P.eval
        let f ← d.posDevRms P.eval
        let g ← d.posDevStd P.eval
        return barRows (Report.shortName d) [a, b, c, e, f, g] : Except Err (List (Bar K)))) items = .ok g := by
      apply mapE_isOk
      intro d hd
      obtain ⟨⟨a, h1⟩, ⟨b, h2⟩, ⟨c, h3⟩, ⟨e, h4⟩, ⟨f, h5⟩, ⟨g, h6⟩⟩ := stats (d.posDevComb P.eval)
        (by simpa [AteResult.posDevComb] using h d hd)
      refine ⟨barRows (Report.shortName d) [a, b, c, e, f, g], ?_⟩
      simp only [AteResult.posAte, AteResult.posDevMin, AteResult.posDevMax, AteResult.posDevMedian, AteResult.posDevRms,
        AteResult.posDevStd, h1, h2, h3, h4, h5, h6]
      rfl
    rw [hg]
    exact ⟨_, rfl⟩
  · unfold rotBars
    obtain ⟨g, hg⟩ : ∃ g, mapE (fun d : AteResult K R => (if hasRot d then (do
        let a ← d.rotAte P.eval P.rot
        let b ← d.rotDevMin P.eval P.rot
        let c ← d.rotDevMax P.eval P.rot
        let e ← d.rotDevMedian P.eval P.rot
        let f ← d.rotDevRms P.eval P.rot
        let g ← d.rotDevStd P.eval P.rot
        return barRows (Report.shortName d) [P.deg a, P.deg b, P.deg c, P.deg e, P.deg f, P.deg g])
        else .ok [] : Except Err (List (Bar K)))) items = .ok g := by
      apply mapE_isOk
      intro d hd
      rcases hq : d.rotDev with _ | r
      · exact ⟨[], by simp [hasRot, hq]⟩
      · obtain ⟨⟨a, h1⟩, ⟨b, h2⟩, ⟨c, h3⟩, ⟨e, h4⟩, ⟨f, h5⟩, ⟨g, h6⟩⟩ := stats (d.rotDevComb P.eval P.rot)
          (by simpa [AteResult.rotDevComb, hq] using hr d hd r hq)
        refine ⟨barRows (Report.shortName d) [P.deg a, P.deg b, P.deg c, P.deg e, P.deg f, P.deg g], ?_⟩
        simp only [AteResult.rotAte, AteResult.rotDevMin, AteResult.rotDevMax, AteResult.rotDevMedian, AteResult.rotDevRms,
          AteResult.rotDevStd, h1, h2, h3, h4, h5, h6, hasRot, hq]
        rfl
    rw [hg]
    exact ⟨_, rfl⟩

/-! ### C140: limits of the colours -/
section
variable [IsStrictOrderedRing K]

theorem lt_mean {l : List K} {lo : K} (hlo : ∀ x ∈ l, lo ≤ x) {y : K} (hy : y ∈ l) (hlt : lo < y) :
    lo < l.sum / (l.length : K) := by
  have hp : (0 : K) < (l.length : K) := by exact_mod_cast List.length_pos_of_mem hy
  rw [lt_div_iff₀ hp]
  have key : ∀ l : List K, (∀ x ∈ l, lo ≤ x) → lo * (l.length : K) ≤ l.sum := by
    intro l
    induction l with
    | nil => simp
    | cons a l ih =>
      intro h
      have := ih (fun x hx => h x (by simp [hx]))
      have := h a (by simp)
      simp only [List.length_cons, List.sum_cons]
      push_cast
      linarith
  obtain ⟨a, b, rfl⟩ := List.append_of_mem hy
  have h1 := key a (fun x hx => hlo x (by simp [hx]))
  have h2 := key b (fun x hx => hlo x (by simp [hx]))
  simp only [List.length_append, List.length_cons, List.sum_append, List.sum_cons]
  push_cast
  linarith

/-- the limits of the colour bar: from the least value to at most the greatest -/
theorem C140_limits (E : EvalLib K) (hE : ∀ x, 0 ≤ E.sqrt x) {maxStd : K} (hm : 0 ≤ maxStd) {colours : List K}
    (hne : colours ≠ []) :
    ∃ lo hi, markerRange E maxStd colours = .ok (lo, hi) ∧ lo ∈ colours ∧ (∀ c ∈ colours, lo ≤ c) ∧ lo ≤ hi ∧
      (∃ c ∈ colours, hi ≤ c) := by
  obtain ⟨lo, h1, h2, h3⟩ := pyMin_spec hne
  obtain ⟨hi, h4, h5, h6⟩ := pyMax_spec hne
  refine ⟨lo, _, by simp only [markerRange, h1, h4, npStd_ne E hne]; rfl, h2, h3, ?_, hi, h5, min_le_left _ _⟩
  rw [le_min_iff]
  exact ⟨h6 _ h2, le_add_of_nonneg_right (mul_nonneg (hE _) hm)⟩

/-- **C140 is false of the code** for the reports: the documented upper limit is the mean plus `scatter_max_std` standard
deviations.  Unless all values are equal, the limit is lower than that; and whenever values are cut off at all, it is lower
than the documented limit and than the greatest value. -/
theorem C140_upper_limit_too_low (E : EvalLib K) (maxStd : K) {colours : List K} (hdiff : ∃ a ∈ colours, ∃ b ∈ colours, a ≠ b) :
    ∃ lo hi mean sd, markerRange E maxStd colours = .ok (lo, hi) ∧ npMean colours = .ok mean ∧ npStd E colours = .ok sd ∧
      hi < mean + maxStd * sd ∧ ∀ top ∈ colours, hi < top → (∀ c ∈ colours, c ≤ top) → hi < min top (mean + maxStd * sd) := by
  obtain ⟨a, ha, b, hb, hab⟩ := hdiff
  have hne : colours ≠ [] := List.ne_nil_of_mem ha
  obtain ⟨lo, h1, h2, h3⟩ := pyMin_spec hne
  obtain ⟨hi, h4, h5, h6⟩ := pyMax_spec hne
  have hlt : ∃ y ∈ colours, lo < y := by
    rcases lt_or_eq_of_le (h3 a ha) with h | h
    · exact ⟨a, ha, h⟩
    · rcases lt_or_eq_of_le (h3 b hb) with h' | h'
      · exact ⟨b, hb, h'⟩
      · exact absurd (h.symm.trans h') hab
  obtain ⟨y, hy, hlty⟩ := hlt
  have hmean := lt_mean h3 hy hlty
  refine ⟨lo, _, _, _, by simp only [markerRange, h1, h4, npStd_ne E hne]; rfl, npMean_ne hne, npStd_ne E hne, ?_, ?_⟩
  · refine lt_of_le_of_lt (min_le_right _ _) ?_
    rw [mul_comm]
    linarith
  · intro top _ hlt _
    rw [lt_min_iff]
    refine ⟨hlt, lt_of_le_of_lt (min_le_right _ _) ?_⟩
    rw [mul_comm]
    linarith

end

/-! ### C141: figures of a report -/

/-- which figures belong into the report of one result -/
def Wanted (detailed : Bool) (ate : Option Bool) (rpe : Bool) : Fig → Prop
  | .rpe => rpe = true
  | .scatterPos | .histPos | .barPos | .edf | .devComb | .devPos => ate ≠ none
  | .scatterX | .scatterY | .scatterZ => ate ≠ none ∧ detailed = true
  | .scatterRot | .histRot | .barRot | .devRot => ate = some true
  | .scatterRoll | .scatterPitch | .scatterYaw => ate = some true ∧ detailed = true

/-- **C141**: a report of one result exists if there is something to report; it has every figure that belongs there, once,
and no other. -/
theorem C141_single (detailed : Bool) (ate : Option Bool) (rpe : Bool) :
    ((∃ f, single detailed ate rpe = .ok f) ↔ (ate ≠ none ∨ rpe = true)) ∧
    ∀ side line, single detailed ate rpe = .ok (side, line) →
      (side ++ line).Nodup ∧ (∀ f, f ∈ side ++ line ↔ Wanted detailed ate rpe f) ∧ side.length ≠ 1 := by
  constructor
  · cases detailed <;> cases rpe <;> rcases ate with _ | _ | _ <;> simp [single, oneLine1]
  · intro side line h
    cases detailed <;> cases rpe <;> rcases ate with _ | _ | _ <;>
      simp only [single, oneLine1, pyInsert] at h <;>
      first
        | (simp at h; done)
        | (simp at h
           obtain ⟨rfl, rfl⟩ := h
           refine ⟨by decide, ?_, by decide⟩
           rintro (_ | _ | _ | _ | _ | _ | _ | _ | _ | _ | _ | _ | _ | _ | _ | _ | _) <;> simp [Wanted])

/-- figures of reports on several results -/
def WantedMulti (ate : Option Bool) (rpe : Bool) : Fig → Prop
  | .rpe => rpe = true
  | .devComb | .edf | .barPos | .devPos => ate ≠ none
  | .barRot | .devRot => ate = some true
  | _ => False

/-- **C141**, reports on several results -/
theorem C141_multi (ate : Option Bool) (rpe : Bool) :
    ((∃ f, multi ate rpe = .ok f) ↔ (ate ≠ none ∨ rpe = true)) ∧
    ∀ l, multi ate rpe = .ok l → l.Nodup ∧ ∀ f, f ∈ l ↔ WantedMulti ate rpe f := by
  constructor
  · cases rpe <;> rcases ate with _ | _ | _ <;> simp [multi]
  · intro l h
    cases rpe <;> rcases ate with _ | _ | _ <;> simp [multi, pyInsert] at h <;> subst h <;>
      refine ⟨by decide, ?_⟩ <;>
      rintro (_ | _ | _ | _ | _ | _ | _ | _ | _ | _ | _ | _ | _ | _ | _ | _ | _) <;> simp [WantedMulti]

/-- the second figure comes right after the first -/
def RightAfter (l : List Fig) (a b : Fig) : Prop := ∃ p q, l = p ++ a :: b :: q

/-- **C141**, order, positive part: with a relative evaluation, the figures of the rotations come right after those of the
positions.  Missing: without one they do not, see `C141_order_broken`. -/
theorem C141_order_partial (detailed : Bool) {side line : List Fig}
    (h : single detailed (some true) true = .ok (side, line)) :
    RightAfter line .histPos .histRot ∧ RightAfter line .barPos .barRot := by
  cases detailed <;> simp [single, oneLine1, pyInsert] at h <;> obtain ⟨rfl, rfl⟩ := h <;>
    exact ⟨⟨[.rpe], _, rfl⟩, ⟨[.rpe, .histPos, .histRot], _, rfl⟩⟩

/-- **C141**, order, negation: without a relative evaluation the places are counted wrongly. -/
theorem C141_order_broken (detailed : Bool) {side line : List Fig}
    (h : single detailed (some true) false = .ok (side, line)) :
    ¬ RightAfter line .histPos .histRot ∧ ¬ RightAfter line .barPos .barRot ∧ RightAfter line .histPos .barPos ∧
      RightAfter line .edf .barRot := by
  have key : ∀ {l : List Fig} {a b c : Fig} {p q : List Fig}, l = p ++ a :: c :: q → l.Nodup → b ≠ c → ¬ RightAfter l a b := by
    rintro l a b c p q rfl hn hbc ⟨p', q', h⟩
    have ha : p.idxOf a = p.length := List.idxOf_eq_length (fun hm => by
      rw [List.nodup_append] at hn
      exact hn.2.2 a hm a (by simp) rfl)
    have hn' := hn
    rw [h] at hn'
    have ha' : p'.idxOf a = p'.length := List.idxOf_eq_length (fun hm => by
      rw [List.nodup_append] at hn'
      exact hn'.2.2 a hm a (by simp) rfl)
    have e : (p ++ a :: c :: q).idxOf a = (p' ++ a :: b :: q').idxOf a := by rw [h]
    have h1 : (p ++ a :: c :: q).idxOf a = p.length := by
      rw [List.idxOf_append_of_notMem (fun hm => by rw [List.nodup_append] at hn; exact hn.2.2 a hm a (by simp) rfl)]
      simp
    have h2 : (p' ++ a :: b :: q').idxOf a = p'.length := by
      rw [List.idxOf_append_of_notMem (fun hm => by rw [List.nodup_append] at hn'; exact hn'.2.2 a hm a (by simp) rfl)]
      simp
    have hl : p.length = p'.length := by omega
    have := List.append_inj h hl
    simp at this
    exact hbc this.2.1.symm
  have hnd := ((C141_single detailed (some true) false).2 _ _ h).1
  rw [List.nodup_append] at hnd
  cases detailed <;> simp [single, oneLine1, pyInsert] at h <;> obtain ⟨rfl, rfl⟩ := h <;>
    exact ⟨key (p := []) rfl hnd.2.1 (by decide), key (p := [.histPos]) rfl hnd.2.1 (by decide), ⟨[], _, rfl⟩,
      ⟨[.histPos, .barPos, .histRot], _, rfl⟩⟩

/-! ### C142: axes of scatter plots -/

/-- coordinate of a position along the axis with this letter -/
def along (c : Char) (v : V3 K) : K := if c = 'x' then v.x else if c = 'y' then v.y else v.z

/-- label of the axis with this letter -/
def labelOf (labels : Str × Str × Str) (c : Char) : Str :=
  if c = 'x' then labels.1 else if c = 'y' then labels.2.1 else labels.2.2

/-- **C142**: for every order of two or three axes the plot shows the coordinates in that order, each with its own label,
and the colours that were given; for any other order there is no plot. -/
theorem C142_axes [IsStrictOrderedRing K] (E : EvalLib K) (s : Names K) (lx ly lz : Str) (pos : List (V3 K)) {colours : List K} (title bar : Str)
    (hne : colours ≠ []) :
    ((∃ c, scatter E s [lx, ly, lz] pos colours title bar = .ok c) ↔
      ((s.axisOrder.length = 2 ∨ s.axisOrder.length = 3) ∧ ∀ a ∈ s.axisOrder, a = 'x' ∨ a = 'y' ∨ a = 'z')) ∧
    ∀ c, scatter E s [lx, ly, lz] pos colours title bar = .ok c →
      c.labels = s.axisOrder.map (labelOf (lx, ly, lz)) ∧ c.points = pos.map (fun v => s.axisOrder.map (fun a => along a v)) ∧
      c.colours = colours ∧ c.title = title ∧ c.barTitle = bar := by
  have hax : ∀ l : Str, (∀ a ∈ l, a = 'x' ∨ a = 'y' ∨ a = 'z') →
      mapE Geo.axisIndex l = .ok (l.map (fun a => if a = 'x' then 0 else if a = 'y' then 1 else 2)) := by
    intro l hl
    apply mapE_ok
    intro a ha
    rcases hl a ha with rfl | rfl | rfl <;> rfl
  have hinv : ∀ (l : Str) idx, mapE Geo.axisIndex l = .ok idx → ∀ a ∈ l, a = 'x' ∨ a = 'y' ∨ a = 'z' := by
    intro l idx h a ha
    obtain ⟨k, hk⟩ := List.getElem?_of_mem ha
    obtain ⟨b, hb, -⟩ := mapE_getElem? h hk
    unfold Geo.axisIndex at hb
    split_ifs at hb with h1 h2 h3
    · exact .inl h1
    · exact .inr (.inl h2)
    · exact .inr (.inr h3)
  have hrange : ∃ r, markerRange E s.maxStd colours = .ok r := by
    obtain ⟨lo, h1, -⟩ := pyMin_spec hne
    obtain ⟨hi, h4, -⟩ := pyMax_spec hne
    exact ⟨_, by simp only [markerRange, h1, h4, npStd_ne E hne]; rfl⟩
  obtain ⟨r, hr⟩ := hrange
  constructor
  · constructor
    · rintro ⟨c, hc⟩
      obtain ⟨idx, h1, h2, -⟩ := scatter_inv hc
      rw [mapE_length h1] at h2
      exact ⟨h2, hinv _ _ h1⟩
    · rintro ⟨hl, ha⟩
      unfold scatter
      rw [hr, hax _ ha]
      simp only [bind, Except.bind]
      rw [if_pos (by simpa using hl)]
      exact ⟨_, rfl⟩
  · intro c hc
    obtain ⟨idx, h1, h2, h3, h4, h5, h6, h7, -⟩ := scatter_inv hc
    have ha := hinv _ _ h1
    rw [hax _ ha] at h1
    cases h1
    refine ⟨?_, ?_, h4, h6, h7⟩
    · rw [h5, List.map_map]
      apply List.map_congr_left
      intro a hm
      rcases ha a hm with rfl | rfl | rfl <;> rfl
    · rw [h3]
      apply List.map_congr_left
      intro v _
      rw [List.map_map]
      apply List.map_congr_left
      intro a hm
      rcases ha a hm with rfl | rfl | rfl <;> rfl

/-- what the figure for one component of the position deviations shows and says -/
theorem C142_component {P : PlotLib K R} {s : Names K} {labels : List Str} {d : AteResult K R} {i : Nat}
    {c : Cloud K} (h : posDevCloudOf i P s labels d = .ok c) :
    c.colours = (posDevs s d).getD i [] ∧ c.title = capitalize ((posDevNames s).getD i []) ++ " Deviations".toList ∧
      c.barTitle = withUnit ([s.posX, s.posY, s.posZ].getD i []) (ateUnit s) := by
  unfold posDevCloudOf at h
  rcases hx : d.trajectory.xyz P.argsort with e | pos
  · rw [hx] at h; cases h
  · rw [hx] at h
    simp only [bind, Except.bind] at h
    obtain ⟨idx, h1, h2, h3, h4, h5, h6, h7, -⟩ := scatter_inv h
    exact ⟨h4, h6, h7⟩

/-- **C142**, colour bar, positive part: for the coordinate directions the colour bar names the component that is shown.
Missing: along and across the track it names another one, see `C142_bar_title_wrong`. -/
theorem C142_bar_title_partial {P : PlotLib K R} {s : Names K} {labels : List Str} {d : AteResult K R} {i : Nat}
    {c : Cloud K} (hs : s.directed = false) (h : posDevCloudOf i P s labels d = .ok c) :
    c.barTitle = withUnit ((posDevNames s).getD i []) (ateUnit s) := by
  rw [(C142_component h).2.2, posDevNames, hs]
  rfl

/-- **C142 is false of the code** for deviations along and across the track: the title names the component that is shown,
the colour bar a coordinate axis. -/
theorem C142_bar_title_wrong {P : PlotLib K R} {s : Names K} {labels : List Str} {d : AteResult K R} {i : Nat}
    {c : Cloud K} (hs : s.directed = true) (hn : [s.dirX, s.dirY, s.dirZ].getD i [] ≠ [s.posX, s.posY, s.posZ].getD i [])
    (h : posDevCloudOf i P s labels d = .ok c) :
    c.title = capitalize ([s.dirX, s.dirY, s.dirZ].getD i []) ++ " Deviations".toList ∧
      c.barTitle = withUnit ([s.posX, s.posY, s.posZ].getD i []) (ateUnit s) ∧
      c.barTitle ≠ withUnit ([s.dirX, s.dirY, s.dirZ].getD i []) (ateUnit s) := by
  obtain ⟨-, h2, h3⟩ := C142_component h
  have hp : posDevNames s = [s.dirX, s.dirY, s.dirZ] := by rw [posDevNames, hs]; rfl
  rw [hp] at h2
  refine ⟨h2, h3, ?_⟩
  rw [h3]
  intro e
  exact hn (List.append_cancel_right e).symm

/-- **C142**, the combined deviations: the clouds of the position and of the rotation deviations have these colours, these
titles and the unit at the colour bar, the angles in degrees. -/
theorem C142_combined {P : PlotLib K R} {s : Names K} {labels : List Str} {d : AteResult K R} {c : Cloud K} :
    (posDevCloud P s labels d = .ok c → c.colours = d.posDev.map (fun v => P.eval.nrm v) ∧
      c.title = "Position Deviations".toList ∧ c.barTitle = if s.ateMm then "[mm]".toList else "[m]".toList) ∧
    (rotDevCloud P s labels d = .ok c → ∃ r, d.rotDev = some r ∧
      c.colours = r.map (fun q => P.deg (rotAngle P.eval (P.rot.toMat q))) ∧
      c.title = "Rotation Deviations".toList ∧ c.barTitle = "[".toList ++ s.rotUnit ++ "]".toList) := by
  constructor
  · intro h
    unfold posDevCloud at h
    rcases hx : d.trajectory.xyz P.argsort with e | pos
    · rw [hx] at h; cases h
    · rw [hx] at h
      simp only [bind, Except.bind] at h
      obtain ⟨idx, h1, h2, h3, h4, h5, h6, h7, -⟩ := scatter_inv h
      refine ⟨h4, h6, h7.trans ?_⟩
      unfold ateUnit bracket
      cases s.ateMm <;> rfl
  · intro h
    unfold rotDevCloud at h
    rcases hr : d.rotDev with _ | r
    · rw [combDevRot_none hr] at h; cases h
    · rw [combDevRot_some hr] at h
      rcases hx : d.trajectory.xyz P.argsort with e | pos
      · rw [hx] at h; cases h
      · rw [hx] at h
        simp only [bind, Except.bind] at h
        obtain ⟨idx, h1, h2, h3, h4, h5, h6, h7, -⟩ := scatter_inv h
        exact ⟨r, rfl, h4, h6, h7.trans (by simp [bracket])⟩

/-- **C142**, the rotations about one axis: the title and the colour bar name the angle that is shown. -/
theorem C142_rotation {P : PlotLib K R} {s : Names K} {labels : List Str} {d : AteResult K R} {c : Cloud K} (i : Fin 3)
    (h : rotDevCloudOf i P s labels d = .ok c) : ∃ r, d.rotDev = some r ∧
      c.colours = r.map (fun q => P.deg (match i with
        | 0 => (P.euler q).x
        | 1 => (P.euler q).y
        | 2 => (P.euler q).z)) ∧
      c.title = capitalize (match i with
        | 0 => s.rotX
        | 1 => s.rotY
        | 2 => s.rotZ) ++ " Deviations".toList ∧
      c.barTitle = (match i with
        | 0 => s.rotX
        | 1 => s.rotY
        | 2 => s.rotZ) ++ " [".toList ++ s.rotUnit ++ "]".toList := by
  unfold rotDevCloudOf at h
  rcases hx : d.trajectory.xyz P.argsort with e | pos
  · rw [hx] at h; cases h
  · rw [hx] at h
    unfold rotDevs at h
    rcases hr : d.rotDev with _ | r
    · rw [hr] at h; cases h
    · rw [hr] at h
      simp only [bind, Except.bind] at h
      obtain ⟨idx, h1, h2, h3, h4, h5, h6, h7, -⟩ := scatter_inv h
      refine ⟨r, rfl, ?_⟩
      rw [h4, h6, h7]
      fin_cases i <;> exact ⟨rfl, rfl, by simp [withUnit, bracket]⟩

/-! ### Examples -/

example : (∀ d ∈ [exBack "a vs. b" none], d.posDev ≠ []) := by decide +kernel
example : ((posBars exPlotLib.eval [exBack "a vs. b" none]).map (fun l => l.map (fun b => (b.metric, b.value)))).toOption
    = some [("ATE".toList, 4), ("ATE Min".toList, 3), ("ATE Max".toList, 5), ("ATE Median".toList, 4),
        ("ATE RMS".toList, 50 / 3), ("ATE Std".toList, 2 / 3)] := by decide +kernel
example : ∃ a ∈ [1, (2 : ℚ)], ∃ b ∈ [1, (2 : ℚ)], a ≠ b := by decide
/-- the mean is 4 and the documented limit 4 + 1 * (2 / 3) -/
example : (markerRange exPlotLib.eval 1 [3, 4, (5 : ℚ)]).toOption = some (3, 3 + 2 / 3) := by decide +kernel
example : (single false (some true) false).toOption
    = some ([.scatterPos, .scatterRot], [.histPos, .barPos, .histRot, .edf, .barRot, .devComb, .devPos, .devRot]) := rfl
/-- the along-track deviations are shown with a bar titled "x [m]" -/
example : ((posDevCloudOf 0 exPlotLib { exNames with directed := true } [] (exBack "a vs. b" none)).map
    (fun c => (c.title, c.barTitle))).toOption = some ("Along Deviations".toList, "x [m]".toList) := by decide +kernel
example : ((rotDevCloudOf 2 exPlotLib exNames [] (exBack "a vs. b" (some [(), (), ()]))).map
    (fun c => (c.title, c.barTitle))).toOption = some ("Yaw Deviations".toList, "yaw [°]".toList) := by decide +kernel
example : ("xy".toList.length = 2) ∧ ∀ a ∈ "xy".toList, a = 'x' ∨ a = 'y' ∨ a = 'z' := by decide

end Plot
end TC
