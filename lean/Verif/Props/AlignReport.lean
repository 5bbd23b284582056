import Verif.Spec.AlignReport
import Verif.Proofs.Text
import Verif.Proofs.Eval
import Verif.Props.ParamsFile
/-!
# C143, C144: the report of an alignment
-/
set_option linter.unusedSectionVars false
namespace TC
variable {K : Type} [Field K] [LinearOrder K] [IsStrictOrderedRing K]

/-! ### splitting -/

theorem pySplitOnAux_head {sep : Char} : ∀ (s acc : Str), (pySplitOnAux sep s acc).headD [] = acc ++ s.takeWhile (fun c => c != sep)
  | [], acc => by simp [pySplitOnAux]
  | c :: cs, acc => by
    unfold pySplitOnAux
    by_cases h : c = sep
    · simp [h]
    · rw [if_neg h, pySplitOnAux_head cs]
      simp [h]

theorem pySplitOnAux_last {sep : Char} {b : Str} (hb : sep ∉ b) : ∀ (a acc : Str),
    (pySplitOnAux sep (a ++ sep :: b) acc).getLastD [] = b ∧ pySplitOnAux sep (a ++ sep :: b) acc ≠ []
  | [], acc => by
    rw [List.nil_append]
    unfold pySplitOnAux
    rw [if_pos rfl, pySplitOnAux_noSep b [] hb]
    simp
  | c :: a, acc => by
    rw [List.cons_append]
    unfold pySplitOnAux
    by_cases h : c = sep
    · rw [if_pos h]
      obtain ⟨h1, h2⟩ := pySplitOnAux_last hb a []
      refine ⟨?_, by simp⟩
      obtain ⟨x, l, hx⟩ := List.exists_cons_of_ne_nil h2
      rw [hx] at h1 ⊢
      simpa [List.getLastD] using h1
    · rw [if_neg h]
      exact pySplitOnAux_last hb a _

theorem strip_core {n m : Nat} {s : Str} {c d : Char} (hc : pySpace c = false) (hd : pySpace d = false)
    (h1 : s.head? = some c) (h2 : s.getLast? = some d) :
    pyStrip (List.replicate n ' ' ++ s ++ List.replicate m ' ') = s := by
  have hsp : pySpace ' ' = true := by decide
  have hdrop : ∀ (k : Nat) (t : Str) (e : Char), t.head? = some e → pySpace e = false →
      (List.replicate k ' ' ++ t).dropWhile pySpace = t := by
    intro k t e ht he
    induction k with
    | zero =>
      cases t with
      | nil => simp at ht
      | cons a t =>
        have : a = e := by simpa using ht
        subst this
        simp [he]
    | succ k ih => simpa [List.replicate_succ, hsp] using ih
  unfold pyStrip
  rw [List.append_assoc, hdrop n _ c (by cases s with
    | nil => simp at h1
    | cons a s => simpa using h1) hc]
  rw [List.reverse_append, List.reverse_replicate, hdrop m _ d (by rw [List.head?_reverse]; exact h2) hd, List.reverse_reverse]

theorem shownParams_enabled (s : PSet K) : s.shownParams true = estimatedParams s := by
  unfold PSet.shownParams estimatedParams
  simp

section
variable [FloorRing K]

theorem fmtFixed_head (d : Nat) (x : K) (t : Str) : ∃ c, (fmtFixed d x ++ t).head? = some c ∧ pySpace c = false := by
  cases h : fmtFixed d x with
  | nil => exact absurd h (fmtFixed_ne d x)
  | cons c s =>
    refine ⟨c, rfl, numChar_not_space (fmtFixed_chars d x c ?_)⟩
    rw [h]
    simp

/-- the texts of the units -/
theorem unitNormal_text (deg : K) (u : MUnit) (hu : u ≠ .second) : '=' ∉ (unitNormal deg u).2.1 ∧ 's' ∉ (unitNormal deg u).2.1 ∧
    ':' ∉ (unitNormal deg u).2.1 ∧ ∃ d, (unitNormal deg u).2.1.getLast? = some d ∧ pySpace d = false := by
  cases u <;> first | exact absurd rfl hu | exact ⟨by simp [unitNormal], by simp [unitNormal], by simp [unitNormal], _, rfl, by decide⟩

theorem unitPrecise_text (deg : K) (u : MUnit) : '=' ∉ (unitPrecise deg u).2.1 ∧ ':' ∉ (unitPrecise deg u).2.1 ∧
    ∃ d, (unitPrecise deg u).2.1.getLast? = some d ∧ pySpace d = false := by
  cases u <;> exact ⟨by simp [unitPrecise, unitNormal], by simp [unitPrecise, unitNormal], _, rfl, by decide⟩

theorem notMem_ljust {c : Char} (hc : c ≠ ' ') {n : Nat} {s : Str} (h : c ∉ s) : c ∉ pyLjust n s := by
  unfold pyLjust
  rw [List.mem_append]
  rintro (h1 | h1)
  · exact h h1
  · exact hc (List.mem_replicate.1 h1).2

theorem notMem_fmtFixed {c : Char} (hc : numChar c = false) (d : Nat) (x : K) : c ∉ fmtFixed d x :=
  fun h => numChar_ne (fmtFixed_chars d x c h) hc rfl

/-- what is behind the sign of equality -/
theorem extractValue_eq (sqrt : K → K) (deg : K) {p : Param K} (hn : '=' ∉ p.name.toList) :
    extractValue (p.text sqrt deg) = .ok (pyStrip ((' ' :: (pyLjust 8 (fmtFixed (unitNormal deg p.unit).2.2 (p.value * (unitNormal deg p.unit).1)) ++
      pyLjust 4 (unitNormal deg p.unit).2.1 ++ "  s".toList)).takeWhile (fun c => c != 's'))) := by
  set num := fmtFixed (unitNormal deg p.unit).2.2 (p.value * (unitNormal deg p.unit).1) with hnum
  set num' := fmtFixed (unitPrecise deg p.unit).2.2 (sqrt p.variance * (unitPrecise deg p.unit).1) with hnum'
  have hu : '=' ∉ (unitNormal deg p.unit).2.1 := by cases p.unit <;> simp [unitNormal]
  have htext : p.text sqrt deg = (pyLjust 16 p.name.toList ++ [' ']) ++ '=' :: (' ' :: (pyLjust 8 num ++ pyLjust 4 (unitNormal deg p.unit).2.1 ++
      "  s".toList ++ ("-dev.: ".toList ++ pyLjust 8 num' ++ pyLjust 4 (unitPrecise deg p.unit).2.1))) := by
    unfold Param.text
    simp [hnum, hnum']
  have h1 : '=' ∉ pyLjust 16 p.name.toList ++ [' '] := by
    rw [List.mem_append]
    rintro (h | h)
    · exact notMem_ljust (by decide) hn h
    · simp at h
  have h2 : '=' ∉ (' ' :: (pyLjust 8 num ++ pyLjust 4 (unitNormal deg p.unit).2.1 ++
      "  s".toList ++ ("-dev.: ".toList ++ pyLjust 8 num' ++ pyLjust 4 (unitPrecise deg p.unit).2.1))) := by
    simp only [List.mem_cons, List.mem_append, not_or]
    refine ⟨by decide, ⟨⟨?_, ?_⟩, by decide⟩, ⟨by decide, ?_⟩, ?_⟩
    · exact notMem_ljust (by decide) (notMem_fmtFixed (by decide) _ _)
    · exact notMem_ljust (by decide) hu
    · exact notMem_ljust (by decide) (notMem_fmtFixed (by decide) _ _)
    · exact notMem_ljust (by decide) (unitPrecise_text deg p.unit).1
  unfold extractValue pySplitOn
  rw [htext, pySplitOnAux_sep _ _ _ h1, pySplitOnAux_noSep _ _ h2]
  simp only [List.getElem?_cons_succ, List.getElem?_cons_zero, List.nil_append]
  rw [pySplitOnAux_head]
  congr 2
  rw [List.nil_append, List.takeWhile_cons_of_pos (by decide), List.takeWhile_cons_of_pos (by decide)]
  congr 1
  generalize pyLjust 8 num ++ pyLjust 4 (unitNormal deg p.unit).2.1 = a
  generalize "-dev.: ".toList ++ pyLjust 8 num' ++ pyLjust 4 (unitPrecise deg p.unit).2.1 = b
  rw [show "  s".toList = [' ', ' ', 's'] from rfl]
  induction a with
  | nil => simp
  | cons c a ih =>
    by_cases hc : c = 's'
    · simp [hc]
    · simp only [List.cons_append, List.append_assoc] at ih ⊢
      rw [List.takeWhile_cons_of_pos (by simpa using hc), List.takeWhile_cons_of_pos (by simpa using hc), ih]

/-- the text of a value whose unit has no `s` -/
theorem extractValue_partial (sqrt : K → K) (deg : K) {p : Param K} (hn : '=' ∉ p.name.toList) (hu : p.unit ≠ .second) :
    extractValue (p.text sqrt deg) = .ok (pyLjust 8 (fmtFixed (unitNormal deg p.unit).2.2 (p.value * (unitNormal deg p.unit).1)) ++
      (unitNormal deg p.unit).2.1) := by
  rw [extractValue_eq sqrt deg hn]
  set num := fmtFixed (unitNormal deg p.unit).2.2 (p.value * (unitNormal deg p.unit).1) with hnum
  obtain ⟨-, hs, -, d, hd1, hd2⟩ := unitNormal_text deg p.unit hu
  have hpre : 's' ∉ (' ' :: (pyLjust 8 num ++ pyLjust 4 (unitNormal deg p.unit).2.1 ++ [' ', ' '])) := by
    simp only [List.mem_cons, List.mem_append, not_or]
    refine ⟨by decide, ⟨?_, ?_⟩, by decide⟩
    · exact notMem_ljust (by decide) (notMem_fmtFixed (by decide) _ _)
    · exact notMem_ljust (by decide) hs
  have hsplit : (' ' :: (pyLjust 8 num ++ pyLjust 4 (unitNormal deg p.unit).2.1 ++ "  s".toList)) =
      (' ' :: (pyLjust 8 num ++ pyLjust 4 (unitNormal deg p.unit).2.1 ++ [' ', ' '])) ++ 's' :: [] := by
    rw [show "  s".toList = [' ', ' ', 's'] from rfl]
    simp
  rw [hsplit, takeWhile_append_stop [] (fun c hc => by
    simp only [bne_iff_ne, ne_eq]
    rintro rfl
    exact hpre hc) (by decide)]
  obtain ⟨c, hc1, hc2⟩ := fmtFixed_head (unitNormal deg p.unit).2.2 (p.value * (unitNormal deg p.unit).1)
    (List.replicate (8 - num.length) ' ' ++ (unitNormal deg p.unit).2.1)
  have := strip_core (n := 1) (m := 4 - (unitNormal deg p.unit).2.1.length + 2) (s := pyLjust 8 num ++ (unitNormal deg p.unit).2.1) hc2 hd2
    (by unfold pyLjust; rw [List.append_assoc]; exact hc1)
    (by rw [List.getLast?_append, hd1]; rfl)
  rw [← this]
  congr 2
  conv_lhs => unfold pyLjust
  rw [List.replicate_add]
  simp [pyLjust]

/-- the text of a standard deviation -/
theorem extractStd_eq (sqrt : K → K) (deg : K) (p : Param K) :
    extractStd (p.text sqrt deg) = pyLjust 8 (fmtFixed (unitPrecise deg p.unit).2.2 (sqrt p.variance * (unitPrecise deg p.unit).1)) ++
      (unitPrecise deg p.unit).2.1 := by
  set num := fmtFixed (unitPrecise deg p.unit).2.2 (sqrt p.variance * (unitPrecise deg p.unit).1) with hnum
  set num' := fmtFixed (unitNormal deg p.unit).2.2 (p.value * (unitNormal deg p.unit).1) with hnum'
  obtain ⟨-, hs, d, hd1, hd2⟩ := unitPrecise_text deg p.unit
  have htext : p.text sqrt deg = (pyLjust 16 p.name.toList ++ " = ".toList ++ pyLjust 8 num' ++ pyLjust 4 (unitNormal deg p.unit).2.1 ++ "  s-dev.".toList) ++
      ':' :: (' ' :: (pyLjust 8 num ++ pyLjust 4 (unitPrecise deg p.unit).2.1)) := by
    unfold Param.text
    simp [hnum, hnum']
  have h2 : ':' ∉ (' ' :: (pyLjust 8 num ++ pyLjust 4 (unitPrecise deg p.unit).2.1)) := by
    simp only [List.mem_cons, List.mem_append, not_or]
    refine ⟨by decide, ?_, ?_⟩
    · exact notMem_ljust (by decide) (notMem_fmtFixed (by decide) _ _)
    · exact notMem_ljust (by decide) hs
  unfold extractStd pySplitOn
  rw [htext, (pySplitOnAux_last h2 _ []).1]
  obtain ⟨c, hc1, hc2⟩ := fmtFixed_head (unitPrecise deg p.unit).2.2 (sqrt p.variance * (unitPrecise deg p.unit).1)
    (List.replicate (8 - num.length) ' ' ++ (unitPrecise deg p.unit).2.1)
  have := strip_core (n := 1) (m := 4 - (unitPrecise deg p.unit).2.1.length) (s := pyLjust 8 num ++ (unitPrecise deg p.unit).2.1) hc2 hd2
    (by unfold pyLjust; rw [List.append_assoc]; exact hc1)
    (by rw [List.getLast?_append, hd1]; rfl)
  rw [← this]
  congr 1
  conv_lhs => unfold pyLjust
  simp [pyLjust]

/-- **C143**, the table of the parameters: if no parameter is a time, the table has one row for each estimated parameter, with
its name, its value and its standard deviation, each with its unit.
Missing for the full property: the time shift, `C143_time_shift_unit`. -/
theorem C143_table_partial (sqrt : K → K) (deg : K) {s : PSet K} (hn : ∀ p ∈ estimatedParams s, '=' ∉ p.name.toList)
    (hu : ∀ p ∈ estimatedParams s, p.unit ≠ .second) :
    ∃ t, reportTable sqrt deg s = .ok t ∧ t.labels = (estimatedParams s).map (fun p => p.name.toList) ∧
      List.Forall₂ (fun p text => ShowsValue deg p.unit p.value text) (estimatedParams s) t.values ∧
      List.Forall₂ (fun p text => ShowsDeviation deg p.unit (sqrt p.variance) text) (estimatedParams s) t.stds := by
  have hv : mapE extractValue (s.toStringList sqrt deg) = .ok ((estimatedParams s).map (fun p =>
      pyLjust 8 (fmtFixed (unitNormal deg p.unit).2.2 (p.value * (unitNormal deg p.unit).1)) ++ (unitNormal deg p.unit).2.1)) := by
    unfold PSet.toStringList
    rw [shownParams_enabled]
    revert hn hu
    generalize estimatedParams s = l
    intro hn hu
    induction l with
    | nil => rfl
    | cons p l ih =>
      exact mapE_cons (extractValue_partial sqrt deg (hn p (by simp)) (hu p (by simp)))
        (ih (fun q hq => hn q (by simp [hq])) (fun q hq => hu q (by simp [hq])))
  refine ⟨_, by unfold reportTable; rw [hv]; rfl, ?_, ?_, ?_⟩
  · show s.toNameList true false = _
    unfold PSet.toNameList
    rw [shownParams_enabled]
    simp
  · show List.Forall₂ _ _ ((estimatedParams s).map _)
    rw [List.forall₂_map_right_iff, List.forall₂_same]
    intro p hp
    unfold ShowsValue ShowsQuantity pyLjust
    cases h : p.unit <;>
      exact ⟨8 - (fmtFixed (unitNormal deg p.unit).2.2 (p.value * (unitNormal deg p.unit).1)).length, by simp [unitNormal, h]⟩
  · show List.Forall₂ _ _ ((s.toStringList sqrt deg).map extractStd)
    unfold PSet.toStringList
    rw [shownParams_enabled, List.map_map, List.forall₂_map_right_iff, List.forall₂_same]
    intro p hp
    rw [Function.comp_apply, extractStd_eq]
    unfold ShowsDeviation ShowsQuantity pyLjust
    cases h : p.unit <;>
      exact ⟨8 - (fmtFixed (unitPrecise deg p.unit).2.2 (sqrt p.variance * (unitPrecise deg p.unit).1)).length,
        by simp [unitNormal, unitPrecise, h]⟩

/-- **C143 is false of the code** for every time: the value is shown with the unit metre, `m` instead of `ms`. -/
theorem C143_time_shift_unit (sqrt : K → K) (deg : K) {p : Param K} (hn : '=' ∉ p.name.toList) (hu : p.unit = .second) :
    ∃ text, extractValue (p.text sqrt deg) = .ok text ∧ ShowsQuantity text (p.value * 1000) 1 "m" ∧
      ¬ ShowsValue deg p.unit p.value text := by
  set num := fmtFixed 1 (p.value * 1000) with hnum
  have hx : extractValue (p.text sqrt deg) = .ok (num ++ List.replicate (8 - num.length) ' ' ++ ['m']) := by
    rw [extractValue_eq sqrt deg hn, hu]
    have hsplit : (' ' :: (pyLjust 8 (fmtFixed (unitNormal deg MUnit.second).2.2 (p.value * (unitNormal deg MUnit.second).1)) ++
        pyLjust 4 (unitNormal deg MUnit.second).2.1 ++ "  s".toList)) =
        (' ' :: (num ++ List.replicate (8 - num.length) ' ' ++ ['m'])) ++ 's' :: [' ', ' ', ' ', ' ', 's'] := by
      unfold pyLjust
      rw [show "  s".toList = [' ', ' ', 's'] from rfl]
      simp [unitNormal, hnum, List.replicate]
    have hpre : 's' ∉ (' ' :: (num ++ List.replicate (8 - num.length) ' ' ++ ['m'])) := by
      simp only [List.mem_cons, List.mem_append, not_or]
      exact ⟨by decide, ⟨notMem_fmtFixed (by decide) _ _, fun h => absurd (List.mem_replicate.1 h).2 (by decide)⟩, by decide⟩
    rw [hsplit, takeWhile_append_stop _ (fun c hc => by
      simp only [bne_iff_ne, ne_eq]
      rintro rfl
      exact hpre hc) (by decide)]
    obtain ⟨c, hc1, hc2⟩ := fmtFixed_head 1 (p.value * 1000) (List.replicate (8 - num.length) ' ' ++ ['m'])
    have := strip_core (n := 1) (m := 0) (s := num ++ List.replicate (8 - num.length) ' ' ++ ['m']) (d := 'm') hc2 (by decide)
      (by rw [List.append_assoc]; exact hc1) (by simp)
    rw [List.replicate_zero, List.append_nil] at this
    exact congrArg Except.ok this
  refine ⟨_, hx, ⟨_, rfl⟩, ?_⟩
  rw [hu]
  rintro ⟨n, hn⟩
  have := congrArg List.getLast? hn
  rw [List.getLast?_append, List.getLast?_append (l' := "ms".toList)] at this
  simp at this

/-- The time shift is a parameter of every alignment and has this unit; the names of the parameters have no sign of equality. -/
theorem C143_time_shift_exists : (∃ p ∈ (AlignParams.new : PSet K).params, p.name = "Time Shift" ∧ p.unit = .second) ∧
    ∀ p ∈ (AlignParams.new : PSet K).params, '=' ∉ p.name.toList := by
  unfold AlignParams.new alignNames alignDefaults
  constructor
  · exact ⟨⟨0, 0, 0, false, "Time Shift", .second⟩, by simp, rfl, rfl⟩
  · intro p hp
    simp at hp
    rcases hp with rfl | rfl | rfl | rfl | rfl | rfl | rfl | rfl | rfl | rfl | rfl <;> simp

end

/-! ### C144: the correlation matrix -/

theorem two_sum {n a b : Nat} (hab : a ≠ b) (ha : a < n) (hb : b < n) (f : Nat → K) (hf : ∀ i, i ≠ a → i ≠ b → f i = 0) :
    ((List.range n).map f).sum = f a + f b := by
  rw [← List.sum_toFinset f List.nodup_range]
  rw [← Finset.sum_subset (s₁ := {a, b})]
  · rw [Finset.sum_pair hab]
  · intro i hi
    simp only [Finset.mem_insert, Finset.mem_singleton] at hi
    rcases hi with rfl | rfl <;> simp [*]
  · intro i _ hi
    simp only [Finset.mem_insert, Finset.mem_singleton, not_or] at hi
    exact hf i hi.1 hi.2

/-- the square of a covariance is at most the product of the variances -/
theorem cov_le {n : Nat} {m : List (List K)} (h : IsCovariance n m) {a b : Nat} (hab : a ≠ b) (ha : a < n) (hb : b < n)
    (hpos : 0 < cell m b b) : cell m a b * cell m a b ≤ cell m a a * cell m b b := by
  have hx := h.psd (fun i => if i = a then cell m b b else if i = b then - cell m a b else 0)
  rw [two_sum hab ha hb _ (by
    intro i h1 h2
    apply List.sum_eq_zero
    intro y hy
    obtain ⟨j, -, rfl⟩ := List.mem_map.1 hy
    simp [h1, h2])] at hx
  rw [two_sum hab ha hb _ (by intro i h1 h2; simp [h1, h2]), two_sum hab ha hb _ (by intro i h1 h2; simp [h1, h2])] at hx
  simp only [if_true, if_neg hab.symm] at hx
  rw [h.symm b a] at hx
  by_contra hlt
  have hlt := not_le.1 hlt
  nlinarith [mul_pos hpos (sub_pos.2 hlt)]

/-- **C144**: the matrix of correlations has the names of the estimated parameters, in small letters, at its rows and columns; for a
covariance matrix with positive variances, the entry for two different parameters is their covariance divided by
both standard deviations, it lies between -1 and 1, and the matrix is symmetric. -/
theorem C144_correlation {sqrt : K → K} (h0 : ∀ x, 0 ≤ x → 0 ≤ sqrt x) (h1 : ∀ x, 0 ≤ x → sqrt x * sqrt x = x) {s : PSet K}
    (hc : IsCovariance s.params.length s.cov) (hpos : ∀ i p, s.params[i]? = some p → p.enabled = true → 0 < cell s.cov i i) :
    (correlation sqrt s true).1 = (estimatedParams s).map (fun p => pyLower p.name.toList) ∧
    (correlation sqrt s true).2.length = (estimatedParams s).length ∧
    ∀ i j a b : Nat, s.enabledIndices[i]? = some a → s.enabledIndices[j]? = some b → i ≠ j →
      ∃ (row : List (Option K)) (r : K), (correlation sqrt s true).2[i]? = some row ∧ row[j]? = some (some r) ∧ -1 ≤ r ∧ r ≤ 1 ∧
        r * (sqrt (cell s.cov a a) * sqrt (cell s.cov b b)) = cell s.cov a b ∧
        ∃ row' : List (Option K), (correlation sqrt s true).2[j]? = some row' ∧ row'[i]? = some (some r) := by
  have hidx : ∀ (k a : Nat), s.enabledIndices[k]? = some a → a < s.params.length ∧ 0 < cell s.cov a a := by
    intro k a hk
    have hm := List.mem_of_getElem? hk
    unfold PSet.enabledIndices PSet.enabledBoolList at hm
    obtain ⟨x, hx1, hx2⟩ := List.mem_map.1 hm
    obtain ⟨hx1, hx3⟩ := List.mem_filter.1 hx1
    have := List.mem_zipIdx_iff_getElem?.1 hx1
    rw [List.getElem?_map] at this
    cases hp : s.params[x.2]? with
    | none => rw [hp] at this; cases this
    | some p =>
      rw [hp] at this
      have hpe : p.enabled = x.1 := Option.some.inj this
      subst hx2
      refine ⟨(List.getElem?_eq_some_iff.1 hp).1, hpos _ p hp (by rw [hpe]; exact hx3)⟩
  have hlen : s.enabledIndices.length = (estimatedParams s).length := by
    unfold PSet.enabledIndices PSet.enabledBoolList estimatedParams
    rw [List.length_map]
    have : ∀ (l : List (Param K)) (n : Nat), (((l.map Param.enabled).zipIdx n).filter (fun x => x.1)).length = (l.filter (fun p => p.enabled)).length := by
      intro l
      induction l with
      | nil => intro n; rfl
      | cons p l ih =>
        intro n
        rw [List.map_cons, List.zipIdx_cons]
        by_cases hp : p.enabled = true
        · rw [List.filter_cons_of_pos (by simpa using hp), List.filter_cons_of_pos (by simpa using hp), List.length_cons, List.length_cons, ih]
        · rw [List.filter_cons_of_neg (by simpa using hp), List.filter_cons_of_neg (by simpa using hp), ih]
    exact this _ _
  refine ⟨?_, ?_, ?_⟩
  · show s.toNameList true true = _
    unfold PSet.toNameList
    rw [shownParams_enabled]
    simp
  · unfold correlation PSet.getCovariance
    simp [hlen]
  · intro i j a b hi hj hij
    obtain ⟨ha, hpa⟩ := hidx i a hi
    obtain ⟨hb, hpb⟩ := hidx j b hj
    have hstd : ∀ (k c : Nat), s.enabledIndices[k]? = some c →
        ((PSet.diag (s.getCovariance true)).map sqrt).getD k 0 = sqrt (cell s.cov c c) := by
      intro k c hk
      have hk' : k < s.enabledIndices.length := (List.getElem?_eq_some_iff.1 hk).1
      unfold PSet.diag PSet.getCovariance
      rw [List.getD_eq_getElem?_getD, List.getElem?_map, List.getElem?_map, List.getElem?_range (by simpa using hk')]
      simp only [Option.map_some, Option.getD_some]
      congr 1
      unfold PSet.entry
      simp only [if_true]
      rw [List.getD_eq_getElem?_getD, List.getD_eq_getElem?_getD, List.getElem?_map, hk]
      simp only [Option.map_some, Option.getD_some]
      rw [List.getElem?_map, hk]
      rfl
    have hentry : ∀ (k l c d : Nat), s.enabledIndices[k]? = some c → s.enabledIndices[l]? = some d → k ≠ l →
        0 < cell s.cov c c → 0 < cell s.cov d d → ∃ row : List (Option K), (correlation sqrt s true).2[k]? = some row ∧
        row[l]? = some (some (cell s.cov c d / (sqrt (cell s.cov c c) * sqrt (cell s.cov d d)))) := by
      intro k l c d hk hl hkl hc hd
      have hne : sqrt (cell s.cov c c) * sqrt (cell s.cov d d) ≠ 0 := by
        intro h
        rcases mul_eq_zero.1 h with h | h
        · have := h1 _ hc.le
          rw [h, mul_zero] at this
          exact absurd this hc.ne
        · have := h1 _ hd.le
          rw [h, mul_zero] at this
          exact absurd this hd.ne
      unfold correlation
      simp only
      rw [List.getElem?_mapIdx]
      have hrow : (s.getCovariance true)[k]? = some (s.enabledIndices.map (fun j => PSet.entry s.cov c j)) := by
        unfold PSet.getCovariance
        rw [if_pos rfl, List.getElem?_map, hk]
        rfl
      rw [hrow]
      refine ⟨_, rfl, ?_⟩
      rw [List.getElem?_mapIdx, List.getElem?_map, hl]
      simp only [Option.map_some]
      rw [if_neg hkl, hstd k c hk, hstd l d hl, if_neg hne]
      rfl
    obtain ⟨row, hr1, hr2⟩ := hentry i j a b hi hj hij hpa hpb
    obtain ⟨row', hr3, hr4⟩ := hentry j i b a hj hi hij.symm hpb hpa
    have hnn := h0 _ hpa.le
    have hnn' := h0 _ hpb.le
    have hsq := h1 _ hpa.le
    have hsq' := h1 _ hpb.le
    have hab : a ≠ b := by
      rintro rfl
      apply hij
      have hnd : s.enabledIndices.Nodup := by
        unfold PSet.enabledIndices
        have h2 : ((s.enabledBoolList.zipIdx).map (fun x => x.2)).Nodup := by
          rw [show (fun x : Bool × Nat => x.2) = Prod.snd from rfl, List.zipIdx_map_snd]
          exact List.nodup_range'
        exact h2.sublist (List.Sublist.map _ List.filter_sublist)
      exact (List.Nodup.getElem_inj_iff hnd).1 (by
        rw [(List.getElem?_eq_some_iff.1 hi).2, (List.getElem?_eq_some_iff.1 hj).2] :
          s.enabledIndices[i]'(List.getElem?_eq_some_iff.1 hi).1 = s.enabledIndices[j]'(List.getElem?_eq_some_iff.1 hj).1)
    have hle := cov_le hc hab ha hb hpb
    have hprod : 0 < sqrt (cell s.cov a a) * sqrt (cell s.cov b b) := by
      apply lt_of_le_of_ne (mul_nonneg hnn hnn')
      intro h
      rcases mul_eq_zero.1 h.symm with h | h
      · rw [h, mul_zero] at hsq
        exact absurd hsq hpa.ne
      · rw [h, mul_zero] at hsq'
        exact absurd hsq' hpb.ne
    have habs : |cell s.cov a b| ≤ sqrt (cell s.cov a a) * sqrt (cell s.cov b b) := by
      apply abs_le_of_sq_le_sq _ hprod.le
      calc cell s.cov a b ^ 2 = cell s.cov a b * cell s.cov a b := sq _
        _ ≤ cell s.cov a a * cell s.cov b b := hle
        _ = (sqrt (cell s.cov a a) * sqrt (cell s.cov a a)) * (sqrt (cell s.cov b b) * sqrt (cell s.cov b b)) := by rw [hsq, hsq']
        _ = (sqrt (cell s.cov a a) * sqrt (cell s.cov b b)) ^ 2 := by ring
    rw [abs_le] at habs
    refine ⟨row, _, hr1, hr2, ?_, ?_, div_mul_cancel₀ _ hprod.ne', row', hr3, ?_⟩
    · rw [le_div_iff₀ hprod]
      linarith [habs.1]
    · rw [div_le_iff₀ hprod]
      linarith [habs.2]
    · rw [hr4, hc.symm b a, mul_comm (sqrt (cell s.cov b b))]

/-- **C144, all parameters**: if the parameters that are not estimated are wanted too, the names of all parameters stand at
the rows and columns, and the entry for two parameters with positive variances is their correlation; for a parameter
without variance there is none. -/
theorem C144_all {sqrt : K → K} (h1 : ∀ x, 0 ≤ x → sqrt x * sqrt x = x) {s : PSet K}
    (hn : s.cov.length = s.params.length) (hrow : ∀ row ∈ s.cov, row.length = s.params.length) :
    (correlation sqrt s false).1 = s.params.map (fun p => pyLower p.name.toList) ∧
    (correlation sqrt s false).2.length = s.params.length ∧
    ∀ i j : Nat, i < s.params.length → j < s.params.length →
      ∃ (row : List (Option K)) (r : Option K), (correlation sqrt s false).2[i]? = some row ∧ row[j]? = some r ∧
        (i = j → r = none) ∧ (0 = cell s.cov i i ∨ 0 = cell s.cov j j → r = none) ∧
        (i ≠ j → 0 < cell s.cov i i → 0 < cell s.cov j j →
          r = some (cell s.cov i j / (sqrt (cell s.cov i i) * sqrt (cell s.cov j j)))) := by
  have hs0 : sqrt 0 = 0 := by
    have := h1 0 le_rfl
    exact mul_self_eq_zero.1 this
  refine ⟨?_, ?_, ?_⟩
  · show s.toNameList false true = _
    unfold PSet.toNameList PSet.shownParams
    simp
  · unfold correlation PSet.getCovariance
    simp [hn]
  · intro i j hi hj
    have hi' : i < s.cov.length := by omega
    have hj' : j < (s.cov[i]).length := by rw [hrow _ (List.getElem_mem hi')]; exact hj
    have hd : ∀ k < s.params.length, ((PSet.diag (s.getCovariance false)).map sqrt).getD k 0 = sqrt (cell s.cov k k) := by
      intro k hk
      unfold PSet.diag PSet.getCovariance
      rw [if_neg (by simp), List.getD_eq_getElem?_getD, List.getElem?_map, List.getElem?_map, List.getElem?_range (by omega)]
      rfl
    have hc : (s.cov[i])[j] = cell s.cov i j := by
      unfold cell
      rw [List.getD_eq_getElem?_getD, List.getD_eq_getElem?_getD, List.getElem?_eq_getElem hi', Option.getD_some,
        List.getElem?_eq_getElem hj', Option.getD_some]
    unfold correlation
    simp only
    rw [List.getElem?_mapIdx, show s.getCovariance false = s.cov from by simp [PSet.getCovariance], List.getElem?_eq_getElem hi']
    refine ⟨_, _, rfl, by rw [List.getElem?_mapIdx, List.getElem?_eq_getElem hj', Option.map_some], ?_, ?_, ?_⟩
    · intro h
      rw [if_pos h]
    · have hd1 := hd i hi
      have hd2 := hd j hj
      rw [show s.getCovariance false = s.cov from by simp [PSet.getCovariance]] at hd1 hd2
      intro h
      split
      · rfl
      · rw [hd1, hd2, if_pos]
        rcases h with h | h <;> rw [← h, hs0] <;> simp
    · have hd1 := hd i hi
      have hd2 := hd j hj
      rw [show s.getCovariance false = s.cov from by simp [PSet.getCovariance]] at hd1 hd2
      intro hij hpi hpj
      rw [if_neg hij, hd1, hd2, if_neg, hc]
      intro h
      rcases mul_eq_zero.1 h with h | h
      · have := h1 _ hpi.le
        rw [h, mul_zero] at this
        exact absurd this hpi.ne
      · have := h1 _ hpj.le
        rw [h, mul_zero] at this
        exact absurd this hpj.ne

/-- a set in which two of three parameters are estimated, with correlated values -/
def exCorr : PSet ℚ :=
  { cov := [[4, 0, 3], [0, 0, 0], [3, 0, 9]]
    params := [⟨1, 4, 0, true, "Translation x", .meter⟩, ⟨0, 0, 0, false, "Rotation z", .radian⟩, ⟨2, 9, 1, true, "Scale", .scale⟩] }

theorem exCorr_cov : IsCovariance exCorr.params.length exCorr.cov := by
  constructor
  · intro i j
    have : ∀ k : Nat, k = 0 ∨ k = 1 ∨ k = 2 ∨ ∃ m, k = m + 3 := by
      intro k
      rcases k with _ | _ | _ | m
      · exact .inl rfl
      · exact .inr (.inl rfl)
      · exact .inr (.inr (.inl rfl))
      · exact .inr (.inr (.inr ⟨m, rfl⟩))
    rcases this i with rfl | rfl | rfl | ⟨a, rfl⟩ <;> rcases this j with rfl | rfl | rfl | ⟨b, rfl⟩ <;> simp [cell, exCorr]
  · intro x
    have h3 : List.range exCorr.params.length = [0, 1, 2] := by decide
    rw [h3]
    simp only [List.map_cons, List.map_nil, List.sum_cons, List.sum_nil, cell, exCorr, List.getD_cons_zero, List.getD_cons_succ]
    nlinarith [sq_nonneg (x 0 * 4 + 3 * x 2), sq_nonneg (x 2)]

example : IsCovariance exCorr.params.length exCorr.cov ∧
    (∀ i p, exCorr.params[i]? = some p → p.enabled = true → 0 < cell exCorr.cov i i) ∧ exCorr.enabledIndices = [0, 2] := by
  refine ⟨exCorr_cov, ?_, by decide⟩
  intro i p hp he
  rcases i with _ | _ | _ | m
  · norm_num [cell, exCorr]
  · simp only [exCorr, List.getElem?_cons_succ, List.getElem?_cons_zero, Option.some.injEq] at hp
    subst hp
    cases he
  · norm_num [cell, exCorr]
  · simp [exCorr] at hp

/-- a function that is the square root of the numbers that are needed below -/
def fewRoots (x : ℚ) : ℚ := if x = 4 then 2 else if x = 9 then 3 else if x = 1 / 4 then 1 / 2 else 0

example : (correlation fewRoots exCorr true) =
    (["translation x".toList, "scale".toList], [[none, some (1 / 2)], [some (1 / 2), none]]) := by
  decide +kernel

example : (correlation fewRoots exCorr false) =
    (["translation x".toList, "rotation z".toList, "scale".toList],
      [[none, none, some (1 / 2)], [none, none, none], [some (1 / 2), none, none]]) := by
  decide +kernel

-- a zero variance leaves no correlation
example : (correlation fewRoots { exCorr with cov := [[4, 0, 0], [0, 0, 0], [0, 0, 0]] } true).2 = [[none, none], [none, none]] := by
  decide +kernel

example : (∀ p ∈ estimatedParams exCorr, '=' ∉ p.name.toList) ∧ (∀ p ∈ estimatedParams exCorr, p.unit ≠ .second) := by
  decide

example : ((reportTable fewRoots 57 exCorr).map (fun t => (t.labels, t.values, t.stds))).toOption =
    some (["Translation x".toList, "Scale".toList], ["1.000   m".toList, "2.000   -".toList],
      ["2000.0  mm".toList, "3000000.0ppm".toList]) := by
  decide +kernel

-- twelve milliseconds are shown as twelve metres
example : (extractValue ((⟨12 / 1000, 1 / 4, 0, true, "Time Shift", .second⟩ : Param ℚ).text fewRoots 57)).toOption = some "12.0    m".toList ∧
    extractStd ((⟨12 / 1000, 1 / 4, 0, true, "Time Shift", .second⟩ : Param ℚ).text fewRoots 57) = "500.0   ms".toList := by
  decide +kernel

end TC
