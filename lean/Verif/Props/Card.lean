import Verif.Model.Card
import Verif.Spec.Card
import Verif.Spec.ReportHead
import Verif.Props.ReportHead
import Verif.Props.TotalLength
/-!
# C186: the text that describes a trajectory
-/
namespace TC
set_option linter.unusedSectionVars false
variable {K R : Type} [Field K] [LinearOrder K] [IsStrictOrderedRing K] [FloorRing K]

theorem join_ends : ∀ lines : List Str, (lines.map (fun l => l ++ ['\n'])).flatten = pyJoin ['\n'] (lines ++ [[]])
  | [] => rfl
  | [a] => by simp [pyJoin]
  | a :: b :: l => by
    have ih := join_ends (b :: l)
    rw [List.map_cons, List.flatten_cons, ih]
    simp [pyJoin]

theorem card_lines {lines : List Str} (h : ∀ l ∈ lines, '\n' ∉ l) :
    pySplitOn '\n' ('\n' :: (lines.map (fun l => l ++ ['\n'])).flatten) = [] :: lines ++ [[]] := by
  have e : '\n' :: (lines.map (fun l => l ++ ['\n'])).flatten = pyJoin ['\n'] ([] :: lines ++ [[]]) := by
    rw [join_ends]
    cases lines <;> simp [pyJoin]
  rw [e]
  refine pySplitOn_join (by simp) ?_
  intro p hp
  simp only [List.cons_append, List.mem_cons, List.mem_append, List.not_mem_nil, or_false] at hp
  rcases hp with rfl | hp | rfl
  · simp
  · exact h p hp
  · simp

theorem trim_left (n : Nat) (s : Str) : (List.replicate n ' ' ++ s).dropWhile (· == ' ') = s.dropWhile (· == ' ') := by
  induction n with
  | zero => rfl
  | succ n ih => rw [List.replicate_succ, List.cons_append, List.dropWhile_cons_of_pos (by rfl), ih]

theorem trim_right (m : Nat) : ∀ s : Str, (s ++ List.replicate m ' ').dropWhile (· == ' ') = s.dropWhile (· == ' ') ++ List.replicate m ' ' ∨
    ((s ++ List.replicate m ' ').dropWhile (· == ' ') = [] ∧ s.dropWhile (· == ' ') = [])
  | [] => Or.inr ⟨by have := trim_left m []; rw [List.append_nil] at this; rw [List.nil_append, this]; rfl, rfl⟩
  | c :: s => by
    by_cases hc : (c == ' ') = true
    · rw [List.cons_append, List.dropWhile_cons_of_pos (p := (· == ' ')) hc, List.dropWhile_cons_of_pos (p := (· == ' ')) hc]
      exact trim_right m s
    · rw [List.cons_append, List.dropWhile_cons_of_neg (p := (· == ' ')) hc, List.dropWhile_cons_of_neg (p := (· == ' ')) hc]
      exact Or.inl rfl

theorem trim_pad (n m : Nat) (s : Str) : trimBlanks (List.replicate n ' ' ++ (s ++ List.replicate m ' ')) = trimBlanks s := by
  unfold trimBlanks
  rw [trim_left]
  rcases trim_right m s with h | ⟨h1, h2⟩
  · rw [h, List.reverse_append, List.reverse_replicate, trim_left]
  · rw [h1, h2]

theorem trim_same {s : Str} (h : ' ' ∉ s) : trimBlanks s = s := by
  have key : ∀ t : Str, ' ' ∉ t → t.dropWhile (· == ' ') = t := by
    intro t ht
    cases t with
    | nil => rfl
    | cons c t =>
      refine List.dropWhile_cons_of_neg ?_
      intro hc
      exact ht (by rw [eq_of_beq hc]; exact List.mem_cons_self)
  unfold trimBlanks
  rw [key s h, key _ (by simpa using h), List.reverse_reverse]

/-- what stands under a heading in a line of the card -/
theorem under_line (pre : List Str) (post : List Str) (heading : String) (n : Nat) (v : Str)
    (hpre : ∀ l ∈ pre, ("| " ++ heading ++ ":").toList.isPrefixOf l = false) :
    ((pre ++ (("| " ++ heading ++ ":").toList ++ List.replicate n ' ' ++ pyLjust 24 v ++ ['|']) :: post).find?
      (fun l => ("| " ++ heading ++ ":").toList.isPrefixOf l)).map (fun l => trimBlanks ((l.drop (heading.toList.length + 3)).dropLast))
      = some (trimBlanks v) := by
  rw [List.find?_append, List.find?_eq_none.2 (by intro x hx; rw [hpre x hx]; simp), Option.none_or,
    List.find?_cons_of_pos (by rw [List.append_assoc, List.append_assoc]; exact List.isPrefixOf_iff_prefix.2 (List.prefix_append _ _))]
  have hl : ("| " ++ heading ++ ":").toList.length = heading.toList.length + 3 := by simp [String.toList_append]
  rw [Option.map_some, List.append_assoc, List.append_assoc, ← hl, List.drop_left, ← List.append_assoc, List.dropLast_concat]
  unfold pyLjust
  rw [trim_pad]

theorem no_break_pad {v : Str} (h : '\n' ∉ v) : '\n' ∉ pyLjust 24 v := by
  unfold pyLjust
  rw [List.mem_append, List.mem_replicate]
  rintro (h' | ⟨-, h'⟩)
  · exact h h'
  · cases h'

/-- a line of the card -/
def cardLine (heading : String) (n : Nat) (v : Str) : Str := ("| " ++ heading ++ ":").toList ++ List.replicate n ' ' ++ pyLjust 24 v ++ ['|']

/-- all lines of the card -/
def cardWith (v1 v2 v3 v4 v5 v6 v7 : Str) : List Str := [
  " _______________________________________________________".toList,
  "| ------------------ Trajectory Info ------------------ |".toList,
  cardLine "Name" 25 v1, cardLine "Number of poses" 14 v2, cardLine "Orientation available" 8 v3, cardLine "EPSG" 25 v4,
  cardLine "Length [m]" 19 v5, cardLine "Data rate [Hz]" 15 v6, cardLine "Function of" 18 v7,
  "|_______________________________________________________|".toList]

theorem no_break_line {heading : String} (n : Nat) {v : Str} (h : '\n' ∉ ("| " ++ heading ++ ":").toList) (hv : '\n' ∉ v) :
    '\n' ∉ cardLine heading n v := by
  unfold cardLine
  simp only [List.mem_append, not_or] at h ⊢
  refine ⟨⟨⟨h, ?_⟩, no_break_pad hv⟩, by decide⟩
  rw [List.mem_replicate]
  rintro ⟨-, h'⟩
  cases h'

theorem card_read {v1 v2 v3 v4 v5 v6 v7 : Str} (h1 : '\n' ∉ v1) (h2 : '\n' ∉ v2) (h3 : '\n' ∉ v3) (h4 : '\n' ∉ v4) (h5 : '\n' ∉ v5)
    (h6 : '\n' ∉ v6) (h7 : '\n' ∉ v7) {text : Str}
    (ht : text = '\n' :: ((cardWith v1 v2 v3 v4 v5 v6 v7).map (fun l => l ++ ['\n'])).flatten) :
    underHeading "Name" text = some (trimBlanks v1) ∧ underHeading "Number of poses" text = some (trimBlanks v2) ∧
    underHeading "Orientation available" text = some (trimBlanks v3) ∧ underHeading "EPSG" text = some (trimBlanks v4) ∧
    underHeading "Length [m]" text = some (trimBlanks v5) ∧ underHeading "Data rate [Hz]" text = some (trimBlanks v6) ∧
    underHeading "Function of" text = some (trimBlanks v7) := by
  have hs : pySplitOn '\n' text = [] :: cardWith v1 v2 v3 v4 v5 v6 v7 ++ [[]] := by
    rw [ht]
    refine card_lines ?_
    intro l hl
    simp only [cardWith, List.mem_cons, List.not_mem_nil, or_false] at hl
    rcases hl with rfl | rfl | rfl | rfl | rfl | rfl | rfl | rfl | rfl | rfl
    · decide
    · decide
    · exact no_break_line _ (by decide) h1
    · exact no_break_line _ (by decide) h2
    · exact no_break_line _ (by decide) h3
    · exact no_break_line _ (by decide) h4
    · exact no_break_line _ (by decide) h5
    · exact no_break_line _ (by decide) h6
    · exact no_break_line _ (by decide) h7
    · decide
  have key : ∀ (heading : String) (n : Nat) (v : Str) (pre post : List Str),
      [] :: cardWith v1 v2 v3 v4 v5 v6 v7 ++ [[]] = pre ++ cardLine heading n v :: post →
      (∀ l ∈ pre, ("| " ++ heading ++ ":").toList.isPrefixOf l = false) → underHeading heading text = some (trimBlanks v) := by
    intro heading n v pre post e hp
    unfold underHeading
    rw [hs, e]
    exact under_line pre post heading n v hp
  refine ⟨key _ 25 _ ([[], _, _]) _ rfl ?_, key _ 14 _ [[], _, _, _] _ rfl ?_, key _ 8 _ [[], _, _, _, _] _ rfl ?_,
    key _ 25 _ [[], _, _, _, _, _] _ rfl ?_, key _ 19 _ [[], _, _, _, _, _, _] _ rfl ?_, key _ 15 _ [[], _, _, _, _, _, _, _] _ rfl ?_,
    key _ 18 _ [[], _, _, _, _, _, _, _, _] _ rfl ?_⟩ <;>
  · intro l hl
    simp only [List.mem_cons, List.not_mem_nil, or_false] at hl
    rcases hl with rfl | hl
    · rfl
    repeat' (first | (rcases hl with rfl | hl; · rfl) | (subst hl; rfl))

/-- **C186.** -/
theorem C186_card {nrm : V3 K → K} {T : Traj K R} (hT : Coherent T) (harc : IsTravelled nrm T.pos T.arc) (hname : '\n' ∉ T.name.toList)
    (h2 : 2 ≤ T.tstamps.length) {lo hi : K} (hlo : lo ∈ T.tstamps) (hhi : hi ∈ T.tstamps) (hb : ∀ t ∈ T.tstamps, lo ≤ t ∧ t ≤ hi)
    (hlt : lo < hi) :
    ∃ text, T.card = .ok text ∧
      underHeading "Name" text = some (trimBlanks T.name.toList) ∧
      (∃ s, underHeading "Number of poses" text = some s ∧ pyInt s = .ok ((samples T).length : Int)) ∧
      underHeading "Orientation available" text = some (if T.rot = none then "no" else "yes").toList ∧
      (∃ s, underHeading "EPSG" text = some s ∧ pyInt s = .ok T.epsg) ∧
      (∃ s, underHeading "Length [m]" text = some s ∧ Report.TextOf s (pathLength nrm T.pos)) ∧
      (∃ s, underHeading "Data rate [Hz]" text = some s ∧ Report.TextOf s (((samples T).length - 1 : Nat) / (hi - lo))) ∧
      underHeading "Function of" text = some (match T.sorting with | .time => "time [s]" | .arcLength => "arc length [m]").toList := by
  have hrate := C26_data_rate T h2 lo hi hlo hhi hb hlt
  have hlen := totalLength_travelled harc
  have hn : (samples T).length = T.pos.length := by rw [samples_length hT, hT.pos]
  have hrot : (if T.hasOrientation then "yes".toList else "no".toList) = (if T.rot = none then "no" else "yes").toList := by
    unfold Traj.hasOrientation
    rcases h : T.rot with _ | r
    · rfl
    · have := hT.rot r h
      simp only [if_neg (Option.some_ne_none r)]
      rw [if_pos (by simp; omega)]
  have hlab : T.functionOfLabel = (match T.sorting with | .time => "time [s]" | .arcLength => "arc length [m]").toList := by
    unfold Traj.functionOfLabel
    cases T.sorting <;> rfl
  have hcard : T.cardLines = .ok (cardWith T.name.toList (natStr T.len) (if T.rot = none then "no" else "yes").toList (intStr T.epsg)
      (fmtFixed 3 (pathLength nrm T.pos)) (fmtFixed 3 (((T.tstamps.length - 1 : Nat) : K) / (hi - lo)))
      (match T.sorting with | .time => "time [s]" | .arcLength => "arc length [m]").toList) := by
    unfold Traj.cardLines
    rw [hlen, hrate, hrot, hlab]
    rfl
  have hspace : ∀ {v : Str}, NoSpace v → '\n' ∉ v ∧ ' ' ∉ v := fun h =>
    ⟨fun h' => by have := h _ h'; revert this; decide, fun h' => by have := h _ h'; revert this; decide⟩
  have s1 := hspace (natStr_noSpace T.len)
  have s2 := hspace (intStr_noSpace T.epsg)
  have s3 := hspace (fmtFixed_noSpace 3 (pathLength nrm T.pos))
  have s4 := hspace (fmtFixed_noSpace 3 (((T.tstamps.length - 1 : Nat) : K) / (hi - lo)))
  have s5 : '\n' ∉ (if T.rot = none then "no" else "yes").toList ∧ ' ' ∉ (if T.rot = none then "no" else "yes").toList := by
    split <;> decide
  have s6 : '\n' ∉ (match T.sorting with | .time => "time [s]" | .arcLength => "arc length [m]").toList ∧
      trimBlanks (match T.sorting with | .time => "time [s]" | .arcLength => "arc length [m]").toList =
        (match T.sorting with | .time => "time [s]" | .arcLength => "arc length [m]").toList := by
    cases T.sorting <;> decide
  obtain ⟨r1, r2, r3, r4, r5, r6, r7⟩ := card_read hname s1.1 s5.1 s2.1 s3.1 s4.1 s6.1 rfl
  refine ⟨_, by unfold Traj.card; rw [hcard]; rfl, r1, ⟨_, r2, ?_⟩, by rw [r3, trim_same s5.2], ⟨_, r4, ?_⟩, ⟨_, r5, ?_⟩, ⟨_, r6, ?_⟩,
    by rw [r7, s6.2]⟩
  · rw [trim_same s1.2, pyInt_natStr, hn]; rfl
  · rw [trim_same s2.2, pyInt_intStr]
  · rw [trim_same s3.2]; exact Report.textOf_fmt _
  · rw [trim_same s4.2, samples_length hT]; exact Report.textOf_fmt _

/-- a trajectory of three samples -/
example : ((Traj.cardLines (⟨[0, 1, 4], [⟨0, 0, 0⟩, ⟨2, 0, 0⟩, ⟨7 / 2, 0, 0⟩], none, [0, 2, 7 / 2], [0, 0, 0], .time, "gps", 25832⟩ : Traj ℚ Unit)).map
    (fun l => l.drop 6)).toOption = some ["| Length [m]:                   3.500                   |".toList,
      "| Data rate [Hz]:               0.500                   |".toList, "| Function of:                  time [s]                |".toList,
      "|_______________________________________________________|".toList] := by decide +kernel

end TC
