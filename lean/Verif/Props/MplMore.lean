import Verif.Spec.MplMore
import Verif.Props.Mpl
import Verif.Props.AlignReport
/-!
# C169, C170: axes of equal length, legends of matplotlib plots; C144: the matrix of covariances
-/
namespace TC
namespace Plot
set_option linter.unusedSectionVars false
variable {K R : Type} [Field K] [LinearOrder K]

/-! ### C169: axes of equal length -/
section
variable [IsStrictOrderedRing K]

theorem half_width (l : Limits K) : |l.1 - middle l| = |l.2 - l.1| / 2 ∧ |l.2 - middle l| = |l.2 - l.1| / 2 := by
  have h1 : l.1 - middle l = -((l.2 - l.1) / 2) := by unfold middle; ring
  have h2 : l.2 - middle l = (l.2 - l.1) / 2 := by unfold middle; ring
  have h3 : |(l.2 - l.1) / 2| = |l.2 - l.1| / 2 := by rw [abs_div, abs_of_pos (by norm_num : (0 : K) < 2)]
  rw [h1, h2, abs_neg, h3]
  exact ⟨rfl, rfl⟩

theorem plotRadius_eq (x y z : Limits K) :
    plotRadius x y z = max (max (|x.2 - x.1| / 2) (|y.2 - y.1| / 2)) (|z.2 - z.1| / 2) := by
  unfold plotRadius
  simp only [List.foldl_cons, List.foldl_nil, (half_width _).1, (half_width _).2, max_self, max_assoc]

theorem around_widened {r : K} {l : Limits K} (h : |l.2 - l.1| / 2 ≤ r) : Widened l (around r l) := by
  have h1 := abs_le.1 (show |l.2 - l.1| ≤ 2 * r by linarith)
  refine ⟨?_, ?_, ?_⟩
  · unfold around middle; ring
  · unfold around middle
    rw [le_min_iff]
    constructor <;> simp only <;> linarith
  · unfold around middle
    rw [max_le_iff]
    constructor <;> simp only <;> linarith

/-- **C169**: afterwards the three axes are equally long, each has the same middle as before and still includes its old limits;
so every point that was inside still is.  One of the axes keeps its limits (if they were in order), and no equally long axes that
include the old limits are shorter. -/
theorem C169_equal_axes (x y z : K × K) :
    ∃ x' y' z', setAspectEqual x y z = (x', y', z') ∧ axisLength x' = axisLength y' ∧ axisLength y' = axisLength z' ∧
      Widened x x' ∧ Widened y y' ∧ Widened z z' ∧
      (x.1 ≤ x.2 → y.1 ≤ y.2 → z.1 ≤ z.2 → x' = x ∨ y' = y ∨ z' = z) ∧
      ∀ x'' y'' z'' : K × K, (x''.1 ≤ min x.1 x.2 ∧ max x.1 x.2 ≤ x''.2) → (y''.1 ≤ min y.1 y.2 ∧ max y.1 y.2 ≤ y''.2) →
        (z''.1 ≤ min z.1 z.2 ∧ max z.1 z.2 ≤ z''.2) → axisLength x'' = axisLength y'' → axisLength y'' = axisLength z'' →
        axisLength x' ≤ axisLength x'' := by
  refine ⟨_, _, _, rfl, ?_, ?_, around_widened ?_, around_widened ?_, around_widened ?_, ?_, ?_⟩
  · unfold axisLength around; ring
  · unfold axisLength around; ring
  · rw [plotRadius_eq]; exact le_trans (le_max_left _ _) (le_max_left _ _)
  · rw [plotRadius_eq]; exact le_trans (le_max_right _ _) (le_max_left _ _)
  · rw [plotRadius_eq]; exact le_max_right _ _
  · intro hx hy hz
    have key : ∀ l : Limits K, l.1 ≤ l.2 → ∀ r, r = |l.2 - l.1| / 2 → around r l = l := by
      intro l hl r hr
      rw [abs_of_nonneg (by linarith)] at hr
      subst hr
      unfold around middle
      apply Prod.ext <;> simp only <;> ring
    have h := plotRadius_eq x y z
    rcases max_choice (max (|x.2 - x.1| / 2) (|y.2 - y.1| / 2)) (|z.2 - z.1| / 2) with e | e
    · rcases max_choice (|x.2 - x.1| / 2) (|y.2 - y.1| / 2) with e' | e'
      · exact Or.inl (key x hx _ (by rw [h, e, e']))
      · exact Or.inr (Or.inl (key y hy _ (by rw [h, e, e'])))
    · exact Or.inr (Or.inr (key z hz _ (by rw [h, e])))
  · rintro x'' y'' z'' ⟨hx1, hx2⟩ ⟨hy1, hy2⟩ ⟨hz1, hz2⟩ e1 e2
    have len : axisLength (around (plotRadius x y z) x) = 2 * plotRadius x y z := by unfold axisLength around; ring
    rw [len]
    have key : ∀ (l m : K × K), m.1 ≤ min l.1 l.2 → max l.1 l.2 ≤ m.2 → |l.2 - l.1| / 2 ≤ axisLength m / 2 := by
      intro l m h1 h2
      rw [le_min_iff] at h1
      rw [max_le_iff] at h2
      have : |l.2 - l.1| ≤ axisLength m := by
        unfold axisLength
        rw [abs_le]
        constructor <;> linarith [h1.1, h1.2, h2.1, h2.2]
      linarith
    have hx := key x x'' hx1 hx2
    have hy := key y y'' hy1 hy2
    have hz := key z z'' hz1 hz2
    have : plotRadius x y z ≤ axisLength x'' / 2 := by
      rw [plotRadius_eq]
      exact max_le (max_le hx (by rw [e1]; exact hy)) (by rw [e1, e2]; exact hz)
    linarith

end

/-- a flat scene of 4 by 2 metres -/
example : setAspectEqual ((0, 4) : ℚ × ℚ) (1, 3) (-1, 0) = ((0, 4), (0, 4), (-5 / 2, 3 / 2)) := by decide +kernel

/-- **C169**, the positions: the plot in the plane or in space shows for each trajectory, under its own name, the positions in
the order in which they are stored, each once. -/
theorem C169_positions (ts : List (Traj K R)) :
    (∃ f, plotPos 2 ts = .ok f ∧ List.Forall₂ (fun T c => c = (T.name.toList, [T.pos.map V3.x, T.pos.map V3.y])) ts f) ∧
    (∃ f, plotPos 3 ts = .ok f ∧ List.Forall₂ (fun T c => c = (T.name.toList, [T.pos.map V3.x, T.pos.map V3.y, T.pos.map V3.z])) ts f) ∧
    ∀ dim, dim ≠ 2 → dim ≠ 3 → plotPos dim ts = .error .valueError := by
  have key : ∀ dim, List.Forall₂ (fun T c => c = (T.name.toList, posCurve dim T)) ts
      ((ts.map (fun T => T.name.toList)).zip (ts.map (posCurve dim))) := by
    intro dim
    rw [List.zip_map']
    exact forall₂_map_self (fun _ _ => rfl)
  refine ⟨⟨_, by unfold plotPos; rw [if_pos (Or.inl rfl)], key 2⟩, ⟨_, by unfold plotPos; rw [if_pos (Or.inr rfl)], key 3⟩, ?_⟩
  intro dim h2 h3
  unfold plotPos
  rw [if_neg (by rintro (h | h) <;> contradiction)]

/-! ### C170: legends -/

theorem filter_first {α : Type} (g : α → List (Line K)) (h : ∀ a, ∃ x y z w, g a = [⟨1, x, y⟩, ⟨2, x, z⟩, ⟨3, x, w⟩]) :
    ∀ l : List α, ((l.map g).flatten).filter (fun l => decide (l.row = 1)) = l.map (fun a => (g a).headD ⟨1, [], []⟩)
  | [] => rfl
  | a :: l => by
    obtain ⟨x, y, z, w, e⟩ := h a
    rw [List.map_cons, List.flatten_cons, List.filter_append, filter_first g h l, List.map_cons, e]
    simp

/-- the lines of the orientations of a trajectory: roll, pitch and yaw in degrees of each sample over its time or length -/
def OwnRpy (P : PlotLib K R) (T : Traj K R) (ls : List (Line K)) : Prop :=
  ∃ r x qs, T.rot = some r ∧ x.Pairwise (· ≤ ·) ∧ x.length = qs.length ∧ (x.zip qs).Perm ((abscissas T).zip r) ∧
    ls = [⟨1, x, (qs : List R).map (fun q => P.deg (P.euler q).x)⟩, ⟨2, x, qs.map (fun q => P.deg (P.euler q).y)⟩,
      ⟨3, x, qs.map (fun q => P.deg (P.euler q).z)⟩]

theorem forall₂_zip_map {α β γ : Type} {p : α → β → Prop} (f : α → γ) : ∀ {l : List α} {m : List β}, List.Forall₂ p l m →
    List.Forall₂ (fun a c => c.1 = f a ∧ p a c.2) l ((l.map f).zip m)
  | _, _, .nil => .nil
  | _, _, .cons h t => .cons ⟨rfl, h⟩ (forall₂_zip_map f t)

/-- **C170**, orientations: the plot exists exactly if one of the trajectories has orientations.  It then shows roll, pitch and yaw of
those trajectories that have orientations, and the legend gives each of these its own name, at its own line. -/
theorem C170_orientations {P : PlotLib K R} (ha : IsArgsort P.argsort) {ts : List (Traj K R)} (hT : ∀ T ∈ ts, Coherent T)
    (hne : ∀ T ∈ ts, T.tstamps ≠ []) :
    ((∀ T ∈ ts, T.rot = none) → plotRpy P ts = .ok none) ∧
    ((∃ T ∈ ts, T.rot ≠ none) → ∃ f lines, plotRpy P ts = .ok (some f) ∧ f.lines = lines.flatten ∧
      List.Forall₂ (OwnRpy P) (ts.filter (fun T => T.rot.isSome)) lines ∧
      List.Forall₂ (fun T e => e.1 = T.name.toList ∧ ∃ ls, ls ∈ lines ∧ OwnRpy P T ls ∧ ls.head? = some e.2)
        (ts.filter (fun T => T.rot.isSome)) f.legend) := by
  have hd : ∀ T ∈ ts, drawsRpy T = T.rot.isSome := by
    intro T h
    unfold drawsRpy
    rcases hr : T.rot with _ | _ | ⟨q, r⟩
    · rfl
    · have := (hT T h).rot _ hr
      exact absurd (List.length_eq_zero_iff.1 this.symm) (hne T h)
    · rfl
  have hf : ts.filter drawsRpy = ts.filter (fun T => T.rot.isSome) := List.filter_congr hd
  set g : Traj K R → List (Line K) := fun T =>
    [⟨1, npSort (abscissas T), (sel (T.rot.getD []) (T.sortingIndex P.argsort)).map (fun q => P.deg (P.euler q).x)⟩,
    ⟨2, npSort (abscissas T), (sel (T.rot.getD []) (T.sortingIndex P.argsort)).map (fun q => P.deg (P.euler q).y)⟩,
    ⟨3, npSort (abscissas T), (sel (T.rot.getD []) (T.sortingIndex P.argsort)).map (fun q => P.deg (P.euler q).z)⟩] with hg
  have hls : mapE (rpyLines P) (ts.filter (fun T => T.rot.isSome)) = .ok ((ts.filter (fun T => T.rot.isSome)).map g) := by
    apply mapE_ok
    intro T h
    obtain ⟨h, hs⟩ := List.mem_filter.1 h
    have hp := sortingIndex_argsort ha T
    obtain ⟨r, hr⟩ := Option.isSome_iff_exists.1 hs
    have hq : T.quat P.argsort = .ok (some (sel r (T.sortingIndex P.argsort))) := by
      unfold Traj.quat
      rw [hr]
      simp only
      rw [take_eq (by rw [(hT T h).rot r hr, ← abscissas_length (hT T h)]; exact hp.inRange)]
      rfl
    unfold rpyLines
    rw [functionOf_sorted ha, hq, hg]
    beta_reduce
    rw [hr]
    rfl
  have hown : ∀ T ∈ ts.filter (fun T => T.rot.isSome), OwnRpy P T (g T) := by
    intro T h
    obtain ⟨h, hs⟩ := List.mem_filter.1 h
    obtain ⟨r, hr⟩ := Option.isSome_iff_exists.1 hs
    have hp := sortingIndex_argsort ha T
    have hl := abscissas_length (hT T h)
    have hrl := (hT T h).rot r hr
    have hin : InRange r.length (T.sortingIndex P.argsort) := by rw [hrl, ← hl]; exact hp.inRange
    refine ⟨r, npSort (abscissas T), sel r (T.sortingIndex P.argsort), hr, npSort_sorted _, ?_, ?_, ?_⟩
    · rw [npSort_length, sel_length hin, hp.length]
    · rw [← hp.sel, ← sel_zip (by rw [hrl, hl]) hp.inRange]
      apply sel_perm_self
      rw [List.length_zip, hrl, hl, min_self, ← hl]
      exact hp.1
    · rw [hg]; beta_reduce; rw [hr]; rfl
  constructor
  · intro h
    have e : ts.filter (fun T => T.rot.isSome) = [] := by
      rw [List.filter_eq_nil_iff]; intro T hm; rw [h T hm]; simp
    have e2 : ts.any drawsRpy = false := by
      rw [List.any_eq_false]; intro T hm; rw [hd T hm, h T hm]; simp
    unfold plotRpy
    rw [hf, hls, e2, e]
    rfl
  · rintro ⟨T0, hm0, h0⟩
    have e2 : ts.any drawsRpy = true := by
      rw [List.any_eq_true]; exact ⟨T0, hm0, by rw [hd T0 hm0]; exact Option.isSome_iff_ne_none.2 h0⟩
    refine ⟨_, (ts.filter (fun T => T.rot.isSome)).map g, by unfold plotRpy; rw [hf, hls, e2]; rfl, rfl, forall₂_map_self hown, ?_⟩
    simp only [inLegendOrder, List.flatMap_cons]
    rw [filter_first g (fun T => ⟨_, _, _, _, rfl⟩), zip_prefix (by simp)]
    refine (forall₂_zip_map _ (p := fun T l => l = (g T).headD ⟨1, [], []⟩ ∧ T ∈ ts.filter (fun T => T.rot.isSome))
      (forall₂_map_self (fun T h => ⟨rfl, h⟩))).imp ?_
    rintro T e ⟨he, hl, hm⟩
    refine ⟨he, g T, List.mem_map_of_mem hm, hown T hm, ?_⟩
    rw [hl, hg]
    rfl

/-- **C170 is false of the code** as to the text at the abscissa: it is made from the sortings of all trajectories, also of
those without orientations, which are not shown.  If the trajectories with orientations are sorted by length, and one without is sorted by time, the
text says time as well. -/
theorem C170_label_of_hidden {P : PlotLib K R} {ts : List (Traj K R)} {f : RpyFigure K} (h : plotRpy P ts = .ok (some f))
    {A B : Traj K R} (hA : A ∈ ts) (hB : B ∈ ts) (hs : A.sorting = .time) (hr' : B.rot ≠ none)
    (hb : ∀ T ∈ ts, T.rot ≠ none → T.sorting = .arcLength) :
    f.xLabel = "time [s] / trajectory length [m]".toList ∧
    xLabelOf ((ts.filter (fun T => T.rot.isSome)).map (fun T => T.sorting)) = "trajectory length [m]".toList := by
  have hx : f.xLabel = xLabelOf (ts.map (fun T => T.sorting)) := by
    unfold plotRpy at h
    obtain ⟨ls, -, h⟩ := ok_bind_inv h
    split at h
    · injection h with h; injection h with h; rw [← h]
    · injection h with h; cases h
  have hm : ∀ T ∈ ts.filter (fun T => T.rot.isSome), T.sorting = .arcLength := by
    intro T hT
    obtain ⟨h1, h2⟩ := List.mem_filter.1 hT
    exact hb T h1 (Option.isSome_iff_ne_none.1 h2)
  have hne : ts.filter (fun T => T.rot.isSome) ≠ [] :=
    List.ne_nil_of_mem (List.mem_filter.2 ⟨hB, Option.isSome_iff_ne_none.2 hr'⟩)
  refine ⟨?_, (C147_abscissa _ (by simpa using hne)).2.1 ?_⟩
  · rw [hx]
    exact (C147_abscissa _ (List.ne_nil_of_mem (List.mem_map_of_mem hA))).2.2
      ⟨List.mem_map.2 ⟨A, hA, hs⟩, List.mem_map.2 ⟨B, hB, hb B hB hr'⟩⟩
  · intro x hx'
    obtain ⟨T, hT, rfl⟩ := List.mem_map.1 hx'
    exact hm T hT

/-- a trajectory of the examples: recorded backwards, sorted by length or time, with or without orientations -/
def exBoth (name : String) (rot : Option (List Unit)) (s : Sorting) : Traj ℚ Unit :=
  ⟨[0, 1, 2], [⟨2, 0, 0⟩, ⟨1, 0, 0⟩, ⟨0, 0, 0⟩], rot, [2, 1, 0], [0, 0, 0], s, name, 0⟩

example : ((plotRpy exPlotLib [exBoth "gps" none .time, exBoth "imu" (some [(), (), ()]) .arcLength]).map
    (fun f => f.map (fun f => (f.xLabel, f.lines.length, f.legend.map Prod.fst)))).toOption
    = some (some ("time [s] / trajectory length [m]".toList, 3, ["imu".toList])) := by decide +kernel
example : Coherent (exBoth "imu" (some [(), (), ()]) .arcLength) := ⟨rfl, rfl, rfl, by rintro r ⟨⟩; rfl⟩
example : ((plotRpy exPlotLib [exBoth "gps" none .time]).map (fun f => f.isNone)).toOption = some true := by decide +kernel
example : plotPos 2 [exBoth "gps" none .time] = .ok [("gps".toList, [[2, 1, 0], [0, 0, 0]])] := by rfl
example : ((plotEdf exPlotLib mplDefaults [exBack "gps" none, exBack "imu" (some [(), (), ()])]).legend.map Prod.fst,
    (plotEdf exPlotLib mplDefaults [exBack "gps" none, exBack "imu" (some [(), (), ()])]).lines.map Line.row)
    = (["gps".toList, "imu".toList], [1, 1, 2]) := by decide +kernel

/-- **C170**, cumulative curves: the legend gives each result its own name at the line of its own position deviations, also if
some of the results have no rotation deviations; the second subplot shows those that have. -/
theorem C170_cumulative (P : PlotLib K R) (s : MplSettings K) (items : List (AteResult K R)) :
    List.Forall₂ (fun d e => e.1 = d.name.toList ∧ e.2.row = 1 ∧
        e.2.x = (npSort (d.posDev.map P.eval.nrm)).map (fun v => v * (if s.mm then 1000 else 1)) ∧
        e.2.y = (edf (d.posDev.map P.eval.nrm)).2) items (plotEdf P s items).legend ∧
    (plotEdf P s items).lines.filter (fun l => l.row = 2) = (items.filter (fun d => d.rotDev.isSome)).map (fun d =>
      { row := 2, x := (edf ((d.rotDevComb P.eval P.rot).map P.deg)).1, y := (edf ((d.rotDevComb P.eval P.rot).map P.deg)).2 }) ∧
    ((plotEdf P s items).xLabels.length = 2 ↔ ∃ d ∈ items, d.rotDev ≠ none) := by
  have h1 : ((items.map (posEdfLine P s)) ++ (items.filter hasRot).map (rotEdfLine P)).filter (fun l => decide (l.row = 1))
      = items.map (posEdfLine P s) := by
    rw [List.filter_append, List.filter_eq_self.2, List.filter_eq_nil_iff.2, List.append_nil]
    · intro l hl; obtain ⟨d, -, rfl⟩ := List.mem_map.1 hl; simp [rotEdfLine]
    · intro l hl; obtain ⟨d, -, rfl⟩ := List.mem_map.1 hl; simp [posEdfLine]
  have h2 : ((items.map (posEdfLine P s)) ++ (items.filter hasRot).map (rotEdfLine P)).filter (fun l => decide (l.row = 2))
      = (items.filter hasRot).map (rotEdfLine P) := by
    rw [List.filter_append, List.filter_eq_nil_iff.2, List.filter_eq_self.2, List.nil_append]
    · intro l hl; obtain ⟨d, -, rfl⟩ := List.mem_map.1 hl; simp [rotEdfLine]
    · intro l hl; obtain ⟨d, -, rfl⟩ := List.mem_map.1 hl; simp [posEdfLine]
  refine ⟨?_, ?_, ?_⟩
  · unfold plotEdf inLegendOrder
    simp only [List.flatMap_cons]
    rw [h1, zip_prefix (by simp)]
    refine (forall₂_zip_map _ (p := fun d l => l = posEdfLine P s d) (forall₂_map_self (fun d _ => rfl))).imp ?_
    rintro d e ⟨he, hl⟩
    rw [hl]
    exact ⟨he, rfl, rfl, rfl⟩
  · exact h2
  · unfold plotEdf
    simp only
    by_cases h : items.any hasRot = true
    · rw [if_pos h]
      simp only [List.length_cons, List.length_nil, true_iff]
      obtain ⟨d, hm, hd⟩ := List.any_eq_true.1 h
      exact ⟨d, hm, Option.isSome_iff_ne_none.1 hd⟩
    · rw [if_neg h]
      simp only [List.length_cons, List.length_nil]
      constructor
      · intro h'; omega
      · rintro ⟨d, hm, hd⟩
        exact absurd (List.any_eq_true.2 ⟨d, hm, Option.isSome_iff_ne_none.2 hd⟩) h

/-- **C170**, histograms: the compact figure has a second subplot exactly if there are rotation deviations; the subplots are the
histograms of C136. -/
theorem C170_compact_histogram (P : PlotLib K R) (s : MplSettings K) (d : AteResult K R) :
    (d.rotDev = none → compactHist P s d = [posHist s d]) ∧
    ∀ r, d.rotDev = some r → compactHist P s d = [posHist s d, rotHist P r] := by
  refine ⟨fun h => ?_, fun r h => ?_⟩ <;> unfold compactHist <;> rw [h]

end Plot

/-! ### C144: covariances -/
section
set_option linter.unusedSectionVars false
variable {K : Type} [Field K] [LinearOrder K]

theorem enabled_at : ∀ (l : List (Param K)) (n a : Nat) {p : Param K}, l[a]? = some p → p.enabled = true →
    (((l.map Param.enabled).zipIdx n).filter (fun x => x.1))[((l.take a).filter (fun p => p.enabled)).length]? = some (true, n + a)
  | q :: l, n, 0, p, hp, he => by
    cases hp
    rw [List.map_cons, List.zipIdx_cons, List.filter_cons_of_pos (by simpa using he), he]
    simp
  | q :: l, n, a + 1, p, hp, he => by
    have ih := enabled_at l (n + 1) a hp he
    rw [List.map_cons, List.zipIdx_cons, List.take_succ_cons]
    by_cases hq : q.enabled = true
    · rw [List.filter_cons_of_pos (by simpa using hq), List.filter_cons_of_pos (by simpa using hq), List.length_cons,
        List.getElem?_cons_succ, ih, show n + 1 + a = n + (a + 1) by omega]
    · rw [List.filter_cons_of_neg (by simpa using hq), List.filter_cons_of_neg (by simpa using hq), ih,
        show n + 1 + a = n + (a + 1) by omega]

theorem filter_at {α : Type} (f : α → Bool) : ∀ (l : List α) (a : Nat) {p : α}, l[a]? = some p → f p = true →
    (l.filter f)[((l.take a).filter f).length]? = some p
  | q :: l, 0, p, hp, he => by
    cases hp
    rw [List.filter_cons_of_pos he]; rfl
  | q :: l, a + 1, p, hp, he => by
    have ih := filter_at f l a hp he
    rw [List.take_succ_cons]
    by_cases hq : f q = true
    · rw [List.filter_cons_of_pos hq, List.filter_cons_of_pos hq, List.length_cons, List.getElem?_cons_succ, ih]
    · rw [List.filter_cons_of_neg hq, List.filter_cons_of_neg hq, ih]

/-- the row of a parameter is the place of its number among the estimated ones -/
theorem enabledIndices_rowOf {s : PSet K} {a : Nat} {p : Param K} (hp : s.params[a]? = some p) (he : p.enabled = true) :
    s.enabledIndices[rowOf s a]? = some a := by
  unfold PSet.enabledIndices PSet.enabledBoolList
  rw [List.getElem?_map]
  have := enabled_at s.params 0 a hp he
  unfold rowOf estimatedParams
  rw [this]
  simp

/-- **C144**, in terms of the parameters: the row and the column of an estimated parameter have its name in small letters, and the entry for
two estimated parameters is their correlation. -/
theorem C144_correlation_of [IsStrictOrderedRing K] {sqrt : K → K} (h0 : ∀ x, 0 ≤ x → 0 ≤ sqrt x) (h1 : ∀ x, 0 ≤ x → sqrt x * sqrt x = x) {s : PSet K}
    (hc : IsCovariance s.params.length s.cov) (hpos : ∀ i p, s.params[i]? = some p → p.enabled = true → 0 < cell s.cov i i)
    {a b : Nat} {p q : Param K} (hab : a ≠ b) (ha : s.params[a]? = some p) (hb : s.params[b]? = some q)
    (hp : p.enabled = true) (hq : q.enabled = true) :
    (correlation sqrt s true).1[rowOf s a]? = some (pyLower p.name.toList) ∧
    ∃ (row : List (Option K)) (r : K), (correlation sqrt s true).2[rowOf s a]? = some row ∧ row[rowOf s b]? = some (some r) ∧
      -1 ≤ r ∧ r ≤ 1 ∧ r * (sqrt (cell s.cov a a) * sqrt (cell s.cov b b)) = cell s.cov a b := by
  obtain ⟨hl, -, hr⟩ := C144_correlation h0 h1 hc hpos
  have hia := enabledIndices_rowOf ha hp
  have hib := enabledIndices_rowOf hb hq
  refine ⟨?_, ?_⟩
  · rw [hl, List.getElem?_map]
    unfold rowOf estimatedParams
    rw [filter_at (fun p : Param K => p.enabled) s.params a ha hp]
    rfl
  · obtain ⟨row, r, e1, e2, e3, e4, e5, -⟩ := hr _ _ a b hia hib (by
      intro h
      rw [h, hib] at hia
      exact hab (Option.some.inj hia).symm)
    exact ⟨row, r, e1, e2, e3, e4, e5⟩

/-- **C144**, the diagonal is left empty. -/
theorem C144_diagonal (sqrt : K → K) (s : PSet K) (enabledOnly : Bool) {i : Nat} {row : List (Option K)} {r : Option K}
    (hi : (correlation sqrt s enabledOnly).2[i]? = some row) (hr : row[i]? = some r) : r = none := by
  unfold correlation at hi
  simp only [List.getElem?_mapIdx] at hi
  obtain ⟨m, -, rfl⟩ := Option.map_eq_some_iff.1 hi
  rw [List.getElem?_mapIdx] at hr
  obtain ⟨c, -, rfl⟩ := Option.map_eq_some_iff.1 hr
  rw [if_pos rfl]

/-- **C144**, covariances: the row and the column of an estimated parameter have its name in small letters, and the cell for two
estimated parameters shows their covariance with three decimals. -/
theorem C144_covariance [IsStrictOrderedRing K] [FloorRing K] {s : PSet K} {a b : Nat} {p q : Param K} (ha : s.params[a]? = some p) (hb : s.params[b]? = some q)
    (hp : p.enabled = true) (hq : q.enabled = true) :
    (covarianceMap s true).1[rowOf s a]? = some (pyLower p.name.toList) ∧
    ∃ row : List Str, (covarianceMap s true).2[rowOf s a]? = some row ∧ row[rowOf s b]? = some (fmtFixed 3 (cell s.cov a b)) := by
  have hia := enabledIndices_rowOf ha hp
  have hib := enabledIndices_rowOf hb hq
  refine ⟨?_, ?_⟩
  · show (s.toNameList true true)[_]? = _
    unfold PSet.toNameList
    rw [shownParams_enabled, List.getElem?_map]
    unfold rowOf estimatedParams
    rw [filter_at (fun p : Param K => p.enabled) s.params a ha hp]
    rfl
  · unfold covarianceMap PSet.getCovariance
    simp only [if_true]
    rw [List.getElem?_map, List.getElem?_map, hia]
    refine ⟨_, rfl, ?_⟩
    rw [List.getElem?_map, List.getElem?_map, hib]
    rfl

example : exCorr.params[2]?.map (fun p => p.enabled) = some true ∧ rowOf exCorr 2 = 1 := by decide +kernel
example : covarianceMap exCorr true = (["translation x".toList, "scale".toList],
    [["4.000".toList, "3.000".toList], ["3.000".toList, "9.000".toList]]) := by decide +kernel

end
end TC
