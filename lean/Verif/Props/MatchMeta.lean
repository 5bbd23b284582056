import Verif.Props.Identity
import Verif.Props.MatchLine
import Verif.Props.ReadFile
/-!
# C198: what matching keeps of the two trajectories besides their samples
-/
namespace TC
set_option linter.unusedSectionVars false
open H
variable {K R : Type} [Field K] [LinearOrder K]

/-! ### Specification -/

/-- `T'` has the name, the coordinate system and the sorting of `T` -/
def SameLabels (T T' : Traj K R) : Prop := T'.name = T.name ∧ T'.epsg = T.epsg ∧ T'.sorting = T.sorting

/-! ### Proofs -/

/-- all objects are still there, with their labels -/
def LabelsKept (h h' : Heap K R) : Prop := ∀ (i : Nat) (T : Traj K R), h[i]? = some T → ∃ T', h'[i]? = some T' ∧ SameLabels T T'

theorem LabelsKept.refl (h : Heap K R) : LabelsKept h h := fun _ T hi => ⟨T, hi, rfl, rfl, rfl⟩

theorem LabelsKept.trans {a b c : Heap K R} (h : LabelsKept a b) (k : LabelsKept b c) : LabelsKept a c := by
  intro i T hi
  obtain ⟨T₁, h₁, a₁, b₁, c₁⟩ := h i T hi
  obtain ⟨T₂, h₂, a₂, b₂, c₂⟩ := k i T₁ h₁
  exact ⟨T₂, h₂, a₂.trans a₁, b₂.trans b₁, c₂.trans c₁⟩

/-- whatever happens, the labels are kept -/
def Gentle {α : Type} (m : SE (Heap K R) α) : Prop := ∀ h, LabelsKept h (m h).2

section rules
variable {α β : Type}

theorem Gentle.pure (a : α) : Gentle (Pure.pure a : SE (Heap K R) α) := fun h => LabelsKept.refl h
theorem Gentle.raise (e : Err) : Gentle (SE.raise e : SE (Heap K R) α) := fun h => LabelsKept.refl h
theorem Gentle.lift (e : Except Err α) : Gentle (SE.lift e : SE (Heap K R) α) := fun h => LabelsKept.refl h

theorem Gentle.bind {m : SE (Heap K R) α} {k : α → SE (Heap K R) β} (hm : Gentle m) (hk : ∀ a, Gentle (k a)) :
    Gentle (m >>= k) := by
  intro h
  have := hm h
  rw [SE.run_bind]
  rcases e : m h with ⟨a | a, h'⟩ <;> rw [e] at this
  · exact this
  · exact this.trans (hk a h')

theorem Gentle.rd (r : Nat) : Gentle (TC.rd r : SE (Heap K R) (Traj K R)) := by
  intro h
  unfold TC.rd
  split <;> exact LabelsKept.refl h

theorem labelsKept_set {h : Heap K R} {r : Nat} {T T' : Traj K R} (hr : h[r]? = some T) (ht : SameLabels T T') :
    LabelsKept h (h.set r T') := by
  intro i S hi
  by_cases e : r = i
  · subst e
    obtain rfl : T = S := Option.some.inj (hr.symm.trans hi)
    exact ⟨T', by rw [List.getElem?_set_self (List.getElem?_eq_some_iff.1 hr).1], ht⟩
  · exact ⟨S, by rw [List.getElem?_set_ne e]; exact hi, rfl, rfl, rfl⟩

theorem Descends.labels {calls : List (Call K R)} (hc : .sortSpatially ∉ calls) {T T' : Traj K R} (h : Descends calls T T') :
    SameLabels T T' := ⟨h.name, h.epsg, h.sorting.resolve_right fun k => hc k.1⟩

theorem Gentle.onRef {calls : List (Call K R)} (hc : .sortSpatially ∉ calls) {body : SE (Traj K R) α}
    (hb : ∀ T, Stays (Descends calls T) body) (r : Nat) : Gentle (TC.onRef r body) := by
  intro h
  unfold TC.onRef
  split
  · rename_i T hr
    exact labelsKept_set hr ((hb T T (Descends.refl _ T)).labels hc)
  · exact LabelsKept.refl h

end rules

theorem Gentle.sim {calls : List (Call K R)} (hc : .sortSpatially ∉ calls) {m : SE (Heap K R) Nat} {body : SE (Traj K R) Unit} {r : Nat}
    (hs : SimV r r m body) (hb : ∀ T, Stays (Descends calls T) body) (hn : ∀ h, h[r]? = none → (m h).2 = h) : Gentle m := by
  intro h
  rcases hr : h[r]? with _ | T
  · rw [hn h hr]; exact LabelsKept.refl h
  · rw [hs h T hr]
    exact labelsKept_set hr ((hb T T (Descends.refl _ T)).labels hc)

theorem gentle_applyIndex (r : Nat) (i : Index) : Gentle (H.applyIndex r i true : SE (Heap K R) Nat) := by
  unfold H.applyIndex
  exact Gentle.bind (Gentle.pure r) fun s => Gentle.bind (Gentle.onRef (calls := []) (by simp) (fun T => stays_applyIndex i) s)
    fun _ => Gentle.pure s

theorem gentle_intersect (r : Nat) (ts : List K) (g : K) : Gentle (H.intersect r ts g true : SE (Heap K R) Nat) :=
  Gentle.sim (calls := []) (by simp) (sim_intersect r ts g) (fun T => stays_intersect ts g) fun h hr => by
    unfold H.intersect
    rw [selfOrCopy_true, pure_bind', SE.run_bind]
    simp [TC.rd, hr]

theorem gentle_interpolate (L : RotLib K R) (r : Nat) (ts : List K) : Gentle (H.interpolate L r ts true) :=
  Gentle.sim (calls := [.interpolate ts]) (by simp) (sim_interpolate L r ts) (fun T => stays_interpolate L ts (by simp)) fun h hr => by
    unfold H.interpolate
    rw [selfOrCopy_true]
    simp only [pure_bind']
    rw [SE.run_bind]
    simp [TC.rd, hr]

theorem gentle_interpolation (lib : MatchLib K R) (f t : Nat) : Gentle (matchInterpolation lib f t) := by
  unfold matchInterpolation
  exact Gentle.bind (Gentle.rd _) fun _ => Gentle.bind (gentle_intersect _ _ _) fun _ => Gentle.bind (Gentle.rd _) fun _ =>
    Gentle.bind (gentle_intersect _ _ _) fun _ => Gentle.bind (Gentle.rd _) fun _ => Gentle.bind (gentle_interpolate _ _ _) fun _ =>
    Gentle.bind (Gentle.rd _) fun o => Gentle.bind (Gentle.onRef (calls := []) (by simp) (fun T => Stays.modify
      (f := fun s => { s with arc := o.arc }) fun T hT => ⟨hT.name, hT.epsg, hT.sorting, hT.oriented, hT.bare, hT.times⟩) _) fun _ => Gentle.pure _

theorem gentle_applyMatch (f t : Nat) (m : List Nat × List Nat) : Gentle (applyMatch f t m : SE (Heap K R) (Nat × Nat)) := by
  unfold applyMatch
  exact Gentle.bind (gentle_applyIndex _ _) fun _ => Gentle.bind (gentle_applyIndex _ _) fun _ => Gentle.pure _

theorem applyIndex_returns_ref {r a : Nat} {i : Index} {h h' : Heap K R} (e : H.applyIndex r i true h = (.ok a, h')) : a = r := by
  unfold H.applyIndex at e
  rw [selfOrCopy_true, pure_bind'] at e
  obtain ⟨_, _, -, e⟩ := returns_bind e
  exact (Except.ok.inj (Prod.mk.inj e).1).symm

theorem applyMatch_refs {f t : Nat} {m : List Nat × List Nat} {h h' : Heap K R} {x : Nat × Nat}
    (e : applyMatch f t m h = (.ok x, h')) : x = (f, t) := by
  unfold applyMatch at e
  obtain ⟨a, _, ha, e⟩ := returns_bind e
  obtain ⟨b, _, hb, e⟩ := returns_bind e
  rw [← Except.ok.inj (Prod.mk.inj e).1, applyIndex_returns_ref ha, applyIndex_returns_ref hb]

/-- the three methods that keep samples: the labels are kept and the two objects are returned -/
theorem keeping_methods (lib : MatchLib K R) (counter : Nat) (s : MatchingSettings K) (hs : s.method ≠ .nearestSpatialInterpolated)
    (f t : Nat) (h h' : Heap K R) (x : Nat × Nat)
    (e : (match s.method with
      | .interpolation => matchInterpolation lib f t
      | .nearestTemporal => matchTemporal lib f t s.maxTimeDiff
      | .nearestSpatial => matchSpatial lib f t s.maxDistance
      | .nearestSpatialInterpolated => matchSpatialInterpolation lib counter f t s.maxDistance s.kNearest
      | .unknown => SE.raise Err.valueError : SE (Heap K R) (Nat × Nat)) h = (.ok x, h')) :
    x = (f, t) ∧ LabelsKept h h' := by
  rcases hm : s.method with _ | _ | _ | _ | _ <;> rw [hm] at e <;> simp only at e
  · have g : Gentle (matchSpatial lib f t s.maxDistance) := by
      unfold matchSpatial
      exact Gentle.bind (Gentle.rd _) fun _ => Gentle.bind (Gentle.rd _) fun _ => Gentle.bind (Gentle.lift _) fun _ => gentle_applyMatch _ _ _
    have := g h
    rw [e] at this
    refine ⟨?_, this⟩
    unfold matchSpatial at e
    obtain ⟨_, _, -, e⟩ := returns_bind e
    obtain ⟨_, _, -, e⟩ := returns_bind e
    obtain ⟨_, _, -, e⟩ := returns_bind e
    exact applyMatch_refs e
  · have g : Gentle (matchTemporal lib f t s.maxTimeDiff) := by
      unfold matchTemporal
      exact Gentle.bind (Gentle.rd _) fun _ => Gentle.bind (Gentle.rd _) fun _ => Gentle.bind (Gentle.lift _) fun _ => gentle_applyMatch _ _ _
    have := g h
    rw [e] at this
    refine ⟨?_, this⟩
    unfold matchTemporal at e
    obtain ⟨_, _, -, e⟩ := returns_bind e
    obtain ⟨_, _, -, e⟩ := returns_bind e
    obtain ⟨_, _, -, e⟩ := returns_bind e
    exact applyMatch_refs e
  · have := gentle_interpolation lib f t h
    rw [e] at this
    refine ⟨?_, this⟩
    unfold matchInterpolation at e
    obtain ⟨_, _, -, e⟩ := returns_bind e
    obtain ⟨_, _, -, e⟩ := returns_bind e
    obtain ⟨_, _, -, e⟩ := returns_bind e
    obtain ⟨_, _, -, e⟩ := returns_bind e
    obtain ⟨_, _, -, e⟩ := returns_bind e
    obtain ⟨_, _, -, e⟩ := returns_bind e
    obtain ⟨_, _, -, e⟩ := returns_bind e
    obtain ⟨_, _, -, e⟩ := returns_bind e
    exact (Except.ok.inj (Prod.mk.inj e).1).symm
  · exact absurd hm hs
  · simp at e

/-! ### The three methods that keep samples -/

/-- **C198**, first part.  Matching by time, by distance or by interpolation returns two trajectories with the names, the
coordinate systems and the sortings of the two given ones. -/
theorem C198_labels_partial (lib : MatchLib K R) (counter : Nat) (s : MatchingSettings K) (hs : s.method ≠ .nearestSpatialInterpolated)
    {T U : Traj K R} {h h' : Heap K R} {f t f' t' : Nat} (hf : h[f]? = some T) (ht : h[t]? = some U) (inplace : Bool)
    (hret : Returns (matchTrajectories lib counter f t s inplace) h (f', t') h') :
    ∃ T' U', h'[f']? = some T' ∧ h'[t']? = some U' ∧ SameLabels T T' ∧ SameLabels U U' := by
  unfold Returns matchTrajectories at hret
  cases inplace with
  | true =>
    rw [selfOrCopy_true, selfOrCopy_true, pure_bind', pure_bind'] at hret
    obtain ⟨e, k⟩ := keeping_methods lib counter s hs f t h h' _ hret
    obtain ⟨rfl, rfl⟩ := Prod.mk.inj e
    obtain ⟨T', hT', lT⟩ := k _ T hf
    obtain ⟨U', hU', lU⟩ := k _ U ht
    exact ⟨T', U', hT', hU', lT, lU⟩
  | false =>
    have h1 : (selfOrCopy false f : SE (Heap K R) Nat) h = (.ok h.length, h ++ [T]) := copyRef_run hf
    have ht' : (h ++ [T])[t]? = some U := by
      rw [List.getElem?_append_left (List.getElem?_eq_some_iff.1 ht).1]; exact ht
    have h2 : (selfOrCopy false t : SE (Heap K R) Nat) (h ++ [T]) = (.ok (h ++ [T]).length, h ++ [T] ++ [U]) := copyRef_run ht'
    rw [SE.run_bind_ok h1, SE.run_bind_ok h2] at hret
    obtain ⟨e, k⟩ := keeping_methods lib counter s hs _ _ _ h' _ hret
    obtain ⟨rfl, rfl⟩ := Prod.mk.inj e
    obtain ⟨T', hT', lT⟩ := k h.length T (by simp)
    obtain ⟨U', hU', lU⟩ := k (h ++ [T]).length U (by simp)
    exact ⟨T', U', hT', hU', lT, lU⟩

/-- **C198**, finding.  The documentation of matching by interpolation says that the sorting of both trajectories is the same
afterwards.  It is the same only if it was the same before. -/
theorem C198_sortings_differ (lib : MatchLib K R) (counter : Nat) (s : MatchingSettings K) (hs : s.method = .interpolation)
    {T U : Traj K R} (hTU : T.sorting ≠ U.sorting) {h h' : Heap K R} {f t f' t' : Nat} (hf : h[f]? = some T) (ht : h[t]? = some U)
    (inplace : Bool) (hret : Returns (matchTrajectories lib counter f t s inplace) h (f', t') h') :
    ∃ T' U', h'[f']? = some T' ∧ h'[t']? = some U' ∧ T'.sorting ≠ U'.sorting := by
  obtain ⟨T', U', a, b, c, d⟩ := C198_labels_partial lib counter s (by rw [hs]; decide) hf ht inplace hret
  exact ⟨T', U', a, b, by rw [c.2.2, d.2.2]; exact hTU⟩

/-! ### Matching to fitted lines -/

theorem new_labels {nrm : V3 K → K} {c : Nat} {a : TrajArgs K R} {T : Traj K R} (e : Traj.new nrm c a = .ok T) :
    T.epsg = a.epsg ∧ T.sorting = a.sorting ∧ T.rot = a.rot ∧ (a.name ≠ "" → T.name = a.name) := by
  unfold Traj.new at e
  have fin : ∀ {t : List K} {l : List K} {v : List (V3 K)} {n : String}, (.ok
      { tstamps := t, pos := a.pos, rot := a.rot, arc := l, speed := v, sorting := a.sorting,
        name := if a.name = "" then n else a.name, epsg := a.epsg } : Except Err (Traj K R)) = .ok T →
      T.epsg = a.epsg ∧ T.sorting = a.sorting ∧ T.rot = a.rot ∧ (a.name ≠ "" → T.name = a.name) := by
    intro t l v n e
    rw [← Except.ok.inj e]
    exact ⟨rfl, rfl, rfl, fun h => if_neg h⟩
  rcases hr : a.rot with _ | r <;> rcases hv : a.speed with _ | v <;> rw [hr] at fin <;> simp only [hr, hv] at e
  · obtain ⟨_, -, e⟩ := ok_bind_inv e
    exact fin e
  · by_cases hl : v.length = a.pos.length
    · rw [if_pos hl] at e
      obtain ⟨_, -, e⟩ := ok_bind_inv e
      exact fin e
    · rw [if_neg hl] at e
      obtain ⟨_, -, e⟩ := ok_bind_inv e
      exact fin e
  · by_cases hq : r.length ≠ a.pos.length
    · rw [if_pos hq] at e; cases e
    · rw [if_neg hq] at e
      obtain ⟨_, -, e⟩ := ok_bind_inv e
      exact fin e
  · by_cases hq : r.length ≠ a.pos.length
    · rw [if_pos hq] at e; cases e
    · rw [if_neg hq] at e
      by_cases hl : v.length = a.pos.length
      · rw [if_pos hl] at e
        obtain ⟨_, -, e⟩ := ok_bind_inv e
        exact fin e
      · rw [if_neg hl] at e
        obtain ⟨_, -, e⟩ := ok_bind_inv e
        exact fin e

theorem line_labels (lib : MatchLib K R) (counter : Nat) (m : K) (k : Nat) {T U : Traj K R} {h h' : Heap K R} {f t f' t' : Nat}
    (hf : h[f]? = some T) (ht : h[t]? = some U) (e : matchSpatialInterpolation lib counter f t m k h = (.ok (f', t'), h')) :
    ∃ T' U', h'[f']? = some T' ∧ h'[t']? = some U' ∧
      (T.name ≠ "" → T'.name = T.name) ∧ (U.name ≠ "" → U'.name = U.name) ∧
      T'.epsg = 0 ∧ U'.epsg = 0 ∧ T'.sorting = .time ∧ U'.sorting = .time := by
  unfold matchSpatialInterpolation at e
  rw [SE.run_bind_ok (rd_run hf), SE.run_bind_ok (rd_run ht)] at e
  have no : ∀ {α : Type} {x : Err} {g : α → SE (Heap K R) (Nat × Nat)} {P : Prop},
      (SE.raise x >>= g) h = (.ok (f', t'), h') → P := fun e => by simp [SE.run_bind] at e
  by_cases h0 : k = 0
  · rw [if_pos h0] at e; exact no e
  rw [if_neg h0] at e
  simp only at e
  generalize (if m = 0 then lib.queryPK U.pos none k T.pos else lib.queryPK U.pos (some m) k T.pos) = closest at e
  by_cases h1 : (closest.all fun c => c.all fun i => i.isNone) = true
  · rw [if_pos h1] at e; exact no e
  rw [if_neg h1] at e
  by_cases h2 : k = 1
  · rw [if_pos h2] at e; exact no e
  rw [if_neg h2] at e
  obtain ⟨ps, h4, e4, e⟩ := returns_bind e
  obtain ⟨-, rfl⟩ := Prod.mk.inj e4
  by_cases h3 : ps.length = 0
  · rw [if_pos h3] at e; exact no e
  rw [if_neg h3] at e
  obtain ⟨a, h6, ea, e⟩ := returns_bind e
  obtain ⟨b, h7, eb, e⟩ := returns_bind e
  have la := new_labels (Prod.mk.inj ea).1
  have lb := new_labels (Prod.mk.inj eb).1
  obtain ⟨i, h8, ei, e⟩ := returns_bind e
  obtain ⟨j, h9, ej, e⟩ := returns_bind e
  obtain ⟨ei1, rfl⟩ := Prod.mk.inj ei
  obtain ⟨ej1, rfl⟩ := Prod.mk.inj ej
  obtain ⟨e1, rfl⟩ := Prod.mk.inj e
  obtain ⟨rfl, rfl⟩ := Prod.mk.inj (Except.ok.inj e1)
  rw [← Except.ok.inj ei1, ← Except.ok.inj ej1]
  exact ⟨a, b, by simp, by simp, la.2.2.2, lb.2.2.2, la.1, lb.1, la.2.1, lb.2.1⟩

/-- **C198**, second part, and finding.  Matching to lines fitted to the nearest reference positions keeps the names, but
whatever the coordinate systems and the sortings were, the two new trajectories have the unknown coordinate system (code 0)
and are sorted by time. -/
theorem C198_line_matching_forgets (lib : MatchLib K R) (counter : Nat) (s : MatchingSettings K)
    (hs : s.method = .nearestSpatialInterpolated) {T U : Traj K R} {h h' : Heap K R} {f t f' t' : Nat} (hf : h[f]? = some T)
    (ht : h[t]? = some U) (inplace : Bool) (hret : Returns (matchTrajectories lib counter f t s inplace) h (f', t') h') :
    ∃ T' U', h'[f']? = some T' ∧ h'[t']? = some U' ∧
      (T.name ≠ "" → T'.name = T.name) ∧ (U.name ≠ "" → U'.name = U.name) ∧
      T'.epsg = 0 ∧ U'.epsg = 0 ∧ T'.sorting = .time ∧ U'.sorting = .time := by
  unfold Returns matchTrajectories at hret
  rw [hs] at hret
  cases inplace with
  | true =>
    rw [selfOrCopy_true, selfOrCopy_true, pure_bind', pure_bind'] at hret
    exact line_labels lib counter _ _ hf ht hret
  | false =>
    have h1 : (selfOrCopy false f : SE (Heap K R) Nat) h = (.ok h.length, h ++ [T]) := copyRef_run hf
    have ht' : (h ++ [T])[t]? = some U := by
      rw [List.getElem?_append_left (List.getElem?_eq_some_iff.1 ht).1]; exact ht
    have h2 : (selfOrCopy false t : SE (Heap K R) Nat) (h ++ [T]) = (.ok (h ++ [T]).length, h ++ [T] ++ [U]) := copyRef_run ht'
    rw [SE.run_bind_ok h1, SE.run_bind_ok h2] at hret
    exact line_labels lib counter _ _ (by simp) (by simp) hret

/-! ### The hypotheses are met -/

/-- a test trajectory sorted by arc length, in UTM zone 32 -/
def exSorted : Traj ℚ Nat := { exTestLine with sorting := .arcLength, epsg := 25832 }

/-- matched by interpolation to a reference sorted by time: the sortings differ -/
example : (matchTrajectories exMatchLib 0 0 1 ⟨.interpolation, 1, 2, 1⟩ true [exSorted, exRefLine]).1.toOption = some (0, 1) ∧
    (matchTrajectories exMatchLib 0 0 1 ⟨.interpolation, 1, 2, 1⟩ true [exSorted, exRefLine]).2.map Traj.sorting = [.arcLength, .time] := by
  decide +kernel

/-- matched to fitted lines: the coordinate system is lost -/
example : (matchTrajectories exMatchLib 0 0 1 ⟨.nearestSpatialInterpolated, 1, 3, 2⟩ true [exSorted, exRefLine]).1.toOption = some (2, 3) ∧
    (matchTrajectories exMatchLib 0 0 1 ⟨.nearestSpatialInterpolated, 1, 3, 2⟩ true [exSorted, exRefLine]).2.map Traj.epsg =
      [25832, exRefLine.epsg, 0, 0] := by
  decide +kernel

end TC
