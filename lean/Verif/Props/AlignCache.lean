import Verif.Model.AlignCache
import Verif.Props.ObsEdit
import Verif.Props.Thresholds
/-!
# C207: what an alignment reports after its observations or its settings were changed
-/
namespace TC
open Obs
set_option linter.unusedSectionVars false
variable {K : Type} [Field K] [LinearOrder K]

/-- the object after any number of calls; exceptions are caught and the work goes on -/
def afterDataCalls (nrm : V3 K → K) (s : AlignObject K) : List (DataCall K) → AlignObject K
  | [] => s
  | c :: cs => afterDataCalls nrm (c.run nrm s).2 cs

/-- what one more call answers -/
def answer (nrm : V3 K → K) (s : AlignObject K) (history : List (DataCall K)) (c : DataCall K) : Except Err (DataAnswer K) :=
  (c.run nrm (afterDataCalls nrm s history)).1

/-- the settings that decide what is observed are left alone -/
def DataCall.KeepsFlags : DataCall K → Prop
  | .flags _ => False
  | _ => True

/-- the changes of the vectors among the calls -/
def editsOf : List (DataCall K) → List (VecEdit K)
  | [] => []
  | .edit w key columns :: cs => .group w key (columns.headD []).length columns :: editsOf cs
  | .assign w values :: cs => .vector w values :: editsOf cs
  | _ :: cs => editsOf cs

theorem afterDataCalls_append (nrm : V3 K → K) (s : AlignObject K) (a b : List (DataCall K)) :
    afterDataCalls nrm s (a ++ b) = afterDataCalls nrm (afterDataCalls nrm s a) b := by
  induction a generalizing s with
  | nil => rfl
  | cons c cs ih => exact ih _

theorem groupsOf_some {s : AlignObject K} {t : ObsKey → Option (Nat × Nat)} (h : s.groups = some t) :
    groupsOf s = (.ok t, s) := by
  unfold groupsOf
  rw [SE.run_bind_ok (SE.run_get s), h]
  rfl

/-! ### the stored table is never replaced -/

theorem readColumns_state {s : AlignObject K} {t : ObsKey → Option (Nat × Nat)} (h : s.groups = some t) (w : VecName) (key : ObsKey) :
    (readColumns w key s).2 = s := by
  unfold readColumns
  rw [SE.run_bind_ok (groupsOf_some h), SE.run_bind_ok (SE.run_get s)]
  cases t key <;> rfl

theorem readColumns_eq {s : AlignObject K} (h : s.groups = some (group s.est)) (w : VecName) (key : ObsKey) :
    readColumns w key s = (getGroup s.est s.vec w key, s) := by
  unfold readColumns getGroup extract
  rw [SE.run_bind_ok (groupsOf_some h), SE.run_bind_ok (SE.run_get s)]
  cases group s.est key <;> rfl

theorem writeGroup_eq {s : AlignObject K} (h : s.groups = some (group s.est)) (w : VecName) (key : ObsKey) (columns : List (List K)) :
    writeGroup w key columns s =
      ((Obs.setGroup s.est w key columns s.vec).1, { s with vec := (Obs.setGroup s.est w key columns s.vec).2 }) := by
  unfold writeGroup Obs.setGroup
  rw [SE.run_bind_ok (groupsOf_some h), SE.run_bind_ok (SE.run_get s)]
  cases group s.est key with
  | none => rfl
  | some ab => simp only; split_ifs <;> rfl

theorem writeVector_eq (s : AlignObject K) (w : VecName) (values : List K) :
    writeVector w values s =
      ((setVector s.est w values s.vec).1, { s with vec := (setVector s.est w values s.vec).2 }) := rfl

theorem readPoints_state {s : AlignObject K} {t : ObsKey → Option (Nat × Nat)} (h : s.groups = some t) (key : ObsKey) :
    (readPoints key s).2 = s := by
  unfold readPoints
  have h1 := readColumns_state h .obs key
  rcases h2 : readColumns .obs key s with ⟨r, s'⟩
  rw [h2] at h1
  cases h1
  cases r with
  | error e => rw [SE.run_bind_error h2]
  | ok cols => rw [SE.run_bind_ok h2]; split_ifs <;> rfl

theorem readThresholds_state (nrm : V3 K → K) {s : AlignObject K} {t : ObsKey → Option (Nat × Nat)} (h : s.groups = some t) :
    (readThresholds nrm s).2 = { s with ths := (readThresholds nrm s).2.ths } ∧
    (∀ l, s.ths = some l → readThresholds nrm s = (.ok l, s)) ∧
    (s.ths = none → ∀ l, (readThresholds nrm s).1 = .ok l → (readThresholds nrm s).2.ths = some l) := by
  unfold readThresholds
  rw [SE.run_bind_ok (SE.run_get s)]
  cases hl : s.ths with
  | some l =>
    refine ⟨?_, fun l' h' => ?_, fun h' => ?_⟩
    · show s = { s with ths := s.ths }
      rfl
    · cases h'; rfl
    · cases h'
  | none =>
    simp only
    have h1 : readPoints .xyzFrom s = ((readPoints .xyzFrom s).1, s) := Prod.ext rfl (readPoints_state h .xyzFrom)
    have h2 : readPoints .xyzTo s = ((readPoints .xyzTo s).1, s) := Prod.ext rfl (readPoints_state h .xyzTo)
    cases hr : (readPoints .xyzFrom s).1 with
    | error e =>
      rw [hr] at h1
      rw [SE.run_bind_error h1]
      refine ⟨?_, fun l h => by (cases h), fun _ l h => by (cases h)⟩
      show s = { s with ths := s.ths }
      rfl
    | ok a =>
      rw [hr] at h1
      rw [SE.run_bind_ok h1]
      cases hq : (readPoints .xyzTo s).1 with
      | error e =>
        rw [hq] at h2
        rw [SE.run_bind_error h2]
        refine ⟨?_, fun l h => by (cases h), fun _ l h => by (cases h)⟩
        show s = { s with ths := s.ths }
        rfl
      | ok b =>
        rw [hq] at h2
        rw [SE.run_bind_ok h2, SE.run_bind_ok (SE.run_get s)]
        cases ht : Adjust.thresholds nrm s.metric s.time a b with
        | error e =>
          refine ⟨?_, fun l h => by (cases h), fun _ l h => by (cases h)⟩
          show s = { s with ths := s.ths }
          rfl
        | ok l => exact ⟨rfl, fun l h => by (cases h), fun _ l' h => by cases h; rfl⟩

/-- every call leaves the stored table, and stored thresholds, as they are -/
theorem run_keeps (nrm : V3 K → K) {s : AlignObject K} {t : ObsKey → Option (Nat × Nat)} (h : s.groups = some t) (c : DataCall K) :
    (c.run nrm s).2.groups = some t ∧ ∀ l, s.ths = some l → (c.run nrm s).2.ths = some l := by
  cases c with
  | edit w key columns =>
    simp only [DataCall.run]
    have : (writeGroup w key columns s).2.groups = some t ∧ (writeGroup w key columns s).2.ths = s.ths := by
      unfold writeGroup
      rw [SE.run_bind_ok (groupsOf_some h), SE.run_bind_ok (SE.run_get s)]
      cases t key with
      | none => exact ⟨h, rfl⟩
      | some ab => simp only; split_ifs <;> exact ⟨h, rfl⟩
    rcases h2 : writeGroup w key columns s with ⟨r, s'⟩
    rw [h2] at this
    cases r with
    | error e => rw [SE.run_bind_error h2]; exact ⟨this.1, fun l hl => this.2.trans hl⟩
    | ok a => rw [SE.run_bind_ok h2]; exact ⟨this.1, fun l hl => this.2.trans hl⟩
  | assign w values =>
    simp only [DataCall.run]
    rcases h2 : writeVector w values s with ⟨r, s'⟩
    have h3 := h2
    rw [writeVector_eq] at h3
    cases r with
    | error e =>
      rw [SE.run_bind_error h2]
      rw [← (Prod.mk.inj h3).2]
      exact ⟨h, fun l hl => hl⟩
    | ok a =>
      rw [SE.run_bind_ok h2]
      show s'.groups = _ ∧ ∀ l, _ → s'.ths = _
      rw [← (Prod.mk.inj h3).2]
      exact ⟨h, fun l hl => hl⟩
  | read w key =>
    simp only [DataCall.run]
    have h1 := readColumns_state h w key
    rcases h2 : readColumns w key s with ⟨r, s'⟩
    rw [h2] at h1
    cases h1
    cases r with
    | error e => rw [SE.run_bind_error h2]; exact ⟨h, fun l hl => hl⟩
    | ok a => rw [SE.run_bind_ok h2]; exact ⟨h, fun l hl => hl⟩
  | thresholds =>
    simp only [DataCall.run]
    obtain ⟨h1, h3, -⟩ := readThresholds_state nrm h
    rcases h2 : readThresholds nrm s with ⟨r, s'⟩
    rw [h2] at h1
    have hg : s'.groups = some t := by
      simp only at h1
      rw [h1]
      exact h
    have hl : ∀ l, s.ths = some l → s'.ths = some l := by
      intro l hl
      rw [h3 l hl] at h2
      cases h2
      exact hl
    cases r with
    | error e => rw [SE.run_bind_error h2]; exact ⟨hg, hl⟩
    | ok a => rw [SE.run_bind_ok h2]; exact ⟨hg, hl⟩
  | flags e => exact ⟨h, fun l hl => hl⟩
  | limits m t => exact ⟨h, fun l hl => hl⟩

theorem after_keeps (nrm : V3 K → K) (history : List (DataCall K)) {s : AlignObject K} {t : ObsKey → Option (Nat × Nat)}
    (h : s.groups = some t) :
    (afterDataCalls nrm s history).groups = some t ∧
      ∀ l, s.ths = some l → (afterDataCalls nrm s history).ths = some l := by
  induction history generalizing s with
  | nil => exact ⟨h, fun l hl => hl⟩
  | cons c cs ih =>
    obtain ⟨h1, h2⟩ := run_keeps nrm h c
    obtain ⟨h3, h4⟩ := ih h1
    exact ⟨h3, fun l hl => h4 l (h2 l hl)⟩

theorem thresholds_answer (nrm : V3 K → K) (s : AlignObject K) (l : List (Option K)) :
    (DataCall.run nrm .thresholds s).1 = .ok (.numbers l) ↔ (readThresholds nrm s).1 = .ok l := by
  simp only [DataCall.run]
  rcases h2 : readThresholds nrm s with ⟨r, s'⟩
  cases r with
  | error e => rw [SE.run_bind_error h2]; simp
  | ok a =>
    rw [SE.run_bind_ok h2]
    constructor
    · intro h; cases h; rfl
    · intro h; cases h; rfl

/-- **C207**, the first answer stays: once the thresholds of an object have been asked for successfully, every later question
is answered with the same numbers, whatever observations or settings were changed in between. -/
theorem C207_first_answer (nrm : V3 K → K) (e : EstSettings) (m t : K) (v : AlignVectors K)
    (before after : List (DataCall K)) (l : List (Option K))
    (h : answer nrm (newObject e m t v) before .thresholds = .ok (.numbers l)) :
    answer nrm (newObject e m t v) (before ++ .thresholds :: after) .thresholds = .ok (.numbers l) := by
  unfold answer at *
  rw [thresholds_answer] at h ⊢
  have hg := (after_keeps nrm before (s := newObject e m t v) (t := group e) rfl).1
  obtain ⟨-, h2, h3⟩ := readThresholds_state nrm hg
  rw [afterDataCalls_append]
  show (readThresholds nrm (afterDataCalls nrm (DataCall.run nrm .thresholds (afterDataCalls nrm (newObject e m t v) before)).2 after)).1 = _
  have hs : (DataCall.run nrm .thresholds (afterDataCalls nrm (newObject e m t v) before)).2.ths = some l := by
    simp only [DataCall.run]
    rcases hr : readThresholds nrm (afterDataCalls nrm (newObject e m t v) before) with ⟨r, s'⟩
    rw [hr] at h
    simp only at h
    subst h
    rw [SE.run_bind_ok hr]
    show s'.ths = _
    cases ht : (afterDataCalls nrm (newObject e m t v) before).ths with
    | none =>
      have := h3 ht l (by rw [hr])
      rw [hr] at this
      exact this
    | some l' =>
      have := h2 l' ht
      rw [hr] at this
      cases this
      exact ht
  have hg2 := (run_keeps nrm hg .thresholds).1
  obtain ⟨hg3, h4⟩ := after_keeps nrm after hg2
  rw [(readThresholds_state nrm hg3).2.1 l (h4 l hs)]

/-! ### settings left alone -/

theorem run_vec (nrm : V3 K → K) {s : AlignObject K} (h : s.groups = some (group s.est)) (c : DataCall K) (hc : DataCall.KeepsFlags c) :
    (c.run nrm s).2.est = s.est ∧ (c.run nrm s).2.vec = afterCalls s.est s.vec (editsOf [c]) ∧
      (c ≠ .thresholds → (c.run nrm s).2.ths = s.ths) := by
  cases c with
  | edit w key columns =>
    simp only [DataCall.run]
    have h2 := writeGroup_eq h w key columns
    cases hr : (Obs.setGroup s.est w key columns s.vec).1 with
    | error e =>
      rw [hr] at h2
      rw [SE.run_bind_error h2]
      exact ⟨rfl, rfl, fun _ => rfl⟩
    | ok a =>
      rw [hr] at h2
      rw [SE.run_bind_ok h2]
      exact ⟨rfl, rfl, fun _ => rfl⟩
  | assign w values =>
    simp only [DataCall.run]
    have h2 := writeVector_eq s w values
    cases hr : (setVector s.est w values s.vec).1 with
    | error e =>
      rw [hr] at h2
      rw [SE.run_bind_error h2]
      exact ⟨rfl, rfl, fun _ => rfl⟩
    | ok a =>
      rw [hr] at h2
      rw [SE.run_bind_ok h2]
      exact ⟨rfl, rfl, fun _ => rfl⟩
  | read w key =>
    simp only [DataCall.run]
    have h2 := readColumns_eq h w key
    cases hr : getGroup s.est s.vec w key with
    | error e =>
      rw [hr] at h2
      rw [SE.run_bind_error h2]
      exact ⟨rfl, rfl, fun _ => rfl⟩
    | ok a =>
      rw [hr] at h2
      rw [SE.run_bind_ok h2]
      exact ⟨rfl, rfl, fun _ => rfl⟩
  | thresholds =>
    simp only [DataCall.run]
    obtain ⟨h1, -, -⟩ := readThresholds_state nrm h
    rcases h2 : readThresholds nrm s with ⟨r, s'⟩
    rw [h2] at h1
    simp only at h1
    have hv : s'.est = s.est ∧ s'.vec = s.vec := by
      rw [h1]
      exact ⟨rfl, rfl⟩
    cases r with
    | error e => rw [SE.run_bind_error h2]; exact ⟨hv.1, hv.2, fun hc => absurd rfl hc⟩
    | ok a => rw [SE.run_bind_ok h2]; exact ⟨hv.1, hv.2, fun hc => absurd rfl hc⟩
  | flags e => exact absurd hc id
  | limits m t => exact ⟨rfl, rfl, fun _ => rfl⟩

theorem editsOf_cons (c : DataCall K) (cs : List (DataCall K)) : editsOf (c :: cs) = editsOf [c] ++ editsOf cs := by
  cases c <;> rfl

theorem afterEditCalls_append (e : EstSettings) (s : AlignVectors K) (a b : List (VecEdit K)) :
    afterCalls e s (a ++ b) = afterCalls e (afterCalls e s a) b := by
  induction a generalizing s with
  | nil => rfl
  | cons c cs ih => exact ih _

theorem after_vec (nrm : V3 K → K) (history : List (DataCall K)) {s : AlignObject K} (h : s.groups = some (group s.est))
    (hc : ∀ c ∈ history, DataCall.KeepsFlags c) :
    (afterDataCalls nrm s history).est = s.est ∧
      (afterDataCalls nrm s history).groups = some (group s.est) ∧
      (afterDataCalls nrm s history).vec = afterCalls s.est s.vec (editsOf history) ∧
      (DataCall.thresholds ∉ history → (afterDataCalls nrm s history).ths = s.ths) := by
  induction history generalizing s with
  | nil => exact ⟨rfl, h, rfl, fun _ => rfl⟩
  | cons c cs ih =>
    obtain ⟨h1, h2, h3⟩ := run_vec nrm h c (hc c (by simp))
    have h4 := (run_keeps nrm h c).1
    obtain ⟨k1, k2, k3, k4⟩ := ih (s := (c.run nrm s).2) (by rw [h4, h1]) (fun c hc' => hc c (by simp [hc']))
    refine ⟨k1.trans h1, by rw [← h1]; exact k2, ?_, fun hn => ?_⟩
    · rw [editsOf_cons, afterEditCalls_append, ← h2, ← h1]
      exact k3
    · rw [List.mem_cons, not_or] at hn
      exact (k4 hn.2).trans (h3 (Ne.symm hn.1))

/-- **C207**, the groups: as long as the settings of what is estimated are left alone, the stored table of groups cannot be
noticed: after every history each vector is what the changes alone make of it (C203), and reading a group gives
what the vectors hold now. -/
theorem C207_groups_partial (nrm : V3 K → K) (e : EstSettings) (m t : K) (v : AlignVectors K) (history : List (DataCall K))
    (hc : ∀ c ∈ history, DataCall.KeepsFlags c) (w : VecName) (key : ObsKey) :
    (afterDataCalls nrm (newObject e m t v) history).vec = afterCalls e v (editsOf history) ∧
    ∀ r, answer nrm (newObject e m t v) history (.read w key) = .ok r ↔
      ∃ columns, r = .columns columns ∧ getGroup e (afterCalls e v (editsOf history)) w key = .ok columns := by
  obtain ⟨h1, h2, h3, -⟩ := after_vec nrm history (s := newObject e m t v) rfl hc
  refine ⟨h3, fun r => ?_⟩
  unfold answer
  have h4 := readColumns_eq (s := afterDataCalls nrm (newObject e m t v) history) (by rw [h2, h1]) w key
  rw [h1, h3] at h4
  simp only [DataCall.run]
  show _ ↔ ∃ columns, r = .columns columns ∧ getGroup e (afterCalls e v (editsOf history)) w key = .ok columns
  have he : (newObject e m t v).est = e := rfl
  have hv : (newObject e m t v).vec = v := rfl
  rw [he, hv] at h4
  cases hr : getGroup e (afterCalls e v (editsOf history)) w key with
  | error x =>
    rw [hr] at h4
    rw [SE.run_bind_error h4]
    simp
  | ok cols =>
    rw [hr] at h4
    rw [SE.run_bind_ok h4]
    constructor
    · intro h; cases h; exact ⟨cols, rfl, rfl⟩
    · rintro ⟨c, rfl, hc⟩; cases hc; rfl

theorem toPoints_columns {xs ys zs : List K} (h1 : ys.length = xs.length) (h2 : zs.length = xs.length) :
    (toPoints [xs, ys, zs]).map (·.x) = xs ∧ (toPoints [xs, ys, zs]).map (·.y) = ys ∧
      (toPoints [xs, ys, zs]).map (·.z) = zs := by
  unfold toPoints
  induction xs generalizing ys zs with
  | nil =>
    rw [List.length_nil, List.length_eq_zero_iff] at h1 h2
    subst h1 h2
    exact ⟨rfl, rfl, rfl⟩
  | cons x xs ih =>
    obtain ⟨y, ys, rfl⟩ := List.exists_cons_of_length_eq_add_one h1
    obtain ⟨z, zs, rfl⟩ := List.exists_cons_of_length_eq_add_one h2
    obtain ⟨k1, k2, k3⟩ := ih (ys := ys) (zs := zs) (by simpa using h1) (by simpa using h2)
    simp only [List.zip_cons_cons, List.zipWith_cons_cons, List.map_cons, k1, k2, k3, and_self]

theorem readPoints_eq {s : AlignObject K} (h : s.groups = some (group s.est))
    (hw : WholeEpochs s.est.leverarmEnabled s.est.timeShiftEnabled s.vec.obs) {key : ObsKey} {a b c : Quantity}
    (hk : key.names = [a, b, c]) (hq : ∀ q ∈ key.names, q ∈ epochNames s.est.leverarmEnabled s.est.timeShiftEnabled) :
    ∃ l, readPoints key s = (.ok l, s) ∧
      (sheetOf s.est.leverarmEnabled s.est.timeShiftEnabled s.vec.obs).column a = some (l.map (·.x)) ∧
      (sheetOf s.est.leverarmEnabled s.est.timeShiftEnabled s.vec.obs).column b = some (l.map (·.y)) ∧
      (sheetOf s.est.leverarmEnabled s.est.timeShiftEnabled s.vec.obs).column c = some (l.map (·.z)) := by
  obtain ⟨cols, h1, h2⟩ := (extract_sheet s.est hw key).1 (fun q hq' => by
    simp only [sheetOf, if_pos (hq q hq'), Option.isSome_some])
  rw [hk] at h2
  have hlen := congrArg List.length h2
  simp only [List.length_map, List.length_cons, List.length_nil] at hlen
  obtain ⟨xs, ys, zs, rfl⟩ := List.length_eq_three.1 hlen
  simp only [List.map_cons, List.map_nil, List.cons.injEq, and_true] at h2
  obtain ⟨e1, e2, e3⟩ := h2
  have hlx : ∀ q ∈ key.names, ∀ l, some l = (sheetOf s.est.leverarmEnabled s.est.timeShiftEnabled s.vec.obs).column q →
      l.length = s.vec.obs.length / (epochNames s.est.leverarmEnabled s.est.timeShiftEnabled).length := by
    intro q hq' l hl
    simp only [sheetOf, if_pos (hq q hq')] at hl
    rw [Option.some.inj hl]
    simp
  have l1 := hlx a (by simp [hk]) xs e1
  have l2 := hlx b (by simp [hk]) ys e2
  have l3 := hlx c (by simp [hk]) zs e3
  obtain ⟨p1, p2, p3⟩ := toPoints_columns (xs := xs) (ys := ys) (zs := zs) (l2.trans l1.symm) (l3.trans l1.symm)
  refine ⟨toPoints [xs, ys, zs], ?_, by rw [p1, e1], by rw [p2, e2], by rw [p3, e3]⟩
  unfold readPoints
  have h3 := readColumns_eq h .obs key
  unfold getGroup at h3
  rw [show get s.vec .obs = s.vec.obs from rfl, h1] at h3
  rw [SE.run_bind_ok h3, if_pos]
  · rfl
  · simp [l1, l2, l3]

/-- **C207**, the thresholds: if nobody has asked before, and the settings of what is estimated were left alone, the answer is
computed from the observations and limits of this moment: `metric` for translations and lever arm, `time` for the time
shift, and for angles and scale `metric` divided by the larger of the diagonals of the boxes around the source and around
the target positions that the observations hold now. -/
theorem C207_thresholds_partial (nrm : V3 K → K) (e : EstSettings) (m t : K) (v : AlignVectors K)
    (hv : ∀ w, WholeEpochs e.leverarmEnabled e.timeShiftEnabled (get v w)) (history : List (DataCall K))
    (hc : ∀ c ∈ history, DataCall.KeepsFlags c) (hn : DataCall.thresholds ∉ history) (ha : ∀ c ∈ editsOf history, c.Array)
    (s : AlignObject K) (hs : s = afterDataCalls nrm (newObject e m t v) history)
    (table : Sheet K) (htable : table = afterEdits e.leverarmEnabled e.timeShiftEnabled
      (tablesOf e.leverarmEnabled e.timeShiftEnabled v) (editsOf history) .obs) :
    ∃ src dst : List (V3 K),
      table.column .fromX = some (src.map (·.x)) ∧ table.column .fromY = some (src.map (·.y)) ∧
      table.column .fromZ = some (src.map (·.z)) ∧ table.column .toX = some (dst.map (·.x)) ∧
      table.column .toY = some (dst.map (·.y)) ∧ table.column .toZ = some (dst.map (·.z)) ∧
      ((src = [] ∨ dst = []) → answer nrm (newObject e m t v) history .thresholds = .error .valueError) ∧
      (src ≠ [] → dst ≠ [] → ∃ l lo hi lo' hi', answer nrm (newObject e m t v) history .thresholds = .ok (.numbers l) ∧
        IsBox src lo hi ∧ IsBox dst lo' hi' ∧ l.length = 11 ∧
        (∀ i, i < 3 ∨ 8 ≤ i ∧ i < 11 → l[i]? = some (some s.metric)) ∧ l[7]? = some (some s.time) ∧
        ∀ i, 3 ≤ i → i < 7 → ∀ d, d = max (nrm (hi - lo)) (nrm (hi' - lo')) →
          l[i]? = some (if d = 0 then none else some (s.metric / d))) := by
  obtain ⟨h1, h2, h3, h4⟩ := after_vec nrm history (s := newObject e m t v) rfl hc
  obtain ⟨k1, k2⟩ := C203_histories e v hv (editsOf history) ha
  rw [← hs] at h1 h2 h3 h4
  replace h1 : s.est = e := h1
  replace h2 : s.groups = some (group s.est) := by rw [h2, h1]; rfl
  replace h3 : s.vec = afterCalls e v (editsOf history) := h3
  have h5 : s.ths = none := h4 hn
  have hw : WholeEpochs s.est.leverarmEnabled s.est.timeShiftEnabled s.vec.obs := by
    rw [h1, h3]
    exact k1 .obs
  have ht : table = sheetOf s.est.leverarmEnabled s.est.timeShiftEnabled s.vec.obs := by
    rw [htable, ← k2, h1, h3]
    rfl
  have hmem : ∀ q ∈ [Quantity.fromX, .fromY, .fromZ, .toX, .toY, .toZ],
      q ∈ epochNames s.est.leverarmEnabled s.est.timeShiftEnabled := by
    intro q hq
    unfold epochNames
    simp only [List.mem_append]
    exact .inl (.inl hq)
  obtain ⟨src, r1, c1, c2, c3⟩ := readPoints_eq h2 hw (key := .xyzFrom) rfl (fun q hq => hmem q (by
    revert hq; cases q <;> decide))
  obtain ⟨dst, r2, d1, d2, d3⟩ := readPoints_eq h2 hw (key := .xyzTo) rfl (fun q hq => hmem q (by
    revert hq; cases q <;> decide))
  have hread : ∀ x : Except Err (List (Option K)), Adjust.thresholds nrm s.metric s.time src dst = x →
      (readThresholds nrm s).1 = x := by
    intro x hx
    unfold readThresholds
    rw [SE.run_bind_ok (SE.run_get s), h5]
    simp only
    rw [SE.run_bind_ok r1, SE.run_bind_ok r2, SE.run_bind_ok (SE.run_get s), hx]
    cases x <;> rfl
  refine ⟨src, dst, by rw [ht, c1], by rw [ht, c2], by rw [ht, c3], by rw [ht, d1], by rw [ht, d2], by rw [ht, d3], ?_, ?_⟩
  · intro hempty
    have := hread _ (C82_no_thresholds nrm s.metric s.time hempty)
    unfold answer
    rw [← hs]
    simp only [DataCall.run]
    rcases hr : readThresholds nrm s with ⟨r, s'⟩
    rw [hr] at this
    simp only at this
    subst this
    rw [SE.run_bind_error hr]
  · intro hne hne'
    obtain ⟨l, hl⟩ : ∃ l, Adjust.thresholds nrm s.metric s.time src dst = .ok l := by
      obtain ⟨p, ps, rfl⟩ := List.exists_cons_of_ne_nil hne
      obtain ⟨q, qs, rfl⟩ := List.exists_cons_of_ne_nil hne'
      exact ⟨_, rfl⟩
    obtain ⟨lo, hi, lo', hi', g⟩ := C82_thresholds nrm s.metric s.time hl
    refine ⟨l, lo, hi, lo', hi', ?_, g⟩
    unfold answer
    rw [← hs]
    exact (thresholds_answer nrm s l).2 (hread _ hl)

/-! ### concrete cases -/

/-- two epochs, one metre apart; neither lever arm nor time shift -/
def exObject : AlignObject ℚ :=
  newObject {} (1 / 100) (1 / 1000)
    ⟨[0, 0, 0, 5, 5, 5,  1, 0, 0, 6, 5, 5], List.replicate 12 1, List.replicate 12 0⟩

/-- the sum of the sizes of the coordinates, a length over the rationals -/
def exLength (v : V3 ℚ) : ℚ := |v.x| + |v.y| + |v.z|

/-- the numbers of an answer -/
def DataAnswer.list : DataAnswer K → Option (List (Option K))
  | .numbers l => some l
  | _ => none

/-- the columns of an answer -/
def DataAnswer.cols : DataAnswer K → Option (List (List K))
  | .columns l => some l
  | _ => none

theorem answer_list {r : Except Err (DataAnswer K)} {l : List (Option K)} (h : r.toOption.bind DataAnswer.list = some l) :
    r = .ok (.numbers l) := by
  cases r with
  | error e => cases h
  | ok a => cases a with
    | numbers l' => cases h; rfl
    | done => cases h
    | columns c => cases h

theorem answer_cols {r : Except Err (DataAnswer K)} {l : List (List K)} (h : r.toOption.bind DataAnswer.cols = some l) :
    r = .ok (.columns l) := by
  cases r with
  | error e => cases h
  | ok a => cases a with
    | columns l' => cases h; rfl
    | done => cases h
    | numbers c => cases h

/-- **C207** is false in general: after the positions were spread a hundred times wider the object still answers with the
thresholds of the old ones; an object that was not asked before answers with those of the new positions. -/
theorem C207_not_followed :
    ∃ (history : List (DataCall ℚ)) (a b : List (Option ℚ)), a ≠ b ∧
      answer exLength exObject (.thresholds :: history) .thresholds = .ok (.numbers a) ∧
      answer exLength exObject history .thresholds = .ok (.numbers b) := by
  refine ⟨[.edit .obs .xyFrom [[0, 100], [0, 0]]],
    [some (1/100), some (1/100), some (1/100), some (1/100), some (1/100), some (1/100), some (1/100), some (1/1000),
      some (1/100), some (1/100), some (1/100)],
    [some (1/100), some (1/100), some (1/100), some (1/10000), some (1/10000), some (1/10000), some (1/10000), some (1/1000),
      some (1/100), some (1/100), some (1/100)], by decide +kernel, answer_list ?_, answer_list ?_⟩
  · decide +kernel
  · decide +kernel

/-- **C207** is false in general: after the time shift was switched on in the settings of an existing object, the source
positions read from it are a mixture of source and target positions, although no observation was changed. -/
theorem C207_mixed_up :
    answer exLength exObject [] (.read .obs .xyzFrom) = .ok (.columns [[0, 1], [0, 0], [0, 0]]) ∧
    answer exLength exObject [.flags { timeShift := true }] (.read .obs .xyzFrom) = .ok (.columns [[0, 6], [0, 5], [0, 5]]) := by
  refine ⟨answer_cols ?_, answer_cols ?_⟩ <;> decide +kernel

/-- a history that meets the hypotheses of the positive theorems: a change, a reading, new limits, a refused change -/
def exHistory : List (DataCall ℚ) :=
  [.edit .obs .xyTo [[20, 30], [21, 21]], .read .res .zTo, .limits (1 / 10) 1, .edit .obs .rpy [[1], [1], [1]]]

example : (∀ c ∈ exHistory, DataCall.KeepsFlags c) ∧ DataCall.thresholds ∉ exHistory ∧ (∀ c ∈ editsOf exHistory, c.Array) ∧
    (∀ w, WholeEpochs false false (get exObject.vec w)) := by
  refine ⟨?_, ?_, ?_, fun w => by cases w <;> exact ⟨2, rfl⟩⟩
  · intro c hc
    simp only [exHistory, List.mem_cons, List.not_mem_nil, or_false] at hc
    rcases hc with rfl | rfl | rfl | rfl <;> trivial
  · intro hc
    simp [exHistory] at hc
  · intro c hc
    simp only [exHistory, editsOf, List.mem_cons, List.not_mem_nil, or_false] at hc
    rcases hc with rfl | rfl <;> (constructor; intro c hc; revert c; decide)

example : (answer exLength exObject exHistory .thresholds).toOption.bind DataAnswer.list =
    some [some (1/10), some (1/10), some (1/10), some (1/100), some (1/100), some (1/100), some (1/100), some 1,
      some (1/10), some (1/10), some (1/10)] := by decide +kernel

end TC
