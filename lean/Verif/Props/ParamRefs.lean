import Verif.Spec.ParamRefs
import Verif.Props.Params
/-!
# C162, C163, C164: parameters and arrays that are shared

First: what the model of sets that own their parameters says holds for sets that refer to parameters.
-/
namespace TC.Shared
set_option linter.unusedSectionVars false
variable {K : Type} [Field K] [LinearOrder K]

theorem filterMap_set_of_notMem {refs : List Nat} {h : List (Param K)} {r : Nat} {p : Param K} (hr : r ∉ refs) :
    refs.filterMap (fun k => (h.set r p)[k]?) = refs.filterMap (fun k => h[k]?) := by
  apply List.filterMap_congr
  intro k hk
  rw [List.getElem?_set_ne]
  rintro rfl
  exact hr hk

theorem setLoop_other (upd : Param K → K → Param K) (eo : Bool) : ∀ (rs : List Nat) (vs : List K) (h : List (Param K)),
    (setLoop upd eo rs vs h).length = h.length ∧ ∀ k, k ∉ rs → (setLoop upd eo rs vs h)[k]? = h[k]?
  | [], _, h => ⟨rfl, fun _ _ => rfl⟩
  | r :: rs, vs, h => by
    have ih := setLoop_other upd eo rs
    have hsub : ∀ {k}, k ∉ r :: rs → k ∉ rs := fun hk hm => hk (List.mem_cons_of_mem _ hm)
    unfold setLoop
    rcases hp : h[r]? with _ | p
    · exact ⟨(ih vs h).1, fun k hk => (ih vs h).2 k (hsub hk)⟩
    · simp only
      split_ifs with hc
      · exact ⟨(ih vs h).1, fun k hk => (ih vs h).2 k (hsub hk)⟩
      · rcases vs with _ | ⟨v, vs⟩
        · exact ⟨(ih [] h).1, fun k hk => (ih [] h).2 k (hsub hk)⟩
        · refine ⟨by rw [(ih vs _).1, List.length_set], fun k hk => ?_⟩
          rw [(ih vs _).2 k (hsub hk), List.getElem?_set_ne]
          rintro rfl
          exact hk List.mem_cons_self

theorem setLoop_view (upd : Param K → K → Param K) (eo : Bool) : ∀ (rs : List Nat) (vs : List K) (h : List (Param K)),
    rs.Nodup → (∀ r ∈ rs, r < h.length) →
    rs.filterMap (fun r => (setLoop upd eo rs vs h)[r]?) = PSet.setLoop upd eo (rs.filterMap (fun r => h[r]?)) vs
  | [], _, _, _, _ => rfl
  | r :: rs, vs, h, hn, hb => by
    have ih := setLoop_view upd eo rs
    have hr : r ∉ rs := (List.nodup_cons.1 hn).1
    have hn' := (List.nodup_cons.1 hn).2
    have hb' : ∀ k ∈ rs, k < h.length := fun k hk => hb k (List.mem_cons_of_mem _ hk)
    have hl := hb r List.mem_cons_self
    have hp : h[r]? = some h[r] := List.getElem?_eq_getElem hl
    have e1 : (r :: rs).filterMap (fun r => h[r]?) = h[r] :: rs.filterMap (fun r => h[r]?) := by
      simp [hp]
    rw [e1]
    unfold setLoop
    rw [hp]
    simp only [PSet.setLoop]
    split_ifs with hc
    · rw [List.filterMap_cons, (setLoop_other upd eo rs vs h).2 r hr, hp, ih vs h hn' hb']
    · rcases vs with _ | ⟨v, vs⟩
      · simp only
        rw [List.filterMap_cons, (setLoop_other upd eo rs [] h).2 r hr, hp, ih [] h hn' hb']
      · simp only
        rw [List.filterMap_cons, (setLoop_other upd eo rs vs _).2 r hr, List.getElem?_set_self hl,
          ih vs _ hn' (by simpa using hb'), filterMap_set_of_notMem hr]

theorem write_other : ∀ (ws : List (Nat × (Param K → Param K))) (h : List (Param K)),
    (write ws h).length = h.length ∧ ∀ k, k ∉ ws.map Prod.fst → (write ws h)[k]? = h[k]?
  | [], h => ⟨rfl, fun _ _ => rfl⟩
  | w :: ws, h => by
    obtain ⟨h1, h2⟩ := write_other ws (h.modify w.1 w.2)
    refine ⟨by rw [write, h1, List.length_modify], fun k hk => ?_⟩
    rw [List.map_cons, List.mem_cons, not_or] at hk
    rw [write, h2 k hk.2, List.getElem?_modify]
    simp [Ne.symm hk.1]

/-- each parameter that is written to, once -/
theorem write_at : ∀ (ws : List (Nat × (Param K → Param K))) (h : List (Param K)), (ws.map Prod.fst).Nodup →
    ∀ w ∈ ws, (write ws h)[w.1]? = (h[w.1]?).map w.2
  | [], _, _, _, hw => by simp at hw
  | v :: ws, h, hn, w, hw => by
    rw [List.map_cons, List.nodup_cons] at hn
    rw [write]
    rcases List.mem_cons.1 hw with rfl | hw
    · rw [(write_other ws _).2 _ hn.1, List.getElem?_modify]
      simp
    · have hne : v.1 ≠ w.1 := fun he => hn.1 (by rw [he]; exact List.mem_map_of_mem hw)
      rw [write_at ws _ hn.2 w hw, List.getElem?_modify]
      simp [hne]

theorem view_params (x : St K) : (view x).params = x.1.refs.filterMap (fun r => x.2.params[r]?) := rfl

theorem view_get {x : St K} (hx : WellFormed x) {i : Nat} {r : Nat} (hr : x.1.refs[i]? = some r) :
    (view x).params[i]? = x.2.params[r]? := by
  have hall : ∀ (l : List Nat), (∀ r ∈ l, r < x.2.params.length) → ∀ i : Nat,
      (l.filterMap (fun r => x.2.params[r]?))[i]? = (l[i]?).bind (fun r => x.2.params[r]?) := by
    intro l
    induction l with
    | nil => intro _ i; simp
    | cons a l ih =>
      intro hb i
      have ha := List.getElem?_eq_getElem (hb a List.mem_cons_self)
      rw [List.filterMap_cons, ha]
      rcases i with _ | i
      · simp [ha]
      · simp only [List.getElem?_cons_succ]
        exact ih (fun r hr => hb r (List.mem_cons_of_mem _ hr)) i
  rw [view_params, hall x.1.refs hx.inMem, hr]
  rfl

theorem view_length {x : St K} (hx : WellFormed x) : (view x).params.length = x.1.refs.length := by
  rw [view_params]
  have : ∀ (l : List Nat), (∀ r ∈ l, r < x.2.params.length) → (l.filterMap (fun r => x.2.params[r]?)).length = l.length := by
    intro l
    induction l with
    | nil => intro _; rfl
    | cons a l ih =>
      intro hb
      rw [List.filterMap_cons, List.getElem?_eq_getElem (hb a List.mem_cons_self)]
      simp only [List.length_cons]
      rw [ih (fun r hr => hb r (List.mem_cons_of_mem _ hr))]
  exact this _ hx.inMem

/-! ### the methods refine those of a set that owns its parameters -/

theorem set_cases (upd : Param K → K → Param K) (vals : List K) (eo : Bool) (x : St K) :
    (∃ e, PSet.set (view x) upd vals eo = .error e ∧ set upd vals eo x = (.error e, x)) ∨
    (PSet.set (view x) upd vals eo = .ok { view x with params := PSet.setLoop upd eo (view x).params vals } ∧
      set upd vals eo x = (.ok (), x.1, { x.2 with params := setLoop upd eo x.1.refs vals x.2.params })) := by
  unfold PSet.set set
  rw [SE.run_bind_ok (SE.run_get x)]
  split_ifs with h1 h2
  · exact .inl ⟨_, rfl, rfl⟩
  · exact .inl ⟨_, rfl, rfl⟩
  · exact .inr ⟨rfl, rfl⟩

theorem set_ok_state {upd : Param K → K → Param K} {vals : List K} {eo : Bool} {x : St K} (hx : WellFormed x) :
    let x' : St K := (x.1, { x.2 with params := setLoop upd eo x.1.refs vals x.2.params })
    WellFormed x' ∧ view x' = { view x with params := PSet.setLoop upd eo (view x).params vals } ∧
      OthersSame x.1.refs x.2 x'.2 := by
  have h1 := setLoop_other upd eo x.1.refs vals x.2.params
  refine ⟨⟨hx.nodup, fun r hr => by simp only [h1.1]; exact hx.inMem r hr, hx.cov⟩, ?_, h1⟩
  unfold view
  simp only
  rw [setLoop_view upd eo _ _ _ hx.nodup hx.inMem]

theorem set_refines (upd : Param K → K → Param K) (vals : List K) (eo : Bool) :
    Refines (set upd vals eo) (fun s => s.set upd vals eo) := by
  intro x hx
  beta_reduce
  rcases set_cases upd vals eo x with ⟨e, h1, h2⟩ | ⟨h1, h2⟩
  · refine ⟨fun t ht => ?_, fun e' he => ?_⟩
    · rw [h1] at ht; cases ht
    · rw [h1] at he
      injection he with he
      rw [h2, he]
  · refine ⟨fun t ht => ?_, fun e' he => ?_⟩
    · rw [h1] at ht
      injection ht with ht
      obtain ⟨w, v, o⟩ := set_ok_state (upd := upd) (vals := vals) (eo := eo) hx
      exact ⟨_, h2, w, v.trans ht, rfl, o, fun _ _ _ => rfl⟩
    · rw [h1] at he; cases he

theorem inPlace_view {x : St K} (hx : WellFormed x) (f : List (List K) → List (List K)) :
    let x' : St K := (x.1, { x.2 with mats := x.2.mats.modify x.1.cov f })
    WellFormed x' ∧ view x' = { view x with cov := f (view x).cov } := by
  refine ⟨⟨hx.nodup, hx.inMem, by simpa using hx.cov⟩, ?_⟩
  unfold view
  simp only [List.getD_eq_getElem?_getD, List.getElem?_modify]
  rw [List.getElem?_eq_getElem hx.cov]
  simp

theorem setVariances_refines (vals : List K) : Refines (setVariances vals) (fun s => s.setVariances vals) := by
  intro x hx
  unfold setVariances
  rcases set_cases PSet.updVariance vals false x with ⟨e, h1, h2⟩ | ⟨h1, h2⟩
  · simp only [PSet.setVariances, h1, bind, Except.bind]
    refine ⟨fun t ht => (by cases ht), fun e' he => ?_⟩
    injection he with he
    simp [SE.bind, h2, he]
  · simp only [PSet.setVariances, h1, bind, Except.bind, pure, Except.pure]
    refine ⟨fun t ht => ?_, fun e' he => (by cases he)⟩
    injection ht with ht
    obtain ⟨w, v, o⟩ := set_ok_state (upd := PSet.updVariance) (vals := vals) (eo := false) hx
    obtain ⟨w', v'⟩ := inPlace_view w (fun m => PSet.fillDiag m vals)
    refine ⟨_, ?_, w', ?_, rfl, o, ?_⟩
    · simp only [SE.bind, h2]
      rfl
    · rw [v', v, ← ht]
    · intro c _ hne
      simp [Ne.symm hne]

theorem setVariancesEnabled_refines (vals : List K) :
    Refines (setVariancesEnabled vals) (fun s => s.setVariancesEnabled vals) := by
  intro x hx
  unfold setVariancesEnabled
  rcases set_cases PSet.updVariance vals true x with ⟨e, h1, h2⟩ | ⟨h1, h2⟩
  · simp only [PSet.setVariancesEnabled, h1, bind, Except.bind]
    refine ⟨fun t ht => (by cases ht), fun e' he => ?_⟩
    injection he with he
    simp [SE.bind, h2, he]
  · simp only [PSet.setVariancesEnabled, h1, bind, Except.bind, pure, Except.pure]
    refine ⟨fun t ht => ?_, fun e' he => (by cases he)⟩
    injection ht with ht
    obtain ⟨w, v, o⟩ := set_ok_state (upd := PSet.updVariance) (vals := vals) (eo := true) hx
    obtain ⟨w', v'⟩ := inPlace_view w (fun m => ((view _).enabledIndices.zip vals).foldl
      (fun m iv => m.modify iv.1 (fun row => row.set iv.1 iv.2)) m)
    refine ⟨_, ?_, w', ?_, rfl, o, ?_⟩
    · simp only [SE.bind, h2]
      rfl
    · rw [v', v, ← ht]
    · intro c _ hne
      simp [Ne.symm hne]

theorem setValues_refines (vals : List K) : Refines (setValues vals) (fun s => s.setValues vals) := set_refines _ _ _

theorem setValuesEnabled_refines (vals : List K) : Refines (setValuesEnabled vals) (fun s => s.setValuesEnabled vals) :=
  set_refines _ _ _

/-- the state after a new array was made -/
theorem fresh_array {x : St K} (hx : WellFormed x) (s : List (List K)) :
    let y : St K := ({ x.1 with cov := x.2.mats.length }, { x.2 with mats := x.2.mats ++ [s] })
    WellFormed y ∧ view y = { view x with cov := s } := by
  refine ⟨⟨hx.nodup, hx.inMem, by simp⟩, ?_⟩
  unfold view
  simp

theorem validate_refines : Refines (validate (K := K)) PSet.validateCovariance := by
  intro x hx
  unfold validate PSet.validateCovariance
  rw [SE.run_bind_ok (SE.run_get x)]
  simp only
  split_ifs with h1 h2 h3
  · exact ⟨fun t ht => (by cases ht), fun e he => (by injection he with he; rw [← he]; rfl)⟩
  · exact setVariances_refines _ x hx
  · exact ⟨fun t ht => (by cases ht), fun e he => (by injection he with he; rw [← he]; rfl)⟩
  · obtain ⟨w, v⟩ := fresh_array hx (PSet.scatter (view x).len (view x).enabledIndices (view x).cov)
    have hr := setVariancesEnabled_refines (PSet.diag (PSet.getCovariance
      ({ view x with cov := PSet.scatter (view x).len (view x).enabledIndices (view x).cov } : PSet K) true)) _ w
    rw [v] at hr
    rw [SE.run_bind_ok (SE.run_modify _ x), SE.run_bind_ok (SE.run_get _), v]
    refine ⟨fun t ht => ?_, hr.2⟩
    obtain ⟨x', k1, k2, k3, k4, k5, k6⟩ := hr.1 t ht
    refine ⟨x', k1, k2, k3, k4, k5, ?_⟩
    intro c hc _
    rw [k6 c (by simp; omega) (by simp; omega)]
    simp [List.getElem?_append_left hc]

/-- assigning an array that is in the memory -/
theorem setCovariance_ok {x : St K} (hx : WellFormed x) {c : Nat} {m : List (List K)} (hc : x.2.mats[c]? = some m) :
    (∀ t, (view x).setCovariance m = .ok t → ∃ x', setCovariance c x = (.ok (), x') ∧ WellFormed x' ∧ view x' = t ∧
      x'.1.refs = x.1.refs ∧ OthersSame x.1.refs x.2 x'.2) ∧
    (∀ e, (view x).setCovariance m = .error e → (setCovariance c x).1 = .error e) := by
  have hcl : c < x.2.mats.length := (List.getElem?_eq_some_iff.1 hc).1
  have w : WellFormed (({ x.1 with cov := c }, x.2) : St K) := ⟨hx.nodup, hx.inMem, hcl⟩
  have v : view (({ x.1 with cov := c }, x.2) : St K) = { view x with cov := m } := by
    unfold view
    simp [List.getD_eq_getElem?_getD, hc]
  have hr := validate_refines (K := K) _ w
  rw [v] at hr
  refine ⟨fun t ht => ?_, fun e he => ?_⟩
  · obtain ⟨x', k1, k2, k3, k4, k5, -⟩ := hr.1 t ht
    exact ⟨x', k1, k2, k3, k4, k5⟩
  · exact hr.2 e he

theorem filterMap_write {refs : List Nat} (f : Param K → Param K) {h : List (Param K)} (hn : refs.Nodup) :
    refs.filterMap (fun r => (write (refs.map (fun r => (r, f))) h)[r]?) = (refs.filterMap (fun r => h[r]?)).map f := by
  rw [List.map_filterMap]
  apply List.filterMap_congr
  intro r hr
  have := write_at (refs.map (fun r => (r, f))) h (by simpa [List.map_map, Function.comp_def] using hn) (r, f)
    (List.mem_map.2 ⟨r, hr, rfl⟩)
  exact this

theorem write_wf {x : St K} (hx : WellFormed x) {ws : List (Nat × (Param K → Param K))} (hw : ∀ w ∈ ws, w.1 ∈ x.1.refs)
    (b : Bool) : let y : St K := ({ x.1 with enabled := b }, { x.2 with params := write ws x.2.params })
    WellFormed y ∧ OthersSame x.1.refs x.2 y.2 := by
  obtain ⟨h1, h2⟩ := write_other ws x.2.params
  refine ⟨⟨hx.nodup, fun r hr => by simp only [h1]; exact hx.inMem r hr, hx.cov⟩, h1, fun r hr => h2 r ?_⟩
  intro hm
  obtain ⟨w, hw', rfl⟩ := List.mem_map.1 hm
  exact hr (hw w hw')

theorem enable_refines : Refines (enable (K := K)) (fun s => .ok s.enable) := by
  intro x hx
  refine ⟨fun t ht => ?_, fun e he => (by cases he)⟩
  injection ht with ht
  obtain ⟨w, o⟩ := write_wf hx (ws := x.1.refs.map (fun r => (r, fun p => { p with enabled := true }))) (by simp) true
  refine ⟨_, rfl, w, ?_, rfl, o, fun _ _ _ => rfl⟩
  rw [← ht]
  simp only [view, filterMap_write _ hx.nodup, PSet.enable]

theorem disable_refines : Refines (disable (K := K)) (fun s => .ok s.disable) := by
  intro x hx
  refine ⟨fun t ht => ?_, fun e he => (by cases he)⟩
  injection ht with ht
  obtain ⟨w, o⟩ := write_wf hx (ws := x.1.refs.map (fun r => (r, fun p => { p with enabled := false }))) (by simp) false
  refine ⟨_, rfl, w, ?_, rfl, o, fun _ _ _ => rfl⟩
  rw [← ht]
  simp only [view, filterMap_write _ hx.nodup, PSet.disable]

/-- assigning to the first parameters of a set, in order -/
theorem filterMap_write_zip {β : Type} (f : β → Param K → Param K) : ∀ {refs : List Nat} {l : List β} {h : List (Param K)},
    refs.Nodup → (∀ r ∈ refs, r < h.length) →
    refs.filterMap (fun r => (write (List.zipWith (fun r b => (r, f b)) refs l) h)[r]?)
      = List.zipWith (fun p b => f b p) (refs.filterMap (fun r => h[r]?)) l ++ (refs.filterMap (fun r => h[r]?)).drop l.length
  | [], l, h, _, _ => by simp
  | r :: refs, [], h, hn, hb => by simp [write]
  | r :: refs, b :: l, h, hn, hb => by
    have hr : r ∉ refs := (List.nodup_cons.1 hn).1
    have hl := hb r List.mem_cons_self
    have hp : h[r]? = some h[r] := List.getElem?_eq_getElem hl
    have hfst : ∀ (rs : List Nat) (l : List β), ∀ k ∈ (List.zipWith (fun r b => (r, f b)) rs l).map Prod.fst, k ∈ rs := by
      intro rs
      induction rs with
      | nil => intro l k hk; simp at hk
      | cons a rs ih =>
        intro l k hk
        rcases l with _ | ⟨c, l⟩
        · simp at hk
        · simp only [List.zipWith_cons_cons, List.map_cons, List.mem_cons] at hk
          rcases hk with rfl | hk
          · exact List.mem_cons_self
          · exact List.mem_cons_of_mem _ (ih l k hk)
    have ih := filterMap_write_zip f (refs := refs) (l := l) (h := h.modify r (f b)) (List.nodup_cons.1 hn).2
      (by simpa using fun k hk => hb k (List.mem_cons_of_mem _ hk))
    have hsame : refs.filterMap (fun k => (h.modify r (f b))[k]?) = refs.filterMap (fun k => h[k]?) := by
      apply List.filterMap_congr
      intro k hk
      have : r ≠ k := by rintro rfl; exact hr hk
      rw [List.getElem?_modify]
      simp [this]
    rw [hsame] at ih
    simp only [List.zipWith_cons_cons, write, List.filterMap_cons]
    rw [(write_other _ _).2 r (fun hm => hr (hfst _ _ _ hm)), ih, hp, List.getElem?_modify, hp]
    simp

theorem write_zip_view {x : St K} (hx : WellFormed x) {β : Type} (f : β → Param K → Param K) (l : List β) :
    let y : St K := (x.1, { x.2 with params := write (List.zipWith (fun r b => (r, f b)) x.1.refs l) x.2.params })
    WellFormed y ∧ OthersSame x.1.refs x.2 y.2 ∧
      view y = { view x with params := List.zipWith (fun p b => f b p) (view x).params l ++ (view x).params.drop l.length } := by
  have hmem : ∀ w ∈ List.zipWith (fun r b => (r, f b)) x.1.refs l, w.1 ∈ x.1.refs := by
    intro w hw
    obtain ⟨i, hi, rfl⟩ := List.getElem_of_mem hw
    simp
  obtain ⟨w, o⟩ := write_wf hx hmem x.1.enabled
  refine ⟨w, o, ?_⟩
  unfold view
  simp only [filterMap_write_zip f hx.nodup hx.inMem]

theorem setEnabledBoolList_refines (l : List Bool) :
    Refines (setEnabledBoolList (K := K) l) (fun s => .ok (s.setEnabledBoolList l)) := by
  intro x hx
  refine ⟨fun t ht => ?_, fun e he => (by cases he)⟩
  injection ht with ht
  obtain ⟨w, o, v⟩ := write_zip_view hx (fun b (p : Param K) => { p with enabled := b }) l
  exact ⟨_, rfl, w, v.trans ht, rfl, o, fun _ _ _ => rfl⟩

/-! ## Views of the parameters of an alignment -/

theorem filterMap_length {h : List (Param K)} : ∀ (l : List Nat), (∀ r ∈ l, r < h.length) →
    (l.filterMap (fun r => h[r]?)).length = l.length
  | [], _ => rfl
  | r :: l, hb => by
    rw [List.filterMap_cons, List.getElem?_eq_getElem (hb r List.mem_cons_self)]
    simp [filterMap_length l (fun k hk => hb k (List.mem_cons_of_mem _ hk))]

theorem newSet_ok {a : RSet} {m : Mem K} (h : WellFormed (a, m)) {l : List Nat} (hl : l.Sublist a.refs) :
    WellFormed (newSet l m) ∧ (view (newSet l m)).enabled = true ∧ (view (newSet l m)).cov = zeroRows l.length ∧
      (view (newSet l m)).params = l.filterMap (fun r => m.params[r]?) :=
  ⟨⟨hl.nodup h.nodup, fun r hr => h.inMem r (hl.subset hr), by simp [newSet]⟩, rfl, by simp [view, newSet], rfl⟩

theorem filterMap_take {h : List (Param K)} {l : List Nat} (hb : ∀ r ∈ l, r < h.length) (n : Nat) :
    (l.take n).filterMap (fun r => h[r]?) = (l.filterMap (fun r => h[r]?)).take n := by
  induction l generalizing n with
  | nil => simp
  | cons r l ih =>
    rcases n with _ | n
    · simp
    · have hr := List.getElem?_eq_getElem (hb r List.mem_cons_self)
      simp only [List.take_succ_cons, List.filterMap_cons, hr, ih (fun k hk => hb k (List.mem_cons_of_mem _ hk))]

theorem filterMap_drop {h : List (Param K)} {l : List Nat} (hb : ∀ r ∈ l, r < h.length) (n : Nat) :
    (l.drop n).filterMap (fun r => h[r]?) = (l.filterMap (fun r => h[r]?)).drop n := by
  induction l generalizing n with
  | nil => simp
  | cons r l ih =>
    rcases n with _ | n
    · simp
    · have hr := List.getElem?_eq_getElem (hb r List.mem_cons_self)
      simp only [List.drop_succ_cons, List.filterMap_cons, hr, ih (fun k hk => hb k (List.mem_cons_of_mem _ hk))]

/-- writing through a set made of some of the parameters of `a` -/
theorem through {op : SE (St K) Unit} {f : PSet K → Except Err (PSet K)} (hop : Refines op f) {a : RSet} {m : Mem K}
    (h : WellFormed (a, m)) {l : List Nat} (hl : l.Sublist a.refs) {t : PSet K} (ht : f (view (newSet l m)) = .ok t) :
    ∃ y, op (newSet l m) = (.ok (), y) ∧ view y = t ∧ WellFormed (a, y.2) ∧
      l.filterMap (fun r => y.2.params[r]?) = t.params ∧
      (∀ r, r ∉ l → y.2.params[r]? = m.params[r]?) ∧ (view (a, y.2)).cov = (view (a, m)).cov := by
  obtain ⟨w, -, -, -⟩ := newSet_ok h hl
  obtain ⟨y, k1, k2, k3, k4, k5, k6⟩ := (hop _ w).1 t ht
  have hcov : y.2.mats[a.cov]? = m.mats[a.cov]? := by
    have := k6 a.cov (by have := h.cov; simp only [newSet, List.length_append]; simp at this ⊢; omega)
      (by have := h.cov; simp only [newSet]; simp at this; omega)
    rw [this]
    exact List.getElem?_append_left h.cov
  refine ⟨y, k1, k3, ⟨h.nodup, fun r hr => by rw [k5.1]; exact h.inMem r hr, ?_⟩, ?_, k5.2, ?_⟩
  · have h1 := h.cov
    rw [List.getElem?_eq_getElem h1] at hcov
    exact (List.getElem?_eq_some_iff.1 hcov).1
  · rw [← k3, view_params, k4]
    rfl
  · unfold view
    simp only [List.getD_eq_getElem?_getD, hcov]

theorem filterMap_same {h h' : List (Param K)} {l k : List Nat} (hs : ∀ r, r ∉ l → h'[r]? = h[r]?) (hd : k.Disjoint l) :
    k.filterMap (fun r => h'[r]?) = k.filterMap (fun r => h[r]?) :=
  List.filterMap_congr (fun r hr => hs r (fun hm => hd hr hm))

/-- **C162.**  Whatever a method does to the parameters of `params.helmert`, it does to the first seven parameters of the
alignment itself; the other four, and the covariance matrix of the alignment, stay as they are. -/
theorem C162_helmert {op : SE (St K) Unit} {f : PSet K → Except Err (PSet K)} (hop : Refines op f) {a : RSet} {m : Mem K}
    (h : IsAlignment a m) :
    (view (helmert a m)).params = (view (a, m)).params.take 7 ∧
    ∀ t, f (view (helmert a m)) = .ok t → ∃ y, op (helmert a m) = (.ok (), y) ∧ view y = t ∧ IsAlignment a y.2 ∧
      view (a, y.2) = { view (a, m) with params := t.params ++ (view (a, m)).params.drop 7 } := by
  have hl : (a.refs.take 7).Sublist a.refs := List.take_sublist _ _
  refine ⟨filterMap_take h.wf.inMem 7, fun t ht => ?_⟩
  obtain ⟨y, k1, k2, k3, k4, k5, k6⟩ := through hop h.wf hl ht
  refine ⟨y, k1, k2, ⟨k3, h.eleven⟩, ?_⟩
  have hd : (a.refs.drop 7).Disjoint (a.refs.take 7) := by
    have := h.wf.nodup
    rw [← List.take_append_drop 7 a.refs] at this
    exact (List.disjoint_of_nodup_append this).symm
  have hp : (view (a, y.2)).params = t.params ++ (view (a, m)).params.drop 7 := by
    rw [view_params, view_params, ← k4, ← filterMap_drop h.wf.inMem 7, ← filterMap_same k5 hd, ← List.filterMap_append,
      List.take_append_drop]
  have := view_params (a, y.2)
  cases hv : view (a, y.2)
  cases hw : view (a, m)
  rw [hv] at hp k6
  rw [hw] at hp k6
  have he : (view (a, y.2)).enabled = (view (a, m)).enabled := rfl
  rw [hv, hw] at he
  simp only at hp k6 he
  simp only [hp, k6, he]

/-- **C162.**  The same for `params.leverarm` and the last three parameters. -/
theorem C162_leverarm {op : SE (St K) Unit} {f : PSet K → Except Err (PSet K)} (hop : Refines op f) {a : RSet} {m : Mem K}
    (h : IsAlignment a m) :
    (view (leverarm a m)).params = (view (a, m)).params.drop 8 ∧
    ∀ t, f (view (leverarm a m)) = .ok t → ∃ y, op (leverarm a m) = (.ok (), y) ∧ view y = t ∧ IsAlignment a y.2 ∧
      view (a, y.2) = { view (a, m) with params := (view (a, m)).params.take 8 ++ t.params } := by
  have hl : (a.refs.drop 8).Sublist a.refs := List.drop_sublist _ _
  refine ⟨filterMap_drop h.wf.inMem 8, fun t ht => ?_⟩
  obtain ⟨y, k1, k2, k3, k4, k5, k6⟩ := through hop h.wf hl ht
  refine ⟨y, k1, k2, ⟨k3, h.eleven⟩, ?_⟩
  have hd : (a.refs.take 8).Disjoint (a.refs.drop 8) := by
    have := h.wf.nodup
    rw [← List.take_append_drop 8 a.refs] at this
    exact List.disjoint_of_nodup_append this
  have hp : (view (a, y.2)).params = (view (a, m)).params.take 8 ++ t.params := by
    rw [view_params, view_params, ← k4, ← filterMap_take h.wf.inMem 8, ← filterMap_same k5 hd, ← List.filterMap_append,
      List.take_append_drop]
  cases hv : view (a, y.2)
  cases hw : view (a, m)
  rw [hv] at hp k6
  rw [hw] at hp k6
  have he : (view (a, y.2)).enabled = (view (a, m)).enabled := rfl
  rw [hv, hw] at he
  simp only at hp k6 he
  simp only [hp, k6, he]

theorem zipWith_take_left {α β γ : Type} (g : α → β → γ) : ∀ (as : List α) (bs : List β),
    List.zipWith g (as.take bs.length) bs = List.zipWith g as bs
  | [], bs => by simp
  | a :: as, [] => by simp
  | a :: as, b :: bs => by simp [zipWith_take_left g as bs]

theorem setTranslation_refines (v : V3 K) : Refines (setTranslation v) (fun s => .ok
    { s with params := List.zipWith PSet.updValue s.params [v.x, v.y, v.z] ++ s.params.drop 3 }) := by
  intro x hx
  refine ⟨fun t ht => ?_, fun e he => (by cases he)⟩
  injection ht with ht
  obtain ⟨w, o, k⟩ := write_zip_view hx (fun c (p : Param K) => PSet.updValue p c) [v.x, v.y, v.z]
  have hz : List.zipWith (fun r c => (r, fun p => PSet.updValue p c)) (x.1.refs.take 3) [v.x, v.y, v.z]
      = List.zipWith (fun r c => (r, fun p => PSet.updValue p c)) x.1.refs [v.x, v.y, v.z] :=
    zipWith_take_left _ x.1.refs [v.x, v.y, v.z]
  refine ⟨_, rfl, ?_, ?_, rfl, ?_, fun _ _ _ => rfl⟩
  · simp only [assign3, hz]; exact w
  · simp only [assign3, hz]; exact k.trans ht
  · simp only [assign3, hz]; exact o

theorem setRotation_refines (v : V3 K) : Refines (setRotation v) (fun s => .ok
    { s with params := s.params.take 3 ++ (List.zipWith PSet.updValue (s.params.drop 3) [v.x, v.y, v.z] ++ s.params.drop 6) }) := by
  intro x hx
  refine ⟨fun t ht => ?_, fun e he => (by cases he)⟩
  injection ht with ht
  let x0 : St K := ({ x.1 with refs := x.1.refs.drop 3 }, x.2)
  have hx0 : WellFormed x0 := ⟨(List.drop_sublist _ _).nodup hx.nodup,
    fun r hr => hx.inMem r (List.mem_of_mem_drop hr), hx.cov⟩
  obtain ⟨w, o, k⟩ := write_zip_view hx0 (fun c (p : Param K) => PSet.updValue p c) [v.x, v.y, v.z]
  have hz : List.zipWith (fun r c => (r, fun p => PSet.updValue p c)) ((x.1.refs.drop 3).take 3) [v.x, v.y, v.z]
      = List.zipWith (fun r c => (r, fun p => PSet.updValue p c)) (x.1.refs.drop 3) [v.x, v.y, v.z] :=
    zipWith_take_left _ (x.1.refs.drop 3) [v.x, v.y, v.z]
  have hd : (x.1.refs.take 3).Disjoint (x.1.refs.drop 3) := by
    have := hx.nodup
    rw [← List.take_append_drop 3 x.1.refs] at this
    exact List.disjoint_of_nodup_append this
  refine ⟨_, rfl, ?_, ?_, rfl, ?_, fun _ _ _ => rfl⟩
  · simp only [assign3, hz]
    exact ⟨hx.nodup, fun r hr => by rw [o.1]; exact hx.inMem r hr, hx.cov⟩
  · rw [← ht]
    simp only [assign3, hz]
    have k' := congrArg PSet.params k
    simp only [view_params, x0] at k'
    rw [filterMap_drop hx.inMem 3] at k'
    have h1 := filterMap_same o.2 hd
    rw [filterMap_take hx.inMem 3] at h1
    unfold view
    simp only
    congr 1
    rw [← List.take_append_drop 3 x.1.refs, List.filterMap_append, List.take_append_drop, k', List.drop_drop]
    simp only [x0] at h1
    rw [h1]
    simp
  · simp only [assign3, hz]
    exact ⟨o.1, fun r hr => o.2 r (fun hm => hr (List.mem_of_mem_drop hm))⟩

theorem get_assigned (ps : List (Param K)) (vs : List K) {i : Nat} {v : K} (hv : vs[i]? = some v) (ts : List (Param K))
    {p : Param K} (hp : ps[i]? = some p) :
    ((List.zipWith PSet.updValue ps vs ++ ts).map Param.value)[i]? = some (if p.enabled then v else p.default) := by
  have h1 : i < (List.zipWith PSet.updValue ps vs).length := by
    simp [(List.getElem?_eq_some_iff.1 hv).1, (List.getElem?_eq_some_iff.1 hp).1]
  rw [List.getElem?_map, List.getElem?_append_left h1, List.getElem?_zipWith, hp, hv]
  rfl

/-- **C162.**  Assigning the translation of `params.helmert` assigns the translation of the alignment: the three
parameters have these values (a disabled one still reads as its default), no other parameter changes. -/
theorem C162_translation {a : RSet} {m : Mem K} (h : IsAlignment a m) (v : V3 K) :
    translation (helmert a m) = (view (a, m)).values.take 3 ∧
    ∃ y, setTranslation v (helmert a m) = (.ok (), y) ∧
      Assigned (view (a, m)) (view (a, y.2)) 0 v.x ∧ Assigned (view (a, m)) (view (a, y.2)) 1 v.y ∧
      Assigned (view (a, m)) (view (a, y.2)) 2 v.z ∧ (∀ i, 3 ≤ i → Untouched (view (a, m)) (view (a, y.2)) i) := by
  obtain ⟨h1, h2⟩ := C162_helmert (setTranslation_refines v) h
  obtain ⟨y, k1, k2, k3, k4⟩ := h2 _ rfl
  refine ⟨?_, y, k1, ?_⟩
  · unfold translation PSet.values
    rw [h1, List.map_take, List.take_take]
    rfl
  simp only [h1] at k4
  have hlen : (view (a, m)).params.length = 11 := (view_length h.wf).trans h.eleven
  have ha : ∀ (i : Nat) (c : K), i < 3 → ([v.x, v.y, v.z] : List K)[i]? = some c → Assigned (view (a, m)) (view (a, y.2)) i c := by
    intro i c hi hc p hp
    unfold PSet.values
    rw [k4, List.append_assoc]
    refine get_assigned _ _ hc _ ?_
    rw [List.getElem?_take_of_lt (by omega)]
    exact hp
  refine ⟨ha 0 _ (by omega) rfl, ha 1 _ (by omega) rfl, ha 2 _ (by omega) rfl, fun i hi => ?_⟩
  unfold Untouched
  rw [k4]
  simp only
  rw [List.append_assoc, List.getElem?_append_right (by simp; omega)]
  have : (List.drop 3 (List.take 7 (view (a, m)).params) ++ List.drop 7 (view (a, m)).params) = (view (a, m)).params.drop 3 := by
    conv_rhs => rw [← List.take_append_drop 7 (view (a, m)).params, List.drop_append_of_le_length (by simp [hlen])]
  rw [this, List.getElem?_drop]
  congr 1
  simp [hlen]
  omega

/-- **C162.**  Assigning the rotation of `params.helmert` assigns the rotation of the alignment. -/
theorem C162_rotation {a : RSet} {m : Mem K} (h : IsAlignment a m) (v : V3 K) :
    rotation (helmert a m) = ((view (a, m)).values.drop 3).take 3 ∧
    ∃ y, setRotation v (helmert a m) = (.ok (), y) ∧
      Assigned (view (a, m)) (view (a, y.2)) 3 v.x ∧ Assigned (view (a, m)) (view (a, y.2)) 4 v.y ∧
      Assigned (view (a, m)) (view (a, y.2)) 5 v.z ∧
      (∀ i, i < 3 ∨ 6 ≤ i → Untouched (view (a, m)) (view (a, y.2)) i) := by
  obtain ⟨h1, h2⟩ := C162_helmert (setRotation_refines v) h
  obtain ⟨y, k1, k2, k3, k4⟩ := h2 _ rfl
  have hlen : (view (a, m)).params.length = 11 := (view_length h.wf).trans h.eleven
  refine ⟨?_, y, k1, ?_⟩
  · unfold rotation PSet.values
    rw [h1, List.map_take, List.drop_take, List.take_take]
    rfl
  simp only [h1] at k4
  obtain ⟨p0, p1, p2, p3, p4, p5, p6, p7, p8, p9, p10, hps⟩ : ∃ p0 p1 p2 p3 p4 p5 p6 p7 p8 p9 p10,
      (view (a, m)).params = [p0, p1, p2, p3, p4, p5, p6, p7, p8, p9, p10] := by
    revert hlen
    generalize (view (a, m)).params = l
    intro hlen
    match l, hlen with
    | [p0, p1, p2, p3, p4, p5, p6, p7, p8, p9, p10], _ => exact ⟨_, _, _, _, _, _, _, _, _, _, _, rfl⟩
  have k5 := congrArg PSet.params k4
  rw [hps] at k5
  simp only [List.take_succ_cons, List.take_zero, List.drop_succ_cons, List.drop_zero, List.zipWith_cons_cons,
    List.zipWith_nil_right, List.cons_append, List.nil_append] at k5
  refine ⟨?_, ?_, ?_, fun i hi => ?_⟩
  · intro p hp
    rw [hps] at hp
    unfold PSet.values
    rw [k5]
    cases hp
    rfl
  · intro p hp
    rw [hps] at hp
    unfold PSet.values
    rw [k5]
    cases hp
    rfl
  · intro p hp
    rw [hps] at hp
    unfold PSet.values
    rw [k5]
    cases hp
    rfl
  · unfold Untouched
    rw [k5, hps]
    rcases hi with hi | hi
    · match i, hi with
      | 0, _ => rfl
      | 1, _ => rfl
      | 2, _ => rfl
    · obtain ⟨j, rfl⟩ := Nat.exists_eq_add_of_le' hi
      rfl

/-- an alignment of eleven parameters, the translations and the leverarm enabled, in a memory with another parameter and
an array of the caller -/
def exMem : Mem ℚ :=
  { params := [⟨7, 7, 7, true, "other", .none⟩] ++ List.zipWith (fun b d => ⟨d, 3, d, b, "", .none⟩)
      [true, true, true, false, false, false, false, false, true, true, true] alignDefaults
    mats := [zeroRows 11, [[1, 0, 0], [0, 1, 0], [0, 0, 1]], [[1, 2, 3, 4, 5, 6], [2, 1, 0, 0, 0, 0], [3, 0, 1, 0, 0, 0],
      [4, 0, 0, 1, 0, 0], [5, 0, 0, 0, 1, 0], [6, 0, 0, 0, 0, 1]], [[1, 2]]] }
/-- the alignment -/
def exRefs : RSet := { cov := 0, refs := [1, 2, 3, 4, 5, 6, 7, 8, 9, 10, 11] }

theorem exRefs_ok : IsAlignment exRefs exMem :=
  ⟨⟨by decide, by decide, by decide⟩, rfl⟩

example : (view (exRefs, (setTranslation ⟨1, 2, 3⟩ (helmert exRefs exMem)).2.2)).values = [1, 2, 3, 0, 0, 0, 1, 0, 0, 0, 0] := by
  decide +kernel
example : (view (exRefs, (setRotation ⟨1, 2, 3⟩ (helmert exRefs exMem)).2.2)).values = [0, 0, 0, 0, 0, 0, 1, 0, 0, 0, 0] := by
  decide +kernel
example : (view (exRefs, (setValues [4, 5, 6] (leverarm exRefs exMem)).2.2)).values = [0, 0, 0, 0, 0, 0, 1, 0, 4, 5, 6] := by
  decide +kernel

/-! ## Covariances of a view -/

/-- **C163.**  `params.helmert` always has a covariance matrix of zeros, whatever the covariance matrix of the alignment
is, but it has the variances of the alignment. -/
theorem C163_view_without_covariances {a : RSet} {m : Mem K} (h : IsAlignment a m) :
    (view (helmert a m)).getCovariance false = zeroRows 7 ∧
    (view (helmert a m)).variances = (view (a, m)).variances.take 7 := by
  obtain ⟨-, -, h1, h2⟩ := newSet_ok h.wf (List.take_sublist 7 a.refs)
  refine ⟨?_, ?_⟩
  · have : (view (helmert a m)).cov = zeroRows (a.refs.take 7).length := h1
    rw [List.length_take, h.eleven] at this
    exact this
  · unfold PSet.variances
    rw [← List.map_take]
    have : (view (helmert a m)).params = (a.refs.take 7).filterMap (fun r => m.params[r]?) := h2
    rw [this, filterMap_take h.wf.inMem 7]
    rfl

/-- **C163, violated.**  As soon as one of the seven parameters has a variance, the diagonal of the covariance matrix of
`params.helmert` differs from its variances. -/
theorem C163_diagonal_is_not_the_variances {a : RSet} {m : Mem K} (h : IsAlignment a m) {i : Nat} {v : K} (hi : i < 7)
    (hv : (view (a, m)).variances[i]? = some v) (h0 : v ≠ 0) :
    PSet.diag ((view (helmert a m)).getCovariance false) ≠ (view (helmert a m)).variances := by
  obtain ⟨h1, h2⟩ := C163_view_without_covariances h
  intro hc
  rw [h1, h2] at hc
  have := congrArg (fun l => l[i]?) hc
  simp only [List.getElem?_take_of_lt hi, hv] at this
  rw [PSet.diag_getElem (by simpa [zeroRows] using hi)] at this
  injection this with this
  apply h0
  rw [← this]
  have hz : ∀ n : Nat, i < n → PSet.entry (zeroRows (K := K) n) i i = 0 := by
    intro n hn
    simp [PSet.entry, zeroRows, List.getD_eq_getElem?_getD, hn]
  exact hz 7 hi

/-- **C163, violated.**  Assigning variances through `params.helmert` changes the variances of the alignment but not its
covariance matrix, so the two disagree at every enabled parameter that is given another variance than before. -/
theorem C163_matrix_stale {a : RSet} {m : Mem K} (h : IsAlignment a m) {vals : List K} (hl : vals.length = 7) :
    ∃ y, setVariances vals (helmert a m) = (.ok (), y) ∧ IsAlignment a y.2 ∧
      (view (a, y.2)).getCovariance false = (view (a, m)).getCovariance false ∧
      ∀ i v p, vals[i]? = some v → (view (a, m)).params[i]? = some p → p.enabled = true →
        (view (a, y.2)).variances[i]? = some v ∧
        (PSet.entry ((view (a, m)).getCovariance false) i i ≠ v →
          some (PSet.entry ((view (a, y.2)).getCovariance false) i i) ≠ (view (a, y.2)).variances[i]?) := by
  obtain ⟨h1, h2⟩ := C162_helmert (setVariances_refines vals) h
  have hlen : (view (a, m)).params.length = 11 := (view_length h.wf).trans h.eleven
  have hlen' : (view (helmert a m)).params.length = 7 := by rw [h1]; simp [hlen]
  have hset := PSet.set_all_ok (view (helmert a m)) PSet.updVariance (vals := vals) (by rw [hl, hlen'])
  obtain ⟨y, k1, k2, k3, k4⟩ := h2 _ (by simp only [PSet.setVariances, hset, bind, Except.bind, pure, Except.pure]; rfl)
  refine ⟨y, k1, k3, ?_, ?_⟩
  · rw [k4]; rfl
  · intro i v p hv hp he
    have hi : i < 7 := hl ▸ (List.getElem?_eq_some_iff.1 hv).1
    have hvar : (view (a, y.2)).variances[i]? = some v := by
      rw [k4]
      unfold PSet.variances
      simp only [List.getElem?_map]
      rw [List.getElem?_append_left (by simp [hlen', hl, hi]), List.getElem?_zipWith, h1, List.getElem?_take_of_lt hi, hp, hv]
      simp [Param.variance, PSet.updVariance, he]
    refine ⟨hvar, fun hne => ?_⟩
    rw [hvar]
    intro hc
    injection hc with hc
    apply hne
    rw [← hc, k4]
    rfl

example : ∃ v, (view (exRefs, exMem)).variances[(0 : Nat)]? = some v ∧ v ≠ 0 := ⟨3, by decide +kernel, by decide +kernel⟩
example : let y := (setVariances [9, 9, 9, 9, 9, 9, 9] (helmert exRefs exMem)).2
    (view (exRefs, y.2)).variances = [9, 9, 9, 0, 0, 0, 0, 0, 3, 3, 3] ∧ (view (exRefs, y.2)).cov = zeroRows 11 := by
  decide +kernel

/-! ## Arrays of the caller -/

theorem setVariances_run {x : St K} {vals : List K} (hl : vals.length = (view x).params.length) :
    setVariances vals x = (.ok (), (x.1, { params := setLoop PSet.updVariance false x.1.refs vals x.2.params
                                           mats := x.2.mats.modify x.1.cov (fun m => PSet.fillDiag m vals) })) := by
  have hset := PSet.set_all_ok (view x) PSet.updVariance hl
  rcases set_cases PSet.updVariance vals false x with ⟨e, h1, -⟩ | ⟨-, h2⟩
  · rw [hset] at h1; cases h1
  · change SE.bind _ _ x = _
    simp only [SE.bind, h2]
    rfl

theorem diag_fillDiag {n : Nat} {M : List (List K)} (hM : IsSquare n M) {vals : List K} (hl : vals.length = n) :
    PSet.diag (PSet.fillDiag M vals) = vals := by
  have hlen : (PSet.fillDiag M vals).length = n := by simp [PSet.fillDiag, hM.rows]
  apply List.ext_getElem
  · rw [PSet.diag_length, hlen, hl]
  · intro i h1 h2
    have hi : i < n := hl ▸ h2
    have hi' : i < M.length := hM.rows ▸ hi
    have hrow : i < (M[i]).length := by rw [hM.cols _ (List.getElem_mem hi')]; exact hi
    have := PSet.diag_getElem (m := PSet.fillDiag M vals) (i := i) (by rw [hlen]; exact hi)
    rw [List.getElem?_eq_getElem h1] at this
    injection this with this
    rw [this]
    unfold PSet.entry PSet.fillDiag
    simp [List.getD_eq_getElem?_getD, List.getElem?_eq_getElem hi', h2, hrow]

theorem square_head {n : Nat} {M : List (List K)} (h : IsSquare n M) :
    ¬ M.length ≠ (M.headD (List.replicate M.length 0)).length := by
  intro hc
  rcases M with _ | ⟨row, M⟩
  · simp at hc
  · exact hc (by rw [h.rows]; exact (h.cols row List.mem_cons_self).symm)

/-- assigning a matrix of all parameters -/
theorem setCovariance_full {x : St K} (hx : WellFormed x) {c : Nat} {M : List (List K)} (hc : x.2.mats[c]? = some M)
    (hM : IsSquare x.1.refs.length M) :
    ∃ y, setCovariance c x = (.ok (), y) ∧ WellFormed y ∧ y.1 = { x.1 with cov := c } ∧ y.2.mats = x.2.mats := by
  have hcl : c < x.2.mats.length := (List.getElem?_eq_some_iff.1 hc).1
  have w : WellFormed (({ x.1 with cov := c }, x.2) : St K) := ⟨hx.nodup, hx.inMem, hcl⟩
  have v : view (({ x.1 with cov := c }, x.2) : St K) = { view x with cov := M } := by
    unfold view
    simp [List.getD_eq_getElem?_getD, hc]
  have hlen := view_length hx
  have hlen' : M.length = (view x).params.length := by rw [hM.rows, hlen]
  have hmod : x.2.mats.modify c (fun m => PSet.fillDiag m (PSet.diag M)) = x.2.mats := by
    apply List.ext_getElem?
    intro k
    rw [List.getElem?_modify]
    by_cases hk : c = k
    · subst hk
      simp [hc, PSet.fillDiag_diag hM]
    · simp [hk]
  have hrun := setVariances_run (x := ({ x.1 with cov := c }, x.2)) (vals := PSet.diag M) (by rw [PSet.diag_length, v]; exact hlen')
  simp only [hmod] at hrun
  refine ⟨({ x.1 with cov := c }, { params := setLoop PSet.updVariance false x.1.refs (PSet.diag M) x.2.params
                                    mats := x.2.mats }), ?_, ?_, rfl, rfl⟩
  · unfold setCovariance
    rw [SE.run_bind_ok (SE.run_modify _ x)]
    unfold validate
    rw [SE.run_bind_ok (SE.run_get _)]
    simp only [v]
    rw [if_neg (square_head hM), if_pos (by rw [PSet.len_eq]; exact hlen')]
    exact hrun
  · refine ⟨hx.nodup, fun r hr => ?_, hcl⟩
    simp only [(setLoop_other _ _ _ _ _).1]
    exact hx.inMem r hr

/-- **C164, violated.**  A covariance matrix of all parameters is not copied: assigning variances afterwards writes them
into the array the caller gave. -/
theorem C164_array_of_the_caller_changes {x : St K} (hx : WellFormed x) {c : Nat} {M : List (List K)}
    (hc : x.2.mats[c]? = some M) (hM : IsSquare x.1.refs.length M) {vals : List K} (hl : vals.length = x.1.refs.length)
    (hv : vals ≠ PSet.diag M) :
    ∃ y z M', setCovariance c x = (.ok (), y) ∧ setVariances vals y = (.ok (), z) ∧ z.2.mats[c]? = some M' ∧
      PSet.diag M' = vals ∧ M' ≠ M := by
  obtain ⟨y, h1, h2, h3, h4⟩ := setCovariance_full hx hc hM
  have hrun := setVariances_run (x := y) (vals := vals) (by rw [view_length h2, h3]; exact hl)
  refine ⟨y, _, PSet.fillDiag M vals, h1, hrun, ?_, diag_fillDiag hM hl, ?_⟩
  · simp [h3, h4, hc]
  · intro h
    apply hv
    rw [← h, diag_fillDiag hM hl]

/-- **C164, the other case.**  A covariance matrix of the enabled parameters, not all of them, is copied: the array of the
caller is not changed by the assignment and not by any method used afterwards. -/
theorem C164_array_of_the_caller_kept_partial {x : St K} (hx : WellFormed x) {c : Nat} {M : List (List K)}
    (hc : x.2.mats[c]? = some M) (hM : IsSquare (view x).numEnabled M) (hall : (view x).numEnabled ≠ x.1.refs.length) :
    ∃ y, setCovariance c x = (.ok (), y) ∧ WellFormed y ∧ y.2.mats[c]? = some M ∧ y.1.cov ≠ c ∧
      ∀ (op : SE (St K) Unit) (f : PSet K → Except Err (PSet K)), Refines op f → ∀ t, f (view y) = .ok t →
        ∃ z, op y = (.ok (), z) ∧ view z = t ∧ z.2.mats[c]? = some M := by
  have hcl : c < x.2.mats.length := (List.getElem?_eq_some_iff.1 hc).1
  have w : WellFormed (({ x.1 with cov := c }, x.2) : St K) := ⟨hx.nodup, hx.inMem, hcl⟩
  have v : view (({ x.1 with cov := c }, x.2) : St K) = { view x with cov := M } := by
    unfold view
    simp [List.getD_eq_getElem?_getD, hc]
  have hlen := view_length hx
  obtain ⟨w', v'⟩ := fresh_array w (PSet.scatter (view x).len (view x).enabledIndices M)
  rw [v] at v'
  have hne : ({ view x with cov := M } : PSet K).enabledIndices = (view x).enabledIndices := rfl
  have hr := setVariancesEnabled_refines (PSet.diag (PSet.getCovariance
      ({ view x with cov := PSet.scatter (view x).len (view x).enabledIndices M } : PSet K) true)) _ w'
  rw [v'] at hr
  have hset := PSet.set_enabled_ok
    ({ view x with cov := PSet.scatter (view x).len (view x).enabledIndices M } : PSet K) PSet.updVariance
    (vals := PSet.diag (PSet.getCovariance
      ({ view x with cov := PSet.scatter (view x).len (view x).enabledIndices M } : PSet K) true)) (by
        rw [PSet.diag_length]
        simp only [PSet.getCovariance, if_true, List.length_map]
        exact PSet.enabledIndices_length _)
  obtain ⟨y, k1, k2, k3, k4, k5, k6⟩ := hr.1 _ (by
    simp only [PSet.setVariancesEnabled, hset, bind, Except.bind, pure, Except.pure]; rfl)
  have hrun : setCovariance c x = (.ok (), y) := by
    unfold setCovariance
    rw [SE.run_bind_ok (SE.run_modify _ x)]
    unfold validate
    rw [SE.run_bind_ok (SE.run_get _)]
    simp only [v]
    rw [if_neg (square_head hM), if_neg (by rw [PSet.len_eq, hM.rows]; simp only; rw [hlen]; exact hall),
      if_neg (by rw [hM.rows]; exact fun h => h rfl)]
    rw [SE.run_bind_ok (SE.run_modify _ _), SE.run_bind_ok (SE.run_get _)]
    simp only [v]
    refine Eq.trans ?_ k1
    rw [show (view (({ x.1 with cov := x.2.mats.length }, { x.2 with mats := x.2.mats ++
      [PSet.scatter ({ view x with cov := M } : PSet K).len ({ view x with cov := M } : PSet K).enabledIndices M] }) : St K))
      = _ from v']
    rfl
  have hcy : y.2.mats[c]? = some M := by
    rw [k6 c (by simp; omega) (by simp; omega)]
    simp [List.getElem?_append_left hcl, hc]
  have hcov : y.1.cov ≠ c := by
    have h1 : y.1 = { x.1 with cov := x.2.mats.length } := by
      rcases set_cases PSet.updVariance (PSet.diag (PSet.getCovariance
        ({ view x with cov := PSet.scatter (view x).len (view x).enabledIndices M } : PSet K) true)) true
        (({ x.1 with cov := x.2.mats.length }, { x.2 with mats := x.2.mats ++
          [PSet.scatter (view x).len (view x).enabledIndices M] }) : St K) with ⟨e, h1, -⟩ | ⟨-, h2⟩
      · have v'' : view (({ x.1 with cov := x.2.mats.length }, { x.2 with mats := x.2.mats ++
          [PSet.scatter (view x).len (view x).enabledIndices M] }) : St K) = _ := v'
        rw [v'', hset] at h1
        cases h1
      · have k1' := k1
        change SE.bind _ _ _ = _ at k1'
        simp only [SE.bind, h2] at k1'
        have := congrArg (fun z => z.2.1) k1'
        exact this.symm
    rw [h1]
    simp
    omega
  refine ⟨y, hrun, k2, hcy, hcov, fun op f hop t ht => ?_⟩
  obtain ⟨z, z1, -, z3, -, -, z6⟩ := (hop y k2).1 t ht
  refine ⟨z, z1, z3, ?_⟩
  rw [z6 c (List.getElem?_eq_some_iff.1 hcy).1 hcov.symm, hcy]

/-- **C165, violated.**  A covariance matrix that is rejected is nevertheless the covariance matrix of the set
afterwards. -/
theorem C165_rejected_matrix_is_kept {x : St K} {c : Nat} {M : List (List K)} (hc : x.2.mats[c]? = some M)
    (h : (M.length ≠ (view x).params.length ∧ M.length ≠ (view x).numEnabled) ∨
      (∃ row rest, M = row :: rest ∧ row.length ≠ M.length)) :
    ∃ y, setCovariance c x = (.error .alignmentParameters, y) ∧ view y = { view x with cov := M } := by
  have v : view (({ x.1 with cov := c }, x.2) : St K) = { view x with cov := M } := by
    unfold view
    simp [List.getD_eq_getElem?_getD, hc]
  refine ⟨({ x.1 with cov := c }, x.2), ?_, v⟩
  unfold setCovariance
  rw [SE.run_bind_ok (SE.run_modify _ x)]
  unfold validate
  rw [SE.run_bind_ok (SE.run_get _)]
  simp only [v]
  split_ifs with h1 h2 h3
  · rfl
  · exfalso
    rcases h with ⟨h3, -⟩ | ⟨row, rest, rfl, hr⟩
    · exact h3 (by rw [h2, PSet.len_eq])
    · exact hr (by simp at h1; simp [h1])
  · rfl
  · exfalso
    rcases h with ⟨-, h4⟩ | ⟨row, rest, rfl, hr⟩
    · exact h3 h4
    · exact hr (by simp at h1; simp [h1])

/-- **C165, what does hold.**  Values and variances that are rejected leave everything as it was. -/
theorem C165_rejected_values_change_nothing_partial (x : St K) (vals : List K) :
    (∀ e, (setValues vals x).1 = .error e → (setValues vals x).2 = x) ∧
    (∀ e, (setValuesEnabled vals x).1 = .error e → (setValuesEnabled vals x).2 = x) ∧
    (∀ e, (setVariances vals x).1 = .error e → (setVariances vals x).2 = x) ∧
    (∀ e, (setVariancesEnabled vals x).1 = .error e → (setVariancesEnabled vals x).2 = x) := by
  refine ⟨?_, ?_, ?_, ?_⟩
  · intro e he
    unfold setValues at he ⊢
    rcases set_cases PSet.updValue vals false x with ⟨e', -, h⟩ | ⟨-, h⟩ <;> rw [h] at he ⊢
    cases he
  · intro e he
    unfold setValuesEnabled at he ⊢
    rcases set_cases PSet.updValue vals true x with ⟨e', -, h⟩ | ⟨-, h⟩ <;> rw [h] at he ⊢
    cases he
  · intro e he
    change (SE.bind _ _ x).1 = _ at he
    change (SE.bind _ _ x).2 = _
    rcases set_cases PSet.updVariance vals false x with ⟨e', -, h⟩ | ⟨-, h⟩ <;> simp only [SE.bind, h] at he ⊢
    cases he
  · intro e he
    change (SE.bind _ _ x).1 = _ at he
    change (SE.bind _ _ x).2 = _
    rcases set_cases PSet.updVariance vals true x with ⟨e', -, h⟩ | ⟨-, h⟩ <;> simp only [SE.bind, h] at he ⊢
    cases he

/-- three parameters, all enabled, and three arrays of the caller -/
def exThree : St ℚ :=
  ({ cov := 0, refs := [0, 1, 2] },
   { params := [⟨1, 0, 0, true, "a", .none⟩, ⟨2, 0, 0, true, "b", .none⟩, ⟨3, 0, 0, true, "c", .none⟩]
     mats := [zeroRows 3, [[1, 0, 0], [0, 1, 0], [0, 0, 1]], [[1, 2]]] })

example : WellFormed exThree ∧ exThree.2.mats[(1 : Nat)]? = some [[1, 0, 0], [0, 1, 0], [0, 0, 1]] ∧
    IsSquare exThree.1.refs.length [[(1 : ℚ), 0, 0], [0, 1, 0], [0, 0, 1]] :=
  ⟨⟨by decide, by decide, by decide⟩, rfl, ⟨rfl, by decide⟩⟩
example : (setVariances [4, 5, 6] (setCovariance 1 exThree).2).2.2.mats[(1 : Nat)]?
    = some [[4, 0, 0], [0, 5, 0], [0, 0, 6]] := by decide +kernel
example : ((setCovariance 2 exThree).1.toOption, (view (setCovariance 2 exThree).2).cov) = (none, [[1, 2]]) := by decide +kernel
example : WellFormed (exRefs, exMem) ∧ (view (exRefs, exMem)).numEnabled = 6 := ⟨exRefs_ok.wf, by decide +kernel⟩
example : let y := (setCovariance 2 (exRefs, exMem)).2
    (view y).variances = [1, 1, 1, 0, 0, 0, 0, 0, 1, 1, 1] ∧
    (setVariances [2, 2, 2, 2, 2, 2, 2, 2, 2, 2, 2] y).2.2.mats[(2 : Nat)]? = exMem.mats[(2 : Nat)]? := by decide +kernel

end TC.Shared
