import Verif.Proofs.SettingsDict
import Mathlib.Algebra.Order.Ring.Rat
/-!
# C87, C88, C120: settings as dictionaries and files
-/
namespace TC
namespace Settings
set_option linter.unusedSectionVars false
variable {K : Type} [Field K]

/-! ### C87: settings survive their dictionary and their file -/

/-- **C87.** For every settings object, nested settings and enumeration members included, `to_dict` returns a dictionary
and `from_dict` of it returns the same settings. -/
theorem C87_settings_dictionary (deg : K) {c : Cls} {v : PyVal K} (h : IsSettings c v) :
    ∃ d, toDict v = .ok (.dict d) ∧ fromDict deg c d = .ok v := by
  obtain ⟨d, h1, h2⟩ := roundtrip_at deg h
  exact ⟨d, h1, h2 _ (le_refl _)⟩

/-- **C87**, files: settings with values that JSON can hold are read back from their file. -/
theorem C87_settings_file {T : Type} (J : JsonLib K T) (hJ : IsJsonLib J) (deg : K) {c : Cls} {v : PyVal K} (h : IsSettings c v)
    (hj : JsonSettings c v) : ∃ text, toFile J v = .ok text ∧ fromFile J deg c text = .ok v := by
  obtain ⟨d, h1, h2⟩ := C87_settings_dictionary deg h
  obtain ⟨t, h3, h4⟩ := hJ _ (toDict_isJson hj h h1)
  exact ⟨t, by simp [toFile, h1, h3, bind, Except.bind], by simp [fromFile, h4, h2, bind, Except.bind]⟩

/-! ### C88: updates -/

/-- **C88**, positive part: an update with a dictionary that `from_dict` accepts is applied completely: the settings are
then those that `from_dict` makes of the dictionary.
Missing for the full property: rejected dictionaries, see `C88_rejected_update_half_applied`. -/
theorem C88_accepted_update_complete_partial (deg : K) {c : Cls} {s v : PyVal K} (hs : IsSettings c s)
    {d : List (String × PyVal K)} (h : fromDict deg c d = .ok v) : update s d = (.ok (), v) := by
  cases hs with
  | mk _ attrs n1 n2 n3 => exact updateAt_ok deg (.mk c attrs n1 n2 n3) _ d v h

/-- **C88 is false of the code**: if the dictionary has a value for the first attribute of the class but lacks another
one, the update raises and the first attribute has been changed nevertheless. -/
theorem C88_rejected_update_half_applied {c : Cls} {attrs : List (String × PyVal K)} {d : List (String × PyVal K)}
    {first missing : String} {data v : PyVal K} {rest : List (String × Option Cls)}
    (hfirst : annotations c = (first, none) :: rest) (hd : lookup d first = some data) (hv : decoder c first data = .ok v)
    (hm : missing ∈ (annotations c).map Prod.fst) (hmiss : lookup d missing = none) :
    ∃ e attrs', update (.obj c attrs) d = (.error e, .obj c attrs') ∧ lookup attrs' first = some v := by
  obtain ⟨n, hn⟩ : ∃ n, depth c = n + 1 := ⟨depth c - 1, by have := depth_pos c; omega⟩
  have hne : missing ≠ first := by rintro rfl; rw [hd] at hmiss; simp at hmiss
  have hm' : missing ∈ rest.map Prod.fst := by
    rw [hfirst] at hm
    simpa [hne] using hm
  have hnd : first ∉ rest.map Prod.fst := by
    have := annotations_nodup c
    rw [hfirst] at this
    exact (List.nodup_cons.1 this).1
  have step : updateLoop (updateAt n) c d (annotations c) attrs = updateLoop (updateAt n) c d rest (store attrs first v) := by
    rw [hfirst]
    simp only [updateLoop, hd]
    cases data <;> simp only [hv]
  obtain ⟨e, he⟩ := updateLoop_missing (nestedU := updateAt n) (c := c) hmiss rest (store attrs first v) hm'
  refine ⟨e, (updateLoop (updateAt n) c d rest (store attrs first v)).2, ?_, ?_⟩
  · simp only [update, hn, updateAt, step]
    rw [← he]
  · rw [updateLoop_keeps _ _ hnd, lookup_store_self]

/-! ### C120: only complete settings are accepted -/

theorem fromDictAt_complete (deg : K) : ∀ (n : Nat) (c : Cls) (d : List (String × PyVal K)) (v : PyVal K),
    fromDictAt deg n c d = .ok v → IsComplete c d := by
  intro n
  induction n with
  | zero => intro c d v h; simp [fromDictAt] at h
  | succ n ih =>
    intro c d v h
    obtain ⟨attrs, rfl, hf⟩ := (fromDictAt_iff deg n c d v).1 h
    refine .mk c d (fun a ha => ?_) (fun name c' d' ha hd' => ?_)
    · obtain ⟨x, -, -, e, he, -⟩ := List.forall₂_iff_get.1 hf |>.2 (annotations c |>.idxOf a) (List.idxOf_lt_length_iff.2 ha)
        (by rw [← hf.length_eq]; exact List.idxOf_lt_length_iff.2 ha) |> fun h => (⟨attrs, trivial, h⟩ : ∃ _ : List _, _ ∧ _)
      simp only [List.get_eq_getElem, List.getElem_idxOf] at he
      simp [he]
    · have hi := List.idxOf_lt_length_iff.2 ha
      obtain ⟨-, e, he, hx⟩ := (List.forall₂_iff_get.1 hf).2 ((annotations c).idxOf (name, some c')) hi (by rw [← hf.length_eq]; exact hi)
      simp only [List.get_eq_getElem, List.getElem_idxOf] at he hx
      rw [hd'] at he
      obtain rfl := Option.some.inj he
      exact ih c' d' _ hx

/-- **C120**, positive part: `from_dict` accepts a dictionary only if every attribute of the class, and of the nested
settings given as dictionaries, is there; a dictionary with a missing attribute raises.
Missing for the full property: nested settings that are not given as a dictionary, see `C120_no_settings_accepted`. -/
theorem C120_accepts_only_complete_partial (deg : K) (c : Cls) (d : List (String × PyVal K)) (h : ¬ IsComplete c d) :
    ∃ e, fromDict deg c d = .error e := by
  cases hf : fromDict deg c d with
  | error e => exact ⟨e, rfl⟩
  | ok v => exact absurd (fromDictAt_complete deg _ c d v hf) h

theorem decoder_plain {c : Cls} {name : String} {e w : PyVal K} (h : decoder c name e = .ok w)
    (he : ∀ c' a, e ≠ .obj c' a) : FitsEnum c name w ∧ ∀ c' a, w ≠ .obj c' a := by
  have m1 : ∀ z : PyVal K, methodOf e = .ok z → ∃ m, z = .method m := by
    intro z hz
    unfold methodOf at hz
    split at hz <;> simp at hz <;> exact ⟨_, hz.symm⟩
  have m2 : ∀ z : PyVal K, unitOf e = .ok z → ∃ m, z = .unit m := by
    intro z hz
    unfold unitOf at hz
    split at hz <;> simp at hz <;> exact ⟨_, hz.symm⟩
  by_cases h1 : c = .matching ∧ name = "method"
  · obtain ⟨rfl, rfl⟩ := h1
    obtain ⟨m, rfl⟩ := m1 w (by simpa [decoder] using h)
    exact ⟨⟨fun _ _ => ⟨m, rfl⟩, fun h => by simp at h⟩, fun _ _ h => by simp at h⟩
  · by_cases h2 : c = .comparison ∧ name = "pair_distance_unit"
    · obtain ⟨rfl, rfl⟩ := h2
      obtain ⟨m, rfl⟩ := m2 w (by simpa [decoder] using h)
      exact ⟨⟨fun h => by simp at h, fun _ _ => ⟨m, rfl⟩⟩, fun _ _ h => by simp at h⟩
    · have : e = w := by cases c <;> simp_all [decoder]
      subst this
      exact ⟨⟨fun a b => absurd ⟨a, b⟩ h1, fun a b => absurd ⟨a, b⟩ h2⟩, he⟩

theorem fromDictAt_isSettings (deg : K) {c : Cls} {d : List (String × PyVal K)} (ht : IsTree c d) :
    ∀ (n : Nat) (v : PyVal K), fromDictAt deg n c d = .ok v → IsSettings c v := by
  induction ht with
  | mk c d dicts nested plain ih =>
    intro n v h
    cases n with
    | zero => simp [fromDictAt] at h
    | succ n =>
      obtain ⟨attrs, rfl, hf⟩ := (fromDictAt_iff deg n c d v).1 h
      have names : attrs.map Prod.fst = (annotations c).map Prod.fst := (forall₂_names hf (fun x y h => h.1)).symm
      have hnd : (attrs.map Prod.fst).Nodup := by rw [names]; exact annotations_nodup c
      have get : ∀ name ty w, (name, ty) ∈ annotations c → (name, w) ∈ attrs →
          ∃ e, lookup d name = some e ∧ decodeAttr (fromDictAt deg n) c name ty e = .ok w := by
        intro name ty w ha hw
        have hi := List.idxOf_lt_length_iff.2 ha
        have hi2 : (annotations c).idxOf (name, ty) < attrs.length := by rw [← hf.length_eq]; exact hi
        obtain ⟨h1, e, he, hx⟩ := (List.forall₂_iff_get.1 hf).2 _ hi hi2
        simp only [List.get_eq_getElem, List.getElem_idxOf] at he hx h1
        have hm : (name, (attrs[(annotations c).idxOf (name, ty)]).2) ∈ attrs := by
          have : (name, (attrs[(annotations c).idxOf (name, ty)]).2) = attrs[(annotations c).idxOf (name, ty)] := by
            rw [Prod.ext_iff]; exact ⟨h1, rfl⟩
          rw [this]
          exact List.getElem_mem _
        have e1 := lookup_of_mem hnd hm
        rw [lookup_of_mem hnd hw] at e1
        obtain rfl := Option.some.inj e1
        exact ⟨e, he, hx⟩
      refine .mk c attrs names (fun name c' w ha hw => ?_) (fun name w ha hw => ?_)
      · obtain ⟨e, he, hx⟩ := get _ _ _ ha hw
        obtain ⟨d', rfl⟩ := dicts _ _ _ ha he
        exact ih name c' d' ha he n w hx
      · obtain ⟨e, he, hx⟩ := get _ _ _ ha hw
        have hx' : decoder c name e = .ok w := by
          cases e <;> simpa [decodeAttr] using hx
        exact decoder_plain hx' (plain name e ha he)

/-- **C120**, positive part: if the dictionary has dictionaries where the class has nested settings, the result is a
settings object of the class, nested settings included. -/
theorem C120_result_is_settings_partial (deg : K) {c : Cls} {d : List (String × PyVal K)} (ht : IsTree c d) {v : PyVal K}
    (h : fromDict deg c d = .ok v) : IsSettings c v :=
  fromDictAt_isSettings deg ht _ v h

/-- **C120 is false of the code**: any value that is no dictionary is accepted in the place of nested settings and becomes
the attribute; the result is no settings object of the class. -/
theorem C120_no_settings_accepted (deg : K) {c : Cls} {d : List (String × PyVal K)} {v : PyVal K}
    (h : fromDict deg c d = .ok v) {name : String} {c' : Cls} (ha : (name, some c') ∈ annotations c) {x : PyVal K}
    (hx : ∀ d', x ≠ .dict d') (hobj : ∀ a, x ≠ .obj c' a) :
    ∃ attrs, fromDict deg c (store d name x) = .ok (.obj c attrs) ∧ lookup attrs name = some x ∧
      ¬ IsSettings c (.obj c attrs) := by
  obtain ⟨n, hn⟩ : ∃ n, depth c = n + 1 := ⟨depth c - 1, by have := depth_pos c; omega⟩
  unfold fromDict at h ⊢
  rw [hn] at h ⊢
  obtain ⟨attrs, rfl, hf⟩ := (fromDictAt_iff deg n c d v).1 h
  have names : attrs.map Prod.fst = (annotations c).map Prod.fst := (forall₂_names hf (fun x y h => h.1)).symm
  have hdec : decoder c name x = .ok x := by
    have hE : ∀ a ∈ annotations c, a.2.isSome → ¬ (c = .matching ∧ a.1 = "method") ∧
        ¬ (c = .comparison ∧ a.1 = "pair_distance_unit") := by cases c <;> decide
    have := hE _ ha rfl
    cases c <;> simp_all [decoder]
  have hdec' : decodeAttr (fromDictAt deg n) c name (some c') x = .ok x := by
    cases x <;> first | exact hdec | exact absurd rfl (hx _)
  let attrs' := attrs.map (fun y => if y.1 = name then (name, x) else y)
  have hn' : attrs'.map Prod.fst = (annotations c).map Prod.fst := by
    rw [← names, List.map_map]
    apply List.map_congr_left
    intro y _
    by_cases hy : y.1 = name <;> simp [hy]
  have hmem : (name, x) ∈ attrs' := by
    have hk : name ∈ attrs.map Prod.fst := by rw [names]; exact List.mem_map.2 ⟨_, ha, rfl⟩
    obtain ⟨y, hy, hy'⟩ := List.mem_map.1 hk
    exact List.mem_map.2 ⟨y, hy, by simp [hy']⟩
  have hl : lookup attrs' name = some x := lookup_of_mem (by rw [hn']; exact annotations_nodup c) hmem
  refine ⟨attrs', ?_, hl, ?_⟩
  · rw [fromDictAt_iff]
    refine ⟨attrs', rfl, ?_⟩
    rw [List.forall₂_map_right_iff]
    rw [List.forall₂_iff_get] at hf ⊢
    refine ⟨hf.1, fun i h1 h2 => ?_⟩
    obtain ⟨e1, e, he, hd⟩ := hf.2 i h1 h2
    by_cases hy : (attrs.get ⟨i, h2⟩).1 = name
    · have hann : (annotations c).get ⟨i, h1⟩ = (name, some c') := by
        have hj := List.idxOf_lt_length_iff.2 ha
        have hinj := (List.nodup_iff_injective_get.1 (annotations_nodup c))
        have : (⟨i, by simpa using h1⟩ : Fin ((annotations c).map Prod.fst).length) = ⟨(annotations c).idxOf (name, some c'), by simpa using hj⟩ := by
          apply hinj
          simp only [List.get_eq_getElem, List.getElem_map, List.getElem_idxOf]
          simpa using e1.trans hy
        have hij : i = (annotations c).idxOf (name, some c') := by simpa using this
        subst hij
        simp
      rw [if_pos hy, hann]
      exact ⟨rfl, x, lookup_store_self _ _ _, hdec'⟩
    · rw [if_neg hy]
      exact ⟨e1, e, by rw [lookup_store_ne _ (by rw [e1]; exact hy), he], hd⟩
  · intro hs
    cases hs with
    | mk _ _ _ nested _ =>
      have := nested name c' x ha hmem
      cases this with
      | mk _ a => exact hobj _ rfl

/-! ### The settings the program starts with, and examples -/

/-- a check of one plain attribute -/
def fitsB (c : Cls) (x : String × PyVal K) : Bool :=
  match x.2 with
  | .obj _ _ => false
  | .method _ => !(decide (c = .comparison) && x.1 == "pair_distance_unit")
  | .unit _ => !(decide (c = .matching) && x.1 == "method")
  | _ => !(decide (c = .comparison) && x.1 == "pair_distance_unit") && !(decide (c = .matching) && x.1 == "method")

theorem fits_of_fitsB {c : Cls} {name : String} {v : PyVal K} (h : fitsB c (name, v) = true) :
    FitsEnum c name v ∧ ∀ c' a, v ≠ .obj c' a := by
  refine ⟨⟨?_, ?_⟩, ?_⟩
  · rintro rfl rfl
    cases v <;> first | exact ⟨_, rfl⟩ | simp [fitsB] at h
  · rintro rfl rfl
    cases v <;> first | exact ⟨_, rfl⟩ | simp [fitsB] at h
  · rintro c' a rfl
    simp [fitsB] at h

/-- settings of a class, from checks of their attributes -/
theorem isSettings_of_check {c : Cls} {attrs : List (String × PyVal K)}
    (h : List.Forall₂ (fun a x => a.1 = x.1 ∧ ((∃ c', a.2 = some c' ∧ IsSettings c' x.2) ∨ (a.2 = none ∧ fitsB c x = true)))
      (annotations c) attrs) : IsSettings c (.obj c attrs) := by
  have names : attrs.map Prod.fst = (annotations c).map Prod.fst := (forall₂_names h (fun x y h => h.1)).symm
  have hnd : (attrs.map Prod.fst).Nodup := by rw [names]; exact annotations_nodup c
  have get : ∀ name ty w, (name, ty) ∈ annotations c → (name, w) ∈ attrs →
      (∃ c', ty = some c' ∧ IsSettings c' w) ∨ (ty = none ∧ fitsB c (name, w) = true) := by
    intro name ty w ha hw
    have hi := List.idxOf_lt_length_iff.2 ha
    have hi2 : (annotations c).idxOf (name, ty) < attrs.length := by rw [← h.length_eq]; exact hi
    obtain ⟨h1, hx⟩ := (List.forall₂_iff_get.1 h).2 _ hi hi2
    simp only [List.get_eq_getElem, List.getElem_idxOf] at hx h1
    have hm : (name, (attrs[(annotations c).idxOf (name, ty)]).2) = attrs[(annotations c).idxOf (name, ty)] := by
      rw [Prod.ext_iff]; exact ⟨h1, rfl⟩
    have e1 := lookup_of_mem hnd (k := name) (by rw [hm]; exact List.getElem_mem _)
    rw [lookup_of_mem hnd hw] at e1
    obtain rfl := Option.some.inj e1
    rw [hm]
    exact hx
  refine .mk c attrs names (fun name c' v ha hv => ?_) (fun name v ha hv => ?_)
  · rcases get _ _ _ ha hv with ⟨c'', hc, h⟩ | ⟨h, -⟩
    · obtain rfl := Option.some.inj hc
      exact h
    · simp at h
  · rcases get _ _ _ ha hv with ⟨c'', hc, h⟩ | ⟨-, h⟩
    · simp at hc
    · exact fits_of_fitsB h

/-- **C87**, the settings the program starts with: `cls()` is a settings object, for every class, so that C87 applies to
it. -/
theorem C87_default_settings (deg : K) (c : Cls) : IsSettings c (.obj c (defaults deg c)) := by
  have leaf : ∀ c, (∀ a ∈ annotations c, a.2 = none) → IsSettings c (.obj c (leafDefaults deg c)) := by
    intro c hc
    apply isSettings_of_check
    cases c <;> first
      | exact absurd hc (by decide)
      | (simp only [annotations, leafDefaults, List.map_cons, List.map_nil]
         repeat' first | exact .nil | exact ⟨rfl, .inr ⟨rfl, rfl⟩⟩ | apply List.Forall₂.cons)
  have align : IsSettings .alignment (.obj .alignment (alignmentDefaults deg)) := by
    apply isSettings_of_check
    simp only [annotations, alignmentDefaults]
    repeat' first | exact .nil | exact ⟨rfl, .inr ⟨rfl, rfl⟩⟩ | exact ⟨rfl, .inl ⟨_, rfl, leaf _ (by decide)⟩⟩ | apply List.Forall₂.cons
  have export_ : ∀ w h, IsSettings .export (exportOf (K := K) w h) := by
    intro w h
    apply isSettings_of_check
    simp only [annotations, List.map_cons, List.map_nil]
    repeat' first | exact .nil | exact ⟨rfl, .inr ⟨rfl, rfl⟩⟩ | apply List.Forall₂.cons
  by_cases hc : ∀ a ∈ annotations c, a.2 = none
  · have : defaults deg c = leafDefaults deg c := by cases c <;> first | rfl | exact absurd hc (by decide)
    rw [this]
    exact leaf c hc
  · cases c <;> first
      | exact absurd (by decide) hc
      | exact align
      | (apply isSettings_of_check
         simp only [annotations, defaults, reportDefaults, List.map_cons, List.map_nil, List.cons_append, List.nil_append]
         repeat' first
           | exact .nil
           | exact ⟨rfl, .inr ⟨rfl, rfl⟩⟩
           | exact ⟨rfl, .inl ⟨_, rfl, align⟩⟩
           | exact ⟨rfl, .inl ⟨_, rfl, leaf _ (by decide)⟩⟩
           | exact ⟨rfl, .inl ⟨_, rfl, export_ _ _⟩⟩
           | apply List.Forall₂.cons)

/-- matching settings as the program writes them -/
def exMatching : PyVal ℚ :=
  .obj .matching [("method", .method .nearestTemporal), ("max_time_diff", .float (1 / 2)), ("max_distance", .float 0),
    ("k_nearest", .int 3)]

/-- the dictionary of `exMatching`: the method is a number -/
example : toDict exMatching = .ok (.dict [("method", .int 2), ("max_time_diff", .float (1 / 2)), ("max_distance", .float 0),
    ("k_nearest", .int 3)]) := by
  simp [toDict, exMatching, attrsToDict, valueToDict, encoder, enumValue, methodValue, bind, Except.bind, pure, Except.pure]

/-- a library that keeps the data as they are meets the law -/
example : IsJsonLib (K := ℚ) ⟨Except.ok, Except.ok⟩ := fun v _ => ⟨v, rfl, rfl⟩

example : JsonSettings .matching exMatching := by
  refine .mk _ _ (fun name c' v h => by simp [annotations] at h) (fun name v _ h => ?_)
  simp only [List.mem_cons, Prod.mk.injEq, List.not_mem_nil, or_false] at h
  rcases h with ⟨rfl, rfl⟩ | ⟨rfl, rfl⟩ | ⟨rfl, rfl⟩ | ⟨rfl, rfl⟩
  · exact .inl ⟨rfl, rfl⟩
  · exact .inr (.inr (.float _))
  · exact .inr (.inr (.float _))
  · exact .inr (.inr (.int _))

/-- an update of `exMatching` with another method and nothing else: rejected, but the method has changed -/
example : ∃ e attrs', update exMatching [("method", .int 1)] = (.error e, .obj .matching attrs') ∧
    lookup attrs' "method" = some (.method .nearestSpatial) :=
  C88_rejected_update_half_applied (missing := "k_nearest") rfl rfl rfl (by decide) rfl

/-- processing settings with `null` instead of alignment settings are accepted -/
example (deg : ℚ) : ∃ d attrs, fromDict deg .processing d = .ok (.obj .processing attrs) ∧
    lookup attrs "alignment" = some .none ∧ ¬ IsSettings .processing (.obj .processing attrs) := by
  obtain ⟨d, -, hd⟩ := C87_settings_dictionary deg (C87_default_settings deg .processing)
  obtain ⟨attrs, h⟩ := C120_no_settings_accepted deg hd (name := "alignment") (c' := .alignment) (by decide) (x := .none)
    (by simp) (by simp)
  exact ⟨_, attrs, h⟩

/-- a dictionary without `k_nearest` is not complete -/
example : ¬ IsComplete (K := ℚ) .matching [("method", .int 2), ("max_time_diff", .float 0), ("max_distance", .float 0)] := by
  intro h
  cases h with
  | mk _ _ here _ => exact absurd (here ("k_nearest", none) (by decide)) (by simp [lookup])

end Settings
end TC
