import Verif.Spec.SettingsDict
import Mathlib.Data.List.Forall2
/-!
# Reading and writing settings dictionaries, attribute by attribute
-/
namespace TC
namespace Settings
variable {K : Type}

theorem annotations_nodup (c : Cls) : ((annotations c).map Prod.fst).Nodup := by cases c <;> decide

theorem annotations_depth (c : Cls) : ∀ a ∈ annotations c, ∀ c', a.2 = some c' → depth c' < depth c := by
  cases c <;> decide

theorem depth_pos (c : Cls) : 0 < depth c := by cases c <;> decide

theorem defaults_names [Field K] (deg : K) (c : Cls) :
    (defaults deg c).map Prod.fst = (annotations c).map Prod.fst := by cases c <;> rfl

theorem lookup_of_mem {d : List (String × PyVal K)} (hd : (d.map Prod.fst).Nodup) {k : String} {v : PyVal K}
    (h : (k, v) ∈ d) : lookup d k = some v := by
  induction d with
  | nil => simp at h
  | cons x d ih =>
    obtain ⟨k', w⟩ := x
    simp only [List.map_cons, List.nodup_cons] at hd
    rcases List.mem_cons.1 h with h | h
    · obtain ⟨rfl, rfl⟩ := Prod.mk.inj h
      simp [lookup]
    · have : k' ≠ k := by
        rintro rfl
        exact hd.1 (List.mem_map.2 ⟨_, h, rfl⟩)
      simp [lookup, this, ih hd.2 h]

theorem mem_of_lookup {d : List (String × PyVal K)} {k : String} {v : PyVal K} (h : lookup d k = some v) : (k, v) ∈ d := by
  induction d with
  | nil => simp [lookup] at h
  | cons x d ih =>
    obtain ⟨k', w⟩ := x
    simp only [lookup] at h
    split_ifs at h with hk
    · subst hk
      simp only [Option.some.injEq] at h
      subst h
      exact List.mem_cons_self
    · exact List.mem_cons_of_mem _ (ih h)

theorem lookup_isSome {d : List (String × PyVal K)} {k : String} (h : k ∈ d.map Prod.fst) : ∃ v, lookup d k = some v := by
  induction d with
  | nil => simp at h
  | cons x d ih =>
    obtain ⟨k', w⟩ := x
    simp only [lookup]
    split_ifs with hk
    · exact ⟨w, rfl⟩
    · simp only [List.map_cons, List.mem_cons] at h
      exact ih (h.resolve_left (fun e => hk e.symm))

theorem store_mid {p q : List (String × PyVal K)} {k : String} {w v : PyVal K} (h : k ∉ p.map Prod.fst) :
    store (p ++ (k, w) :: q) k v = p ++ (k, v) :: q := by
  induction p with
  | nil => simp [store]
  | cons x p ih =>
    obtain ⟨k', u⟩ := x
    simp only [List.map_cons, List.mem_cons, not_or] at h
    simp [store, Ne.symm h.1, ih h.2]

theorem lookup_mid {p q : List (String × PyVal K)} {k : String} {w : PyVal K} (h : k ∉ p.map Prod.fst) :
    lookup (p ++ (k, w) :: q) k = some w := by
  induction p with
  | nil => simp [lookup]
  | cons x p ih =>
    obtain ⟨k', u⟩ := x
    simp only [List.map_cons, List.mem_cons, not_or] at h
    simp [lookup, Ne.symm h.1, ih h.2]

theorem lookup_store_ne {d : List (String × PyVal K)} {k k' : String} (v : PyVal K) (h : k' ≠ k) :
    lookup (store d k v) k' = lookup d k' := by
  induction d with
  | nil => simp [store, lookup, Ne.symm h]
  | cons x d ih =>
    obtain ⟨a, w⟩ := x
    simp only [store]
    split_ifs with ha
    · subst ha
      simp [lookup, Ne.symm h]
    · simp [lookup, ih]

theorem lookup_store_self (d : List (String × PyVal K)) (k : String) (v : PyVal K) : lookup (store d k v) k = some v := by
  induction d with
  | nil => simp [store, lookup]
  | cons x d ih =>
    obtain ⟨a, w⟩ := x
    simp only [store]
    split_ifs with ha
    · simp [lookup, ha]
    · simp [lookup, ha, ih]

/-- the annotations and the attributes of a settings object, side by side -/
theorem zip_names {ann : List (String × Option Cls)} {attrs : List (String × PyVal K)}
    (h : attrs.map Prod.fst = ann.map Prod.fst) :
    List.Forall₂ (fun a x => a.1 = x.1 ∧ a ∈ ann ∧ x ∈ attrs) ann attrs := by
  have key : ∀ (ann' : List (String × Option Cls)) (attrs' : List (String × PyVal K)),
      attrs'.map Prod.fst = ann'.map Prod.fst → (∀ a ∈ ann', a ∈ ann) → (∀ x ∈ attrs', x ∈ attrs) →
      List.Forall₂ (fun a x => a.1 = x.1 ∧ a ∈ ann ∧ x ∈ attrs) ann' attrs' := by
    intro ann'
    induction ann' with
    | nil =>
      intro attrs' h _ _
      rw [List.map_nil, List.map_eq_nil_iff] at h
      subst h
      exact .nil
    | cons a ann' ih =>
      intro attrs' h h1 h2
      cases attrs' with
      | nil => simp at h
      | cons x attrs' =>
        simp only [List.map_cons, List.cons.injEq] at h
        exact .cons ⟨h.1.symm, h1 _ List.mem_cons_self, h2 _ List.mem_cons_self⟩
          (ih attrs' h.2 (fun a ha => h1 a (List.mem_cons_of_mem _ ha)) (fun a ha => h2 a (List.mem_cons_of_mem _ ha)))
  exact key ann attrs h (fun _ h => h) (fun _ h => h)

/-- writing: the dictionary has the same names -/
theorem attrsToDict_ok {c : Cls} {attrs : List (String × PyVal K)}
    (h : ∀ x ∈ attrs, ∃ e, valueToDict c x.1 x.2 = .ok e) :
    ∃ d, attrsToDict c attrs = .ok d ∧ List.Forall₂ (fun x y => x.1 = y.1 ∧ valueToDict c x.1 x.2 = .ok y.2) attrs d := by
  induction attrs with
  | nil => exact ⟨[], by simp [attrsToDict], .nil⟩
  | cons x attrs ih =>
    obtain ⟨k, v⟩ := x
    obtain ⟨e, he⟩ := h (k, v) List.mem_cons_self
    obtain ⟨d, hd, hf⟩ := ih (fun x hx => h x (List.mem_cons_of_mem _ hx))
    refine ⟨(k, e) :: d, ?_, .cons ⟨rfl, he⟩ hf⟩
    simp only at he
    simp [attrsToDict, he, hd, bind, Except.bind, pure, Except.pure]

theorem forall₂_names {α β : Type} {P : (String × α) → (String × β) → Prop} {l : List (String × α)} {m : List (String × β)}
    (h : List.Forall₂ P l m) (hP : ∀ x y, P x y → x.1 = y.1) : l.map Prod.fst = m.map Prod.fst := by
  induction h with
  | nil => rfl
  | cons h _ ih => simp [hP _ _ h, ih]

/-- reading: the attributes are replaced one after the other -/
theorem fillFrom_ok {nested : Cls → List (String × PyVal K) → Except Err (PyVal K)} {c : Cls}
    {D : List (String × PyVal K)} {ann : List (String × Option Cls)} {attrs : List (String × PyVal K)}
    (h : List.Forall₂ (fun a x => a.1 = x.1 ∧ ∃ e, lookup D a.1 = some e ∧ decodeAttr nested c a.1 a.2 e = .ok x.2)
      ann attrs) (hn : (ann.map Prod.fst).Nodup) :
    ∀ (p o : List (String × PyVal K)), o.map Prod.fst = ann.map Prod.fst →
      (∀ a ∈ ann, a.1 ∉ p.map Prod.fst) → fillFrom nested c D ann (p ++ o) = .ok (p ++ attrs) := by
  induction h with
  | nil =>
    intro p o ho _
    rw [List.map_nil, List.map_eq_nil_iff] at ho
    subst ho
    rfl
  | @cons a x ann attrs hax _ ih =>
    intro p o ho hp
    obtain ⟨name, ty⟩ := a
    obtain ⟨name', v⟩ := x
    obtain ⟨rfl, e, he, hv⟩ := hax
    simp only at he hv
    cases o with
    | nil => simp at ho
    | cons y o =>
      obtain ⟨k, w⟩ := y
      simp only [List.map_cons, List.cons.injEq] at ho
      obtain ⟨rfl, ho⟩ := ho
      simp only [List.map_cons, List.nodup_cons] at hn
      have hk : k ∉ p.map Prod.fst := hp _ List.mem_cons_self
      have := ih hn.2 (p ++ [(k, v)]) o ho (by
        intro a ha
        simp only [List.map_append, List.map_cons, List.map_nil, List.mem_append, List.mem_singleton, not_or]
        refine ⟨hp _ (List.mem_cons_of_mem _ ha), ?_⟩
        rintro rfl
        exact hn.1 (List.mem_map.2 ⟨_, ha, rfl⟩))
      simp only [fillFrom, he, hv, bind, Except.bind, store_mid hk]
      simpa using this

/-- what a successful read has done -/
theorem fillFrom_inv {nested : Cls → List (String × PyVal K) → Except Err (PyVal K)} {c : Cls}
    {D : List (String × PyVal K)} {ann : List (String × Option Cls)} (hn : (ann.map Prod.fst).Nodup) :
    ∀ (p o r : List (String × PyVal K)), o.map Prod.fst = ann.map Prod.fst →
      (∀ a ∈ ann, a.1 ∉ p.map Prod.fst) → fillFrom nested c D ann (p ++ o) = .ok r →
      ∃ attrs, r = p ++ attrs ∧
        List.Forall₂ (fun a x => a.1 = x.1 ∧ ∃ e, lookup D a.1 = some e ∧ decodeAttr nested c a.1 a.2 e = .ok x.2)
          ann attrs := by
  induction ann with
  | nil =>
    intro p o r ho _ hr
    rw [List.map_nil, List.map_eq_nil_iff] at ho
    subst ho
    simp only [fillFrom, List.append_nil, Except.ok.injEq] at hr
    exact ⟨[], by simp [hr], .nil⟩
  | cons a ann ih =>
    intro p o r ho hp hr
    obtain ⟨name, ty⟩ := a
    cases o with
    | nil => simp at ho
    | cons y o =>
      obtain ⟨k, w⟩ := y
      simp only [List.map_cons, List.cons.injEq] at ho
      obtain ⟨rfl, ho⟩ := ho
      simp only [List.map_cons, List.nodup_cons] at hn
      have hk : k ∉ p.map Prod.fst := hp _ List.mem_cons_self
      simp only [fillFrom, bind, Except.bind] at hr
      cases he : lookup D k with
      | none => rw [he] at hr; simp at hr
      | some e =>
        rw [he] at hr
        simp only at hr
        cases hv : decodeAttr nested c k ty e with
        | error => rw [hv] at hr; simp at hr
        | ok v =>
          rw [hv] at hr
          simp only [store_mid hk] at hr
          obtain ⟨attrs, h1, h2⟩ := ih hn.2 (p ++ [(k, v)]) o r ho (by
            intro a ha
            simp only [List.map_append, List.map_cons, List.map_nil, List.mem_append, List.mem_singleton, not_or]
            refine ⟨hp _ (List.mem_cons_of_mem _ ha), ?_⟩
            rintro rfl
            exact hn.1 (List.mem_map.2 ⟨_, ha, rfl⟩)) (by simpa using hr)
          exact ⟨(k, v) :: attrs, by simp [h1], .cons ⟨rfl, e, he, hv⟩ h2⟩

/-- `from_dict`, attribute by attribute -/
theorem fromDictAt_iff [Field K] (deg : K) (n : Nat) (c : Cls) (D : List (String × PyVal K)) (v : PyVal K) :
    fromDictAt deg (n + 1) c D = .ok v ↔ ∃ attrs, v = .obj c attrs ∧
      List.Forall₂ (fun a x => a.1 = x.1 ∧ ∃ e, lookup D a.1 = some e ∧ decodeAttr (fromDictAt deg n) c a.1 a.2 e = .ok x.2)
        (annotations c) attrs := by
  constructor
  · intro h
    simp only [fromDictAt, bind, Except.bind] at h
    cases hf : fillFrom (fromDictAt deg n) c D (annotations c) (defaults deg c) with
    | error => rw [hf] at h; simp at h
    | ok r =>
      rw [hf] at h
      simp only [pure, Except.pure, Except.ok.injEq] at h
      obtain ⟨attrs, h1, h2⟩ := fillFrom_inv (annotations_nodup c) [] (defaults deg c) r (defaults_names deg c)
        (by simp) (by simpa using hf)
      simp only [List.nil_append] at h1
      subst h1
      exact ⟨r, h.symm, h2⟩
  · rintro ⟨attrs, rfl, h⟩
    have := fillFrom_ok h (annotations_nodup c) [] (defaults deg c) (defaults_names deg c) (by simp)
    simp only [List.nil_append] at this
    simp [fromDictAt, this, bind, Except.bind, pure, Except.pure]

theorem decode_encode {c : Cls} {name : String} {v : PyVal K} (hv : FitsEnum c name v) :
    ∃ e, encoder c name v = .ok e ∧ decoder c name e = .ok v := by
  by_cases h1 : c = .matching ∧ name = "method"
  · obtain ⟨rfl, rfl⟩ := h1
    obtain ⟨m, rfl⟩ := hv.1 rfl rfl
    refine ⟨.int (methodValue m), by simp [encoder, enumValue], ?_⟩
    cases m <;> simp [decoder, methodValue, methodOf]
  · by_cases h2 : c = .comparison ∧ name = "pair_distance_unit"
    · obtain ⟨rfl, rfl⟩ := h2
      obtain ⟨u, rfl⟩ := hv.2 rfl rfl
      refine ⟨.int (unitValue u), by simp [encoder, enumValue], ?_⟩
      cases u <;> simp [decoder, unitValue, unitOf]
    · refine ⟨v, ?_, ?_⟩
      · cases c <;> simp_all [encoder]
      · cases c <;> simp_all [decoder]

theorem roundtrip_at [Field K] (deg : K) {c : Cls} {v : PyVal K} (h : IsSettings c v) :
    ∃ d, toDict v = .ok (.dict d) ∧ ∀ n, depth c ≤ n → fromDictAt deg n c d = .ok v := by
  induction h with
  | mk c attrs names nested plain ih =>
    have hz := zip_names names
    have hval : ∀ a ∈ annotations c, ∀ x ∈ attrs, a.1 = x.1 → ∃ e, valueToDict c x.1 x.2 = .ok e ∧
        ∀ n, depth c ≤ n + 1 → decodeAttr (fromDictAt deg n) c a.1 a.2 e = .ok x.2 := by
      rintro ⟨name, ty⟩ ha ⟨_, w⟩ hx rfl
      cases ty with
      | some c' =>
        obtain ⟨d', h1, h2⟩ := ih name c' w ha hx
        cases nested name c' w ha hx with
        | mk _ attrs' =>
          simp only [toDict, bind, Except.bind, pure, Except.pure] at h1
          cases hA : attrsToDict c' attrs' with
          | error => rw [hA] at h1; simp at h1
          | ok r =>
            rw [hA] at h1
            simp only [Except.ok.injEq, PyVal.dict.injEq] at h1
            subst h1
            refine ⟨.dict r, by simp [valueToDict, hA, bind, Except.bind, pure, Except.pure], fun n hn => ?_⟩
            have := annotations_depth c _ ha c' rfl
            exact h2 n (by omega)
      | none =>
        obtain ⟨hf, hobj⟩ := plain name w ha hx
        obtain ⟨e, h1, h2⟩ := decode_encode hf
        refine ⟨e, ?_, fun n _ => ?_⟩
        · cases w <;> first | exact h1 | exact absurd rfl (hobj _ _)
        · cases e <;> exact h2
    obtain ⟨d, hd, hf⟩ := attrsToDict_ok (c := c) (attrs := attrs) (by
      intro x hx
      obtain ⟨i, hi, rfl⟩ := List.getElem_of_mem hx
      have hl := hz.length_eq
      have := List.forall₂_iff_get.1 hz
      obtain ⟨e, he, -⟩ := hval (annotations c)[i] (List.getElem_mem _) attrs[i] (List.getElem_mem _) (this.2 i (by omega) hi).1
      exact ⟨e, he⟩)
    have hdn : d.map Prod.fst = (annotations c).map Prod.fst := by
      rw [← names]
      exact (forall₂_names hf (fun x y h => h.1)).symm
    refine ⟨d, by simp [toDict, hd, bind, Except.bind, pure, Except.pure], fun n hn => ?_⟩
    obtain ⟨m, rfl⟩ : ∃ m, n = m + 1 := ⟨n - 1, by have := depth_pos c; omega⟩
    rw [fromDictAt_iff]
    refine ⟨attrs, rfl, ?_⟩
    rw [List.forall₂_iff_get]
    refine ⟨hz.length_eq, fun i h1 h2 => ?_⟩
    have hzi := (List.forall₂_iff_get.1 hz).2 i h1 h2
    have hfl := hf.length_eq
    have hfi := (List.forall₂_iff_get.1 hf).2 i h2 (by omega)
    obtain ⟨e, he, hdec⟩ := hval _ hzi.2.1 _ hzi.2.2 hzi.1
    refine ⟨hzi.1, e, ?_, hdec m hn⟩
    rw [he] at hfi
    simp only [Except.ok.injEq] at hfi
    apply lookup_of_mem
    · rw [hdn]; exact annotations_nodup c
    · rw [hzi.1, hfi.1, hfi.2]
      exact List.get_mem _ _

/-- updating, if reading the dictionary succeeds -/
theorem updateLoop_ok {nestedF : Cls → List (String × PyVal K) → Except Err (PyVal K)}
    {nestedU : PyVal K → List (String × PyVal K) → Except Err Unit × PyVal K} {c : Cls}
    {D : List (String × PyVal K)} {ann : List (String × Option Cls)} {attrs : List (String × PyVal K)}
    (h : List.Forall₂ (fun a x => a.1 = x.1 ∧ ∃ e, lookup D a.1 = some e ∧ decodeAttr nestedF c a.1 a.2 e = .ok x.2)
      ann attrs) (hn : (ann.map Prod.fst).Nodup) :
    ∀ (p o : List (String × PyVal K)),
      List.Forall₂ (fun a y => a.1 = y.1 ∧ ∀ c' d' x, a.2 = some c' → nestedF c' d' = .ok x → nestedU y.2 d' = (.ok (), x))
        ann o →
      (∀ a ∈ ann, a.1 ∉ p.map Prod.fst) → updateLoop nestedU c D ann (p ++ o) = (.ok (), p ++ attrs) := by
  induction h with
  | nil =>
    intro p o ho _
    cases ho
    rfl
  | @cons a x ann attrs hax _ ih =>
    intro p o ho hp
    obtain ⟨name, ty⟩ := a
    obtain ⟨name', v⟩ := x
    obtain ⟨rfl, e, he, hv⟩ := hax
    simp only at he hv
    cases ho with
    | @cons _ y _ o hy ho =>
      obtain ⟨k, w⟩ := y
      obtain ⟨rfl, hw⟩ := hy
      simp only [List.map_cons, List.nodup_cons] at hn
      simp only at hw he hv
      have hk : name ∉ p.map Prod.fst := hp _ List.mem_cons_self
      have := ih hn.2 (p ++ [(name, v)]) o ho (by
        intro a ha
        simp only [List.map_append, List.map_cons, List.map_nil, List.mem_append, List.mem_singleton, not_or]
        refine ⟨hp _ (List.mem_cons_of_mem _ ha), ?_⟩
        rintro rfl
        exact hn.1 (List.mem_map.2 ⟨_, ha, rfl⟩))
      simp only [List.append_assoc, List.singleton_append] at this
      simp only [updateLoop, he]
      split
      · rename_i d' c'
        simp only [decodeAttr] at hv
        simp only [lookup_mid hk, hw c' d' v rfl hv, store_mid hk]
        exact this
      · rename_i hnot
        have hv' : decoder c name e = .ok v := by
          unfold decodeAttr at hv
          split at hv
          · exact absurd rfl (hnot _ _ rfl)
          · exact hv
        simp only [hv', store_mid hk]
        exact this

theorem updateAt_ok [Field K] (deg : K) {c : Cls} {s : PyVal K} (hs : IsSettings c s) :
    ∀ n D v, fromDictAt deg n c D = .ok v → updateAt n s D = (.ok (), v) := by
  induction hs with
  | mk c o names nested plain ih =>
    intro n D v h
    cases n with
    | zero => simp [fromDictAt] at h
    | succ n =>
      obtain ⟨attrs, rfl, hf⟩ := (fromDictAt_iff deg n c D v).1 h
      have := updateLoop_ok (nestedU := updateAt n) hf (annotations_nodup c) [] o ((zip_names names).imp (by
        rintro ⟨name, ty⟩ ⟨name', w⟩ ⟨rfl, ha, hx⟩
        refine ⟨rfl, fun c' d' x hc' hx' => ?_⟩
        simp only at hc'
        subst hc'
        exact ih name c' w ha hx n d' x hx')) (by simp)
      simp only [List.nil_append] at this
      simp [updateAt, this]

theorem updateLoop_keeps {nestedU : PyVal K → List (String × PyVal K) → Except Err Unit × PyVal K} {c : Cls}
    {D : List (String × PyVal K)} {k : String} : ∀ (ann : List (String × Option Cls)) (o : List (String × PyVal K)),
      k ∉ ann.map Prod.fst → lookup (updateLoop nestedU c D ann o).2 k = lookup o k := by
  intro ann
  induction ann with
  | nil => intro o _; rfl
  | cons a ann ih =>
    intro o hk
    obtain ⟨name, ty⟩ := a
    simp only [List.map_cons, List.mem_cons, not_or] at hk
    simp only [updateLoop]
    cases lookup D name with
    | none => rfl
    | some e =>
      simp only
      split
      · cases lookup o name with
        | none => rfl
        | some cur =>
          simp only
          split
          · rw [ih _ hk.2, lookup_store_ne _ hk.1]
          · exact lookup_store_ne _ hk.1
      · cases decoder c name e with
        | error => rfl
        | ok v =>
          simp only
          rw [ih _ hk.2, lookup_store_ne _ hk.1]

theorem updateLoop_missing {nestedU : PyVal K → List (String × PyVal K) → Except Err Unit × PyVal K} {c : Cls}
    {D : List (String × PyVal K)} {k : String} (hD : lookup D k = none) :
    ∀ (ann : List (String × Option Cls)) (o : List (String × PyVal K)),
      k ∈ ann.map Prod.fst → ∃ e, (updateLoop nestedU c D ann o).1 = .error e := by
  intro ann
  induction ann with
  | nil => intro o h; simp at h
  | cons a ann ih =>
    intro o hk
    obtain ⟨name, ty⟩ := a
    simp only [updateLoop]
    by_cases hkn : k = name
    · subst hkn
      rw [hD]
      exact ⟨_, rfl⟩
    · have hk' : k ∈ ann.map Prod.fst := by simpa [hkn] using hk
      cases lookup D name with
      | none => exact ⟨_, rfl⟩
      | some e =>
        simp only
        split
        · cases lookup o name with
          | none => exact ⟨_, rfl⟩
          | some cur =>
            simp only
            split
            · exact ih _ hk'
            · exact ⟨_, rfl⟩
        · cases decoder c name e with
          | error => exact ⟨_, rfl⟩
          | ok v => exact ih _ hk'

theorem toDict_isJson {c : Cls} {v : PyVal K} (h : JsonSettings c v) (hs : IsSettings c v) {d : PyVal K}
    (hd : toDict v = .ok d) : IsJson d := by
  induction h generalizing d with
  | mk c attrs nested plain ih =>
    cases hs with
    | mk _ _ names nested' plain' =>
      simp only [toDict, bind, Except.bind, pure, Except.pure] at hd
      cases hA : attrsToDict c attrs with
      | error => rw [hA] at hd; simp at hd
      | ok r =>
        rw [hA] at hd
        simp only [Except.ok.injEq] at hd
        subst hd
        refine .dict r ?_
        have key : ∀ (l : List (String × PyVal K)) (r : List (String × PyVal K)), (∀ x ∈ l, x ∈ attrs) →
            attrsToDict c l = .ok r → ∀ k w, (k, w) ∈ r → IsJson w := by
          intro l
          induction l with
          | nil =>
            intro r _ hr k w hw
            simp only [attrsToDict, Except.ok.injEq] at hr
            subst hr
            simp at hw
          | cons x l ihl =>
            intro r hl hr k w hw
            obtain ⟨k', u⟩ := x
            simp only [attrsToDict, bind, Except.bind, pure, Except.pure] at hr
            cases hu : valueToDict c k' u with
            | error => rw [hu] at hr; simp at hr
            | ok e =>
              rw [hu] at hr
              simp only at hr
              cases hr' : attrsToDict c l with
              | error => rw [hr'] at hr; simp at hr
              | ok r' =>
                rw [hr'] at hr
                simp only [Except.ok.injEq] at hr
                subst hr
                rcases List.mem_cons.1 hw with hw | hw
                · obtain ⟨rfl, rfl⟩ := Prod.mk.inj hw
                  have hmem : (k, u) ∈ attrs := hl _ List.mem_cons_self
                  have hk : k ∈ (annotations c).map Prod.fst := by
                    rw [← names]
                    exact List.mem_map.2 ⟨_, hmem, rfl⟩
                  obtain ⟨⟨kk, ty⟩, ha, hkk⟩ := List.mem_map.1 hk
                  simp only at hkk
                  subst hkk
                  cases ty with
                  | some c' =>
                    have hset := nested' _ c' u ha hmem
                    cases hset with
                    | mk _ at' n1 n2 n3 =>
                      refine ih _ c' _ ha hmem (.mk c' at' n1 n2 n3) ?_
                      simpa [valueToDict, toDict, bind, Except.bind, pure, Except.pure] using hu
                  | none =>
                    obtain ⟨-, hobj⟩ := plain' _ u ha hmem

                    have hu' : encoder c kk u = .ok w := by
                      cases u <;> first | exact hu | exact absurd rfl (hobj _ _)
                    have henum : ∀ z : PyVal K, enumValue u = .ok z → IsJson z := by
                      intro z hz
                      cases u <;> simp [enumValue] at hz <;> subst hz <;> exact .int _
                    rcases plain _ u ha hmem with ⟨rfl, rfl⟩ | ⟨rfl, rfl⟩ | hj
                    · simp only [encoder] at hu'
                      exact henum _ hu'
                    · simp only [encoder] at hu'
                      exact henum _ hu'
                    · cases c <;> simp only [encoder] at hu' <;> (try split_ifs at hu') <;>
                        first | exact henum _ hu' | (simp only [Except.ok.injEq] at hu'; subst hu'; exact hj)
                · exact ihl r' (fun x hx => hl x (List.mem_cons_of_mem _ hx)) hr' k w hw
        exact key attrs r (fun _ h => h) hA

end Settings
end TC
