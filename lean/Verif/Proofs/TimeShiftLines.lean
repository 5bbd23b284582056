import Verif.Proofs.TimeShift
/-!
# Matching with lines, for two origins of the time scale

Matching with lines leaves two new objects behind, which have the times 0, 1, 2, … for every origin.  Nothing looks at
these objects afterwards.  So here only some objects of the two runs have to correspond.
-/
namespace TC
set_option linter.unusedSectionVars false
set_option linter.unusedSimpArgs false
open H
variable {K R : Type} [Field K] [LinearOrder K] [IsStrictOrderedRing K]

/-- the objects with the references `G` exist and have their times counted from two origins -/
def Some2 (d : K) (G : List Nat) (h h' : Heap K R) : Prop :=
  h'.length = h.length ∧ ∀ i ∈ G, i < h.length ∧ h'[i]? = h[i]?.map (Traj.later d)

/-- two programs started in related states end with the same exception, or with related results in related states -/
def Twin {σ σ' α β : Type} (P : σ → σ' → Prop) (m : SE σ α) (m' : SE σ' β) (Q : α → β → σ → σ' → Prop) : Prop :=
  ∀ s s', P s s' → (∃ e, (m s).1 = .error e ∧ (m' s').1 = .error e) ∨
    ∃ a b t t', m s = (.ok a, t) ∧ m' s' = (.ok b, t') ∧ Q a b t t'

theorem Twin.bind {σ σ' α β γ δ : Type} {P : σ → σ' → Prop} {m : SE σ α} {m' : SE σ' β} {Q : α → β → σ → σ' → Prop}
    {f : α → SE σ γ} {f' : β → SE σ' δ} {W : γ → δ → σ → σ' → Prop} (hm : Twin P m m' Q)
    (hf : ∀ a b, Twin (Q a b) (f a) (f' b) W) : Twin P (m >>= f) (m' >>= f') W := by
  intro s s' h
  rcases hm s s' h with ⟨e, h1, h2⟩ | ⟨a, b, t, t', h1, h2, h3⟩
  · refine .inl ⟨e, ?_, ?_⟩
    · rw [SE.run_bind]
      rcases hms : m s with ⟨_ | _, _⟩
      · rw [hms] at h1; simpa using h1
      · rw [hms] at h1; cases h1
    · rw [SE.run_bind]
      rcases hms : m' s' with ⟨_ | _, _⟩
      · rw [hms] at h2; simpa using h2
      · rw [hms] at h2; cases h2
  · rw [SE.run_bind, SE.run_bind, h1, h2]
    exact hf a b t t' h3

theorem Twin.pure {σ σ' α β : Type} {P : σ → σ' → Prop} {a : α} {b : β} {Q : α → β → σ → σ' → Prop}
    (h : ∀ s s', P s s' → Q a b s s') : Twin P (Pure.pure a : SE σ α) (Pure.pure b : SE σ' β) Q :=
  fun s s' hp => .inr ⟨a, b, s, s', rfl, rfl, h s s' hp⟩

theorem Twin.raise {σ σ' α β : Type} {P : σ → σ' → Prop} {e : Err} {Q : α → β → σ → σ' → Prop} :
    Twin P (SE.raise e : SE σ α) (SE.raise e : SE σ' β) Q := fun _ _ _ => .inl ⟨e, rfl, rfl⟩

theorem Twin.lift {σ σ' α β : Type} {P : σ → σ' → Prop} {V : α → β → Prop} {a : Except Err α} {b : Except Err β}
    (h : OutRel V a b) : Twin P (SE.lift a : SE σ α) (SE.lift b : SE σ' β) (fun x y s s' => V x y ∧ P s s') := by
  intro s s' hp
  rcases a with e | a <;> rcases b with e' | b
  · cases (h : e = e')
    exact .inl ⟨e, rfl, rfl⟩
  · exact h.elim
  · exact h.elim
  · exact .inr ⟨a, b, s, s', rfl, rfl, h, hp⟩

theorem Twin.of {σ σ' α β : Type} {p : Prop} {P : σ → σ' → Prop} {m : SE σ α} {m' : SE σ' β} {Q : α → β → σ → σ' → Prop}
    (h : p → Twin P m m' Q) : Twin (fun s s' => p ∧ P s s') m m' Q := fun s s' hp => h hp.1 s s' hp.2

namespace Some2
variable {d : K} {G : List Nat}

theorem rd {r : Nat} (hr : r ∈ G) :
    Twin (Some2 d G) (TC.rd r : SE (Heap K R) _) (TC.rd r) (fun T T' h h' => T' = T.later d ∧ Some2 d G h h') := by
  intro h h' hp
  obtain ⟨h1, h2⟩ := hp.2 r hr
  rw [List.getElem?_eq_getElem h1, Option.map_some] at h2
  refine .inr ⟨h[r], h[r].later d, h, h', ?_, ?_, rfl, hp⟩
  · unfold TC.rd
    rw [List.getElem?_eq_getElem h1]
  · unfold TC.rd
    rw [h2]

theorem onRef {r : Nat} (hr : r ∈ G) {m m' : SE (Traj K R) Unit} (hm : Lock (Lat d) Eq m m') :
    Twin (Some2 d G) (TC.onRef r m) (TC.onRef r m') (fun _ _ h h' => Some2 d G h h') := by
  intro h h' hp
  obtain ⟨h1, h2⟩ := hp.2 r hr
  rw [List.getElem?_eq_getElem h1, Option.map_some] at h2
  obtain ⟨h3, h4⟩ := hm h[r] _ rfl
  have e1 : TC.onRef r m h = ((m h[r]).1, h.set r (m h[r]).2) := by
    unfold TC.onRef
    rw [List.getElem?_eq_getElem h1]
  have e2 : TC.onRef r m' h' = ((m' (h[r].later d)).1, h'.set r (m' (h[r].later d)).2) := by
    unfold TC.onRef
    rw [h2]
  rw [e1, e2]
  rcases hms : (m h[r]).1 with e | a <;> rcases hms' : (m' (h[r].later d)).1 with e' | b <;>
    rw [hms, hms'] at h3
  · cases (h3 : e = e')
    exact .inl ⟨e, rfl, rfl⟩
  · exact h3.elim
  · exact h3.elim
  · refine .inr ⟨a, b, _, _, rfl, rfl, ?_, ?_⟩
    · simp [hp.1]
    · intro i hi
      obtain ⟨h5, h6⟩ := hp.2 i hi
      refine ⟨by simpa using h5, ?_⟩
      rw [List.getElem?_set, List.getElem?_set]
      by_cases hir : r = i
      · subst hir
        rw [if_pos rfl, if_pos rfl, if_pos h5, if_pos (hp.1 ▸ h5), h4]
        rfl
      · rw [if_neg hir, if_neg hir]
        exact h6

theorem append {h h' : Heap K R} (hp : Some2 d G h h') (X Y : List (Traj K R)) (hl : X.length = Y.length) :
    Some2 d G (h ++ X) (h' ++ Y) := by
  refine ⟨by simp [hp.1, hl], fun i hi => ?_⟩
  obtain ⟨h1, h2⟩ := hp.2 i hi
  refine ⟨by rw [List.length_append]; omega, ?_⟩
  rw [List.getElem?_append_left h1, List.getElem?_append_left (hp.1 ▸ h1)]
  exact h2

theorem copyRef {r : Nat} (hr : r ∈ G) :
    Twin (Some2 d G) (TC.copyRef r : SE (Heap K R) Nat) (TC.copyRef r)
      (fun s s' h h' => s' = s ∧ Some2 d (s :: G) h h') := by
  intro h h' hp
  obtain ⟨h1, h2⟩ := hp.2 r hr
  rw [List.getElem?_eq_getElem h1, Option.map_some] at h2
  refine .inr ⟨h.length, h'.length, h ++ [h[r]], h' ++ [h[r].later d], ?_, ?_, hp.1, ?_, ?_⟩
  · unfold TC.copyRef
    rw [List.getElem?_eq_getElem h1]
  · unfold TC.copyRef
    rw [h2]
  · simp [hp.1]
  · intro i hi
    rcases List.mem_cons.1 hi with rfl | hi
    · refine ⟨by simp, ?_⟩
      rw [List.getElem?_concat_length, ← hp.1, List.getElem?_concat_length]
      rfl
    · exact (append hp [h[r]] [h[r].later d] rfl).2 i hi

theorem mono {G' : List Nat} {h h' : Heap K R} (hg : ∀ i ∈ G', i ∈ G) (hp : Some2 d G h h') : Some2 d G' h h' :=
  ⟨hp.1, fun i hi => hp.2 i (hg i hi)⟩

theorem applyIndex {r : Nat} (hr : r ∈ G) (i : Index) :
    Twin (Some2 d G) (H.applyIndex r i true : SE (Heap K R) Nat) (H.applyIndex r i true)
      (fun _ _ h h' => Some2 d G h h') := by
  unfold H.applyIndex
  refine Twin.bind (Twin.pure (Q := fun s s' h h' => (s = r ∧ s' = r) ∧ Some2 d G h h') fun _ _ h => ⟨⟨rfl, rfl⟩, h⟩) ?_
  refine fun s s' => Twin.of ?_
  rintro ⟨rfl, rfl⟩
  exact Twin.bind (onRef hr (Lat.applyIndex d i)) fun _ _ => Twin.pure fun _ _ h => h

theorem crop {r : Nat} (hr : r ∈ G) (a b : K) (inverse : Bool) :
    Twin (Some2 d G) (H.crop r a b inverse true : SE (Heap K R) Nat) (H.crop r (a + d) (b + d) inverse true)
      (fun _ _ h h' => Some2 d G h h') := by
  unfold H.crop
  refine Twin.bind (rd hr) fun T T' => Twin.of ?_
  rintro rfl
  simp only [Traj.later, List.map_map, Function.comp_def, add_le_add_iff_right]
  exact applyIndex hr _

theorem applyTransformation (L : RotLib K R) {r : Nat} (hr : r ∈ G) (A : M4 K) :
    Twin (Some2 d G) (H.applyTransformation L r A false) (H.applyTransformation L r A false)
      (fun s s' h h' => s' = s ∧ Some2 d (s :: G) h h') := by
  unfold H.applyTransformation
  refine Twin.bind (copyRef hr) fun s s' => Twin.of ?_
  rintro rfl
  refine Twin.bind (rd List.mem_cons_self) fun T T' => Twin.of ?_
  rintro rfl
  exact Twin.bind (onRef List.mem_cons_self (Lat.setSe3 L d _)) fun _ _ => Twin.pure fun _ _ h => ⟨rfl, h⟩

theorem applyAlignment (L : RotLib K R) (τ : Trig K) (toEuler : R → V3 K) {r : Nat} (hr : r ∈ G) (q : Equations.Params K)
    (sensor : R) :
    Twin (Some2 d G) (H.applyAlignment L τ toEuler r q sensor false) (H.applyAlignment L τ toEuler r q sensor false)
      (fun s s' h h' => s' = s ∧ Some2 d (s :: G) h h') := by
  unfold H.applyAlignment
  refine Twin.bind (copyRef hr) fun s s' => Twin.of ?_
  rintro rfl
  exact Twin.bind (onRef List.mem_cons_self (Lat.applyAlignmentBody L τ toEuler q sensor d)) fun _ _ =>
    Twin.pure fun _ _ h => ⟨rfl, h⟩

theorem new2 (T : Traj K R) : Twin (Some2 d G) (H.newRef T) (H.newRef T) (fun _ _ h h' => Some2 d G h h') :=
  fun _ _ hp => .inr ⟨_, _, _, _, rfl, rfl, append hp _ _ rfl⟩

theorem lines (lib : MatchLib K R) (c : Nat) {t r : Nat} (ht : t ∈ G) (hr : r ∈ G) (m : K) (k : Nat) :
    Twin (Some2 d G) (matchSpatialInterpolation lib c t r m k) (matchSpatialInterpolation lib c t r m k)
      (fun _ _ h h' => Some2 d G h h') := by
  unfold matchSpatialInterpolation
  refine Twin.bind (rd ht) fun T T' => Twin.of ?_
  rintro rfl
  refine Twin.bind (rd hr) fun U U' => Twin.of ?_
  rintro rfl
  simp only [show (T.later d).pos = T.pos from rfl,
    show (U.later d).pos = U.pos from rfl, show (T.later d).name = T.name from rfl,
    show (U.later d).name = U.name from rfl]
  generalize (if m = 0 then lib.queryPK U.pos none k T.pos else lib.queryPK U.pos (some m) k T.pos) = cl
  split
  · exact fun _ _ _ => .inl ⟨_, rfl, rfl⟩
  split
  · exact fun _ _ _ => .inl ⟨_, rfl, rfl⟩
  split
  · exact fun _ _ _ => .inl ⟨_, rfl, rfl⟩
  refine Twin.bind (Twin.lift (OutRel.refl _)) fun ps ps' => Twin.of ?_
  rintro rfl
  split
  · exact fun _ _ _ => .inl ⟨_, rfl, rfl⟩
  refine Twin.bind (Twin.lift (OutRel.refl _)) fun A A' => Twin.of ?_
  rintro rfl
  refine Twin.bind (Twin.lift (OutRel.refl _)) fun B B' => Twin.of ?_
  rintro rfl
  refine Twin.bind (new2 A) fun _ _ => ?_
  refine Twin.bind (new2 B) fun _ _ => ?_
  exact Twin.pure fun _ _ h => h

theorem matchLines (lib : MatchLib K R) (c : Nat) {f t : Nat} (hf : f ∈ G) (ht : t ∈ G) {s : MatchingSettings K}
    (hs : s.method = .nearestSpatialInterpolated) :
    Twin (Some2 d G) (matchTrajectories lib c f t s true) (matchTrajectories lib c f t s true)
      (fun _ _ h h' => Some2 d G h h') := by
  unfold matchTrajectories
  rw [hs]
  exact lines lib c hf ht _ _

theorem speedFilter (nrm : V3 K → K) {r : Nat} (hr : r ∈ G) (v : K) :
    Twin (Some2 d G) (H.speedFilter nrm r v : SE (Heap K R) Unit) (H.speedFilter nrm r v)
      (fun _ _ h h' => Some2 d G h h') := by
  unfold H.speedFilter
  refine Twin.bind (rd hr) fun T T' => Twin.of ?_
  rintro rfl
  exact Twin.bind (applyIndex hr _) fun _ _ => Twin.pure fun _ _ h => h

theorem timeFilter (s : AlignSettings K) {f t : Nat} (hf : f ∈ G) (ht : t ∈ G) :
    Twin (Some2 d G) (H.timeFilter s f t : SE (Heap K R) Unit) (H.timeFilter s f t)
      (fun _ _ h h' => Some2 d G h h') := by
  unfold H.timeFilter
  split
  · refine Twin.bind (rd hf) fun T T' => Twin.of ?_
    rintro rfl
    refine Twin.bind (Twin.lift (V := fun a b => b = a + d) ?_) fun t0 t0' => Twin.of ?_
    · rw [show (T.later d).tstamps = shl d T.tstamps from rfl, npGet_shl]
      exact OutRel.map _ _
    rintro rfl
    rw [add_right_comm t0 d s.timeStart, add_right_comm t0 d s.timeEnd]
    refine Twin.bind (crop ht _ _ false) fun _ _ => ?_
    refine Twin.bind (crop hf _ _ false) fun _ _ => ?_
    exact Twin.pure fun _ _ h => h
  · exact Twin.pure fun _ _ h => h

theorem setup (lib : MetricLib K R) (c : Nat) (s : AlignSettings K)
    {ms : MatchingSettings K} (hs : ms.method = .nearestSpatialInterpolated) {f t : Nat} (hf : f ∈ G) (ht : t ∈ G) :
    Twin (Some2 d G) (H.setup lib c s ms f t) (H.setup lib c s ms f t)
      (fun v v' h h' => v' = v ∧ Some2 d G h h') := by
  unfold H.setup
  refine Twin.bind (speedFilter _ ht _) fun _ _ => ?_
  refine Twin.bind (speedFilter _ hf _) fun _ _ => ?_
  refine Twin.bind (timeFilter s hf ht) fun _ _ => ?_
  refine Twin.bind (rd hf) fun T T' => Twin.of ?_
  rintro rfl
  refine Twin.bind (rd ht) fun U U' => Twin.of ?_
  rintro rfl
  simp only [show (T.later d).pos = T.pos from rfl, show (U.later d).pos = U.pos from rfl]
  split
  · exact fun _ _ _ => .inl ⟨_, rfl, rfl⟩
  refine Twin.bind (matchLines lib.mat c hf ht hs) fun _ _ => ?_
  refine Twin.bind (rd hf) fun T T' => Twin.of ?_
  rintro rfl
  refine Twin.bind (rd ht) fun U U' => Twin.of ?_
  rintro rfl
  refine Twin.bind (Twin.lift (V := fun a b => b = a + d) ?_) fun _ _ => Twin.of fun _ => ?_
  · rw [show (T.later d).tstamps = shl d T.tstamps from rfl, pyLast_shl]
    exact OutRel.map _ _
  rw [show (T.later d).tstamps = shl d T.tstamps from rfl, build_shl]
  refine Twin.bind (Twin.lift (OutRel.refl (Obs.build s.est T.tstamps T.pos U.pos (T.rot.map (fun r => r.map lib.toEuler))
    (some T.speed)))) fun o o' => Twin.of ?_
  rintro rfl
  refine Twin.bind (Twin.lift (OutRel.refl _)) fun o o' => Twin.of ?_
  rintro rfl
  refine Twin.bind (Twin.lift (OutRel.refl _)) fun v v' => Twin.of ?_
  rintro rfl
  refine Twin.bind (Twin.lift (OutRel.refl _)) fun v v' => Twin.of ?_
  rintro rfl
  exact Twin.pure fun _ _ h => ⟨rfl, h⟩

theorem sensorRotation (lib : MetricLib K R) (s : AlignSettings K) (a : AlignData K) (hf : a.source ∈ G)
    (ht : a.target ∈ G) (p : PSet K) :
    Twin (Some2 d G) (H.sensorRotation lib s a p) (H.sensorRotation lib s a p)
      (fun v v' h h' => v' = v ∧ Some2 d G h h') := by
  unfold H.sensorRotation
  refine Twin.bind (rd hf) fun T T' => Twin.of ?_
  rintro rfl
  refine Twin.bind (rd ht) fun U U' => Twin.of ?_
  rintro rfl
  rw [show (T.later d).rot = T.rot from rfl, show (U.later d).rot = U.rot from rfl]
  rcases T.rot with _ | rf
  · exact Twin.pure fun _ _ h => ⟨rfl, h⟩
  rcases U.rot with _ | rt
  · exact Twin.pure fun _ _ h => ⟨rfl, h⟩
  rcases s.est.sensorRotation
  · exact Twin.pure fun _ _ h => ⟨rfl, h⟩
  refine Twin.bind (applyTransformation lib.mat.rot hf _) fun pre pre' => Twin.of ?_
  rintro rfl
  refine Twin.bind (rd List.mem_cons_self) fun V V' => Twin.of ?_
  rintro rfl
  rw [show (V.later d).rot = V.rot from rfl]
  rcases V.rot with _ | rf
  · exact Twin.raise
  refine Twin.bind (Twin.lift (OutRel.refl _)) fun ps ps' => Twin.of ?_
  rintro rfl
  intro h h' hp
  rcases Twin.lift (OutRel.refl (PSet.postInit { cov := [], params := ps } : Except Err (PSet K))) h h' hp with
    hl | ⟨x, y, g, g', h1, h2, h3, h4⟩
  · exact .inl hl
  · exact .inr ⟨x, y, g, g', h1, h2, h3.symm, mono (fun i hi => List.mem_cons_of_mem _ hi) h4⟩

theorem estimateFrom (lib : MetricLib K R) (c : Nat) (s : AlignSettings K)
    {ms : MatchingSettings K} (hs : ms.method = .nearestSpatialInterpolated) {f t : Nat} {P : Heap K R → Heap K R → Prop}
    {Pa : Nat → Heap K R → Heap K R → Prop}
    (hf : Twin P (TC.copyRef f) (TC.copyRef f) (fun a b h h' => b = a ∧ Pa a h h'))
    (ht : ∀ a, Twin (Pa a) (TC.copyRef t) (TC.copyRef t) (fun b b' h h' => b' = b ∧ Some2 d (b :: a :: G) h h')) :
    Twin P (H.estimateAlignment lib c s ms f t) (H.estimateAlignment lib c s ms f t)
      (fun v v' h h' => v' = v ∧ Some2 d G h h') := by
  unfold H.estimateAlignment H.alignData
  refine Twin.bind (Q := fun a b h h' => b = a ∧ Some2 d (a.target :: a.source :: G) h h') ?_ fun a b => Twin.of ?_
  · refine Twin.bind hf fun f' b => Twin.of ?_
    rintro rfl
    refine Twin.bind (ht _) fun t' b => Twin.of ?_
    rintro rfl
    refine Twin.bind (setup lib c s hs (by simp) (by simp)) fun v b => Twin.of ?_
    rintro rfl
    exact Twin.pure fun _ _ h => ⟨rfl, h⟩
  rintro rfl
  refine Twin.bind (Twin.lift (OutRel.refl _)) fun e e' => Twin.of ?_
  rintro rfl
  have back : ∀ h h' : Heap K R, Some2 d (b.target :: b.source :: G) h h' → Some2 d G h h' := fun h h' hp =>
    mono (fun i hi => List.mem_cons_of_mem _ (List.mem_cons_of_mem _ hi)) hp
  rcases e.params with _ | p
  · exact Twin.pure fun _ _ h => ⟨rfl, back _ _ h⟩
  refine Twin.bind (sensorRotation lib s b (by simp) (by simp) p) fun q q' => Twin.of ?_
  rintro rfl
  refine Twin.bind (rd (by simp)) fun T T' => Twin.of ?_
  rintro rfl
  refine Twin.bind (rd (by simp)) fun U U' => Twin.of ?_
  rintro rfl
  exact Twin.pure fun _ _ h => ⟨rfl, back _ _ h⟩

theorem estimateAlignment (lib : MetricLib K R) (c : Nat) (s : AlignSettings K)
    {ms : MatchingSettings K} (hs : ms.method = .nearestSpatialInterpolated) {f t : Nat} (hf : f ∈ G) (ht : t ∈ G) :
    Twin (Some2 d G) (H.estimateAlignment lib c s ms f t) (H.estimateAlignment lib c s ms f t)
      (fun v v' h h' => v' = v ∧ Some2 d G h h') :=
  estimateFrom lib c s hs (copyRef hf) fun _ => copyRef (List.mem_cons_of_mem _ ht)

theorem copyAll (d : K) (r : Nat) (G : List Nat) :
    Twin (fun h h' : Heap K R => (∀ i ∈ G, i < h.length) ∧ HLat d h h') (TC.copyRef r) (TC.copyRef r)
      (fun a b h h' => b = a ∧ (∀ i ∈ a :: G, i < h.length) ∧ HLat d h h') := by
  rintro h _ ⟨hG, rfl⟩
  unfold TC.copyRef
  rw [List.getElem?_map]
  rcases h[r]? with _ | T
  · exact .inl ⟨_, rfl, rfl⟩
  · refine .inr ⟨_, _, _, _, rfl, rfl, by simp, ?_, by simp [HLat]⟩
    intro i hi
    rw [List.length_append, List.length_singleton]
    rcases List.mem_cons.1 hi with rfl | hi
    · omega
    · have := hG i hi
      omega

theorem estimateAll (lib : MetricLib K R) (c : Nat) (s : AlignSettings K)
    {ms : MatchingSettings K} (hs : ms.method = .nearestSpatialInterpolated) (f t : Nat) :
    Twin (HLat d) (H.estimateAlignment lib c s ms f t) (H.estimateAlignment lib c s ms f t)
      (fun v v' h h' => v' = v ∧ Some2 d [] h h') := by
  refine estimateFrom lib c s hs (Pa := fun a h h' => (∀ i ∈ [a], i < h.length) ∧ HLat d h h') ?_ ?_
  · intro h h' hp
    exact copyAll d f [] h h' ⟨by simp, hp⟩
  · intro a h h' hp
    rcases copyAll d t [a] h h' hp with hl | ⟨b, b', g, g', h1, h2, h3, h4, rfl⟩
    · exact .inl hl
    · exact .inr ⟨b, b', g, _, h1, h2, h3, List.length_map _, fun i hi => ⟨h4 i hi, List.getElem?_map ..⟩⟩

theorem start (d : K) {h : Heap K R} {a b : Nat} (ha : a < h.length) (hb : b < h.length) :
    Some2 d [a, b] h (h.map (Traj.later d)) := by
  refine ⟨List.length_map _, fun i hi => ⟨?_, List.getElem?_map ..⟩⟩
  simp only [List.mem_cons, List.not_mem_nil, or_false] at hi
  rcases hi with rfl | rfl <;> assumption

end Some2
end TC
