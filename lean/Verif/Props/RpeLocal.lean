import Verif.Props.Local
import Verif.Props.Rpe
/-!
# C216: a relative evaluation by parts
-/
namespace TC
set_option linter.unusedSectionVars false
variable {K R : Type} [Field K] [LinearOrder K] [IsStrictOrderedRing K]

/-! ### pairs of a section -/

theorem searchLeft_section {A B C : List K} {x : K} (h1 : ∀ a ∈ A, a < x) (h2 : ∀ c ∈ C, x ≤ c) :
    searchLeft (A ++ B ++ C) x = A.length + searchLeft B x := by
  unfold searchLeft
  have e1 : A.countP (fun y => decide (y < x)) = A.length := List.countP_eq_length.2 (by simpa using h1)
  have e2 : C.countP (fun y => decide (y < x)) = 0 := List.countP_eq_zero.2 (by simpa using h2)
  rw [List.countP_append, List.countP_append, e1, e2]
  rfl

/-- leaving out the end of an ascending list takes away the last pairs -/
theorem below_prefix {d l l' : K} (hl : l' ≤ l) : ∀ {B : List (K × Nat)}, (B.map Prod.fst).Pairwise (· ≤ ·) →
    B.filter (fun c => decide (c.1 + d < l')) <+: B.filter (fun c => decide (c.1 + d < l))
  | [], _ => List.prefix_refl _
  | b :: B, h => by
    rw [List.map_cons, List.pairwise_cons] at h
    by_cases hb : b.1 + d < l'
    · rw [List.filter_cons_of_pos (by simpa using hb), List.filter_cons_of_pos (by simpa using hb.trans_le hl)]
      exact List.cons_prefix_cons.2 ⟨rfl, below_prefix hl h.2⟩
    · have e : (b :: B).filter (fun c => decide (c.1 + d < l')) = [] := by
        rw [List.filter_eq_nil_iff]
        intro c hc
        simp only [decide_eq_true_eq, not_lt]
        rcases List.mem_cons.1 hc with rfl | hc
        · exact not_lt.1 hb
        · exact (not_lt.1 hb).trans (by have := h.1 _ (List.mem_map_of_mem hc); linarith)
      rw [e]
      exact List.nil_prefix

variable [FloorRing K]

theorem pairs_section {A B C : List K} (hs : (A ++ B ++ C).Pairwise (· ≤ ·)) (hB : B ≠ []) {d : K} (hd : 0 < d)
    {ps qs : List (Nat × Nat)} (h1 : pairIndices (A ++ B ++ C) true d = .ok ps) (h2 : pairIndices B true d = .ok qs) :
    qs.map (fun c => (A.length + c.1, A.length + c.2)) <:+: ps := by
  obtain ⟨l', hl'⟩ : ∃ l', B.getLast? = some l' := ⟨_, List.getLast?_eq_some_getLast hB⟩
  obtain ⟨l, hl⟩ : ∃ l, (A ++ B ++ C).getLast? = some l := ⟨_, List.getLast?_eq_some_getLast (by simp [hB])⟩
  rw [pairIndices_all hl, Except.ok.injEq] at h1
  rw [pairIndices_all hl', Except.ok.injEq] at h2
  have hs' := hs
  rw [List.pairwise_append, List.pairwise_append] at hs
  obtain ⟨⟨-, hsB, hAB⟩, hsC, hABC⟩ := hs
  have hl'B : l' ∈ B := List.mem_of_getLast? hl'
  have hll : l' ≤ l := by
    rcases List.eq_nil_or_concat C with rfl | ⟨C', c, rfl⟩
    · rw [List.append_nil, List.getLast?_append_of_ne_nil _ hB, hl'] at hl
      cases hl
      exact le_rfl
    · rw [List.concat_eq_append, ← List.append_assoc, List.getLast?_append_of_ne_nil _ (by simp), List.getLast?_singleton] at hl
      cases hl
      exact hABC _ (by simp [hl'B]) _ (by simp)
  rw [← h1, ← h2, List.zipIdx_append, List.zipIdx_append, List.filter_append, List.filter_append, List.map_append, List.map_append]
  simp only [Nat.zero_add]
  refine List.IsInfix.trans ?_ ⟨_, _, rfl⟩
  have hpre := below_prefix (d := d) hll (B := B.zipIdx A.length) (by rw [List.zipIdx_map_fst]; exact hsB)
  refine List.IsInfix.trans ?_ ((hpre.map (fun c => (c.2, searchLeft (A ++ B ++ C) (c.1 + d)))).isInfix)
  have e : B.zipIdx A.length = B.zipIdx.map (fun c => (c.1, A.length + c.2)) := by
    apply List.ext_getElem?
    intro k
    simp only [List.getElem?_zipIdx, List.getElem?_map, Option.map_map, Function.comp_def, Nat.zero_add]
  rw [e, List.filter_map, List.map_map, List.map_map]
  have e2 : List.map ((fun c : Nat × Nat => (A.length + c.1, A.length + c.2)) ∘ fun c : K × Nat => (c.2, searchLeft B (c.1 + d)))
        (B.zipIdx.filter (fun c => decide (c.1 + d < l'))) =
      List.map ((fun c : K × Nat => (c.2, searchLeft (A ++ B ++ C) (c.1 + d))) ∘ fun c : K × Nat => (c.1, A.length + c.2))
        (B.zipIdx.filter ((fun c => decide (c.1 + d < l')) ∘ fun c => (c.1, A.length + c.2))) := by
    refine List.map_congr_left fun c hc => ?_
    rw [List.mem_filter, decide_eq_true_eq] at hc
    have hcB : c.1 ∈ B := by
      have := List.mem_map_of_mem (f := Prod.fst) hc.1
      rwa [List.zipIdx_map_fst] at this
    simp only [Function.comp_apply, Prod.mk.injEq, true_and]
    rw [searchLeft_section]
    · intro a ha
      exact (hAB a ha _ hcB).trans_lt (by linarith)
    · intro x hx
      exact hc.2.le.trans (hABC _ (by simp [hl'B]) x hx)
  rw [e2]

/-! ### errors of a section -/

theorem PartOf.npGet {α : Type} {n : Nat} {l b : List α} (h : PartOf n l b) {i : Nat} {x : α} (hx : TC.npGet b (i : Int) = .ok x) :
    TC.npGet l ((n + i : Nat) : Int) = .ok x := npGet_some.2 (h i x (npGet_some.1 hx))

theorem PartOf.zipWith {α β γ : Type} {n : Nat} {l b : List α} {l' b' : List β} (h : PartOf n l b) (h' : PartOf n l' b')
    (f : α → β → γ) : PartOf n (List.zipWith f l l') (List.zipWith f b b') := by
  intro i x hx
  rw [List.getElem?_zipWith_eq_some] at hx ⊢
  obtain ⟨a, c, h1, h2, h3⟩ := hx
  exact ⟨a, c, h i a h1, h' i c h2, h3⟩

/-- the samples of `B` are those of `T` from the `n`-th on -/
structure SectionAt (n : Nat) (T B : Traj K R) : Prop where
  pos : PartOf n T.pos B.pos
  tstamps : PartOf n T.tstamps B.tstamps
  arc : PartOf n T.arc B.arc
  none : B.tstamps ≠ [] → (T.rot = none ↔ B.rot = none)
  rot : ∀ r b, T.rot = some r → B.rot = some b → PartOf n r b

theorem sectionAt {T B : Traj K R} (hT : Coherent T) (hB : Coherent B) {before after : List (Sample K R)}
    (h : samples T = before ++ samples B ++ after) : SectionAt before.length T B := by
  have hp := PartOf.of_append h
  obtain ⟨n, hn⟩ : ∃ n, n = before.length := ⟨_, rfl⟩
  rw [← hn] at hp ⊢
  have hr := hp.map Sample.r
  rw [samples_map_r hT, samples_map_r hB] at hr
  have hx : PartOf n T.tstamps B.tstamps := by
    have := hp.map Sample.t
    rwa [samples_map_t hT, samples_map_t hB] at this
  refine ⟨?_, hx, ?_, ?_, ?_⟩
  · have := hp.map Sample.p
    rwa [samples_map_p hT, samples_map_p hB] at this
  · have := hp.map Sample.l
    rwa [samples_map_l hT, samples_map_l hB] at this
  · intro hne
    have h0 := List.length_pos_of_ne_nil hne
    rcases h1 : T.rot with _ | r <;> rcases h2 : B.rot with _ | b
    · simp
    · have l2 := hB.rot b h2
      have := hr 0 (some b[0]) (by rw [h2]; simp [rotColumn])
      rw [h1] at this
      simp only [rotColumn, List.getElem?_replicate] at this
      split at this <;> simp at this
    · have := hr 0 Option.none (by rw [h2]; simp [rotColumn, h0])
      rw [h1] at this
      simp [rotColumn] at this
    · simp
  · intro r b h1 h2 i x hx'
    have := hr i (some x)
    rw [h1, h2] at this
    simp only [rotColumn, List.getElem?_map, Option.map_eq_some_iff] at this
    obtain ⟨y, y1, y2⟩ := this ⟨x, hx', rfl⟩
    rw [y1]
    exact y2

theorem SectionAt.se3 {n : Nat} {T B : Traj K R} (h : SectionAt n T B) (hne : B.tstamps ≠ []) (L : RotLib K R) :
    PartOf n (T.se3 L) (B.se3 L) := by
  have hnone := h.none hne
  unfold Traj.se3
  rcases h1 : T.rot with _ | r <;> rcases h2 : B.rot with _ | b
  · exact h.pos.map _
  · rw [h1, h2] at hnone; simp at hnone
  · rw [h1, h2] at hnone; simp at hnone
  · exact h.pos.zipWith (h.rot r b h1 h2) _

theorem SectionAt.hasOrientation {n : Nat} {T B : Traj K R} (hT : Coherent T) (hB : Coherent B) (h : SectionAt n T B)
    (hne : B.tstamps ≠ []) : T.hasOrientation = B.hasOrientation := by
  have hnone := h.none hne
  have h0 := List.length_pos_of_ne_nil hne
  unfold Traj.hasOrientation
  rcases h1 : T.rot with _ | r <;> rcases h2 : B.rot with _ | b
  · rfl
  · rw [h1, h2] at hnone; simp at hnone
  · rw [h1, h2] at hnone; simp at hnone
  · have l1 := hT.rot r h1
    have l2 := hB.rot b h2
    obtain ⟨g, -⟩ := h.tstamps.get h0
    have : 0 < r.length := by omega
    have : 0 < b.length := by omega
    dsimp only
    rw [decide_eq_true this, decide_eq_true ‹0 < r.length›]

theorem pairDev_section {E : EvalLib K} {L : RotLib K R} {n : Nat} {T B U V : Traj K R} (h1 : SectionAt n T B) (h2 : SectionAt n U V)
    (hTo : T.hasOrientation = B.hasOrientation) (hUo : U.hasOrientation = V.hasOrientation) (hB : B.tstamps ≠ []) (hV : V.tstamps ≠ [])
    {D D' : List K} (hD : PartOf n D D') {c : Nat × Nat} {v : PairDev K} (h : pairDev E L B V D' c = .ok v) :
    pairDev E L T U D (n + c.1, n + c.2) = .ok v := by
  unfold pairDev at h ⊢
  simp only [bind, Except.bind, pure, Except.pure, hTo, hUo] at h ⊢
  rcases e1 : npGet D' (c.2 : Int) with _ | x1
  · rw [e1] at h; cases h
  rcases e2 : npGet D' (c.1 : Int) with _ | x2
  · rw [e1, e2] at h; cases h
  rw [e1, e2] at h
  rw [hD.npGet e1, hD.npGet e2]
  dsimp only at h ⊢
  split at h
  · rename_i ho
    rw [if_pos ho]
    rcases f1 : npGet (V.se3 L) (c.1 : Int) with _ | y1
    · rw [f1] at h; cases h
    rcases f2 : npGet (V.se3 L) (c.2 : Int) with _ | y2
    · rw [f1, f2] at h; cases h
    rcases f3 : npGet (B.se3 L) (c.1 : Int) with _ | y3
    · rw [f1, f2, f3] at h; cases h
    rcases f4 : npGet (B.se3 L) (c.2 : Int) with _ | y4
    · rw [f1, f2, f3, f4] at h; cases h
    rw [f1, f2, f3, f4] at h
    rw [(h2.se3 hV L).npGet f1, (h2.se3 hV L).npGet f2, (h1.se3 hB L).npGet f3, (h1.se3 hB L).npGet f4]
    exact h
  · rename_i ho
    rw [if_neg ho]
    rcases f1 : npGet V.pos (c.2 : Int) with _ | y1
    · rw [f1] at h; cases h
    rcases f2 : npGet V.pos (c.1 : Int) with _ | y2
    · rw [f1, f2] at h; cases h
    rcases f3 : npGet B.pos (c.2 : Int) with _ | y3
    · rw [f1, f2, f3] at h; cases h
    rcases f4 : npGet B.pos (c.1 : Int) with _ | y4
    · rw [f1, f2, f3, f4] at h; cases h
    rw [f1, f2, f3, f4] at h
    rw [h2.pos.npGet f1, h2.pos.npGet f2, h1.pos.npGet f3, h1.pos.npGet f4]
    exact h

theorem group_devs {E : EvalLib K} {L : RotLib K R} {T U : Traj K R} {s : RpeSettings K} {r : RpeResult K}
    (h : compareRelative E L T U s = .ok r) {g : RpeGroup K} (hg : g ∈ r.groups) :
    g.key ∈ marks s.minDist (s.maxDist + s.step) s.step ∧ ∃ D ps devs, pairScale s.unit U = some D ∧
      pairIndices D s.allPairs g.key = .ok ps ∧ mapE (pairDev E L T U D) ps = .ok devs ∧ g.posDev = devs.map PairDev.pos ∧
      g.rotDev = devs.filterMap PairDev.rot ∧ g.pairDist = devs.map PairDev.distance := by
  obtain ⟨_, _, a1, -⟩ := compareRelative_ok h
  obtain ⟨d, hd, hd'⟩ := mapE_mem a1 hg
  obtain ⟨D, ps, devs, e1, e2, e3, rfl, e⟩ := rpeGroup_ok hd'
  exact ⟨hd, D, ps, devs, e1, e2, e3, e⟩

theorem pairDev_rot {E : EvalLib K} {L : RotLib K R} {T U : Traj K R} {D : List K} {c : Nat × Nat} {v : PairDev K}
    (h : pairDev E L T U D c = .ok v) : v.rot.isSome = (U.hasOrientation && T.hasOrientation) := by
  unfold pairDev at h
  simp only [bind, Except.bind, pure, Except.pure] at h
  repeat' split at h
  all_goals first | cases h; done | skip
  all_goals
    cases h
    simp_all

/-- **C216**, bins: what a bin holds depends on its distance, not on the other distances that are asked for. -/
theorem C216_bins {E : EvalLib K} {L : RotLib K R} {T U : Traj K R} {s s' : RpeSettings K} (hu : s.unit = s'.unit)
    (ha : s.allPairs = s'.allPairs) {r r' : RpeResult K} (h : compareRelative E L T U s = .ok r)
    (h' : compareRelative E L T U s' = .ok r') {g g' : RpeGroup K} (hg : g ∈ r.groups) (hg' : g' ∈ r'.groups) (hk : g.key = g'.key) :
    g = g' := by
  obtain ⟨_, _, a1, -⟩ := compareRelative_ok h
  obtain ⟨_, _, b1, -⟩ := compareRelative_ok h'
  obtain ⟨d, -, hd⟩ := mapE_mem a1 hg
  obtain ⟨d', -, hd'⟩ := mapE_mem b1 hg'
  obtain ⟨D, ps, devs, e1, e2, e3, e4, e5, e6, e7⟩ := rpeGroup_ok hd
  obtain ⟨D', ps', devs', f1, f2, f3, f4, f5, f6, f7⟩ := rpeGroup_ok hd'
  rw [← hu, e1] at f1
  cases f1
  rw [← f4, ← hk, e4, ← ha, e2] at f2
  cases f2
  rw [e3] at f3
  cases f3
  rcases g with ⟨_, _, _, _⟩
  rcases g' with ⟨_, _, _, _⟩
  dsimp only at *
  rw [hk, e5, e6, e7, f5, f6, f7]

/-- **C216**, sections: with all pose pairs, the evaluation of a section of both trajectories gives in every bin a stretch of the
distances and errors that the evaluation of the whole trajectories gives in that bin. -/
theorem C216_sections {E : EvalLib K} {L : RotLib K R} {T B U V : Traj K R} (hT : Coherent T) (hB : Coherent B) (hU : Coherent U)
    (hV : Coherent V) (hlen' : B.tstamps.length = V.tstamps.length)
    {b a b' a' : List (Sample K R)} (h1 : samples T = b ++ samples B ++ a) (h2 : samples U = b' ++ samples V ++ a')
    (hb : b.length = b'.length) {s : RpeSettings K} (hall : s.allPairs = true) (hmin : 0 < s.minDist) (hstep : 0 < s.step)
    (hasc : ∀ D, pairScale s.unit U = some D → D.Pairwise (· ≤ ·)) {r r' : RpeResult K} (h : compareRelative E L T U s = .ok r)
    (h' : compareRelative E L B V s = .ok r') {g g' : RpeGroup K} (hg : g ∈ r.groups) (hg' : g' ∈ r'.groups) (hk : g.key = g'.key) :
    ∃ n, PartOf n g.pairDist g'.pairDist ∧ PartOf n g.posDev g'.posDev ∧ PartOf n g.rotDev g'.rotDev := by
  have k1 := sectionAt hT hB h1
  have k2 := sectionAt hU hV h2
  rw [← hb] at k2
  obtain ⟨m1, D, ps, devs, e1, e2, e3, e4, e5, e6⟩ := group_devs h hg
  obtain ⟨-, D', ps', devs', f1, f2, f3, f4, f5, f6⟩ := group_devs h' hg'
  have hd : 0 < g.key := lt_of_lt_of_le hmin (marks_ge hstep m1)
  have hDl := pairScale_length hV f1
  by_cases hne : V.tstamps = []
  · have hD' : D' = [] := List.length_eq_zero_iff.1 (by rw [hDl, hne]; rfl)
    subst hD'
    rw [hall] at f2
    cases f2
    cases f3
    refine ⟨0, ?_, ?_, ?_⟩
    · rw [f6]
      intro i x hx
      simp at hx
    · rw [f4]
      intro i x hx
      simp at hx
    · rw [f5]
      intro i x hx
      simp at hx
  have hneB : B.tstamps ≠ [] := by
    intro e
    rw [e] at hlen'
    exact hne (List.length_eq_zero_iff.1 hlen'.symm)
  obtain ⟨A, C, hA, hD⟩ : ∃ A C, A.length = b.length ∧ D = A ++ D' ++ C := by
    rw [hb]
    unfold pairScale at e1 f1
    rcases hu : s.unit with _ | _ | _ | _ | _ | _ <;> rw [hu] at e1 f1 <;> simp only [Option.some.injEq, reduceCtorEq] at e1 f1
    · refine ⟨b'.map Sample.l, a'.map Sample.l, by simp, ?_⟩
      rw [← e1, ← f1, ← samples_map_l hU, ← samples_map_l hV, h2]
      simp
    · refine ⟨b'.map Sample.t, a'.map Sample.t, by simp, ?_⟩
      rw [← e1, ← f1, ← samples_map_t hU, ← samples_map_t hV, h2]
      simp
  have hs := hasc D e1
  rw [hall] at e2 f2
  rw [← hk] at f2
  subst hD
  have hin := pairs_section hs (by rintro rfl; simp at hDl; exact hne (List.length_eq_zero_iff.1 hDl.symm)) hd e2 f2
  rw [hA] at hin
  have hpart : PartOf b.length (A ++ D' ++ C) D' := by
    rw [← hA]
    exact PartOf.of_append rfl
  obtain ⟨p1, p2, hps⟩ := hin
  have hdev : ∃ n, PartOf n devs devs' ∧ ∃ x y, devs = x ++ devs' ++ y ∧ x.length = n := by
    have hmap : mapE (pairDev E L T U (A ++ D' ++ C)) (ps'.map (fun c => (b.length + c.1, b.length + c.2))) = .ok devs' := by
      clear hps f6 f5 f4 f2 hg'
      induction ps' generalizing devs' with
      | nil => exact f3
      | cons c ps' ih =>
        obtain ⟨v, vs, v1, v2, rfl⟩ := mapE_cons_inv f3
        rw [List.map_cons]
        exact mapE_cons (pairDev_section k1 k2 (k1.hasOrientation hT hB hneB) (k2.hasOrientation hU hV hne) hneB hne hpart v1) (ih _ v2)
    have happ : ∀ {l l' : List (Nat × Nat)} {v : List (PairDev K)}, mapE (pairDev E L T U (A ++ D' ++ C)) (l ++ l') = .ok v →
        ∃ x y, mapE (pairDev E L T U (A ++ D' ++ C)) l = .ok x ∧ mapE (pairDev E L T U (A ++ D' ++ C)) l' = .ok y ∧ v = x ++ y := by
      intro l l'
      induction l with
      | nil =>
        intro v hv
        exact ⟨[], v, rfl, hv, rfl⟩
      | cons c l ih =>
        intro v hv
        obtain ⟨w, ws, w1, w2, rfl⟩ := mapE_cons_inv hv
        obtain ⟨x, y, x1, x2, rfl⟩ := ih w2
        exact ⟨w :: x, y, mapE_cons w1 x1, x2, rfl⟩
    rw [← hps] at e3
    obtain ⟨xy, z, q1, q2, rfl⟩ := happ e3
    obtain ⟨x, y, q3, q4, rfl⟩ := happ q1
    rw [hmap] at q4
    cases q4
    exact ⟨x.length, PartOf.of_append rfl, x, z, rfl, rfl⟩
  obtain ⟨n, hn, x, y, hxy, hx⟩ := hdev
  rw [e4, e5, e6, f4, f5, f6]
  refine ⟨n, hn.map _, hn.map _, ?_⟩
  have hall' : ∀ v ∈ devs, v.rot.isSome = (U.hasOrientation && T.hasOrientation) := by
    intro v hv
    obtain ⟨c, -, hc⟩ := mapE_mem e3 hv
    exact pairDev_rot hc
  rw [hxy] at hall' ⊢
  rw [List.filterMap_append, List.filterMap_append]
  rcases ho : (U.hasOrientation && T.hasOrientation)
  · have : devs'.filterMap PairDev.rot = [] := by
      rw [List.filterMap_eq_nil_iff]
      intro v hv
      have := hall' v (by simp [hv])
      rw [ho] at this
      simpa using this
    rw [this]
    intro i z hz
    simp at hz
  · have : (x.filterMap PairDev.rot).length = x.length := by
      clear hxy hx
      induction x with
      | nil => rfl
      | cons v x ih =>
        have hv := hall' v (by simp)
        rw [ho] at hv
        obtain ⟨w, hw⟩ := Option.isSome_iff_exists.1 hv
        rw [List.filterMap_cons_some hw, List.length_cons, List.length_cons, ih (fun u hu => hall' u (by simp at hu ⊢; tauto))]
    rw [← hx, ← this]
    exact PartOf.of_append rfl

/-! ### The hypotheses are met -/

/-- a computable stand-in for the numerical library -/
def exTallLib : EvalLib ℚ := { sqrt := id, acos := id, nrm := fun v => |v.z| }

/-- five poses one second and one metre of path apart, at the given heights -/
def exLadder (z : List ℚ) : Traj ℚ ℚ :=
  { tstamps := (List.range z.length).map (fun i => (i : ℚ)), pos := z.map (fun h => ⟨0, 0, h⟩), rot := none
    arc := (List.range z.length).map (fun i => (i : ℚ)), speed := z.map (fun _ => 0), sorting := .time, name := "climb", epsg := 0 }

def exTwoBins : RpeSettings ℚ := { minDist := 1, maxDist := 2, step := 1, unit := .second, allPairs := true }

/-- the poses from the second to the fifth: their errors are a stretch of the errors of all six -/
example : ((compareRelative exTallLib headingLib (exLadder [0, 1, 3, 6, 10, 15]) (exLadder [0, 0, 0, 0, 0, 0]) exTwoBins).toOption.map
      fun r => r.groups.map RpeGroup.posDev) = some [[some 1, some 2, some 3, some 4], [some (3 / 2), some (5 / 2), some (7 / 2)]] ∧
    ((Traj.crop 1 4 false (exLadder [0, 1, 3, 6, 10, 15])).2.pos = (exLadder [1, 3, 6, 10]).pos) ∧
    ((compareRelative exTallLib headingLib (Traj.crop 1 4 false (exLadder [0, 1, 3, 6, 10, 15])).2
      (Traj.crop 1 4 false (exLadder [0, 0, 0, 0, 0, 0])).2 exTwoBins).toOption.map
      fun r => r.groups.map RpeGroup.posDev) = some [[some 2, some 3], [some (5 / 2)]] := by
  decide +kernel

/-- the samples before and after are those that were cut off -/
example : samples (exLadder [0, 1, 3, 6, 10, 15]) = [⟨0, ⟨0, 0, 0⟩, none, 0, 0⟩] ++
      samples (Traj.crop 1 4 false (exLadder [0, 1, 3, 6, 10, 15])).2 ++ [⟨5, ⟨0, 0, 15⟩, none, 5, 0⟩] := by
  decide +kernel

end TC
