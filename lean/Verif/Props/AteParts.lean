import Verif.Props.AteDistance
import Verif.Props.RpeLocal
import Verif.Props.Stats
import Verif.Proofs.Intersect
/-!
# C217: an absolute evaluation by parts
-/
namespace TC
set_option linter.unusedSectionVars false
variable {K R : Type} [Field K] [LinearOrder K] [IsStrictOrderedRing K]

/-- `x` is the mean of `n` values with mean `a` and `m` values with mean `b` -/
def PooledMean (n m : Nat) (a b x : Except Err K) : Prop :=
  ∃ u v w, a = .ok u ∧ b = .ok v ∧ x = .ok w ∧ ((n : K) + m) * w = n * u + m * v

/-- the same for root mean squares -/
def PooledRms (n m : Nat) (a b x : Except Err K) : Prop :=
  ∃ u v w, a = .ok u ∧ b = .ok v ∧ x = .ok w ∧ ((n : K) + m) * w ^ 2 = n * u ^ 2 + m * v ^ 2

def LargerOf (a b x : Except Err K) : Prop := ∃ u v, a = .ok u ∧ b = .ok v ∧ x = .ok (max u v)

def SmallerOf (a b x : Except Err K) : Prop := ∃ u v, a = .ok u ∧ b = .ok v ∧ x = .ok (min u v)

theorem pooled_mean {x y : List K} (hx : x ≠ []) (hy : y ≠ []) : PooledMean x.length y.length (npMean x) (npMean y) (npMean (x ++ y)) := by
  have h1 : (x.length : K) ≠ 0 := by simpa using hx
  have h2 : (y.length : K) ≠ 0 := by simpa using hy
  have h3 : (x.length : K) + y.length ≠ 0 := by
    have := List.length_pos_of_ne_nil hx
    exact_mod_cast (by omega : x.length + y.length ≠ 0)
  refine ⟨_, _, _, npMean_ne hx, npMean_ne hy, npMean_ne (by simp [hx]), ?_⟩
  rw [List.sum_append, List.length_append, Nat.cast_add]
  field_simp

theorem pooled_rms {E : EvalLib K} (hE : IsEvalLib E) {x y : List K} (hx : x ≠ []) (hy : y ≠ []) :
    PooledRms x.length y.length (rms E x) (rms E y) (rms E (x ++ y)) := by
  obtain ⟨u, v, w, e1, e2, e3, e⟩ := pooled_mean (x := x.map (fun a => a ^ 2)) (y := y.map (fun a => a ^ 2)) (by simpa) (by simpa)
  have key : ∀ {l : List K} {c : K}, npMean (l.map (fun a => a ^ 2)) = .ok c → 0 ≤ c := by
    intro l c hc
    unfold npMean at hc
    split at hc
    · cases hc
    · cases hc
      refine div_nonneg (List.sum_nonneg ?_) (Nat.cast_nonneg _)
      intro a ha
      obtain ⟨b, -, rfl⟩ := List.mem_map.1 ha
      positivity
  rw [← List.map_append] at e3
  have k1 := hE.sqrt_sq u (key e1)
  have k2 := hE.sqrt_sq v (key e2)
  have k3 := hE.sqrt_sq w (key e3)
  refine ⟨E.sqrt u, E.sqrt v, E.sqrt w, ?_, ?_, ?_, ?_⟩
  · unfold rms; rw [e1]; rfl
  · unfold rms; rw [e2]; rfl
  · unfold rms; rw [e3]; rfl
  · rw [List.length_map, List.length_map] at e
    rw [sq, sq, sq, k1, k2, k3, e]

theorem larger_of {x y : List K} (hx : x ≠ []) (hy : y ≠ []) : LargerOf (pyMax x) (pyMax y) (pyMax (x ++ y)) := by
  obtain ⟨a, a1, a2, a3⟩ := pyMax_spec hx
  obtain ⟨b, b1, b2, b3⟩ := pyMax_spec hy
  obtain ⟨c, c1, c2, c3⟩ := pyMax_spec (l := x ++ y) (by simp [hx])
  refine ⟨a, b, a1, b1, ?_⟩
  rw [c1]
  congr 1
  apply le_antisymm
  · rcases List.mem_append.1 c2 with h | h
    · exact le_max_of_le_left (a3 _ h)
    · exact le_max_of_le_right (b3 _ h)
  · exact max_le (c3 _ (List.mem_append_left _ a2)) (c3 _ (List.mem_append_right _ b2))

theorem smaller_of {x y : List K} (hx : x ≠ []) (hy : y ≠ []) : SmallerOf (pyMin x) (pyMin y) (pyMin (x ++ y)) := by
  obtain ⟨a, a1, a2, a3⟩ := pyMin_spec hx
  obtain ⟨b, b1, b2, b3⟩ := pyMin_spec hy
  obtain ⟨c, c1, c2, c3⟩ := pyMin_spec (l := x ++ y) (by simp [hx])
  refine ⟨a, b, a1, b1, ?_⟩
  rw [c1]
  congr 1
  apply le_antisymm
  · exact le_min (c3 _ (List.mem_append_left _ a2)) (c3 _ (List.mem_append_right _ b2))
  · rcases List.mem_append.1 c2 with h | h
    · exact min_le_of_left_le (a3 _ h)
    · exact min_le_of_right_le (b3 _ h)

/-- `T` consists of the poses of `A` followed by those of `B` -/
structure FollowedBy (A B T : Traj K R) : Prop where
  pos : T.pos = A.pos ++ B.pos
  rot : ∀ t, T.rot = some t → ∃ a b, A.rot = some a ∧ B.rot = some b ∧ t = a ++ b

theorem followedBy {A B T : Traj K R} (hA : Coherent A) (hB : Coherent B) (hT : Coherent T) (hneA : A.pos ≠ []) (hneB : B.pos ≠ [])
    (h : samples T = samples A ++ samples B) : FollowedBy A B T := by
  constructor
  · rw [← samples_map_p hT, ← samples_map_p hA, ← samples_map_p hB, h, List.map_append]
  · intro t ht
    have e : (samples T).map Sample.r = (samples A).map Sample.r ++ (samples B).map Sample.r := by rw [h, List.map_append]
    rw [samples_map_r hT, samples_map_r hA, samples_map_r hB, ht] at e
    have key : ∀ {Z : Traj K R}, Coherent Z → Z.pos ≠ [] → (∀ o ∈ rotColumn Z.tstamps.length Z.rot, ∃ q : R, o = some q) →
        ∃ z, Z.rot = some z := by
      intro Z hZ hne ho
      rcases hz : Z.rot with _ | z
      · have h0 := List.length_pos_of_ne_nil hne
        rw [hZ.pos] at h0
        obtain ⟨q, hq⟩ := ho none (by rw [hz]; exact List.mem_replicate.2 ⟨by omega, rfl⟩)
        cases hq
      · exact ⟨z, rfl⟩
    have hall : ∀ o ∈ rotColumn A.tstamps.length A.rot ++ rotColumn B.tstamps.length B.rot, ∃ q : R, o = some q := by
      rw [← e]
      intro o ho
      simp only [rotColumn, List.mem_map] at ho
      obtain ⟨q, -, rfl⟩ := ho
      exact ⟨q, rfl⟩
    obtain ⟨a, ha⟩ := key hA hneA (fun o ho => hall o (List.mem_append_left _ ho))
    obtain ⟨b, hb⟩ := key hB hneB (fun o ho => hall o (List.mem_append_right _ ho))
    refine ⟨a, b, ha, hb, ?_⟩
    rw [ha, hb] at e
    simp only [rotColumn, ← List.map_append] at e
    exact List.map_injective_iff.2 (Option.some_injective R) e

/-- **C217**, positions: for trajectories in two parts, mean and mean square of the position errors are the pooled ones of the parts,
largest and smallest error are the larger and the smaller of the two. -/
theorem C217_positions {E : EvalLib K} (hE : IsEvalLib E) {L : RotLib K R} {A B T C D U : Traj K R} (hA : Coherent A) (hB : Coherent B)
    (hT : Coherent T) (hC : Coherent C) (hD : Coherent D) (hU : Coherent U) (h1 : samples T = samples A ++ samples B)
    (h2 : samples U = samples C ++ samples D) (l1 : A.pos.length = C.pos.length) (l2 : B.pos.length = D.pos.length)
    (hneA : A.pos ≠ []) (hneB : B.pos ≠ []) {x y r : AteResult K R} (hx : compareAbsolute E L A C = .ok x)
    (hy : compareAbsolute E L B D = .ok y) (hr : compareAbsolute E L T U = .ok r) :
    r.posDev = x.posDev ++ y.posDev ∧
    PooledMean A.pos.length B.pos.length (x.posAte E) (y.posAte E) (r.posAte E) ∧
    PooledRms A.pos.length B.pos.length (x.posDevRms E) (y.posDevRms E) (r.posDevRms E) ∧
    LargerOf (x.posDevMax E) (y.posDevMax E) (r.posDevMax E) ∧ SmallerOf (x.posDevMin E) (y.posDevMin E) (r.posDevMin E) := by
  have f1 := followedBy hA hB hT hneA hneB h1
  have f2 := followedBy hC hD hU (by rintro e; simp [e] at l1; exact hneA l1) (by rintro e; simp [e] at l2; exact hneB l2) h2
  have hlist : ∀ {A B : Traj K R} {r : AteResult K R}, compareAbsolute E L A B = .ok r → A.pos.length = B.pos.length →
      r.posDev = List.zipWith (fun p q => p - q) B.pos A.pos := by
    intro A B r h hl
    have := (compareAbsolute_fields h).1
    rw [bcast_same _ hl.symm, Except.ok.injEq] at this
    exact this.symm
  have ex := hlist hx l1
  have ey := hlist hy l2
  have er := hlist hr (by rw [f1.pos, f2.pos, List.length_append, List.length_append, l1, l2])
  have happ : r.posDev = x.posDev ++ y.posDev := by
    rw [er, ex, ey, f1.pos, f2.pos, List.zipWith_append l1.symm]
  have n1 : (x.posDevComb E).length = A.pos.length := by
    unfold AteResult.posDevComb
    rw [ex]
    simp [l1]
  have n2 : (y.posDevComb E).length = B.pos.length := by
    unfold AteResult.posDevComb
    rw [ey]
    simp [l2]
  have m1 : x.posDevComb E ≠ [] := by
    intro e
    rw [e] at n1
    exact hneA (List.length_eq_zero_iff.1 n1.symm)
  have m2 : y.posDevComb E ≠ [] := by
    intro e
    rw [e] at n2
    exact hneB (List.length_eq_zero_iff.1 n2.symm)
  have hcomb : r.posDevComb E = x.posDevComb E ++ y.posDevComb E := by
    unfold AteResult.posDevComb
    rw [happ, List.map_append]
  refine ⟨happ, ?_⟩
  unfold AteResult.posAte AteResult.posDevRms AteResult.posDevMax AteResult.posDevMin
  rw [hcomb, ← n1, ← n2]
  exact ⟨pooled_mean m1 m2, pooled_rms hE m1 m2, larger_of m1 m2, smaller_of m1 m2⟩

/-- **C217**, orientations: the same for the rotation errors, and with orientations the directed deviations are those of the parts. -/
theorem C217_orientations {E : EvalLib K} (hE : IsEvalLib E) {L : RotLib K R} {A B T C D U : Traj K R} (hA : Coherent A)
    (hB : Coherent B) (hT : Coherent T) (hC : Coherent C) (hD : Coherent D) (hU : Coherent U) (h1 : samples T = samples A ++ samples B)
    (h2 : samples U = samples C ++ samples D) (l1 : A.pos.length = C.pos.length) (l2 : B.pos.length = D.pos.length)
    (hneA : A.pos ≠ []) (hneB : B.pos ≠ []) (hrT : T.rot ≠ none) (hrU : U.rot ≠ none) {x y r : AteResult K R}
    (hx : compareAbsolute E L A C = .ok x) (hy : compareAbsolute E L B D = .ok y) (hr : compareAbsolute E L T U = .ok r) :
    r.directed = x.directed ++ y.directed ∧
    (∃ u v, x.rotDev = some u ∧ y.rotDev = some v ∧ r.rotDev = some (u ++ v)) ∧
    PooledMean A.pos.length B.pos.length (x.rotAte E L) (y.rotAte E L) (r.rotAte E L) ∧
    PooledRms A.pos.length B.pos.length (x.rotDevRms E L) (y.rotDevRms E L) (r.rotDevRms E L) ∧
    LargerOf (x.rotDevMax E L) (y.rotDevMax E L) (r.rotDevMax E L) ∧ SmallerOf (x.rotDevMin E L) (y.rotDevMin E L) (r.rotDevMin E L) := by
  have hneC : C.pos ≠ [] := by rintro e; simp [e] at l1; exact hneA l1
  have hneD : D.pos ≠ [] := by rintro e; simp [e] at l2; exact hneB l2
  have f1 := followedBy hA hB hT hneA hneB h1
  have f2 := followedBy hC hD hU hneC hneD h2
  obtain ⟨t, ht⟩ := Option.ne_none_iff_exists'.1 hrT
  obtain ⟨u, hu⟩ := Option.ne_none_iff_exists'.1 hrU
  obtain ⟨a, b, ha, hb, rfl⟩ := f1.rot t ht
  obtain ⟨c, d, hc, hd, rfl⟩ := f2.rot u hu
  have la := hA.rot a ha
  have lb := hB.rot b hb
  have lc := hC.rot c hc
  have ld := hD.rot d hd
  have pa := hA.pos
  have pb := hB.pos
  have pc := hC.pos
  have pd := hD.pos
  have hlist : ∀ {A B : Traj K R} {r : AteResult K R} {a b : List R}, compareAbsolute E L A B = .ok r →
      A.rot = some a → B.rot = some b → a.length = b.length →
      r.rotDev = some (List.zipWith (fun p q => L.mul p (L.inv q)) b a) ∧
      devDirectionsWithRot B.pos A.pos (b.map L.toMat) = .ok r.directed := by
    intro A B r a b h hA hB hl
    obtain ⟨d, e1, e2⟩ := (compareAbsolute_fields h).2.1 b a hB hA
    rw [bcast_same _ hl.symm, Except.ok.injEq] at e1
    rw [e2, e1]
    refine ⟨rfl, ?_⟩
    unfold compareAbsolute at h
    simp only [bind, Except.bind, pure, Except.pure] at h
    rcases k1 : bcast (fun a b => a - b) B.pos A.pos with e | p
    · rw [k1] at h; cases h
    rw [k1] at h
    dsimp only at h
    rcases k2 : directedDeviations E L B.pos A.pos (rotEither B.rot A.rot) with e | q
    · rw [k2] at h; cases h
    rw [k2] at h
    dsimp only at h
    rw [hA, hB] at h
    dsimp only at h
    rw [bcast_same _ hl.symm] at h
    cases h
    rw [hB] at k2
    exact k2
  obtain ⟨ex, dx⟩ := hlist hx ha hc (by omega)
  obtain ⟨ey, dy⟩ := hlist hy hb hd (by omega)
  obtain ⟨er, dr⟩ := hlist hr ht hu (by simp only [List.length_append]; omega)
  rw [List.zipWith_append (by omega : c.length = a.length)] at er
  have hdir : ∀ (P P' Q Q' : List (V3 K)) (M M' : List (M3 K)) (i j : List (V3 K)), P.length = Q.length → M.length = P.length →
      devDirectionsWithRot P Q M = .ok i → devDirectionsWithRot P' Q' M' = .ok j →
      devDirectionsWithRot (P ++ P') (Q ++ Q') (M ++ M') = .ok (i ++ j) := by
    intro P
    induction P with
    | nil =>
      intro P' Q Q' M M' i j h1 h2 hi hj
      rw [List.length_eq_zero_iff.1 h1.symm] at hi ⊢
      rw [List.length_eq_zero_iff.1 h2]
      cases hi
      exact hj
    | cons p P ih =>
      intro P' Q Q' M M' i j h1 h2 hi hj
      rcases Q with _ | ⟨q, Q⟩
      · simp at h1
      rcases M with _ | ⟨m, M⟩
      · simp at h2
      simp only [List.length_cons, Nat.add_right_cancel_iff] at h1 h2
      simp only [devDirectionsWithRot, bind, Except.bind, pure, Except.pure, List.cons_append] at hi ⊢
      rcases hi' : devDirectionsWithRot P Q M with e | i'
      · rw [hi'] at hi; cases hi
      rw [hi'] at hi
      cases hi
      rw [ih P' Q Q' M M' i' j h1 h2 hi' hj]
      rfl
  have hd' := hdir _ _ _ _ _ _ _ _ l1.symm (by rw [List.length_map]; omega) dx dy
  rw [← List.map_append, ← f1.pos, ← f2.pos, dr, Except.ok.injEq] at hd'
  refine ⟨hd', ⟨_, _, ex, ey, er⟩, ?_⟩
  have n1 : (x.rotDevComb E L).length = A.pos.length := by
    unfold AteResult.rotDevComb
    rw [ex]
    simp
    omega
  have n2 : (y.rotDevComb E L).length = B.pos.length := by
    unfold AteResult.rotDevComb
    rw [ey]
    simp
    omega
  have m1 : x.rotDevComb E L ≠ [] := by
    intro e
    rw [e] at n1
    exact hneA (List.length_eq_zero_iff.1 n1.symm)
  have m2 : y.rotDevComb E L ≠ [] := by
    intro e
    rw [e] at n2
    exact hneB (List.length_eq_zero_iff.1 n2.symm)
  have hcomb : r.rotDevComb E L = x.rotDevComb E L ++ y.rotDevComb E L := by
    unfold AteResult.rotDevComb
    rw [ex, ey, er]
    simp only [List.map_append]
  unfold AteResult.rotAte AteResult.rotDevRms AteResult.rotDevMax AteResult.rotDevMin
  simp only [ex, ey, er, Option.isSome_some, if_true]
  rw [hcomb, ← n1, ← n2]
  exact ⟨pooled_mean m1 m2, pooled_rms hE m1 m2, larger_of m1 m2, smaller_of m1 m2⟩

/-! ### The hypotheses are met -/

/-- poses at the given times, heights and headings -/
def exStages (l : List (ℚ × ℚ × ℚ)) : Traj ℚ ℚ :=
  { tstamps := l.map (fun a => a.1), pos := l.map (fun a => ⟨a.1, 0, a.2.1⟩), rot := some (l.map (fun a => a.2.2))
    arc := l.map (fun a => a.1), speed := l.map (fun _ => 0), sorting := .time, name := "stages", epsg := 0 }

theorem exStages_coherent (l : List (ℚ × ℚ × ℚ)) : Coherent (exStages l) := by
  refine ⟨?_, ?_, ?_, ?_⟩
  · simp [exStages]
  · simp [exStages]
  · simp [exStages]
  · rintro r h
    cases h
    simp [exStages]

/-- three poses, two in the first part and one in the second; the mean errors are 2, 5 and 3 -/
example : samples (exStages [(0, 1, 0), (1, 3, 10), (2, 5, 20)]) = samples (exStages [(0, 1, 0), (1, 3, 10)]) ++ samples (exStages [(2, 5, 20)]) ∧
    samples (exStages [(0, 0, 0), (1, 0, 0), (2, 0, 0)]) = samples (exStages [(0, 0, 0), (1, 0, 0)]) ++ samples (exStages [(2, 0, 0)]) ∧
    ((compareAbsolute exTallLib headingLib (exStages [(0, 1, 0), (1, 3, 10)]) (exStages [(0, 0, 0), (1, 0, 0)])).toOption.map
      fun r => (r.posAte exTallLib).toOption) = some (some 2) ∧
    ((compareAbsolute exTallLib headingLib (exStages [(2, 5, 20)]) (exStages [(2, 0, 0)])).toOption.map
      fun r => (r.posAte exTallLib).toOption) = some (some 5) ∧
    ((compareAbsolute exTallLib headingLib (exStages [(0, 1, 0), (1, 3, 10), (2, 5, 20)]) (exStages [(0, 0, 0), (1, 0, 0), (2, 0, 0)])).toOption.map
      fun r => (r.posAte exTallLib).toOption) = some (some 3) := by
  decide +kernel

end TC
