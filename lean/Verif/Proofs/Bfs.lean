import Verif.Spec.Graph
/-!
# Breadth-first search
-/
namespace TC

theorem visitChildren_spec (seen next cs : List Nat) : ∃ new,
    visitChildren seen next cs = (seen ++ new, next ++ new) ∧ new.Nodup ∧
      (∀ x ∈ new, x ∉ seen ∧ x ∈ cs) ∧ ∀ c ∈ cs, c ∈ seen ++ new := by
  induction cs generalizing seen next with
  | nil => exact ⟨[], by simp [visitChildren], by simp, by simp, by simp⟩
  | cons c cs ih =>
    unfold visitChildren
    by_cases hc : c ∈ seen
    · rw [if_pos hc]
      obtain ⟨new, h1, h2, h3, h4⟩ := ih seen next
      refine ⟨new, h1, h2, fun x hx => ⟨(h3 x hx).1, by simp [(h3 x hx).2]⟩, ?_⟩
      intro x hx
      rcases List.mem_cons.1 hx with rfl | hx
      · simp [hc]
      · exact h4 x hx
    · rw [if_neg hc]
      obtain ⟨new, h1, h2, h3, h4⟩ := ih (seen ++ [c]) (next ++ [c])
      refine ⟨c :: new, by rw [h1]; simp, ?_, ?_, ?_⟩
      · rw [List.nodup_cons]
        exact ⟨fun h => (h3 c h).1 (by simp), h2⟩
      · intro x hx
        rcases List.mem_cons.1 hx with rfl | hx
        · exact ⟨hc, by simp⟩
        · have := h3 x hx
          simp only [List.mem_append, List.mem_singleton, not_or] at this
          exact ⟨this.1.1, by simp [this.2]⟩
      · intro x hx
        rcases List.mem_cons.1 hx with rfl | hx
        · simp
        · have := h4 x hx
          simpa using this

theorem visitLevel_spec (g : Graph) (seen next level : List Nat) : ∃ new,
    visitLevel g seen next level = (seen ++ new, next ++ new) ∧ new.Nodup ∧
      (∀ x ∈ new, x ∉ seen ∧ ∃ p ∈ level, x ∈ g.adj p) ∧
      ∀ p ∈ level, ∀ c ∈ g.adj p, c ∈ seen ++ new := by
  induction level generalizing seen next with
  | nil => exact ⟨[], by simp [visitLevel], by simp, by simp, by simp⟩
  | cons p ps ih =>
    unfold visitLevel
    obtain ⟨n1, a1, a2, a3, a4⟩ := visitChildren_spec seen next (g.adj p)
    rw [a1]
    obtain ⟨n2, b1, b2, b3, b4⟩ := ih (seen ++ n1) (next ++ n1)
    refine ⟨n1 ++ n2, by simp only [b1, List.append_assoc], ?_, ?_, ?_⟩
    · rw [List.nodup_append]
      refine ⟨a2, b2, ?_⟩
      rintro x hx y hy rfl
      exact (b3 x hy).1 (by simp [hx])
    · intro x hx
      rcases List.mem_append.1 hx with hx | hx
      · exact ⟨(a3 x hx).1, p, by simp, (a3 x hx).2⟩
      · obtain ⟨h1, q, h2, h3⟩ := b3 x hx
        simp only [List.mem_append, not_or] at h1
        exact ⟨h1.1, q, by simp [h2], h3⟩
    · intro q hq c hc
      rcases List.mem_cons.1 hq with rfl | hq
      · have := a4 c hc
        simp only [List.mem_append] at this ⊢
        tauto
      · have := b4 q hq c hc
        simpa using this

theorem bfsLevels_spec (g : Graph) (hr : ∀ u v, v ∈ g.adj u → v < g.n) (root : Nat) (d : Nat)
    (seen level : List Nat) (hn : seen.Nodup) (hlt : ∀ x ∈ seen, x < g.n)
    (hreach : ∀ x ∈ seen, Reach g root x) (hsub : ∀ x ∈ level, x ∈ seen)
    (hcl : ∀ u ∈ seen, u ∉ level → ∀ c ∈ g.adj u, c ∈ seen)
    (hb : level = [] ∨ g.n + 1 ≤ d + seen.length) :
    ∃ new, bfsLevels g d seen level = seen ++ new ∧ (seen ++ new).Nodup ∧
      (∀ x ∈ seen ++ new, Reach g root x) ∧
      ∀ u ∈ seen ++ new, ∀ c ∈ g.adj u, c ∈ seen ++ new := by
  induction d generalizing seen level with
  | zero =>
    have hlen : seen.length ≤ g.n := by
      have := List.subperm_of_subset hn (l₂ := List.range g.n) (fun x hx => by simpa using hlt x hx)
      simpa using this.length_le
    have hl : level = [] := by
      rcases hb with h | h
      · exact h
      · omega
    subst hl
    exact ⟨[], by simp [bfsLevels], by simpa using hn, by simpa using hreach,
      by simpa using hcl⟩
  | succ d ih =>
    unfold bfsLevels
    by_cases hl : level = []
    · subst hl
      exact ⟨[], by simp, by simpa using hn, by simpa using hreach, by simpa using hcl⟩
    · rw [if_neg (by simpa using hl)]
      obtain ⟨new, e1, e2, e3, e4⟩ := visitLevel_spec g seen [] level
      rw [e1]
      simp only [List.nil_append]
      have hb' := hb.resolve_left hl
      obtain ⟨new', f1, f2, f3, f4⟩ := ih (seen ++ new) new
        (by
          rw [List.nodup_append]
          refine ⟨hn, e2, ?_⟩
          rintro x hx y hy rfl
          exact (e3 x hy).1 hx)
        (by
          intro x hx
          rcases List.mem_append.1 hx with hx | hx
          · exact hlt x hx
          · obtain ⟨_, p, _, hp⟩ := e3 x hx
            exact hr p x hp)
        (by
          intro x hx
          rcases List.mem_append.1 hx with hx | hx
          · exact hreach x hx
          · obtain ⟨_, p, hp1, hp⟩ := e3 x hx
            exact (hreach p (hsub p hp1)).tail hp)
        (fun x hx => by simp [hx])
        (by
          intro u hu hun c hc
          rcases List.mem_append.1 hu with hu | hu
          · by_cases hul : u ∈ level
            · exact e4 u hul c hc
            · exact List.mem_append_left _ (hcl u hu hul c hc)
          · exact absurd hu hun)
        (by
          by_cases hnew : new = []
          · exact Or.inl hnew
          · have := List.length_pos_of_ne_nil hnew
            right
            simp only [List.length_append]
            omega)
      exact ⟨new ++ new', by rw [f1]; simp, by simpa using f2, by simpa using f3, by simpa using f4⟩

/-- the search lists exactly the nodes that can be reached, each once, the root first -/
theorem bfs_spec (g : Graph) (hr : ∀ u v, v ∈ g.adj u → v < g.n) {root : Nat} (hroot : root < g.n) :
    (bfs g root).Nodup ∧ (∀ x, x ∈ bfs g root ↔ Reach g root x) ∧ (bfs g root)[0]? = some root := by
  obtain ⟨new, h1, h2, h3, h4⟩ := bfsLevels_spec g hr root g.n [root] [root] (by simp)
    (by simpa using hroot) (by simp [Reach, Relation.ReflTransGen.refl]) (by simp) (by simp)
    (by right; simp)
  unfold bfs
  rw [h1]
  refine ⟨h2, fun x => ⟨h3 x, ?_⟩, by simp⟩
  intro hx
  induction hx with
  | refl => simp
  | tail _ hbc ih => exact h4 _ ih _ hbc

end TC
