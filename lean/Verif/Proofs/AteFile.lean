import Verif.Proofs.RpeFile
import Verif.Proofs.Interp
/-!
# Reading back a written ATE result
-/
namespace TC
set_option linter.unusedSectionVars false
variable {K R : Type} [Field K] [LinearOrder K] [IsStrictOrderedRing K] [FloorRing K]

/-! ### columns of numbers -/

theorem numColumn_eq {σ : Type} {d : Nat} {S : List σ} {f : σ → List K} {g : σ → K}
    {cols : List Str} {name : Str} {i : Nat} (hi : cols.findIdx? (fun c => decide (c = name)) = some i)
    (hg : ∀ s ∈ S, (f s)[i]? = some (g s)) :
    numColumn (cols, S.map (fun s => (f s).map (fmtFixed d))) name = .ok (S.map (fun s => roundTo d (g s))) := by
  have h := column_eq (d := d) (S := S) (f := fun s => (f s).map some) (g := fun s => some (g s)) hi
    (fun s hs => by rw [List.getElem?_map, hg s hs]; rfl)
  have e : S.map (fun s => ((f s).map some).map (fmtCell d)) = S.map (fun s => (f s).map (fmtFixed d)) := by
    apply List.map_congr_left
    intro s _
    rw [List.map_map]; rfl
  rw [e] at h
  unfold numColumn
  rw [h]
  simp only [bind, Except.bind]
  have e2 : S.map (fun s => (some (g s)).map (roundTo d)) = (S.map (fun s => roundTo d (g s))).map some := by
    rw [List.map_map]; rfl
  rw [e2, numbers_mapSome]

theorem numColumn3_eq {σ : Type} {d : Nat} {S : List σ} {f : σ → List K} {g : σ → V3 K}
    {cols : List Str} {a b c : Str} {i j k : Nat} (hi : cols.findIdx? (fun x => decide (x = a)) = some i)
    (hj : cols.findIdx? (fun x => decide (x = b)) = some j) (hk : cols.findIdx? (fun x => decide (x = c)) = some k)
    (hg : ∀ s ∈ S, (f s)[i]? = some (g s).x ∧ (f s)[j]? = some (g s).y ∧ (f s)[k]? = some (g s).z) :
    numColumn3 (cols, S.map (fun s => (f s).map (fmtFixed d))) a b c = .ok (S.map (fun s => round3 d (g s))) := by
  unfold numColumn3
  rw [numColumn_eq hi (fun s hs => (hg s hs).1), numColumn_eq hj (fun s hs => (hg s hs).2.1),
    numColumn_eq hk (fun s hs => (hg s hs).2.2)]
  simp only [bind, Except.bind, pure, Except.pure]
  rw [zip3_map]
  rfl

/-! ### rows -/

/-- time, arc length, position, quaternion, deviation, directed deviation, quaternion of the
deviation -/
abbrev AteRow (K : Type) := K × K × V3 K × List K × V3 K × V3 K × List K

/-- the cells of a row -/
def ateCells (s : AteRow K) : List K :=
  s.1 :: s.2.1 :: (s.2.2.1.cells ++ s.2.2.2.1 ++ (s.2.2.2.2.1.cells ++ s.2.2.2.2.2.1.cells) ++ s.2.2.2.2.2.2)

/-- the rows of a result -/
def ateRows (io : IoLib K R) (r : AteResult K R) : List (AteRow K) :=
  r.trajectory.tstamps.zip (r.trajectory.arc.zip (r.trajectory.pos.zip
    ((quatColumn io r.trajectory.tstamps.length r.trajRot).zip (r.posDev.zip (r.directed.zip
      (quatColumn io r.trajectory.tstamps.length r.rotDev))))))

/-- the number of quaternion cells -/
def qWidth (b : Bool) : Nat := if b then 4 else 0

/-- the column names -/
def ateCols (a b : Bool) : List Str :=
  ["time", "arc_lengths", "pos_x", "pos_y", "pos_z"].map String.toList ++
  (if a then AteResult.quatNames "rot_" else []) ++
  ["pos_dev_x", "pos_dev_y", "pos_dev_z", "pos_dev_along", "pos_dev_cross_h", "pos_dev_cross_v"].map
    String.toList ++
  (if b then AteResult.quatNames "rot_dev_" else [])

theorem ateColumns_eq (r : AteResult K R) : r.columns = ateCols r.trajRot.isSome r.rotDev.isSome := by
  unfold AteResult.columns ateCols
  cases r.trajRot <;> cases r.rotDev <;> rfl

theorem length_four {l : List K} (h : l.length = 4) : ∃ a b c d, l = [a, b, c, d] := by
  match l, h with
  | [a, b, c, d], _ => exact ⟨a, b, c, d, rfl⟩

/-- where the cells are -/
theorem ateCells_get {a b : Bool} {s : AteRow K} (h1 : s.2.2.2.1.length = qWidth a)
    (h2 : s.2.2.2.2.2.2.length = qWidth b) :
    ((ateCells s)[0]? = some s.1 ∧ (ateCells s)[1]? = some s.2.1) ∧
    ((ateCells s)[2]? = some s.2.2.1.x ∧ (ateCells s)[3]? = some s.2.2.1.y ∧ (ateCells s)[4]? = some s.2.2.1.z) ∧
    ((ateCells s)[5 + qWidth a]? = some s.2.2.2.2.1.x ∧ (ateCells s)[6 + qWidth a]? = some s.2.2.2.2.1.y ∧
      (ateCells s)[7 + qWidth a]? = some s.2.2.2.2.1.z) ∧
    ((ateCells s)[8 + qWidth a]? = some s.2.2.2.2.2.1.x ∧ (ateCells s)[9 + qWidth a]? = some s.2.2.2.2.2.1.y ∧
      (ateCells s)[10 + qWidth a]? = some s.2.2.2.2.2.1.z) ∧
    (ateCells s).length = 11 + qWidth a + qWidth b ∧
    (∀ i < 4, a = true → (ateCells s)[5 + i]? = some (s.2.2.2.1.getD i 0)) ∧
    (∀ i < 4, b = true → (ateCells s)[11 + qWidth a + i]? = some (s.2.2.2.2.2.2.getD i 0)) := by
  obtain ⟨t, l, p, q, d, e, u⟩ := s
  simp only at h1 h2 ⊢
  have four : ∀ {P : Nat → Prop}, P 0 → P 1 → P 2 → P 3 → ∀ i < 4, P i := by
    intro P p0 p1 p2 p3 i hi
    match i, hi with
    | 0, _ => exact p0
    | 1, _ => exact p1
    | 2, _ => exact p2
    | 3, _ => exact p3
  cases a <;> cases b
  · obtain rfl := List.eq_nil_of_length_eq_zero h1
    obtain rfl := List.eq_nil_of_length_eq_zero h2
    refine ⟨⟨rfl, rfl⟩, ⟨rfl, rfl, rfl⟩, ⟨rfl, rfl, rfl⟩, ⟨rfl, rfl, rfl⟩, rfl, ?_, ?_⟩ <;> intro i hi h <;> cases h
  · obtain rfl := List.eq_nil_of_length_eq_zero h1
    obtain ⟨x, y, z, w, rfl⟩ := length_four h2
    refine ⟨⟨rfl, rfl⟩, ⟨rfl, rfl, rfl⟩, ⟨rfl, rfl, rfl⟩, ⟨rfl, rfl, rfl⟩, rfl, ?_, ?_⟩
    · intro i hi h; cases h
    · exact four (fun _ => rfl) (fun _ => rfl) (fun _ => rfl) (fun _ => rfl)
  · obtain rfl := List.eq_nil_of_length_eq_zero h2
    obtain ⟨x, y, z, w, rfl⟩ := length_four h1
    refine ⟨⟨rfl, rfl⟩, ⟨rfl, rfl, rfl⟩, ⟨rfl, rfl, rfl⟩, ⟨rfl, rfl, rfl⟩, rfl, ?_, ?_⟩
    · exact four (fun _ => rfl) (fun _ => rfl) (fun _ => rfl) (fun _ => rfl)
    · intro i hi h; cases h
  · obtain ⟨x, y, z, w, rfl⟩ := length_four h1
    obtain ⟨x', y', z', w', rfl⟩ := length_four h2
    refine ⟨⟨rfl, rfl⟩, ⟨rfl, rfl, rfl⟩, ⟨rfl, rfl, rfl⟩, ⟨rfl, rfl, rfl⟩, rfl, ?_, ?_⟩
    · exact four (fun _ => rfl) (fun _ => rfl) (fun _ => rfl) (fun _ => rfl)
    · exact four (fun _ => rfl) (fun _ => rfl) (fun _ => rfl) (fun _ => rfl)

/-- where the columns are -/
theorem ateCols_idx (a b : Bool) :
    ((ateCols a b).findIdx? (fun c => decide (c = "time".toList)) = some 0 ∧
     (ateCols a b).findIdx? (fun c => decide (c = "arc_lengths".toList)) = some 1) ∧
    ((ateCols a b).findIdx? (fun c => decide (c = "pos_x".toList)) = some 2 ∧
     (ateCols a b).findIdx? (fun c => decide (c = "pos_y".toList)) = some 3 ∧
     (ateCols a b).findIdx? (fun c => decide (c = "pos_z".toList)) = some 4) ∧
    ((ateCols a b).findIdx? (fun c => decide (c = "pos_dev_x".toList)) = some (5 + qWidth a) ∧
     (ateCols a b).findIdx? (fun c => decide (c = "pos_dev_y".toList)) = some (6 + qWidth a) ∧
     (ateCols a b).findIdx? (fun c => decide (c = "pos_dev_z".toList)) = some (7 + qWidth a)) ∧
    ((ateCols a b).findIdx? (fun c => decide (c = "pos_dev_along".toList)) = some (8 + qWidth a) ∧
     (ateCols a b).findIdx? (fun c => decide (c = "pos_dev_cross_h".toList)) = some (9 + qWidth a) ∧
     (ateCols a b).findIdx? (fun c => decide (c = "pos_dev_cross_v".toList)) = some (10 + qWidth a)) ∧
    (a = true → (ateCols a b).findIdx? (fun c => decide (c = "rot_".toList ++ ['x'])) = some 5 ∧
     (ateCols a b).findIdx? (fun c => decide (c = "rot_".toList ++ ['y'])) = some 6 ∧
     (ateCols a b).findIdx? (fun c => decide (c = "rot_".toList ++ ['z'])) = some 7 ∧
     (ateCols a b).findIdx? (fun c => decide (c = "rot_".toList ++ ['w'])) = some 8) ∧
    (b = true → (ateCols a b).findIdx? (fun c => decide (c = "rot_dev_".toList ++ ['x'])) = some (11 + qWidth a) ∧
     (ateCols a b).findIdx? (fun c => decide (c = "rot_dev_".toList ++ ['y'])) = some (11 + qWidth a + 1) ∧
     (ateCols a b).findIdx? (fun c => decide (c = "rot_dev_".toList ++ ['z'])) = some (11 + qWidth a + 2) ∧
     (ateCols a b).findIdx? (fun c => decide (c = "rot_dev_".toList ++ ['w'])) = some (11 + qWidth a + 3)) ∧
    (AteResult.quatNames "rot_").all (fun c => decide (c ∈ ateCols a b)) = a ∧
    (AteResult.quatNames "rot_dev_").all (fun c => decide (c ∈ ateCols a b)) = b ∧
    (ateCols a b).length = 11 + qWidth a + qWidth b := by
  cases a <;> cases b <;> decide

theorem ateCols_plain (a b : Bool) : ∀ c ∈ ateCols a b, PlainCell c := by
  have h : ∀ a b : Bool, ∀ c ∈ ateCols a b, (∀ x ∈ c, pySpace x = false) ∧ ',' ∉ c ∧ '#' ∉ c := by decide
  intro c hc
  obtain ⟨h1, h2, h3⟩ := h a b c hc
  exact ⟨h1, h2, h3⟩

theorem AteFits.trajRot_eq {r : AteResult K R} (h : AteFits r) : r.trajRot = r.trajectory.rot := by
  unfold AteResult.trajRot Traj.hasOrientation
  cases hq : r.trajectory.rot with
  | none => rfl
  | some q =>
    have : 0 < q.length := by
      rw [h.traj.rot q hq]; exact List.length_pos_iff.mpr h.ne
    simp [this]

theorem quatColumn_len (io : IoLib K R) {n : Nat} {o : Option (List R)} (h : ∀ q, o = some q → q.length = n) :
    (quatColumn io n o).length = n := by
  cases o with
  | none => simp [quatColumn]
  | some q => simp [quatColumn, h q rfl]

theorem quatColumn_width (io : IoLib K R) (n : Nat) (o : Option (List R)) :
    ∀ c ∈ quatColumn io n o, c.length = qWidth o.isSome := by
  intro c hc
  cases o with
  | none => rw [List.eq_of_mem_replicate hc]; rfl
  | some q =>
    obtain ⟨x, -, rfl⟩ := List.mem_map.mp hc
    rfl

section
variable {io : IoLib K R} {r : AteResult K R} (h : AteFits r)
include h

theorem ateFrame_eq : r.frameRows io = .ok ((ateRows io r).map ateCells) := by
  unfold AteResult.frameRows
  simp only
  rw [if_pos]
  · rfl
  · refine ⟨h.traj.arc, h.traj.pos, ?_, h.pos, h.dir, ?_⟩
    · rw [h.trajRot_eq]; exact quatColumn_len io h.traj.rot
    · exact quatColumn_len io h.rot

theorem ateRows_width : ∀ s ∈ ateRows io r, s.2.2.2.1.length = qWidth r.trajectory.rot.isSome ∧
    s.2.2.2.2.2.2.length = qWidth r.rotDev.isSome := by
  intro s hs
  have h3 := (List.of_mem_zip (List.of_mem_zip (List.of_mem_zip hs).2).2).2
  have h4 := (List.of_mem_zip h3).1
  have h6 := (List.of_mem_zip (List.of_mem_zip (List.of_mem_zip h3).2).2).2
  rw [h.trajRot_eq] at h4
  exact ⟨quatColumn_width io _ _ _ h4, quatColumn_width io _ _ _ h6⟩

/-- the channels of the rows -/
theorem ateRows_channels :
    (ateRows io r).map (fun s => s.1) = r.trajectory.tstamps ∧
    (ateRows io r).map (fun s => s.2.1) = r.trajectory.arc ∧
    (ateRows io r).map (fun s => s.2.2.1) = r.trajectory.pos ∧
    (ateRows io r).map (fun s => s.2.2.2.1) = quatColumn io r.trajectory.tstamps.length r.trajectory.rot ∧
    (ateRows io r).map (fun s => s.2.2.2.2.1) = r.posDev ∧
    (ateRows io r).map (fun s => s.2.2.2.2.2.1) = r.directed ∧
    (ateRows io r).map (fun s => s.2.2.2.2.2.2) = quatColumn io r.trajectory.tstamps.length r.rotDev := by
  have key : ∀ {α β : Type} (a : List α) (b : List β), a.length = b.length →
      (∀ {γ : Type} (f : α → γ), (a.zip b).map (fun s => f s.1) = a.map f) ∧
      (∀ {γ : Type} (f : β → γ), (a.zip b).map (fun s => f s.2) = b.map f) := by
    intro α β a b hl
    constructor
    · intro γ f
      conv_rhs => rw [← zip_map_fst a b hl]
      rw [List.map_map]; rfl
    · intro γ f
      conv_rhs => rw [← zip_map_snd a b hl]
      rw [List.map_map]; rfl
  set n := r.trajectory.tstamps.length with hn
  have hq : (quatColumn io n r.trajectory.rot).length = n := quatColumn_len io h.traj.rot
  have hd : (quatColumn io n r.rotDev).length = n := quatColumn_len io h.rot
  have e : ateRows io r = r.trajectory.tstamps.zip (r.trajectory.arc.zip (r.trajectory.pos.zip
    ((quatColumn io n r.trajectory.rot).zip (r.posDev.zip (r.directed.zip (quatColumn io n r.rotDev)))))) := by
    unfold ateRows; rw [h.trajRot_eq]
  rw [e]
  set Q := quatColumn io n r.trajectory.rot
  set D := quatColumn io n r.rotDev
  have l6 : (r.directed.zip D).length = n := by simp [h.dir, hd, ← hn]
  have l5 : (r.posDev.zip (r.directed.zip D)).length = n := by rw [List.length_zip, l6, h.pos, min_self]
  have l4 : (Q.zip (r.posDev.zip (r.directed.zip D))).length = n := by rw [List.length_zip, l5, hq, min_self]
  have l3 : (r.trajectory.pos.zip (Q.zip (r.posDev.zip (r.directed.zip D)))).length = n := by
    rw [List.length_zip, l4, h.traj.pos, min_self]
  have l2 : (r.trajectory.arc.zip (r.trajectory.pos.zip (Q.zip (r.posDev.zip (r.directed.zip D))))).length = n := by
    rw [List.length_zip, l3, h.traj.arc, min_self]
  have k1 := key r.trajectory.tstamps _ l2.symm
  have k2 := key r.trajectory.arc _ (h.traj.arc.trans l3.symm)
  have k3 := key r.trajectory.pos _ (h.traj.pos.trans l4.symm)
  have k4 := key Q _ (hq.trans l5.symm)
  have k5 := key r.posDev _ (h.pos.trans l6.symm)
  have k6 := key r.directed D (h.dir.trans hd.symm)
  refine ⟨?_, ?_, ?_, ?_, ?_, ?_, ?_⟩
  · have := k1.1 id; simpa using this
  · rw [k1.2 (fun s => s.1)]; simpa using k2.1 id
  · rw [k1.2 (fun s => s.2.1), k2.2 (fun s => s.1)]; simpa using k3.1 id
  · rw [k1.2 (fun s => s.2.2.1), k2.2 (fun s => s.2.1), k3.2 (fun s => s.1)]; simpa using k4.1 id
  · rw [k1.2 (fun s => s.2.2.2.1), k2.2 (fun s => s.2.2.1), k3.2 (fun s => s.2.1), k4.2 (fun s => s.1)]
    simpa using k5.1 id
  · rw [k1.2 (fun s => s.2.2.2.2.1), k2.2 (fun s => s.2.2.2.1), k3.2 (fun s => s.2.2.1), k4.2 (fun s => s.2.1),
      k5.2 (fun s => s.1)]
    simpa using k6.1 id
  · rw [k1.2 (fun s => s.2.2.2.2.2), k2.2 (fun s => s.2.2.2.2), k3.2 (fun s => s.2.2.2), k4.2 (fun s => s.2.2),
      k5.2 (fun s => s.2)]
    simpa using k6.2 id

end

/-- the table of a written file -/
def ateTable (io : IoLib K R) (r : AteResult K R) : List (List Str) :=
  (ateRows io r).map (fun s => (ateCells s).map (fmtFixed 12))

/-- reading four columns of quaternions that were written -/
theorem quatColumns_some {io : IoLib K R} (hio : IsIoLib io) {σ : Type} {S : List σ} {f : σ → List K}
    {g : σ → List K} {cols : List Str} {pre : String} {i : Nat} {q : List R}
    (hall : (AteResult.quatNames pre).all (fun c => decide (c ∈ cols)) = true)
    (h1 : cols.findIdx? (fun c => decide (c = pre.toList ++ ['x'])) = some i)
    (h2 : cols.findIdx? (fun c => decide (c = pre.toList ++ ['y'])) = some (i + 1))
    (h3 : cols.findIdx? (fun c => decide (c = pre.toList ++ ['z'])) = some (i + 2))
    (h4 : cols.findIdx? (fun c => decide (c = pre.toList ++ ['w'])) = some (i + 3))
    (hg : ∀ s ∈ S, ∀ k < 4, (f s)[i + k]? = some ((g s).getD k 0))
    (hS : S ≠ []) (hq : S.map g = q.map (fun r => (io.asQuat r).cells)) :
    ∃ q', quatColumns io (cols, S.map (fun s => (f s).map (fmtFixed 12))) pre = .ok (some q') ∧
      List.Forall₂ (fun a b => io.rot.toMat b = quatMat (roundQ 12 (io.asQuat a))) q q' := by
  have hxyz := numColumn3_eq (d := 12) (S := S) (f := f)
    (g := fun s => (⟨(g s).getD 0 0, (g s).getD 1 0, (g s).getD 2 0⟩ : V3 K)) h1 h2 h3
    (fun s hs => ⟨hg s hs 0 (by norm_num), hg s hs 1 (by norm_num), hg s hs 2 (by norm_num)⟩)
  have hw := numColumn_eq (d := 12) (S := S) (f := f) (g := fun s => (g s).getD 3 0) h4
    (fun s hs => hg s hs 3 (by norm_num))
  have zipEq : ∀ S : List σ,
      ((S.map (fun s => round3 12 (⟨(g s).getD 0 0, (g s).getD 1 0, (g s).getD 2 0⟩ : V3 K))).zip
        (S.map (fun s => roundTo 12 ((g s).getD 3 0)))).map (fun s => (⟨s.1.x, s.1.y, s.1.z, s.2⟩ : Q4 K))
      = (S.map g).map
        (fun c => roundQ 12 (⟨c.getD 0 0, c.getD 1 0, c.getD 2 0, c.getD 3 0⟩ : Q4 K)) := by
    intro S
    induction S with
    | nil => rfl
    | cons s S ih => simp only [List.map_cons, List.zip_cons_cons, ih]; rfl
  have hquats : ((q.map (fun r => (io.asQuat r).cells)).map
      (fun c => roundQ 12 (⟨c.getD 0 0, c.getD 1 0, c.getD 2 0, c.getD 3 0⟩ : Q4 K)))
      = q.map (fun r => roundQ 12 (io.asQuat r)) := by
    rw [List.map_map]
    apply List.map_congr_left
    intro r _
    rfl
  have hε : (1 : K) / (2 * 10 ^ 12) ≤ 1 / 1000 := by norm_num
  have nz : ∀ a ∈ q, (roundQ 12 (io.asQuat a)).normSq ≠ 0 := fun a _ =>
    (quatMat_close (hio.unit a) hε (roundTo_close 12 _) (roundTo_close 12 _) (roundTo_close 12 _)
      (roundTo_close 12 _)).1
  obtain ⟨q1, hq1⟩ := list_exists_map (P := fun a b => io.fromQuat (roundQ 12 (io.asQuat a)) = .ok b ∧
      io.rot.toMat b = quatMat (roundQ 12 (io.asQuat a))) (l := q)
    (fun a ha => by
      obtain ⟨b, hb, hm⟩ := hio.fromQuat _ (nz a ha)
      exact ⟨b, hb, hm⟩)
  have hmap : mapE io.fromQuat (q.map (fun r => roundQ 12 (io.asQuat r))) = .ok q1 := by
    apply mapE_of_forall₂
    rw [List.forall₂_map_left_iff]
    exact hq1.imp (fun a b h => h.1)
  refine ⟨q1, ?_, hq1.imp (fun a b h => h.2)⟩
  unfold quatColumns
  rw [if_pos hall, hxyz, hw]
  simp only [bind, Except.bind, pure, Except.pure]
  have hne : S.map (fun s => (f s).map (fmtFixed 12)) ≠ [] := by simpa using hS
  simp only [if_neg hne]
  rw [zipEq, hq, hquats, hmap]

/-! ### the header -/

/-- the header lines -/
def ateHeader (r : AteResult K R) : List Str :=
  ['#' :: "name".toList ++ ' ' :: r.name.toList, '#' :: "epsg".toList ++ ' ' :: intStr r.trajectory.epsg]

/-- the metadata of a written result -/
def ateMeta (r : AteResult K R) : HMeta K :=
  [("epsg".toList, .int r.trajectory.epsg), ("name".toList, .str r.name.toList)]

theorem ateHeader_lines {r : AteResult K R} (hname : OneLine r.name.toList) :
    ∀ l ∈ ateHeader r, OneLine l ∧ ∃ t, l = '#' :: t := by
  have one : ∀ {a b : Str}, OneLine a → OneLine b → OneLine (a ++ ' ' :: b) := by
    intro a b ha hb
    rw [oneLine_append]
    refine ⟨ha, fun c hc => ?_⟩
    rcases List.mem_cons.mp hc with rfl | hc
    · exact ⟨by decide, by decide⟩
    · exact hb c hc
  intro l hl
  simp only [ateHeader, List.mem_cons, List.not_mem_nil, or_false] at hl
  rcases hl with rfl | rfl
  · exact ⟨one (by unfold OneLine; decide) hname, _, rfl⟩
  · exact ⟨one (by unfold OneLine; decide) (intStr_noSpace _).oneLine, _, rfl⟩

theorem handleLines_ateHeader {r : AteResult K R} (hname : CleanName r.name.toList) (m : HMeta K) :
    handleLines m (ateHeader r) = .ok (ateMeta r ++ m) := by
  obtain ⟨h2, v2⟩ := headerLine_text (K := K) (key := "name".toList) (by decide) (by decide) hname
  obtain ⟨h3, v3⟩ := headerLine_epsg (K := K) r.trajectory.epsg
  unfold ateHeader
  simp only [handleLines]
  rw [handleLine_key (by decide) h2 v2]
  simp only [bind, Except.bind]
  rw [handleLine_key (by decide) h3 v3]
  rfl

/-- the text of the header -/
def ateHead (r : AteResult K R) : Str :=
  ("#name ".toList ++ r.name.toList ++ ['\n']) ++ ("#epsg ".toList ++ intStr r.trajectory.epsg ++ ['\n'])

theorem fileLines_ateHead {r : AteResult K R} (hname : OneLine r.name.toList) (rest : Str) :
    fileLines (ateHead r ++ rest) = ateHeader r ++ fileLines rest := by
  have e1 : "#name ".toList = '#' :: "name".toList ++ [' '] := by decide
  have e2 : "#epsg ".toList = '#' :: "epsg".toList ++ [' '] := by decide
  have hl := ateHeader_lines hname
  have e : ateHead r ++ rest = ('#' :: "name".toList ++ ' ' :: r.name.toList) ++ '\n' ::
      (('#' :: "epsg".toList ++ ' ' :: intStr r.trajectory.epsg) ++ '\n' :: rest) := by
    unfold ateHead
    rw [e1, e2]
    simp
  rw [e, fileLines_cons (hl _ (by simp [ateHeader])).1, fileLines_cons (hl _ (by simp [ateHeader])).1]
  rfl

/-! ### the whole file -/

/-- the rows of the file -/
def ateBlock (io : IoLib K R) (r : AteResult K R) : List (List Str) :=
  ateCols r.trajectory.rot.isSome r.rotDev.isSome :: ateTable io r

section
variable {io : IoLib K R} {r : AteResult K R} (h : AteFits r)
include h

theorem ateToFile_eq (append : Bool) (old : Str) :
    r.toFile io append old = .ok (openMode append old ++ (ateHead r ++ csvRows (ateBlock io r))) := by
  have e1 := ateFrame_eq (io := io) h
  have e2 := ateColumns_eq r
  rw [h.trajRot_eq] at e2
  have e3 : (((ateRows io r).map ateCells).map (fun c => c.map (fmtFixed 12))) = ateTable io r := by
    rw [List.map_map]; rfl
  unfold AteResult.toFile
  rw [e1, e2]
  refine congrArg Except.ok ?_
  rw [e3, List.append_assoc, List.append_assoc, ← List.append_assoc (as := _ ++ _ ++ ['\n'])]
  rfl

theorem ateBlock_ok : ∀ row ∈ ateBlock io r,
    row.length = 11 + qWidth r.trajectory.rot.isSome + qWidth r.rotDev.isSome ∧ ∀ c ∈ row, PlainCell c := by
  intro row hrow
  rcases List.mem_cons.mp hrow with rfl | hrow
  · exact ⟨(ateCols_idx _ _).2.2.2.2.2.2.2.2, ateCols_plain _ _⟩
  · obtain ⟨s, hs, rfl⟩ := List.mem_map.mp hrow
    obtain ⟨w1, w2⟩ := ateRows_width h s hs
    refine ⟨by rw [List.length_map, (ateCells_get w1 w2).2.2.2.2.1], fun c hc => ?_⟩
    obtain ⟨x, -, rfl⟩ := List.mem_map.mp hc
    exact plain_fmtCell 12 (some x)

theorem ateBlock_two : ∀ row ∈ ateBlock io r, 2 ≤ row.length ∧ ∀ c ∈ row, PlainCell c := fun row hr =>
  ⟨by rw [(ateBlock_ok h row hr).1]; omega, (ateBlock_ok h row hr).2⟩

theorem ate_fileLines (hname : OneLine r.name.toList) (rest : Str) :
    fileLines (ateHead r ++ csvRows (ateBlock io r) ++ rest)
      = ateHeader r ++ ((ateBlock io r).map (pyJoin [',']) ++ fileLines rest) := by
  rw [List.append_assoc, fileLines_ateHead hname, fileLines_csvRows (fun row hr => (ateBlock_ok h row hr).2)]

theorem ate_csvLines (hname : OneLine r.name.toList) (ls : List Str) :
    csvLines (ateHeader r ++ ((ateBlock io r).map (pyJoin [',']) ++ ls))
      = (ateBlock io r).map (pyJoin [',']) ++ csvLines ls := by
  rw [csvLines_append, csvLines_comments (fun l hl => (ateHeader_lines hname l hl).2), List.nil_append,
    csvLines_append, csvLines_rows (ateBlock_two h)]

theorem ate_header (hname : CleanName r.name.toList) (m : HMeta K) :
    handleLines m (ateHeader r ++ (ateBlock io r).map (pyJoin [','])) = .ok (ateMeta r ++ m) := by
  rw [handleLines_append, handleLines_ateHeader hname]
  simp only [bind, Except.bind]
  exact handleLines_rows (fun row hr => (ateBlock_ok h row hr).2) _

theorem ate_readFrame (hname : OneLine r.name.toList) :
    readFrame (ateHead r ++ csvRows (ateBlock io r)) =
      .ok (ateCols r.trajectory.rot.isSome r.rotDev.isSome, ateTable io r) := by
  have hl := ate_fileLines (io := io) h hname ([] : Str)
  rw [List.append_nil, fileLines_nil] at hl
  unfold readFrame readCsv
  rw [dataLines_eq, hl, ate_csvLines h hname]
  have e : csvLines [] = [] := rfl
  rw [e, List.append_nil, split_rows (ateBlock_two h),
    rectangular_ok (by simp [ateBlock]) (fun row hr => (ateBlock_ok h row hr).1)]
  rfl

theorem ate_headerFromFile (hname : CleanName r.name.toList) :
    headerFromFile (ateHead r ++ csvRows (ateBlock io r)) = .ok (ateMeta r) := by
  have hl := ate_fileLines (io := io) h hname.oneLine ([] : Str)
  rw [List.append_nil, fileLines_nil, List.append_nil] at hl
  unfold headerFromFile
  rw [hl, ate_header h hname, List.append_nil]

theorem ateRows_ne : ateRows io r ≠ [] := by
  intro e
  have := (ateRows_channels (io := io) h).1
  rw [e] at this
  exact h.ne this.symm

/-- reading the quaternions of the trajectory -/
theorem ate_rot (hio : IsIoLib io) : ∃ o,
    quatColumns io (ateCols r.trajectory.rot.isSome r.rotDev.isSome, ateTable io r) "rot_" = .ok o ∧
      match r.trajectory.rot, o with
      | none, none => True
      | some q, some q' => List.Forall₂ (fun a b => io.rot.toMat b = quatMat (roundQ 12 (io.asQuat a))) q q'
      | _, _ => False := by
  have hidx := ateCols_idx r.trajectory.rot.isSome r.rotDev.isSome
  have hch := (ateRows_channels (io := io) h).2.2.2.1
  have hw := ateRows_width (io := io) h
  cases hr : r.trajectory.rot with
  | none =>
    rw [hr] at hidx
    refine ⟨none, ?_, trivial⟩
    unfold quatColumns
    rw [if_neg]
    simp only [Option.isSome_none] at hidx ⊢
    rw [hidx.2.2.2.2.2.2.1]
    simp
  | some q =>
    rw [hr] at hidx hch hw
    simp only [Option.isSome_some] at hidx hw ⊢
    obtain ⟨i1, i2, i3, i4⟩ := hidx.2.2.2.2.1 trivial
    obtain ⟨q', h1, h2⟩ := quatColumns_some hio (S := ateRows io r) (f := ateCells) (g := fun s => s.2.2.2.1) (q := q)
      hidx.2.2.2.2.2.2.1 i1 i2 i3 i4
      (fun s hs k hk => (ateCells_get (hw s hs).1 (hw s hs).2).2.2.2.2.2.1 k hk rfl) (ateRows_ne h) hch
    exact ⟨some q', h1, h2⟩

/-- reading the quaternions of the deviations -/
theorem ate_rotDev (hio : IsIoLib io) : ∃ o,
    quatColumns io (ateCols r.trajectory.rot.isSome r.rotDev.isSome, ateTable io r) "rot_dev_" = .ok o ∧
      match r.rotDev, o with
      | none, none => True
      | some q, some q' => List.Forall₂ (fun a b => io.rot.toMat b = quatMat (roundQ 12 (io.asQuat a))) q q'
      | _, _ => False := by
  have hidx := ateCols_idx r.trajectory.rot.isSome r.rotDev.isSome
  have hch := (ateRows_channels (io := io) h).2.2.2.2.2.2
  have hw := ateRows_width (io := io) h
  cases hr : r.rotDev with
  | none =>
    rw [hr] at hidx
    refine ⟨none, ?_, trivial⟩
    unfold quatColumns
    rw [if_neg]
    simp only [Option.isSome_none] at hidx ⊢
    rw [hidx.2.2.2.2.2.2.2.1]
    simp
  | some q =>
    rw [hr] at hidx hch hw
    simp only [Option.isSome_some] at hidx hw ⊢
    obtain ⟨i1, i2, i3, i4⟩ := hidx.2.2.2.2.2.1 trivial
    obtain ⟨q', h1, h2⟩ := quatColumns_some hio (S := ateRows io r) (f := ateCells) (g := fun s => s.2.2.2.2.2.2)
      (q := q) hidx.2.2.2.2.2.2.2.1 i1 i2 i3 i4
      (fun s hs k hk => (ateCells_get (hw s hs).1 (hw s hs).2).2.2.2.2.2.2 k hk rfl) (ateRows_ne h) hch
    exact ⟨some q', h1, h2⟩

/-- reading a written result -/
theorem ate_fromFile (hio : IsIoLib io) (counter : Nat) (hname : CleanName r.name.toList) : ∃ rot' rotDev',
    AteResult.fromFile io counter (ateHead r ++ csvRows (ateBlock io r)) = .ok
      { name := r.name
        trajectory :=
          { tstamps := r.trajectory.tstamps.map (roundTo 12)
            pos := r.trajectory.pos.map (round3 12)
            rot := rot'
            arc := r.trajectory.arc.map (roundTo 12)
            speed := List.zipWith (fun v s => s⁻¹ • v) (diffs (r.trajectory.pos.map (round3 12)))
              (diffs (r.trajectory.tstamps.map (roundTo 12))) ++ [0]
            sorting := .time
            name := r.name
            epsg := r.trajectory.epsg }
        posDev := r.posDev.map (round3 12)
        directed := r.directed.map (round3 12)
        rotDev := rotDev'
        rotationsUsed := false } ∧
      (match r.trajectory.rot, rot' with
      | none, none => True
      | some q, some q' => List.Forall₂ (fun a b => io.rot.toMat b = quatMat (roundQ 12 (io.asQuat a))) q q'
      | _, _ => False) ∧
      (match r.rotDev, rotDev' with
      | none, none => True
      | some q, some q' => List.Forall₂ (fun a b => io.rot.toMat b = quatMat (roundQ 12 (io.asQuat a))) q q'
      | _, _ => False) := by
  obtain ⟨o1, hr1, hr2⟩ := ate_rot h hio
  obtain ⟨o2, hd1, hd2⟩ := ate_rotDev h hio
  obtain ⟨⟨it, ia⟩, ⟨ix, iy, iz⟩, ⟨dx, dy, dz⟩, ⟨ex, ey, ez⟩, -⟩ :=
    ateCols_idx r.trajectory.rot.isSome r.rotDev.isSome
  obtain ⟨ct, ca, cp, -, cd, ce, -⟩ := ateRows_channels (io := io) h
  have cell := fun s hs => ateCells_get (ateRows_width (io := io) h s hs).1 (ateRows_width (io := io) h s hs).2
  have ht := numColumn_eq (d := 12) (S := ateRows io r) (f := ateCells) (g := fun s => s.1) it
    (fun s hs => (cell s hs).1.1)
  have ha := numColumn_eq (d := 12) (S := ateRows io r) (f := ateCells) (g := fun s => s.2.1) ia
    (fun s hs => (cell s hs).1.2)
  have hp := numColumn3_eq (d := 12) (S := ateRows io r) (f := ateCells) (g := fun s => s.2.2.1) ix iy iz
    (fun s hs => (cell s hs).2.1)
  have hd := numColumn3_eq (d := 12) (S := ateRows io r) (f := ateCells) (g := fun s => s.2.2.2.2.1) dx dy dz
    (fun s hs => (cell s hs).2.2.1)
  have he := numColumn3_eq (d := 12) (S := ateRows io r) (f := ateCells) (g := fun s => s.2.2.2.2.2.1) ex ey ez
    (fun s hs => (cell s hs).2.2.2.1)
  have m : ∀ {α β : Type} (g : AteRow K → α) (k : α → β),
      (ateRows io r).map (fun s => k (g s)) = ((ateRows io r).map g).map k := by
    intro α β g k; rw [List.map_map]; rfl
  rw [m (fun s => s.1), ct] at ht
  rw [m (fun s => s.2.1), ca] at ha
  rw [m (fun s => s.2.2.1), cp] at hp
  rw [m (fun s => s.2.2.2.2.1), cd] at hd
  rw [m (fun s => s.2.2.2.2.2.1), ce] at he
  have hnm : String.ofList (ateMeta r).name = r.name := by
    have : (ateMeta r).name = r.name.toList := rfl
    rw [this, String.ofList_toList]
  have hepsg : (ateMeta r).epsg = r.trajectory.epsg := rfl
  have hne : ¬ r.name = "" := by
    intro e
    apply hname.ne
    rw [e]; rfl
  have hla : (r.trajectory.arc.map (roundTo 12)).length = (r.trajectory.pos.map (round3 12)).length := by
    simp [h.traj.arc, h.traj.pos]
  have hgrad := gradient3d_ok (xyz := r.trajectory.pos.map (round3 12)) (ts := r.trajectory.tstamps.map (roundTo 12))
    (by simp [h.traj.pos])
  have hrl : ∀ q, o1 = some q → q.length = (r.trajectory.pos.map (round3 12)).length := by
    rintro q rfl
    cases hr : r.trajectory.rot with
    | none => rw [hr] at hr2; exact absurd hr2 (by simp)
    | some q' => rw [hr] at hr2; rw [← hr2.length_eq, h.traj.rot q' hr, List.length_map, h.traj.pos]
  refine ⟨o1, o2, ?_, hr2, hd2⟩
  unfold AteResult.fromFile
  rw [ate_headerFromFile h hname, ate_readFrame h hname.oneLine]
  simp only [bind, Except.bind]
  unfold ateTable
  unfold ateTable at hr1 hd1
  rw [ht, ha, hp, hr1, hd, he, hd1]
  simp only [hepsg, hnm]
  unfold Traj.new
  cases o1 with
  | none =>
    simp only [bind, Except.bind, pure, Except.pure, hgrad, hla, if_true, hne, if_false]
  | some q =>
    simp only [bind, Except.bind, pure, Except.pure, hgrad, hla, if_true, hne, if_false, hrl q rfl, ne_eq, not_true]

/-- the table of a file to which a second result was appended has a row that starts with a name -/
theorem ate_readFrame_twice {r2 : AteResult K R} (h2 : AteFits r2) (hname : OneLine r.name.toList)
    (hname2 : OneLine r2.name.toList) {f : List Str × List (List Str)}
    (hf : readFrame (ateHead r ++ csvRows (ateBlock io r) ++ (ateHead r2 ++ csvRows (ateBlock io r2))) = .ok f) :
    f.1 = ateCols r.trajectory.rot.isSome r.rotDev.isSome ∧ ∃ row ∈ f.2, row[0]? = some "time".toList := by
  have hl := ate_fileLines (io := io) h hname (ateHead r2 ++ csvRows (ateBlock io r2))
  have hl2 := ate_fileLines (io := io) h2 hname2 ([] : Str)
  rw [List.append_nil, fileLines_nil] at hl2
  rw [hl2] at hl
  unfold readFrame readCsv at hf
  rw [dataLines_eq, hl, ate_csvLines h hname, ate_csvLines h2 hname2] at hf
  have e : csvLines [] = [] := rfl
  rw [e, List.append_nil, List.map_append, split_rows (ateBlock_two h), split_rows (ateBlock_two h2)] at hf
  unfold rectangular at hf
  simp only [ateBlock, List.cons_append] at hf
  split at hf
  · simp only [bind, Except.bind] at hf
    cases hf
    exact ⟨rfl, _, List.mem_map.mpr ⟨_, List.mem_append_right _ List.mem_cons_self, rfl⟩, rfl⟩
  · simp only [bind, Except.bind] at hf
    cases hf

end

end TC
