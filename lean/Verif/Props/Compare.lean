import Verif.Spec.Compare
import Verif.Proofs.Perm
import Verif.Proofs.Eval
import Verif.Proofs.Intersect
import Verif.Proofs.Voxel
import Verif.Props.Stats
import Verif.Props.TrajIndex
import Verif.Props.ParamsFile
import Mathlib.Analysis.Real.Sqrt
/-!
# C145, C150, C151, C152, C153, C155: comparing objects, tables, arithmetic of parameters
-/
set_option linter.unusedSectionVars false
namespace TC
variable {K R : Type} [Field K] [LinearOrder K]

/-! ### C150: comparing trajectories -/

section
variable [IsStrictOrderedRing K]

theorem npClose_iff {a b : K} : npClose a b = true ↔ Near a b := by simp [npClose, Near]

theorem npClose3_iff {a b : V3 K} : npClose3 a b = true ↔ Near3 a b := by
  simp [npClose3, Near3, npClose_iff, and_assoc]

theorem npClose4_iff {a b : Q4 K} : npClose4 a b = true ↔ Near4 a b := by
  simp [npClose4, Near4, npClose_iff, and_assoc]

theorem near_refl (a : K) : Near a a := by
  unfold Near
  rw [sub_self, abs_zero]
  positivity

theorem near3_refl (a : V3 K) : Near3 a a := ⟨near_refl _, near_refl _, near_refl _⟩
theorem near4_refl (a : Q4 K) : Near4 a a := ⟨near_refl _, near_refl _, near_refl _, near_refl _⟩

theorem npAllclose_same {α : Type} {close : α → α → Bool} {l m : List α} (h : l.length = m.length) :
    ∃ b, npAllclose close l m = .ok b ∧ (b = true ↔ List.Forall₂ (fun x y => close x y = true) l m) := by
  refine ⟨_, if_pos h, ?_⟩
  rw [List.all_eq_true, List.forall₂_iff_zip]
  exact ⟨fun hh => ⟨h, fun {a b} hab => hh (a, b) hab⟩, fun hh p hp => hh.2 hp⟩

theorem npAllclose_differ {α : Type} {close : α → α → Bool} {l m : List α} (h : l.length ≠ m.length) (hl : 2 ≤ l.length)
    (hm : 2 ≤ m.length) : npAllclose close l m = .error .valueError := by
  unfold npAllclose
  rw [if_neg h]
  match l, m, hl, hm with
  | a :: b :: l, c :: d :: m, _, _ => rfl

theorem npAllclose_one {α : Type} {close : α → α → Bool} {a : α} {l : List α} (h : ∀ b ∈ l, close b a = true) (hl : l.length ≠ 1) :
    npAllclose close l [a] = .ok true := by
  unfold npAllclose
  rw [if_neg (by simpa using hl)]
  match l, hl with
  | [], _ => rfl
  | b :: c :: l, _ => simp only [Except.ok.injEq, List.all_eq_true]; exact h

theorem npAllclose_one' {α : Type} {close : α → α → Bool} {a : α} {l : List α} (h : ∀ b ∈ l, close a b = true) (hl : l.length ≠ 1) :
    npAllclose close [a] l = .ok true := by
  unfold npAllclose
  rw [if_neg (by simpa using hl.symm)]
  simp only [Except.ok.injEq, List.all_eq_true]
  exact h

theorem andE_ok {a : Bool} {e : Except Err Bool} {b : Bool} (h : e = .ok b) : andE (.ok a) e = .ok (a && b) := by
  subst h; cases a <;> rfl

theorem forall₂_both {α β : Type} {P Q : α → β → Prop} {l : List α} {m : List β} :
    List.Forall₂ (fun x y => P x y ∧ Q x y) l m ↔ List.Forall₂ P l m ∧ List.Forall₂ Q l m := by
  refine ⟨fun h => ⟨h.imp (fun _ _ h => h.1), h.imp (fun _ _ h => h.2)⟩, fun ⟨h1, h2⟩ => ?_⟩
  rw [List.forall₂_iff_zip] at h1 h2 ⊢
  exact ⟨h1.1, fun {a b} h => ⟨h1.2 h, h2.2 h⟩⟩

theorem forall₂_of_map {α β γ : Type} {f : α → γ} {P : γ → β → Prop} {g : α → β} {l m : List α} {l' : List γ} {m' : List β}
    (hl : l.map f = l') (hm : m.map g = m') : List.Forall₂ P l' m' ↔ List.Forall₂ (fun x y => P (f x) (g y)) l m := by
  subst hl hm
  rw [List.forall₂_map_left_iff, List.forall₂_map_right_iff]

/-- the comparison of the orientations -/
theorem rot_compare (io : IoLib K R) {T U : Traj K R} (hT : Coherent T) (hU : Coherent U) (hlen : T.tstamps.length = U.tstamps.length)
    (hne : T.tstamps ≠ []) :
    ∃ b, T.rotEqual io U = .ok b ∧ (b = true ↔ List.Forall₂ (fun (s u : Sample K R) => match s.r, u.r with
        | none, none => True
        | some a, some b => Near4 (io.asQuat a) (io.asQuat b)
        | _, _ => False) (samples T) (samples U)) := by
  have key := forall₂_of_map (P := fun (a b : Option R) => match a, b with
        | none, none => True
        | some a, some b => Near4 (io.asQuat a) (io.asQuat b)
        | _, _ => False) (samples_map_r hT) (samples_map_r hU)
  rw [← key]
  unfold Traj.rotEqual
  have hn : T.tstamps.length ≠ 0 := by simpa using hne
  obtain ⟨n, hn'⟩ := Nat.exists_eq_succ_of_ne_zero hn
  have hnU : U.tstamps.length = n + 1 := by omega
  cases hr : T.rot with
  | none =>
    cases hu : U.rot with
    | none =>
      refine ⟨true, rfl, ?_⟩
      simp only [rotColumn, hn', hnU, true_iff]
      rw [List.forall₂_iff_zip]
      refine ⟨by simp, fun {a b} h => ?_⟩
      rw [List.zip_replicate'] at h
      obtain ⟨-, h⟩ := List.mem_replicate.1 h
      cases h
      trivial
    | some s =>
      refine ⟨false, rfl, ?_⟩
      have hs := hU.rot s hu
      match s, hs with
      | [], hs => simp at hs; omega
      | q :: s, hs =>
        simp only [rotColumn, hn', Bool.false_eq_true, false_iff]
        rw [List.replicate_succ, List.map_cons]
        intro h
        cases h with | cons h _ => exact h
  | some r =>
    cases hu : U.rot with
    | none =>
      refine ⟨false, rfl, ?_⟩
      have hs := hT.rot r hr
      match r, hs with
      | [], hs => simp at hs; omega
      | q :: r, hs =>
        simp only [rotColumn, hnU, Bool.false_eq_true, false_iff]
        rw [List.replicate_succ, List.map_cons]
        intro h
        cases h with | cons h _ => exact h
    | some s =>
      obtain ⟨b, h1, h2⟩ := npAllclose_same (close := npClose4) (l := r.map io.asQuat) (m := s.map io.asQuat)
        (by simp [hT.rot r hr, hU.rot s hu, hlen])
      refine ⟨b, h1, h2.trans ?_⟩
      simp only [rotColumn, List.forall₂_map_left_iff, List.forall₂_map_right_iff, npClose4_iff]

theorem nearSample_iff {quat : R → Q4 K} {s u : Sample K R} : NearSample quat s u ↔ Near3 s.p u.p ∧ (match s.r, u.r with
    | none, none => True
    | some a, some b => Near4 (quat a) (quat b)
    | _, _ => False) ∧ Near s.t u.t ∧ Near s.l u.l ∧ Near3 s.v u.v :=
  ⟨fun h => ⟨h.p, h.r, h.t, h.l, h.v⟩, fun ⟨p, r, t, l, v⟩ => ⟨t, p, l, v, r⟩⟩

/-- **C150**, positive part: for trajectories with equally many samples the comparison returns, and says yes exactly if the
names are equal and all samples agree up to the tolerance.
Missing for the full property: other numbers of samples (`C150_lengths_raise`, `C150_one_equals_many`) and the coordinate
systems (`C150_other_system`). -/
theorem C150_same_length_partial (io : IoLib K R) {T U : Traj K R} (hT : Coherent T) (hU : Coherent U)
    (hlen : T.tstamps.length = U.tstamps.length) (hne : T.tstamps ≠ []) :
    ∃ b, T.eq io U = .ok b ∧
      (b = true ↔ T.name = U.name ∧ List.Forall₂ (NearSample io.asQuat) (samples T) (samples U)) := by
  obtain ⟨br, hr1, hr2⟩ := rot_compare io hT hU hlen hne
  obtain ⟨bp, hp1, hp2⟩ := npAllclose_same (close := npClose3) (show T.pos.length = U.pos.length by rw [hT.pos, hU.pos, hlen])
  obtain ⟨bt, ht1, ht2⟩ := npAllclose_same (close := npClose) hlen
  obtain ⟨bl, hl1, hl2⟩ := npAllclose_same (close := npClose) (show T.arc.length = U.arc.length by rw [hT.arc, hU.arc, hlen])
  obtain ⟨bv, hv1, hv2⟩ := npAllclose_same (close := npClose3)
    (show T.speed.length = U.speed.length by rw [hT.speed, hU.speed, hlen])
  simp only [npClose_iff] at ht2 hl2
  simp only [npClose3_iff] at hp2 hv2
  rw [forall₂_of_map (samples_map_p hT) (samples_map_p hU)] at hp2
  rw [forall₂_of_map (samples_map_t hT) (samples_map_t hU)] at ht2
  rw [forall₂_of_map (samples_map_l hT) (samples_map_l hU)] at hl2
  rw [forall₂_of_map (samples_map_v hT) (samples_map_v hU)] at hv2
  refine ⟨bp && (br && (bt && (bl && (bv && decide (T.name = U.name))))), ?_, ?_⟩
  · unfold Traj.eq
    rw [hr1]
    simp only [bind, Except.bind]
    rw [hp1, ht1, hl1, hv1]
    exact andE_ok (andE_ok (andE_ok (andE_ok (andE_ok rfl))))
  · simp only [Bool.and_eq_true, decide_eq_true_eq, hp2, hr2, ht2, hl2, hv2]
    rw [show NearSample io.asQuat = _ from funext fun s => funext fun u => propext nearSample_iff]
    rw [forall₂_both, forall₂_both, forall₂_both, forall₂_both]
    tauto

/-- A trajectory equals itself. -/
theorem C150_reflexive (io : IoLib K R) {T : Traj K R} (hT : Coherent T) (hne : T.tstamps ≠ []) : T.eq io T = .ok true := by
  obtain ⟨b, h1, h2⟩ := C150_same_length_partial io hT hT rfl hne
  rw [h1]
  have : b = true := h2.2 ⟨rfl, List.forall₂_same.2 (fun s _ => ⟨near_refl _, near3_refl _, near_refl _, near3_refl _, by
    cases s.r with
    | none => trivial
    | some a => exact near4_refl _⟩)⟩
  rw [this]

/-- **C150 is false of the code**: trajectories with different numbers of samples, at least two each, are not different, the
comparison raises. -/
theorem C150_lengths_raise (io : IoLib K R) {T U : Traj K R} (hT : Coherent T) (hU : Coherent U)
    (hlen : T.tstamps.length ≠ U.tstamps.length) (h2 : 2 ≤ T.tstamps.length) (h2' : 2 ≤ U.tstamps.length) :
    T.eq io U = .error .valueError := by
  have hp : npAllclose npClose3 T.pos U.pos = .error .valueError :=
    npAllclose_differ (by rw [hT.pos, hU.pos]; exact hlen) (by rw [hT.pos]; exact h2) (by rw [hU.pos]; exact h2')
  unfold Traj.eq Traj.rotEqual
  cases hr : T.rot with
  | none => cases hu : U.rot <;> simp [bind, Except.bind, hp, andE]
  | some r =>
    cases hu : U.rot with
    | none => simp [bind, Except.bind, hp, andE]
    | some s =>
      simp only [bind, Except.bind]
      rw [npAllclose_differ (by simpa [hT.rot r hr, hU.rot s hu] using hlen) (by simpa [hT.rot r hr] using h2)
        (by simpa [hU.rot s hu] using h2')]

/-- `n` times the same sample -/
def repeated (n : Nat) (name : String) (epsg : Int) (sorting : Sorting) (s : Sample K R) : Traj K R :=
  ⟨List.replicate n s.t, List.replicate n s.p, s.r.map (List.replicate n), List.replicate n s.l, List.replicate n s.v, sorting,
    name, epsg⟩

theorem repeated_coherent (n : Nat) (name : String) (epsg : Int) (sorting : Sorting) (s : Sample K R) :
    Coherent (repeated n name epsg sorting s) := by
  refine ⟨by simp [repeated], by simp [repeated], by simp [repeated], ?_⟩
  intro r hr
  cases hs : s.r with
  | none => simp [repeated, hs] at hr
  | some q => simp only [repeated, hs, Option.map_some, Option.some.injEq] at hr; subst hr; simp [repeated]

/-- **C150 is false of the code**: a trajectory with one sample equals a trajectory with any number of copies of it, even none,
in both directions. -/
theorem C150_one_equals_many (io : IoLib K R) (n : Nat) (hn : n ≠ 1) (name : String) (epsg : Int) (sorting : Sorting) (s : Sample K R) :
    (repeated n name epsg sorting s).eq io (repeated 1 name epsg sorting s) = .ok true ∧
    (repeated 1 name epsg sorting s).eq io (repeated n name epsg sorting s) = .ok true := by
  have h3 : ∀ v : V3 K, npAllclose npClose3 (List.replicate n v) [v] = .ok true := fun v =>
    npAllclose_one (fun b hb => by rw [(List.mem_replicate.1 hb).2]; exact npClose3_iff.2 (near3_refl _)) (by simpa using hn)
  have h1 : ∀ v : K, npAllclose npClose (List.replicate n v) [v] = .ok true := fun v =>
    npAllclose_one (fun b hb => by rw [(List.mem_replicate.1 hb).2]; exact npClose_iff.2 (near_refl _)) (by simpa using hn)
  have h4 : ∀ v : Q4 K, npAllclose npClose4 (List.replicate n v) [v] = .ok true := fun v =>
    npAllclose_one (fun b hb => by rw [(List.mem_replicate.1 hb).2]; exact npClose4_iff.2 (near4_refl _)) (by simpa using hn)
  have h3' : ∀ v : V3 K, npAllclose npClose3 [v] (List.replicate n v) = .ok true := fun v =>
    npAllclose_one' (fun b hb => by rw [(List.mem_replicate.1 hb).2]; exact npClose3_iff.2 (near3_refl _)) (by simpa using hn)
  have h1' : ∀ v : K, npAllclose npClose [v] (List.replicate n v) = .ok true := fun v =>
    npAllclose_one' (fun b hb => by rw [(List.mem_replicate.1 hb).2]; exact npClose_iff.2 (near_refl _)) (by simpa using hn)
  have h4' : ∀ v : Q4 K, npAllclose npClose4 [v] (List.replicate n v) = .ok true := fun v =>
    npAllclose_one' (fun b hb => by rw [(List.mem_replicate.1 hb).2]; exact npClose4_iff.2 (near4_refl _)) (by simpa using hn)
  constructor <;>
  · unfold Traj.eq Traj.rotEqual repeated
    cases s.r <;>
    simp [bind, Except.bind, List.replicate_one, h1, h3, h4, h1', h3', h4', andE]

/-- **C150 is false of the code**: the coordinate system does not count. -/
theorem C150_other_system (io : IoLib K R) {T : Traj K R} (hT : Coherent T) (hne : T.tstamps ≠ []) (epsg : Int) :
    T.eq io { T with epsg := epsg } = .ok true := by
  have := C150_reflexive io hT hne
  unfold Traj.eq at this ⊢
  exact this

/-- two trajectories with one sample each -/
def exOneAt (x : ℚ) : Traj ℚ Unit := ⟨[0], [⟨x, 0, 0⟩], none, [0], [⟨0, 0, 0⟩], .time, "a", 0⟩

/-- **C150 is false of the code**: the comparison is not symmetric, since the tolerance depends on the second trajectory. -/
theorem C150_not_symmetric (io : IoLib ℚ Unit) : ∃ T U : Traj ℚ Unit, Coherent T ∧ Coherent U ∧
    T.eq io U = .ok true ∧ U.eq io T = .ok false := by
  refine ⟨exOneAt 100000, exOneAt (10000100001 / 100000), ⟨rfl, rfl, rfl, by rintro r ⟨⟩⟩, ⟨rfl, rfl, rfl, by rintro r ⟨⟩⟩, ?_, ?_⟩
  · have h : ∀ a b : Traj ℚ Unit, a.rot = none → b.rot = none → a.eq io b = andE (npAllclose npClose3 a.pos b.pos)
      (andE (.ok true) (andE (npAllclose npClose a.tstamps b.tstamps) (andE (npAllclose npClose a.arc b.arc)
        (andE (npAllclose npClose3 a.speed b.speed) (.ok (decide (a.name = b.name))))))) := by
      intro a b ha hb
      unfold Traj.eq Traj.rotEqual
      rw [ha, hb]
      rfl
    rw [h _ _ rfl rfl]
    have : npAllclose npClose3 (exOneAt 100000).pos (exOneAt (10000100001 / 100000)).pos = .ok true := by
      simp only [npAllclose, exOneAt, List.length_cons, List.length_nil, if_true, Except.ok.injEq]
      decide +kernel
    rw [this]
    have h1 : npAllclose npClose (exOneAt 100000).tstamps (exOneAt (10000100001 / 100000)).tstamps = .ok true := by
      simp only [npAllclose, exOneAt, List.length_cons, List.length_nil, if_true, Except.ok.injEq]
      decide +kernel
    have h2 : npAllclose npClose (exOneAt 100000).arc (exOneAt (10000100001 / 100000)).arc = .ok true := by
      simp only [npAllclose, exOneAt, List.length_cons, List.length_nil, if_true, Except.ok.injEq]
      decide +kernel
    have h3 : npAllclose npClose3 (exOneAt 100000).speed (exOneAt (10000100001 / 100000)).speed = .ok true := by
      simp only [npAllclose, exOneAt, List.length_cons, List.length_nil, if_true, Except.ok.injEq]
      decide +kernel
    rw [h1, h2, h3]
    rfl
  · have : npAllclose npClose3 (exOneAt (10000100001 / 100000)).pos (exOneAt 100000).pos = .ok false := by
      simp only [npAllclose, exOneAt, List.length_cons, List.length_nil, if_true, Except.ok.injEq]
      decide +kernel
    unfold Traj.eq
    rw [this]
    rfl

/-! ### C151: a trajectory as a table -/

/-- the numbers of a sample in the order of the columns -/
def sampleRow (quat : R → Q4 K) (s : Sample K R) : List K :=
  [s.t, s.l, s.p.x, s.p.y, s.p.z] ++ (match s.r with
    | some r => (quat r).cells
    | none => []) ++ [s.v.x, s.v.y, s.v.z]

theorem fileRows_samples (io : IoLib K R) {T : Traj K R} (hT : Coherent T) :
    T.fileRows io = .ok ((samples T).map (sampleRow io.asQuat)) := by
  have hq : quatColumn io T.tstamps.length T.rot = (rotColumn T.tstamps.length T.rot).map (fun o => match o with
      | some r => (io.asQuat r).cells
      | none => []) := by
    cases T.rot with
    | none => simp [quatColumn, rotColumn]
    | some r => simp [quatColumn, rotColumn]
  have hql : (rotColumn T.tstamps.length T.rot).length = T.tstamps.length := by
    cases hr : T.rot with
    | none => simp [rotColumn]
    | some r => simp [rotColumn, hT.rot r hr]
  unfold Traj.fileRows
  simp only
  rw [if_neg (by rw [hq, List.length_map, hql, hT.arc, hT.pos, hT.speed]; simp)]
  congr 1
  rw [hq, samples, List.map_map]
  apply List.ext_getElem?
  intro i
  by_cases hi : i < T.tstamps.length
  · have h1 := List.getElem?_eq_getElem hi
    have h2 := List.getElem?_eq_getElem (l := T.pos) (i := i) (by rw [hT.pos]; exact hi)
    have h3 := List.getElem?_eq_getElem (l := T.arc) (i := i) (by rw [hT.arc]; exact hi)
    have h4 := List.getElem?_eq_getElem (l := T.speed) (i := i) (by rw [hT.speed]; exact hi)
    have h5 := List.getElem?_eq_getElem (l := rotColumn T.tstamps.length T.rot) (i := i) (by rw [hql]; exact hi)
    have z1 : (T.tstamps.zip (T.pos.zip ((rotColumn T.tstamps.length T.rot).zip (T.arc.zip T.speed))))[i]? =
        some (_, _, _, _, _) :=
      List.getElem?_zip_eq_some.2 ⟨h1, List.getElem?_zip_eq_some.2 ⟨h2, List.getElem?_zip_eq_some.2 ⟨h5,
        List.getElem?_zip_eq_some.2 ⟨h3, h4⟩⟩⟩⟩
    have h5' := congrArg (Option.map (fun o : Option R => match o with
      | some r => (io.asQuat r).cells
      | none => [])) h5
    rw [← List.getElem?_map] at h5'
    have z2 : (T.tstamps.zip (T.arc.zip (T.pos.zip (((rotColumn T.tstamps.length T.rot).map (fun o : Option R => match o with
      | some r => (io.asQuat r).cells
      | none => [])).zip T.speed))))[i]? = some (_, _, _, _, _) :=
      List.getElem?_zip_eq_some.2 ⟨h1, List.getElem?_zip_eq_some.2 ⟨h3, List.getElem?_zip_eq_some.2 ⟨h2,
        List.getElem?_zip_eq_some.2 ⟨h5', h4⟩⟩⟩⟩
    rw [List.getElem?_map, List.getElem?_map, z1, z2]
    simp [sampleRow, V3.cells]
  · rw [List.getElem?_eq_none, List.getElem?_eq_none]
    · simp only [List.length_map, List.length_zip]; omega
    · simp only [List.length_map, List.length_zip]; omega

theorem sel_map' {α β : Type} (f : α → β) (l : List α) (p : List Nat) : sel (l.map f) p = (sel l p).map f := by
  unfold sel
  rw [List.map_filterMap]
  apply List.filterMap_congr
  intro i _
  rw [List.getElem?_map]

theorem sampleRow_shows (quat : R → Q4 K) {hasRot : Bool} {s : Sample K R} (h : s.r.isSome = hasRot) :
    Shows quat (tableColumns hasRot) (sampleRow quat s) s := by
  subst h
  cases hr : s.r with
  | none => simp [Shows, tableColumns, sampleRow, hr, cellOf]
  | some r => simp [Shows, tableColumns, sampleRow, hr, cellOf, Q4.cells]

theorem samples_rot {T : Traj K R} (hT : Coherent T) {s : Sample K R} (hs : s ∈ samples T) : s.r.isSome = T.rot.isSome := by
  have hm : s.r ∈ (samples T).map Sample.r := List.mem_map_of_mem hs
  rw [samples_map_r hT] at hm
  cases hr : T.rot with
  | none => rw [hr] at hm; simp only [rotColumn] at hm; rw [(List.mem_replicate.1 hm).2]; rfl
  | some r => rw [hr] at hm; simp only [rotColumn, List.mem_map] at hm; obtain ⟨q, -, hq⟩ := hm; rw [← hq]; rfl

/-- **C151**: the table of a trajectory has one row for each sample, with the right number in every column; the rows ascend in
the column that is asked for, or else in the one the trajectory is sorted by.  An unknown column raises `KeyError`. -/
theorem C151_table (io : IoLib K R) {argsort : List K → List Nat} (ha : IsArgsort argsort) {T : Traj K R} (hT : Coherent T) (sortBy : Str) :
    let column := if sortBy = [] then sortColumn T.sorting else sortBy
    (column ∈ tableColumns T.rot.isSome → ∃ rows ss, T.toDataframe io argsort sortBy = .ok ⟨tableColumns T.rot.isSome, rows⟩ ∧
      ss.Perm (samples T) ∧ List.Forall₂ (Shows io.asQuat (tableColumns T.rot.isSome)) rows ss ∧
      ss.Pairwise (fun s u => ∃ a b, cellOf io.asQuat s (String.ofList column) = some a ∧
        cellOf io.asQuat u (String.ofList column) = some b ∧ a ≤ b)) ∧
    (column ∉ tableColumns T.rot.isSome → T.toDataframe io argsort sortBy = .error .keyError) := by
  intro column
  have htext : T.sorting.text = sortColumn T.sorting := by cases T.sorting <;> rfl
  have hcol : (if sortBy = [] then T.sorting.text else sortBy) = column := by rw [htext]
  clear_value column
  have hcs : frameColumns T.rot.isSome = tableColumns T.rot.isSome := by
    cases T.rot.isSome <;> simp [frameColumns, tableColumns]
  unfold Traj.toDataframe
  rw [fileRows_samples io hT]
  simp only [bind, Except.bind]
  rw [hcol, hcs]
  constructor
  · intro hmem
    obtain ⟨i, hi⟩ : ∃ i, (tableColumns T.rot.isSome).findIdx? (fun c => decide (c = column)) = some i := by
      rw [← Option.isSome_iff_exists, List.findIdx?_isSome, List.any_eq_true]
      exact ⟨column, hmem, by simp⟩
    rw [hi]
    obtain ⟨hi1, hi2, -⟩ := List.findIdx?_eq_some_iff_getElem.1 hi
    simp only [decide_eq_true_eq] at hi2
    have hp := ha ((samples T).map (sampleRow io.asQuat) |>.map (fun r => r.getD i 0))
    set p := argsort ((samples T).map (sampleRow io.asQuat) |>.map (fun r => r.getD i 0)) with hpdef
    have hr : InRange ((samples T).map (sampleRow io.asQuat)).length p := by
      have := hp.inRange
      simpa using this
    simp only
    rw [take_eq hr, sel_map']
    have hperm : (sel (samples T) p).Perm (samples T) := sel_perm_self (by simpa using hp.1)
    refine ⟨_, sel (samples T) p, rfl, hperm, ?_, ?_⟩
    · rw [List.forall₂_map_left_iff, List.forall₂_same]
      intro s hs
      exact sampleRow_shows _ (samples_rot hT (hperm.subset hs))
    · have hs := hp.sel
      rw [List.map_map, sel_map'] at hs
      have hs2 := npSort_sorted ((samples T).map ((fun r => r.getD i 0) ∘ sampleRow io.asQuat))
      rw [← hs, List.pairwise_map] at hs2
      have hall : ∀ s ∈ sel (samples T) p, cellOf io.asQuat s (String.ofList column) = some ((sampleRow io.asQuat s).getD i 0) := by
        intro s hs
        have hsh := sampleRow_shows io.asQuat (samples_rot hT (hperm.subset hs))
        have hsh' := congrArg (fun l => l[i]?) hsh
        simp only [List.getElem?_map] at hsh'
        rw [List.getElem?_eq_getElem hi1, hi2] at hsh'
        simp only [Option.map_some] at hsh'
        cases hrow : (sampleRow io.asQuat s)[i]? with
        | none => rw [hrow] at hsh'; simp at hsh'
        | some v =>
          rw [hrow] at hsh'
          simp only [Option.map_some, Option.some.injEq] at hsh'
          rw [← hsh', List.getD_eq_getElem?_getD, hrow]
          rfl
      refine List.Pairwise.imp_of_mem ?_ hs2
      intro s u hs hu hle
      exact ⟨_, _, hall s hs, hall u hu, hle⟩
  · intro hmem
    have hi : (tableColumns T.rot.isSome).findIdx? (fun c => decide (c = column)) = none := by
      rw [List.findIdx?_eq_none_iff]
      intro c hc
      simp only [decide_eq_false_iff_not]
      rintro rfl
      exact hmem hc
    rw [hi]

/-! ### C152: angles -/

/-- **C152**: the angles of a trajectory with orientations, one row for each sample, in the order of its sorting -/
theorem C152_angles (euler : R → V3 K) {argsort : List K → List Nat} (ha : IsArgsort argsort) {T : Traj K R} (hT : Coherent T)
    {r : List R} (hr : T.rot = some r) (hne : T.tstamps ≠ []) :
    ∃ x angles, T.functionOf argsort = .ok x ∧ T.rpy euler argsort = .ok angles ∧ x.Pairwise (· ≤ ·) ∧ x.length = angles.length ∧
      (x.zip angles).Perm ((match T.sorting with
        | .time => T.tstamps
        | .arcLength => T.arc).zip (r.map euler)) := by
  have hl := hT.rot r hr
  have hla := hT.arc
  set key := (match T.sorting with
    | .time => T.tstamps
    | .arcLength => T.arc) with hkey
  have hidx : T.sortingIndex argsort = argsort key := by
    unfold Traj.sortingIndex
    rw [hkey]
    cases T.sorting <;> rfl
  have hkl : key.length = T.tstamps.length := by
    rw [hkey]
    cases T.sorting
    · rfl
    · exact hla
  have hp := ha key
  have hrng : InRange r.length (argsort key) := by rw [hl, ← hkl]; exact hp.inRange
  have hf : T.functionOf argsort = .ok (sel key (argsort key)) := by
    unfold Traj.functionOf
    rw [hidx, ← take_eq hp.inRange, hkey]
    cases T.sorting <;> rfl
  have hlen : (sel r (argsort key)).length = T.tstamps.length := by rw [sel_length hrng, hp.length, hkl]
  refine ⟨sel key (argsort key), (sel r (argsort key)).map euler, hf, ?_, hp.2, ?_, ?_⟩
  · unfold Traj.rpy Traj.quat
    rw [hr]
    simp only [bind, Except.bind]
    rw [hidx, take_eq hrng]
    simp only [pure, Except.pure]
    rw [if_neg (by rw [hlen]; simpa using hne)]
  · rw [List.length_map, hlen, sel_length hp.inRange, hp.length, hkl]
  · have hz : (sel key (argsort key)).zip ((sel r (argsort key)).map euler) = sel (key.zip (r.map euler)) (argsort key) := by
      rw [← sel_map']
      apply List.ext_getElem?
      intro i
      have hzr : InRange (key.zip (r.map euler)).length (argsort key) := by
        rw [List.length_zip, List.length_map, hl, hkl, min_self, ← hkl]; exact hp.inRange
      have hmr : InRange (r.map euler).length (argsort key) := by rw [List.length_map]; exact hrng
      rw [sel_getElem? hzr, List.zip, List.getElem?_zipWith, sel_getElem? hp.inRange, sel_getElem? hmr]
      cases hi : (argsort key)[i]? with
      | none => simp
      | some j => simp only [Option.bind_some, List.getElem?_zipWith]
    rw [hz]
    exact sel_perm_self (by
      rw [List.length_zip, List.length_map, hl, hkl, min_self, ← hkl]
      exact hp.1)

/-- Without orientations the quaternions are zeros, but the angles raise `ValueError`. -/
theorem C152_no_angles (euler : R → V3 K) (argsort : List K → List Nat) {T : Traj K R} (hr : T.rot = none) :
    T.quat argsort = .ok none ∧ T.rpy euler argsort = .error .valueError := by
  unfold Traj.rpy Traj.quat
  rw [hr]
  exact ⟨rfl, rfl⟩

/-- Also a trajectory without samples has no angles: scipy refuses an empty set of rotations. -/
theorem C152_no_samples (euler : R → V3 K) {argsort : List K → List Nat} (hA : IsArgsort argsort) {T : Traj K R}
    (hT : Coherent T) (hr : T.rot = some []) : T.rpy euler argsort = .error .valueError := by
  have h0 : T.tstamps.length = 0 := (hT.rot [] hr).symm
  have hi : T.sortingIndex argsort = [] := by
    have ha : T.arc.length = 0 := hT.arc.trans h0
    unfold Traj.sortingIndex
    cases T.sorting
    · exact List.length_eq_zero_iff.1 (by rw [(hA T.tstamps).1.length_eq]; simpa using h0)
    · exact List.length_eq_zero_iff.1 (by rw [(hA T.arc).1.length_eq]; simpa using ha)
  unfold Traj.rpy Traj.quat
  rw [hr, hi]
  rfl

/-! ### C145: comparing results -/

theorem npAllcloseM_same {l m : List (List K)} (h : l.map List.length = m.map List.length) :
    ∃ b, npAllcloseM l m = .ok b ∧ (b = true ↔ List.Forall₂ (List.Forall₂ Near) l m) := by
  refine ⟨_, if_pos h, ?_⟩
  rw [List.all_eq_true, List.forall₂_iff_zip]
  have hl : l.length = m.length := by simpa using congrArg List.length h
  have hrow : ∀ p ∈ l.zip m, p.1.length = p.2.length := by
    intro p hp
    obtain ⟨i, hi⟩ := List.mem_iff_getElem?.1 hp
    obtain ⟨h1, h2⟩ := List.getElem?_zip_eq_some.1 hi
    have := congrArg (fun l => l[i]?) h
    simp only [List.getElem?_map, h1, h2, Option.map_some, Option.some.injEq] at this
    exact this
  have hiff : ∀ p ∈ l.zip m, ((p.1.zip p.2).all (fun q => npClose q.1 q.2) = true ↔ List.Forall₂ Near p.1 p.2) := by
    intro p hp
    rw [List.all_eq_true, List.forall₂_iff_zip]
    exact ⟨fun hh => ⟨hrow p hp, fun {a b} hab => npClose_iff.1 (hh (a, b) hab)⟩, fun hh q hq => npClose_iff.2 (hh.2 hq)⟩
  exact ⟨fun hh => ⟨hl, fun {a b} hab => (hiff (a, b) hab).1 (hh (a, b) hab)⟩, fun hh p hp => (hiff p hp).2 (hh.2 hp)⟩

/-- **C145**, positive part: two alignments that agree are equal.
Missing for the full property: if they do not agree, the answer is not no, `C145_alignment_raises`. -/
theorem C145_alignment_partial {r s : AlignResult K} (h : SameAlignment r s) : r.eq s = .ok true := by
  obtain ⟨a, ha, ha'⟩ := npAllclose_same (close := npClose) h.values.length_eq
  have hc : r.position.cov.map List.length = s.position.cov.map List.length := by
    have := h.cov.imp (fun _ _ h => List.Forall₂.length_eq h)
    have := List.forall₂_map_left_iff.2 (List.forall₂_map_right_iff.2 this)
    exact List.forall₂_eq_eq_eq ▸ this
  obtain ⟨b, hb, hb'⟩ := npAllcloseM_same hc
  obtain ⟨c, hc, hc'⟩ := npAllclose_same (close := npClose) h.rotation.length_eq
  simp only [npClose_iff] at ha' hc'
  have h1 := ha'.2 h.values
  have h2 := hb'.2 h.cov
  have h3 := hc'.2 h.rotation
  subst h1 h2 h3
  unfold AlignResult.eq
  rw [ha, hb, hc, h.settings]
  simp [pyAssert, bind, Except.bind, pure, Except.pure]

/-- **C145 is false of the code**: whenever two alignments of the same shape do not agree, the comparison raises
`AssertionError`. -/
theorem C145_alignment_raises {r s : AlignResult K} (hs : SameShape r s) (h : ¬ SameAlignment r s) :
    r.eq s = .error .assertion := by
  obtain ⟨a, ha, ha'⟩ := npAllclose_same (close := npClose) hs.values
  obtain ⟨b, hb, hb'⟩ := npAllcloseM_same hs.cov
  obtain ⟨c, hc, hc'⟩ := npAllclose_same (close := npClose) hs.rotation
  simp only [npClose_iff] at ha' hc'
  unfold AlignResult.eq
  rw [ha, hb, hc]
  simp only [bind, Except.bind]
  cases a with
  | false => rfl
  | true =>
    cases b with
    | false => rfl
    | true =>
      cases c with
      | false => rfl
      | true =>
        have : ¬ r.estimationOf = s.estimationOf := fun he => h ⟨ha'.1 rfl, hb'.1 rfl, hc'.1 rfl, he⟩
        simp [pyAssert, this]

/-- Whatever is compared, the answer is never no. -/
theorem C145_alignment_never_no (r s : AlignResult K) : r.eq s ≠ .ok false := by
  unfold AlignResult.eq
  simp only [bind, Except.bind, pyAssert, pure, Except.pure]
  repeat' (first | split | simp)

section
variable [FloorRing K]

/-- **C145 is false of the code** for relative errors: the answer is never no. -/
theorem C145_rpe_never_no (deg : K → K) (r s : RpeResult K) : r.eq deg s ≠ .ok false := by
  unfold RpeResult.eq
  simp only [bind, Except.bind, pyAssert, pure, Except.pure]
  repeat' (first | split | simp)

theorem zip_self_all (a : List (Str × Str)) : (a.zip a).all (fun p => decide (p.1.2 = p.2.2)) = true := by
  rw [List.all_eq_true]
  intro p hp
  have : p.1 = p.2 := by
    obtain ⟨i, hi⟩ := List.mem_iff_getElem?.1 hp
    obtain ⟨h1, h2⟩ := List.getElem?_zip_eq_some.1 hi
    rw [h1] at h2
    exact Option.some.inj h2
  simp [this]

/-- A result with properties equals itself. -/
theorem C145_rpe_reflexive {deg : K → K} {r : RpeResult K} {a : List (Str × Str)} (h : r.propertyDict deg = .ok a) :
    r.eq deg r = .ok true := by
  unfold RpeResult.eq
  rw [h]
  simp [bind, Except.bind, pyAssert, zip_self_all, pure, Except.pure]

/-- If a shown property differs, the comparison raises. -/
theorem C145_rpe_raises {deg : K → K} {r s : RpeResult K} {a b : List (Str × Str)} (ha : r.propertyDict deg = .ok a)
    (hb : s.propertyDict deg = .ok b) {i : Nat} {x y : Str × Str} (hx : a[i]? = some x) (hy : b[i]? = some y) (h : x.2 ≠ y.2) :
    r.eq deg s = .error .assertion := by
  unfold RpeResult.eq
  rw [ha, hb]
  have : ((a.zip b).all (fun p => decide (p.1.2 = p.2.2))) = false := by
    rw [List.all_eq_false]
    exact ⟨(x, y), List.mem_of_getElem? (List.getElem?_zip_eq_some.2 ⟨hx, hy⟩), by simpa using h⟩
  simp [bind, Except.bind, pyAssert, this]

theorem strSet_new {d : List (Str × Str)} {k v : Str} (h : ∀ e ∈ d, e.1 ≠ k) : strSet d k v = d ++ [(k, v)] := by
  unfold strSet
  rw [if_neg]
  rw [List.any_eq_true]
  rintro ⟨e, he, hk⟩
  exact h e he (by simpa using hk)

/-- new keys come after the old entries, which stay as they are -/
theorem strUpdate_prefix {d : List (Str × Str)} : ∀ (l rest : List (Str × Str)), (∀ e ∈ l, ∀ e' ∈ d, e'.1 ≠ e.1) →
    ∃ rest', strUpdate (d ++ rest) l = d ++ rest'
  | [], rest, _ => ⟨rest, rfl⟩
  | e :: l, rest, h => by
    have hs : ∃ rest'', strSet (d ++ rest) e.1 e.2 = d ++ rest'' := by
      unfold strSet
      split_ifs
      · rw [List.map_append]
        refine ⟨_, congrArg (· ++ _) ?_⟩
        conv_rhs => rw [← List.map_id d]
        apply List.map_congr_left
        intro e' he'
        rw [if_neg (h e (by simp) e' he')]
        rfl
      · exact ⟨rest ++ [(e.1, e.2)], by simp⟩
    obtain ⟨r2, hr2⟩ := hs
    obtain ⟨r3, hr3⟩ := strUpdate_prefix l r2 (fun e' he' => h e' (by simp [he']))
    exact ⟨r3, by rw [← hr3, ← hr2]; rfl⟩

/-- a result without its rotation deviations -/
def withoutRotations (r : RpeResult K) : RpeResult K := { r with groups := r.groups.map (fun g => { g with rotDev := [] }) }

theorem computeMetric_without (r : RpeResult K) {sel : RpeGroup K → List (Option K)} (f : List K → Except Err K) (c : K)
    (h : ∀ g : RpeGroup K, sel { g with rotDev := [] } = sel g) :
    (withoutRotations r).computeMetric sel f c = r.computeMetric sel f c := by
  unfold RpeResult.computeMetric withoutRotations
  simp only
  rw [List.map_map]
  congr 2
  apply List.map_congr_left
  intro g _
  exact h g

theorem positionDict_without (r : RpeResult K) : (withoutRotations r).positionDict = r.positionDict := by
  unfold RpeResult.positionDict RpeResult.posRpe RpeResult.meanPairDistances RpeResult.posDevMean RpeResult.posDevMax
    RpeResult.posDevMin RpeResult.posDevMedian
  have hd : (withoutRotations r).driftFactor = r.driftFactor := rfl
  have hl : (withoutRotations r).len = r.len := by
    unfold RpeResult.len withoutRotations
    simp only
    rw [List.map_map]
    rfl
  rw [hd, hl, computeMetric_without r npMean 1 (fun _ => rfl), computeMetric_without r npMean _ (fun _ => rfl),
    computeMetric_without r pyMax _ (fun _ => rfl), computeMetric_without r pyMin _ (fun _ => rfl),
    computeMetric_without r npMedian _ (fun _ => rfl)]
  rfl

theorem hasRotDev_without (r : RpeResult K) : (withoutRotations r).hasRotDev = false := by
  unfold RpeResult.hasRotDev withoutRotations
  simp

/-- the keys of the positions -/
theorem strSet_keys {d : List (Str × Str)} {k v : Str} {e : Str × Str} (h : e ∈ strSet d k v) : e = (k, v) ∨ e ∈ d := by
  unfold strSet at h
  split_ifs at h
  · obtain ⟨e', h1, h2⟩ := List.mem_map.1 h
    split_ifs at h2
    · exact .inl h2.symm
    · exact .inr (h2 ▸ h1)
  · rcases List.mem_append.1 h with h | h
    · exact .inr h
    · exact .inl (by simpa using h)

theorem strUpdate_mem : ∀ {l d : List (Str × Str)} {e : Str × Str}, e ∈ strUpdate d l → e ∈ d ∨ e ∈ l
  | [], _, _, h => .inl h
  | x :: l, d, e, h => by
    rcases strUpdate_mem (l := l) (d := strSet d x.1 x.2) h with h | h
    · rcases strSet_keys h with rfl | h
      · exact .inr (by simp)
      · exact .inl h
    · exact .inr (by simp [h])

theorem positionDict_inv {r : RpeResult K} {d : List (Str × Str)} (h : r.positionDict = .ok d) :
    ∃ dists means maxs mins meds max min avg med, r.meanPairDistances = .ok dists ∧ r.posDevMean = .ok means ∧
      r.posDevMax = .ok maxs ∧ pyMax maxs = .ok max ∧ r.posDevMin = .ok mins ∧ pyMin mins = .ok min ∧ r.posRpe = .ok avg ∧
      r.posDevMedian = .ok meds ∧ npMedian meds = .ok med ∧
      d = strUpdate (strUpdate [("Name".toList, r.name.toList), ("Type".toList, "RPEResult".toList),
          ("Number of pose pairs".toList, natStr r.len)]
          (strUpdate [] (RpeResult.driftLines "position" r.posUnit r.distUnit dists means)))
        [("Maximum Position Drift".toList, RpeResult.withUnit r.posUnit max),
         ("Minimum Position Drift".toList, RpeResult.withUnit r.posUnit min),
         ("Average Position Drift".toList, RpeResult.withUnit r.posUnit avg),
         ("Median Position Drift".toList, RpeResult.withUnit r.posUnit med)] := by
  unfold RpeResult.positionDict at h
  cases h1 : r.meanPairDistances with
  | error e => rw [h1] at h; cases h
  | ok dists =>
  cases h2 : r.posDevMean with
  | error e => rw [h1, h2] at h; cases h
  | ok means =>
  cases h3 : r.posDevMax with
  | error e => rw [h1, h2, h3] at h; cases h
  | ok maxs =>
  cases h4 : pyMax maxs with
  | error e => rw [h1, h2, h3] at h; simp only [bind, Except.bind, h4] at h; cases h
  | ok max =>
  cases h5 : r.posDevMin with
  | error e => rw [h1, h2, h3, h5] at h; simp only [bind, Except.bind, h4] at h; cases h
  | ok mins =>
  cases h6 : pyMin mins with
  | error e => rw [h1, h2, h3, h5] at h; simp only [bind, Except.bind, h4, h6] at h; cases h
  | ok min =>
  cases h7 : r.posRpe with
  | error e => rw [h1, h2, h3, h5, h7] at h; simp only [bind, Except.bind, h4, h6] at h; cases h
  | ok avg =>
  cases h8 : r.posDevMedian with
  | error e => rw [h1, h2, h3, h5, h7, h8] at h; simp only [bind, Except.bind, h4, h6] at h; cases h
  | ok meds =>
  cases h9 : npMedian meds with
  | error e => rw [h1, h2, h3, h5, h7, h8] at h; simp only [bind, Except.bind, h4, h6, h9] at h; cases h
  | ok med =>
  rw [h1, h2, h3, h5, h7, h8] at h
  simp only [bind, Except.bind, h4, h6, h9, pure, Except.pure, Except.ok.injEq] at h
  exact ⟨dists, means, maxs, mins, meds, max, min, avg, med, rfl, rfl, rfl, h4, rfl, h6, rfl, rfl, h9, h.symm⟩

/-- the keys begin with other letters than those of the rotations -/
theorem position_keys {r : RpeResult K} {d : List (Str × Str)} (h : r.positionDict = .ok d) {e : Str × Str} (he : e ∈ d) :
    e.1.take 10 ≠ "Average ro".toList ∧ e.1.drop 8 ≠ "Rotation Drift".toList ∧ e.1 ≠ "Median Rotation Drift".toList := by
  obtain ⟨dists, means, maxs, mins, meds, max, min, avg, med, -, -, -, -, -, -, -, -, -, rfl⟩ := positionDict_inv h
  rcases strUpdate_mem he with he | he
  · rcases strUpdate_mem he with he | he
    · simp only [List.mem_cons, List.not_mem_nil, or_false] at he
      rcases he with rfl | rfl | rfl <;> exact ⟨by simp, by simp, by simp⟩
    · rcases strUpdate_mem he with he | he
      · simp at he
      · unfold RpeResult.driftLines at he
        obtain ⟨x, -, rfl⟩ := List.mem_map.1 he
        simp only [List.append_assoc]
        exact ⟨by simp, by simp, by simp⟩
  · simp only [List.mem_cons, List.not_mem_nil, or_false] at he
    rcases he with rfl | rfl | rfl | rfl <;> exact ⟨by simp, by simp, by simp⟩

/-- what is shown for a result with rotations begins with what is shown for its positions -/
theorem propertyDict_prefix {deg : K → K} {r : RpeResult K} {a : List (Str × Str)} (h : r.propertyDict deg = .ok a) :
    ∃ d rest l, r.positionDict = .ok d ∧ a = d ++ rest ∧ a = strUpdate d l ∧
      (∀ e ∈ l, e.1.take 10 = "Average ro".toList ∨ e.1.drop 8 = "Rotation Drift".toList ∨ e.1 = "Median Rotation Drift".toList) ∧ (r.hasRotDev = false → l = []) := by
  unfold RpeResult.propertyDict at h
  cases hd : r.positionDict with
  | error e => rw [hd] at h; cases h
  | ok d =>
    rw [hd] at h
    simp only [bind, Except.bind] at h
    by_cases hr : r.hasRotDev = false
    · rw [if_pos hr] at h
      cases h
      exact ⟨_, [], [], rfl, by simp, rfl, by simp, fun _ => rfl⟩
    · rw [if_neg hr] at h
      have hfin : ∀ l1 l2 : List (Str × Str), strUpdate (strUpdate d l1) l2 = strUpdate d (l1 ++ l2) := by
        intro l1 l2
        unfold strUpdate
        rw [List.foldl_append]
      have hk : ∀ (dists devs : List K) (x y z w : Str), ∀ e ∈ strUpdate [] (RpeResult.driftLines "rotation" r.rotUnit r.distUnit dists devs) ++
          [("Maximum Rotation Drift".toList, x), ("Minimum Rotation Drift".toList, y), ("Average Rotation Drift".toList, z),
            ("Median Rotation Drift".toList, w)],
          e.1.take 10 = "Average ro".toList ∨ e.1.drop 8 = "Rotation Drift".toList ∨ e.1 = "Median Rotation Drift".toList := by
        intro dists devs x y z w e he
        rcases List.mem_append.1 he with he | he
        · rcases strUpdate_mem he with he | he
          · simp at he
          · unfold RpeResult.driftLines at he
            obtain ⟨x, -, rfl⟩ := List.mem_map.1 he
            left
            simp only [List.append_assoc]
            simp
        · simp only [List.mem_cons, List.not_mem_nil, or_false] at he
          rcases he with rfl | rfl | rfl | rfl <;> simp
      repeat' split at h
      all_goals first | (cases h; done) | skip
      simp only [pure, Except.pure, Except.ok.injEq] at h
      rw [hfin] at h
      obtain ⟨rest, hrest⟩ := strUpdate_prefix (d := d) _ [] (by
        intro e he e' he' hkey
        obtain ⟨h1, h2, h3⟩ := position_keys hd he'
        rcases hk _ _ _ _ _ _ e he with h | h | h
        · exact h1 (hkey ▸ h)
        · exact h2 (hkey ▸ h)
        · exact h3 (hkey.trans h))
      rw [List.append_nil] at hrest
      exact ⟨d, rest, _, rfl, h ▸ hrest, h.symm, hk _ _ _ _ _ _, fun h => absurd h hr⟩

/-- **C145 is false of the code**: the rotations are not compared when one of the two results has none, and the answer is yes. -/
theorem C145_rpe_rotations_ignored {deg : K → K} {r : RpeResult K} {a : List (Str × Str)} (h : r.propertyDict deg = .ok a) :
    r.eq deg (withoutRotations r) = .ok true ∧ (withoutRotations r).eq deg r = .ok true := by
  obtain ⟨d, rest, l, hd, ha, -, -, -⟩ := propertyDict_prefix h
  have hw : (withoutRotations r).propertyDict deg = .ok d := by
    unfold RpeResult.propertyDict
    rw [positionDict_without, hd]
    simp only [bind, Except.bind]
    rw [if_pos (hasRotDev_without r)]
    rfl
  have hz : ∀ x y : List (Str × Str), ((x ++ y).zip x).all (fun p => decide (p.1.2 = p.2.2)) = true ∧
      (x.zip (x ++ y)).all (fun p => decide (p.1.2 = p.2.2)) = true := by
    intro x y
    constructor
    · rw [List.zip_eq_zip_take_min]
      simpa using zip_self_all x
    · rw [List.zip_eq_zip_take_min]
      simpa using zip_self_all x
  unfold RpeResult.eq
  rw [h, hw, ha]
  simp only [bind, Except.bind, pyAssert, (hz d rest).1, (hz d rest).2]
  exact ⟨rfl, rfl⟩

/-! ### C155: the summary of a relative error -/

theorem look_strSet (d : List (Str × Str)) (k v k' : Str) : look (strSet d k v) k' = if k' = k then some v else look d k' := by
  unfold strSet look
  split_ifs with h1 h2 h2
  · subst h2
    induction d with
    | nil => simp at h1
    | cons e d ih =>
      by_cases he : e.1 = k'
      · simp [he]
      · rw [List.map_cons, if_neg he, List.find?_cons_of_neg (by simpa using he)]
        exact ih (by simpa [he] using h1)
  · clear h1
    induction d with
    | nil => rfl
    | cons e d ih =>
      rw [List.map_cons]
      by_cases he : e.1 = k
      · rw [if_pos he, List.find?_cons_of_neg (by simpa using fun h => h2 h.symm),
          List.find?_cons_of_neg (by simpa [he] using fun h => h2 h.symm)]
        exact ih
      · rw [if_neg he]
        by_cases he' : e.1 = k'
        · simp [he']
        · rw [List.find?_cons_of_neg (by simpa using he'), List.find?_cons_of_neg (by simpa using he')]
          exact ih
  · subst h2
    rw [List.find?_append, List.find?_eq_none.2 (by
      intro e he hk
      exact h1 (List.any_eq_true.2 ⟨e, he, by simpa using hk⟩))]
    simp
  · rw [List.find?_append]
    have : List.find? (fun e : Str × Str => decide (e.1 = k')) [(k, v)] = none := by
      rw [List.find?_cons_of_neg (by simpa using fun h => h2 h.symm)]
      rfl
    rw [this, Option.or_none]

/-- a key that is not updated -/
theorem look_update_old : ∀ {l d : List (Str × Str)} {k : Str}, (∀ e ∈ l, e.1 ≠ k) → look (strUpdate d l) k = look d k
  | [], _, _, _ => rfl
  | e :: l, d, k, h => by
    have := look_update_old (l := l) (d := strSet d e.1 e.2) (k := k) (fun e' he' => h e' (by simp [he']))
    rw [look_strSet, if_neg (fun hk => h e (by simp) hk.symm)] at this
    exact this

/-- a key that is updated once -/
theorem look_update_new : ∀ {l d : List (Str × Str)} {e : Str × Str}, (l.map Prod.fst).Nodup → e ∈ l →
    look (strUpdate d l) e.1 = some e.2
  | [], _, _, _, h => by simp at h
  | x :: l, d, e, hn, h => by
    rw [List.map_cons, List.nodup_cons] at hn
    rcases List.mem_cons.1 h with rfl | h
    · have := look_update_old (l := l) (d := strSet d e.1 e.2) (k := e.1)
        (fun e' he' hk => hn.1 (List.mem_map.2 ⟨e', he', hk⟩))
      rw [look_strSet, if_pos rfl] at this
      exact this
    · exact look_update_new (d := strSet d x.1 x.2) hn.2 h

omit [FloorRing K] in
theorem numbers_inv {l : List (Option K)} {xs : List K} (h : numbers l = .ok xs) : l = xs.map some := by
  unfold numbers at h
  induction l generalizing xs with
  | nil => cases h; rfl
  | cons a l ih =>
    obtain ⟨b, bs, h1, h2, rfl⟩ := mapE_cons_inv h
    cases a with
    | none => cases h1
    | some a => cases h1; rw [ih h2]; rfl

/-- the entries of a statistic are those of the bins that are not empty -/
theorem computeMetric_mem {r : RpeResult K} {sel : RpeGroup K → List (Option K)} {f : List K → Except Err K} {c : K}
    {out : List K} (h : r.computeMetric sel f c = .ok out) (y : K) :
    y ∈ out ↔ ∃ g ∈ r.groups, ∃ xs z, sel g = xs.map some ∧ xs ≠ [] ∧ f xs = .ok z ∧ y = z * c := by
  unfold RpeResult.computeMetric at h
  constructor
  · intro hy
    obtain ⟨l, hl, hf⟩ := mapE_mem h hy
    obtain ⟨hl, hne⟩ := List.mem_filter.1 hl
    obtain ⟨g, hg, rfl⟩ := List.mem_map.1 hl
    cases hn : numbers (sel g) with
    | error e => rw [hn] at hf; cases hf
    | ok xs =>
      rw [hn] at hf
      cases hz : f xs with
      | error e => simp only [bind, Except.bind, hz] at hf; cases hf
      | ok z =>
        simp only [bind, Except.bind, hz, pure, Except.pure, Except.ok.injEq] at hf
        refine ⟨g, hg, xs, z, numbers_inv hn, ?_, hz, hf.symm⟩
        rintro rfl
        rw [numbers_inv hn] at hne
        simp at hne
  · rintro ⟨g, hg, xs, z, hs, hne, hz, rfl⟩
    have hm : sel g ∈ (r.groups.map sel).filter (fun l => !l.isEmpty) := by
      rw [List.mem_filter]
      exact ⟨List.mem_map.2 ⟨g, hg, rfl⟩, by rw [hs]; simpa using hne⟩
    obtain ⟨i, hi⟩ := List.mem_iff_getElem?.1 hm
    obtain ⟨b, hb, hb'⟩ := mapE_getElem? h hi
    rw [hs, numbers_some] at hb
    simp only [bind, Except.bind, hz, pure, Except.pure, Except.ok.injEq] at hb
    rw [hb]
    exact List.mem_of_getElem? hb'

theorem computeMetric_all {r : RpeResult K} {sel : RpeGroup K → List (Option K)} {f : List K → Except Err K} {c : K}
    {out : List K} (h : r.computeMetric sel f c = .ok out) {g : RpeGroup K} (hg : g ∈ r.groups) (hne : sel g ≠ []) :
    ∃ xs z, sel g = xs.map some ∧ xs ≠ [] ∧ f xs = .ok z ∧ z * c ∈ out := by
  unfold RpeResult.computeMetric at h
  have hm : sel g ∈ (r.groups.map sel).filter (fun l => !l.isEmpty) := by
    rw [List.mem_filter]
    exact ⟨List.mem_map.2 ⟨g, hg, rfl⟩, by simpa using hne⟩
  obtain ⟨i, hi⟩ := List.mem_iff_getElem?.1 hm
  obtain ⟨b, hb, hb'⟩ := mapE_getElem? h hi
  cases hn : numbers (sel g) with
  | error e => rw [hn] at hb; cases hb
  | ok xs =>
    rw [hn] at hb
    cases hz : f xs with
    | error e => simp only [bind, Except.bind, hz] at hb; cases hb
    | ok z =>
      simp only [bind, Except.bind, hz, pure, Except.pure, Except.ok.injEq] at hb
      refine ⟨xs, z, numbers_inv hn, ?_, hz, hb ▸ List.mem_of_getElem? hb'⟩
      rintro rfl
      exact hne (numbers_inv hn)

theorem look_property {deg : K → K} {r : RpeResult K} {a d : List (Str × Str)} (h : r.propertyDict deg = .ok a)
    (hd : r.positionDict = .ok d) {k : Str} (h1 : k.take 10 ≠ "Average ro".toList) (h2 : k.drop 8 ≠ "Rotation Drift".toList)
    (h3 : k ≠ "Median Rotation Drift".toList) : look a k = look d k := by
  obtain ⟨d', rest, l, hd', -, rfl, hl, -⟩ := propertyDict_prefix h
  rw [hd] at hd'
  cases hd'
  apply look_update_old
  rintro e he rfl
  exact (hl e he).elim h1 (fun h => h.elim h2 h3)

theorem drift_nonneg (r : RpeResult K) : 0 ≤ r.driftFactor := by
  unfold RpeResult.driftFactor
  split_ifs <;> norm_num

/-- the four lines at the end -/
theorem look_static (d : List (Str × Str)) (x y z w : Str) :
    let a := strUpdate d [("Maximum Position Drift".toList, x), ("Minimum Position Drift".toList, y),
      ("Average Position Drift".toList, z), ("Median Position Drift".toList, w)]
    look a "Maximum Position Drift".toList = some x ∧ look a "Minimum Position Drift".toList = some y ∧
      look a "Average Position Drift".toList = some z ∧ look a "Median Position Drift".toList = some w := by
  intro a
  have hn : (([("Maximum Position Drift".toList, x), ("Minimum Position Drift".toList, y),
      ("Average Position Drift".toList, z), ("Median Position Drift".toList, w)] : List (Str × Str)).map Prod.fst).Nodup := by
    show (["Maximum Position Drift".toList, "Minimum Position Drift".toList, "Average Position Drift".toList,
      "Median Position Drift".toList] : List Str).Nodup
    decide
  exact ⟨look_update_new (d := d) (e := ("Maximum Position Drift".toList, x)) hn (List.mem_cons_self ..),
    look_update_new (d := d) (e := ("Minimum Position Drift".toList, y)) hn (List.mem_cons_of_mem _ (List.mem_cons_self ..)),
    look_update_new (d := d) (e := ("Average Position Drift".toList, z)) hn
      (List.mem_cons_of_mem _ (List.mem_cons_of_mem _ (List.mem_cons_self ..))),
    look_update_new (d := d) (e := ("Median Position Drift".toList, w)) hn
      (List.mem_cons_of_mem _ (List.mem_cons_of_mem _ (List.mem_cons_of_mem _ (List.mem_cons_self ..))))⟩

/-- **C155**, largest and smallest deviation: whenever the summary of a relative error is shown, its largest and its smallest
drift are the largest and the smallest of all deviations of the positions, in the unit of the summary.
Missing for the full property: the median, `C155_median_wrong`, and bins at nearly the same distance, `C155_line_lost`. -/
theorem C155_extremes_partial {deg : K → K} {r : RpeResult K} {a : List (Str × Str)} (h : r.propertyDict deg = .ok a) :
    ∃ max min unit, look a "Maximum Position Drift".toList = some (fmtFixed 3 max ++ ' ' :: unit) ∧
      look a "Minimum Position Drift".toList = some (fmtFixed 3 min ++ ' ' :: unit) ∧
      IsDrift r max ∧ (∀ x, IsDrift r x → x ≤ max) ∧ IsDrift r min ∧ (∀ x, IsDrift r x → min ≤ x) ∧
      unit = (if r.unit = .meter then "%" else "m/s").toList := by
  obtain ⟨d, -, -, hd, -⟩ := propertyDict_prefix h
  obtain ⟨dists, means, maxs, mins, meds, max, min, avg, med, -, -, hmaxs, hmax, hmins, hmin, -, -, -, hdd⟩ := positionDict_inv hd
  have hc := drift_nonneg r
  have hneMax : maxs ≠ [] := by rintro rfl; cases hmax
  have hneMin : mins ≠ [] := by rintro rfl; cases hmin
  obtain ⟨m1, hm1, hm2, hm3⟩ := pyMax_spec hneMax
  obtain ⟨m2, hm4, hm5, hm6⟩ := pyMin_spec hneMin
  rw [hmax] at hm1
  rw [hmin] at hm4
  cases hm1
  cases hm4
  refine ⟨max, min, r.posUnit, ?_, ?_, ?_, ?_, ?_, ?_, ?_⟩
  · rw [look_property h hd (by simp) (by simp) (by simp), hdd, (look_static _ _ _ _ _).1]
    simp [RpeResult.withUnit]
  · rw [look_property h hd (by simp) (by simp) (by simp), hdd, (look_static _ _ _ _ _).2.1]
    simp [RpeResult.withUnit]
  · obtain ⟨g, hg, xs, z, hs, hne, hz, hy⟩ := (computeMetric_mem hmaxs max).1 hm2
    obtain ⟨z', hz', hz2, -⟩ := pyMax_spec hne
    rw [hz] at hz'
    cases hz'
    exact ⟨g, hg, z, by rw [hs]; exact List.mem_map.2 ⟨z, hz2, rfl⟩, hy⟩
  · rintro x ⟨g, hg, y, hy, rfl⟩
    obtain ⟨xs, z, hs, hne, hz, hmem⟩ := computeMetric_all hmaxs hg (by rintro h0; rw [h0] at hy; simp at hy)
    obtain ⟨z', hz', -, hz3⟩ := pyMax_spec hne
    rw [hz] at hz'
    cases hz'
    rw [hs] at hy
    obtain ⟨y', hy', hyy⟩ := List.mem_map.1 hy
    cases hyy
    exact le_trans (mul_le_mul_of_nonneg_right (hz3 y hy') hc) (hm3 _ hmem)
  · obtain ⟨g, hg, xs, z, hs, hne, hz, hy⟩ := (computeMetric_mem hmins min).1 hm5
    obtain ⟨z', hz', hz2, -⟩ := pyMin_spec hne
    rw [hz] at hz'
    cases hz'
    exact ⟨g, hg, z, by rw [hs]; exact List.mem_map.2 ⟨z, hz2, rfl⟩, hy⟩
  · rintro x ⟨g, hg, y, hy, rfl⟩
    obtain ⟨xs, z, hs, hne, hz, hmem⟩ := computeMetric_all hmins hg (by rintro h0; rw [h0] at hy; simp at hy)
    obtain ⟨z', hz', -, hz3⟩ := pyMin_spec hne
    rw [hz] at hz'
    cases hz'
    rw [hs] at hy
    obtain ⟨y', hy', hyy⟩ := List.mem_map.1 hy
    cases hyy
    exact le_trans (hm6 _ hmem) (mul_le_mul_of_nonneg_right (hz3 y hy') hc)
  · unfold RpeResult.posUnit
    split_ifs <;> rfl

theorem strUpdate_nodup : ∀ {l d : List (Str × Str)}, (l.map Prod.fst).Nodup → (∀ e ∈ l, ∀ e' ∈ d, e'.1 ≠ e.1) →
    strUpdate d l = d ++ l
  | [], d, _, _ => by simp [strUpdate]
  | e :: l, d, hn, h => by
    rw [List.map_cons, List.nodup_cons] at hn
    have h1 : strSet d e.1 e.2 = d ++ [e] := strSet_new (fun e' he' => h e (by simp) e' he')
    have := strUpdate_nodup (l := l) (d := d ++ [e]) hn.2 (by
      intro x hx y hy
      rcases List.mem_append.1 hy with hy | hy
      · exact h x (by simp [hx]) y hy
      · rw [List.mem_singleton] at hy
        subst hy
        exact fun hk => hn.1 (List.mem_map.2 ⟨x, hx, hk.symm⟩))
    rw [← h1] at this
    rw [show strUpdate d (e :: l) = strUpdate (strSet d e.1 e.2) l from rfl, this]
    rw [h1]
    simp

theorem strSet_fst_nodup {d : List (Str × Str)} (h : (d.map Prod.fst).Nodup) (k v : Str) : ((strSet d k v).map Prod.fst).Nodup := by
  unfold strSet
  split_ifs with h1
  · rw [List.map_map]
    have : (d.map (Prod.fst ∘ fun e : Str × Str => if e.1 = k then (k, v) else e)) = d.map Prod.fst := by
      apply List.map_congr_left
      intro e _
      simp only [Function.comp]
      split_ifs with he
      · exact he.symm
      · rfl
    rw [this]
    exact h
  · rw [List.map_append, List.nodup_append]
    refine ⟨h, by simp, ?_⟩
    intro x hx y hy hxy
    obtain ⟨e, he, rfl⟩ := List.mem_map.1 hx
    have hy : y = k := by simpa using hy
    exact h1 (List.any_eq_true.2 ⟨e, he, by simpa using hxy.trans hy⟩)

theorem strUpdate_fst_nodup : ∀ {l d : List (Str × Str)}, (d.map Prod.fst).Nodup → ((strUpdate d l).map Prod.fst).Nodup
  | [], _, h => h
  | e :: l, _, h => strUpdate_fst_nodup (l := l) (strSet_fst_nodup h e.1 e.2)

theorem property_nodup {deg : K → K} {r : RpeResult K} {a : List (Str × Str)} (h : r.propertyDict deg = .ok a) :
    (a.map Prod.fst).Nodup := by
  obtain ⟨d, -, l, hd, -, rfl, -, -⟩ := propertyDict_prefix h
  obtain ⟨dists, means, maxs, mins, meds, max, min, avg, med, -, -, -, -, -, -, -, -, -, rfl⟩ := positionDict_inv hd
  apply strUpdate_fst_nodup
  apply strUpdate_fst_nodup
  apply strUpdate_fst_nodup
  show (["Name".toList, "Type".toList, "Number of pose pairs".toList] : List Str).Nodup
  decide

omit [FloorRing K] in
theorem computeMetric_get {r : RpeResult K} {sel : RpeGroup K → List (Option K)} {f : List K → Except Err K} {c : K}
    {out : List K} (h : r.computeMetric sel f c = .ok out) {k : Nat} {g : RpeGroup K}
    (hk : (r.groups.filter (fun g => !(sel g).isEmpty))[k]? = some g) :
    ∃ xs z, sel g = xs.map some ∧ f xs = .ok z ∧ out[k]? = some (z * c) := by
  unfold RpeResult.computeMetric at h
  rw [filter_map_isEmpty] at h
  have hi : ((r.groups.filter (fun g => !(sel g).isEmpty)).map sel)[k]? = some (sel g) := by
    rw [List.getElem?_map, hk]; rfl
  obtain ⟨b, hb, hb'⟩ := mapE_getElem? h hi
  cases hn : numbers (sel g) with
  | error e => rw [hn] at hb; cases hb
  | ok xs =>
    rw [hn] at hb
    cases hz : f xs with
    | error e => simp only [bind, Except.bind, hz] at hb; cases hb
    | ok z =>
      simp only [bind, Except.bind, hz, pure, Except.pure, Except.ok.injEq] at hb
      exact ⟨xs, z, numbers_inv hn, hz, by rw [hb', ← hb]⟩

omit [FloorRing K] in
theorem computeMetric_length {r : RpeResult K} {sel : RpeGroup K → List (Option K)} {f : List K → Except Err K} {c : K}
    {out : List K} (h : r.computeMetric sel f c = .ok out) :
    out.length = (r.groups.filter (fun g => !(sel g).isEmpty)).length := by
  unfold RpeResult.computeMetric at h
  rw [filter_map_isEmpty] at h
  rw [mapE_length h, List.length_map]

omit [FloorRing K] in
/-- the mean distances of the bins that are shown -/
theorem meanPairDistances_eq {r : RpeResult K} {dists : List K} (h : r.meanPairDistances = .ok dists) :
    dists = (r.groups.filter (fun g => !g.pairDist.isEmpty)).map binDistance := by
  have hf : r.groups.filter (fun g => !(g.pairDist.map some).isEmpty) = r.groups.filter (fun g => !g.pairDist.isEmpty) := by
    congr 1
    funext g
    cases g.pairDist <;> rfl
  apply List.ext_getElem?
  intro k
  cases hk : (r.groups.filter (fun g => !g.pairDist.isEmpty))[k]? with
  | none =>
    rw [List.getElem?_map, hk]
    have := computeMetric_length h
    rw [hf] at this
    rw [List.getElem?_eq_none_iff] at hk
    rw [Option.map_none, List.getElem?_eq_none_iff]
    omega
  | some g =>
    rw [List.getElem?_map, hk]
    obtain ⟨xs, z, h1, h2, h3⟩ := computeMetric_get h (by rw [hf]; exact hk)
    have hx : xs = g.pairDist := (List.map_injective_iff.2 (Option.some_injective K) h1).symm
    subst hx
    have hne : g.pairDist ≠ [] := by
      rintro h0
      have := (List.mem_filter.1 (List.mem_of_getElem? hk)).2
      simp [h0] at this
    rw [npMean_ne hne] at h2
    cases h2
    rw [h3]
    simp [binDistance]

/-- **C155**, the bins: if the mean distances of the bins differ in the digits that are shown, there is a line for every
bin with pairs, with its mean distance and the mean of its deviations. -/
theorem C155_lines_partial {deg : K → K} {r : RpeResult K} {a : List (Str × Str)} (h : r.propertyDict deg = .ok a)
    (hlen : ∀ g ∈ r.groups, g.posDev.length = g.pairDist.length)
    (hd : ((r.groups.filter (fun g => !g.pairDist.isEmpty)).map (fun g => fmtFixed 3 (binDistance g))).Nodup)
    {g : RpeGroup K} (hg : g ∈ r.groups) (hne : g.pairDist ≠ []) :
    ∃ xs : List K, g.posDev = xs.map some ∧ xs ≠ [] ∧
      binLine r g (xs.sum / xs.length * (if r.unit = .meter then 100 else 1)) ∈ a := by
  obtain ⟨d, rest, -, hdd, rfl, -, -, -⟩ := propertyDict_prefix h
  obtain ⟨dists, means, maxs, mins, meds, max, min, avg, med, h1, h2, -, -, -, -, -, -, -, hdd'⟩ := positionDict_inv hdd
  have hdists := meanPairDistances_eq h1
  have hf : r.groups.filter (fun g => !g.posDev.isEmpty) = r.groups.filter (fun g => !g.pairDist.isEmpty) := by
    apply List.filter_congr
    intro g hg
    have := hlen g hg
    cases hp : g.posDev <;> cases hq : g.pairDist <;> rw [hp, hq] at this <;> simp at this ⊢
  obtain ⟨k, hk⟩ := List.mem_iff_getElem?.1 (List.mem_filter.2 ⟨hg, by simpa using hne⟩ :
    g ∈ r.groups.filter (fun g => !g.pairDist.isEmpty))
  obtain ⟨xs, z, hx, hz, hm⟩ := computeMetric_get h2 (by rw [hf]; exact hk)
  have hxne : xs ≠ [] := by
    rintro rfl
    have := hlen g hg
    rw [hx] at this
    exact hne (List.eq_nil_of_length_eq_zero this.symm)
  rw [npMean_ne hxne] at hz
  cases hz
  refine ⟨xs, hx, hxne, List.mem_append_left _ ?_⟩
  have hl : (((RpeResult.driftLines "position" r.posUnit r.distUnit dists means)).map Prod.fst).Nodup := by
    have : (RpeResult.driftLines "position" r.posUnit r.distUnit dists means).map Prod.fst =
        ((dists.zip means).map (fun p => fmtFixed 3 p.1)).map (fun s : Str => "Average position drift at ".toList ++ s ++
          " (avg) ".toList ++ r.distUnit) := by
      unfold RpeResult.driftLines
      simp
    rw [this]
    apply List.Nodup.map
    · intro s t hst
      simp only [List.append_assoc] at hst
      have := List.append_cancel_left hst
      exact List.append_cancel_right this
    · have h3 : (dists.zip means).map (fun p => fmtFixed 3 p.1) = dists.map (fmtFixed 3) := by
        rw [show (fun p : K × K => fmtFixed 3 p.1) = fmtFixed 3 ∘ Prod.fst from rfl, ← List.map_map, List.map_fst_zip]
        rw [computeMetric_length h2, hf, hdists, List.length_map]
      rw [h3, hdists, List.map_map]
      exact hd
  have hline : binLine r g (xs.sum / xs.length * (if r.unit = .meter then 100 else 1)) ∈
      RpeResult.driftLines "position" r.posUnit r.distUnit dists means := by
    unfold RpeResult.driftLines
    refine List.mem_map.2 ⟨(binDistance g, xs.sum / xs.length * r.driftFactor), ?_, ?_⟩
    · refine List.mem_of_getElem? (i := k) (List.getElem?_zip_eq_some.2 ⟨?_, hm⟩)
      rw [hdists, List.getElem?_map, hk]
      rfl
    · unfold binLine RpeResult.withUnit RpeResult.driftFactor RpeResult.distUnit RpeResult.posUnit
      split_ifs <;> simp
  rw [hdd', strUpdate_nodup (l := RpeResult.driftLines "position" r.posUnit r.distUnit dists means) hl (by simp), List.nil_append]
  have hbase : ∀ e ∈ RpeResult.driftLines "position" r.posUnit r.distUnit dists means, e.1.take 10 = "Average po".toList := by
    intro e he
    unfold RpeResult.driftLines at he
    obtain ⟨x, -, rfl⟩ := List.mem_map.1 he
    simp only [List.append_assoc]
    simp
  rw [strUpdate_nodup (l := RpeResult.driftLines "position" r.posUnit r.distUnit dists means) hl (by
    intro e he e' he' hk
    have := hbase e he
    rw [← hk] at this
    simp only [List.mem_cons, List.not_mem_nil, or_false] at he'
    rcases he' with rfl | rfl | rfl <;> simp at this)]
  obtain ⟨rest', hr⟩ := strUpdate_prefix (d := [("Name".toList, r.name.toList), ("Type".toList, "RPEResult".toList),
          ("Number of pose pairs".toList, natStr r.len)] ++ RpeResult.driftLines "position" r.posUnit r.distUnit dists means)
    [("Maximum Position Drift".toList, RpeResult.withUnit r.posUnit max),
         ("Minimum Position Drift".toList, RpeResult.withUnit r.posUnit min),
         ("Average Position Drift".toList, RpeResult.withUnit r.posUnit avg),
         ("Median Position Drift".toList, RpeResult.withUnit r.posUnit med)] [] (by
    intro e he e' he' hk
    rcases List.mem_append.1 he' with he' | he'
    · simp only [List.mem_cons, List.not_mem_nil, or_false] at he he'
      rcases he' with rfl | rfl | rfl <;> rcases he with rfl | rfl | rfl | rfl <;> simp at hk
    · have := hbase e' he'
      rw [hk] at this
      simp only [List.mem_cons, List.not_mem_nil, or_false] at he
      rcases he with rfl | rfl | rfl | rfl <;> simp at this)
  rw [List.append_nil] at hr
  rw [hr]
  exact List.mem_append_left _ (List.mem_append_right _ hline)

/-- **C155 is false of the code**: of two bins whose mean distances agree in the digits that are shown, and whose drifts do
not, one has no line. -/
theorem C155_line_lost {deg : K → K} {r : RpeResult K} {a : List (Str × Str)} (h : r.propertyDict deg = .ok a)
    {g g' : RpeGroup K} (hd : fmtFixed 3 (binDistance g) = fmtFixed 3 (binDistance g')) {x x' : K}
    (hx : fmtFixed 3 x ≠ fmtFixed 3 x') : ¬ (binLine r g x ∈ a ∧ binLine r g' x' ∈ a) := by
  rintro ⟨h1, h2⟩
  have hn := property_nodup h
  have hk : (binLine r g x).1 = (binLine r g' x').1 := by
    unfold binLine
    simp only [hd]
  have : binLine r g x = binLine r g' x' := List.inj_on_of_nodup_map hn h1 h2 hk
  have h2 := congrArg Prod.snd this
  unfold binLine at h2
  simp only at h2
  exact hx (List.append_cancel_right h2)

end

/-! ### C153: adding and subtracting parameters -/

/-- **C153**, values: the sum and the difference of two parameters have the sum and the difference of the values in force, the
variance is not negative, and it is right if one of the two is known exactly.
Missing for the full property: two uncertain parameters, `C153_variance_too_small`. -/
theorem C153_arithmetic_partial {sqrt : K → K} (h0 : ∀ x, 0 ≤ x → 0 ≤ sqrt x) (h1 : ∀ x, 0 ≤ x → sqrt x * sqrt x = x) (n : Nat)
    (p q : Param K) (hp : 0 ≤ p.variance) (hq : 0 ≤ q.variance) :
    (p.add sqrt n q).value = p.value + q.value ∧ (p.sub sqrt n q).value = p.value - q.value ∧
      0 ≤ (p.add sqrt n q).variance ∧ (p.sub sqrt n q).variance = (p.add sqrt n q).variance ∧
      (p.variance = 0 ∨ q.variance = 0 → (p.add sqrt n q).variance = p.variance + q.variance) := by
  refine ⟨rfl, rfl, h0 _ (by positivity), rfl, ?_⟩
  have hs : ∀ x, 0 ≤ x → sqrt (x ^ 2) = x := by
    intro x hx
    have h2 := h0 (x ^ 2) (by positivity)
    have h3 := h1 (x ^ 2) (by positivity)
    nlinarith [mul_self_eq_mul_self_iff.1 (h3.trans (sq x)), sq_nonneg (sqrt (x ^ 2) - x),
      (mul_self_inj h2 hx).1 (h3.trans (sq x))]
  show _ → sqrt (p.variance ^ 2 + q.variance ^ 2) = _
  rintro (h | h)
  · rw [h, zero_add, show (0 : K) ^ 2 + q.variance ^ 2 = q.variance ^ 2 by ring]
    exact hs _ hq
  · rw [h, add_zero, show p.variance ^ 2 + (0 : K) ^ 2 = p.variance ^ 2 by ring]
    exact hs _ hp

/-- **C153 is false of the code**: the variance of the sum and of the difference of two uncertain parameters is smaller than the
sum of their variances. -/
theorem C153_variance_too_small {sqrt : K → K} (h0 : ∀ x, 0 ≤ x → 0 ≤ sqrt x) (h1 : ∀ x, 0 ≤ x → sqrt x * sqrt x = x) (n : Nat)
    (p q : Param K) (hp : 0 < p.variance) (hq : 0 < q.variance) :
    (p.add sqrt n q).variance < p.variance + q.variance ∧ (p.sub sqrt n q).variance < p.variance + q.variance := by
  have : sqrt (p.variance ^ 2 + q.variance ^ 2) < p.variance + q.variance := by
    have h2 := h0 (p.variance ^ 2 + q.variance ^ 2) (by positivity)
    have h3 := h1 (p.variance ^ 2 + q.variance ^ 2) (by positivity)
    by_contra hlt
    have hle := not_lt.1 hlt
    have := mul_self_le_mul_self (by positivity : (0 : K) ≤ p.variance + q.variance) hle
    nlinarith [mul_pos hp hq]
  exact ⟨this, this⟩

/-- **C153 is false of the code**: the result has no unit, whatever the units of the two are. -/
theorem C153_unit_lost (sqrt : K → K) (n : Nat) (p q : Param K) :
    (p.add sqrt n q).unit = .none ∧ (p.sub sqrt n q).unit = .none := ⟨rfl, rfl⟩

end

/-! ### concrete cases -/

-- two coherent trajectories of the same length that differ by less than the tolerance
example : Coherent exT ∧ exT.tstamps ≠ [] ∧ 2 ≤ exT.tstamps.length ∧
    Coherent (exOneAt 5) ∧ (exOneAt 5).tstamps.length ≠ exT.tstamps.length ∧
    Near (10000000 : ℚ) 10000001 ∧ ¬ Near (1 : ℚ) 2 :=
  ⟨exT_coherent, by decide, by decide, ⟨rfl, rfl, rfl, by rintro r ⟨⟩⟩, by decide, by unfold Near; decide +kernel,
    by unfold Near; decide +kernel⟩

-- the table of a trajectory whose time stamps are not sorted
example (io : IoLib ℚ Unit) : ((⟨[2, 1], [⟨5, 0, 0⟩, ⟨7, 0, 0⟩], none, [0, 2], [⟨1, 0, 0⟩, ⟨3, 0, 0⟩], .time, "a", 0⟩ : Traj ℚ Unit).toDataframe
      io stableArgsort []).map (fun f => f.rows) = .ok [[1, 2, 7, 0, 0, 3, 0, 0], [2, 0, 5, 0, 0, 1, 0, 0]] := by
  rfl

example : "pos_y".toList ∈ tableColumns false ∧ "rot_w".toList ∉ tableColumns false ∧ "rot_w".toList ∈ tableColumns true := by
  refine ⟨by decide, by decide, by decide⟩

-- orientations, here whole numbers, that are sorted with the time stamps
example : ((⟨[2, 1], [⟨5, 0, 0⟩, ⟨7, 0, 0⟩], some [30, 40], [0, 2], [⟨1, 0, 0⟩, ⟨3, 0, 0⟩], .time, "a", 0⟩ : Traj ℚ Nat).rpy
      (fun n : Nat => (⟨(n : ℚ), 0, 0⟩ : V3 ℚ)) stableArgsort).toOption = some [⟨40, 0, 0⟩, ⟨30, 0, 0⟩] := by
  rfl

example : SameAlignment exAlign exAlign ∧
    SameShape exAlign { exAlign with estimationOf := { scale := true } } ∧
    ¬ SameAlignment exAlign { exAlign with estimationOf := { scale := true } } :=
  ⟨⟨List.forall₂_same.2 fun _ _ => near_refl _, List.forall₂_same.2 fun _ _ => List.forall₂_same.2 fun _ _ => near_refl _,
      List.forall₂_same.2 fun _ _ => near_refl _, rfl⟩,
    ⟨rfl, rfl, rfl⟩, fun h => by simpa [exAlign] using h.settings⟩

/-- the relative errors of three pairs at one metre and of one pair at two metres, with rotations -/
def exDrift : RpeResult ℚ :=
  { name := "run"
    groups := [⟨1, [some 0, some 0, some 0], [some 0, some 0, some 0], [1, 1, 1]⟩, ⟨3, [], [], []⟩, ⟨2, [some 1], [some 1], [2]⟩]
    unit := .meter }

example : ((exDrift.propertyDict (fun x => x)).map (fun a => a.map (fun e => (String.ofList e.1, String.ofList e.2)))).toOption =
    some [("Name", "run"), ("Type", "RPEResult"), ("Number of pose pairs", "4"),
      ("Average position drift at 1.000 (avg) m", "0.000 %"), ("Average position drift at 2.000 (avg) m", "100.000 %"),
      ("Maximum Position Drift", "100.000 %"), ("Minimum Position Drift", "0.000 %"), ("Average Position Drift", "50.000 %"),
      ("Median Position Drift", "50.000 %"), ("Average rotation drift at 1.000 (avg) m", "0.000 deg/100m"),
      ("Average rotation drift at 2.000 (avg) m", "100.000 deg/100m"), ("Maximum Rotation Drift", "100.000 deg/100m"),
      ("Minimum Rotation Drift", "0.000 deg/100m"), ("Average Rotation Drift", "50.000 deg/100m"),
      ("Median Rotation Drift", "50.000 deg/100m")] := by
  decide +kernel

/-- **C155 is false of the code**: the median and the average that are shown are not those of all pairs but those of the bins.
Here half of the bins and one of four pairs have a drift. -/
theorem C155_median_wrong : ∃ (r : RpeResult ℚ) (a : List (Str × Str)) (all : List ℚ), r.propertyDict (fun x => x) = .ok a ∧
    (∀ x, x ∈ all ↔ IsDrift r x) ∧ all.length = r.len ∧ npMedian all = .ok 0 ∧ npMean all = .ok 25 ∧
    look a "Median Position Drift".toList = some "50.000 %".toList ∧ look a "Average Position Drift".toList = some "50.000 %".toList := by
  cases h : exDrift.propertyDict (fun x => x) with
  | error e =>
    have : (exDrift.propertyDict (fun x => x)).toOption.isSome = true := by decide +kernel
    rw [h] at this
    cases this
  | ok a =>
    have hm : ((exDrift.propertyDict (fun x => x)).map (fun a => (look a "Median Position Drift".toList,
        look a "Average Position Drift".toList))).toOption = some (some "50.000 %".toList, some "50.000 %".toList) := by decide +kernel
    rw [h] at hm
    simp only [Except.map, Except.toOption, Option.some.injEq, Prod.mk.injEq] at hm
    refine ⟨exDrift, a, [0, 0, 0, 100], h, ?_, by decide, ?_, ?_, hm.1, hm.2⟩
    · intro x
      unfold IsDrift exDrift
      simp
    · have : (npMedian ([0, 0, 0, 100] : List ℚ)).toOption = some 0 := by decide +kernel
      revert this
      cases npMedian ([0, 0, 0, 100] : List ℚ) <;> simp [Except.toOption]
    · have : (npMean ([0, 0, 0, 100] : List ℚ)).toOption = some 25 := by decide +kernel
      revert this
      cases npMean ([0, 0, 0, 100] : List ℚ) <;> simp [Except.toOption]

-- the bins of `exDrift` are shown at different distances, with as many deviations as distances
example : (∀ g ∈ exDrift.groups, g.posDev.length = g.pairDist.length) ∧
    ((exDrift.groups.filter (fun g => !g.pairDist.isEmpty)).map (fun g => fmtFixed 3 (binDistance g))).Nodup :=
  ⟨by decide, by decide +kernel⟩

-- two bins that cannot be told apart by their distances
example : fmtFixed 3 (binDistance (⟨1, [some 1], [], [1]⟩ : RpeGroup ℚ)) = fmtFixed 3 (binDistance (⟨2, [some 2], [], [10004 / 10000]⟩ : RpeGroup ℚ)) ∧
    fmtFixed 3 (100 : ℚ) ≠ fmtFixed 3 (200 : ℚ) := by
  decide +kernel

-- variances 3 and 4 give 5, not 7
example : ((⟨1, 3, 0, true, "a", .meter⟩ : Param ℝ).add Real.sqrt 7 ⟨2, 4, 0, true, "b", .meter⟩).variance = 5 := by
  simp only [Param.add, Param.variance, if_true]
  rw [show (3 : ℝ) ^ 2 + 4 ^ 2 = 5 * 5 by norm_num]
  exact Real.sqrt_mul_self (by norm_num)

end TC
