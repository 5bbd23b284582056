import Verif.Model.Direct
import Verif.Spec.Lever
import Verif.Spec.Rot
import Verif.Props.Utils
import Verif.Proofs.Equations
import Verif.Props.Cubic
import Verif.Proofs.Euler
/-!
# C113, C114: direct estimates of lever arm, time shift and sensor rotation
-/
namespace TC
set_option linter.unusedSectionVars false
variable {K R : Type} [Field K] [LinearOrder K] [IsStrictOrderedRing K]
open Direct

theorem sum_fin_getD {α : Type} (f : α → K) (d : α) : ∀ (l : List α) (m : Nat), l.length = m →
    ∑ i : Fin m, f (l.getD i d) = (l.map f).sum
  | [], m, h => by subst h; simp
  | x :: l, m, h => by
    subst h
    rw [List.length_cons, Fin.sum_univ_succ, List.map_cons, List.sum_cons]
    congr 1
    have := sum_fin_getD f d l l.length rfl
    rw [← this]
    rfl

theorem exists_obs : ∀ (source target rpy speed : List (V3 K)), target.length = source.length →
    rpy.length = source.length → speed.length = source.length →
    ∃ obs : List (LeverObs K), obs.length = source.length ∧ source = obs.map (fun o => o.1) ∧
      target = obs.map (fun o => o.2.1) ∧ rpy = obs.map (fun o => o.2.2.1) ∧ speed = obs.map (fun o => o.2.2.2)
  | [], [], [], [], _, _, _ => ⟨[], rfl, rfl, rfl, rfl, rfl⟩
  | s :: source, t :: target, r :: rpy, v :: speed, h1, h2, h3 => by
    obtain ⟨obs, h0, ha, hb, hc, hd⟩ := exists_obs source target rpy speed (by simpa using h1) (by simpa using h2)
      (by simpa using h3)
    exact ⟨(s, t, r, v) :: obs, by simp [h0], by simp [← ha], by simp [← hb], by simp [← hc], by simp [← hd]⟩

theorem zipWith_map_map {α β γ δ : Type} (f : α → β) (g : α → γ) (h : β → γ → δ) : ∀ l : List α,
    List.zipWith h (l.map f) (l.map g) = l.map (fun x => h (f x) (g x))
  | [] => rfl
  | x :: l => by simp [zipWith_map_map f g h l]

/-- the sum of squares over the three blocks of rows -/
theorem blocks_sum (obs : List (LeverObs K)) (n : Nat) (X Y Z : LeverObs K → List K) (dx dy dz : LeverObs K → K)
    (y : Fin n → K) (m : Nat) (hm : m = 3 * obs.length) :
    ∑ i, ((toMat m n (obs.map X ++ obs.map Y ++ obs.map Z)).mulVec y - toVec m (obs.map dx ++ obs.map dy ++ obs.map dz)) i *
      ((toMat m n (obs.map X ++ obs.map Y ++ obs.map Z)).mulVec y - toVec m (obs.map dx ++ obs.map dy ++ obs.map dz)) i =
    (obs.map (fun o => ((∑ j : Fin n, (X o).getD j 0 * y j) - dx o) * ((∑ j : Fin n, (X o).getD j 0 * y j) - dx o) +
      ((∑ j : Fin n, (Y o).getD j 0 * y j) - dy o) * ((∑ j : Fin n, (Y o).getD j 0 * y j) - dy o) +
      ((∑ j : Fin n, (Z o).getD j 0 * y j) - dz o) * ((∑ j : Fin n, (Z o).getD j 0 * y j) - dz o))).sum := by
  set rows := obs.map (fun o => (X o, dx o)) ++ obs.map (fun o => (Y o, dy o)) ++ obs.map (fun o => (Z o, dz o)) with hr
  have hlen : rows.length = m := by simp [hr, hm]; omega
  have hA : obs.map X ++ obs.map Y ++ obs.map Z = rows.map (fun r => r.1) := by simp [hr, Function.comp_def]
  have hL : obs.map dx ++ obs.map dy ++ obs.map dz = rows.map (fun r => r.2) := by simp [hr, Function.comp_def]
  have key := sum_fin_getD (fun r : List K × K => ((∑ j : Fin n, r.1.getD j 0 * y j) - r.2) *
    ((∑ j : Fin n, r.1.getD j 0 * y j) - r.2)) ([], 0) rows m hlen
  have hrhs : (rows.map (fun r : List K × K => ((∑ j : Fin n, r.1.getD j 0 * y j) - r.2) *
      ((∑ j : Fin n, r.1.getD j 0 * y j) - r.2))).sum =
    (obs.map (fun o => ((∑ j : Fin n, (X o).getD j 0 * y j) - dx o) * ((∑ j : Fin n, (X o).getD j 0 * y j) - dx o) +
      ((∑ j : Fin n, (Y o).getD j 0 * y j) - dy o) * ((∑ j : Fin n, (Y o).getD j 0 * y j) - dy o) +
      ((∑ j : Fin n, (Z o).getD j 0 * y j) - dz o) * ((∑ j : Fin n, (Z o).getD j 0 * y j) - dz o))).sum := by
    rw [hr, List.map_append, List.map_append, List.sum_append, List.sum_append, List.sum_map_add, List.sum_map_add]
    simp only [List.map_map, Function.comp_def]
  rw [← hrhs, ← key, hA, hL]
  refine Finset.sum_congr rfl fun i _ => ?_
  have hi : (i : Nat) < rows.length := by omega
  have e1 : ∀ j : Fin n, toMat m n (rows.map (fun r => r.1)) i j = ((rows.getD i ([], 0)).1).getD j 0 := by
    intro j
    unfold toMat
    simp [List.getD_eq_getElem?_getD, List.getElem?_eq_getElem hi]
  have e2 : toVec m (rows.map (fun r => r.2)) i = (rows.getD i ([], 0)).2 := by
    unfold toVec
    simp [List.getD_eq_getElem?_getD, List.getElem?_eq_getElem hi]
  simp only [Pi.sub_apply, Matrix.mulVec, dotProduct, e1, e2]

/-- the sum of squares of `leverErr`, written with the rows -/
theorem leverErr_eq (τ : Trig K) (obs : List (LeverObs K)) (l : V3 K) (dt : K) :
    leverErr τ obs l dt = (obs.map (fun o =>
      ((mulV (eulerMat τ o.2.2.1) l).x + dt * o.2.2.2.x - (o.2.1 - o.1).x) *
        ((mulV (eulerMat τ o.2.2.1) l).x + dt * o.2.2.2.x - (o.2.1 - o.1).x) +
      ((mulV (eulerMat τ o.2.2.1) l).y + dt * o.2.2.2.y - (o.2.1 - o.1).y) *
        ((mulV (eulerMat τ o.2.2.1) l).y + dt * o.2.2.2.y - (o.2.1 - o.1).y) +
      ((mulV (eulerMat τ o.2.2.1) l).z + dt * o.2.2.2.z - (o.2.1 - o.1).z) *
        ((mulV (eulerMat τ o.2.2.1) l).z + dt * o.2.2.2.z - (o.2.1 - o.1).z))).sum := by
  unfold leverErr
  congr 1
  refine List.map_congr_left fun o _ => ?_
  simp only [V3.normSq, V3.sub_x, V3.sub_y, V3.sub_z, V3.add_x, V3.add_y, V3.add_z, V3.smul_x, V3.smul_y, V3.smul_z]
  ring

theorem identity_nonneg (m : Nat) (u : Fin m → K) : 0 ≤ u ⬝ᵥ ((1 : Matrix (Fin m) (Fin m) K).mulVec u) := by
  rw [Matrix.one_mulVec]
  exact Finset.sum_nonneg fun i _ => mul_self_nonneg _

/-- least squares with unit weights, given explicitly or by default -/
theorem lsq_unit {solve : Solver K} (hs : IsSolver solve) {m n : Nat} (A : Matrix (Fin m) (Fin n) K) (l : Fin m → K)
    (sigma : Option (Matrix (Fin m) (Fin m) K)) (h1 : sigma.getD 1 = 1) (r : (Fin n → K) × (Fin m → K) × (Fin m → K))
    (hret : leastSquares solve A l sigma = .ok r) (y : Fin n → K) :
    ∑ i, (A.mulVec r.1 - l) i * (A.mulVec r.1 - l) i ≤ ∑ i, (A.mulVec y - l) i * (A.mulVec y - l) i := by
  obtain ⟨x, ls, v⟩ := r
  obtain ⟨_, _, _, h4⟩ := C30_least_squares solve hs A l sigma x ls v hret
  rw [h1] at h4
  have := h4 Matrix.transpose_one (identity_nonneg m) y
  unfold cost at this
  simp only [Matrix.one_mulVec] at this
  exact this

theorem newParam_value (v d : K) (n : String) (u : MUnit) : (newParam v d n u).value = v := rfl

theorem ofFn_getD {n : Nat} (f : Fin n → K) (i : Fin n) : (List.ofFn f).getD i 0 = f i := by
  simp [List.getD_eq_getElem?_getD]

theorem row3 (τ : Trig K) (r : V3 K) (y : Fin 3 → K) :
    ∑ j : Fin 3, (leverRowX τ r).getD j 0 * y j = (mulV (eulerMat τ r) ⟨y 0, y 1, y 2⟩).x ∧
    ∑ j : Fin 3, (leverRowY τ r).getD j 0 * y j = (mulV (eulerMat τ r) ⟨y 0, y 1, y 2⟩).y ∧
    ∑ j : Fin 3, (leverRowZ τ r).getD j 0 * y j = (mulV (eulerMat τ r) ⟨y 0, y 1, y 2⟩).z := by
  refine ⟨?_, ?_, ?_⟩ <;>
  · rw [Fin.sum_univ_three, eulerMat_apply]
    simp only [leverRowX, leverRowY, leverRowZ, List.getD_cons_zero, List.getD_cons_succ, Fin.val_zero, Fin.val_one, Fin.val_two]
    try ring

theorem row4 (τ : Trig K) (r : V3 K) (c : K) (y : Fin 4 → K) :
    ∑ j : Fin 4, (c :: leverRowX τ r).getD j 0 * y j = (mulV (eulerMat τ r) ⟨y 1, y 2, y 3⟩).x + y 0 * c ∧
    ∑ j : Fin 4, (c :: leverRowY τ r).getD j 0 * y j = (mulV (eulerMat τ r) ⟨y 1, y 2, y 3⟩).y + y 0 * c ∧
    ∑ j : Fin 4, (c :: leverRowZ τ r).getD j 0 * y j = (mulV (eulerMat τ r) ⟨y 1, y 2, y 3⟩).z + y 0 * c := by
  refine ⟨?_, ?_, ?_⟩ <;>
  · rw [Fin.sum_univ_four, eulerMat_apply]
    simp [leverRowX, leverRowY, leverRowZ, List.getD_eq_getElem?_getD]
    ring

/-- **C113**: the directly estimated lever arm (and time shift, if speeds are given) is the best one: with any
other lever arm and time shift the sum of squared distances between target points and moved source points is
not smaller.  Without speeds the time shift is 0. -/
theorem C113_direct_leverarm_optimal (τ : Trig K) (solve : Solver K) (hs : IsSolver solve)
    (target source rpy : List (V3 K)) (speed : Option (List (V3 K))) (ps : List (Param K)) (tp : Param K)
    (hret : leverarm τ solve target source rpy speed = .ok (ps, tp)) :
    ∃ x y z : Param K, ps = [x, y, z] ∧
      (match speed with
      | none => tp.value = 0 ∧ ∀ l, leverErr τ (source.zip (target.zip (rpy.zip (rpy.map (fun _ => 0)))))
          ⟨x.value, y.value, z.value⟩ 0 ≤ leverErr τ (source.zip (target.zip (rpy.zip (rpy.map (fun _ => 0))))) l 0
      | some v => ∀ l dt, leverErr τ (source.zip (target.zip (rpy.zip v))) ⟨x.value, y.value, z.value⟩ tp.value ≤
          leverErr τ (source.zip (target.zip (rpy.zip v))) l dt) := by
  unfold leverarm at hret
  split at hret
  · cases hret
  · rename_i hlen
    push Not at hlen
    cases speed with
    | none =>
      obtain ⟨obs, ho, h1, h2, h3, h4⟩ := exists_obs source target rpy (rpy.map (fun _ => (0 : V3 K))) hlen.1 hlen.2.symm
        (by simp [hlen.2])
      have hm : 3 * rpy.length = 3 * obs.length := by omega
      have hz : source.zip (target.zip (rpy.zip (rpy.map (fun _ => (0 : V3 K))))) = obs := by
        rw [h4, h1, h2, h3]
        simp only [List.zip, zipWith_map_map]
        simp
      rw [hz]
      have hspd : ∀ o ∈ obs, o.2.2.2 = 0 := by
        intro o hmem
        have : o.2.2.2 ∈ obs.map (fun o => o.2.2.2) := List.mem_map_of_mem hmem
        rw [← h4] at this
        simp only [List.mem_map] at this
        obtain ⟨_, _, e⟩ := this
        exact e.symm
      simp only [leverDesign, bind, Except.bind, pure, Except.pure] at hret
      split at hret
      · cases hret
      · rename_i r hr
        simp only [Except.ok.injEq, Prod.mk.injEq] at hret
        obtain ⟨hps, htp⟩ := hret
        refine ⟨_, _, _, hps.symm, by rw [← htp]; rfl, fun l => ?_⟩
        have := lsq_unit hs _ _ (some 1) rfl r hr ![l.x, l.y, l.z]
        have hrow : rpy.map (leverRowX τ) ++ rpy.map (leverRowY τ) ++ rpy.map (leverRowZ τ) =
            obs.map (fun o => leverRowX τ o.2.2.1) ++ obs.map (fun o => leverRowY τ o.2.2.1) ++
              obs.map (fun o => leverRowZ τ o.2.2.1) := by
          rw [h3]
          simp only [List.map_map, Function.comp_def]
        have hdif : differences source target = obs.map (fun o => (o.2.1 - o.1).x) ++ obs.map (fun o => (o.2.1 - o.1).y) ++
            obs.map (fun o => (o.2.1 - o.1).z) := by
          unfold differences
          rw [h1, h2, zipWith_map_map]
          simp only [List.map_map, Function.comp_def]
        rw [hrow, hdif, blocks_sum obs 3 _ _ _ _ _ _ _ _ hm, blocks_sum obs 3 _ _ _ _ _ _ _ _ hm] at this
        rw [leverErr_eq, leverErr_eq]
        refine le_trans (le_of_eq ?_) (le_trans this (le_of_eq ?_))
        · congr 1
          refine List.map_congr_left fun o hmem => ?_
          obtain ⟨e1, e2, e3⟩ := row3 τ o.2.2.1 r.1
          rw [hspd o hmem, e1, e2, e3]
          simp only [newParam_value]
          rw [show (List.ofFn r.1).getD 0 0 = r.1 0 from ofFn_getD r.1 0,
            show (List.ofFn r.1).getD (0 + 1) 0 = r.1 1 from ofFn_getD r.1 1,
            show (List.ofFn r.1).getD (0 + 2) 0 = r.1 2 from ofFn_getD r.1 2]
          simp
        · congr 1
          refine List.map_congr_left fun o hmem => ?_
          obtain ⟨e1, e2, e3⟩ := row3 τ o.2.2.1 ![l.x, l.y, l.z]
          rw [hspd o hmem, e1, e2, e3]
          simp
    | some v =>
      by_cases hv : (v.map V3.x ++ v.map V3.y ++ v.map V3.z).length ≠
          (rpy.map (leverRowX τ) ++ rpy.map (leverRowY τ) ++ rpy.map (leverRowZ τ)).length
      · simp only [leverDesign, bind, Except.bind, if_pos hv] at hret
        cases hret
      simp only [leverDesign, bind, Except.bind, pure, Except.pure, if_neg hv] at hret
      have hvl : v.length = source.length := by
        simp only [List.length_append, List.length_map, ne_eq, not_not] at hv
        omega
      obtain ⟨obs, ho, h1, h2, h3, h4⟩ := exists_obs source target rpy v hlen.1 hlen.2.symm hvl
      have hm : 3 * rpy.length = 3 * obs.length := by omega
      have hz : source.zip (target.zip (rpy.zip v)) = obs := by
        rw [h4, h1, h2, h3]
        simp only [List.zip, zipWith_map_map]
        simp
      simp only [hz]
      split at hret
      · cases hret
      · rename_i r hr
        simp only [Except.ok.injEq, Prod.mk.injEq] at hret
        obtain ⟨hps, htp⟩ := hret
        refine ⟨_, _, _, hps.symm, fun l dt => ?_⟩
        rw [← htp]
        have := lsq_unit hs _ _ (some 1) rfl r hr ![dt, l.x, l.y, l.z]
        have hrow : List.zipWith (fun c r => c :: r) (v.map V3.x ++ v.map V3.y ++ v.map V3.z)
            (rpy.map (leverRowX τ) ++ rpy.map (leverRowY τ) ++ rpy.map (leverRowZ τ)) =
            obs.map (fun o => o.2.2.2.x :: leverRowX τ o.2.2.1) ++ obs.map (fun o => o.2.2.2.y :: leverRowY τ o.2.2.1) ++
              obs.map (fun o => o.2.2.2.z :: leverRowZ τ o.2.2.1) := by
          rw [h3, h4, List.zipWith_append (by simp), List.zipWith_append (by simp)]
          simp only [List.map_map, Function.comp_def, zipWith_map_map]
        have hdif : differences source target = obs.map (fun o => (o.2.1 - o.1).x) ++ obs.map (fun o => (o.2.1 - o.1).y) ++
            obs.map (fun o => (o.2.1 - o.1).z) := by
          unfold differences
          rw [h1, h2, zipWith_map_map]
          simp only [List.map_map, Function.comp_def]
        rw [hrow, hdif, blocks_sum obs 4 _ _ _ _ _ _ _ _ hm, blocks_sum obs 4 _ _ _ _ _ _ _ _ hm] at this
        rw [leverErr_eq, leverErr_eq]
        refine le_trans (le_of_eq ?_) (le_trans this (le_of_eq ?_))
        · congr 1
          refine List.map_congr_left fun o hmem => ?_
          rw [(row4 τ o.2.2.1 o.2.2.2.x r.1).1, (row4 τ o.2.2.1 o.2.2.2.y r.1).2.1, (row4 τ o.2.2.1 o.2.2.2.z r.1).2.2]
          simp only [newParam_value]
          rw [show (List.ofFn r.1).getD 0 0 = r.1 0 from ofFn_getD r.1 0,
            show (List.ofFn r.1).getD 1 0 = r.1 1 from ofFn_getD r.1 1,
            show (List.ofFn r.1).getD (1 + 1) 0 = r.1 2 from ofFn_getD r.1 2,
            show (List.ofFn r.1).getD (1 + 2) 0 = r.1 3 from ofFn_getD r.1 3]
        · congr 1
          refine List.map_congr_left fun o hmem => ?_
          rw [(row4 τ o.2.2.1 o.2.2.2.x _).1, (row4 τ o.2.2.1 o.2.2.2.y _).2.1, (row4 τ o.2.2.1 o.2.2.2.z _).2.2]
          simp

/-- **C113** for the time shift alone: no other time shift gives a smaller sum of squared distances between the
target points and the source points moved by the speed times the time shift. -/
theorem C113_direct_timeshift_optimal (solve : Solver K) (hs : IsSolver solve)
    (target source speed : List (V3 K)) (tp : Param K) (hret : timeshift solve target source speed = .ok tp) (dt : K) :
    ((source.zip (target.zip speed)).map (fun o => V3.normSq (o.2.1 - (o.1 + tp.value • o.2.2)))).sum ≤
    ((source.zip (target.zip speed)).map (fun o => V3.normSq (o.2.1 - (o.1 + dt • o.2.2)))).sum := by
  unfold timeshift at hret
  split at hret
  · cases hret
  rename_i hlen
  push Not at hlen
  simp only at hret
  split at hret
  · cases hret
  rename_i hv
  push Not at hv
  have hvl : speed.length = source.length := by omega
  obtain ⟨obs, ho, h1, h2, h3, h4⟩ := exists_obs source target (source.map (fun _ => 0)) speed hlen (by simp) hvl
  have hm : 3 * speed.length = 3 * obs.length := by omega
  have hz : source.zip (target.zip speed) = obs.map (fun o => (o.1, o.2.1, o.2.2.2)) := by
    rw [h4, h1, h2]
    simp only [List.zip, zipWith_map_map]
  have hrow : (speed.map V3.x ++ speed.map V3.y ++ speed.map V3.z).map (fun c => [c]) =
      obs.map (fun o => [o.2.2.2.x]) ++ obs.map (fun o => [o.2.2.2.y]) ++ obs.map (fun o => [o.2.2.2.z]) := by
    rw [h4]
    simp only [List.map_append, List.map_map, Function.comp_def]
  have hdif : differences source target = obs.map (fun o => (o.2.1 - o.1).x) ++ obs.map (fun o => (o.2.1 - o.1).y) ++
      obs.map (fun o => (o.2.1 - o.1).z) := by
    unfold differences
    rw [h1, h2, zipWith_map_map]
    simp only [List.map_map, Function.comp_def]
  simp only [bind, Except.bind, pure, Except.pure] at hret
  split at hret
  · cases hret
  rename_i r hr
  cases hret
  have := lsq_unit hs _ _ none rfl r hr ![dt]
  rw [hrow, hdif, blocks_sum obs 1 _ _ _ _ _ _ _ _ hm, blocks_sum obs 1 _ _ _ _ _ _ _ _ hm] at this
  rw [hz, List.map_map, List.map_map]
  refine le_trans (le_of_eq ?_) (le_trans this (le_of_eq ?_))
  · congr 1
    refine List.map_congr_left fun o hmem => ?_
    rw [newParam_value, show (List.ofFn r.1).getD 0 0 = r.1 0 from ofFn_getD r.1 0]
    simp [V3.normSq]
    ring
  · congr 1
    refine List.map_congr_left fun o hmem => ?_
    simp [V3.normSq]
    ring

/-- **C114**: if all target orientations are the source orientations turned by the same rotation `S`, the
estimated angles describe `S`, and turning the source orientations by them gives the target orientations.
`hmean`: the mean of equal rotations is that rotation; `heul`: the angles of a rotation describe it. -/
theorem C114_sensor_rotation_recovered (L : RotLib K R) (hL : IsRotLib L) (mean : List R → Except Err R)
    (hmean : ∀ (S : R) (n : Nat), 0 < n → mean (List.replicate n S) = .ok S)
    (τ : Trig K) (euler : R → V3 K) (heul : ∀ S, eulerMat τ (euler S) = L.toMat S)
    (source : List R) (hne : source ≠ []) (S : R) :
    ∃ x y z : Param K, alignRotations L mean euler source (source.map (fun o => L.mul S o)) = .ok [x, y, z] ∧
      eulerMat τ ⟨x.value, y.value, z.value⟩ = L.toMat S ∧
      ∀ o ∈ source, eulerMat τ ⟨x.value, y.value, z.value⟩ * L.toMat o = L.toMat (L.mul S o) := by
  have hz : List.zipWith (fun t s => L.mul t (L.inv s)) (source.map (fun o => L.mul S o)) source =
      List.replicate source.length S := by
    clear hne
    induction source with
    | nil => rfl
    | cons o l ih =>
      rw [List.map_cons, List.zipWith_cons_cons, ih, List.length_cons, List.replicate_succ]
      congr 1
      rw [← hL.fromMat_toMat (L.mul (L.mul S o) (L.inv o)), hL.toMat_mul, hL.toMat_mul, hL.toMat_inv, Matrix.mul_assoc,
        (hL.rot o).1, Matrix.mul_one, hL.fromMat_toMat]
  refine ⟨newParam (euler S).x 0 "Rotation x" .radian, newParam (euler S).y 0 "Rotation y" .radian,
    newParam (euler S).z 0 "Rotation z" .radian, ?_, ?_, fun o _ => ?_⟩
  · unfold alignRotations
    rw [if_neg (by simp), hz, hmean S _ (List.length_pos_iff.2 hne)]
    rfl
  · simp only [newParam_value]
    exact heul S
  · simp only [newParam_value]
    have : eulerMat τ (⟨(euler S).x, (euler S).y, (euler S).z⟩ : V3 K) = L.toMat S := heul S
    rw [this, hL.toMat_mul]

theorem exactSolver_lsq {m n : Nat} (A : Matrix (Fin m) (Fin n) K) (l : Fin m → K)
    (sigma : Option (Matrix (Fin m) (Fin m) K)) (h : sigma.getD 1 = 1) :
    ∃ r, leastSquares exactSolver A l sigma = .ok r := by
  have hx : ∃ x, (A.transpose * sigma.getD 1 * A).mulVec x = (A.transpose * sigma.getD 1).mulVec l := by
    rw [h, Matrix.mul_one]
    exact normal_equations_solvable A l
  unfold leastSquares exactSolver
  simp only [dif_pos hx]
  exact ⟨_, rfl⟩

/-- **C113**, availability: with a solver that finds solutions, sets of equal length always give an answer,
even if the solution is not unique. -/
theorem C113_direct_returns (τ : Trig K) (target source rpy speed : List (V3 K)) (h1 : target.length = source.length)
    (h2 : rpy.length = source.length) (h3 : speed.length = source.length) :
    (∃ r, leverarm τ exactSolver target source rpy none = .ok r) ∧
    (∃ r, leverarm τ exactSolver target source rpy (some speed) = .ok r) ∧
    ∃ r, timeshift exactSolver target source speed = .ok r := by
  refine ⟨?_, ?_, ?_⟩
  · unfold leverarm
    rw [if_neg (by omega)]
    simp only [leverDesign, bind, Except.bind]
    obtain ⟨r, hr⟩ := exactSolver_lsq (toMat (3 * rpy.length) 3
      (rpy.map (leverRowX τ) ++ rpy.map (leverRowY τ) ++ rpy.map (leverRowZ τ)))
      (toVec (3 * rpy.length) (differences source target)) (some 1) rfl
    simp only [hr]
    exact ⟨_, rfl⟩
  · unfold leverarm
    rw [if_neg (by omega)]
    have hv : ¬ (speed.map V3.x ++ speed.map V3.y ++ speed.map V3.z).length ≠
          (rpy.map (leverRowX τ) ++ rpy.map (leverRowY τ) ++ rpy.map (leverRowZ τ)).length := by simp [h2, h3]
    simp only [leverDesign, bind, Except.bind, if_neg hv]
    obtain ⟨r, hr⟩ := exactSolver_lsq (toMat (3 * rpy.length) 4
      (List.zipWith (fun c r => c :: r) (speed.map V3.x ++ speed.map V3.y ++ speed.map V3.z)
      (rpy.map (leverRowX τ) ++ rpy.map (leverRowY τ) ++ rpy.map (leverRowZ τ))))
      (toVec (3 * rpy.length) (differences source target)) (some 1) rfl
    simp only [hr]
    exact ⟨_, rfl⟩
  · unfold timeshift
    rw [if_neg (by omega)]
    have hv : ¬ 3 * source.length ≠ 3 * speed.length := by omega
    simp only [bind, Except.bind, if_neg hv]
    obtain ⟨r, hr⟩ := exactSolver_lsq (toMat (3 * speed.length) 1
      ((speed.map V3.x ++ speed.map V3.y ++ speed.map V3.z).map (fun c => [c])))
      (toVec (3 * speed.length) (differences source target)) none rfl
    simp only [hr]
    exact ⟨_, rfl⟩

/-- two epochs for `C113_direct_leverarm_optimal` and `C113_direct_timeshift_optimal` -/
example : ∃ (solve : Solver ℚ) (r : List (Param ℚ) × Param ℚ), IsSolver solve ∧
    leverarm ⟨fun _ => 1, fun _ => 0⟩ solve [⟨1, 0, 0⟩, ⟨0, 1, 0⟩] [0, 0] [0, 0] (some [⟨1, 0, 0⟩, ⟨0, 2, 0⟩]) = .ok r :=
  have ⟨r, hr⟩ := (C113_direct_returns (⟨fun _ => 1, fun _ => 0⟩ : Trig ℚ) [⟨1, 0, 0⟩, ⟨0, 1, 0⟩] [0, 0] [0, 0]
    [⟨1, 0, 0⟩, ⟨0, 2, 0⟩] rfl rfl rfl).2.1
  ⟨_, r, exactSolver_isSolver, hr⟩

/-- hypotheses of `C114_sensor_rotation_recovered`: rotation matrices and the first rotation as mean of equal ones -/
example : ∃ (mean : List (RotM ℝ) → Except Err (RotM ℝ)) (euler : RotM ℝ → V3 ℝ),
    IsRotLib (matLib (K := ℝ) (fun a _ _ => a)) ∧ (∀ (S : RotM ℝ) (n : Nat), 0 < n → mean (List.replicate n S) = .ok S) ∧
    ∀ S, eulerMat realTrig (euler S) = (matLib (K := ℝ) (fun a _ _ => a)).toMat S := by
  refine ⟨fun l => match l with | [] => .error .valueError | S :: _ => .ok S,
    fun S => (exists_euler S.1 S.2).choose, matLib_isRotLib _, ?_, fun S => (exists_euler S.1 S.2).choose_spec⟩
  intro S n hn
  obtain ⟨k, rfl⟩ := Nat.exists_eq_succ_of_ne_zero hn.ne'
  rfl

end TC
