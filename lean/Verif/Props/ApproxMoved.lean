import Verif.Props.Whole
import Verif.Props.RpeFrames
import Verif.Props.Reorder
/-!
# C195: the approximated path moves along with the trajectory
-/
namespace TC
variable {K R : Type} [Field K] [LinearOrder K] [IsStrictOrderedRing K]
set_option linter.unusedSectionVars false

open Matrix in
/-- the fitted values are the same for all solutions of the normal equations, and linear in the observations -/
theorem fitted_unique {m n : Nat} (A : Matrix (Fin m) (Fin n) K) {x y : Fin n → K}
    (h : (Aᵀ * A) *ᵥ x = (Aᵀ * A) *ᵥ y) : A *ᵥ x = A *ᵥ y := by
  have h1 : Aᵀ *ᵥ (A *ᵥ (x - y)) = 0 := by
    rw [Matrix.mulVec_mulVec, Matrix.mulVec_sub, h, sub_self]
  have h2 : (A *ᵥ (x - y)) ⬝ᵥ (A *ᵥ (x - y)) = 0 := by
    rw [Matrix.dotProduct_mulVec, ← Matrix.mulVec_transpose, h1, zero_dotProduct]
  have h3 : A *ᵥ (x - y) = 0 := dotProduct_self_eq_zero.1 h2
  rw [Matrix.mulVec_sub] at h3
  exact sub_eq_zero.1 h3

variable [FloorRing K]

open Matrix in
/-- one column: the approximation of a combination of the coordinates is the combination of the approximations -/
theorem cubic_affine {solve : Solver K} (hs : IsSolver solve) {f : List K} {vs : List (V3 K)} {intSize : K} {minObs : Nat}
    {X Y Z W : Cubic K} (hX : cubicApprox solve f (vs.map V3.x) intSize minObs = .ok X)
    (hY : cubicApprox solve f (vs.map V3.y) intSize minObs = .ok Y)
    (hZ : cubicApprox solve f (vs.map V3.z) intSize minObs = .ok Z) (a b c d : K)
    (hW : cubicApprox solve f (vs.map (fun v => a * v.x + b * v.y + c * v.z + d)) intSize minObs = .ok W) (i : Nat)
    (hi : i < f.length) :
    W.estObs[i]? = some (a * X.estObs.getD i 0 + b * Y.estObs.getD i 0 + c * Z.estObs.getD i 0 + d) := by
  obtain ⟨st, f0, last, x, l, v, hx⟩ := cubicApprox_inv hX
  obtain ⟨st1, f1, last1, y, l1, v1, hy⟩ := cubicApprox_inv hY
  obtain ⟨st2, f2, last2, z, l2, v2, hz⟩ := cubicApprox_inv hZ
  obtain ⟨st3, f3, last3, w, l3, v3, hw⟩ := cubicApprox_inv hW
  obtain rfl : f0 = f1 := Option.some.inj (hx.first.symm.trans hy.first)
  obtain rfl : f0 = f2 := Option.some.inj (hx.first.symm.trans hz.first)
  obtain rfl : f0 = f3 := Option.some.inj (hx.first.symm.trans hw.first)
  obtain rfl : st = st1 := Except.ok.inj (hx.loop.symm.trans hy.loop)
  obtain rfl : st = st2 := Except.ok.inj (hx.loop.symm.trans hz.loop)
  obtain rfl : st = st3 := Except.ok.inj (hx.loop.symm.trans hw.loop)
  set A := designMatrix (designRows 0 st.coeffs) (2 * st.coeffs.length + 2) with hA
  have hi' : i < (designRows 0 st.coeffs).length := by rw [hx.rowsLen]; exact hi
  have sol : ∀ (o : Fin (designRows 0 st.coeffs).length → K) {x l v}, sparseLeastSquares solve A o = .ok (x, l, v) →
      (Aᵀ * A) *ᵥ x = Aᵀ *ᵥ o ∧ l = A *ᵥ x := by
    intro o x l v h
    unfold sparseLeastSquares at h
    rcases hso : solve _ (Aᵀ * A) (Aᵀ *ᵥ o) with e | q
    · rw [hso] at h; cases h
    · rw [hso] at h
      cases h
      exact ⟨hs _ _ _ _ hso, rfl⟩
  obtain ⟨nx, lx⟩ := sol _ hx.lsq
  obtain ⟨ny, ly⟩ := sol _ hy.lsq
  obtain ⟨nz, lz⟩ := sol _ hz.lsq
  obtain ⟨nw, lw⟩ := sol _ hw.lsq
  let e : Fin (2 * st.coeffs.length + 2) → K := fun j => if Even j.1 then 1 else 0
  have he : A *ᵥ e = fun _ => 1 := by
    funext k
    have hm := designRows_mem hx.inv.rows 0 (by decide) (List.getElem_mem (l := designRows 0 st.coeffs) k.2)
    rw [Nat.zero_add] at hm
    have := row_sum (designRows 0 st.coeffs)[k.1] hm.2.1 (fun j => if Even j then (1 : K) else 0)
    simp only [hA, Matrix.mulVec, dotProduct, designMatrix, Matrix.of_apply, e]
    refine Eq.trans ?_ (this.trans ?_)
    · rfl
    · obtain ⟨e1, _, e3⟩ := hm
      have o1 : ¬ Even ((designRows 0 st.coeffs)[k.1].1 + 1) := by
        rw [Nat.even_add_one]; exact fun hcon => hcon e1
      have o2 : Even ((designRows 0 st.coeffs)[k.1].1 + 2) := e1.add (by decide)
      have o3 : ¬ Even ((designRows 0 st.coeffs)[k.1].1 + 3) := by
        rw [show (designRows 0 st.coeffs)[k.1].1 + 3 = ((designRows 0 st.coeffs)[k.1].1 + 2) + 1 by omega, Nat.even_add_one]
        exact fun hcon => hcon o2
      simp only [if_pos e1, if_neg o1, if_pos o2, if_neg o3]
      linear_combination e3
  have hobs : (fun i : Fin (designRows 0 st.coeffs).length =>
        (vs.map (fun v => a * v.x + b * v.y + c * v.z + d)).getD i.1 0) =
      a • (fun i : Fin (designRows 0 st.coeffs).length => (vs.map V3.x).getD i.1 0) +
      b • (fun i : Fin (designRows 0 st.coeffs).length => (vs.map V3.y).getD i.1 0) +
      c • (fun i : Fin (designRows 0 st.coeffs).length => (vs.map V3.z).getD i.1 0) + d • (fun _ => 1) := by
    funext k
    have hk : k.1 < vs.length := by
      have := hx.valuesLen
      rw [List.length_map] at this
      rw [this, ← hx.rowsLen]
      exact k.2
    simp [List.getD_eq_getElem?_getD, hk]
  have key : A *ᵥ w = A *ᵥ (a • x + b • y + c • z + d • e) := by
    apply fitted_unique
    rw [nw, hobs]
    simp only [Matrix.mulVec_add, Matrix.mulVec_smul, nx, ny, nz]
    rw [← Matrix.mulVec_mulVec, he]
  have get : ∀ {r : Cubic K} {xs : List K} {la : K} {x l v}, CubicResult solve f xs intSize minObs r st f0 la x l v →
      r.estObs[i]? = some (l ⟨i, hi'⟩) := by
    intro r xs la x l v h
    rw [h.eq]
    simp [hi']
  rw [get hw]
  simp only [List.getD_eq_getElem?_getD, get hx, get hy, get hz, Option.getD_some]
  rw [lw, lx, ly, lz, key]
  simp only [Matrix.mulVec_add, Matrix.mulVec_smul, he, Pi.add_apply, Pi.smul_apply, smul_eq_mul, mul_one]

/-- **C195**, the path: for every exact solver of the normal equations and every affine map of space, the approximation of
the moved positions is the moved approximation of the positions. -/
theorem C195_path {solve : Solver K} (hs : IsSolver solve) (f : List K) (vs : List (V3 K)) (intSize : K) (minObs : Nat)
    (A : M4 K) {r r' : List (V3 K)} (h : piecewiseCubic solve f vs intSize minObs = .ok r)
    (h' : piecewiseCubic solve f (vs.map (moveBy A)) intSize minObs = .ok r') : r' = r.map (moveBy A) := by
  have inv : ∀ {ps q}, piecewiseCubic solve f ps intSize minObs = .ok q → ∃ X Y Z : Cubic K,
      cubicApprox solve f (ps.map V3.x) intSize minObs = .ok X ∧ cubicApprox solve f (ps.map V3.y) intSize minObs = .ok Y ∧
      cubicApprox solve f (ps.map V3.z) intSize minObs = .ok Z ∧ q.length = f.length ∧
      ∀ i, i < f.length → q[i]? = some ⟨X.estObs.getD i 0, Y.estObs.getD i 0, Z.estObs.getD i 0⟩ := by
    intro ps q h
    have hl := (C57_positions _ _ _ _ _ _ h).1
    unfold piecewiseCubic at h
    obtain ⟨X, hX, h⟩ := except_bind_ok h
    obtain ⟨Y, hY, h⟩ := except_bind_ok h
    obtain ⟨Z, hZ, h⟩ := except_bind_ok h
    refine ⟨X, Y, Z, hX, hY, hZ, hl, fun i hi => ?_⟩
    have lx := (C57_sample_count _ _ _ _ _ _ hX).1
    have ly := (C57_sample_count _ _ _ _ _ _ hY).1
    have lz := (C57_sample_count _ _ _ _ _ _ hZ).1
    cases h
    simp [List.getD_eq_getElem?_getD, List.getElem?_zipWith, lx, ly, lz, hi]
  obtain ⟨X, Y, Z, hX, hY, hZ, hl, hg⟩ := inv h
  obtain ⟨X', Y', Z', hX', hY', hZ', hl', hg'⟩ := inv h'
  rw [List.map_map] at hX' hY' hZ'
  refine List.ext_getElem? fun i => ?_
  by_cases hi : i < f.length
  · have cx := cubic_affine hs hX hY hZ (A 0 0) (A 0 1) (A 0 2) (A 0 3) (W := X') (by
      rw [← hX']; congr 1) i hi
    have cy := cubic_affine hs hX hY hZ (A 1 0) (A 1 1) (A 1 2) (A 1 3) (W := Y') (by
      rw [← hY']; congr 1) i hi
    have cz := cubic_affine hs hX hY hZ (A 2 0) (A 2 1) (A 2 2) (A 2 3) (W := Z') (by
      rw [← hZ']; congr 1) i hi
    rw [hg' i hi, List.getElem?_map, hg i hi]
    simp only [List.getD_eq_getElem?_getD, cx, cy, cz, Option.getD_some, Option.map_some]
    congr 1
  · rw [List.getElem?_eq_none (by omega), List.getElem?_eq_none (by rw [List.length_map]; omega)]

/-- what `approximate` does, step by step -/
theorem approximate_inv {argsort : List K → List Nat} {argsortN : List Nat → List Nat}
    {cubic : List K → List (V3 K) → Except Err (List (V3 K))} {rotAvg : List K → List R → Except Err (List R)}
    {T C : Traj K R} (h : Returns (Traj.approximate argsort argsortN cubic rotAvg) T () C) :
    ∃ f x xa p, T.functionOf argsort = .ok f ∧ Traj.take T.pos (T.sortingIndex argsort) = .ok x ∧ cubic f x = .ok xa ∧
      Traj.take xa (T.sortSwitchingIndex argsort argsortN) = .ok p ∧
      ((T.rot = none ∨ T.rot = some []) ∧ C = { T with pos := p } ∨
        ∃ r q qa q', T.rot = some r ∧ r ≠ [] ∧ Traj.take r (T.sortingIndex argsort) = .ok q ∧ rotAvg f q = .ok qa ∧
          Traj.take qa (T.sortSwitchingIndex argsort argsortN) = .ok q' ∧ C = { T with pos := p, rot := some q' }) := by
  unfold Returns Traj.approximate at h
  rw [SE.run_bind, SE.run_get] at h
  simp only at h
  rcases hf : T.functionOf argsort with e | f
  · simp [SE.run_bind, SE.run_lift, hf] at h
  rcases hx : T.xyz argsort with e | x
  · simp [SE.run_bind, SE.run_lift, hf, hx] at h
  rcases hc : cubic f x with e | xa
  · simp [SE.run_bind, SE.run_lift, hf, hx, hc] at h
  rcases hp : Traj.take xa (T.sortSwitchingIndex argsort argsortN) with e | p
  · simp [SE.run_bind, SE.run_lift, hf, hx, hc, hp] at h
  refine ⟨f, x, xa, p, rfl, hx, hc, hp, ?_⟩
  simp only [SE.run_bind, SE.run_lift, hf, hx, hc, hp, SE.run_modify, SE.run_get] at h
  rcases hr : T.rot with _ | r
  · rw [hr] at h
    refine .inl ⟨.inl rfl, ?_⟩
    exact (congrArg Prod.snd h).symm
  rw [hr] at h
  simp only at h
  by_cases h0 : r.length = 0
  · rw [if_pos h0] at h
    refine .inl ⟨.inr (by rw [List.length_eq_zero_iff.1 h0]), ?_⟩
    have := (congrArg Prod.snd h).symm
    exact this
  rw [if_neg h0] at h
  have hf' : Traj.functionOf argsort { T with pos := p } = .ok f := hf
  have hi' : Traj.sortingIndex argsort { T with pos := p } = T.sortingIndex argsort := rfl
  have hs' : Traj.sortSwitchingIndex argsort argsortN { T with pos := p } = T.sortSwitchingIndex argsort argsortN := rfl
  rw [hr] at hf' hi' hs'
  simp only [SE.run_bind, SE.run_lift, hf', hi', hs'] at h
  rcases hq : Traj.take r (T.sortingIndex argsort) with e | q
  · simp [hq] at h
  rcases ha : rotAvg f q with e | qa
  · simp [hq, ha] at h
  rcases hq' : Traj.take qa (T.sortSwitchingIndex argsort argsortN) with e | q'
  · simp [hq, ha, hq'] at h
  refine .inr ⟨r, q, qa, q', rfl, fun hcon => h0 (by rw [hcon]; rfl), hq, ha, hq', ?_⟩
  simp only [hq, ha, hq', SE.run_modify] at h
  exact (congrArg Prod.snd h).symm

theorem take_map {α β : Type} (g : α → β) (l : List α) (p : List Nat) :
    Traj.take (l.map g) p = (Traj.take l p).map (List.map g) := npTake_map g l _

theorem averageRows_map {Q : Type} (g : Q → Q) {mean : List Q → Except Err Q}
    (hm : ∀ ws, mean (ws.map g) = (mean ws).map g) (qs : List Q) (ext : Nat) (is : List Nat) :
    averageRows mean (qs.map g) ext is = (averageRows mean qs ext is).map (List.map g) := by
  induction is with
  | nil => rfl
  | cons i is ih =>
    have hw : window (qs.map g) ext i = (window qs ext i).map g := by
      unfold window
      simp only [List.length_map, List.map_drop, List.map_take]
    simp only [averageRows, hw, hm, ih]
    cases mean (window qs ext i) with
    | error e => rfl
    | ok a => cases averageRows mean qs ext is <;> rfl

theorem rotAverageWindow_map {Q : Type} (g : Q → Q) {mean : List Q → Except Err Q}
    (hm : ∀ ws, mean (ws.map g) = (mean ws).map g) (rnd : K → K) (f : List K) (qs : List Q) (win : K) :
    rotAverageWindow rnd mean f (qs.map g) win = (rotAverageWindow rnd mean f qs win).map (List.map g) := by
  unfold rotAverageWindow
  cases windowExt rnd f win with
  | error e => rfl
  | ok ext =>
    simp only [bind, Except.bind]
    split_ifs with h
    · rfl
    · rw [List.length_map, averageRows_map g hm]

/-- **C195**: approximating a trajectory and then transforming it gives the same trajectory as transforming it and then
approximating it: positions, orientations, timestamps, arc lengths, speeds and all metadata.  `mean` is the mean of a
window of orientations; that it turns along with them is a property of scipy, not of this code. -/
theorem C195_either_order {argsort : List K → List Nat} {argsortN : List Nat → List Nat} {solve : Solver K}
    (hs : IsSolver solve) (intSize : K) (minObs : Nat) (rnd : K → K) (mean : List R → Except Err R) (win : K)
    (L : RotLib K R) (A : M4 K) (hmean : ∀ ws, mean (ws.map (turnBy L A)) = (mean ws).map (turnBy L A))
    {T : Traj K R} (hT : Coherent T) (hne : T.tstamps ≠ []) {r : List R} (hr : T.rot = some r) {C M D : Traj K R}
    (h1 : Returns (Traj.approximate argsort argsortN (fun f x => piecewiseCubic solve f x intSize minObs)
      (fun f q => rotAverageWindow rnd mean f q win)) T () C)
    (h2 : Returns (Traj.applyTransformation L A) T () M)
    (h3 : Returns (Traj.approximate argsort argsortN (fun f x => piecewiseCubic solve f x intSize minObs)
      (fun f q => rotAverageWindow rnd mean f q win)) M () D) :
    D = { C with pos := C.pos.map (moveBy A), rot := C.rot.map (List.map (turnBy L A)) } ∧
      (Coherent C → Returns (Traj.applyTransformation L A) C () D) := by
  have hM : M = { T with pos := T.pos.map (moveBy A), rot := some (r.map (turnBy L A)) } := by
    have := (congrArg Prod.snd (h2.symm.trans (applyTransformation_eq L hT hne A)))
    simp only at this
    rw [this]
    simp [rotOr, hr, moveBy, turnBy, List.map_map, Function.comp_def]
  have hrn : r ≠ [] := by
    intro hcon
    have := hT.rot r hr
    rw [hcon] at this
    exact hne (List.length_eq_zero_iff.1 this.symm)
  obtain ⟨f, x, xa, p, a1, a2, a3, a4, a5⟩ := approximate_inv h1
  obtain ⟨f', x', xa', p', b1, b2, b3, b4, b5⟩ := approximate_inv h3
  subst hM
  obtain rfl : f = f' := Except.ok.inj (a1.symm.trans b1)
  have b2' : Traj.take (T.pos.map (moveBy A)) (T.sortingIndex argsort) = .ok x' := b2
  rw [take_map, a2] at b2'
  obtain rfl : x.map (moveBy A) = x' := Except.ok.inj b2'
  obtain rfl := C195_path hs f x intSize minObs A a3 b3
  have b4' : Traj.take (xa.map (moveBy A)) (T.sortSwitchingIndex argsort argsortN) = .ok p' := b4
  rw [take_map, a4] at b4'
  obtain rfl : p.map (moveBy A) = p' := Except.ok.inj b4'
  rcases a5 with ⟨a5 | a5, -⟩ | ⟨r0, q, qa, q', c1, c2, c3, c4, c5, rfl⟩
  · rw [a5] at hr; cases hr
  · rw [a5] at hr; exact absurd (Option.some.inj hr).symm hrn
  obtain rfl : r = r0 := Option.some.inj (hr.symm.trans c1)
  rcases b5 with ⟨b5 | b5, -⟩ | ⟨r1, q1, qa1, q1', d1, d2, d3, d4, d5, rfl⟩
  · cases b5
  · have := Option.some.inj b5
    exact absurd (List.map_eq_nil_iff.1 this) hrn
  obtain rfl : r.map (turnBy L A) = r1 := Option.some.inj d1
  have d3' : Traj.take (r.map (turnBy L A)) (T.sortingIndex argsort) = .ok q1 := d3
  rw [take_map, c3] at d3'
  obtain rfl : q.map (turnBy L A) = q1 := Except.ok.inj d3'
  have d4' : rotAverageWindow rnd mean f (q.map (turnBy L A)) win = .ok qa1 := d4
  rw [rotAverageWindow_map _ hmean, show rotAverageWindow rnd mean f q win = .ok qa from c4] at d4'
  obtain rfl : qa.map (turnBy L A) = qa1 := Except.ok.inj d4'
  have d5' : Traj.take (qa.map (turnBy L A)) (T.sortSwitchingIndex argsort argsortN) = .ok q1' := d5
  rw [take_map, c5] at d5'
  obtain rfl : q'.map (turnBy L A) = q1' := Except.ok.inj d5'
  refine ⟨rfl, fun hC => ?_⟩
  unfold Returns
  rw [applyTransformation_eq L hC (by exact hne) A]
  simp [rotOr, moveBy, turnBy, List.map_map, Function.comp_def]

/-- **C195** for trajectories without orientations: the positions, and everything besides the orientations. -/
theorem C195_positions {argsort : List K → List Nat} {argsortN : List Nat → List Nat} {solve : Solver K}
    (hs : IsSolver solve) (intSize : K) (minObs : Nat) (rotAvg : List K → List R → Except Err (List R))
    (L : RotLib K R) (A : M4 K) {T : Traj K R} (hT : Coherent T) (hne : T.tstamps ≠ []) {C M D : Traj K R}
    (h1 : Returns (Traj.approximate argsort argsortN (fun f x => piecewiseCubic solve f x intSize minObs) rotAvg) T () C)
    (h2 : Returns (Traj.applyTransformation L A) T () M)
    (h3 : Returns (Traj.approximate argsort argsortN (fun f x => piecewiseCubic solve f x intSize minObs) rotAvg) M () D) :
    D.pos = C.pos.map (moveBy A) ∧ D.tstamps = C.tstamps ∧ D.arc = C.arc ∧ D.speed = C.speed := by
  have hM := (congrArg Prod.snd (h2.symm.trans (applyTransformation_eq L hT hne A)))
  simp only at hM
  obtain ⟨f, x, xa, p, a1, a2, a3, a4, a5⟩ := approximate_inv h1
  obtain ⟨f', x', xa', p', b1, b2, b3, b4, b5⟩ := approximate_inv h3
  subst hM
  obtain rfl : f = f' := Except.ok.inj (a1.symm.trans b1)
  have b2' : Traj.take (T.pos.map (moveBy A)) (T.sortingIndex argsort) = .ok x' := b2
  rw [take_map, a2] at b2'
  obtain rfl : x.map (moveBy A) = x' := Except.ok.inj b2'
  obtain rfl := C195_path hs f x intSize minObs A a3 b3
  have b4' : Traj.take (xa.map (moveBy A)) (T.sortSwitchingIndex argsort argsortN) = .ok p' := b4
  rw [take_map, a4] at b4'
  obtain rfl : p.map (moveBy A) = p' := Except.ok.inj b4'
  rcases a5 with ⟨-, rfl⟩ | ⟨_, _, _, _, _, _, _, _, _, rfl⟩ <;>
    rcases b5 with ⟨-, rfl⟩ | ⟨_, _, _, _, _, _, _, _, _, rfl⟩ <;> exact ⟨rfl, rfl, rfl, rfl⟩

/-- **C195** with the modelled approximation: for ascending arguments (timestamps or arc lengths), enough samples and a
positive interval size, all three calls return, and both orders end in the same trajectory. -/
theorem C195_end_to_end (argsort : List K → List Nat) (hA : IsArgsort argsort) (argsortN : List Nat → List Nat)
    (hN : IsArgsort argsortN) (intSize : K) (hi : 0 < intSize) (minObs : Nat) (rnd : K → K) (mean : List R → Except Err R)
    (hmean : ∀ w, w ≠ [] → ∃ q, mean w = .ok q) (win : K) (L : RotLib K R) (A : M4 K)
    (hturn : ∀ ws, mean (ws.map (turnBy L A)) = (mean ws).map (turnBy L A)) (T : Traj K R) (hT : Coherent T)
    (h2 : 2 ≤ T.tstamps.length) (hm : minObs ≤ T.tstamps.length) (f : List K) (hf : T.functionOf argsort = .ok f)
    (hasc : StrictAsc f) {r : List R} (hr : T.rot = some r) :
    ∃ C M D, Returns (Traj.approximate argsort argsortN (fun f x => piecewiseCubic exactSolver f x intSize minObs)
        (fun f q => rotAverageWindow rnd mean f q win)) T () C ∧
      Returns (Traj.applyTransformation L A) C () D ∧
      Returns (Traj.applyTransformation L A) T () M ∧
      Returns (Traj.approximate argsort argsortN (fun f x => piecewiseCubic exactSolver f x intSize minObs)
        (fun f q => rotAverageWindow rnd mean f q win)) M () D := by
  have hne : T.tstamps ≠ [] := List.ne_nil_of_length_pos (by omega)
  obtain ⟨C, c1, c2, _⟩ := C24_approximate_end_to_end argsort hA argsortN hN intSize hi minObs rnd mean hmean win T hT h2 hm
    f hf hasc
  have m1 : Returns (Traj.applyTransformation L A) T () _ := applyTransformation_eq L hT hne A
  obtain ⟨D, d1, _⟩ := C24_approximate_end_to_end argsort hA argsortN hN intSize hi minObs rnd mean hmean win
    { T with
      pos := T.pos.map (fun p => mulV (poseRot A) p + posePos A)
      rot := some ((rotOr T.pos.length T.rot L.toMat).map (fun m => L.fromMat (poseRot A * m))) }
    ⟨by rw [List.length_map]; exact hT.pos, hT.arc, hT.speed, by
      intro r' hr'
      rw [← Option.some.inj hr', List.length_map, hr]
      simp [rotOr, hT.rot r hr]⟩ h2 hm f hf hasc
  exact ⟨C, _, D, c1, (C195_either_order exactSolver_isSolver intSize minObs rnd mean win L A hturn hT hne hr c1 m1 d1).2 c2,
    m1, d1⟩

/-- a bent path with orientations -/
def exBent : Traj ℚ Nat where
  name := "bent"
  tstamps := [0, 1, 2, 4]
  pos := [⟨1, 2, 3⟩, ⟨2, 2, 0⟩, ⟨4, -1, 3⟩, ⟨4, 0, 7⟩]
  rot := some [1, 2, 3, 4]
  arc := [0, 1, 2, 3]
  speed := [⟨0, 0, 0⟩, ⟨0, 0, 0⟩, ⟨0, 0, 0⟩, ⟨0, 0, 0⟩]
  sorting := .time
  epsg := 0

/-- the first orientation of a window -/
def firstOf : List Nat → Except Err Nat
  | [] => .error .valueError
  | q :: _ => .ok q

/-- the hypotheses are met: the first orientation of the window as the mean, for every library and every matrix -/
example (L : RotLib ℚ Nat) (A : M4 ℚ) (argsortN : List Nat → List Nat) (hN : IsArgsort argsortN) :
    ∃ C M D : Traj ℚ Nat, Returns (Traj.approximate (stableArgsort (K := ℚ)) argsortN
        (fun f x => piecewiseCubic exactSolver f x 1 2) (fun f q => rotAverageWindow id firstOf f q 2)) exBent () C ∧
      Returns (Traj.applyTransformation L A) C () D ∧ Returns (Traj.applyTransformation L A) exBent () M ∧
      Returns (Traj.approximate (stableArgsort (K := ℚ)) argsortN
        (fun f x => piecewiseCubic exactSolver f x 1 2) (fun f q => rotAverageWindow id firstOf f q 2)) M () D :=
  C195_end_to_end (stableArgsort (K := ℚ)) stableArgsort_isArgsort argsortN hN 1 (by decide +kernel) 2 id firstOf
    (fun w hw => by cases w with | nil => exact absurd rfl hw | cons a w => exact ⟨a, rfl⟩) 2 L A
    (fun ws => by cases ws <;> rfl) exBent ⟨rfl, rfl, rfl, fun r hr => by rw [← Option.some.inj hr]; rfl⟩ (by decide)
    (by decide) [0, 1, 2, 4] (by decide +kernel) (by decide +kernel) rfl

end TC
