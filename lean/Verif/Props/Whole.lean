import Verif.Props.Cubic
import Verif.Props.RotApprox
import Verif.Props.Mls
import Verif.Props.Histories
import Verif.Props.Views
/-!
# The parts put together

The theorems about trajectories (C24, and the histories of C01, C12) take `piecewise_cubic`,
`rot_average_window` and `sort_mls` as parameters with assumptions (`LibOk`).  Here the models of
these functions are put in, and the assumptions proved.
-/
namespace TC
set_option linter.unusedSectionVars false
open H
variable {K R : Type} [Field K] [LinearOrder K] [IsStrictOrderedRing K] [FloorRing K]

theorem rotAverageWindow_length (rnd : K → K) (mean : List R → Except Err R) {f : List K}
    {q p : List R} {win : K} (h : rotAverageWindow rnd mean f q win = .ok p) :
    p.length = q.length := by
  unfold rotAverageWindow at h
  cases he : windowExt rnd f win with
  | error e => rw [he] at h; cases h
  | ok ext =>
    rw [he] at h
    simp only [bind, Except.bind] at h
    split_ifs at h with h0
    · rw [← Except.ok.inj h]
    · have := (averageRows_spec mean q ext _ h).1
      rwa [List.length_range] at this

/-- a library made of the models of the approximation and sorting code satisfies what the theorems
about histories assume -/
theorem modelled_library_ok (lib : Lib K R) (hA : IsArgsort lib.argsort) (hN : IsArgsort lib.argsortN)
    (solve : Solver K) (intSize : K) (minObs : Nat)
    (hc : lib.cubic = fun f x => piecewiseCubic solve f x intSize minObs)
    (rnd : K → K) (mean : List R → Except Err R) (win : K)
    (hr : lib.rotAvg = fun f q => rotAverageWindow rnd mean f q win)
    {ml : MlsLib K} (hl : MlsLibOk ml) (history : List (MlsCall K)) (size : K) (k : Nat)
    (threshold : K) {tl : TreeLib K} {nrm : V3 K → K} (nn : List (V3 K) → V3 K → Nat × Nat)
    (atan2 : K → K → K) (d : Bool) (htl : ∀ pts edges, tl.triangulate pts = .ok edges → TreeOk tl pts)
    (hs : lib.sortMls = sortMls tl nrm nn atan2
      (fun x => (mlsIterative ml size k threshold x (cacheAfter ml history)).1) d) : LibOk lib where
  argsort := hA
  argsortN := hN
  cubic f x y h := by
    rw [hc] at h
    obtain ⟨h1, h2, _⟩ := C57_positions _ _ _ _ _ _ h
    rw [h1, h2]
  rotAvg f q p h := by
    rw [hr] at h
    exact rotAverageWindow_length rnd mean h
  sortMls p idx arcs h := by
    rw [hs] at h
    obtain ⟨_, _, h3, h4⟩ := C47_sort_mls_end_to_end hl history size k threshold nn atan2 d htl h
    exact ⟨h4, h3⟩

theorem averageRows_returns {mean : List R → Except Err R} {quat : List R} {ext : Nat}
    (hmean : ∀ w, w ≠ [] → ∃ q, mean w = .ok q) (is : List Nat)
    (h : ∀ i ∈ is, window quat ext i ≠ []) : ∃ out, averageRows mean quat ext is = .ok out := by
  induction is with
  | nil => exact ⟨[], rfl⟩
  | cons i is ih =>
    obtain ⟨q, hq⟩ := hmean _ (h i (by simp))
    obtain ⟨out, ho⟩ := ih (fun j hj => h j (by simp [hj]))
    exact ⟨q :: out, by rw [averageRows, hq, ho]; rfl⟩

/-- **C24** with the modelled approximation: for ascending arguments (timestamps, or arc lengths),
enough samples and a positive interval size `approximate` returns a trajectory with the same
timestamps, arc lengths and number of samples; and a trajectory at rest keeps its positions. -/
theorem C24_approximate_end_to_end (argsort : List K → List Nat) (hA : IsArgsort argsort)
    (argsortN : List Nat → List Nat) (hN : IsArgsort argsortN) (intSize : K) (hi : 0 < intSize)
    (minObs : Nat) (rnd : K → K) (mean : List R → Except Err R)
    (hmean : ∀ w, w ≠ [] → ∃ q, mean w = .ok q) (win : K) (T : Traj K R) (hT : Coherent T)
    (h2 : 2 ≤ T.tstamps.length) (hm : minObs ≤ T.tstamps.length) (f : List K)
    (hf : T.functionOf argsort = .ok f) (hasc : StrictAsc f) :
    ∃ T', Returns (Traj.approximate argsort argsortN
        (fun f x => piecewiseCubic exactSolver f x intSize minObs)
        (fun f q => rotAverageWindow rnd mean f q win)) T () T' ∧ Coherent T' ∧
      T'.tstamps = T.tstamps ∧ T'.arc = T.arc ∧ T'.speed = T.speed ∧ SameMeta T T' ∧
      ∀ p, (∀ q ∈ T.pos, q = p) → T'.pos = T.pos := by
  have hidx := sortingIndex_isArgsort hA T
  have hp : (T.sortingIndex argsort).Perm (List.range T.tstamps.length) := by
    rw [← sortKey_length hT]; exact hidx.1
  have hil : (T.sortingIndex argsort).length = T.tstamps.length := by simpa using hp.length_eq
  have hir : InRange T.tstamps.length (T.sortingIndex argsort) := by
    rw [← sortKey_length hT]; exact hidx.inRange
  have hfl : f.length = T.tstamps.length := by
    rw [functionOf_eq hA] at hf
    rw [← Except.ok.inj hf, sel_length (by rw [sortKey_length hT]; exact hir), hil]
  have hx := xyz_eq hA hT
  have hxl : (sel T.pos (T.sortingIndex argsort)).length = f.length := by
    rw [sel_length (by rw [hT.pos]; exact hir), hil, hfl]
  have hcol : ∀ g : V3 K → K, ∃ r, cubicApprox exactSolver f
      ((sel T.pos (T.sortingIndex argsort)).map g) intSize minObs = .ok r := fun g =>
    C57_returns f _ intSize minObs hi hasc (by omega) (by omega) (by rw [List.length_map, hxl])
  obtain ⟨X, hX⟩ := hcol V3.x
  obtain ⟨Y, hY⟩ := hcol V3.y
  obtain ⟨Z, hZ⟩ := hcol V3.z
  have hpc : ∃ xa, piecewiseCubic exactSolver f (sel T.pos (T.sortingIndex argsort)) intSize minObs
      = .ok xa := by
    unfold piecewiseCubic
    rw [hX, hY, hZ]
    exact ⟨_, rfl⟩
  obtain ⟨xa, hxa⟩ := hpc
  obtain ⟨c1, c2, c3⟩ := C57_positions _ _ _ _ _ _ hxa
  obtain ⟨T', a1, a2, a3, a4, a5, a6, a7, _⟩ := C24_approximate argsort hA argsortN hN
    (fun f x => piecewiseCubic exactSolver f x intSize minObs)
    (fun f q => rotAverageWindow rnd mean f q win) T hT f _ xa hf hx hxa (by rw [c1, hxl]) (by
      intro r q hr hq
      have hql : q.length = T.tstamps.length := by
        unfold Traj.quat at hq
        rw [hr] at hq
        simp only [take_eq (l := r) (p := T.sortingIndex argsort) (by rw [hT.rot r hr]; exact hir)]
          at hq
        have : q = sel r (T.sortingIndex argsort) := by
          simpa [bind, Except.bind, pure, Except.pure, Functor.map, Except.map] using hq.symm
        rw [this, sel_length (by rw [hT.rot r hr]; exact hir), hil]
      have : ∃ qa, rotAverageWindow rnd mean f q win = .ok qa := by
        unfold rotAverageWindow
        have hw : ∃ ext, windowExt rnd f win = .ok ext := by
          unfold windowExt
          simp only
          rw [if_neg]
          · exact ⟨_, rfl⟩
          · intro hc
            have h0 := List.length_eq_zero_iff.1 hc
            rw [List.dedup_eq_nil, List.map_eq_nil_iff] at h0
            rw [h0] at hfl
            simp at hfl
            omega
        obtain ⟨ext, hext⟩ := hw
        rw [hext]
        simp only [bind, Except.bind]
        by_cases h0 : ext = 0
        · rw [if_pos h0]; exact ⟨_, rfl⟩
        · rw [if_neg h0]
          refine averageRows_returns hmean _ (fun i hi => ?_)
          rw [List.mem_range] at hi
          intro hc
          have := congrArg List.length hc
          unfold window at this
          simp only [List.length_drop, List.length_take, List.length_nil] at this
          omega
      obtain ⟨qa, hqa⟩ := this
      exact ⟨qa, hqa, rotAverageWindow_length rnd mean hqa⟩)
  refine ⟨T', a1, a2, a3, a4, a5, a6, fun p hpos => ?_⟩
  have hall : ∀ q ∈ sel T.pos (T.sortingIndex argsort), q = p := by
    intro q hq
    exact hpos q (((sel_perm_self (l := T.pos) (by rw [hT.pos]; exact hp)).mem_iff).1 hq)
  have hxe : xa = sel T.pos (T.sortingIndex argsort) := c3 exactSolver_isSolver p hall
  have hi' := sortingIndex_isArgsort hA T'
  have hp' : (T'.sortingIndex argsort).Perm (List.range T'.tstamps.length) := by
    rw [← sortKey_length a2]; exact hi'.1
  rw [xyz_eq hA a2, Except.ok.injEq] at a7
  have hall' : ∀ q ∈ T'.pos, q = p := by
    intro q hq
    refine hall q ?_
    rw [← hxe, ← a7]
    exact ((sel_perm_self (l := T'.pos) (by rw [a2.pos]; exact hp')).mem_iff).2 hq
  rw [List.eq_replicate_of_mem hall', List.eq_replicate_of_mem hpos, hT.pos, a2.pos, a3]

/-- a trajectory at rest that meets the hypotheses of `C24_approximate_end_to_end` -/
def exRest : Traj ℚ Nat where
  name := "rest"
  tstamps := [0, 1, 2, 4]
  pos := [⟨1, 2, 3⟩, ⟨1, 2, 3⟩, ⟨1, 2, 3⟩, ⟨1, 2, 3⟩]
  rot := some [1, 2, 3, 4]
  arc := [0, 0, 0, 0]
  speed := [⟨0, 0, 0⟩, ⟨0, 0, 0⟩, ⟨0, 0, 0⟩, ⟨0, 0, 0⟩]
  sorting := .time
  epsg := 0

example : Coherent exRest ∧ 2 ≤ exRest.tstamps.length ∧
    exRest.functionOf stableArgsort = .ok [0, 1, 2, 4] ∧ StrictAsc ([0, 1, 2, 4] : List ℚ) ∧
    ∀ q ∈ exRest.pos, q = ⟨1, 2, 3⟩ := by
  refine ⟨⟨rfl, rfl, rfl, ?_⟩, by decide, by decide +kernel, by decide +kernel, by decide +kernel⟩
  intro r hr
  rw [← Option.some.inj hr]
  rfl

end TC
