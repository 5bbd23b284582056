import Verif.Model.Traj
/-!
# `trajectopy_core/sorting.py`
-/
namespace TC
variable {K : Type} [Field K] [LinearOrder K]

/-- a networkx graph with the nodes `0 … n-1` (sorting.py:272), given by the neighbours of each
node in the order in which networkx lists them -/
structure Graph where
  n : Nat
  adj : Nat → List Nat

/-! ### Breadth-first search -/

/-- the loop over the children of one node in networkx 3.2.1 `generic_bfs_edges`: `seen` in the
order of discovery, `next` are the nodes of the next level -/
def visitChildren (seen next : List Nat) : List Nat → List Nat × List Nat
  | [] => (seen, next)
  | c :: cs => if c ∈ seen then visitChildren seen next cs
    else visitChildren (seen ++ [c]) (next ++ [c]) cs

/-- the loop over the nodes of one level -/
def visitLevel (g : Graph) (seen next : List Nat) : List Nat → List Nat × List Nat
  | [] => (seen, next)
  | p :: ps => visitLevel g (visitChildren seen next (g.adj p)).1
      (visitChildren seen next (g.adj p)).2 ps

/-- the loop over the levels: while there is a next level and the depth is below `len(G)` -/
def bfsLevels (g : Graph) : Nat → List Nat → List Nat → List Nat
  | 0, seen, _ => seen
  | d + 1, seen, level =>
    if level.length = 0 then seen
    else bfsLevels g d (visitLevel g seen [] level).1 (visitLevel g seen [] level).2

/-- `_breadth_first_search` (sorting.py:280-291): the root and then the discovered nodes.  networkx
stops as soon as all nodes are seen; this shortcut is left out, it does not change the result. -/
def bfs (g : Graph) (root : Nat) : List Nat := bfsLevels g g.n [root] [root]

/-- the candidates for end points (sorting.py:194) -/
def degreeOne (g : Graph) : List Nat :=
  (List.range g.n).filter (fun v => decide ((g.adj v).length = 1))

/-- `_mst_sorting` (sorting.py:164-218) after the computation of the tree.
`nx.shortest_path_length` (line 211) raises `NetworkXNoPath` if the end nodes are not connected;
its value is only logged. -/
def mstSorting (g : Graph) : Except Err (List Nat) := do
  let d1 := degreeOne g
  let ends ← if d1.length = 2 then do
      let a ← npGet d1 0
      let b ← npGet d1 1
      pure (a, b)
    else do
      let r ← pyFirst d1
      let a ← pyLast (bfs g r)
      let e1 ← pyLast (bfs g a)
      let e2 ← pyLast (bfs g e1)
      pure (e1, e2)
  if ends.2 ∉ bfs g ends.1 then throw Err.noPath
  return bfs g ends.1

/-! ### Missing points -/

/-- `list.insert(i, x)` for a non-negative `i`: beyond the end it appends -/
def pyInsert {α : Type} (l : List α) (i : Nat) (x : α) : List α := l.take i ++ x :: l.drop i

/-- `_insert_point` (sorting.py:108-161); `nn` are the positions of the two nearest points found by
the KD tree (line 142). -/
def insertPoint (nn : List (V3 K) → V3 K → Nat × Nat) (missingIdx : Nat) (p : V3 K)
    (idxSort : List Nat) (xyzSorted : List (V3 K)) : List Nat × List (V3 K) :=
  let ii := nn xyzSorted p
  let minIdx := min ii.1 ii.2
  let maxIdx := max ii.1 ii.2
  let idxDiff := maxIdx - minIdx
  if idxDiff = 1 then
    (pyInsert idxSort (minIdx + 1) missingIdx, pyInsert xyzSorted (minIdx + 1) p)
  else
    (pyInsert idxSort (minIdx + idxDiff / 2) missingIdx, pyInsert xyzSorted (minIdx + idxDiff / 2) p)

/-- the loop in sorting.py:67-68 -/
def insertPoints (nn : List (V3 K) → V3 K → Nat × Nat) :
    List (Nat × V3 K) → List Nat → List (V3 K) → List Nat × List (V3 K)
  | [], idx, xyz => (idx, xyz)
  | (m, p) :: rest, idx, xyz =>
    insertPoints nn rest (insertPoint nn m p idx xyz).1 (insertPoint nn m p idx xyz).2

/-! ### Start and direction -/

/-- `_begin_with` (sorting.py:221-236); `list.index` raises `ValueError` -/
def beginWith (idx : List Nat) (begin : Nat) : Except Err (List Nat) :=
  if begin ∈ idx then
    .ok (idx.drop (idx.idxOf begin) ++ idx.take (idx.idxOf begin))
  else .error .valueError

/-- `np.sign` of an integer -/
def signInt (i : Int) : Int := if 0 < i then 1 else if i < 0 then -1 else 0

/-- `detect_direction` (sorting.py:294-311) -/
def detectDirection (atan2 : K → K → K) (xyz : List (V3 K)) : Int :=
  let th := xyz.map (fun p => atan2 p.y p.x)
  let pSign := (diffs th).countP (fun d => decide (0 < d))
  let nSign := (diffs th).countP (fun d => decide (d < 0))
  signInt ((pSign : Int) - (nSign : Int))

/-- `np.argmax`: the first position of the largest entry; raises `ValueError` without entries -/
def argmax : List K → Except Err Nat
  | [] => .error .valueError
  | z :: zs => .ok ((z :: zs).findIdx (fun a => (z :: zs).all (fun b => decide (b ≤ a))))

/-- the triangulation and the spanning tree, both third-party (sorting.py:254-275): the edges found
by matplotlib (or an exception), the tree found by networkx for the nodes `0 … n-1` and the
weighted edges. -/
structure TreeLib (K : Type) where
  triangulate : List (V3 K) → Except Err (List (Nat × Nat))
  spanningTree : Nat → List (Nat × Nat × K) → Graph

/-- `_compute_mst` (sorting.py:239-277): tree and missing points -/
def computeMst (tl : TreeLib K) (nrm : V3 K → K) (xyz : List (V3 K)) :
    Except Err (Graph × List Nat) := do
  let edges ← tl.triangulate xyz
  let missing := (List.range xyz.length).filter
    (fun i => !(edges.any (fun e => decide (e.1 = i) || decide (e.2 = i))))
  let a ← Traj.take xyz (edges.map Prod.fst)
  let b ← Traj.take xyz (edges.map Prod.snd)
  let costs := List.zipWith (fun q p => nrm (q - p)) b a
  return (tl.spanningTree xyz.length (List.zipWith (fun e c => (e.1, e.2, c)) edges costs), missing)

/-- `sort` (sorting.py:57-79) -/
def sortPoints (tl : TreeLib K) (nrm : V3 K → K) (nn : List (V3 K) → V3 K → Nat × Nat)
    (atan2 : K → K → K) (xyz : List (V3 K)) (discardMissing : Bool) : Except Err (List Nat) := do
  let (g, missing) ← computeMst tl nrm xyz
  let idx0 ← mstSorting g
  let idx1 ← if missing.length > 0 ∧ discardMissing = false then do
      let points ← Traj.take xyz missing
      let sorted ← Traj.take xyz idx0
      pure (insertPoints nn (missing.zip points) idx0 sorted).1
    else pure idx0
  let top ← argmax (xyz.map V3.z)
  let idx2 ← beginWith idx1 top
  let sorted ← Traj.take xyz idx2
  if detectDirection atan2 sorted ≠ detectDirection atan2 xyz then return idx2.reverse
  else return idx2

/-- `sort_mls` (sorting.py:29-54); `mls` is `mls_iterative` with the settings filled in -/
def sortMls (tl : TreeLib K) (nrm : V3 K → K) (nn : List (V3 K) → V3 K → Nat × Nat)
    (atan2 : K → K → K) (mls : List (V3 K) → Except Err (List (V3 K))) (discardMissing : Bool)
    (xyz : List (V3 K)) : Except Err (List Nat × List K) := do
  let smooth ← mls xyz
  let idx ← sortPoints tl nrm nn atan2 smooth discardMissing
  let sorted ← Traj.take smooth idx
  return (idx, lengthsFromXyz nrm sorted)

/-- `complete_lap_dist` (sorting.py:314-328) -/
def completeLapDist (nrm : V3 K → K) (xyz : List (V3 K)) (distTh : K) : Except Err Bool := do
  let a ← pyFirst xyz
  let b ← pyLast xyz
  return decide (nrm (a - b) < distTh)

end TC
