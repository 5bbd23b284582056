import Verif.Model.Sorting
import Mathlib.Combinatorics.SimpleGraph.Acyclic
/-!
# Specification vocabulary for graphs
-/
namespace TC

/-- `v` can be reached from `u` along edges of the graph. -/
def Reach (g : Graph) : Nat → Nat → Prop := Relation.ReflTransGen (fun u v => v ∈ g.adj u)

/-- the graph as a simple graph in the sense of Mathlib -/
def Graph.simple (g : Graph) : SimpleGraph (Fin g.n) where
  Adj u v := u ≠ v ∧ (v.1 ∈ g.adj u.1 ∧ u.1 ∈ g.adj v.1)
  symm := ⟨fun _ _ h => ⟨h.1.symm, h.2.2, h.2.1⟩⟩
  loopless := ⟨fun _ h => h.1 rfl⟩

/-- What networkx guarantees of a simple undirected graph with nodes `0 … n-1`. -/
structure Graph.WF (g : Graph) : Prop where
  range : ∀ u v, v ∈ g.adj u → u < g.n ∧ v < g.n
  symm : ∀ u v, v ∈ g.adj u → u ∈ g.adj v
  irrefl : ∀ u, u ∉ g.adj u
  nodup : ∀ u, (g.adj u).Nodup

/-- `i` is an end point of one of the edges. -/
def Touched (edges : List (Nat × Nat)) (i : Nat) : Prop := ∃ e ∈ edges, e.1 = i ∨ e.2 = i

/-- A spanning forest of the edges, on the nodes `0 … n-1`. -/
structure IsSpanningForest (n : Nat) (edges : List (Nat × Nat)) (g : Graph) : Prop where
  wf : g.WF
  nodes : g.n = n
  sub : ∀ u v, v ∈ g.adj u → (u, v) ∈ edges ∨ (v, u) ∈ edges
  span : ∀ u v, (u, v) ∈ edges → Reach g u v
  acyclic : g.simple.IsAcyclic

/-- What a triangulation of `n` points looks like: at least one edge, all end points exist, no
loops, and the edges hang together. -/
structure IsTriangulation (n : Nat) (edges : List (Nat × Nat)) : Prop where
  nonempty : edges ≠ []
  range : ∀ e ∈ edges, e.1 < n ∧ e.2 < n ∧ e.1 ≠ e.2
  connected : ∀ i j, Touched edges i → Touched edges j →
    Relation.ReflTransGen (fun u v => (u, v) ∈ edges ∨ (v, u) ∈ edges) i j

/-- The third-party routines behave on the points `xyz`: what is returned is a triangulation, and
the tree is a spanning forest of the edges, whatever their costs. -/
structure TreeOk {K : Type} [Field K] (tl : TreeLib K) (xyz : List (V3 K)) : Prop where
  tri : ∀ edges, tl.triangulate xyz = .ok edges → IsTriangulation xyz.length edges
  tree : ∀ edges (w : List (Nat × Nat × K)), tl.triangulate xyz = .ok edges →
    w.map (fun e => (e.1, e.2.1)) = edges →
    IsSpanningForest xyz.length edges (tl.spanningTree xyz.length w)

end TC
