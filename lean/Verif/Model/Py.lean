import Mathlib.Algebra.Order.Field.Basic
import Mathlib.Data.List.Sort
/-!
# Python and numpy primitives

Exceptions as values, mutable state that survives an exception, and the numpy
indexing / sorting primitives used by the modelled code.  These model library behaviour
(numpy), so they cite the call sites in `/repo` that rely on them.
-/
namespace TC

/-- The Python exceptions that can leave the modelled functions; `noPath` is networkx's
`NetworkXNoPath` (sorting.py:211), `alignmentParameters` is `AlignmentParametersError`
(alignment/parameters.py:21-22). -/
inductive Err
  | valueError
  | indexError
  | keyError
  | typeError
  | unboundLocal
  | zeroDivision
  | assertion
  | attributeError
  | noPath
  | alignmentParameters
  deriving DecidableEq, Repr

/-- A computation on a mutable state.  The state is returned also when an exception leaves the
computation: it is the state *at the raise point*. -/
def SE (σ α : Type) : Type := σ → Except Err α × σ

namespace SE
variable {σ α β : Type}

/-- normal return without touching the state -/
def pure (a : α) : SE σ α := fun s => (.ok a, s)

/-- sequencing; an exception skips the rest but keeps the state reached so far -/
def bind (m : SE σ α) (f : α → SE σ β) : SE σ β := fun s =>
  match m s with
  | (.ok a, s') => f a s'
  | (.error e, s') => (.error e, s')

instance : Monad (SE σ) where
  pure := SE.pure
  bind := SE.bind

/-- read the state -/
def get : SE σ σ := fun s => (.ok s, s)

/-- an assignment to a field of the state -/
def modify (f : σ → σ) : SE σ Unit := fun s => (.ok (), f s)

/-- a pure expression that may raise -/
def lift (e : Except Err α) : SE σ α := fun s => (e, s)

/-- `raise` -/
def raise (e : Err) : SE σ α := fun s => (.error e, s)

@[simp] theorem run_pure (a : α) (s : σ) : (Pure.pure a : SE σ α) s = (.ok a, s) := rfl
@[simp] theorem run_get (s : σ) : (get : SE σ σ) s = (.ok s, s) := rfl
@[simp] theorem run_modify (f : σ → σ) (s : σ) : (modify f : SE σ Unit) s = (.ok (), f s) := rfl
@[simp] theorem run_lift (e : Except Err α) (s : σ) : (lift e : SE σ α) s = (e, s) := rfl
@[simp] theorem run_raise (e : Err) (s : σ) : (raise e : SE σ α) s = (.error e, s) := rfl
theorem run_bind (m : SE σ α) (f : α → SE σ β) (s : σ) :
    (m >>= f) s = match m s with
      | (.ok a, s') => f a s'
      | (.error e, s') => (.error e, s') := rfl
@[simp] theorem run_bind_ok {m : SE σ α} {f : α → SE σ β} {s s' : σ} {a : α}
    (h : m s = (.ok a, s')) : (m >>= f) s = f a s' := by rw [run_bind, h]
@[simp] theorem run_bind_error {m : SE σ α} {f : α → SE σ β} {s s' : σ} {e : Err}
    (h : m s = (.error e, s')) : (m >>= f) s = (.error e, s') := by rw [run_bind, h]
end SE

/-! ### numpy indexing -/

/-- The position a Python index `i` denotes in a sequence of length `n`: negative indices count
from the end, anything else out of range is rejected (numpy raises `IndexError`). -/
def pyPos (n : Nat) (i : Int) : Option Nat :=
  if 0 ≤ i then (if i.toNat < n then some i.toNat else none)
  else (if (-i).toNat ≤ n then some (n - (-i).toNat) else none)

/-- `a[i]` for a numpy array and an integer. -/
def npGet {α : Type} (l : List α) (i : Int) : Except Err α :=
  match pyPos l.length i with
  | some j => match l[j]? with
    | some a => .ok a
    | none => .error .indexError
  | none => .error .indexError

/-- `a[idx]` for an integer index array (fancy indexing). -/
def npTake {α : Type} (l : List α) : List Int → Except Err (List α)
  | [] => .ok []
  | i :: is => do
    let a ← npGet l i
    let as ← npTake l is
    return a :: as

/-- keep the entries whose mask entry is `True` -/
def maskList {α : Type} : List Bool → List α → List α
  | b :: m, x :: l => if b then x :: maskList m l else maskList m l
  | _, _ => []

/-- `a[mask]` for a boolean mask: the lengths must agree, otherwise numpy raises `IndexError`. -/
def npMask {α : Type} (l : List α) (m : List Bool) : Except Err (List α) :=
  if m.length = l.length then .ok (maskList m l) else .error .indexError

/-- The two kinds of index accepted by `Trajectory.apply_index`. -/
inductive Index
  | ints (idx : List Int)
  | mask (m : List Bool)
  deriving DecidableEq, Repr

/-- `a[index]` -/
def npIndex {α : Type} (l : List α) : Index → Except Err (List α)
  | .ints idx => npTake l idx
  | .mask m => npMask l m

/-! ### numpy sorting -/

section order
variable {K : Type} [LinearOrder K]

/-- `np.sort` (on a linear order all sorting algorithms return the same list) -/
def npSort (l : List K) : List K := l.insertionSort (· ≤ ·)

/-- What `np.argsort` promises: a permutation of the positions that lists the entries in
ascending order.  The default sort is not stable, so nothing is said about ties. -/
def IsArgsortOf (l : List K) (p : List Nat) : Prop :=
  p.Perm (List.range l.length) ∧ (p.filterMap (fun i => l[i]?)).Pairwise (· ≤ ·)

/-- `argsort` is a correct sorter for every list. -/
def IsArgsort (argsort : List K → List Nat) : Prop := ∀ l, IsArgsortOf l (argsort l)

/-- A concrete (stable) argsort, used to evaluate the model. -/
def stableArgsort (l : List K) : List Nat :=
  ((l.zipIdx).insertionSort (fun a b => a.1 ≤ b.1)).map Prod.snd

/-- `np.searchsorted(a, x, side="right")` for an ascending `a` (call site trajectory.py:555):
the number of entries `≤ x`. -/
def searchRight (a : List K) (x : K) : Nat := a.countP (fun y => decide (y ≤ x))

/-- `np.searchsorted(a, x)` (`side="left"`) for an ascending `a`: the number of entries `< x`. -/
def searchLeft (a : List K) (x : K) : Nat := a.countP (fun y => decide (y < x))

/-- strictly ascending -/
def StrictAsc (l : List K) : Prop := l.Pairwise (· < ·)

instance (l : List K) : Decidable (StrictAsc l) := inferInstanceAs (Decidable (l.Pairwise (· < ·)))

end order

/-- `l[-1]` and `l[0]` as partial lookups -/
def pyFirst {α : Type} (l : List α) : Except Err α := npGet l 0
/-- `l[-1]` -/
def pyLast {α : Type} (l : List α) : Except Err α := npGet l (-1)

end TC
