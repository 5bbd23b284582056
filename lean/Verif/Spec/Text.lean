import Verif.Model.Header
import Verif.Spec.Traj
/-!
# Specification vocabulary for text files
-/
namespace TC

/-- no white space in the string -/
def NoSpace (s : Str) : Prop := ∀ c ∈ s, pySpace c = false

/-- a header line for a key: `#key`, followed by nothing or by white space -/
def HeaderLine (key line : Str) : Prop :=
  NoSpace key ∧ ∃ rest, line = '#' :: key ++ rest ∧ ∀ c r, rest = c :: r → pySpace c = true

/-- the string consists of non-empty words without white space, separated by single blanks -/
def CleanName (s : Str) : Prop :=
  ∃ words : List Str, words ≠ [] ∧ (∀ w ∈ words, w ≠ [] ∧ NoSpace w) ∧ s = List.intercalate [' '] words

/-- the words of a string: maximal pieces without white space -/
inductive Words : Str → List Str → Prop
  | blank {g : Str} : (∀ c ∈ g, pySpace c = true) → Words g []
  | word {g w rest : Str} {ws : List Str} : (∀ c ∈ g, pySpace c = true) → w ≠ [] → NoSpace w →
      (∀ c r, rest = c :: r → pySpace c = true) → Words rest ws → Words (g ++ w ++ rest) (w :: ws)

variable {K : Type} [Field K] [LinearOrder K]

/-- two numbers agree up to `ε` -/
def Close (ε a b : K) : Prop := |a - b| ≤ ε

/-- two positions agree up to `ε` in each coordinate -/
def Close3 (ε : K) (p q : V3 K) : Prop := Close ε p.x q.x ∧ Close ε p.y q.y ∧ Close ε p.z q.z

/-- two matrices agree up to `ε` in each entry -/
def CloseM (ε : K) (A B : M3 K) : Prop := ∀ i j, Close ε (A i j) (B i j)

end TC
