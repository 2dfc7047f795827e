import Mathlib.Data.Int.Notation
import Mathlib.Data.Int.Order.Basic
import Mathlib.Data.Rat.Defs
import Mathlib.Algebra.Order.Group.Unbundled.Abs
import Mathlib.Algebra.Order.Group.Unbundled.Int
import Mathlib.Order.Interval.Set.Defs

/-!
# Specification of the index layouts

Written from the docstrings, without reference to the model: a list is *the* enumeration of a set
in lexicographic order iff it is strictly increasing for the lexicographic order and its members
are exactly the elements of the set.
-/

set_option autoImplicit false

namespace SF.Spec

/-- `(ell, m)` is a mode with `ell_min ≤ ell ≤ ell_max` and `-ell ≤ m ≤ ell`. -/
def IsMode (ell_min ell_max : ℤ) (p : ℤ × ℤ) : Prop :=
  ell_min ≤ p.1 ∧ p.1 ≤ ell_max ∧ -p.1 ≤ p.2 ∧ p.2 ≤ p.1

/-- Lexicographic order on `(ell, m)`. -/
def ltLM (p q : ℤ × ℤ) : Prop := p.1 < q.1 ∨ (p.1 = q.1 ∧ p.2 < q.2)

/-- `l` lists exactly the modes, in lexicographic order, each once. -/
def ListsModes (ell_min ell_max : ℤ) (l : List (ℤ × ℤ)) : Prop :=
  l.Pairwise ltLM ∧ ∀ p, p ∈ l ↔ IsMode ell_min ell_max p

/-- `(ell, m', m)` with `ell_min ≤ ell ≤ ell_max`, `|m'| ≤ ell`, `|m| ≤ ell`. -/
def IsTriple (ell_min ell_max : ℤ) (p : ℤ × ℤ × ℤ) : Prop :=
  ell_min ≤ p.1 ∧ p.1 ≤ ell_max ∧ |p.2.1| ≤ p.1 ∧ |p.2.2| ≤ p.1

/-- Lexicographic order on triples. -/
def ltLMpM (p q : ℤ × ℤ × ℤ) : Prop :=
  p.1 < q.1 ∨ (p.1 = q.1 ∧ (p.2.1 < q.2.1 ∨ (p.2.1 = q.2.1 ∧ p.2.2 < q.2.2)))

/-- `l` lists exactly the triples, in lexicographic order. -/
def ListsTriples (ell_min ell_max : ℤ) (l : List (ℤ × ℤ × ℤ)) : Prop :=
  l.Pairwise ltLMpM ∧ ∀ p, p ∈ l ↔ IsTriple ell_min ell_max p

/-- Doubled half-integer triple: `(2ell, 2m', 2m)` of equal parity, `|2m'|, |2m| ≤ 2ell`. -/
def IsTwoTriple (twoell_min twoell_max : ℤ) (p : ℤ × ℤ × ℤ) : Prop :=
  twoell_min ≤ p.1 ∧ p.1 ≤ twoell_max ∧ |p.2.1| ≤ p.1 ∧ |p.2.2| ≤ p.1 ∧
    (p.1 - p.2.1) % 2 = 0 ∧ (p.1 - p.2.2) % 2 = 0

/-- `l` lists exactly the doubled triples in lexicographic order. -/
def ListsTwoTriples (twoell_min twoell_max : ℤ) (l : List (ℤ × ℤ × ℤ)) : Prop :=
  l.Pairwise ltLMpM ∧ ∀ p, p ∈ l ↔ IsTwoTriple twoell_min twoell_max p

end SF.Spec
