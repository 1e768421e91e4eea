import Verif.Model.Factor
import Mathlib.Logic.Relation

/-!
# Specification vocabulary for the symbolic phase: the graph of a partial factor and reachability
-/

namespace Slip

/-- The directed graph searched: `j → i` when `i` is a row index stored in the column
`pinv[j]` of the (unmarked) partial factor. -/
def Edge (Lp Li pinv : Arr Int) (j i : Int) : Prop :=
  ∃ w a b p, get pinv j = some w ∧ get Lp w = some a ∧ get Lp (w + 1) = some b ∧
    a ≤ p ∧ p < b ∧ get Li p = some i

/-- Well-formed search graph on the nodes `0..n-1`. -/
structure Graph (n : Nat) (Lp Li pinv : Arr Int) : Prop where
  pinv : ∀ j : Int, 0 ≤ j → j < n → ∃ w, get pinv j = some w ∧ 0 ≤ w ∧ w < n
  ptr : ∀ j : Int, 0 ≤ j → j ≤ n → ∃ v, get Lp j = some v ∧ 0 ≤ v
  row : ∀ w a b p : Int, 0 ≤ w → w < n → get Lp w = some a → get Lp (w + 1) = some b →
    a ≤ p → p < b → ∃ i, get Li p = some i ∧ 0 ≤ i ∧ i < n

/-- Rows of column `col` of `A`. -/
def ColRow (Ap Ai : Arr Int) (col i : Int) : Prop :=
  ∃ a b p, get Ap col = some a ∧ get Ap (col + 1) = some b ∧ a ≤ p ∧ p < b ∧ get Ai p = some i

/-- Rows reachable from the pattern of column `col` of `A` in the graph of `L`. -/
def Reachable (Ap Ai Lp Li pinv : Arr Int) (col i : Int) : Prop :=
  ∃ s, ColRow Ap Ai col s ∧ Relation.ReflTransGen (Edge Lp Li pinv) s i

end Slip
