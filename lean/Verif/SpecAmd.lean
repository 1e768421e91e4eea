import Verif.Spec

/-!
# Specification of AMD's input and output

A square matrix pattern as `amd_l_order` takes it: `n` rows and columns, the column pointers `p` and
the row indices `i` (/repo/AMD/Include/amd.h, lines 60-130, the comment on the arguments).
-/

namespace Slip.Amd

/-- `p`, `i` hold the pattern of an `n`-by-`n` matrix. The rows of a column may come in any order, and
may be repeated. -/
structure SquarePattern (n : ℕ) (p i : Arr Int) : Prop where
  z : get p 0 = some 0
  col : ∀ j : ℕ, j < n → ∃ a b : ℤ, get p j = some a ∧ get p ((j : ℤ) + 1) = some b ∧ a ≤ b ∧
    ∀ t, a ≤ t → t < b → ∃ r : ℕ, r < n ∧ get i t = some (r : ℤ)

/-- In each column the row indices increase strictly. -/
def StrictlySorted (n : ℕ) (p i : Arr Int) : Prop :=
  ∀ j : ℕ, j < n → ∀ a b : ℤ, get p j = some a → get p ((j : ℤ) + 1) = some b →
    ∀ t t', a ≤ t → t < t' → t' < b → ∀ r r', get i t = some r → get i t' = some r' → r < r'

/-- The memory that `AMD_valid` may read is initialised: the pointers, and the indices below each
pointer. -/
structure Initialised (n : ℕ) (p i : Arr Int) : Prop where
  ptr : ∀ j : ℕ, j ≤ n → ∃ v, get p j = some v
  idx : ∀ j : ℕ, j ≤ n → ∀ v, get p j = some v → ∀ t, 0 ≤ t → t < v → ∃ w, get i t = some w

end Slip.Amd
