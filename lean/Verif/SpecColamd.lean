import Verif.Spec

/-!
# Specification of COLAMD's input and output

A matrix pattern as `colamd_l` takes it: `m` rows, `n` columns, the column pointers `p` and the row
indices `A` (/repo/COLAMD/Source/colamd.c, lines 100-190, the comment on the arguments).
-/

namespace Slip.Colamd

/-- `p`, `A` hold the pattern of an `m`-by-`n` matrix with `nnz` entries, without duplicates. The
rows of a column may come in any order. -/
structure RectPattern (n m : ℕ) (nnz : ℤ) (p A : Arr Int) : Prop where
  z : get p 0 = some 0
  e : get p n = some nnz
  col : ∀ j : ℕ, j < n → ∃ a b : ℤ, get p j = some a ∧ get p ((j : ℤ) + 1) = some b ∧ a ≤ b ∧
    (∀ t, a ≤ t → t < b → ∃ r : ℕ, r < m ∧ get A t = some (r : ℤ)) ∧
    (∀ t t', a ≤ t → t < b → a ≤ t' → t' < b → get A t = get A t' → t = t')

/-- The input that COLAMD has to accept: sizes not negative, pointers that start at 0 and do not
decrease, row indices in range, and enough memory. Duplicates are not mentioned. -/
structure Acceptable (n m nnz Alen : ℤ) (p A : Arr Int) : Prop where
  n0 : 0 ≤ n
  m0 : 0 ≤ m
  nnz0 : 0 ≤ nnz
  z : get p 0 = some 0
  e : get p n = some nnz
  mem : 2 * nnz + n + 6 * (n + 1) + 4 * (m + 1) ≤ Alen
  mono : ∀ c, 0 ≤ c → c < n → ∀ a b, get p c = some a → get p (c + 1) = some b → a ≤ b
  idx : ∀ t, 0 ≤ t → t < nnz → ∀ r, get A t = some r → 0 ≤ r ∧ r < m

end Slip.Colamd
