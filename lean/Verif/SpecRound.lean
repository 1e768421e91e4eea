import Verif.SpecMat

/-!
# Specification of the conversions that round

What each entry becomes when a matrix is converted to MPFR, FP64 or INT64.
-/

namespace Slip

/-- The number that entry `k` stands for, which may be an infinity or NaN; an integer of type MPZ is
divided by the scale factor of its matrix. -/
def Vals.dval (s : ℚ) (x : Vals) (k : ℤ) : Option Dbl :=
  match x with
  | .mpz a => (get a k).map fun v : ℤ => .fin ((v : ℚ) / s)
  | .mpq a => (get a k).map .fin
  | .mpfr a => get a k
  | .int64 a => (get a k).map fun v : ℤ => .fin v
  | .fp64 a => get a k

/-- The number that stored entry `k` of a matrix stands for. -/
def Mat.dval (A : Mat) (k : ℤ) : Option Dbl := A.x.bind fun x => x.dval A.scale k

/-- Roundings to `double`: towards zero, as documented for GMP; in a given direction, as documented
for MPFR (direction 0, to nearest, is also what the compiler does). -/
structure ToDouble where
  trunc : ℚ → Dbl
  round : Int → Dbl → Dbl

/-- The libraries and the compiler round as documented. -/
structure Fp.Rounds (fp : Fp) (R : ToDouble) : Prop where
  mpq : ∀ q, fp.mpqGetD q = R.trunc q
  mpz : ∀ z : ℤ, fp.mpzGetD z = R.trunc z
  mpfr : ∀ mode d, fp.mpfrGetD mode d = R.round mode d
  int64 : ∀ z : ℤ, fp.int64ToD z = R.round 0 (.fin z)

/-- A number rounded to an integer in the given direction, with values outside the range of `int64_t`
replaced by the nearest bound, and NaN by 0. -/
def toInt64 (mode : Int) : Dbl → Dbl
  | .nan => .fin 0
  | .posInf => .fin (2 ^ 63 - 1)
  | .negInf => .fin (-2 ^ 63)
  | .fin v => .fin (max (-2 ^ 63) (min (2 ^ 63 - 1) (roundInt mode v)) : ℤ)

/-- `GMP`'s or MPFR's `double` for a number of the given type. -/
def toDouble (R : ToDouble) (opt : Option Options) (src : Ty) (d : Dbl) : Dbl :=
  match src, d with
  | .mpz, .fin q | .mpq, .fin q => R.trunc q
  | .mpfr, d => R.round (optRound opt) d
  | .int64, d => R.round 0 d
  | _, d => d

/-- What an entry standing for `d` in a matrix of type `src` becomes in a matrix of type `dst`. To MPFR:
rounded to the precision and in the direction of the options. To FP64: rounded once. To INT64: an
integer type is unchanged, MPFR is rounded in the direction of the options, a rational number becomes
a `double`, and a `double` is truncated. `unscaled`: the scale factor of `A` is 1. -/
def converted (R : ToDouble) (opt : Option Options) (unscaled : Prop) [Decidable unscaled]
    (src dst : Ty) (d : Dbl) : Dbl :=
  match dst with
  | .mpfr => mpfrRnd (optPrec opt) (optRound opt) d
  | .fp64 => toDouble R opt src d
  | .int64 => match src with
    | .int64 => d
    | .mpfr => toInt64 (optRound opt) d
    | .mpz => if unscaled then d else toInt64 1 (toDouble R opt src d)
    | _ => toInt64 1 (toDouble R opt src d)
  | _ => d

/-- Excluded conversions to INT64: an unscaled MPZ integer outside the range (the low bits are kept), and
a `double` equal to `2^63` (undefined). -/
def Converts (R : ToDouble) (opt : Option Options) (unscaled : Prop) [Decidable unscaled]
    (src dst : Ty) (d : Dbl) : Prop :=
  dst = .int64 → match src with
    | .mpz => if unscaled then ∀ q, d = .fin q → -2 ^ 63 ≤ q ∧ q < 2 ^ 63
        else toDouble R opt src d ≠ .fin (2 ^ 63)
    | .mpq | .fp64 => toDouble R opt src d ≠ .fin (2 ^ 63)
    | _ => True

/-- A matrix with `N` stored entries, all of them (values of any kind, indices) readable. -/
structure Entries (m n N : ℕ) (A : Mat) : Prop extends Header m n A where
  shape : match A.kind with
    | .csc => A.p.isSome = true ∧ get (deref A.p) n = some (N : ℤ) ∧
        (∀ j : ℕ, j ≤ n → ∃ a : ℤ, get (deref A.p) j = some a ∧ 0 ≤ a ∧ a ≤ N) ∧
        ∀ k : ℕ, k < N → ∃ i : ℤ, get (deref A.i) k = some i
    | .triplet => A.nz = N ∧ ∀ k : ℕ, k < N →
        (∃ i : ℤ, get (deref A.i) k = some i) ∧ ∃ j : ℤ, get (deref A.j) k = some j
    | .dense => N = m * n
    | .bad _ => False
  vals : ∀ k : ℕ, k < N → ∃ d, A.dval k = some d

/-- `B` has the dimensions and the entry positions of `A`. -/
structure SamePattern (m n N : ℕ) (A B : Mat) : Prop where
  rows : B.m = m
  cols : B.n = n
  kind : B.kind = A.kind
  p : A.kind = .csc → ∀ j : ℕ, j ≤ n → get (deref B.p) j = get (deref A.p) j
  i : A.kind ≠ .dense → ∀ k : ℕ, k < N → get (deref B.i) k = get (deref A.i) k
  j : A.kind = .triplet → ∀ k : ℕ, k < N → get (deref B.j) k = get (deref A.j) k
  nz : A.kind = .triplet → B.nz = A.nz

end Slip
