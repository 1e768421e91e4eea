import Mathlib.Data.Rat.Defs

/-!
# Specification: reading numbers

How a person (or another program) reads a decimal integer and a fraction.  Independent of the model of the output.
-/

namespace Slip

/-- The value of a decimal digit. -/
def digitValue (c : Char) : Option ℕ :=
  if '0'.toNat ≤ c.toNat ∧ c.toNat ≤ '9'.toNat then some (c.toNat - '0'.toNat) else none

/-- Digits read from the left, `n` being what has been read before. -/
def readFrom : ℕ → List Char → Option ℕ
  | n, [] => some n
  | n, c :: l => (digitValue c).bind fun d => readFrom (10 * n + d) l

/-- A natural number: one or more digits. -/
def readNat (l : List Char) : Option ℕ := if l = [] then none else readFrom 0 l

/-- An integer: a natural number, or a minus sign and a natural number. -/
def readInt : List Char → Option ℤ
  | '-' :: l => (readNat l).map fun (n : ℕ) => -(n : ℤ)
  | l => (readNat l).map fun (n : ℕ) => (n : ℤ)

/-- A rational number: an integer, or an integer, a slash and a natural number that is not zero. -/
def readRat (l : List Char) : Option ℚ :=
  match l.span (· ≠ '/') with
  | (a, []) => (readInt a).map fun (z : ℤ) => (z : ℚ)
  | (a, _ :: b) => (readInt a).bind fun (z : ℤ) => (readNat b).bind fun (d : ℕ) => if d = 0 then none else some ((z : ℚ) / d)

end Slip
