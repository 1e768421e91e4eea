import Verif.Model.AnalyzeFl

/-!
# Specification: the `double` arithmetic of SLIP_LU_analyze
-/

namespace Slip

/-- What is assumed of `double` arithmetic (53 bits of precision), for the numbers that can occur: `rnd` has
a relative error of at most `2^-52` and does not change integers and half-integers up to `2^53`; AMD's sum of
at most `2^29 + 1` terms has a relative error of at most `2^-20`, is exact up to `2^52`, and AMD's `EMPTY` is
-1. -/
structure Doubles.Ok (D : Doubles) : Prop where
  rel : ∀ x : ℚ, 1 ≤ x → x ≤ 2 ^ 64 → |D.rnd x - x| * 2 ^ 52 ≤ x
  int : ∀ z : ℤ, 0 ≤ z → z ≤ 2 ^ 53 → D.rnd z = z
  half : ∀ z : ℤ, 0 ≤ z → z ≤ 2 ^ 53 → D.rnd (1 / 2 * z) = 1 / 2 * z
  amdRel : ∀ (A : Mat) (e : ℤ), 0 ≤ e → |D.amdLnz A e - e| * 2 ^ 20 ≤ e
  amdExact : ∀ (A : Mat) (e : ℤ), -1 ≤ e → e ≤ 2 ^ 52 → D.amdLnz A e = e

end Slip
