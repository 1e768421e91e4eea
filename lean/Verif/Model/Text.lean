import Verif.Model.Print
import Mathlib.Data.Nat.Digits.Defs
import Mathlib.Algebra.Order.Round
import Mathlib.Data.Rat.Floor

/-!
# The text that `SLIP_matrix_check` prints, and the strings of the MATLAB interface

The output of `Verif/Model/Print.lean` as characters.  How `%lf` and `%.*Rf` write a number is left open (`real`).
-/

namespace Slip

open Lean in
/-- `c!"text"` is the list of the characters of `"text"`. -/
macro "c!" s:str : term => do
  let cs := s.getString.toList.toArray.map fun c => Syntax.mkCharLit c
  `(([$cs,*] : List Char))

/-- The decimal digits of a natural number, as `%ld`, `%Zd` and `%Qd` write them. -/
def digits (n : ℕ) : List Char := if n = 0 then ['0'] else (Nat.digits 10 n).reverse.map Nat.digitChar

/-- `%ld`, `PRId64`, `%Zd`. -/
def decimal (z : ℤ) : List Char := if z < 0 then '-' :: digits z.natAbs else digits z.natAbs

/-- `%Qd`: the numerator, and unless the denominator is 1, a slash and the denominator. -/
def fraction (q : ℚ) : List Char := decimal q.num ++ if q.den = 1 then [] else '/' :: digits q.den

/-- `A->kind < 1 ? "CSC" : A->kind < 2 ? "Triplet" : "Dense"`: SLIP_matrix_check.c line 118 (the enum values are 0, 1, 2). -/
def Kind.name : Kind → List Char
  | .csc => c!"CSC"
  | .triplet => c!"Triplet"
  | .dense => c!"Dense"
  | .bad v => if v < 1 then c!"CSC" else c!"Dense"

/-- The name of the type: SLIP_matrix_check.c lines 119-120 (the enum values are 0 to 4). -/
def Ty.name : Ty → List Char
  | .mpz => c!"MPZ"
  | .mpq => c!"MPQ"
  | .mpfr => c!"MPFR"
  | .int64 => c!"int64"
  | .fp64 => c!"double"
  | .bad v => if v < 1 then c!"MPZ" else c!"double"

/-- The error messages: SLIP_matrix_check.c lines 81, 91, 96, 101, 112, 166, 176, 188, 197, 213, 220, 305, 320, 393, 417, 439.
Simplified: line 417, for triplet matrices, prints a space after the comma. -/
def Msg.text : Msg → List Char
  | .nz => c!"A is NULL or nz invalid\n"
  | .m => c!"m invalid\n"
  | .n => c!"n invalid\n"
  | .nzmax => c!"nzmax invalid\n"
  | .type => c!"A has invalid type.\n"
  | .p => c!"p invalid\n"
  | .ix => c!"i or x invalid\n"
  | .ijx => c!"i or j or x invalid\n"
  | .x => c!"x invalid\n"
  | .memory => c!"out of memory\n"
  | .range i j => c!"index out of range: (" ++ decimal i ++ c!"," ++ decimal j ++ c!")\n"
  | .dup i j => c!"duplicate index: (" ++ decimal i ++ c!"," ++ decimal j ++ c!")\n"
  | .index => c!"invalid index\n"

/-- A value: SLIP_matrix_check.c lines 233-272, 333-372, 462-501. -/
def Num.text (real : Num → List Char) : Num → List Char
  | .mpz v => decimal v ++ c!" \n"
  | .mpq v => fraction v ++ c!" \n"
  | .mpfr v => real (.mpfr v) ++ c!" \n"
  | .int64 v => decimal v ++ c!" \n"
  | .fp64 v => real (.fp64 v) ++ c!" \n"

/-- The value of the enum `SLIP_info`: SLIP_LU.h lines 175-184. -/
def Info.code : Info → ℤ
  | .ok => 0
  | .outOfMemory => -1
  | .singular => -2
  | .incorrectInput => -3
  | .incorrect => -4
  | .panic => -5

/-- What one call of the print function prints: SLIP_matrix_check.c lines 21, 116-130, 205, 227, 278, 327, 450, 456. -/
def Ev.text (real : Num → List Char) : Ev → List Char
  | .err e => e.text
  | .header m n nz nzmax k t => c!"SLIP_matrix: nrows: " ++ decimal m ++ c!", ncols: " ++ decimal n ++ c!", nz:" ++
      decimal nz ++ c!", nzmax: " ++ decimal nzmax ++ c!", kind: " ++ k.name ++ c!", type: " ++
      t.name ++ c!"\n"
  | .scaleIs => c!"scale factor: "
  | .scale q => fraction q ++ c!"\n"
  | .column j => c!"column " ++ decimal j ++ c!" :\n"
  | .row i => c!"  row " ++ decimal i ++ c!" : "
  | .pair i j => c!"  " ++ decimal i ++ c!" " ++ decimal j ++ c!" : "
  | .val v => v.text real
  | .dots => c!"    ...\n"
  | .error e => c!" error: " ++ decimal e.code ++ c!"\n"

/-- Everything printed. -/
def outText (real : Num → List Char) (l : List Ev) : List Char := l.flatMap (Ev.text real)

/-- `%lf` of a finite positive number: rounded to six decimals (C standard, 7.21.6.1). Infinities, NaN and the sign of negative
numbers are not modelled. -/
def sixDecimals (v : ℚ) : List Char :=
  let z := (round (10 ^ 6 * v)).toNat
  let low := digits (z % 10 ^ 6)
  digits (z / 10 ^ 6) ++ ['.'] ++ List.replicate (6 - low.length) '0' ++ low

/-- The strings that MATLAB/SLIP_mex_soln.c lines 148-164 puts into the cell array, `%Qd` each. -/
def cellStrings (x : Arr ℚ) : Arr (List Char) := x.map (Option.map fraction)

end Slip
