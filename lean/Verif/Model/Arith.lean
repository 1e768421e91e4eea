import Verif.Basic

/-!
# Integer arithmetic of the program

COLAMD and AMD (and the functions of `Model/Machine.lean`) compute with `int64_t`. A model that is to be used both
with unbounded and with 64-bit integers calls `ck` on the result of each operation: `Arith.exact` lets
every number pass, `Arith.bits64` turns a number outside the range of `int64_t` into undefined behaviour.
-/

namespace Slip

/-- The result of an `int64_t` operation (`SuiteSparse_long` in COLAMD and AMD, SuiteSparse_config.h
lines 52-67: a 64-bit integer). A result out of range is undefined behaviour (C11 6.5 paragraph 5). -/
def i64 (v : Int) : C Int := if -2 ^ 63 ≤ v ∧ v < 2 ^ 63 then .ok v else .error .ub

/-- What happens to the result of an integer operation. -/
class Arith where
  ck : Int → C Int

/-- Unbounded integers. -/
abbrev Arith.exact : Arith := ⟨.ok⟩

/-- 64-bit integers. -/
abbrev Arith.bits64 : Arith := ⟨i64⟩

export Arith (ck)

end Slip
