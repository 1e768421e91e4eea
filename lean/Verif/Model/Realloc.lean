import Verif.Model.Convert

/-!
# `SLIP_malloc`, `SLIP_calloc`, `SLIP_realloc`, `SLIP_free` and their SuiteSparse counterparts

Memory is a partial map from addresses to blocks of bytes. What the C library answers to a request is
a parameter (`reply`): NULL, or the address of the new block.
-/

namespace Slip.Mem

/-- Addresses of blocks. NULL is `none` in `Option Ptr`. -/
abbrev Ptr := ℕ

/-- Blocks of bytes; a byte that was never written is `none`. -/
abbrev Bytes := Ptr → Option (List (Option ℕ))

/-- `(double) x` for a `size_t`, and the rounding of a product of doubles: to nearest, 53 bits. -/
def dbl (q : ℚ) : ℚ := roundPrec 53 0 q

/-- `size = nitems * size_of_item` in `size_t` arithmetic: SuiteSparse_config.c lines 183, 212, 252. -/
def sizeT (n s : ℕ) : ℕ := n * s % 2 ^ 64

/-- The overflow test `size != ((double) nitems) * size_of_item`: SuiteSparse_config.c lines 185, 214,
254. -/
def overflow (n s : ℕ) : Bool := decide (dbl (sizeT n s) ≠ dbl (dbl n * dbl s))

/-- `(size_t) x` for an `int64_t`. -/
def toSize (x : ℤ) : ℕ := (x % 2 ^ 64).toNat

/-- The C library's `malloc` when it answers `reply`. -/
def cMalloc (h : Bytes) (size : ℕ) (reply : Option Ptr) : Option Ptr × Bytes :=
  match reply with
  | none => (none, h)
  | some q => (some q, fun a => if a = q then some (List.replicate size none) else h a)

/-- The C library's `calloc` when it answers `reply`. -/
def cCalloc (h : Bytes) (size : ℕ) (reply : Option Ptr) : Option Ptr × Bytes :=
  match reply with
  | none => (none, h)
  | some q => (some q, fun a => if a = q then some (List.replicate size (some 0)) else h a)

/-- The C library's `realloc` of a block `p` when it answers `reply`: a failed `realloc` leaves the
block alone, a successful one moves its contents. -/
def cRealloc (h : Bytes) (p : Ptr) (size : ℕ) (reply : Option Ptr) : C (Option Ptr × Bytes) :=
  match h p with
  | none => .error .ub
  | some old =>
    match reply with
    | none => .ok (none, h)
    | some q => .ok (some q, fun a =>
        if a = q then some ((old ++ List.replicate (size - old.length) none).take size)
        else if a = p then none else h a)

/-- The C library's `free`: freeing a block that is not live is undefined. -/
def cFree (h : Bytes) (p : Ptr) : C Bytes :=
  match h p with
  | none => .error .ub
  | some _ => .ok fun a => if a = p then none else h a

/-- `SuiteSparse_malloc`, SuiteSparse_config.c lines 173-195. -/
def SuiteSparse_malloc (h : Bytes) (n s : ℕ) (reply : Option Ptr) : Option Ptr × Bytes :=
  let n := if n < 1 then 1 else n
  let s := if s < 1 then 1 else s
  if overflow n s then (none, h) else cMalloc h (sizeT n s) reply

/-- `SuiteSparse_calloc`, SuiteSparse_config.c lines 202-224. -/
def SuiteSparse_calloc (h : Bytes) (n s : ℕ) (reply : Option Ptr) : Option Ptr × Bytes :=
  let n := if n < 1 then 1 else n
  let s := if s < 1 then 1 else s
  if overflow n s then (none, h) else cCalloc h (n * s) reply

/-- `SuiteSparse_realloc`, SuiteSparse_config.c lines 238-297; returns the pointer, `ok`, and memory. -/
def SuiteSparse_realloc (h : Bytes) (nnew nold s : ℕ) (p : Option Ptr) (reply : Option Ptr) :
    C (Option Ptr × Bool × Bytes) :=
  let nold := if nold < 1 then 1 else nold
  let nnew := if nnew < 1 then 1 else nnew
  let s := if s < 1 then 1 else s
  if overflow nnew s then .ok (p, false, h)
  else match p with
  | none =>
    let (p, h) := SuiteSparse_malloc h nnew s reply
    .ok (p, p.isSome, h)
  | some p =>
    if nold = nnew then .ok (some p, true, h)
    else do
      let (pnew, h) ← cRealloc h p (sizeT nnew s) reply
      match pnew with
      | none => if nnew < nold then .ok (some p, true, h) else .ok (some p, false, h)
      | some q => .ok (some q, true, h)

/-- `SuiteSparse_free`, SuiteSparse_config.c lines 303-313. -/
def SuiteSparse_free (h : Bytes) (p : Option Ptr) : C Bytes :=
  match p with
  | none => .ok h
  | some p => cFree h p

/-- `SLIP_malloc`, SLIP_malloc.c lines 15-22. -/
def SLIP_malloc (init : Bool) (h : Bytes) (size : ℕ) (reply : Option Ptr) : Option Ptr × Bytes :=
  if !init then (none, h) else SuiteSparse_malloc h 1 size reply

/-- `SLIP_calloc`, SLIP_calloc.c lines 15-24. -/
def SLIP_calloc (init : Bool) (h : Bytes) (n s : ℕ) (reply : Option Ptr) : Option Ptr × Bytes :=
  if !init then (none, h) else SuiteSparse_calloc h n s reply

/-- `SLIP_realloc`, SLIP_realloc.c lines 37-58. -/
def SLIP_realloc (init : Bool) (h : Bytes) (nnew nold : ℤ) (s : ℕ) (p : Option Ptr)
    (reply : Option Ptr) : C (Option Ptr × Bool × Bytes) :=
  if !init then .ok (p, false, h)
  else SuiteSparse_realloc h (toSize nnew) (toSize nold) s p reply

/-- `SLIP_free`, SLIP_free.c lines 15-22. -/
def SLIP_free (init : Bool) (h : Bytes) (p : Option Ptr) : C Bytes :=
  if !init then .ok h else SuiteSparse_free h p

end Slip.Mem
