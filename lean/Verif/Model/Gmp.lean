import Verif.Basic
import Mathlib.Data.Multiset.Basic
import Mathlib.Data.Multiset.AddSub
import Mathlib.Data.Multiset.UnionInter

/-!
# The memory functions given to GMP and the wrappers around GMP calls: SLIP_gmp.c, SLIP_gmp.h

Memory is a ledger: which addresses hold a live block. Every block has a serial number, so that a block
which was freed and whose address was used again is not confused with the original one. The C library
may refuse any request, and may hand out any address which is not in use.

A GMP (or MPFR) function is a program which calls the three memory functions, stores pointers into the
object it computes, and (MPFR) keeps blocks in a cache; what it does may depend in any way on the
answers it gets (`Gmp`). A call that does not return because of `longjmp` ends with `Out.jump`.
-/

namespace Slip.Mem

/-- Addresses of blocks. NULL is `none` in `Option Addr`. -/
abbrev Addr := ℕ

/-- The state of memory, and the global variables of SLIP_gmp.c lines 74-84.

Simplifications: of the array `slip_gmp_list` only its entries `0 .. slip_gmp_nmalloc-1` are kept
(`used`; the others are never read), so that `slip_gmp_nmalloc` is the length of `used`. -/
structure G where
  /-- the serial number of the live block at an address -/
  live : Addr → Option ℕ
  /-- number of blocks handed out so far -/
  gen : ℕ
  /-- number of requests made so far -/
  tick : ℕ
  /-- what the C library answers to its requests -/
  ask : ℕ → Option Addr
  /-- number of requests which were refused so far -/
  refused : ℕ
  /-- `slip_initialize_has_been_called` -/
  init : Bool
  /-- `slip_gmp_list` -/
  list : Option Addr
  /-- `slip_gmp_nlist` -/
  nlist : ℕ
  /-- `slip_gmp_list [0 .. slip_gmp_nmalloc-1]` -/
  used : List Addr
  /-- `slip_gmp_ntrials` -/
  ntrials : Int
  /-- one of the archive pointers is not NULL -/
  arch : Bool
  /-- the pointers to limbs in the object that is computed: one for an `mpz_t` or `mpfr_t`, two for an
  `mpq_t`. A pointer which does not point to a block of its own (NULL, or the static limb that
  `mpz_init` uses in some versions of GMP) is `none`. -/
  obj : List (Option Addr)
  /-- the blocks in the cache of MPFR -/
  cache : List Addr

/-- How a computation ends: normally, by `longjmp (slip_gmp_environment, ...)`, or with undefined
behaviour (here: `free` of an address which is not live, or a write outside `slip_gmp_list`). -/
inductive Out (α : Type)
  | ok (a : α) (g : G)
  | jump (g : G)
  | ub

/-- Sequencing. -/
def Out.bind {α β : Type} : Out α → (α → G → Out β) → Out β
  | .ok a g, k => k a g
  | .jump g, _ => .jump g
  | .ub, _ => .ub

/-- The C library's `malloc` or `calloc`: refused, or any address that is not in use. -/
def cAlloc (g : G) : Option Addr × G :=
  match g.ask g.tick with
  | none => (none, { g with tick := g.tick + 1, refused := g.refused + 1 })
  | some q =>
    if (g.live q).isSome then (none, { g with tick := g.tick + 1, refused := g.refused + 1 })
    else (some q, { g with
      tick := g.tick + 1, gen := g.gen + 1, live := Function.update g.live q (some g.gen) })

/-- `SLIP_malloc` and `SLIP_calloc`: SLIP_malloc.c lines 15-22, SLIP_calloc.c lines 15-24. -/
def slipMalloc (g : G) : Option Addr × G :=
  if !g.init then (none, g) else cAlloc g

/-- `SLIP_free`: SLIP_free.c lines 15-22. -/
def slipFree (p : Option Addr) (g : G) : Out Unit :=
  if !g.init then .ok () g
  else match p with
  | none => .ok () g
  | some p =>
    if (g.live p).isSome then .ok () { g with live := Function.update g.live p none } else .ub

/-- `SLIP_realloc` to a larger size of a block `p`: SLIP_realloc.c lines 37-58; see
`Verif/Model/Realloc.lean` for the contents. Returns the pointer and `ok`. A block that is moved may
stay at its address. -/
def slipRealloc (p : Addr) (g : G) : Out (Addr × Bool) :=
  if !g.init then .ok (p, false) g
  else if (g.live p).isNone then .ub
  else match g.ask g.tick with
  | none => .ok (p, false) { g with tick := g.tick + 1, refused := g.refused + 1 }
  | some q =>
    if q ≠ p ∧ (g.live q).isSome then
      .ok (p, false) { g with tick := g.tick + 1, refused := g.refused + 1 }
    else .ok (q, true) { g with
      tick := g.tick + 1, gen := g.gen + 1
      live := Function.update (Function.update g.live p none) q (some g.gen) }

/-- `slip_gmp_init`: SLIP_gmp.c lines 95-101. Returns whether the list exists. -/
def slip_gmp_init (g : G) : Bool × G :=
  let (l, g) := slipMalloc { g with used := [], nlist := 32 }
  (l.isSome, { g with list := l })

/-- `slip_gmp_finalize`: SLIP_gmp.c lines 108-116. -/
def slip_gmp_finalize (g : G) : Out Unit :=
  (slipFree g.list { g with arch := false, used := [], nlist := 0 }).bind fun _ g =>
    .ok () { g with list := none }

/-- The list is made large enough, SLIP_gmp.c lines 159-188. -/
def ensureList (g : G) : Out Unit :=
  match g.list with
  | none =>
    let (ok, g) := slip_gmp_init g
    if !ok then .jump g else .ok () g
  | some l =>
    if g.used.length = g.nlist then
      (slipRealloc l g).bind fun (l, ok) g =>
        let g := { g with list := some l }
        if !ok then .jump g else .ok () { g with nlist := 2 * g.nlist }
    else .ok () g

/-- `slip_gmp_allocate`: SLIP_gmp.c lines 128-216. The value of the counter for testing
(`slip_gmp_ntrials`, lines 142-155) is arbitrary. -/
def slip_gmp_allocate (g : G) : Out Addr :=
  if g.ntrials = 0 then .jump g
  else
    let g := if g.ntrials > 0 then { g with ntrials := g.ntrials - 1 } else g
    (ensureList g).bind fun _ g =>
      match slipMalloc g with
      | (none, g) => .jump g
      | (some p, g) =>
        if g.used.length < g.nlist then .ok p { g with used := g.used ++ [p] } else .ub

/-- A pointer is removed from the object that is archived: the first part of SLIP_GMP_SAFE_FREE,
SLIP_gmp.h lines 70-94. -/
def unarchive (p : Addr) (g : G) : G :=
  if g.arch then { g with obj := g.obj.map fun f => if f = some p then none else f } else g

/-- `SLIP_GMP_SAFE_FREE (p)`: SLIP_gmp.h lines 68-96. -/
def safeFree (p : Option Addr) (g : G) : Out Unit :=
  match p with
  | none => .ok () g
  | some p => slipFree (some p) (unarchive p g)

/-- `slip_gmp_list [i] = slip_gmp_list [--slip_gmp_nmalloc]` for the first `i` with
`slip_gmp_list [i] == p`, if there is one: SLIP_gmp.c lines 236-248. -/
def removeFirst (p : Addr) (l : List Addr) : List Addr :=
  match l.idxOf? p with
  | none => l
  | some i => (l.set i (l.getLast?.getD p)).dropLast

/-- `slip_gmp_free`: SLIP_gmp.c lines 223-259. -/
def slip_gmp_free (p : Option Addr) (g : G) : Out Unit :=
  match p, g.list with
  | some p, some _ => safeFree (some p) { g with used := removeFirst p g.used }
  | _, _ => safeFree p g

/-- `slip_gmp_reallocate`: SLIP_gmp.c lines 266-299; `zero` says that `new_size` is 0. -/
def slip_gmp_reallocate (p : Option Addr) (zero : Bool) (g : G) : Out (Option Addr) :=
  match p with
  | none => (slip_gmp_allocate g).bind fun q g => .ok (some q) g
  | some p =>
    if zero then (slip_gmp_free (some p) g).bind fun _ g => .ok none g
    else (slip_gmp_allocate g).bind fun q g =>
      (slip_gmp_free (some p) g).bind fun _ g => .ok (some q) g

/-- What a GMP or MPFR function does, as far as memory is concerned. It may use what it was given
(the pointers in its object) to decide; a pointer which it stored it knows, so no step reads the
object. -/
inductive Gmp
  | done
  | alloc (k : Addr → Gmp)
  | free (p : Option Addr) (k : Gmp)
  | realloc (p : Option Addr) (zero : Bool) (k : Option Addr → Gmp)
  | store (f : ℕ) (v : Option Addr) (k : Gmp)
  | setCache (c : List Addr) (k : Gmp)

/-- Running a GMP function with the memory functions of SLIP LU (`mp_set_memory_functions` in
SLIP_initialize.c lines 42-43). -/
def Gmp.run : Gmp → G → Out Unit
  | .done, g => .ok () g
  | .alloc k, g => (slip_gmp_allocate g).bind fun q g => (k q).run g
  | .free p k, g => (slip_gmp_free p g).bind fun _ g => k.run g
  | .realloc p z k, g => (slip_gmp_reallocate p z g).bind fun q g => (k q).run g
  | .store f v k, g => k.run { g with obj := g.obj.set f v }
  | .setCache c k, g => k.run { g with cache := c }

/-- `mpfr_free_cache`: every block in the cache is freed with `slip_gmp_free`. -/
def freeCache : List Addr → G → Out Unit
  | [], g => .ok () { g with cache := [] }
  | p :: c, g => (slip_gmp_free (some p) g).bind fun _ g => freeCache c g

/-- The loop of `slip_gmp_failure`: SLIP_gmp.c lines 343-346. -/
def freeList : List Addr → G → Out Unit
  | [], g => .ok () g
  | p :: l, g => (safeFree (some p) g).bind fun _ g => freeList l g

/-- `if (slip_gmp_list != NULL)` and that loop: SLIP_gmp.c lines 341-347. -/
def freeListed (g : G) : Out Unit :=
  match g.list with
  | none => .ok () g
  | some _ => freeList g.used g

/-- `slip_gmp_failure`: SLIP_gmp.c lines 327-349. -/
def slip_gmp_failure (g : G) : Out Unit :=
  (freeCache g.cache g).bind fun _ g => (freeListed g).bind fun _ g => slip_gmp_finalize g

/-- A wrapped call, SLIP_gmp.h lines 20-65: `SLIP_GMPZ_WRAPPER_START (x)` or one of its variants, the
GMP function `f` (which gets the pointers in the object), `SLIP_GMP_WRAPPER_FINISH`. `archived` is
false for `SLIP_GMP_WRAPPER_START` without an object (then the archive pointers are as the last call
left them: NULL). Returns the status and the pointers in the object. -/
def wrapped (archived : Bool) (x : List (Option Addr)) (f : Gmp) (g : G) :
    C ((Info × List (Option Addr)) × G) :=
  match f.run { g with arch := archived, obj := x, used := [] } with
  | .ub => .error .ub
  | .ok _ g => .ok ((.ok, g.obj), { g with arch := false, obj := [], used := [] })
  | .jump g =>
    match slip_gmp_failure g with
    | .ok _ g => .ok ((.outOfMemory, g.obj), { g with obj := [] })
    | _ => .error .ub

end Slip.Mem
