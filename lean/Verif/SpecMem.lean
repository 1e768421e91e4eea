import Verif.Model.Gmp

/-!
# Specification of memory properties: who owns which block
-/

namespace Slip.Mem

/-- Memory consists of the blocks `own` and, apart from them, of exactly the blocks in `base` (the
same blocks, not just blocks at the same addresses). -/
def Acc (base : Addr → Option ℕ) (own : Multiset Addr) (g : G) : Prop :=
  own.Nodup ∧ (∀ p ∈ own, (g.live p).isSome ∧ base p = none) ∧ ∀ p, p ∉ own → g.live p = base p

/-- A pointer as a collection of blocks: nothing if it is NULL. -/
def blk (p : Option Addr) : Multiset Addr := ((p.toList : List Addr) : Multiset Addr)

/-- The blocks an object points to. -/
def blks (x : List (Option Addr)) : Multiset Addr := ((x.reduceOption : List Addr) : Multiset Addr)

/-- The object after the block `p` was removed from it. -/
def nulled (p : Addr) (x : List (Option Addr)) : List (Option Addr) :=
  x.map fun f => if f = some p then none else f

/-- A condition on the state of a GMP function: the blocks it owns (its object's blocks, the cache,
blocks it allocated), those among them which it owned when it was called, the pointers in its object,
the cache. -/
abbrev Cond := Multiset Addr → Multiset Addr → List (Option Addr) → List Addr → Prop

/-- The GMP function uses memory correctly, whatever addresses it gets: it frees and reallocates only
blocks it owns, stores into its object only blocks it owns, and its cache consists of blocks it owns
whenever it requests memory. Moreover, `A` holds whenever it requests memory and `Q` when it returns. -/
def Gmp.Fair (A Q : Cond) : Gmp → Cond
  | .done => fun own old x c => (c : Multiset Addr) ≤ own ∧ Q own old x c
  | .alloc k => fun own old x c => (c : Multiset Addr) ≤ own ∧ A own old x c ∧
      ∀ q, q ∉ own → (k q).Fair A Q (q ::ₘ own) old x c
  | .free none k => fun own old x c => k.Fair A Q own old x c
  | .free (some p) k => fun own old x c => p ∈ own ∧
      k.Fair A Q (own.erase p) (old.erase p) (nulled p x) c
  | .realloc none _ k => fun own old x c => (c : Multiset Addr) ≤ own ∧ A own old x c ∧
      ∀ q, q ∉ own → (k (some q)).Fair A Q (q ::ₘ own) old x c
  | .realloc (some p) true k => fun own old x c => p ∈ own ∧
      (k none).Fair A Q (own.erase p) (old.erase p) (nulled p x) c
  | .realloc (some p) false k => fun own old x c => p ∈ own ∧
      (c : Multiset Addr) ≤ own ∧ A own old x c ∧
      ∀ q, q ∉ own → (k (some q)).Fair A Q ((q ::ₘ own).erase p) (old.erase p) (nulled p x) c
  | .store f v k => fun own old x c => (∀ p, v = some p → p ∈ own) ∧
      k.Fair A Q own old (x.set f v) c
  | .setCache c' k => fun own old x _ => k.Fair A Q own old x c'

/-- The state between two calls: the library is initialised, a list has room for entries, and
serial numbers are used only once. -/
def Idle (g : G) : Prop :=
  g.init = true ∧ (g.list.isSome → 0 < g.nlist) ∧ ∀ p s, g.live p = some s → s < g.gen

/-- The GMP function, called for the object `x` when MPFR's cache is `c`, uses memory correctly and
* when it requests memory, each block that it owned when it was called is in the object or in the cache
  (unless it has been freed);
* when it returns, each block that it owns is in the object or in the cache. -/
def Gmp.Tidy (f : Gmp) (x : List (Option Addr)) (c : List Addr) : Prop :=
  f.Fair (fun _ old x c => (blks x).Nodup ∧ ∀ p ∈ old, some p ∈ x ∨ p ∈ c)
    (fun own _ x c => own = blks x + (c : Multiset Addr))
    (blks x + (c : Multiset Addr)) (blks x + (c : Multiset Addr)) x c

/-- The blocks that the library holds between two calls for its own use: MPFR's cache and
`slip_gmp_list`. -/
def sys (g : G) : Multiset Addr := ((g.cache : List Addr) : Multiset Addr) + blk g.list

end Slip.Mem
