import Verif.Model.Memory
import Verif.SpecMem
import Mathlib.Algebra.BigOperators.Group.Multiset.Basic
import Mathlib.Algebra.BigOperators.Group.List.Basic

/-!
# Specification of the memory behaviour of the library's functions
-/

namespace Slip.Mem

/-- An initialisation function, called for an object with `w` pointers when MPFR's cache is `c`, uses
memory correctly. It does not take blocks out of the cache. -/
def Gmp.TidyInit (f : Gmp) (w : ℕ) (c : List Addr) : Prop :=
  f.Fair (fun _ old x c => (blks x).Nodup ∧ ∀ p ∈ old, p ∈ c)
    (fun own _ x c => own = blks x + (c : Multiset Addr))
    (c : Multiset Addr) (c : Multiset Addr) (nulls w) c

/-- The GMP functions use memory correctly; the choices that depend on values are arbitrary. -/
structure Env.Good (e : Env) : Prop where
  upd : ∀ k x (c : List Addr), (blks x + (c : Multiset Addr)).Nodup → (e.upd k x c).Tidy x c
  ini : ∀ k w (c : List Addr), (c : Multiset Addr).Nodup → (e.ini k w c).TidyInit w c

/-- The blocks that belong to an array of GMP or MPFR numbers. -/
def arrBlks (xs : List Obj) : Multiset Addr := (xs.map blks).sum

/-- The blocks that belong to a matrix: its shallow components do not. -/
def HMat.blocks (A : HMat) : Multiset Addr :=
  {A.hdr} + (if A.pShallow then 0 else blk A.p) + (if A.iShallow then 0 else blk A.i) +
    (if A.jShallow then 0 else blk A.j) + (if A.xShallow then 0 else blk A.x + arrBlks A.xs) +
    blks A.scale

/-- The blocks that belong to what a pointer to a matrix points to. -/
def matBlks (A : Option HMat) : Multiset Addr :=
  match A with
  | none => 0
  | some A => A.blocks

/-- The blocks that belong to what a pointer to an analysis points to. -/
def anaBlks (S : Option HAna) : Multiset Addr :=
  match S with
  | none => 0
  | some S => {S.hdr} + blk S.q

/-- The type is a value of the enum and the array of values has as many entries as `nzmax` says (if there
is an array, if it belongs to the matrix, and if the entries are GMP or MPFR numbers; otherwise there are
no such entries). -/
def HMat.Sized (A : HMat) : Prop :=
  A.xShallow = false → A.type.isBad = false ∧
    A.xs.length = if isMp A.type && A.x.isSome then A.nzmax else 0

/-- A pointer is NULL or points to a matrix with `HMat.Sized`. -/
def matSized (A : Option HMat) : Prop := ∀ B, A = some B → B.Sized

/-- Between two calls, memory consists of `base`, of the blocks `own`, and of those that the library
holds for itself (`sys`). -/
def Owns (base : Addr → Option ℕ) (own : Multiset Addr) (st : St) : Prop :=
  Idle st.g ∧ st.env.Good ∧ Acc base (own + sys st.g) st.g

/-- A matrix whose arrays belong to it and are those that its kind needs. -/
structure Built (κ : Kind) (τ : Ty) (m n : ℤ) (A : HMat) : Prop where
  kind : A.kind = κ
  type : A.type = τ
  rows : A.m = m
  cols : A.n = n
  deepP : A.pShallow = false
  deepI : A.iShallow = false
  deepJ : A.jShallow = false
  deepX : A.xShallow = false
  hasP : A.p.isSome = decide (κ = .csc)
  hasI : A.i.isSome = (decide (κ = .csc) || decide (κ = .triplet))
  hasJ : A.j.isSome = decide (κ = .triplet)
  hasX : A.x.isSome = true
  scale : A.scale.length = 2
  good : τ.isBad = false

/-- The number of entries of a new matrix. -/
def capacity (κ : Kind) (m n nzmax : ℤ) : ℕ := (max (if κ = .dense then m * n else nzmax) 1).toNat

/-- A new matrix as `SLIP_matrix_allocate` describes it: it has the arrays that its kind needs and
nothing else, room for the requested number of entries, no entries yet, and scale one. With `init`, each
GMP or MPFR entry is an initialised number; without, none has been initialised. -/
structure NewMatrix (κ : Kind) (τ : Ty) (m n nzmax : ℤ) (init : Bool) (A : HMat) : Prop extends
    Built κ τ m n A where
  cap : A.nzmax = capacity κ m n nzmax
  nz : A.nz = 0
  length : A.xs.length = if isMp τ then A.nzmax else 0
  wide : ∀ o ∈ A.xs, o.length = width τ
  blank : init = false → ∀ o ∈ A.xs, blks o = 0
  unit : A.sval = 1

/-- A new shallow matrix: it has no arrays, and will not own any. -/
structure NewShallow (κ : Kind) (τ : Ty) (m n nzmax : ℤ) (A : HMat) : Prop where
  kind : A.kind = κ
  type : A.type = τ
  rows : A.m = m
  cols : A.n = n
  cap : A.nzmax = capacity κ m n nzmax
  nz : A.nz = 0
  shallow : A.pShallow = true ∧ A.iShallow = true ∧ A.jShallow = true ∧ A.xShallow = true
  empty : A.p = none ∧ A.i = none ∧ A.j = none ∧ A.x = none
  scale : A.scale.length = 2
  unit : A.sval = 1

/-- An analysis for a matrix of dimension `m`: there is an order of the columns, and the estimates are at
least `m`. -/
structure HAna.Usable (m : ℕ) (S : HAna) : Prop where
  q : S.q.isSome
  filled : S.filled = true
  lnz : 0 < m → (m : ℤ) ≤ S.lnz
  unz : 0 < m → (m : ℤ) ≤ S.unz

/-- AMD gets no memory: the analysis with AMD of a matrix of dimension `n` returns SLIP_OK although a
request is refused, and the order of the columns has not been written. -/
def AmdRefused (n : ℕ) (st : St) : Prop :=
  ∃ S st1, luAnalyze .amd n st = .ok ((.ok, some S), st1) ∧ S.filled = false ∧ st.g.refused < st1.g.refused

/-- A conversion from floating-point to integer entries (the only one whose status is not reliable). -/
def fromFloat (type xtype : Ty) : Prop := type = .mpz ∧ (xtype = .mpfr ∨ xtype = .fp64)

/-- The cases in which `SLIP_matrix_copy` checks every status: the kind does not change (or changes from
CSC to triplet), and the conversion is not from floating-point to integer entries. -/
def Clean (kind : Kind) (type : Ty) (A : HMat) : Prop :=
  (A.kind = kind ∨ (kind = .triplet ∧ A.kind = .csc)) ∧ ¬ fromFloat type A.type

end Slip.Mem
