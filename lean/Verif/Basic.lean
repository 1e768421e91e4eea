/-!
# The execution monad, checked arrays and loops

Infrastructure shared by all modelled functions.  Nothing here models a particular C function;
it fixes what a C array access, a C `for` loop and a GMP integer operation mean in the model.

* `C α`     : a C computation, it returns a value, or stops with a `Fail`.
* `Arr α`   : a C array; an element that was never written is `none`.
* `rd`/`wr` : array read and write; out of bounds, or reading `none`, is undefined behaviour.
-/

namespace Slip

/-- `SLIP_info`: /repo/SLIP_LU/Include/SLIP_LU.h lines 175-184. -/
inductive Info
  | ok | outOfMemory | singular | incorrectInput | incorrect | panic
  deriving DecidableEq, Repr

/-- How a C computation can fail to return a value. -/
inductive Fail
  /-- undefined behaviour -/
  | ub
  /-- a `while` loop exhausted the fuel of the model (non-termination) -/
  | fuel
  /-- the function returned this error code (`SLIP_CHECK`) -/
  | ret (e : Info)
  deriving DecidableEq, Repr

/-- C computations. -/
abbrev C (α : Type) := Except Fail α

/-- C arrays; `none` = never written (malloc'ed memory, or an `mpz_t` not initialised). -/
abbrev Arr (α : Type) := List (Option α)

variable {α β σ : Type}

/-- The element at index `i` of an array, if it exists and has been written. -/
def get (a : Arr α) (i : Int) : Option α :=
  if i < 0 then none else (a[i.toNat]?).join

/-- Array read `a[i]`. -/
def rd (a : Arr α) (i : Int) : C α :=
  match get a i with
  | some v => .ok v
  | none => .error .ub

/-- The array with element `i` replaced (only meaningful when `i` is in bounds). -/
def upd (a : Arr α) (i : Int) (v : α) : Arr α := a.set i.toNat (some v)

/-- Array write `a[i] = v`. -/
def wr (a : Arr α) (i : Int) (v : α) : C (Arr α) :=
  if 0 ≤ i ∧ i < (a.length : Int) then .ok (upd a i v) else .error .ub

/-- `mpz_init2 (a[i])`: the element must exist and must not be initialised already
(initialising twice leaks memory, so the model treats it as a failure). The value becomes 0. -/
def zinit (a : Arr Int) (i : Int) : C (Arr Int) :=
  if 0 ≤ i ∧ i < (a.length : Int) ∧ get a i = none then .ok (upd a i 0) else .error .ub

/-- Any GMP operation that stores `v` in `a[i]`: the destination must be initialised. -/
def zset (a : Arr α) (i : Int) (v : α) : C (Arr α) := do
  let _ ← rd a i
  wr a i v

/-- `mpz_divexact`: defined only for a nonzero divisor that divides exactly. -/
def divexact (a b : Int) : C Int :=
  if b = 0 ∨ ¬ b ∣ a then .error .ub else .ok (a / b)

/-- `malloc`: `n` elements, none written. -/
def malloc (α : Type) (n : Int) : Arr α := List.replicate n.toNat none

/-- `calloc` of integers: `n` elements, all zero. -/
def calloc (n : Int) : Arr Int := List.replicate n.toNat (some 0)

/-- `for (i = lo ; i < lo + cnt ; i++) s = f (i, s)`. -/
def forCnt : Nat → Int → σ → (Int → σ → C σ) → C σ
  | 0, _, s, _ => .ok s
  | m + 1, lo, s, f => do
    let s ← f lo s
    forCnt m (lo + 1) s f

/-- `for (i = lo ; i < hi ; i++) s = f (i, s)`. -/
def forRange (lo hi : Int) (s : σ) (f : Int → σ → C σ) : C σ :=
  forCnt (hi - lo).toNat lo s f

/-- `for (i = hi-1 ; i >= lo ; i--) s = f (i, s)`, `cnt = hi - lo` iterations. -/
def forDownCnt : Nat → Int → σ → (Int → σ → C σ) → C σ
  | 0, _, s, _ => .ok s
  | m + 1, lo, s, f => do
    let s ← f (lo + m) s
    forDownCnt m lo s f

/-- `for (i = hi-1 ; i >= lo ; i--) s = f (i, s)`. -/
def forDown (lo hi : Int) (s : σ) (f : Int → σ → C σ) : C σ :=
  forDownCnt (hi - lo).toNat lo s f

/-! ## Reasoning rules -/

/-- `wp m Q E`: if `m` returns `a` then `Q a`, if it fails with `e` then `E e`. -/
def wp (m : C α) (Q : α → Prop) (E : Fail → Prop) : Prop :=
  match m with
  | .ok a => Q a
  | .error e => E e

/-- The failure postcondition of code that must not fail. -/
abbrev noFail : Fail → Prop := fun _ => False

@[simp] theorem wp_ok (a : α) (Q : α → Prop) (E) : wp (.ok a) Q E ↔ Q a := Iff.rfl
@[simp] theorem wp_error (e : Fail) (Q : α → Prop) (E) :
    wp (.error e : C α) Q E ↔ E e := Iff.rfl
@[simp] theorem wp_pure (a : α) (Q : α → Prop) (E) : wp (pure a) Q E ↔ Q a := Iff.rfl

theorem wp_bind (m : C α) (f : α → C β) (Q : β → Prop) (E) :
    wp (m >>= f) Q E ↔ wp m (fun a => wp (f a) Q E) E := by
  cases m <;> rfl

@[simp] theorem ok_bind (a : α) (f : α → C β) : ((Except.ok a : C α) >>= f) = f a := rfl
@[simp] theorem pure_bind' (a : α) (f : α → C β) : ((pure a : C α) >>= f) = f a := rfl
@[simp] theorem error_bind (e : Fail) (f : α → C β) :
    ((Except.error e : C α) >>= f) = .error e := rfl

theorem wp_mono {m : C α} {Q Q' : α → Prop} {E E' : Fail → Prop} (h : wp m Q E)
    (hQ : ∀ a, Q a → Q' a) (hE : ∀ e, E e → E' e) : wp m Q' E' := by
  cases m
  · exact hE _ h
  · exact hQ _ h

theorem wp_post {m : C α} {Q Q' : α → Prop} {E : Fail → Prop} (h : wp m Q E)
    (hQ : ∀ a, Q a → Q' a) : wp m Q' E := wp_mono h hQ fun _ => id

theorem wp_noFail {m : C α} {Q : α → Prop} (h : wp m Q noFail) : ∃ a, m = .ok a ∧ Q a := by
  cases m
  · exact h.elim
  · exact ⟨_, rfl, h⟩

theorem wp_of_ok {m : C α} {Q : α → Prop} {E} {a : α} (h : m = .ok a) (hQ : Q a) : wp m Q E := by
  subst h; exact hQ

theorem wp_bind_ok {m : C α} {f : α → C β} {Q : β → Prop} {E} {P : α → Prop}
    (h : wp m P E) (hf : ∀ a, P a → wp (f a) Q E) : wp (m >>= f) Q E := by
  rw [wp_bind]; exact wp_post h hf

theorem wp_conj {m : C α} {Q Q' : α → Prop} {E E' : Fail → Prop} (h : wp m Q E) (h' : wp m Q' E') :
    wp m (fun a => Q a ∧ Q' a) (fun e => E e ∧ E' e) := by
  cases m
  · exact ⟨h, h'⟩
  · exact ⟨h, h'⟩

/-! ### arrays -/

theorem rd_eq {a : Arr α} {i : Int} {v : α} (h : get a i = some v) : rd a i = .ok v := by
  simp [rd, h]

theorem rd_ok {a : Arr α} {i : Int} {v : α} (h : rd a i = .ok v) : get a i = some v := by
  unfold rd at h
  split at h
  · simp_all
  · cases h

theorem get_bounds {a : Arr α} {i : Int} {v : α} (h : get a i = some v) :
    0 ≤ i ∧ i < (a.length : Int) := by
  unfold get at h
  split at h
  · cases h
  · rename_i h0
    refine ⟨by omega, ?_⟩
    by_cases hl : i.toNat < a.length
    · omega
    · rw [List.getElem?_eq_none (by omega)] at h; cases h

theorem wr_eq {a : Arr α} {i : Int} {v : α} (h0 : 0 ≤ i) (h1 : i < (a.length : Int)) :
    wr a i v = .ok (upd a i v) := by simp [wr, h0, h1]

theorem zset_eq {a : Arr α} {i : Int} {v w : α} (h : get a i = some w) :
    zset a i v = .ok (upd a i v) := by
  have hb := get_bounds h
  simp [zset, rd_eq h, wr_eq hb.1 hb.2]

theorem zinit_eq {a : Arr Int} {i : Int} (h0 : 0 ≤ i) (h1 : i < (a.length : Int))
    (h : get a i = none) : zinit a i = .ok (upd a i 0) := by simp [zinit, h0, h1, h]

@[simp] theorem length_upd (a : Arr α) (i : Int) (v : α) : (upd a i v).length = a.length := by
  simp [upd]

theorem get_upd {a : Arr α} {i : Int} (h0 : 0 ≤ i) (h1 : i < (a.length : Int)) (v : α) (j : Int) :
    get (upd a i v) j = if j = i then some v else get a j := by
  unfold get upd
  by_cases hj : j < 0
  · rw [if_pos hj, if_neg (by omega), if_pos hj]
  · rw [if_neg hj, if_neg hj, List.getElem?_set]
    by_cases hij : j = i
    · subst hij
      have : j.toNat < a.length := by omega
      simp [this]
    · have : i.toNat ≠ j.toNat := by omega
      simp [this, hij]

theorem get_upd_self {a : Arr α} {i : Int} (h0 : 0 ≤ i) (h1 : i < (a.length : Int)) (v : α) :
    get (upd a i v) i = some v := by simp [get_upd h0 h1]

theorem get_upd_ne {a : Arr α} {i j : Int} (h0 : 0 ≤ i) (h1 : i < (a.length : Int)) (v : α)
    (h : j ≠ i) : get (upd a i v) j = get a j := by simp [get_upd h0 h1, h]

theorem get_neg {a : Arr α} {i : Int} (h : i < 0) : get a i = none := by simp [get, h]

theorem get_ge {a : Arr α} {i : Int} (h : (a.length : Int) ≤ i) : get a i = none := by
  cases hh : get a i with
  | none => rfl
  | some v => have := get_bounds hh; omega

theorem divexact_eq {a b q : Int} (hb : b ≠ 0) (h : a = q * b) : divexact a b = .ok q := by
  subst h
  unfold divexact
  rw [if_neg]
  · rw [Int.mul_ediv_cancel _ hb]
  · intro h
    rcases h with h | h
    · exact hb h
    · exact h (Int.dvd_mul_left _ _)

@[simp] theorem length_malloc (n : Int) : (malloc α n).length = n.toNat := by simp [malloc]
@[simp] theorem length_calloc (n : Int) : (calloc n).length = n.toNat := by simp [calloc]

theorem get_calloc {n i : Int} (h0 : 0 ≤ i) (h1 : i < n) : get (calloc n) i = some 0 := by
  unfold get calloc
  rw [if_neg (by omega), List.getElem?_replicate, if_pos (by omega)]; rfl

theorem get_malloc {n i : Int} : get (malloc α n) i = none := by
  unfold get malloc
  split
  · rfl
  · rw [List.getElem?_replicate]; split <;> rfl

/-- Arrays are determined by their length and elements. -/
theorem arr_ext {a b : Arr α} (hl : a.length = b.length)
    (h : ∀ i : Int, get a i = get b i) : a = b := by
  apply List.ext_getElem hl
  intro i h1 h2
  have := h i
  unfold get at this
  rw [if_neg (by omega), if_neg (by omega)] at this
  simpa [h1, h2] using this

/-! ### loops -/

theorem wp_forCnt {f : Int → σ → C σ} {E : Fail → Prop} (Inv : Int → σ → Prop) :
    ∀ (m : Nat) (lo : Int) (s : σ), Inv lo s →
      (∀ i s, lo ≤ i → i < lo + m → Inv i s → wp (f i s) (Inv (i + 1)) E) →
      wp (forCnt m lo s f) (Inv (lo + m)) E
  | 0, lo, s, h0, _ => by simpa [forCnt] using h0
  | m + 1, lo, s, h0, hstep => by
    unfold forCnt
    refine wp_bind_ok (hstep lo s (by omega) (by omega) h0) fun s' hs' => ?_
    have := wp_forCnt Inv m (lo + 1) s' hs' fun i s h1 h2 h3 =>
      hstep i s (by omega) (by omega) h3
    have e : lo + 1 + (m : Int) = lo + ((m + 1 : Nat) : Int) := by omega
    rwa [e] at this

/-- The invariant rule for `for` loops. -/
theorem wp_forRange {f : Int → σ → C σ} {E : Fail → Prop} (Inv : Int → σ → Prop)
    {lo hi : Int} {s : σ} (hle : lo ≤ hi) (h0 : Inv lo s)
    (hstep : ∀ i s, lo ≤ i → i < hi → Inv i s → wp (f i s) (Inv (i + 1)) E) :
    wp (forRange lo hi s f) (Inv hi) E := by
  unfold forRange
  have := wp_forCnt (f := f) (E := E) Inv (hi - lo).toNat lo s h0 fun i s h1 h2 h3 =>
    hstep i s h1 (by omega) h3
  have e : lo + ((hi - lo).toNat : Int) = hi := by omega
  rwa [e] at this

theorem forRange_empty {f : Int → σ → C σ} {lo hi : Int} {s : σ} (h : hi ≤ lo) :
    forRange lo hi s f = .ok s := by
  unfold forRange
  have : (hi - lo).toNat = 0 := by omega
  rw [this]; rfl

theorem wp_forDownCnt {f : Int → σ → C σ} {E : Fail → Prop} (Inv : Int → σ → Prop) (lo : Int) :
    ∀ (m : Nat) (s : σ), Inv (lo + m) s →
      (∀ i s, lo ≤ i → i < lo + m → Inv (i + 1) s → wp (f i s) (Inv i) E) →
      wp (forDownCnt m lo s f) (Inv lo) E
  | 0, s, h0, _ => by simpa [forDownCnt] using h0
  | m + 1, s, h0, hstep => by
    unfold forDownCnt
    have e : lo + ((m + 1 : Nat) : Int) = lo + m + 1 := by omega
    rw [e] at h0
    refine wp_bind_ok (hstep (lo + m) s (by omega) (by omega) h0) fun s' hs' => ?_
    exact wp_forDownCnt Inv lo m s' hs' fun i s h1 h2 h3 => hstep i s h1 (by omega) h3

/-- The invariant rule for descending `for` loops. -/
theorem wp_forDown {f : Int → σ → C σ} {E : Fail → Prop} (Inv : Int → σ → Prop)
    {lo hi : Int} {s : σ} (hle : lo ≤ hi) (h0 : Inv hi s)
    (hstep : ∀ i s, lo ≤ i → i < hi → Inv (i + 1) s → wp (f i s) (Inv i) E) :
    wp (forDown lo hi s f) (Inv lo) E := by
  unfold forDown
  have e : lo + ((hi - lo).toNat : Int) = hi := by omega
  exact wp_forDownCnt (f := f) (E := E) Inv lo (hi - lo).toNat s (by rw [e]; exact h0)
    fun i s h1 h2 h3 => hstep i s h1 (by omega) h3

end Slip
