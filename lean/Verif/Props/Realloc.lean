import Verif.Model.Realloc
import Verif.Props.Round
import Mathlib.Tactic.Positivity

/-!
# Property C29: `SLIP_realloc`
-/

namespace Slip.Mem

/-! ## The overflow test -/

/-- Rounding to 53 bits changes a number by at most one part in 2^53. -/
theorem dbl_err (q : ℚ) : |dbl q - q| ≤ |q| / 2 ^ 53 := by
  unfold dbl roundPrec
  split
  · rename_i h; rw [h]; simp
  rename_i hq
  obtain ⟨h1, -⟩ := log_bounds hq
  dsimp only
  set L := Int.log 2 |q|
  have hu : (0 : ℚ) < (2 : ℚ) ^ (L + 1 - 53) := zpow_pos (by norm_num) _
  set u := (2 : ℚ) ^ (L + 1 - 53) with hu_def
  have hL : u = 2 * (2 : ℚ) ^ L / 2 ^ 53 := by
    rw [hu_def, zpow_sub₀ (by norm_num), zpow_add₀ (by norm_num)]
    norm_num
    ring
  -- distance to the nearest integer is at most one half
  have near : |(roundInt 0 (q / u) : ℚ) - q / u| ≤ 1 / 2 := by
    rcases le_or_gt (q / u - ⌊q / u⌋) (1 / 2) with h | h
    · refine (roundInt_nearest rfl (q / u) ⌊q / u⌋).trans ?_
      have := Int.floor_le (q / u)
      rw [abs_of_nonpos (by linarith)]
      linarith
    · refine (roundInt_nearest rfl (q / u) (⌊q / u⌋ + 1)).trans ?_
      have := Int.lt_floor_add_one (q / u)
      push_cast
      rw [abs_of_nonneg (by linarith)]
      linarith
  have e : (roundInt 0 (q / u) : ℚ) * u - q = ((roundInt 0 (q / u) : ℚ) - q / u) * u := by
    rw [sub_mul, div_mul_cancel₀ _ hu.ne']
  rw [e, abs_mul, abs_of_pos hu]
  calc _ ≤ 1 / 2 * u := mul_le_mul_of_nonneg_right near hu.le
    _ = (2 : ℚ) ^ L / 2 ^ 53 := by rw [hL]; ring
    _ ≤ |q| / 2 ^ 53 := by gcongr

theorem dbl_bounds {q : ℚ} (hq : 0 ≤ q) : q * (1 - 1 / 2 ^ 53) ≤ dbl q ∧ dbl q ≤ q * (1 + 1 / 2 ^ 53) := by
  have h := abs_le.1 (dbl_err q)
  rw [abs_of_nonneg hq] at h
  constructor <;> linarith [h.1, h.2]

/-- C29: if the test made with `double` arithmetic does not report an overflow, then there is none: the
size requested from the C library is the true product. -/
theorem C29_overflow_test_sound {n s : ℕ} (h : overflow n s = false) : n * s < 2 ^ 64 ∧ sizeT n s = n * s := by
  have key : n * s < 2 ^ 64 := by
    by_contra hge
    simp only [overflow, decide_eq_false_iff_not, not_not] at h
    have hdm := Nat.div_add_mod (n * s) (2 ^ 64)
    have hlt : sizeT n s < 2 ^ 64 := Nat.mod_lt _ (by norm_num)
    change 2 ^ 64 * (n * s / 2 ^ 64) + sizeT n s = n * s at hdm
    have hk : 1 ≤ n * s / 2 ^ 64 := (Nat.one_le_div_iff (by norm_num)).2 (by omega)
    have hsum : 2 ^ 64 + sizeT n s ≤ n * s := by nlinarith
    have hsumq : (2 : ℚ) ^ 64 + (sizeT n s : ℚ) ≤ (n : ℚ) * s := by exact_mod_cast hsum
    have hltq : (sizeT n s : ℚ) < 2 ^ 64 := by exact_mod_cast hlt
    have b1 := (dbl_bounds (Nat.cast_nonneg (α := ℚ) n)).1
    have b2 := (dbl_bounds (Nat.cast_nonneg (α := ℚ) s)).1
    have b3 := (dbl_bounds (Nat.cast_nonneg (α := ℚ) (sizeT n s))).2
    have n0 : (0 : ℚ) ≤ n := Nat.cast_nonneg n
    have s0 : (0 : ℚ) ≤ s := Nat.cast_nonneg s
    have z0 : (0 : ℚ) ≤ sizeT n s := Nat.cast_nonneg _
    have c0 : (0 : ℚ) < 1 - 1 / 2 ^ 53 := by norm_num
    have b4 : ((n : ℚ) * s) * ((1 - 1 / 2 ^ 53) * (1 - 1 / 2 ^ 53)) ≤ dbl n * dbl s := by
      calc _ = ((n : ℚ) * (1 - 1 / 2 ^ 53)) * (s * (1 - 1 / 2 ^ 53)) := by ring
        _ ≤ _ := mul_le_mul b1 b2 (by positivity) (le_trans (by positivity) b1)
    have b5 := (dbl_bounds (le_trans (by positivity) b4)).1
    have b6 : ((n : ℚ) * s) * ((1 - 1 / 2 ^ 53) * (1 - 1 / 2 ^ 53)) * (1 - 1 / 2 ^ 53) ≤
        (sizeT n s : ℚ) * (1 + 1 / 2 ^ 53) :=
      (mul_le_mul_of_nonneg_right b4 c0.le).trans (b5.trans (h ▸ b3))
    have b7 : ((2 : ℚ) ^ 64 + sizeT n s) * ((1 - 1 / 2 ^ 53) * (1 - 1 / 2 ^ 53)) * (1 - 1 / 2 ^ 53) ≤
        (sizeT n s : ℚ) * (1 + 1 / 2 ^ 53) := by
      refine le_trans ?_ b6
      gcongr
    -- the small relative errors cannot make up for 2^64
    nlinarith
  exact ⟨key, Nat.mod_eq_of_lt key⟩

example : overflow 5 16 = false ∧ overflow (2 ^ 60) 16 = true := by decide +kernel

/-! ## `SLIP_realloc` -/

/-- What a C library may answer to a request: NULL, or an address that is not in use (other than by the
block that is being moved). -/
def Fresh (h : Bytes) (p reply : Option Ptr) : Prop :=
  ∀ q, reply = some q → h q = none ∨ p = some q

/-- C29: for a live block `p` of `nold` items (sizes below 1 count as 1), `SLIP_realloc` has no
undefined behaviour, and
* if it reports failure, it returns the old pointer and memory is unchanged;
* if it reports success, the pointer returned is a live block of at least the size requested, whose
  first `min (nold, nnew)` items are those of the old block; the old block is gone if it was moved;
* no other block is affected; the only way to fail is that the request is refused or its size
  overflows. -/
theorem C29_realloc {h : Bytes} {nnew nold : ℤ} {s : ℕ} {p : Ptr} {old : List (Option ℕ)}
    {reply : Option Ptr} (hnew : nnew < 2 ^ 63) (hnew0 : 0 ≤ nnew) (hold : nold < 2 ^ 63) (hold0 : 0 ≤ nold)
    (hs : 1 ≤ s) (hp : h p = some old) (hlen : old.length = (max nold 1).toNat * s)
    (hf : Fresh h (some p) reply) :
    ∃ pnew ok h', SLIP_realloc true h nnew nold s (some p) reply = .ok (pnew, ok, h') ∧
      (ok = false → pnew = some p ∧ h' = h ∧
        (reply = none ∧ nold < nnew ∨ overflow (max nnew 1).toNat s = true)) ∧
      (ok = true → ∃ q b, pnew = some q ∧ h' q = some b ∧ (max nnew 1).toNat * s ≤ b.length ∧
        b.take ((min (max nold 1) (max nnew 1)).toNat * s) =
          old.take ((min (max nold 1) (max nnew 1)).toNat * s) ∧
        (q ≠ p → h' p = none) ∧ ∀ a, a ≠ p → a ≠ q → h' a = h a) := by
  have e1 : toSize nnew = nnew.toNat := by
    unfold toSize; rw [Int.emod_eq_of_lt hnew0 (by omega)]
  have e2 : toSize nold = nold.toNat := by
    unfold toSize; rw [Int.emod_eq_of_lt hold0 (by omega)]
  have e3 : (if nnew.toNat < 1 then 1 else nnew.toNat) = (max nnew 1).toNat := by split <;> omega
  have e4 : (if nold.toNat < 1 then 1 else nold.toNat) = (max nold 1).toNat := by split <;> omega
  unfold SLIP_realloc SuiteSparse_realloc
  simp only [Bool.not_true, Bool.false_eq_true, if_false, e1, e2, e3, e4]
  rw [if_neg (by omega : ¬ s < 1)]
  by_cases ho : overflow (max nnew 1).toNat s = true
  · rw [if_pos ho]
    exact ⟨_, _, _, rfl, fun _ => ⟨rfl, rfl, Or.inr ho⟩, nofun⟩
  rw [if_neg ho]
  obtain ⟨-, hsz⟩ := C29_overflow_test_sound (by simpa using ho)
  by_cases heq : (max nold 1).toNat = (max nnew 1).toNat
  · rw [if_pos heq]
    refine ⟨_, _, _, rfl, nofun, fun _ => ⟨p, old, rfl, hp, by rw [hlen, heq], rfl,
      fun h => absurd rfl h, fun _ _ _ => rfl⟩⟩
  rw [if_neg heq, hsz]
  unfold cRealloc
  rw [hp]
  cases reply with
  | none =>
    dsimp only
    rw [ok_bind]
    dsimp only
    split
    · rename_i hlt
      refine ⟨_, _, _, rfl, nofun, fun _ => ⟨p, old, rfl, hp, ?_, rfl,
        fun h => absurd rfl h, fun _ _ _ => rfl⟩⟩
      rw [hlen]
      exact Nat.mul_le_mul_right _ hlt.le
    · exact ⟨_, _, _, rfl, fun _ => ⟨rfl, rfl, Or.inl ⟨rfl, by omega⟩⟩, nofun⟩
  | some q =>
    dsimp only
    rw [ok_bind]
    refine ⟨_, _, _, rfl, nofun, fun _ => ⟨q, _, rfl, if_pos rfl, ?_, ?_,
      fun h => ?_, fun a h1 h2 => ?_⟩⟩
    · simp only [List.length_take, List.length_append, List.length_replicate]
      omega
    · rw [List.take_take, List.take_append_of_le_length]
      · congr 1
        have : (min (max nold 1) (max nnew 1)).toNat ≤ (max nnew 1).toNat := by omega
        have := Nat.mul_le_mul_right s this
        omega
      · rw [hlen]
        have h1 : (min (max nold 1) (max nnew 1)).toNat ≤ (max nold 1).toNat := by omega
        have := Nat.mul_le_mul_right s h1
        omega
    · dsimp only; rw [if_neg (Ne.symm h), if_pos rfl]
    · dsimp only; rw [if_neg h2, if_neg h1]

/-- C29: with `p` NULL, `SLIP_realloc` allocates: it reports success exactly if it returns a block,
which then has the size requested; on failure nothing changes. -/
theorem C29_realloc_null {h : Bytes} {nnew nold : ℤ} {s : ℕ} {reply : Option Ptr}
    (hnew : nnew < 2 ^ 63) (hnew0 : 0 ≤ nnew) (hs : 1 ≤ s) :
    ∃ pnew ok h', SLIP_realloc true h nnew nold s none reply = .ok (pnew, ok, h') ∧
      (ok = false → pnew = none ∧ h' = h) ∧
      (ok = true → ∃ q b, pnew = some q ∧ reply = some q ∧ h' q = some b ∧
        b.length = (max nnew 1).toNat * s ∧ ∀ a, a ≠ q → h' a = h a) := by
  have e1 : toSize nnew = nnew.toNat := by
    unfold toSize; rw [Int.emod_eq_of_lt hnew0 (by omega)]
  have e3 : (if nnew.toNat < 1 then 1 else nnew.toNat) = (max nnew 1).toNat := by split <;> omega
  have e5 : (if (max nnew 1).toNat < 1 then 1 else (max nnew 1).toNat) = (max nnew 1).toNat :=
    if_neg (by omega)
  unfold SLIP_realloc SuiteSparse_realloc SuiteSparse_malloc
  simp only [Bool.not_true, Bool.false_eq_true, if_false, e1, e3, e5]
  rw [if_neg (by omega : ¬ s < 1)]
  by_cases ho : overflow (max nnew 1).toNat s = true
  · rw [if_pos ho]
    exact ⟨_, _, _, rfl, fun _ => ⟨rfl, rfl⟩, nofun⟩
  rw [if_neg ho, if_neg (by omega : ¬ s < 1), if_neg ho]
  obtain ⟨-, hsz⟩ := C29_overflow_test_sound (by simpa using ho)
  unfold cMalloc
  cases reply with
  | none => exact ⟨_, _, _, rfl, fun _ => ⟨rfl, rfl⟩, nofun⟩
  | some q =>
    refine ⟨_, _, _, rfl, nofun, fun _ => ⟨q, _, rfl, rfl, if_pos rfl, ?_, fun a ha => if_neg ha⟩⟩
    rw [List.length_replicate, hsz]

/-- C29: without initialisation `SLIP_realloc` does nothing and reports failure. -/
theorem C29_realloc_uninitialised (h : Bytes) (nnew nold : ℤ) (s : ℕ) (p reply : Option Ptr) :
    SLIP_realloc false h nnew nold s p reply = .ok (p, false, h) := rfl

/-- C29: `SLIP_malloc (size)` returns NULL without any effect, or a new block of `size` bytes (at least one),
none of them initialised; no other block is affected. It does not fail unless the C library refuses or the size
is not a `size_t`. -/
theorem C29_malloc {h : Bytes} {size : ℕ} {reply : Option Ptr} :
    (SLIP_malloc true h size reply).1 = none ∧ (SLIP_malloc true h size reply).2 = h ∧
        (reply = none ∨ overflow 1 (max size 1) = true) ∨
      ∃ q, reply = some q ∧ (SLIP_malloc true h size reply).1 = some q ∧
        (SLIP_malloc true h size reply).2 q = some (List.replicate (max size 1) none) ∧
        ∀ a, a ≠ q → (SLIP_malloc true h size reply).2 a = h a := by
  have e : (if size < 1 then 1 else size) = max size 1 := by split <;> omega
  unfold SLIP_malloc SuiteSparse_malloc
  simp only [Bool.not_true, Bool.false_eq_true, if_false, Nat.lt_irrefl, e]
  by_cases ho : overflow 1 (max size 1) = true
  · rw [if_pos ho]
    exact Or.inl ⟨rfl, rfl, Or.inr ho⟩
  · rw [if_neg ho]
    obtain ⟨-, hsz⟩ := C29_overflow_test_sound (by simpa using ho)
    unfold cMalloc
    cases reply with
    | none => exact Or.inl ⟨rfl, rfl, Or.inl rfl⟩
    | some q =>
      refine Or.inr ⟨q, rfl, rfl, ?_, fun a ha => if_neg ha⟩
      dsimp only
      rw [if_pos rfl, hsz, one_mul]

/-- C29: `SLIP_calloc (n, size)` returns NULL without any effect, or a new block of `n * size` bytes (each factor
counts as at least one) that are all zero; no other block is affected. If the product is not a `size_t` it
returns NULL. -/
theorem C29_calloc {h : Bytes} {n size : ℕ} {reply : Option Ptr} :
    (SLIP_calloc true h n size reply).1 = none ∧ (SLIP_calloc true h n size reply).2 = h ∧
        (reply = none ∨ overflow (max n 1) (max size 1) = true) ∨
      ∃ q, reply = some q ∧ (SLIP_calloc true h n size reply).1 = some q ∧
        max n 1 * max size 1 < 2 ^ 64 ∧
        (SLIP_calloc true h n size reply).2 q = some (List.replicate (max n 1 * max size 1) (some 0)) ∧
        ∀ a, a ≠ q → (SLIP_calloc true h n size reply).2 a = h a := by
  have e : ∀ k : ℕ, (if k < 1 then 1 else k) = max k 1 := by intro k; split <;> omega
  unfold SLIP_calloc SuiteSparse_calloc
  simp only [Bool.not_true, Bool.false_eq_true, if_false, e]
  by_cases ho : overflow (max n 1) (max size 1) = true
  · rw [if_pos ho]
    exact Or.inl ⟨rfl, rfl, Or.inr ho⟩
  · rw [if_neg ho]
    obtain ⟨hlt, -⟩ := C29_overflow_test_sound (by simpa using ho)
    unfold cCalloc
    cases reply with
    | none => exact Or.inl ⟨rfl, rfl, Or.inl rfl⟩
    | some q => exact Or.inr ⟨q, rfl, rfl, hlt, if_pos rfl, fun a ha => if_neg ha⟩

/-- C29: `SLIP_free` of a live block releases this block and no other; of NULL it has no effect. -/
theorem C29_free {h : Bytes} {p : Option Ptr} (hp : ∀ a ∈ p, (h a).isSome) :
    ∃ h', SLIP_free true h p = .ok h' ∧ ∀ a, h' a = if p = some a then none else h a := by
  cases p with
  | none => exact ⟨h, rfl, fun a => by simp⟩
  | some p =>
    obtain ⟨b, hb⟩ := Option.isSome_iff_exists.mp (hp p rfl)
    refine ⟨fun a => if a = p then none else h a, ?_, fun a => ?_⟩
    · show cFree h p = _
      unfold cFree
      rw [hb]
    · by_cases ha : a = p
      · simp [ha]
      · simp [ha, Ne.symm ha]

/-- Eight items of 4 bytes, zeroed, then released. -/
example : ∃ h h' : Bytes, SLIP_calloc true (fun _ => none) 8 4 (some 3) = (some 3, h) ∧
    h 3 = some (List.replicate 32 (some 0)) ∧ SLIP_free true h (some 3) = .ok h' ∧ h' 3 = none := by
  have ho : overflow 8 4 = false := by decide +kernel
  rcases C29_calloc (h := fun _ => none) (n := 8) (size := 4) (reply := some 3) with h | ⟨q, e0, e1, -, e2, -⟩
  · exfalso
    rcases h.2.2 with h | h
    · cases h
    · rw [show max 8 1 = 8 from rfl, show max 4 1 = 4 from rfl, ho] at h; cases h
  · cases e0
    obtain ⟨h', e3, e4⟩ := C29_free (h := (SLIP_calloc true (fun _ => none) 8 4 (some 3)).2) (p := some 3)
      fun a ha => by cases ha; rw [e2]; rfl
    exact ⟨_, h', Prod.ext e1 rfl, e2, e3, by rw [e4]; exact if_pos rfl⟩

/-- A block of 3 items of 2 bytes is grown to 5 items and moved: the hypotheses of `C29_realloc` are
met. -/
example : ∃ h : Bytes, h 7 = some [some 1, some 2, some 3, some 4, some 5, some 6] ∧
    Fresh h (some 7) (some 9) ∧
    ∃ h', SLIP_realloc true h 5 3 2 (some 7) (some 9) = .ok (some 9, true, h') ∧ h' 7 = none ∧
      h' 9 = some [some 1, some 2, some 3, some 4, some 5, some 6, none, none, none, none] := by
  refine ⟨fun a => if a = 7 then some [some 1, some 2, some 3, some 4, some 5, some 6] else none,
    rfl, ?_, ?_⟩
  · intro q hq
    cases hq
    exact Or.inl rfl
  · have e : overflow 5 2 = false := by decide +kernel
    have e1 : toSize 5 = 5 := rfl
    have e2 : toSize 3 = 3 := rfl
    refine ⟨fun a => if a = 9 then
        some [some 1, some 2, some 3, some 4, some 5, some 6, none, none, none, none] else none,
      ?_, rfl, rfl⟩
    unfold SLIP_realloc SuiteSparse_realloc
    simp [e, e1, e2, cRealloc, ok_bind, sizeT]
    funext a
    split
    · rfl
    · split <;> rfl

end Slip.Mem
