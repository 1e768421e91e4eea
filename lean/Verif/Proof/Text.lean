import Verif.Model.Text
import Verif.SpecText
import Mathlib.Data.Nat.Digits.Lemmas
import Mathlib.Data.Rat.Lemmas
import Mathlib.Tactic.IntervalCases
import Mathlib.Tactic.Ring

/-!
# Decimal numbers can be read back
-/

namespace Slip

theorem digitValue_digitChar {d : ℕ} (h : d < 10) : digitValue (Nat.digitChar d) = some d := by
  interval_cases d <;> decide

/-- The characters of numbers. -/
def plain (c : Char) : Bool := c ∈ ['-', '/', '0', '1', '2', '3', '4', '5', '6', '7', '8', '9']

/-- A decimal digit. -/
def isDig (c : Char) : Bool := c ∈ ['0', '1', '2', '3', '4', '5', '6', '7', '8', '9']

theorem isDig_digitChar {d : ℕ} (h : d < 10) : isDig (Nat.digitChar d) = true := by
  interval_cases d <;> decide

theorem readFrom_append (l l' : List Char) (n : ℕ) :
    readFrom n (l ++ l') = (readFrom n l).bind fun m => readFrom m l' := by
  induction l generalizing n with
  | nil => rfl
  | cons c l ih =>
    simp only [List.cons_append, readFrom]
    cases digitValue c with
    | none => rfl
    | some d => exact ih _

theorem readFrom_digits (l : List ℕ) (h : ∀ d ∈ l, d < 10) :
    readFrom 0 (l.reverse.map Nat.digitChar) = some (Nat.ofDigits 10 l) := by
  induction l with
  | nil => rfl
  | cons d l ih =>
    rw [List.reverse_cons, List.map_append, readFrom_append, ih fun d hd => h d (by simp [hd])]
    simp only [Option.bind_some, List.map_cons, List.map_nil, readFrom, digitValue_digitChar (h d (by simp))]
    rw [Nat.ofDigits_cons]
    congr 1
    push_cast
    ring

theorem digits_ne (n : ℕ) : digits n ≠ [] := by
  unfold digits
  split
  · simp
  · simp [Nat.digits_ne_nil_iff_ne_zero.2 ‹n ≠ 0›]

theorem digits_all (n : ℕ) : ∀ c ∈ digits n, isDig c = true := by
  intro c hc
  unfold digits at hc
  split at hc
  · rw [List.mem_singleton.1 hc]; decide
  · rw [List.mem_map] at hc
    obtain ⟨d, hd, rfl⟩ := hc
    exact isDig_digitChar (Nat.digits_lt_base (by norm_num) (List.mem_reverse.1 hd))

theorem readNat_digits (n : ℕ) : readNat (digits n) = some n := by
  unfold readNat
  rw [if_neg (digits_ne n)]
  unfold digits
  split
  · subst n; rfl
  · rw [readFrom_digits _ fun d hd => Nat.digits_lt_base (by norm_num) hd, Nat.ofDigits_digits]

theorem readInt_decimal (z : ℤ) : readInt (decimal z) = some z := by
  unfold decimal
  split
  · simp only [readInt, readNat_digits, Option.map_some]
    congr 1; omega
  · have h : ∀ l : List Char, (∀ c ∈ l, isDig c = true) → readInt l = (readNat l).map fun (n : ℕ) => (n : ℤ) := by
      intro l hl
      unfold readInt
      split
      · exact absurd (hl '-' (by simp)) (by decide)
      · rfl
    rw [h _ (digits_all _), readNat_digits, Option.map_some]
    congr 1; omega

theorem decimal_all (z : ℤ) : ∀ c ∈ decimal z, plain c = true ∧ c ≠ '/' := by
  have h : ∀ c, isDig c = true → plain c = true ∧ c ≠ '/' := by
    intro c hc
    simp only [isDig, plain, decide_eq_true_eq, List.mem_cons, List.not_mem_nil, or_false] at hc ⊢
    rcases hc with h | h | h | h | h | h | h | h | h | h <;> subst h <;> decide
  intro c hc
  unfold decimal at hc
  split at hc
  · rcases List.mem_cons.1 hc with rfl | hc
    · decide
    · exact h c (digits_all _ c hc)
  · exact h c (digits_all _ c hc)

theorem fraction_all (q : ℚ) : ∀ c ∈ fraction q, plain c = true := by
  intro c hc
  unfold fraction at hc
  rcases List.mem_append.1 hc with hc | hc
  · exact (decimal_all _ c hc).1
  · split at hc
    · simp at hc
    · rcases List.mem_cons.1 hc with rfl | hc
      · decide
      · exact (decimal_all q.den c (by
          unfold decimal; rw [if_neg (by omega)]; simpa using hc)).1

theorem span_all {p : Char → Bool} (l : List Char) (h : ∀ c ∈ l, p c = true) (r : List Char)
    (hr : ∀ c, r.head? = some c → p c = false) : (l ++ r).span p = (l, r) := by
  rw [List.span_eq_takeWhile_dropWhile, List.takeWhile_append_of_pos h, List.dropWhile_append_of_pos h]
  cases r with
  | nil => simp
  | cons c r =>
    have := hr c rfl
    simp [List.takeWhile_cons, List.dropWhile_cons, this]

theorem readRat_fraction (q : ℚ) : readRat (fraction q) = some q := by
  unfold readRat fraction
  have hp : ∀ c ∈ decimal q.num, (fun c : Char => decide (c ≠ '/')) c = true := fun c hc => by
    simpa using (decimal_all _ c hc).2
  by_cases hd : q.den = 1
  · rw [if_pos hd, span_all _ hp [] (by simp)]
    simp only [readInt_decimal, Option.map_some]
    congr 1
    exact Rat.coe_int_num_of_den_eq_one hd
  · rw [if_neg hd, span_all _ hp _ (by simp)]
    simp only [readInt_decimal, readNat_digits, Option.bind_some]
    rw [if_neg q.den_nz, Rat.num_div_den]

theorem decimal_inj {y z : ℤ} (h : decimal y = decimal z) : y = z := by
  have := readInt_decimal y
  rw [h, readInt_decimal] at this
  exact (Option.some.inj this).symm

theorem fraction_inj {y z : ℚ} (h : fraction y = fraction z) : y = z := by
  have := readRat_fraction y
  rw [h, readRat_fraction] at this
  exact (Option.some.inj this).symm

theorem fraction_int (z : ℤ) : fraction (z : ℚ) = decimal z := by
  unfold fraction
  simp

end Slip
