import Verif.Model.Machine
import Mathlib.Tactic.Linarith
import Mathlib.Tactic.Ring

/-!
# 64-bit arithmetic: the checked code agrees with the unbounded code
-/

namespace Slip.M64
variable {α β σ : Type}

/-- `m'` behaves as `m` unless `m` is undefined, and the results satisfy `Q`. -/
def Agree (m' m : C α) (Q : α → Prop) : Prop :=
  wp m (fun r => m' = .ok r ∧ Q r) (fun e => e = .ub ∨ m' = .error e)

theorem Agree.ok (a : α) {Q : α → Prop} (h : Q a) : Agree (.ok a) (.ok a) Q := ⟨rfl, h⟩

theorem Agree.pure (a : α) {Q : α → Prop} (h : Q a) : Agree (pure a) (pure a) Q := ⟨rfl, h⟩

theorem Agree.error (e : Fail) {Q : α → Prop} : Agree (.error e) (.error e) Q := Or.inr rfl

theorem Agree.refl (m : C α) : Agree m m (fun r => m = .ok r) := by
  cases m
  · exact Or.inr rfl
  · exact ⟨rfl, rfl⟩

theorem Agree.of_wp {m : C α} {Q : α → Prop} (h : ∀ r, m = .ok r → Q r) : Agree m m Q := by
  cases m
  · exact Or.inr rfl
  · exact ⟨rfl, h _ rfl⟩

theorem Agree.mono {m' m : C α} {Q R : α → Prop} (h : Agree m' m Q) (hQ : ∀ a, Q a → R a) :
    Agree m' m R := by
  cases m
  · exact h
  · exact ⟨h.1, hQ _ h.2⟩

theorem Agree.bind {m' m : C α} {f' f : α → C β} {P : α → Prop} {Q : β → Prop}
    (h : Agree m' m P) (hf : ∀ a, P a → Agree (f' a) (f a) Q) : Agree (m' >>= f') (m >>= f) Q := by
  cases m with
  | error e =>
    rcases h with rfl | h
    · exact Or.inl rfl
    · subst h; exact Or.inr rfl
  | ok a =>
    obtain ⟨h1, h2⟩ := h
    subst h1
    exact hf a h2

theorem Agree.eq {m' m : C α} {Q : α → Prop} (h : Agree m' m Q) (hu : m ≠ .error .ub) : m' = m := by
  cases m with
  | error e =>
    rcases h with rfl | h
    · exact absurd rfl hu
    · exact h
  | ok a => exact h.1

theorem Agree.post {m' m : C α} {Q : α → Prop} (h : Agree m' m Q) {a : α} (e : m = .ok a) : Q a := by
  subst e; exact h.2

theorem i64_eq {v : Int} (h0 : -2 ^ 63 ≤ v) (h1 : v < 2 ^ 63) : i64 v = .ok v := by
  unfold i64; rw [if_pos ⟨h0, h1⟩]

/-- Step over a checked operation that does not overflow. -/
theorem agree_i64 {v : Int} {f' : Int → C β} {m : C β} {Q : β → Prop} (h : -2 ^ 63 ≤ v ∧ v < 2 ^ 63)
    (hf : Agree (f' v) m Q) : Agree (i64 v >>= f') m Q := by
  rw [i64_eq h.1 h.2]; exact hf

theorem agree_malloc64 {v : Int} {f' : Arr Int → C β} {m : C β} {Q : β → Prop}
    (h : 0 ≤ v ∧ v < 2 ^ 61) (hf : Agree (f' (malloc Int v)) m Q) : Agree (malloc64 v >>= f') m Q := by
  unfold malloc64
  rw [if_pos ⟨h.1, by omega⟩]
  exact hf

theorem agree_rd {a : Arr α} {i : Int} {f' f : α → C β} {Q : β → Prop}
    (hf : ∀ v, get a i = some v → 0 ≤ i → i < (a.length : Int) → Agree (f' v) (f v) Q) :
    Agree (rd a i >>= f') (rd a i >>= f) Q := by
  refine Agree.bind (Agree.refl _) fun v hv => ?_
  have h := rd_ok hv
  exact hf v h (get_bounds h).1 (get_bounds h).2

theorem wr_ok {a a' : Arr α} {i : Int} {v : α} (h : wr a i v = .ok a') :
    0 ≤ i ∧ i < (a.length : Int) ∧ a' = upd a i v := by
  unfold wr at h
  split at h
  · rename_i hb
    exact ⟨hb.1, hb.2, (Except.ok.inj h).symm⟩
  · cases h

theorem agree_wr {a : Arr α} {i : Int} {w : α} {f' f : Arr α → C β} {Q : β → Prop}
    (hf : 0 ≤ i → i < (a.length : Int) → Agree (f' (upd a i w)) (f (upd a i w)) Q) :
    Agree (wr a i w >>= f') (wr a i w >>= f) Q := by
  refine Agree.bind (Agree.refl _) fun v hv => ?_
  obtain ⟨h0, h1, rfl⟩ := wr_ok hv
  exact hf h0 h1

/-- Step over the same computation on both sides, without learning anything. -/
theorem agree_same {m : C α} {f' f : α → C β} {Q : β → Prop} (hf : ∀ v, Agree (f' v) (f v) Q) :
    Agree (m >>= f') (m >>= f) Q :=
  Agree.bind (Agree.refl _) fun v _ => hf v

theorem agree_forCnt {f' f : Int → σ → C σ} (Inv : Int → σ → Prop) :
    ∀ (m : Nat) (lo : Int) (s : σ), Inv lo s →
      (∀ i s, lo ≤ i → i < lo + m → Inv i s → Agree (f' i s) (f i s) (Inv (i + 1))) →
      Agree (forCnt m lo s f') (forCnt m lo s f) (Inv (lo + m))
  | 0, lo, s, h0, _ => Agree.ok s (by simpa using h0)
  | m + 1, lo, s, h0, hstep => by
    unfold forCnt
    refine Agree.bind (hstep lo s (by omega) (by omega) h0) fun s' hs' => ?_
    have := agree_forCnt Inv m (lo + 1) s' hs' fun i s h1 h2 h3 => hstep i s (by omega) (by omega) h3
    have e : lo + 1 + (m : Int) = lo + ((m + 1 : Nat) : Int) := by omega
    rwa [e] at this

theorem agree_forRange {f' f : Int → σ → C σ} (Inv : Int → σ → Prop) {lo hi : Int} {s : σ}
    (h0 : Inv lo s)
    (hstep : ∀ i s, lo ≤ i → i < hi → Inv i s → Agree (f' i s) (f i s) (Inv (i + 1))) :
    Agree (forRange lo hi s f') (forRange lo hi s f) (Inv (max lo hi)) := by
  unfold forRange
  have := agree_forCnt (f' := f') (f := f) Inv (hi - lo).toNat lo s h0 fun i s h1 h2 h3 =>
    hstep i s h1 (by omega) h3
  have e : lo + ((hi - lo).toNat : Int) = max lo hi := by omega
  rwa [e] at this

/-- A loop with an invariant that does not depend on the counter. -/
theorem agree_loop {f' f : Int → σ → C σ} (Inv : σ → Prop) {lo hi : Int} {s : σ} (h0 : Inv s)
    (hstep : ∀ i s, lo ≤ i → i < hi → Inv s → Agree (f' i s) (f i s) Inv) :
    Agree (forRange lo hi s f') (forRange lo hi s f) Inv :=
  agree_forRange (fun _ => Inv) h0 hstep

theorem agree_forDownCnt {f' f : Int → σ → C σ} (Inv : σ → Prop) (lo : Int) :
    ∀ (m : Nat) (s : σ), Inv s →
      (∀ i s, lo ≤ i → i < lo + m → Inv s → Agree (f' i s) (f i s) Inv) →
      Agree (forDownCnt m lo s f') (forDownCnt m lo s f) Inv
  | 0, s, h0, _ => Agree.ok s h0
  | m + 1, s, h0, hstep => by
    unfold forDownCnt
    refine Agree.bind (hstep (lo + m) s (by omega) (by omega) h0) fun s' hs' => ?_
    exact agree_forDownCnt Inv lo m s' hs' fun i s h1 h2 h3 => hstep i s h1 (by omega) h3

theorem agree_loopDown {f' f : Int → σ → C σ} (Inv : σ → Prop) {lo hi : Int} {s : σ} (h0 : Inv s)
    (hstep : ∀ i s, lo ≤ i → i < hi → Inv s → Agree (f' i s) (f i s) Inv) :
    Agree (forDown lo hi s f') (forDown lo hi s f) Inv := by
  unfold forDown
  exact agree_forDownCnt Inv lo _ s h0 fun i s h1 h2 h3 => hstep i s h1 (by omega) h3

/-! ## Arrays of small integers -/

/-- A number well inside the range of `int64_t`; the range is symmetric under `flip`. -/
def Sm (v : Int) : Prop := -2 ^ 61 ≤ v ∧ v ≤ 2 ^ 61 - 2

/-- All elements written are small. -/
def SmA (a : Arr Int) : Prop := ∀ i v, get a i = some v → Sm v

theorem SmA.upd {a : Arr Int} (h : SmA a) {i v : Int} (h0 : 0 ≤ i) (h1 : i < (a.length : Int)) (hv : Sm v) :
    SmA (upd a i v) := by
  intro j w hj
  rw [get_upd h0 h1] at hj
  split at hj
  · cases hj; exact hv
  · exact h j w hj

theorem Sm.flip {v : Int} (h : Sm v) : Sm (flip v) := by
  unfold Sm Slip.flip at *; omega

theorem Sm.unflip {v : Int} (h : Sm v) : Sm (unflip v) := by
  unfold Slip.unflip
  split
  · exact h.flip
  · exact h

theorem smA_malloc (n : Int) : SmA (malloc Int n) := by
  intro i v h
  rw [get_malloc] at h
  cases h

theorem smA_calloc (n : Int) : SmA (calloc n) := by
  intro i v h
  have hb := get_bounds h
  rw [length_calloc] at hb
  rw [get_calloc hb.1 (by omega)] at h
  cases h
  exact ⟨by norm_num, by norm_num⟩

theorem get_append {a b : Arr α} {i : Int} :
    get (a ++ b) i = if i < (a.length : Int) then get a i else get b (i - a.length) := by
  unfold get
  by_cases h0 : i < 0
  · rw [if_pos h0, if_pos (by omega), if_pos h0]
  · rw [if_neg h0]
    by_cases h1 : i < (a.length : Int)
    · rw [if_pos h1, if_neg h0, List.getElem?_append_left (by omega)]
    · rw [if_neg h1, if_neg (by omega), List.getElem?_append_right (by omega)]
      congr 2
      omega

theorem SmA.append {a b : Arr Int} (ha : SmA a) (hb : SmA b) : SmA (a ++ b) := by
  intro i v h
  rw [get_append] at h
  split at h
  · exact ha _ _ h
  · exact hb _ _ h

theorem SmA.take {a : Arr Int} (ha : SmA a) (k : ℕ) : SmA (a.take k) := by
  intro i v h
  apply ha i v
  unfold get at h ⊢
  split at h
  · cases h
  · rename_i h0
    rw [if_neg h0]
    rw [List.getElem?_take] at h
    split at h
    · exact h
    · cases h

/-- In the range of array indices of an `n`-by-`n` problem. -/
theorem sm_of_lt {v B : Int} (h0 : 0 ≤ v) (h1 : v < B) (hB : B ≤ 2 ^ 60) : Sm v := by
  unfold Sm; omega

theorem agree_flip64 {v : Int} {f' : Int → C β} {m : C β} {Q : β → Prop} (h : Sm v)
    (hf : Agree (f' (flip v)) m Q) : Agree (flip64 v >>= f') m Q := by
  unfold flip64
  have h' := h
  unfold Sm at h'
  rw [i64_eq (by omega) (by omega), ok_bind, i64_eq (by omega) (by omega)]
  exact hf

theorem unflip64_eq {v : Int} (h : Sm v) : unflip64 v = .ok (unflip v) := by
  unfold unflip64 unflip flip64 Slip.flip
  have h' := h
  unfold Sm at h'
  split
  · rw [i64_eq (by omega) (by omega), ok_bind, i64_eq (by omega) (by omega)]
  · rfl

theorem agree_mark {Lp : Arr Int} {j : Int} {f' f : Arr Int → C β} {Q : β → Prop} (h : SmA Lp)
    (hf : ∀ Lp', SmA Lp' → Lp'.length = Lp.length → 0 ≤ j → j < (Lp.length : Int) → Agree (f' Lp') (f Lp') Q) :
    Agree (mark64 Lp j >>= f') (mark Lp j >>= f) Q := by
  unfold mark64 mark
  simp only [bind_assoc]
  refine agree_rd fun v hv h0 h1 => ?_
  refine agree_flip64 (h _ _ hv) ?_
  refine agree_wr fun _ _ => ?_
  exact hf _ (h.upd h0 h1 (h _ _ hv).flip) (by simp) h0 h1

end Slip.M64
