import Verif.Model.Colamd
import Mathlib.Data.List.Nodup
import Mathlib.Algebra.BigOperators.Group.Finset.Basic
import Mathlib.Algebra.BigOperators.Group.Finset.Piecewise
import Mathlib.Algebra.Order.BigOperators.Group.Finset
import Mathlib.Algebra.Order.Group.Int
import Mathlib.Order.Interval.Finset.Basic
import Mathlib.Data.Int.Interval
import Mathlib.Tactic.Linarith
import Mathlib.Tactic.Ring

/-!
# COLAMD: functional view of the memory, segments and loops over segments
-/

namespace Slip.Colamd

/-- The contents of the arrays as total functions. -/
abbrev Sh := Fld → ℤ → ℤ

def set (F : Sh) (f : Fld) (i v : ℤ) : Sh := Function.update F f (Function.update (F f) i v)

@[simp] theorem set_same (F : Sh) (f : Fld) (i v : ℤ) :
    set F f i v f = Function.update (F f) i v := by simp [set]

theorem set_ne (F : Sh) {f g : Fld} (h : g ≠ f) (i v : ℤ) : set F f i v g = F g := by
  simp [set, h]

theorem set_apply (F : Sh) (f g : Fld) (i v j : ℤ) :
    set F f i v g j = if g = f ∧ j = i then v else F g j := by
  unfold set
  by_cases h : g = f
  · subst h; simp [Function.update_apply]
  · simp [h]

/-- The lengths of the arrays. -/
def cap (n m Al : ℤ) : Fld → ℤ
  | .A => Al
  | .rs | .rl | .r1 | .r2 => m + 1
  | _ => n + 1

section
variable [Arith]

/-- The arithmetic does not fail on numbers of the order of the sizes of the problem. -/
def Fits (n m Al : ℤ) : Prop :=
  ∀ v : ℤ, -(4 * (n + m + Al) + 17179869184) ≤ v → v ≤ 4 * (n + m + Al) + 17179869184 → ck v = .ok v

/-- The memory `s` has the right sizes and, on the domain `D`, the contents `F`. -/
structure Rp (n m Al : ℤ) (D : Fld → ℤ → Prop) (s : Mem) (F : Sh) : Prop where
  val : ∀ f i, D f i → get (s f) i = some (F f i)
  len : ∀ f, ((s f).length : ℤ) = cap n m Al f
  fit : Fits n m Al

variable {n m Al L : ℤ} {D : Fld → ℤ → Prop} {s : Mem} {F : Sh}

theorem Rp.mono {D' : Fld → ℤ → Prop} (h : Rp n m Al D s F) (hD : ∀ f i, D' f i → D f i) :
    Rp n m Al D' s F := ⟨fun f i hi => h.val f i (hD f i hi), h.len, h.fit⟩

theorem Rp.congr {F' : Sh} (h : Rp n m Al D s F) (hF : ∀ f i, D f i → F' f i = F f i) :
    Rp n m Al D s F' := ⟨fun f i hi => by rw [h.val f i hi, hF f i hi], h.len, h.fit⟩

theorem Rp.rd (h : Rp n m Al D s F) {f : Fld} {i : ℤ} (hi : D f i) : s.rd f i = .ok (F f i) :=
  rd_eq (h.val f i hi)

theorem Rp.ck (h : Rp n m Al D s F) {v : ℤ}
    (hv : -1 ≤ n → -1 ≤ m → 0 ≤ Al → -(4 * (n + m + Al) + 17179869184) ≤ v ∧
      v ≤ 4 * (n + m + Al) + 17179869184) : Arith.ck v = .ok v := by
  have h1 := h.len .p
  have h2 := h.len .rs
  have h3 := h.len .A
  simp only [cap] at h1 h2 h3
  have := hv (by omega) (by omega) (by omega)
  exact h.fit v this.1 this.2

/-- Step over an operation on numbers that are not too big. -/
macro "cks " h:term : tactic => `(tactic| rw [Rp.ck $h (by intros; omega), ok_bind])

/-- Writing extends the domain. -/
theorem Rp.wrx (h : Rp n m Al D s F) {f : Fld} {i : ℤ} (v : ℤ) (h0 : 0 ≤ i)
    (h1 : i < cap n m Al f) : ∃ s', s.wr f i v = .ok s' ∧
      Rp n m Al (fun g j => (g = f ∧ j = i) ∨ D g j) s' (set F f i v) := by
  have hl := h.len f
  refine ⟨Function.update s f (upd (s f) i v), ?_, ?_, ?_, h.fit⟩
  · unfold Mem.wr; rw [wr_eq h0 (by omega)]; rfl
  · intro g j hD
    by_cases hg : g = f
    · subst hg
      rw [Function.update_self, get_upd h0 (by omega), set_apply]
      by_cases hj : j = i
      · simp [hj]
      · rw [if_neg hj, if_neg (by tauto)]
        exact h.val _ _ (by tauto)
    · rw [Function.update_of_ne hg, set_ne _ hg]
      exact h.val _ _ (by tauto)
  · intro g
    by_cases hg : g = f
    · subst hg; rw [Function.update_self, length_upd]; exact h.len _
    · rw [Function.update_of_ne hg]; exact h.len _

theorem Rp.bounds (h : Rp n m Al D s F) {f : Fld} {i : ℤ} (hi : D f i) :
    0 ≤ i ∧ i < cap n m Al f := by
  have := get_bounds (h.val f i hi)
  rw [h.len f] at this
  exact this

theorem Rp.wr (h : Rp n m Al D s F) {f : Fld} {i : ℤ} (hi : D f i) (v : ℤ) :
    ∃ s', s.wr f i v = .ok s' ∧ Rp n m Al D s' (set F f i v) := by
  have hb := h.bounds hi
  obtain ⟨s', e, h'⟩ := h.wrx v hb.1 hb.2
  exact ⟨s', e, h'.mono fun _ _ => Or.inr⟩

/-- The initialised part of the memory in the main phase: `L` elements of `A`, all records. -/
def Dom (n m L : ℤ) : Fld → ℤ → Prop
  | .A, i => 0 ≤ i ∧ i < L
  | .p, i => 0 ≤ i ∧ i < n + 1
  | .rs, i | .rl, i | .r1, i | .r2, i => 0 ≤ i ∧ i < m
  | _, i => 0 ≤ i ∧ i < n

abbrev Rm (n m Al L : ℤ) (s : Mem) (F : Sh) : Prop := Rp n m Al (Dom n m L) s F

theorem Rp.shrink {L' : ℤ} (h : Rm n m Al L s F) (hL : L' ≤ L) : Rm n m Al L' s F :=
  h.mono fun f i hi => by
    cases f <;> simp only [Dom] at hi ⊢ <;> omega

/-- Appending to `A`. -/
theorem Rp.push (h : Rm n m Al L s F) (hL : 0 ≤ L) (hA : L < Al) (v : ℤ) :
    ∃ s', s.wr .A L v = .ok s' ∧ Rm n m Al (L + 1) s' (set F .A L v) := by
  obtain ⟨s', e, h'⟩ := h.wrx (f := .A) v hL hA
  refine ⟨s', e, h'.mono fun f i hi => ?_⟩
  cases f <;> simp only [Dom] at hi ⊢ <;> first | tauto | skip
  by_cases hh : i = L
  · exact Or.inl ⟨by trivial, hh⟩
  · exact Or.inr ⟨hi.1, by omega⟩

end

/-! ## Segments -/

/-- The `l` elements of `A` from `a` on. -/
def seg (A : ℤ → ℤ) (a l : ℤ) : List ℤ := (List.range l.toNat).map fun t : ℕ => A (a + t)

@[simp] theorem length_seg (A : ℤ → ℤ) (a l : ℤ) : (seg A a l).length = l.toNat := by simp [seg]

theorem mem_seg {A : ℤ → ℤ} {a l x : ℤ} : x ∈ seg A a l ↔ ∃ i, a ≤ i ∧ i < a + l ∧ A i = x := by
  simp only [seg, List.mem_map, List.mem_range]
  constructor
  · rintro ⟨t, ht, e⟩; exact ⟨a + t, by omega, by omega, e⟩
  · rintro ⟨i, h1, h2, e⟩
    refine ⟨(i - a).toNat, by omega, ?_⟩
    rw [← e]; congr 1; omega

theorem seg_congr {A B : ℤ → ℤ} {a l : ℤ} (h : ∀ i, a ≤ i → i < a + l → A i = B i) :
    seg A a l = seg B a l := by
  unfold seg
  apply List.map_congr_left
  intro t ht
  rw [List.mem_range] at ht
  exact h _ (by omega) (by omega)

theorem seg_succ (A : ℤ → ℤ) {a l : ℤ} (hl : 0 ≤ l) : seg A a (l + 1) = seg A a l ++ [A (a + l)] := by
  unfold seg
  have : (l + 1).toNat = l.toNat + 1 := by omega
  rw [this, List.range_succ, List.map_append]
  simp only [List.map_cons, List.map_nil]
  congr 4
  omega

@[simp] theorem seg_zero (A : ℤ → ℤ) (a : ℤ) : seg A a 0 = [] := by simp [seg]

theorem seg_getElem {A : ℤ → ℤ} {a l : ℤ} {pre post : List ℤ} {x : ℤ}
    (h : seg A a l = pre ++ x :: post) :
    A (a + pre.length) = x ∧ (pre.length : ℤ) < l := by
  have hl : (seg A a l).length = (pre ++ x :: post).length := by rw [h]
  simp only [length_seg, List.length_append, List.length_cons] at hl
  refine ⟨?_, by omega⟩
  have h1 : (seg A a l)[pre.length]? = some x := by rw [h]; simp
  unfold seg at h1
  rw [List.getElem?_map, List.getElem?_range (by omega)] at h1
  simpa using h1

/-- The list determines the values. -/
theorem seg_ext {A B : ℤ → ℤ} {a b l : ℤ} (h : seg A a l = seg B b l) {t : ℤ} (h0 : 0 ≤ t) (h1 : t < l) :
    A (a + t) = B (b + t) := by
  have e : (seg A a l)[t.toNat]? = (seg B b l)[t.toNat]? := by rw [h]
  unfold seg at e
  rw [List.getElem?_map, List.getElem?_map, List.getElem?_range (by omega)] at e
  simp only [Option.map_some, Option.some.injEq] at e
  have : ((t.toNat : ℕ) : ℤ) = t := by omega
  rwa [this] at e

/-- No entry occurs twice. -/
theorem seg_nodup {A : ℤ → ℤ} {a l : ℤ} : (seg A a l).Nodup ↔
    ∀ i j, a ≤ i → i < a + l → a ≤ j → j < a + l → A i = A j → i = j := by
  unfold seg
  rw [List.nodup_map_iff_inj_on List.nodup_range]
  simp only [List.mem_range]
  constructor
  · intro h i j h1 h2 h3 h4 e
    have := h (i - a).toNat (by omega) (j - a).toNat (by omega) (by
      have e1 : a + ((i - a).toNat : ℤ) = i := by omega
      have e2 : a + ((j - a).toNat : ℤ) = j := by omega
      rw [e1, e2, e])
    omega
  · intro h i hi j hj e
    have := h _ _ (by omega) (by omega) (by omega) (by omega) e
    omega

section loops
variable {σ : Type}

theorem forRange_eq_nil {f : ℤ → σ → C σ} {a : ℤ} (s : σ) : forRange a a s f = .ok s :=
  forRange_empty le_rfl

/-- A loop over the positions of a list of length `X.length` from `a` on. -/
theorem wp_list {f : ℤ → σ → C σ} {E : Fail → Prop} {a : ℤ} (X : List ℤ) (J : List ℤ → σ → Prop)
    {s : σ} (h0 : J [] s)
    (hstep : ∀ pre x post s, X = pre ++ x :: post → J pre s →
      wp (f (a + pre.length) s) (J (pre ++ [x])) E) :
    wp (forRange a (a + X.length) s f) (J X) E := by
  have hinv := wp_forRange (f := f) (E := E) (lo := a) (hi := a + X.length) (s := s)
    (fun i s => J (X.take (i - a).toNat) s) (by omega) (by simpa using h0) ?_
  · simpa using hinv
  · intro i s h1 h2 hJ
    have hlt : (i - a).toNat < X.length := by omega
    have hs : X = X.take (i - a).toNat ++ X[(i - a).toNat] :: X.drop ((i - a).toNat + 1) := by
      rw [← List.drop_eq_getElem_cons hlt, List.take_append_drop]
    have hl : (X.take (i - a).toNat).length = (i - a).toNat := by
      rw [List.length_take]; omega
    have := hstep _ _ _ s hs hJ
    rw [hl] at this
    have e : a + ((i - a).toNat : ℤ) = i := by omega
    rw [e] at this
    refine wp_post this fun s' h' => ?_
    have e2 : (i + 1 - a).toNat = (i - a).toNat + 1 := by omega
    rw [e2, List.take_succ_eq_append_getElem hlt]
    exact h'

/-- A loop over a segment. -/
theorem wp_seg {f : ℤ → σ → C σ} {E : Fail → Prop} {A : ℤ → ℤ} {a l : ℤ} (hl : 0 ≤ l)
    (J : List ℤ → σ → Prop) {s : σ} (h0 : J [] s)
    (hstep : ∀ pre x post s, seg A a l = pre ++ x :: post → A (a + pre.length) = x →
      (pre.length : ℤ) < l → J pre s → wp (f (a + pre.length) s) (J (pre ++ [x])) E) :
    wp (forRange a (a + l) s f) (J (seg A a l)) E := by
  have := wp_list (f := f) (E := E) (a := a) (seg A a l) J h0 fun pre x post s hs hJ =>
    hstep pre x post s hs (seg_getElem hs).1 (seg_getElem hs).2 hJ
  rw [length_seg] at this
  have e : a + (l.toNat : ℤ) = a + l := by omega
  rwa [e] at this

end loops

/-- Sum over the columns. -/
def csum (n : ℤ) (f : ℤ → ℤ) : ℤ := ∑ c ∈ Finset.Ico 0 n, f c

end Slip.Colamd
