import Verif.Model.Amd
import Verif.Proof.ColInv

/-!
# AMD: functional view of the memory and the invariants of the ordering phase
-/

namespace Slip.Amd

open Slip.Colamd (seg mem_seg seg_congr seg_succ length_seg seg_zero wp_seg)

theorem wb {α β : Type} {m : C α} {f : α → C β} {Q : β → Prop} {E : Fail → Prop}
    (h : wp m (fun a => wp (f a) Q E) E) : wp (m >>= f) Q E := (wp_bind _ _ _ _).2 h

theorem wpr {α : Type} {a : α} {Q : α → Prop} {E : Fail → Prop} (h : Q a) : wp (pure a) Q E := h

theorem wok {α : Type} {a : α} {Q : α → Prop} {E : Fail → Prop} (h : Q a) : wp (.ok a) Q E := h

/-- The contents of the arrays as total functions. -/
abbrev Sh := Fld → ℤ → ℤ

def set (F : Sh) (f : Fld) (i v : ℤ) : Sh := Function.update F f (Function.update (F f) i v)

@[simp] theorem set_same (F : Sh) (f : Fld) (i v : ℤ) :
    set F f i v f = Function.update (F f) i v := by simp [set]

theorem set_ne (F : Sh) {f g : Fld} (h : g ≠ f) (i v : ℤ) : set F f i v g = F g := by
  simp [set, h]

theorem set_apply (F : Sh) (f g : Fld) (i v j : ℤ) :
    set F f i v g j = if g = f ∧ j = i then v else F g j := by
  unfold set
  by_cases h : g = f
  · subst h; simp [Function.update_apply]
  · simp [h]

theorem set_at (F : Sh) (f : Fld) (i v : ℤ) : set F f i v f i = v := by
  rw [set_apply, if_pos ⟨rfl, rfl⟩]

theorem set_nei (F : Sh) (f g : Fld) {i j : ℤ} (v : ℤ) (h : j ≠ i) : set F f i v g j = F g j := by
  rw [set_apply, if_neg fun h' => h h'.2]

theorem set_comm (F : Sh) {f g : Fld} (h : f ≠ g) (i v j w : ℤ) :
    set (set F f i v) g j w = set (set F g j w) f i v := by
  funext k x
  simp only [set_apply]
  split_ifs <;> simp_all

/-- The lengths of the arrays. -/
def cap (n Al : ℤ) : Fld → ℤ
  | .iw => Al
  | _ => n

section
variable [Arith]

/-- The arithmetic does not fail on numbers of the order of the sizes of the problem, and on flags. -/
structure Fits (n Al : ℤ) : Prop where
  al : 0 ≤ Al
  lin : ∀ v : ℤ, -(4 * (n + Al) + 8589934592) ≤ v → v ≤ 4 * (n + Al) + 8589934592 → ck v = .ok v
  sq : ∀ v : ℤ, 0 ≤ v → v ≤ n * n + 4 * (n + Al) + 8589934592 → ck v = .ok v
  fl : ∀ v : ℤ, 0 ≤ v → v ≤ 9223372036854775807 → ck v = .ok v

/-- The memory `s` has the right sizes and, on the domain `D`, the contents `F`. -/
structure Rp (n Al : ℤ) (D : Fld → ℤ → Prop) (s : Mem) (F : Sh) : Prop where
  val : ∀ f i, D f i → get (s f) i = some (F f i)
  len : ∀ f, cap n Al f ≤ ((s f).length : ℤ)
  dom : ∀ f i, D f i → 0 ≤ i ∧ i < cap n Al f
  fit : Fits n Al

variable {n Al L : ℤ} {D : Fld → ℤ → Prop} {s : Mem} {F : Sh}

theorem Rp.mono {D' : Fld → ℤ → Prop} (h : Rp n Al D s F) (hD : ∀ f i, D' f i → D f i) :
    Rp n Al D' s F :=
  ⟨fun f i hi => h.val f i (hD f i hi), h.len, fun f i hi => h.dom f i (hD f i hi), h.fit⟩

theorem Rp.congr {F' : Sh} (h : Rp n Al D s F) (hF : ∀ f i, D f i → F' f i = F f i) :
    Rp n Al D s F' := ⟨fun f i hi => by rw [h.val f i hi, hF f i hi], h.len, h.dom, h.fit⟩

theorem Rp.rd (h : Rp n Al D s F) {f : Fld} {i : ℤ} (hi : D f i) : s.rd f i = .ok (F f i) :=
  rd_eq (h.val f i hi)

/-- Writing extends the domain. -/
theorem Rp.wrx (h : Rp n Al D s F) {f : Fld} {i : ℤ} (v : ℤ) (h0 : 0 ≤ i)
    (h1 : i < cap n Al f) : ∃ s', s.wr f i v = .ok s' ∧
      Rp n Al (fun g j => (g = f ∧ j = i) ∨ D g j) s' (set F f i v) := by
  have hl := h.len f
  refine ⟨Function.update s f (upd (s f) i v), ?_, ?_, ?_, ?_, h.fit⟩
  · unfold Mem.wr; rw [wr_eq h0 (by omega)]; rfl
  · intro g j hD
    by_cases hg : g = f
    · subst hg
      rw [Function.update_self, get_upd h0 (by omega), set_apply]
      by_cases hj : j = i
      · simp [hj]
      · rw [if_neg hj, if_neg (by tauto)]
        exact h.val _ _ (by tauto)
    · rw [Function.update_of_ne hg, set_ne _ hg]
      exact h.val _ _ (by tauto)
  · intro g
    by_cases hg : g = f
    · subst hg; rw [Function.update_self, length_upd]; exact h.len _
    · rw [Function.update_of_ne hg]; exact h.len _
  · rintro g j (⟨rfl, rfl⟩ | hD)
    · exact ⟨h0, h1⟩
    · exact h.dom g j hD

theorem Rp.wr (h : Rp n Al D s F) {f : Fld} {i : ℤ} (hi : D f i) (v : ℤ) :
    ∃ s', s.wr f i v = .ok s' ∧ Rp n Al D s' (set F f i v) := by
  have hb := h.dom f i hi
  obtain ⟨s', e, h'⟩ := h.wrx v hb.1 hb.2
  exact ⟨s', e, h'.mono fun _ _ => Or.inr⟩

/-- The initialised part of the memory in the main phase: `L` elements of `Iw`, all other arrays. -/
def Dom (n L : ℤ) : Fld → ℤ → Prop
  | .iw, i => 0 ≤ i ∧ i < L
  | _, i => 0 ≤ i ∧ i < n

abbrev Rm (n Al L : ℤ) (s : Mem) (F : Sh) : Prop := Rp n Al (Dom n L) s F

theorem Rp.shrink {L' : ℤ} (h : Rm n Al L s F) (hL : L' ≤ L) : Rm n Al L' s F :=
  h.mono fun f i hi => by
    cases f <;> simp only [Dom] at hi ⊢ <;> omega

/-- Appending to `Iw`. -/
theorem Rp.push (h : Rm n Al L s F) (hL : 0 ≤ L) (hA : L < Al) (v : ℤ) :
    ∃ s', s.wr .iw L v = .ok s' ∧ Rm n Al (L + 1) s' (set F .iw L v) := by
  obtain ⟨s', e, h'⟩ := h.wrx (f := .iw) v hL hA
  refine ⟨s', e, h'.mono fun f i hi => ?_⟩
  cases f <;> simp only [Dom] at hi ⊢ <;> first | tauto | skip
  by_cases hh : i = L
  · exact Or.inl ⟨by trivial, hh⟩
  · exact Or.inr ⟨hi.1, by omega⟩

/-- The index of the free space is in the array. -/
theorem Rp.top (h : Rm n Al L s F) : L ≤ Al ∨ L ≤ 0 := by
  by_cases hL : L ≤ 0
  · exact Or.inr hL
  · have := (h.dom .iw (L - 1) ⟨by omega, by omega⟩).2
    simp only [cap] at this
    exact Or.inl (by omega)

theorem Rp.ck (h : Rm n Al L s F) {v : ℤ}
    (hv : 0 ≤ Al → (L ≤ Al ∨ L ≤ 0) → -(4 * (n + Al) + 8589934592) ≤ v ∧ v ≤ 4 * (n + Al) + 8589934592) :
    Arith.ck v = .ok v :=
  h.fit.lin v (hv h.fit.al h.top).1 (hv h.fit.al h.top).2

/-- Step over an operation on numbers that are not too big. -/
macro "cks " h:term : tactic => `(tactic| rw [Rp.ck $h (by (try unfold flip); intros; omega), ok_bind])

/-- Reading outside of `Iw`. -/
theorem Rp.rdn (h : Rm n Al L s F) (f : Fld) {i : ℤ} (hf : f ≠ .iw) (h0 : 0 ≤ i) (h1 : i < n) :
    s.rd f i = .ok (F f i) := by
  apply h.rd
  cases f <;> first | exact ⟨h0, h1⟩ | exact absurd rfl hf

theorem Rp.rdi (h : Rm n Al L s F) {i : ℤ} (h0 : 0 ≤ i) (h1 : i < L) :
    s.rd .iw i = .ok (F .iw i) := h.rd (f := .iw) ⟨h0, h1⟩

/-- Writing outside of `Iw`. -/
theorem Rp.wrn (h : Rm n Al L s F) (f : Fld) {i : ℤ} (hf : f ≠ .iw) (h0 : 0 ≤ i) (h1 : i < n) (v : ℤ) :
    ∃ s', s.wr f i v = .ok s' ∧ Rm n Al L s' (set F f i v) := by
  apply h.wr
  cases f <;> first | exact ⟨h0, h1⟩ | exact absurd rfl hf

theorem Rp.wri (h : Rm n Al L s F) {i : ℤ} (h0 : 0 ≤ i) (h1 : i < L) (v : ℤ) :
    ∃ s', s.wr .iw i v = .ok s' ∧ Rm n Al L s' (set F .iw i v) :=
  h.wr (f := .iw) ⟨h0, h1⟩ v

end

/-! ## Sums over a set -/

open Classical in
/-- The sum of `f` over the set `O` in `[0,n)`. -/
noncomputable def psum (n : ℤ) (O : ℤ → Prop) (f : ℤ → ℤ) : ℤ :=
  ∑ x ∈ Finset.Ico 0 n, if O x then f x else 0

theorem psum_congr {n : ℤ} {O O' : ℤ → Prop} {f g : ℤ → ℤ}
    (h : ∀ x, 0 ≤ x → x < n → (O x ↔ O' x)) (hf : ∀ x, 0 ≤ x → x < n → O x → f x = g x) :
    psum n O f = psum n O' g := by
  unfold psum
  apply Finset.sum_congr rfl
  intro x hx
  rw [Finset.mem_Ico] at hx
  by_cases hO : O x
  · rw [if_pos hO, if_pos ((h x hx.1 hx.2).1 hO), hf x hx.1 hx.2 hO]
  · rw [if_neg hO, if_neg fun h' => hO ((h x hx.1 hx.2).2 h')]

theorem psum_mono {n : ℤ} {O O' : ℤ → Prop} {f g : ℤ → ℤ}
    (h : ∀ x, 0 ≤ x → x < n → O x → O' x) (hf : ∀ x, 0 ≤ x → x < n → O x → f x ≤ g x)
    (h0 : ∀ x, 0 ≤ x → x < n → O' x → 0 ≤ g x) : psum n O f ≤ psum n O' g := by
  unfold psum
  apply Finset.sum_le_sum
  intro x hx
  rw [Finset.mem_Ico] at hx
  by_cases hO : O x
  · rw [if_pos hO, if_pos (h x hx.1 hx.2 hO)]; exact hf x hx.1 hx.2 hO
  · rw [if_neg hO]
    split_ifs with h'
    · exact h0 x hx.1 hx.2 h'
    · exact le_rfl

theorem psum_nonneg {n : ℤ} {O : ℤ → Prop} {f : ℤ → ℤ} (h0 : ∀ x, 0 ≤ x → x < n → O x → 0 ≤ f x) :
    0 ≤ psum n O f := by
  unfold psum
  apply Finset.sum_nonneg
  intro x hx
  rw [Finset.mem_Ico] at hx
  split_ifs with h'
  · exact h0 x hx.1 hx.2 h'
  · exact le_rfl

theorem psum_zero {n : ℤ} {O : ℤ → Prop} {f : ℤ → ℤ} (h0 : ∀ x, 0 ≤ x → x < n → ¬ O x) :
    psum n O f = 0 := by
  unfold psum
  apply Finset.sum_eq_zero
  intro x hx
  rw [Finset.mem_Ico] at hx
  rw [if_neg (h0 x hx.1 hx.2)]

/-- Take one out. -/
theorem psum_erase {n : ℤ} {O : ℤ → Prop} {f : ℤ → ℤ} {e : ℤ} (he : O e) (h0 : 0 ≤ e) (h1 : e < n) :
    psum n O f = psum n (fun x => O x ∧ x ≠ e) f + f e := by
  unfold psum
  have hm : e ∈ Finset.Ico 0 n := by rw [Finset.mem_Ico]; exact ⟨h0, h1⟩
  rw [← Finset.add_sum_erase _ _ hm, ← Finset.add_sum_erase (Finset.Ico 0 n) _ hm, if_pos he,
    if_neg (fun h : O e ∧ e ≠ e => h.2 rfl), zero_add, add_comm]
  congr 1
  apply Finset.sum_congr rfl
  intro x hx
  have := Finset.ne_of_mem_erase hx
  by_cases hO : O x
  · rw [if_pos hO, if_pos (⟨hO, this⟩ : O x ∧ x ≠ e)]
  · rw [if_neg hO, if_neg (fun h : O x ∧ x ≠ e => hO h.1)]

theorem psum_le_one {n : ℤ} {O : ℤ → Prop} {f : ℤ → ℤ} {e : ℤ} (he : O e) (h0 : 0 ≤ e) (h1 : e < n)
    (hf : ∀ x, 0 ≤ x → x < n → O x → 0 ≤ f x) : f e ≤ psum n O f := by
  rw [psum_erase he h0 h1]
  have := psum_nonneg (n := n) (O := fun x => O x ∧ x ≠ e) (f := f) fun x a b c => hf x a b c.1
  omega

theorem psum_pos {n : ℤ} {O : ℤ → Prop} {f : ℤ → ℤ} (h : 0 < psum n O f) :
    ∃ x, 0 ≤ x ∧ x < n ∧ O x := by
  by_contra hc
  push Not at hc
  rw [psum_zero hc] at h
  omega

theorem psum_list {n : ℤ} {P : List ℤ} (hP : P.Nodup) (hb : ∀ c ∈ P, 0 ≤ c ∧ c < n) (f : ℤ → ℤ) :
    (P.map f).sum = psum n (· ∈ P) f := by
  rw [Slip.Colamd.sum_list hP hb f]
  unfold psum
  apply Finset.sum_congr rfl
  intro x _
  by_cases h : x ∈ P <;> simp [h]

/-- The sum splits. -/
theorem psum_split {n : ℤ} {O Q : ℤ → Prop} {f : ℤ → ℤ} :
    psum n O f = psum n (fun x => O x ∧ Q x) f + psum n (fun x => O x ∧ ¬ Q x) f := by
  unfold psum
  rw [← Finset.sum_add_distrib]
  apply Finset.sum_congr rfl
  intro x _
  by_cases h : O x <;> by_cases h' : Q x <;> simp [h, h']

theorem length_lt {n : ℤ} {l : List ℤ} (hnd : l.Nodup) (h : ∀ x ∈ l, 0 ≤ x ∧ x < n) : l.length ≤ n.toNat := by
  have h1 : l.toFinset ⊆ Finset.Ico 0 n := by
    intro x hx; rw [List.mem_toFinset] at hx; rw [Finset.mem_Ico]; exact h x hx
  have h2 := Finset.card_le_card h1
  rw [List.toFinset_card_of_nodup hnd, Int.card_Ico] at h2
  simpa using h2

/-! ## The objects -/

/-- The elements in the list of variable `i`. -/
def elL (F : Sh) (i : ℤ) : List ℤ := seg (F .iw) (F .pe i) (F .el i)

/-- The variables in the list of variable `i`. -/
def vaL (F : Sh) (i : ℤ) : List ℤ := seg (F .iw) (F .pe i + F .el i) (F .ln i - F .el i)

/-- The whole list of object `x`: the variables of an element. -/
def obL (F : Sh) (x : ℤ) : List ℤ := seg (F .iw) (F .pe x) (F .ln x)

/-- The degree lists hold the variables of `S`. -/
structure DL (n : ℤ) (F : Sh) (S : ℤ → Prop) (rk : ℤ → ℕ) : Prop where
  rg : ∀ c, S c → 0 ≤ c ∧ c < n ∧ 0 ≤ F .dg c ∧ F .dg c < n
  hd : ∀ d, 0 ≤ d → d < n →
    F .hd d = -1 ∨ (S (F .hd d) ∧ F .dg (F .hd d) = d ∧ F .la (F .hd d) = -1)
  pv : ∀ c, S c → (F .la c = -1 ∧ F .hd (F .dg c) = c) ∨
    (S (F .la c) ∧ F .nx (F .la c) = c ∧ F .dg (F .la c) = F .dg c ∧ rk (F .la c) < rk c)
  nx : ∀ c, S c → F .nx c = -1 ∨
    (S (F .nx c) ∧ F .la (F .nx c) = c ∧ F .dg (F .nx c) = F .dg c)

end Slip.Amd
