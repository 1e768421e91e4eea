import Verif.Proof.AmdBase
import Mathlib.Algebra.BigOperators.Ring.Finset

/-!
# AMD: the quotient graph and the assembly tree
-/

namespace Slip.Amd

variable [Arith]

/-- The quotient graph: variables `V`, elements `E`; `K` are the numbers that are not elements. -/
structure Gr (n : ℤ) (V E K : ℤ → Prop) (ν dg : ℤ → ℤ) (el va ob : ℤ → List ℤ) : Prop where
  vr : ∀ i, V i → 0 ≤ i ∧ i < n ∧ K i ∧ 0 < ν i
  er : ∀ e, E e → 0 ≤ e ∧ e < n ∧ ¬ K e
  e1 : ∀ i, V i → ∀ e ∈ el i, E e
  s2 : ∀ e i, E e → V i → (i ∈ ob e ↔ e ∈ el i)
  s1 : ∀ i j, V i → V j → j ∈ va i → i ∈ va j
  nde : ∀ i, V i → (el i).Nodup
  dgi : ∀ e, E e → psum n (fun i => V i ∧ e ∈ el i) ν ≤ dg e
  ne : ∀ e, E e → ∃ i, V i ∧ e ∈ el i
  rgv : ∀ i, V i → ∀ j ∈ va i, K j
  rgo : ∀ e, E e → ∀ j ∈ ob e, K j
  ndv : ∀ i, V i → (va i).Nodup

variable {n : ℤ} {V E K V' E' K' : ℤ → Prop} {ν dg ν' dg' : ℤ → ℤ} {el va ob el' va' ob' : ℤ → List ℤ}

theorem Gr.congr (h : Gr n V E K ν dg el va ob) (hV : ∀ x, V' x ↔ V x) (hE : ∀ x, E' x ↔ E x)
    (hK : ∀ x, K' x ↔ K x) (hν : ∀ x, V x → ν' x = ν x) (hdg : ∀ x, E x → dg' x = dg x)
    (hel : ∀ x, V x → el' x = el x) (hva : ∀ x, V x → va' x = va x)
    (hob : ∀ e, E e → ∀ i, V i → (i ∈ ob' e ↔ i ∈ ob e)) (hob2 : ∀ e, E e → ∀ i ∈ ob' e, i ∈ ob e) :
    Gr n V' E' K' ν' dg' el' va' ob' := by
  obtain rfl : V' = V := funext fun x => propext (hV x)
  obtain rfl : E' = E := funext fun x => propext (hE x)
  obtain rfl : K' = K := funext fun x => propext (hK x)
  constructor
  · intro i hi; rw [hν i hi]; exact h.vr i hi
  · exact h.er
  · intro i hi; rw [hel i hi]; exact h.e1 i hi
  · intro e i he hi; rw [hob e he i hi, hel i hi]; exact h.s2 e i he hi
  · intro i j hi hj; rw [hva i hi, hva j hj]; exact h.s1 i j hi hj
  · intro i hi; rw [hel i hi]; exact h.nde i hi
  · intro e he
    rw [hdg e he]
    refine le_trans (le_of_eq (psum_congr ?_ ?_)) (h.dgi e he)
    · intro x _ _
      constructor
      · rintro ⟨a, b⟩; rw [hel x a] at b; exact ⟨a, b⟩
      · rintro ⟨a, b⟩; rw [← hel x a] at b; exact ⟨a, b⟩
    · intro x _ _ hx; exact hν x hx.1
  · intro e he
    obtain ⟨i, hi, h'⟩ := h.ne e he
    exact ⟨i, hi, by rw [hel i hi]; exact h'⟩
  · intro i hi; rw [hva i hi]; exact h.rgv i hi
  · intro e he j hj; exact h.rgo e he j (hob2 e he j hj)
  · intro i hi; rw [hva i hi]; exact h.ndv i hi

/-- Elimination of `me`: `P` are its neighbours, `D` the elements that disappear, `M` the variables eliminated
with it. -/
theorem Gr.pivot (h : Gr n V E K ν dg el va ob) {me : ℤ} (hme : V me) {P : List ℤ}
    (hP : ∀ x, x ∈ P ↔ V x ∧ x ≠ me ∧ (x ∈ va me ∨ ∃ e ∈ el me, x ∈ ob e)) {D M : ℤ → Prop}
    (hD1 : ∀ e ∈ el me, D e) (hD2 : ∀ e, E e → D e → e ∉ el me → ∀ i, V i → e ∈ el i → i ∈ P)
    (hM : ∀ i, M i → i ∈ P ∧ ∀ e ∈ el i, D e)
    (hV' : ∀ x, V' x ↔ V x ∧ x ≠ me ∧ ¬ M x)
    (hE' : ∀ e, E' e ↔ (E e ∧ ¬ D e) ∨ (e = me ∧ ∃ i ∈ P, ¬ M i))
    (hK' : ∀ x, K' x ↔ K x ∧ x ≠ me) (hν : ∀ x, V' x → ν' x = ν x)
    (hdg : ∀ e, E e → ¬ D e → dg' e = dg e) (hdgm : psum n (fun i => i ∈ P ∧ ¬ M i) ν ≤ dg' me)
    (hel1 : ∀ i ∈ P, V' i → (∀ e, e ∈ el' i ↔ e = me ∨ (e ∈ el i ∧ ¬ D e)) ∧ (el' i).Nodup)
    (hel2 : ∀ i, i ∉ P → V' i → el' i = el i)
    (hva1 : ∀ i ∈ P, V' i → ∀ j, j ∈ va' i ↔ j ∈ va i ∧ V j ∧ j ≠ me ∧ j ∉ P)
    (hva2 : ∀ i, i ∉ P → V' i → va' i = va i) (hvn : ∀ i ∈ P, V' i → (va' i).Nodup)
    (hob : ∀ e, E e → ¬ D e → ob' e = ob e) (hobm : ∀ i, i ∈ ob' me ↔ i ∈ P) :
    Gr n V' E' K' ν' dg' el' va' ob' := by
  have hmE : ¬ E me := fun he => (h.er me he).2.2 (h.vr me hme).2.2.1
  have hnD : ∀ i, V' i → i ∉ P → ∀ e ∈ el i, ¬ D e := by
    intro i hi hiP e he hDe
    obtain ⟨hVi, him, _⟩ := (hV' i).1 hi
    have hEe := h.e1 i hVi e he
    by_cases hem : e ∈ el me
    · exact hiP ((hP i).2 ⟨hVi, him, Or.inr ⟨e, hem, (h.s2 e i hEe hVi).2 he⟩⟩)
    · exact hiP (hD2 e hEe hDe hem i hVi he)
  have hPM : ∀ i ∈ P, ¬ M i → V' i := by
    intro i hi hiM
    have := (hP i).1 hi
    exact (hV' i).2 ⟨this.1, this.2.1, hiM⟩
  constructor
  · intro i hi
    have h' := (hV' i).1 hi
    have := h.vr i h'.1
    rw [hν i hi, hK']
    exact ⟨this.1, this.2.1, ⟨this.2.2.1, h'.2.1⟩, this.2.2.2⟩
  · intro e he
    rw [hK']
    rcases (hE' e).1 he with ⟨a, b⟩ | ⟨rfl, _⟩
    · have := h.er e a
      exact ⟨this.1, this.2.1, fun h' => this.2.2 h'.1⟩
    · have := h.vr e hme
      exact ⟨this.1, this.2.1, fun h' => h'.2 rfl⟩
  · intro i hi e he
    have h' := (hV' i).1 hi
    rw [hE']
    by_cases hiP : i ∈ P
    · rcases ((hel1 i hiP hi).1 e).1 he with rfl | ⟨a, b⟩
      · exact Or.inr ⟨rfl, i, hiP, h'.2.2⟩
      · exact Or.inl ⟨h.e1 i h'.1 e a, b⟩
    · rw [hel2 i hiP hi] at he
      exact Or.inl ⟨h.e1 i h'.1 e he, hnD i hi hiP e he⟩
  · intro e i he hi
    have h' := (hV' i).1 hi
    rcases (hE' e).1 he with ⟨a, b⟩ | ⟨rfl, _⟩
    · have hem : e ≠ me := by rintro rfl; exact hmE a
      rw [hob e a b, h.s2 e i a h'.1]
      by_cases hiP : i ∈ P
      · rw [(hel1 i hiP hi).1 e]
        exact ⟨fun h => Or.inr ⟨h, b⟩, fun h => h.elim (fun h => absurd h hem) fun h => h.1⟩
      · rw [hel2 i hiP hi]
    · rw [hobm]
      by_cases hiP : i ∈ P
      · rw [(hel1 i hiP hi).1 e]; exact ⟨fun _ => Or.inl rfl, fun _ => hiP⟩
      · rw [hel2 i hiP hi]
        exact ⟨fun h => absurd h hiP, fun h'' => absurd (h.e1 i h'.1 e h'') hmE⟩
  · intro i j hi hj hji
    have hi' := (hV' i).1 hi
    have hj' := (hV' j).1 hj
    have key : j ∈ va i ∧ ¬ (i ∈ P ∧ j ∈ P) := by
      by_cases hiP : i ∈ P
      · have := (hva1 i hiP hi j).1 hji
        exact ⟨this.1, fun h => this.2.2.2 h.2⟩
      · rw [hva2 i hiP hi] at hji
        exact ⟨hji, fun h => hiP h.1⟩
    have := h.s1 i j hi'.1 hj'.1 key.1
    by_cases hjP : j ∈ P
    · rw [hva1 j hjP hj]
      exact ⟨this, hi'.1, hi'.2.1, fun h => key.2 ⟨h, hjP⟩⟩
    · rw [hva2 j hjP hj]; exact this
  · intro i hi
    by_cases hiP : i ∈ P
    · exact (hel1 i hiP hi).2
    · rw [hel2 i hiP hi]; exact h.nde i ((hV' i).1 hi).1
  · intro e he
    rcases (hE' e).1 he with ⟨a, b⟩ | ⟨rfl, _⟩
    · have hem : e ≠ me := by rintro rfl; exact hmE a
      rw [hdg e a b]
      refine le_trans (psum_mono ?_ ?_ ?_) (h.dgi e a)
      · rintro i _ _ ⟨hi, hie⟩
        have h' := (hV' i).1 hi
        refine ⟨h'.1, ?_⟩
        by_cases hiP : i ∈ P
        · exact (((hel1 i hiP hi).1 e).1 hie).elim (fun h => absurd h hem) fun h => h.1
        · rwa [hel2 i hiP hi] at hie
      · intro i _ _ hi; rw [hν i hi.1]
      · intro i _ _ hi; exact (h.vr i hi.1).2.2.2.le
    · refine le_trans (psum_mono ?_ ?_ ?_) hdgm
      · rintro i _ _ ⟨hi, hie⟩
        have h' := (hV' i).1 hi
        by_cases hiP : i ∈ P
        · exact ⟨hiP, h'.2.2⟩
        · rw [hel2 i hiP hi] at hie
          exact absurd (h.e1 i h'.1 e hie) hmE
      · intro i _ _ hi; rw [hν i hi.1]
      · intro i _ _ hi; exact (h.vr i ((hP i).1 hi.1).1).2.2.2.le
  · intro e he
    rcases (hE' e).1 he with ⟨a, b⟩ | ⟨rfl, i, hi, hiM⟩
    · obtain ⟨i, hi, hie⟩ := h.ne e a
      have him : i ≠ me := by rintro rfl; exact b (hD1 e hie)
      have hiM : ¬ M i := fun hh => b ((hM i hh).2 e hie)
      have hi' := (hV' i).2 ⟨hi, him, hiM⟩
      refine ⟨i, hi', ?_⟩
      by_cases hiP : i ∈ P
      · exact ((hel1 i hiP hi').1 e).2 (Or.inr ⟨hie, b⟩)
      · rw [hel2 i hiP hi']; exact hie
    · have hi' := hPM i hi hiM
      exact ⟨i, hi', ((hel1 i hi hi').1 e).2 (Or.inl rfl)⟩
  · intro i hi j hj
    have h' := (hV' i).1 hi
    rw [hK']
    by_cases hiP : i ∈ P
    · have := (hva1 i hiP hi j).1 hj
      exact ⟨h.rgv i h'.1 j this.1, this.2.2.1⟩
    · rw [hva2 i hiP hi] at hj
      refine ⟨h.rgv i h'.1 j hj, ?_⟩
      rintro rfl
      exact hiP ((hP i).2 ⟨h'.1, h'.2.1, Or.inl (h.s1 i j h'.1 hme hj)⟩)
  · intro e he j hj
    rw [hK']
    rcases (hE' e).1 he with ⟨a, b⟩ | ⟨rfl, _⟩
    · rw [hob e a b] at hj
      refine ⟨h.rgo e a j hj, ?_⟩
      rintro rfl
      exact b (hD1 e ((h.s2 e j a hme).1 hj))
    · rw [hobm] at hj
      have := (hP j).1 hj
      exact ⟨(h.vr j this.1).2.2.1, this.2.1⟩
  · intro i hi
    by_cases hiP : i ∈ P
    · exact hvn i hiP hi
    · rw [hva2 i hiP hi]; exact h.ndv i ((hV' i).1 hi).1

/-- The variable `j` is absorbed by `i`. -/
theorem Gr.merge (h : Gr n V E K ν dg el va ob) {i j : ℤ} (hi : V i) (hj : V j) (hij : i ≠ j)
    (he : ∀ e, e ∈ el i ↔ e ∈ el j) :
    Gr n (fun x => V x ∧ x ≠ j) E K (Function.update ν i (ν i + ν j)) dg el va ob := by
  have hνi := h.vr i hi
  have hνj := h.vr j hj
  constructor
  · rintro x ⟨hx, _⟩
    have := h.vr x hx
    refine ⟨this.1, this.2.1, this.2.2.1, ?_⟩
    rw [Function.update_apply]; split_ifs <;> omega
  · exact h.er
  · rintro x ⟨hx, _⟩; exact h.e1 x hx
  · rintro e x he ⟨hx, _⟩; exact h.s2 e x he hx
  · rintro x y ⟨hx, _⟩ ⟨hy, _⟩; exact h.s1 x y hx hy
  · rintro x ⟨hx, _⟩; exact h.nde x hx
  · intro e hE
    refine le_trans ?_ (h.dgi e hE)
    by_cases hie : e ∈ el i
    · rw [psum_erase (O := fun x => V x ∧ e ∈ el x) (f := ν) (e := j) ⟨hj, (he e).1 hie⟩ hνj.1 hνj.2.1,
        psum_erase (O := fun x => (V x ∧ e ∈ el x) ∧ x ≠ j) (f := ν) (e := i) ⟨⟨hi, hie⟩, hij⟩ hνi.1 hνi.2.1,
        psum_erase (O := fun x => (V x ∧ x ≠ j) ∧ e ∈ el x) (e := i) ⟨⟨hi, hij⟩, hie⟩ hνi.1 hνi.2.1,
        Function.update_self, psum_congr (O' := fun x => ((V x ∧ e ∈ el x) ∧ x ≠ j) ∧ x ≠ i) (g := ν)]
      · omega
      · intro x _ _
        constructor
        · rintro ⟨⟨⟨a, b⟩, c⟩, d⟩; exact ⟨⟨⟨a, c⟩, b⟩, d⟩
        · rintro ⟨⟨⟨a, b⟩, c⟩, d⟩; exact ⟨⟨⟨a, c⟩, b⟩, d⟩
      · intro x _ _ hx; rw [Function.update_of_ne hx.2]
    · apply psum_mono
      · rintro x _ _ ⟨⟨a, _⟩, b⟩; exact ⟨a, b⟩
      · intro x _ _ hx
        rw [Function.update_of_ne]
        rintro rfl; exact hie hx.2
      · intro x _ _ hx; exact (h.vr x hx.1).2.2.2.le
  · intro e hE
    obtain ⟨x, hx, hxe⟩ := h.ne e hE
    by_cases hxj : x = j
    · subst hxj; exact ⟨i, ⟨hi, hij⟩, (he e).2 hxe⟩
    · exact ⟨x, ⟨hx, hxj⟩, hxe⟩
  · rintro x ⟨hx, _⟩; exact h.rgv x hx
  · exact h.rgo
  · rintro x ⟨hx, _⟩; exact h.ndv x hx

/-! ## The tree -/

/-- The assembly tree as it is stored in `Pe`: `root x` is the variable or element that represents `x`, `t` grows
towards the root. -/
structure Tr (n : ℤ) (pe el ν root : ℤ → ℤ) (t : ℤ → ℕ) : Prop where
  nn : ∀ x, 0 ≤ x → x < n → 0 ≤ ν x
  rr : ∀ x, 0 ≤ x → x < n → 0 ≤ root x ∧ root x < n
  a : ∀ x, 0 ≤ x → x < n → ν x ≠ 0 → root x = x
  cd : ∀ x, 0 ≤ x → x < n → ν x ≠ 0 → (((Finset.Ico 0 n).filter (root · = x)).card : ℤ) = ν x
  b : ∀ x, 0 ≤ x → x < n → ν x = 0 → (pe x = -1 ∧ root x = x) ∨
    ∃ p, pe x = flip p ∧ 0 ≤ p ∧ p < n ∧ root p = root x ∧ ν (root x) ≠ 0 ∧ t x < t p
  c : ∀ x, 0 ≤ x → x < n → ν x ≠ 0 → pe x ≤ -2 →
    ∃ p, pe x = flip p ∧ 0 ≤ p ∧ p < n ∧ ν p ≠ 0 ∧ el p ≤ -2 ∧ t x < t p

theorem exists_bound (n : ℤ) (t : ℤ → ℕ) : ∃ T, ∀ x, 0 ≤ x → x < n → t x ≤ T := by
  refine ⟨(Finset.Ico 0 n).sup t, fun x h0 h1 => Finset.le_sup (f := t) (Finset.mem_Ico.2 ⟨h0, h1⟩)⟩

open Classical in
/-- The elements `A` and the variables `M` are attached to `me`. -/
theorem Tr.attach {pe el ν root pe' el' ν' : ℤ → ℤ} {t : ℤ → ℕ} (h : Tr n pe el ν root t) {me : ℤ} {A M : ℤ → Prop}
    (m0 : 0 ≤ me) (m1 : me < n) (hm : ν me ≠ 0)
    (hA : ∀ x, 0 ≤ x → x < n → A x → x ≠ me ∧ ν x ≠ 0 ∧ ¬ M x ∧ el' me ≤ -2)
    (hM : ∀ x, 0 ≤ x → x < n → M x → x ≠ me ∧ ν x ≠ 0 ∧ -2 < el x)
    (hpe1 : ∀ x, 0 ≤ x → x < n → A x ∨ M x → pe' x = flip me)
    (hpe2 : ∀ x, 0 ≤ x → x < n → ¬ (A x ∨ M x) → pe' x = pe x ∨ (-2 < pe x ∧ -2 < pe' x ∧ ν x ≠ 0))
    (hpem : -2 < pe' me)
    (hν1 : ∀ x, 0 ≤ x → x < n → M x → ν' x = 0) (hν2 : ∀ x, 0 ≤ x → x < n → x ≠ me → ¬ M x → ν' x = ν x)
    (hνm : ν' me = ν me + psum n M ν) (hel : ∀ x, 0 ≤ x → x < n → el x ≤ -2 → el' x ≤ -2) :
    ∃ root' t', Tr n pe' el' ν' root' t' := by
  obtain ⟨T, hT⟩ := exists_bound n t
  have hnm := h.nn me m0 m1
  have hsum : 0 ≤ psum n M ν := psum_nonneg fun x a b _ => h.nn x a b
  have hνm0 : ν' me ≠ 0 := by omega
  have hMm : ¬ M me := fun hh => (hM me m0 m1 hh).1 rfl
  have hrm : root me = me := h.a me m0 m1 hm
  have hν0 : ∀ x, 0 ≤ x → x < n → (ν' x = 0 ↔ M x ∨ ν x = 0) := by
    intro x x0 x1
    by_cases hMx : M x
    · rw [hν1 x x0 x1 hMx]; simp [hMx]
    · by_cases hxm : x = me
      · subst hxm; simp [hνm0, hMx, hm]
      · rw [hν2 x x0 x1 hxm hMx]; simp [hMx]
  refine ⟨fun x => if M (root x) then me else root x, Function.update t me (T + 1), ?_⟩
  have htp : ∀ x p, 0 ≤ x → x < n → x ≠ me → t x < t p →
      Function.update t me (T + 1) x < Function.update t me (T + 1) p := by
    intro x p x0 x1 hx hlt
    rw [Function.update_of_ne hx, Function.update_apply]
    split_ifs
    · have := hT x x0 x1; omega
    · exact hlt
  have htm : ∀ x, 0 ≤ x → x < n → x ≠ me →
      Function.update t me (T + 1) x < Function.update t me (T + 1) me := by
    intro x x0 x1 hx
    rw [Function.update_of_ne hx, Function.update_self]
    have := hT x x0 x1; omega
  constructor
  · intro x x0 x1
    by_cases hMx : M x
    · rw [hν1 x x0 x1 hMx]
    · by_cases hxm : x = me
      · subst hxm; omega
      · rw [hν2 x x0 x1 hxm hMx]; exact h.nn x x0 x1
  · intro x x0 x1
    split_ifs
    · exact ⟨m0, m1⟩
    · exact h.rr x x0 x1
  · intro x x0 x1 hx
    rw [ne_eq, hν0 x x0 x1, not_or] at hx
    have hr := h.a x x0 x1 hx.2
    rw [hr, if_neg hx.1]
  · intro x x0 x1 hx
    rw [ne_eq, hν0 x x0 x1, not_or] at hx
    by_cases hxm : x = me
    · subst hxm
      have e1 : (Finset.Ico 0 n).filter (fun y => (if M (root y) then x else root y) = x)
          = (Finset.Ico 0 n).filter (fun y => root y = x ∨ M (root y)) := by
        ext y
        simp only [Finset.mem_filter]
        by_cases hy : M (root y) <;> simp [hy]
      rw [e1, Finset.card_eq_sum_card_fiberwise (f := root)
        (t := (Finset.Ico 0 n).filter (fun y => y = x ∨ M y))]
      · have e2 : ∀ b ∈ (Finset.Ico 0 n).filter (fun y => y = x ∨ M y),
            ((((Finset.Ico 0 n).filter (fun y => root y = x ∨ M (root y))).filter (root · = b)).card : ℤ) = ν b := by
          intro b hb
          rw [Finset.mem_filter, Finset.mem_Ico] at hb
          have hνb : ν b ≠ 0 := by
            rcases hb.2 with rfl | hb'
            · exact hm
            · exact (hM b hb.1.1 hb.1.2 hb').2.1
          rw [← h.cd b hb.1.1 hb.1.2 hνb]
          congr 2
          ext y
          simp only [Finset.mem_filter]
          constructor
          · rintro ⟨⟨a, _⟩, c⟩; exact ⟨a, c⟩
          · rintro ⟨a, rfl⟩; exact ⟨⟨a, hb.2⟩, rfl⟩
        rw [Nat.cast_sum, Finset.sum_congr rfl e2, hνm, Finset.sum_filter]
        have e3 : psum n (fun y => y = x ∨ M y) ν = ν x + psum n M ν := by
          rw [psum_erase (O := fun y => y = x ∨ M y) (e := x) (Or.inl rfl) m0 m1, add_comm]
          congr 1
          refine psum_congr ?_ fun _ _ _ _ => rfl
          intro y _ _
          constructor
          · rintro ⟨h1 | h1, h2⟩
            · exact absurd h1 h2
            · exact h1
          · intro h1; exact ⟨Or.inr h1, by rintro rfl; exact hMm h1⟩
        rw [← e3]
        unfold psum
        exact Finset.sum_congr rfl fun y _ => by congr 1
      · intro y hy
        simp only [Finset.coe_filter, Set.mem_ofPred_eq, Finset.mem_Ico] at hy ⊢
        exact ⟨h.rr y hy.1.1 hy.1.2, hy.2⟩
    · rw [hν2 x x0 x1 hxm hx.1, ← h.cd x x0 x1 hx.2]
      congr 2
      ext y
      simp only [Finset.mem_filter]
      by_cases hy : M (root y)
      · rw [if_pos hy]
        constructor
        · rintro ⟨_, b⟩; exact absurd b.symm hxm
        · rintro ⟨_, rfl⟩; exact absurd hy hx.1
      · rw [if_neg hy]
  · intro x x0 x1 hx
    have hxm : x ≠ me := by rintro rfl; exact hνm0 hx
    rcases (hν0 x x0 x1).1 hx with hMx | hx0
    · right
      have hr := h.a x x0 x1 (hM x x0 x1 hMx).2.1
      refine ⟨me, hpe1 x x0 x1 (Or.inr hMx), m0, m1, ?_, ?_, htm x x0 x1 hxm⟩
      · rw [hrm, if_neg hMm, hr, if_pos hMx]
      · rw [hr, if_pos hMx]; exact hνm0
    · have hnAM : ¬ (A x ∨ M x) := by
        rintro (hh | hh)
        · exact (hA x x0 x1 hh).2.1 hx0
        · exact (hM x x0 x1 hh).2.1 hx0
      have hpx : pe' x = pe x := by
        rcases hpe2 x x0 x1 hnAM with e | ⟨_, _, e⟩
        · exact e
        · exact absurd hx0 e
      rw [hpx]
      rcases h.b x x0 x1 hx0 with ⟨e1, e2⟩ | ⟨p, e1, p0, p1, e2, e3, e4⟩
      · left
        refine ⟨e1, ?_⟩
        rw [e2, if_neg fun hh => hnAM (Or.inr hh)]
      · right
        refine ⟨p, e1, p0, p1, ?_, ?_, htp x p x0 x1 hxm e4⟩
        · rw [e2]
        · split_ifs with hh
          · exact hνm0
          · have := h.rr x x0 x1
            rw [ne_eq, hν0 _ this.1 this.2]
            push Not
            exact ⟨hh, e3⟩
  · intro x x0 x1 hx hpx
    rw [ne_eq, hν0 x x0 x1, not_or] at hx
    have hxm : x ≠ me := by rintro rfl; omega
    by_cases hAx : A x
    · have := hA x x0 x1 hAx
      exact ⟨me, hpe1 x x0 x1 (Or.inl hAx), m0, m1, hνm0, this.2.2.2, htm x x0 x1 hxm⟩
    · have hpx' : pe' x = pe x := by
        rcases hpe2 x x0 x1 (fun hh => hh.elim hAx hx.1) with e | ⟨_, e, _⟩
        · exact e
        · omega
      rw [hpx'] at hpx ⊢
      obtain ⟨p, e1, p0, p1, e2, e3, e4⟩ := h.c x x0 x1 hx.2 hpx
      refine ⟨p, e1, p0, p1, ?_, hel p p0 p1 e3, htp x p x0 x1 hxm e4⟩
      rw [ne_eq, hν0 p p0 p1, not_or]
      refine ⟨fun hh => ?_, e2⟩
      have := (hM p p0 p1 hh).2.2
      omega

/-- Nothing is attached. -/
theorem Tr.congr {pe el ν root pe' el' ν' : ℤ → ℤ} {t : ℤ → ℕ} (h : Tr n pe el ν root t)
    (hpe : ∀ x, 0 ≤ x → x < n → pe' x = pe x ∨ (-2 < pe x ∧ -2 < pe' x ∧ ν x ≠ 0))
    (hν : ∀ x, 0 ≤ x → x < n → ν' x = ν x) (hel : ∀ x, 0 ≤ x → x < n → el x ≤ -2 → el' x ≤ -2) :
    Tr n pe' el' ν' root t := by
  constructor
  · intro x x0 x1; rw [hν x x0 x1]; exact h.nn x x0 x1
  · exact h.rr
  · intro x x0 x1 hx; rw [hν x x0 x1] at hx; exact h.a x x0 x1 hx
  · intro x x0 x1 hx; rw [hν x x0 x1] at hx ⊢; exact h.cd x x0 x1 hx
  · intro x x0 x1 hx
    rw [hν x x0 x1] at hx
    have hpx : pe' x = pe x := by
      rcases hpe x x0 x1 with e | ⟨_, _, e⟩
      · exact e
      · exact absurd hx e
    have hr := h.rr x x0 x1
    rw [hpx, hν _ hr.1 hr.2]
    exact h.b x x0 x1 hx
  · intro x x0 x1 hx hp
    rw [hν x x0 x1] at hx
    have hpx : pe' x = pe x := by
      rcases hpe x x0 x1 with e | ⟨_, e, _⟩
      · exact e
      · omega
    rw [hpx] at hp ⊢
    obtain ⟨p, e1, p0, p1, e2, e3, e4⟩ := h.c x x0 x1 hx hp
    exact ⟨p, e1, p0, p1, by rw [hν p p0 p1]; exact e2, hel p p0 p1 e3, e4⟩

end Slip.Amd
