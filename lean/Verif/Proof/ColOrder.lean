import Verif.Proof.ColInv
import Verif.Spec

/-!
# COLAMD: the final ordering
-/

namespace Slip.Colamd

set_option linter.unusedSectionVars false

variable [Arith]
variable {n m Al L n2 k : ℤ} {s : Mem} {F F0 : Sh} {root : ℤ → ℤ} {e : ℤ → ℕ}

/-- The number of columns below `i` that `c` has absorbed. -/
def acnt (root : ℤ → ℤ) (c i : ℤ) : ℕ :=
  ((Finset.Ico 0 i).filter fun y => root y = c ∧ y ≠ c).card

theorem acnt_zero (c : ℤ) : acnt root c 0 = 0 := by simp [acnt]

theorem acnt_succ (c : ℤ) {i : ℤ} (hi : 0 ≤ i) :
    acnt root c (i + 1) = acnt root c i + if root i = c ∧ i ≠ c then 1 else 0 := by
  unfold acnt
  have : Finset.Ico 0 (i + 1) = insert i (Finset.Ico 0 i) := by
    ext x; simp only [Finset.mem_insert, Finset.mem_Ico]; omega
  rw [this, Finset.filter_insert]
  split_ifs with h
  · rw [Finset.card_insert_of_notMem (by simp)]
  · rfl

theorem acnt_mono (c : ℤ) {i j : ℤ} (h : i ≤ j) : acnt root c i ≤ acnt root c j := by
  unfold acnt
  apply Finset.card_le_card
  intro x hx
  rw [Finset.mem_filter, Finset.mem_Ico] at hx ⊢
  exact ⟨⟨hx.1.1, by omega⟩, hx.2⟩

theorem acnt_lt {c i j : ℤ} (h : i < j) (hi : 0 ≤ i) (hc : root i = c ∧ i ≠ c) :
    acnt root c i < acnt root c j := by
  have h1 := acnt_succ (root := root) c hi
  rw [if_pos hc] at h1
  have h2 := acnt_mono (root := root) c (show i + 1 ≤ j by omega)
  omega

/-- All columns are ordered or absorbed. -/
structure Fin0 (n : ℤ) (F : Sh) (root : ℤ → ℤ) (e : ℤ → ℕ) : Prop where
  cs : ∀ x, 0 ≤ x → x < n → F .cs x = -1 ∨ F .cs x = -2
  rt : ∀ x, 0 ≤ x → x < n → 0 ≤ root x ∧ root x < n ∧ F .cs (root x) = -1
  se : ∀ x, 0 ≤ x → x < n → F .cs x = -1 → root x = x
  pa : ∀ x, 0 ≤ x → x < n → F .cs x = -2 →
    0 ≤ F .c1 x ∧ F .c1 x < n ∧ root (F .c1 x) = root x ∧ e (F .c1 x) < e x ∧ F .c2 x = -1
  ez : ∀ x, 0 ≤ x → x < n → F .cs x = -1 → e x = 0
  en : ∀ x, 0 ≤ x → x < n → (e x : ℤ) < n
  sz : ∀ c, 0 ≤ c → c < n → F .cs c = -1 → (acnt root c n : ℤ) = F .c1 c - 1
  od : ∀ c, 0 ≤ c → c < n → F .cs c = -1 → 0 ≤ F .c2 c ∧ F .c2 c + F .c1 c ≤ n
  dj : ∀ c c', 0 ≤ c → c < n → F .cs c = -1 → 0 ≤ c' → c' < n → F .cs c' = -1 → c ≠ c' →
    F .c2 c + F .c1 c ≤ F .c2 c' ∨ F .c2 c' + F .c1 c' ≤ F .c2 c

theorem Gh.fin (h : Gh n n2 k F (fun c => F .cs c = -1) root e)
    (ha : ∀ c, 0 ≤ c → c < n → F .cs c < 0) : Fin0 n F root e := by
  have hcs : ∀ x, 0 ≤ x → x < n → F .cs x = -1 ∨ F .cs x = -2 := by
    intro x x0 x1
    have := ha x x0 x1
    have := h.kd x x0 x1
    omega
  have hrt : ∀ x, 0 ≤ x → x < n → 0 ≤ root x ∧ root x < n ∧ F .cs (root x) = -1 := by
    intro x x0 x1
    obtain ⟨a, b, c⟩ := h.rt x x0 x1
    exact ⟨a, b, (hcs _ a b).resolve_right c⟩
  constructor
  · exact hcs
  · exact hrt
  · intro x x0 x1 hx; exact h.se x x0 x1 (by omega)
  · exact h.pa
  · intro x x0 x1 hx; exact h.ez x x0 x1 (by omega)
  · intro x x0 x1
    obtain ⟨a, b, c⟩ := hrt x x0 x1
    have h1 := h.eb x x0 x1
    have h2 := h.od (root x) a b c
    omega
  · intro c c0 c1 hc
    rw [← h.sz c c0 c1 (by omega)]
    have hrc : root c = c := h.se c c0 c1 (by omega)
    have : (Finset.Ico 0 n).filter (fun x => root x = c) =
        insert c ((Finset.Ico 0 n).filter fun y => root y = c ∧ y ≠ c) := by
      ext x
      simp only [Finset.mem_insert, Finset.mem_filter, Finset.mem_Ico]
      constructor
      · rintro ⟨h1, h2⟩
        by_cases hx : x = c
        · exact Or.inl hx
        · exact Or.inr ⟨h1, h2, hx⟩
      · rintro (h1 | ⟨h1, h2, _⟩)
        · subst h1; exact ⟨⟨c0, c1⟩, hrc⟩
        · exact ⟨h1, h2⟩
    rw [this, Finset.card_insert_of_notMem (by simp)]
    unfold acnt
    push_cast; ring
  · intro c c0 c1 hc
    have := h.od c c0 c1 hc
    exact ⟨this.2.1, this.2.2.1⟩
  · intro c c' c0 c1 hc c0' c1' hc'; exact h.dj c c' c0 c1 hc c0' c1' hc'

/-- The state in the first loop of `order_children`: the columns below `i` are done. -/
structure OC (n m Al L : ℤ) (F0 : Sh) (root : ℤ → ℤ) (e : ℤ → ℕ) (i : ℤ) (s : Mem) (F : Sh) :
    Prop where
  rp : Rm n m Al L s F
  cs : F .cs = F0 .cs
  pa : ∀ x, 0 ≤ x → x < n → F0 .cs x = -2 →
    0 ≤ F .c1 x ∧ F .c1 x < n ∧ root (F .c1 x) = root x ∧ e (F .c1 x) < e x
  ro : ∀ c, 0 ≤ c → c < n → F0 .cs c = -1 → F .c2 c = F0 .c2 c + acnt root c i
  dn : ∀ x, 0 ≤ x → x < n → F0 .cs x = -2 → x < i →
    F .c2 x = F0 .c2 (root x) + acnt root (root x) x
  un : ∀ x, F0 .cs x = -2 → i ≤ x → F .c2 x = F0 .c2 x

theorem findParent_spec (h0 : Fin0 n F0 root e) {i : ℤ} (h : OC n m Al L F0 root e i s F) :
    ∀ (fuel : ℕ) (x : ℤ), 0 ≤ x → x < n → F0 .cs x = -2 → e x < fuel →
      findParent s fuel x = .ok (root x) := by
  intro fuel
  induction fuel with
  | zero => intro x _ _ _ hf; omega
  | succ fuel ih =>
    intro x x0 x1 hx hf
    obtain ⟨a, b, c, d⟩ := h.pa x x0 x1 hx
    rw [findParent, h.rp.rd (f := .c1) (show 0 ≤ x ∧ x < n from ⟨x0, x1⟩), ok_bind,
      h.rp.rd (f := .cs) (show 0 ≤ F .c1 x ∧ F .c1 x < n from ⟨a, b⟩), ok_bind, h.cs]
    split_ifs with hh
    · rw [← c, h0.se _ a b hh]; rfl
    · rw [ih (F .c1 x) a b ((h0.cs _ a b).resolve_left hh) (by omega), c]

theorem orderLoop_spec (hn : 0 ≤ n) (h0 : Fin0 n F root e) (h : Rm n m Al L s F) :
    wp (forRange 0 n s fun i s => do
      let st ← s.rd .cs i
      let o ← s.rd .c2 i
      if st ≠ -1 ∧ o = -1 then do
        let parent ← findParent s (n.toNat + 1) i
        let order ← s.rd .c2 parent
        let (s, order) ← orderUp parent (n.toNat + 1) i order s
        s.wr .c2 parent order
      else pure s)
      (fun s' => ∃ F', OC n m Al L F root e n s' F') noFail := by
  refine wp_forRange (fun i (s' : Mem) => ∃ F', OC n m Al L F root e i s' F') hn ?_ ?_
  · refine ⟨F, h, rfl, ?_, ?_, ?_, fun _ _ _ => rfl⟩
    · intro x x0 x1 hx
      obtain ⟨a, b, c, d, _⟩ := h0.pa x x0 x1 hx
      exact ⟨a, b, c, d⟩
    · intro c _ _ _; rw [acnt_zero]; simp
    · intro x x0 _ _ hx; omega
  · rintro i s i0 i1 ⟨F', g⟩
    rw [g.rp.rd (f := .cs) (show 0 ≤ i ∧ i < n from ⟨i0, i1⟩), ok_bind,
      g.rp.rd (f := .c2) (show 0 ≤ i ∧ i < n from ⟨i0, i1⟩), ok_bind, g.cs]
    rcases h0.cs i i0 i1 with hi | hi
    · rw [if_neg (by omega), wp_pure]
      obtain ⟨a1, a2, a3, a4, a5, a6⟩ := g
      refine ⟨F', a1, a2, a3, ?_, ?_, fun x hs hx => a6 x hs (by omega)⟩
      · intro c c0 c1 hc
        rw [acnt_succ c i0, if_neg, a4 c c0 c1 hc]
        · simp
        · rintro ⟨h1, h2⟩
          rw [h0.se i i0 i1 hi] at h1
          exact h2 h1
      · intro x x0 x1 hx hl
        have : x ≠ i := by rintro rfl; omega
        exact a5 x x0 x1 hx (by omega)
    · obtain ⟨u1, u2, u3, u4, u5⟩ := h0.pa i i0 i1 hi
      obtain ⟨r0, r1, r2⟩ := h0.rt i i0 i1
      have hne : root i ≠ i := fun hh => by rw [hh] at r2; omega
      have hen := h0.en i i0 i1
      have hod := h0.od _ r0 r1 r2
      rw [if_pos ⟨by omega, by rw [g.un i hi le_rfl]; exact u5⟩, findParent_spec h0 g (n.toNat + 1) i i0 i1 hi (by omega), ok_bind,
        g.rp.rd (f := .c2) (show 0 ≤ root i ∧ root i < n from ⟨r0, r1⟩), ok_bind, g.ro _ r0 r1 r2]
      generalize ho : F .c2 (root i) + (acnt root (root i) i : ℤ) = o
      rw [orderUp]
      obtain ⟨s1, e1, g1⟩ := g.rp.wr (f := .c2) (i := i) ⟨i0, i1⟩ o
      rw [e1, ok_bind]
      obtain ⟨s2, e2, g2⟩ := g1.wr (f := .c1) (i := i) ⟨i0, i1⟩ (root i)
      rw [e2, ok_bind, g2.rd (f := .c1) (show 0 ≤ i ∧ i < n from ⟨i0, i1⟩), ok_bind,
        set_apply, if_pos ⟨rfl, rfl⟩,
        g2.rd (f := .c2) (show 0 ≤ root i ∧ root i < n from ⟨r0, r1⟩), ok_bind,
        set_ne _ (by decide), set_apply, if_neg (show ¬ (Fld.c2 = Fld.c2 ∧ root i = i) from
          fun hh => hne hh.2), g.ro _ r0 r1 r2]
      have hsz := h0.sz _ r0 r1 r2
      have hmo := acnt_mono (root := root) (root i) i1.le
      rw [bind_assoc]
      cks g.rp
      rw [if_neg (by omega), pure_bind']
      dsimp only
      obtain ⟨s3, e3, g3⟩ := g2.wr (f := .c2) (i := root i) ⟨r0, r1⟩ (o + 1)
      rw [e3, wp_ok]
      generalize hF3 : set (set (set F' .c2 i o) .c1 i (root i)) .c2 (root i) (o + 1) = F3 at g3
      have b1 : ∀ f, f ≠ .c1 → f ≠ .c2 → F3 f = F' f := by
        intro f h1 h2; rw [← hF3, set_ne _ h2, set_ne _ h1, set_ne _ h2]
      have bc1 : ∀ x, F3 .c1 x = if x = i then root i else F' .c1 x := by
        intro x
        rw [← hF3, set_ne _ (by decide), set_apply, set_ne _ (by decide)]; simp
      have bc2 : ∀ x, F3 .c2 x = if x = root i then o + 1 else if x = i then o else F' .c2 x := by
        intro x
        rw [← hF3, set_apply, set_ne _ (by decide), set_apply]; simp
      refine ⟨F3, g3, ?_, ?_, ?_, ?_, ?_⟩
      · rw [b1 .cs (by decide) (by decide), g.cs]
      · intro x x0 x1 hx
        rw [bc1]
        split_ifs with hxi
        · subst hxi
          refine ⟨r0, r1, h0.se _ r0 r1 r2, ?_⟩
          rw [h0.ez _ r0 r1 r2]; omega
        · exact g.pa x x0 x1 hx
      · intro c c0 c1 hc
        rw [bc2, acnt_succ c i0]
        by_cases hcr : c = root i
        · subst hcr
          rw [if_pos rfl, if_pos ⟨rfl, Ne.symm hne⟩]; push_cast; omega
        · have hci : c ≠ i := by rintro rfl; omega
          rw [if_neg hcr, if_neg hci, if_neg (fun hh => hcr hh.1.symm), g.ro c c0 c1 hc]; simp
      · intro x x0 x1 hx hl
        have hxr : x ≠ root i := by rintro rfl; omega
        rw [bc2, if_neg hxr]
        split_ifs with hxi
        · subst hxi; omega
        · exact g.dn x x0 x1 hx (by omega)
      · intro x hs hx
        have hxr : x ≠ root i := by rintro rfl; omega
        rw [bc2, if_neg hxr, if_neg (by omega)]; exact g.un x hs (by omega)

/-- The position of column `x`. -/
def pos (n : ℤ) (F : Sh) (root : ℤ → ℤ) (x : ℤ) : ℤ :=
  F .c2 (root x) + acnt root (root x) (if root x = x then n else x)

theorem Fin0.pos_range (h : Fin0 n F root e) {x : ℤ} (x0 : 0 ≤ x) (x1 : x < n) :
    F .c2 (root x) ≤ pos n F root x ∧ pos n F root x < F .c2 (root x) + F .c1 (root x) := by
  obtain ⟨r0, r1, r2⟩ := h.rt x x0 x1
  have h1 := h.sz _ r0 r1 r2
  unfold pos
  split_ifs with hx
  · omega
  · have := acnt_lt (root := root) (c := root x) x1 x0 ⟨rfl, Ne.symm hx⟩
    omega

theorem Fin0.pos_inj (h : Fin0 n F root e) {x y : ℤ} (x0 : 0 ≤ x) (x1 : x < n) (y0 : 0 ≤ y)
    (y1 : y < n) (he : pos n F root x = pos n F root y) : x = y := by
  have hx := h.pos_range x0 x1
  have hy := h.pos_range y0 y1
  obtain ⟨r0, r1, r2⟩ := h.rt x x0 x1
  obtain ⟨q0, q1, q2⟩ := h.rt y y0 y1
  have hr : root x = root y := by
    by_contra hne
    have := h.dj _ _ r0 r1 r2 q0 q1 q2 hne
    omega
  unfold pos at he
  rw [← hr] at he
  by_contra hne
  by_cases hxr : root x = x
  · have hyr : root y ≠ y := fun hh => hne (by rw [← hxr, hr, hh])
    rw [if_pos hxr, if_neg (by rw [hr]; exact hyr)] at he
    have := acnt_lt (root := root) (c := root x) y1 y0 ⟨hr.symm, by rw [hr]; exact Ne.symm hyr⟩
    omega
  · rw [if_neg hxr] at he
    by_cases hyr : root y = y
    · rw [if_pos (by rw [hr]; exact hyr)] at he
      have := acnt_lt (root := root) (c := root x) x1 x0 ⟨rfl, Ne.symm hxr⟩
      omega
    · rw [if_neg (by rw [hr]; exact hyr)] at he
      rcases lt_or_gt_of_ne hne with hl | hl
      · have := acnt_lt (root := root) (c := root x) hl x0 ⟨rfl, Ne.symm hxr⟩
        omega
      · have := acnt_lt (root := root) (c := root x) hl y0 ⟨hr.symm, by rw [hr]; exact Ne.symm hyr⟩
        omega

theorem order_children_spec {N : ℕ} (h0 : Fin0 N F root e) (h : Rm N m Al L s F) :
    wp (order_children N s) (fun s' => ∃ τ : Equiv.Perm (Fin N), Holds (s' .p) τ) noFail := by
  unfold order_children
  refine wp_bind_ok (orderLoop_spec (by omega) h0 h) ?_
  rintro s1 ⟨F1, g⟩
  have hc2 : ∀ x, 0 ≤ x → x < (N : ℤ) → F1 .c2 x = pos N F root x := by
    intro x x0 x1
    unfold pos
    rcases h0.cs x x0 x1 with hx | hx
    · have hr := h0.se x x0 x1 hx
      rw [g.ro x x0 x1 hx, if_pos hr, hr]
    · have hr : root x ≠ x := fun hh => by
        have := (h0.rt x x0 x1).2.2
        rw [hh] at this; omega
      rw [g.dn x x0 x1 hx x1, if_neg hr]
  have hpr : ∀ x, 0 ≤ x → x < (N : ℤ) → 0 ≤ pos N F root x ∧ pos N F root x < N := by
    intro x x0 x1
    have h1 := h0.pos_range x0 x1
    obtain ⟨r0, r1, r2⟩ := h0.rt x x0 x1
    have h2 := h0.od _ r0 r1 r2
    omega
  refine wp_post (wp_forRange (fun i (s' : Mem) => ∃ F', Rm N m Al L s' F' ∧ F' .c2 = F1 .c2 ∧
    ∀ x, 0 ≤ x → x < i → F' .p (pos N F root x) = x) (by omega) ?_ ?_) ?_
  · exact ⟨F1, g.rp, rfl, fun x x0 x1 => by omega⟩
  · rintro i s i0 i1 ⟨F', g', e2, hp⟩
    rw [g'.rd (f := .c2) (show 0 ≤ i ∧ i < (N : ℤ) from ⟨i0, i1⟩), ok_bind, e2, hc2 i i0 i1]
    have hi := hpr i i0 i1
    obtain ⟨s2, e3, g2⟩ := g'.wr (f := .p) (i := pos N F root i) ⟨hi.1, by omega⟩ i
    rw [e3, wp_ok]
    refine ⟨_, g2, by rw [set_ne _ (by decide), e2], ?_⟩
    intro x x0 x1
    rw [set_apply]
    split_ifs with hx
    · exact (h0.pos_inj x0 (by omega) i0 i1 hx.2).symm
    · refine hp x x0 ?_
      by_contra hh
      have : x = i := by omega
      exact hx ⟨rfl, by rw [this]⟩
  · rintro s' ⟨F', g', _, hp⟩
    let f : Fin N → Fin N := fun x => ⟨(pos N F root x).toNat, by
      have := hpr x (by omega) (by omega); omega⟩
    have hf : ∀ x : Fin N, ((f x : ℕ) : ℤ) = pos N F root x := fun x => by
      have := hpr x (by omega) (by omega)
      show (((pos N F root x).toNat : ℕ) : ℤ) = _
      omega
    have hinj : Function.Injective f := by
      intro x y hxy
      have : pos N F root x = pos N F root y := by rw [← hf, ← hf, hxy]
      have := h0.pos_inj (by omega) (by omega) (by omega) (by omega) this
      exact Fin.ext (by omega)
    have hb : Function.Bijective f := Finite.injective_iff_bijective.1 hinj
    refine ⟨(Equiv.ofBijective f hb).symm, ?_⟩
    intro t
    obtain ⟨x, hx⟩ := hb.2 t
    have : (Equiv.ofBijective f hb).symm t = x := by
      rw [Equiv.symm_apply_eq]; exact hx.symm
    rw [this]
    have ht : ((t : ℕ) : ℤ) = pos N F root x := by rw [← hx, hf]
    have hr := hpr x (by omega) (by omega)
    rw [ht, g'.val .p _ ⟨hr.1, by omega⟩, hp x (by omega) (by omega)]

end Slip.Colamd
