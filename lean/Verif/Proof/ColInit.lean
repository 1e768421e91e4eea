import Verif.Proof.ColScore

/-!
# COLAMD: reading the matrix
-/

namespace Slip.Colamd

set_option linter.unusedSectionVars false

variable [Arith]
variable {n m Al nnz : ℤ} {s : Mem} {F : Sh} {P A0 : ℤ → ℤ}

/-- The part of the memory that is initialised while the matrix is read. -/
def DI (n : ℤ) (DA : ℤ → Prop) (kc kr k1 : ℤ) : Fld → ℤ → Prop
  | .A, i => DA i
  | .p, i => 0 ≤ i ∧ i < n + 1
  | .rl, i | .r2, i => 0 ≤ i ∧ i < kr
  | .rs, i | .r1, i => 0 ≤ i ∧ i < k1
  | _, i => 0 ≤ i ∧ i < kc

/-- The pointers are monotone and the row indices are in range. -/
def Valid (n m nnz : ℤ) (P A0 : ℤ → ℤ) : Prop :=
  (∀ c, 0 ≤ c → c < n → P c ≤ P (c + 1)) ∧ ∀ t, 0 ≤ t → t < nnz → 0 ≤ A0 t ∧ A0 t < m

/-- The matrix is rejected. -/
def Rej (n m nnz : ℤ) (P A0 : ℤ → ℤ) (e : Fail) : Prop :=
  e = .ret .incorrectInput ∧ ¬ Valid n m nnz P A0

/-- The columns have no duplicate entries. -/
def NoDup (n : ℤ) (P A0 : ℤ → ℤ) : Prop :=
  ∀ c, 0 ≤ c → c < n → ∀ t t', P c ≤ t → t < P (c + 1) → P c ≤ t' → t' < P (c + 1) →
    A0 t = A0 t' → t = t'

/-- The state after `initCols` has done the columns below `k`. -/
structure I1 (n m nnz Al : ℤ) (P A0 : ℤ → ℤ) (k kr : ℤ) (s : Mem) (F : Sh) : Prop where
  rp : Rp n m Al (DI n (fun i => 0 ≤ i ∧ i < nnz) k kr 0) s F
  eA : ∀ i, 0 ≤ i → i < nnz → F .A i = A0 i
  ep : ∀ i, 0 ≤ i → i ≤ n → F .p i = P i
  cs : ∀ c, 0 ≤ c → c < k → F .cs c = P c ∧ F .cl c = P (c + 1) - P c ∧ F .c1 c = 1
  mono : ∀ c, 0 ≤ c → c < k → P c ≤ P (c + 1)
  rw : ∀ r, 0 ≤ r → r < kr → F .rl r = 0 ∧ F .r2 r = -1

theorem initCols_spec (hn : 0 ≤ n)
    (hck : ∀ c, 0 ≤ c → c < n → ck (P (c + 1) - P c) = .ok (P (c + 1) - P c)) (h : I1 n m nnz Al P A0 0 0 s F) :
    wp (initCols n s) (fun s' => ∃ F', I1 n m nnz Al P A0 n 0 s' F') (Rej n m nnz P A0) := by
  unfold initCols
  refine wp_forRange (fun i (s' : Mem) => ∃ F', I1 n m nnz Al P A0 i 0 s' F') hn ⟨F, h⟩ ?_
  rintro i s i0 i1 ⟨F, g⟩
  rw [g.rp.rd (f := .p) (show 0 ≤ i ∧ i < n + 1 from ⟨i0, by omega⟩), ok_bind]
  cks g.rp
  rw [g.rp.rd (f := .p) (show 0 ≤ i + 1 ∧ i + 1 < n + 1 from ⟨by omega, by omega⟩), ok_bind,
    g.ep i i0 (by omega), g.ep (i + 1) (by omega) (by omega)]
  have hc : i < n + 1 := by omega
  obtain ⟨s1, e1, g1⟩ := g.rp.wrx (f := .cs) (i := i) (P i) i0 hc
  rw [e1, ok_bind, hck i i0 i1, ok_bind]
  obtain ⟨s2, e2, g2⟩ := g1.wrx (f := .cl) (i := i) (P (i + 1) - P i) i0 hc
  rw [e2, ok_bind]
  split_ifs with hneg
  · refine ⟨rfl, fun hv => ?_⟩
    have := hv.1 i i0 i1
    omega
  · obtain ⟨s3, e3, g3⟩ := g2.wrx (f := .c1) (i := i) 1 i0 hc
    rw [e3, ok_bind]
    obtain ⟨s4, e4, g4⟩ := g3.wrx (f := .c2) (i := i) 0 i0 hc
    rw [e4, ok_bind]
    obtain ⟨s5, e5, g5⟩ := g4.wrx (f := .c3) (i := i) (-1) i0 hc
    rw [e5, ok_bind]
    obtain ⟨s6, e6, g6⟩ := g5.wrx (f := .c4) (i := i) (-1) i0 hc
    rw [e6, wp_ok]
    refine ⟨_, g6.mono ?_, ?_, ?_, ?_, ?_, ?_⟩
    · intro f j hj
      by_cases hji : j = i
      · subst hji
        cases f <;> simp only [DI] at hj ⊢ <;> simp <;> omega
      · cases f <;> simp only [DI] at hj ⊢ <;> simp [hji] <;> omega
    · intro j j0 j1
      rw [set_ne _ (by decide), set_ne _ (by decide), set_ne _ (by decide), set_ne _ (by decide),
        set_ne _ (by decide), set_ne _ (by decide)]
      exact g.eA j j0 j1
    · intro j j0 j1
      rw [set_ne _ (by decide), set_ne _ (by decide), set_ne _ (by decide), set_ne _ (by decide),
        set_ne _ (by decide), set_ne _ (by decide)]
      exact g.ep j j0 j1
    · intro c c0 c1
      by_cases hci : c = i
      · subst hci
        simp [set_apply]
      · have := g.cs c c0 (by omega)
        simp [set_apply, hci, this]
    · intro c c0 c1
      by_cases hci : c = i
      · subst hci; omega
      · exact g.mono c c0 (by omega)
    · intro r r0 r1; omega

theorem initRows_spec (hm : 0 ≤ m) (h : I1 n m nnz Al P A0 n 0 s F) :
    wp (initRows m s) (fun s' => ∃ F', I1 n m nnz Al P A0 n m s' F') (Rej n m nnz P A0) := by
  unfold initRows
  refine wp_forRange (fun i (s' : Mem) => ∃ F', I1 n m nnz Al P A0 n i s' F') hm ⟨F, h⟩ ?_
  rintro i s i0 i1 ⟨F, g⟩
  have hc : i < m + 1 := by omega
  obtain ⟨s1, e1, g1⟩ := g.rp.wrx (f := .rl) (i := i) 0 i0 hc
  rw [e1, ok_bind]
  obtain ⟨s2, e2, g2⟩ := g1.wrx (f := .r2) (i := i) (-1) i0 hc
  rw [e2, wp_ok]
  refine ⟨_, g2.mono ?_, ?_, ?_, ?_, g.mono, ?_⟩
  · intro f j hj
    by_cases hji : j = i
    · subst hji
      cases f <;> simp only [DI] at hj ⊢ <;> simp <;> omega
    · cases f <;> simp only [DI] at hj ⊢ <;> simp [hji] <;> omega
  · intro j j0 j1
    rw [set_ne _ (by decide), set_ne _ (by decide)]
    exact g.eA j j0 j1
  · intro j j0 j1
    rw [set_ne _ (by decide), set_ne _ (by decide)]
    exact g.ep j j0 j1
  · intro c c0 c1
    rw [set_ne _ (by decide), set_ne _ (by decide), set_ne _ (by decide), set_ne _ (by decide),
      set_ne _ (by decide), set_ne _ (by decide)]
    exact g.cs c c0 c1
  · intro r r0 r1
    by_cases hri : r = i
    · subst hri; simp [set_apply]
    · have := g.rw r r0 (by omega)
      simp [set_apply, hri, this]

/-- The number of entries of row `r` before position `pos`. -/
def cnt (A0 : ℤ → ℤ) (r pos : ℤ) : ℕ := ((Finset.Ico 0 pos).filter fun t => A0 t = r).card

theorem cnt_succ (r : ℤ) {pos : ℤ} (h : 0 ≤ pos) :
    cnt A0 r (pos + 1) = cnt A0 r pos + if A0 pos = r then 1 else 0 := by
  unfold cnt
  have : Finset.Ico 0 (pos + 1) = insert pos (Finset.Ico 0 pos) := by
    ext x; simp only [Finset.mem_insert, Finset.mem_Ico]; omega
  rw [this, Finset.filter_insert]
  split_ifs with h
  · rw [Finset.card_insert_of_notMem (by simp)]
  · rfl

theorem cnt_zero (r : ℤ) : cnt A0 r 0 = 0 := by simp [cnt]

theorem cnt_mono (r : ℤ) {i j : ℤ} (h : i ≤ j) : cnt A0 r i ≤ cnt A0 r j := by
  unfold cnt
  apply Finset.card_le_card
  intro x hx
  rw [Finset.mem_filter, Finset.mem_Ico] at hx ⊢
  exact ⟨⟨hx.1.1, by omega⟩, hx.2⟩

theorem P_mono (h : ∀ c, 0 ≤ c → c < n → P c ≤ P (c + 1)) {a b : ℤ} (ha : 0 ≤ a) (hab : a ≤ b)
    (hb : b ≤ n) : P a ≤ P b := by
  have key : ∀ k : ℕ, a + k ≤ n → P a ≤ P (a + k) := by
    intro k
    induction k with
    | zero => intro _; simp
    | succ k ih =>
      intro hk
      push_cast at hk ⊢
      have h1 := ih (by omega)
      have h2 := h (a + k) (by omega) (by omega)
      rw [← add_assoc]
      omega
  have := key (b - a).toNat (by omega)
  rw [show a + ((b - a).toNat : ℤ) = b by omega] at this
  exact this

/-- The marks while column `col` is scanned, up to position `pos`. -/
def MkC (m : ℤ) (P A0 : ℤ → ℤ) (col pos : ℤ) (F : Sh) : Prop :=
  ∀ r, 0 ≤ r → r < m → F .r2 r ≤ col ∧ (F .r2 r = col → ∃ t, P col ≤ t ∧ t < pos ∧ A0 t = r)

/-- The state while the entries are counted. -/
structure I2 (n m nnz Al : ℤ) (P A0 : ℤ → ℤ) (col pos : ℤ) (s : Mem) (F : Sh) : Prop where
  rp : Rp n m Al (DI n (fun i => 0 ≤ i ∧ i < nnz) n m 0) s F
  eA : ∀ i, 0 ≤ i → i < nnz → F .A i = A0 i
  ep : ∀ i, 0 ≤ i → i ≤ n → F .p i = P i
  cs : ∀ c, 0 ≤ c → c < n → F .cs c = P c ∧ F .c1 c = 1
  cl : NoDup n P A0 → ∀ c, 0 ≤ c → c < n → F .cl c = P (c + 1) - P c
  rl : NoDup n P A0 → ∀ r, 0 ≤ r → r < m → F .rl r = cnt A0 r pos
  cb : ∀ c, 0 ≤ c → c < n → -pos ≤ F .cl c ∧ F .cl c ≤ nnz
  rb : ∀ r, 0 ≤ r → r < m → 0 ≤ F .rl r ∧ F .rl r ≤ pos
  mkc : MkC m P A0 col pos F
  ok : ∀ t, 0 ≤ t → t < pos → 0 ≤ A0 t ∧ A0 t < m

/-- A valid matrix. -/
structure Mat (n m nnz : ℤ) (P : ℤ → ℤ) : Prop where
  n0 : 0 ≤ n
  m0 : 0 ≤ m
  z : P 0 = 0
  e : P n = nnz

theorem scanEntry_spec {col pos : ℤ} {z : Scan} (hm : Mat n m nnz P)
    (mono : ∀ c, 0 ≤ c → c < n → P c ≤ P (c + 1)) (c0 : 0 ≤ col) (c1 : col < n)
    (p0 : P col ≤ pos) (p1 : pos < P (col + 1)) (g : I2 n m nnz Al P A0 col pos z.s F) :
    wp (scanEntry m col pos z) (fun z' => ∃ F', I2 n m nnz Al P A0 col (pos + 1) z'.s F')
      (Rej n m nnz P A0) := by
  have hp0 : 0 ≤ pos := by
    have := P_mono mono (le_refl 0) c0 (by omega : col ≤ n)
    rw [hm.z] at this; omega
  have hp1 : pos < nnz := by
    have := P_mono mono (by omega : 0 ≤ col + 1) (by omega : col + 1 ≤ n) le_rfl
    rw [hm.e] at this; omega
  have hnA : nnz ≤ Al := by
    have h1 := (get_bounds (g.rp.val .A (nnz - 1) (show 0 ≤ nnz - 1 ∧ nnz - 1 < nnz by omega))).2
    rw [g.rp.len] at h1
    dsimp only [cap] at h1
    omega
  unfold scanEntry
  rw [g.rp.rd (f := .A) (show 0 ≤ pos ∧ pos < nnz from ⟨hp0, hp1⟩), ok_bind, g.eA pos hp0 hp1]
  split_ifs with hbad
  · refine ⟨rfl, fun hv => ?_⟩
    have := hv.2 pos hp0 hp1
    omega
  · have r0 : 0 ≤ A0 pos := by omega
    have r1 : A0 pos < m := by omega
    rw [g.rp.rd (f := .r2) (show 0 ≤ A0 pos ∧ A0 pos < m from ⟨r0, r1⟩), ok_bind]
    have hok : ∀ t, 0 ≤ t → t < pos + 1 → 0 ≤ A0 t ∧ A0 t < m := by
      intro t t0 t1
      by_cases ht : t = pos
      · subst ht; exact ⟨r0, r1⟩
      · exact g.ok t t0 (by omega)
    have hmk : ∀ F', F' .r2 = Function.update (F .r2) (A0 pos) col →
        MkC m P A0 col (pos + 1) F' := by
      intro F' e r q0 q1
      rw [e]
      by_cases hr : r = A0 pos
      · subst hr; rw [Function.update_self]
        exact ⟨le_rfl, fun _ => ⟨pos, p0, by omega, rfl⟩⟩
      · rw [Function.update_of_ne hr]
        refine ⟨(g.mkc r q0 q1).1, fun he => ?_⟩
        obtain ⟨t, t0, t1, ht⟩ := (g.mkc r q0 q1).2 he
        exact ⟨t, t0, by omega, ht⟩
    by_cases hmark : F .r2 (A0 pos) ≠ col
    · simp only [hmark, ne_eq, not_false_eq_true, if_true]
      rw [g.rp.rd (f := .rl) (show 0 ≤ A0 pos ∧ A0 pos < m from ⟨r0, r1⟩), ok_bind]
      obtain ⟨s1, e1, g1⟩ := g.rp.wr (f := .rl) (i := A0 pos) ⟨r0, r1⟩ (F .rl (A0 pos) + 1)
      have hrb := g.rb _ r0 r1
      rw [bind_assoc]
      cks g.rp
      rw [e1, ok_bind]
      obtain ⟨s2, e2, g2⟩ := g1.wr (f := .r2) (i := A0 pos) ⟨r0, r1⟩ col
      rw [e2, ok_bind, wp_pure]
      refine ⟨_, g2, g.eA, g.ep, g.cs, g.cl, ?_, fun c c0 c1 => ?_, fun r q0 q1 => ?_,
        hmk _ (by rw [set_same, set_ne _ (by decide)]), hok⟩
      rotate_left
      · have := g.cb c c0 c1
        rw [set_ne _ (by decide), set_ne _ (by decide)]
        omega
      · have := g.rb r q0 q1
        rw [set_ne _ (by decide), set_apply]
        split_ifs <;> omega
      intro hnd r q0 q1
      rw [cnt_succ r hp0, set_ne _ (by decide), set_apply]
      by_cases hr : r = A0 pos
      · subst hr; simp [g.rl hnd _ r0 r1]
      · simp [hr, Ne.symm hr, g.rl hnd r q0 q1]
    · push Not at hmark
      simp only [hmark, ne_eq, not_true_eq_false, if_false]
      rw [g.rp.rd (f := .cl) (show 0 ≤ col ∧ col < n from ⟨c0, c1⟩), ok_bind]
      obtain ⟨s1, e1, g1⟩ := g.rp.wr (f := .cl) (i := col) ⟨c0, c1⟩ (F .cl col - 1)
      have hcb := g.cb col c0 c1
      rw [bind_assoc]
      cks g.rp
      rw [e1, ok_bind]
      obtain ⟨s2, e2, g2⟩ := g1.wr (f := .r2) (i := A0 pos) ⟨r0, r1⟩ col
      rw [e2, ok_bind, wp_pure]
      have hd : ¬ NoDup n P A0 := by
        intro hnd
        obtain ⟨t, t0, t1, ht⟩ := (g.mkc _ r0 r1).2 hmark
        have := hnd col c0 c1 t pos t0 (by omega) p0 p1 ht
        omega
      refine ⟨_, g2, g.eA, g.ep, g.cs, fun h => absurd h hd, fun h => absurd h hd,
        fun c q0 q1 => ?_, fun r q0 q1 => ?_, hmk _ (by rw [set_same, set_ne _ (by decide)]), hok⟩
      · have := g.cb c q0 q1
        rw [set_ne _ (by decide), set_apply]
        split_ifs with hh <;> omega
      · have := g.rb r q0 q1
        rw [set_ne _ (by decide), set_ne _ (by decide)]
        omega

theorem scanCols_spec (hm : Mat n m nnz P) (h : I1 n m nnz Al P A0 n m s F) :
    wp (scanCols n m s) (fun z => ∃ F', I2 n m nnz Al P A0 n nnz z.1 F') (Rej n m nnz P A0) := by
  unfold scanCols
  have mono := h.mono
  refine wp_post (wp_forRange (fun i (z : Mem × Bool) => ∃ F', I2 n m nnz Al P A0 i (P i) z.1 F')
    hm.n0 ⟨F, ?_⟩ ?_) ?_
  · refine ⟨h.rp, h.eA, h.ep, fun c c0 c1 => ⟨(h.cs c c0 c1).1, (h.cs c c0 c1).2.2⟩,
      fun _ c c0 c1 => (h.cs c c0 c1).2.1, ?_, ?_, ?_, ?_, ?_⟩
    · intro _ r r0 r1; rw [hm.z, cnt_zero, (h.rw r r0 r1).1]; rfl
    · intro c c0 c1
      have a := P_mono mono (le_refl 0) c0 (by omega : c ≤ n)
      have b := P_mono mono (by omega : 0 ≤ c + 1) (by omega : c + 1 ≤ n) le_rfl
      have := mono c c0 c1
      rw [(h.cs c c0 c1).2.1, hm.z]
      rw [hm.z] at a; rw [hm.e] at b
      omega
    · intro r r0 r1; rw [(h.rw r r0 r1).1, hm.z]; exact ⟨le_rfl, le_rfl⟩
    · intro r r0 r1; rw [(h.rw r r0 r1).2]; constructor <;> omega
    · intro t t0 t1; rw [hm.z] at t1; omega
  · rintro i ⟨s, j⟩ i0 i1 ⟨F, g⟩
    dsimp only at g ⊢
    rw [g.rp.rd (f := .p) (show 0 ≤ i ∧ i < n + 1 from ⟨i0, by omega⟩), ok_bind]
    cks g.rp
    rw [g.rp.rd (f := .p) (show 0 ≤ i + 1 ∧ i + 1 < n + 1 from ⟨by omega, by omega⟩), ok_bind,
      g.ep i i0 (by omega), g.ep (i + 1) (by omega) (by omega), wp_bind]
    refine wp_post (wp_forRange (fun t (z : Scan) => ∃ F', I2 n m nnz Al P A0 i t z.s F')
      (mono i i0 i1) ⟨F, g⟩ ?_) ?_
    · rintro t z t0 t1 ⟨F, g⟩
      exact scanEntry_spec hm mono i0 i1 t0 t1 g
    · rintro z ⟨F, g⟩
      rw [wp_pure]
      refine ⟨F, g.rp, g.eA, g.ep, g.cs, g.cl, g.rl, g.cb, g.rb, ?_, g.ok⟩
      intro r r0 r1
      have := (g.mkc r r0 r1).1
      constructor <;> omega
  · rintro z ⟨F, g⟩
    rw [hm.e] at g
    exact ⟨F, g⟩

/-! ## The rows -/

/-- The start of row `r` in the row form. -/
def St (nnz : ℤ) (A0 : ℤ → ℤ) (r : ℤ) : ℤ :=
  nnz + ((Finset.Ico 0 nnz).filter fun t => A0 t < r).card

theorem St_succ (r : ℤ) : St nnz A0 (r + 1) = St nnz A0 r + cnt A0 r nnz := by
  unfold St cnt
  have : (Finset.Ico 0 nnz).filter (fun t => A0 t < r + 1)
      = (Finset.Ico 0 nnz).filter (fun t => A0 t < r) ∪
        (Finset.Ico 0 nnz).filter (fun t => A0 t = r) := by
    ext x; simp only [Finset.mem_union, Finset.mem_filter, Finset.mem_Ico]; omega
  rw [this, Finset.card_union_of_disjoint]
  · push_cast; ring
  · rw [Finset.disjoint_left]
    intro x hx hy
    rw [Finset.mem_filter] at hx hy
    omega

theorem St_zero (h : ∀ t, 0 ≤ t → t < nnz → 0 ≤ A0 t) : St nnz A0 0 = nnz := by
  unfold St
  rw [Finset.card_eq_zero.2]
  · simp
  · rw [Finset.filter_eq_empty_iff]
    intro x hx
    rw [Finset.mem_Ico] at hx
    have := h x hx.1 hx.2
    omega

theorem St_top (hz : 0 ≤ nnz) (h : ∀ t, 0 ≤ t → t < nnz → A0 t < m) : St nnz A0 m = 2 * nnz := by
  unfold St
  rw [Finset.filter_true_of_mem]
  · simp; omega
  · intro x hx
    rw [Finset.mem_Ico] at hx
    exact h x hx.1 hx.2

theorem St_mono {a b : ℤ} (h : a ≤ b) : St nnz A0 a ≤ St nnz A0 b := by
  unfold St
  have : ((Finset.Ico 0 nnz).filter fun t => A0 t < a).card ≤
      ((Finset.Ico 0 nnz).filter fun t => A0 t < b).card := by
    apply Finset.card_le_card
    intro x hx
    rw [Finset.mem_filter] at hx ⊢
    exact ⟨hx.1, by omega⟩
  omega

theorem St_lt {a b : ℤ} (h : a < b) : St nnz A0 a + cnt A0 a nnz ≤ St nnz A0 b := by
  rw [← St_succ]; exact St_mono (by omega)

theorem St_ge (a : ℤ) : nnz ≤ St nnz A0 a := by unfold St; omega

/-- The initialised part of the index space while the rows are filled. -/
def DF (m nnz : ℤ) (A0 : ℤ → ℤ) (pos i : ℤ) : Prop :=
  (0 ≤ i ∧ i < nnz) ∨ ∃ r, 0 ≤ r ∧ r < m ∧ St nnz A0 r ≤ i ∧ i < St nnz A0 r + cnt A0 r pos

/-- The state while the rows are filled. -/
structure I3 (n m nnz Al : ℤ) (P A0 : ℤ → ℤ) (col pos : ℤ) (s : Mem) (F : Sh) : Prop where
  rp : Rp n m Al (DI n (DF m nnz A0 pos) n m m) s F
  eA : ∀ i, 0 ≤ i → i < nnz → F .A i = A0 i
  ep : ∀ i, 0 ≤ i → i ≤ n → F .p i = P i
  cs : ∀ c, 0 ≤ c → c < n → F .cs c = P c ∧ F .cl c = P (c + 1) - P c ∧ F .c1 c = 1
  rl : ∀ r, 0 ≤ r → r < m → F .rl r = cnt A0 r nnz ∧ F .rs r = St nnz A0 r
  r1 : ∀ r, 0 ≤ r → r < m → F .r1 r = St nnz A0 r + cnt A0 r pos
  mkc : MkC m P A0 col pos F
  el : ∀ r, 0 ≤ r → r < m → ∀ c, c ∈ seg (F .A) (St nnz A0 r) (cnt A0 r pos) ↔
    0 ≤ c ∧ c < n ∧ ∃ t, P c ≤ t ∧ t < P (c + 1) ∧ t < pos ∧ A0 t = r
  nd : ∀ r, 0 ≤ r → r < m → (seg (F .A) (St nnz A0 r) (cnt A0 r pos)).Nodup

/-- The facts on the input used from here on. -/
structure Good (n m nnz Al : ℤ) (P A0 : ℤ → ℤ) : Prop extends Mat n m nnz P where
  mono : ∀ c, 0 ≤ c → c < n → P c ≤ P (c + 1)
  ok : ∀ t, 0 ≤ t → t < nnz → 0 ≤ A0 t ∧ A0 t < m
  nodup : NoDup n P A0
  al : 2 * nnz ≤ Al

theorem Good.nnz0 (h : Good n m nnz Al P A0) : 0 ≤ nnz := by
  have := P_mono h.mono (le_refl 0) h.n0 le_rfl
  rw [h.z, h.e] at this; omega

theorem Good.pos (h : Good n m nnz Al P A0) {col pos : ℤ} (c0 : 0 ≤ col) (c1 : col < n)
    (p0 : P col ≤ pos) (p1 : pos < P (col + 1)) : 0 ≤ pos ∧ pos < nnz := by
  have a := P_mono h.mono (le_refl 0) c0 (by omega : col ≤ n)
  have b := P_mono h.mono (by omega : 0 ≤ col + 1) (by omega : col + 1 ≤ n) le_rfl
  rw [h.z] at a; rw [h.e] at b
  constructor <;> omega

theorem Good.top (h : Good n m nnz Al P A0) {r : ℤ} (r1 : r < m) :
    St nnz A0 r + cnt A0 r nnz ≤ 2 * nnz := by
  rw [← St_top h.nnz0 (fun t t0 t1 => (h.ok t t0 t1).2)]
  exact St_lt r1

theorem rowStarts_spec (hg : Good n m nnz Al P A0) (h : I2 n m nnz Al P A0 n nnz s F) :
    wp (rowStarts n m s) (fun s' => ∃ F', I3 n m nnz Al P A0 0 0 s' F') (fun _ => False) := by
  unfold rowStarts
  have m0 := hg.m0
  rw [h.rp.rd (f := .p) (show 0 ≤ n ∧ n < n + 1 from ⟨hg.n0, by omega⟩), ok_bind,
    h.ep n hg.n0 le_rfl, hg.e]
  obtain ⟨s1, e1, g1⟩ := h.rp.wrx (f := .rs) (i := 0) nnz le_rfl (show 0 < m + 1 by omega)
  rw [e1, ok_bind]
  obtain ⟨s2, e2, g2⟩ := g1.wrx (f := .r1) (i := 0) nnz le_rfl (show 0 < m + 1 by omega)
  rw [e2, ok_bind]
  obtain ⟨s3, e3, g3⟩ := g2.wrx (f := .r2) (i := 0) (-1) le_rfl (show 0 < m + 1 by omega)
  rw [e3, ok_bind]
  have hz := St_zero (nnz := nnz) fun t t0 t1 => (hg.ok t t0 t1).1
  let J : ℤ → Mem → Sh → Prop := fun k s F =>
    Rp n m Al (DI n (fun i => 0 ≤ i ∧ i < nnz) n m k) s F ∧
    (∀ i, 0 ≤ i → i < nnz → F .A i = A0 i) ∧
    (∀ i, 0 ≤ i → i ≤ n → F .p i = P i) ∧
    (∀ c, 0 ≤ c → c < n → F .cs c = P c ∧ F .cl c = P (c + 1) - P c ∧ F .c1 c = 1) ∧
    (∀ r, 0 ≤ r → r < m → F .rl r = cnt A0 r nnz) ∧
    (∀ r, 0 ≤ r → r < k → F .rs r = St nnz A0 r ∧ F .r1 r = St nnz A0 r ∧ F .r2 r = -1)
  have fin : ∀ s F, J m s F → ∃ F', I3 n m nnz Al P A0 0 0 s F' := by
    rintro s F ⟨a1, a2, a3, a4, a5, a6⟩
    refine ⟨F, a1.mono ?_, a2, a3, a4, fun r r0 r1 => ⟨a5 r r0 r1, (a6 r r0 r1).1⟩, ?_, ?_, ?_, ?_⟩
    · intro f i hi
      cases f <;> simp only [DI] at hi ⊢ <;> try exact hi
      rcases hi with hi | ⟨r, r0, r1, i0, i1⟩
      · exact hi
      · rw [cnt_zero] at i1; simp at i1; omega
    · intro r r0 r1; rw [(a6 r r0 r1).2.1, cnt_zero]; simp
    · intro r r0 r1; rw [(a6 r r0 r1).2.2]; constructor <;> omega
    · intro r r0 r1 c
      rw [cnt_zero]
      simp only [Nat.cast_zero, seg_zero, List.not_mem_nil, false_iff]
      rintro ⟨c0, c1, t, t0, t1, t2, _⟩
      have := (hg.pos c0 c1 t0 t1).1
      omega
    · intro r r0 r1; rw [cnt_zero]; simp
  have start : ∀ k, k ≤ 1 → J k s3 (set (set (set F .rs 0 nnz) .r1 0 nnz) .r2 0 (-1)) := by
    intro k hk
    refine ⟨g3.mono ?_, h.eA, h.ep, ?_, ?_, ?_⟩
    · intro f i hi
      by_cases h0 : i = 0
      · subst h0
        cases f <;> simp only [DI] at hi ⊢ <;> simp <;> omega
      · cases f <;> simp only [DI] at hi ⊢ <;> simp [h0] <;> omega
    · intro c c0 c1
      exact ⟨(h.cs c c0 c1).1, h.cl hg.nodup c c0 c1, (h.cs c c0 c1).2⟩
    · exact fun r r0 r1 => h.rl hg.nodup r r0 r1
    · intro r r0 r1
      have : r = 0 := by omega
      subst this
      simp [set_apply, hz]
  by_cases hm1 : m ≤ 1
  · rw [forRange_empty hm1, wp_ok]
    exact fin _ _ (start m hm1)
  · refine wp_post (wp_forRange (fun i (s : Mem) => ∃ F, J i s F) (by omega)
      ⟨_, start 1 le_rfl⟩ ?_) (fun s' ⟨F', h'⟩ => fin s' F' h')
    rintro i s i0 i1 ⟨F, a1, a2, a3, a4, a5, a6⟩
    cks a1
    rw [a1.rd (f := .rs) (show 0 ≤ i - 1 ∧ i - 1 < i from ⟨by omega, by omega⟩), ok_bind,
      a1.rd (f := .rl) (show 0 ≤ i - 1 ∧ i - 1 < m from ⟨by omega, by omega⟩), ok_bind,
      (a6 (i - 1) (by omega) (by omega)).1, a5 (i - 1) (by omega) (by omega),
      ← St_succ, show i - 1 + 1 = i by omega]
    have hc : i < m + 1 := by omega
    have hge := St_ge (nnz := nnz) (A0 := A0) i
    have htop := hg.top i1
    have hal := hg.al
    have hnn := hg.nnz0
    cks a1
    obtain ⟨t1, e1, g1⟩ := a1.wrx (f := .rs) (i := i) (St nnz A0 i) (by omega) hc
    rw [e1, ok_bind]
    obtain ⟨t2, e2, g2⟩ := g1.wrx (f := .r1) (i := i) (St nnz A0 i) (by omega) hc
    rw [e2, ok_bind]
    obtain ⟨t3, e3, g3⟩ := g2.wrx (f := .r2) (i := i) (-1) (by omega) hc
    rw [e3, wp_ok]
    refine ⟨_, g3.mono ?_, a2, a3, a4, a5, ?_⟩
    · intro f j hj
      by_cases h0 : j = i
      · subst h0
        cases f <;> simp only [DI] at hj ⊢ <;> simp <;> omega
      · cases f <;> simp only [DI] at hj ⊢ <;> simp [h0] <;> omega
    · intro r r0 r1
      by_cases hr : r = i
      · subst hr; simp [set_apply]
      · have := a6 r r0 (by omega)
        simp [set_apply, hr, this]

theorem I3.put {col pos : ℤ} (hg : Good n m nnz Al P A0) (c0 : 0 ≤ col) (c1 : col < n)
    (p0 : P col ≤ pos) (p1 : pos < P (col + 1)) (g : I3 n m nnz Al P A0 col pos s F)
    {s' : Mem} {F' : Sh}
    (g' : Rp n m Al (DI n (DF m nnz A0 (pos + 1)) n m m) s' F')
    (hA : F' .A = Function.update (F .A) (St nnz A0 (A0 pos) + cnt A0 (A0 pos) pos) col)
    (h1 : F' .r1 = Function.update (F .r1) (A0 pos)
      (St nnz A0 (A0 pos) + cnt A0 (A0 pos) pos + 1))
    (hm : MkC m P A0 col (pos + 1) F')
    (he : ∀ f, f ≠ .A → f ≠ .r1 → f ≠ .r2 → F' f = F f) :
    I3 n m nnz Al P A0 col (pos + 1) s' F' := by
  have hp := hg.pos c0 c1 p0 p1
  have hr := hg.ok pos hp.1 hp.2
  have hge := St_ge (nnz := nnz) (A0 := A0) (A0 pos)
  have hlt : cnt A0 (A0 pos) pos < cnt A0 (A0 pos) nnz := by
    have e := cnt_succ (A0 := A0) (A0 pos) hp.1
    rw [if_pos rfl] at e
    have := cnt_mono (A0 := A0) (A0 pos) (show pos + 1 ≤ nnz by omega)
    omega
  have other : ∀ r, r ≠ A0 pos →
      seg (F' .A) (St nnz A0 r) (cnt A0 r pos) = seg (F .A) (St nnz A0 r) (cnt A0 r pos) := by
    intro r hne
    apply seg_congr
    intro i i0 i1
    rw [hA, Function.update_of_ne]
    have a1 := cnt_mono (A0 := A0) r (show pos ≤ nnz by omega)
    rcases lt_or_gt_of_ne hne with h | h
    · have := St_lt (nnz := nnz) (A0 := A0) h; omega
    · have := St_lt (nnz := nnz) (A0 := A0) h; omega
  have same : seg (F' .A) (St nnz A0 (A0 pos)) (cnt A0 (A0 pos) (pos + 1) : ℕ)
      = seg (F .A) (St nnz A0 (A0 pos)) (cnt A0 (A0 pos) pos) ++ [col] := by
    rw [cnt_succ _ hp.1, if_pos rfl]
    push_cast
    rw [seg_succ _ (by omega), hA, Function.update_self]
    congr 1
    apply seg_congr
    intro i i0 i1
    rw [Function.update_of_ne (by omega)]
  have cz : ∀ r, r ≠ A0 pos → cnt A0 r (pos + 1) = cnt A0 r pos := by
    intro r hne
    rw [cnt_succ _ hp.1, if_neg (Ne.symm hne), add_zero]
  refine ⟨g', ?_, ?_, ?_, ?_, ?_, hm, ?_, ?_⟩
  · intro i i0 i1
    rw [hA, Function.update_of_ne (by omega)]; exact g.eA i i0 i1
  · rw [he _ (by decide) (by decide) (by decide)]; exact g.ep
  · rw [he _ (by decide) (by decide) (by decide), he _ (by decide) (by decide) (by decide),
      he _ (by decide) (by decide) (by decide)]; exact g.cs
  · rw [he _ (by decide) (by decide) (by decide), he _ (by decide) (by decide) (by decide)]
    exact g.rl
  · intro r r0 r1
    rw [h1]
    by_cases hne : r = A0 pos
    · subst hne
      rw [Function.update_self, cnt_succ _ hp.1, if_pos rfl]; push_cast; ring
    · rw [Function.update_of_ne hne, cz r hne]; exact g.r1 r r0 r1
  · intro r r0 r1 c
    by_cases hne : r = A0 pos
    · subst hne
      rw [same, List.mem_append, List.mem_singleton, g.el _ r0 r1]
      constructor
      · rintro (⟨x0, x1, t, t0, t1, t2, t3⟩ | rfl)
        · exact ⟨x0, x1, t, t0, t1, by omega, t3⟩
        · exact ⟨c0, c1, pos, p0, p1, by omega, rfl⟩
      · rintro ⟨x0, x1, t, t0, t1, t2, t3⟩
        by_cases ht : t = pos
        · subst ht
          right
          rcases lt_trichotomy c col with h | h | h
          · have := P_mono hg.mono (by omega) (by omega : c + 1 ≤ col) (by omega)
            omega
          · exact h
          · have := P_mono hg.mono (by omega) (by omega : col + 1 ≤ c) (by omega)
            omega
        · exact Or.inl ⟨x0, x1, t, t0, t1, by omega, t3⟩
    · rw [cz r hne, other r hne, g.el r r0 r1]
      constructor
      · rintro ⟨x0, x1, t, t0, t1, t2, t3⟩
        exact ⟨x0, x1, t, t0, t1, by omega, t3⟩
      · rintro ⟨x0, x1, t, t0, t1, t2, t3⟩
        have : t ≠ pos := by rintro rfl; exact hne t3.symm
        exact ⟨x0, x1, t, t0, t1, by omega, t3⟩
  · intro r r0 r1
    by_cases hne : r = A0 pos
    · subst hne
      rw [same]
      refine List.Nodup.append (g.nd _ r0 r1) (List.nodup_singleton _) ?_
      intro x hx hy
      rw [List.mem_singleton] at hy
      subst hy
      obtain ⟨_, _, t, t0, t1, t2, t3⟩ := (g.el _ r0 r1 x).1 hx
      have := hg.nodup x c0 c1 t pos t0 t1 p0 p1 t3
      omega
    · rw [cz r hne, other r hne]; exact g.nd r r0 r1

theorem fillRows_spec (j : Bool) (hg : Good n m nnz Al P A0) (h : I3 n m nnz Al P A0 0 0 s F) :
    wp (fillRows n j s) (fun s' => ∃ F', I3 n m nnz Al P A0 n nnz s' F') (fun _ => False) := by
  unfold fillRows
  refine wp_post (wp_forRange (fun i (z : Mem) => ∃ F', I3 n m nnz Al P A0 i (P i) z F')
    hg.n0 ⟨F, ?_⟩ ?_) ?_
  · rw [hg.z]; exact h
  · rintro i s i0 i1 ⟨F, g⟩
    rw [g.rp.rd (f := .p) (show 0 ≤ i ∧ i < n + 1 from ⟨i0, by omega⟩), ok_bind]
    cks g.rp
    rw [g.rp.rd (f := .p) (show 0 ≤ i + 1 ∧ i + 1 < n + 1 from ⟨by omega, by omega⟩), ok_bind,
      g.ep i i0 (by omega), g.ep (i + 1) (by omega) (by omega)]
    refine wp_post (wp_forRange (fun t (z : Mem) => ∃ F', I3 n m nnz Al P A0 i t z F')
      (hg.mono i i0 i1) ⟨F, g⟩ ?_) ?_
    · rintro t s t0 t1 ⟨F, g⟩
      have hp := hg.pos i0 i1 t0 t1
      have hr := hg.ok t hp.1 hp.2
      have hlt : cnt A0 (A0 t) t < cnt A0 (A0 t) nnz := by
        have e := cnt_succ (A0 := A0) (A0 t) hp.1
        rw [if_pos rfl] at e
        have := cnt_mono (A0 := A0) (A0 t) (show t + 1 ≤ nnz by omega)
        omega
      have htop := hg.top hr.2
      have hge := St_ge (nnz := nnz) (A0 := A0) (A0 t)
      have hnn := hg.nnz0
      rw [g.rp.rd (f := .A) (show DF m nnz A0 t t from Or.inl hp), ok_bind, g.eA t hp.1 hp.2]
      dsimp only
      have hal := hg.al
      rw [g.rp.rd (f := .r1) (show 0 ≤ A0 t ∧ A0 t < m from hr), ok_bind, g.r1 _ hr.1 hr.2]
      obtain ⟨s1, e1, g1⟩ := g.rp.wrx (f := .A) (i := St nnz A0 (A0 t) + cnt A0 (A0 t) t) i
        (by omega) (show St nnz A0 (A0 t) + cnt A0 (A0 t) t < Al by omega)
      rw [e1, ok_bind, Rp.ck g.rp (by intros; omega), ok_bind]
      obtain ⟨s2, e2, g2⟩ := g1.wr (f := .r1) (i := A0 t) (Or.inr hr)
        (St nnz A0 (A0 t) + cnt A0 (A0 t) t + 1)
      have hdom : ∀ f x, DI n (DF m nnz A0 (t + 1)) n m m f x →
          (f = .A ∧ x = St nnz A0 (A0 t) + cnt A0 (A0 t) t) ∨ DI n (DF m nnz A0 t) n m m f x := by
        intro f x hx
        cases f <;> simp only [DI] at hx ⊢ <;> try exact Or.inr hx
        rcases hx with hx | ⟨r, r0, r1, x0, x1⟩
        · exact Or.inr (Or.inl hx)
        · rw [cnt_succ _ hp.1] at x1
          by_cases hrt : A0 t = r
          · subst hrt
            rw [if_pos rfl] at x1
            push_cast at x1
            by_cases hh : x = St nnz A0 (A0 t) + cnt A0 (A0 t) t
            · exact Or.inl ⟨by trivial, hh⟩
            · exact Or.inr (Or.inr ⟨A0 t, r0, r1, x0, by omega⟩)
          · rw [if_neg hrt] at x1
            exact Or.inr (Or.inr ⟨r, r0, r1, x0, by simpa using x1⟩)
      cases j with
      | false =>
        simp only [Bool.false_eq_true, if_false]
        rw [e2, wp_ok]
        refine ⟨_, g.put hg i0 i1 t0 t1 (g2.mono hdom) rfl rfl ?_ ?_⟩
        · intro r r0 r1
          refine ⟨(g.mkc r r0 r1).1, fun he => ?_⟩
          obtain ⟨t', a, b, c⟩ := (g.mkc r r0 r1).2 he
          exact ⟨t', a, by omega, c⟩
        · intro f h1 h2 h3; rw [set_ne _ h2, set_ne _ h1]
      | true =>
        simp only [if_true]
        rw [g.rp.rd (f := .r2) (show 0 ≤ A0 t ∧ A0 t < m from hr), ok_bind]
        have hmark : F .r2 (A0 t) ≠ i := by
          intro he
          obtain ⟨t', a, b, c⟩ := (g.mkc _ hr.1 hr.2).2 he
          have := hg.nodup i i0 i1 t' t a (by omega) t0 t1 c
          omega
        rw [if_pos hmark, e2, ok_bind]
        obtain ⟨s3, e3, g3⟩ := g2.wr (f := .r2) (i := A0 t) (Or.inr hr) i
        rw [e3, wp_ok]
        refine ⟨_, g.put hg i0 i1 t0 t1 (g3.mono hdom) rfl rfl ?_ ?_⟩
        · intro r r0 r1
          rw [set_apply]
          by_cases hrt : r = A0 t
          · subst hrt; rw [if_pos ⟨rfl, rfl⟩]
            exact ⟨le_rfl, fun _ => ⟨t, t0, by omega, rfl⟩⟩
          · rw [if_neg (by simp [hrt]), set_ne _ (by decide), set_ne _ (by decide)]
            refine ⟨(g.mkc r r0 r1).1, fun he => ?_⟩
            obtain ⟨t', a, b, c⟩ := (g.mkc r r0 r1).2 he
            exact ⟨t', a, by omega, c⟩
        · intro f h1 h2 h3; rw [set_ne _ h3, set_ne _ h2, set_ne _ h1]
    · rintro z ⟨F, g⟩
      refine ⟨F, g.rp, g.eA, g.ep, g.cs, g.rl, g.r1, ?_, g.el, g.nd⟩
      intro r r0 r1
      have := (g.mkc r r0 r1).1
      constructor <;> omega
  · rintro z ⟨F, g⟩
    rw [hg.e] at g
    exact ⟨F, g⟩

end Slip.Colamd
