import Verif.Proof.AmdStep4

/-!
# AMD: the state before the first pivot
-/

namespace Slip.Amd

open Slip.Colamd (seg mem_seg seg_congr seg_succ length_seg seg_zero wp_seg)

variable [Arith]

/-- The part of the memory that is initialised when AMD_2 is called. -/
def D0 (n nz : ℤ) : Fld → ℤ → Prop
  | .iw, i => 0 ≤ i ∧ i < nz
  | .pe, i => 0 ≤ i ∧ i < n
  | .ln, i => 0 ≤ i ∧ i < n
  | _, _ => False

/-- The input of AMD_2: the lists of A+A'. -/
structure Inp (n nz Al : ℤ) (s : Mem) (F : Sh) : Prop where
  rp : Rp n Al (D0 n nz) s F
  nz0 : 0 ≤ nz
  l : ∀ x, 0 ≤ x → x < n → 0 ≤ F .ln x ∧ F .ln x < n ∧ 0 ≤ F .pe x ∧ F .pe x + F .ln x ≤ nz
  dj : ∀ x y, 0 ≤ x → x < n → 0 ≤ y → y < n → x ≠ y →
    F .pe x + F .ln x ≤ F .pe y ∨ F .pe y + F .ln y ≤ F .pe x
  sum : psum n (fun _ => True) (F .ln) ≤ nz
  iw : ∀ p, 0 ≤ p → p < nz → 0 ≤ F .iw p ∧ F .iw p < n
  sy : ∀ x y, 0 ≤ x → x < n → 0 ≤ y → y < n → y ∈ obL F x → x ∈ obL F y
  nd : ∀ x, 0 ≤ x → x < n → (obL F x).Nodup

variable {n nz Al : ℤ} {s : Mem} {F : Sh}

/-- The value a field is set to. -/
def ini (F : Sh) : Fld → ℤ → ℤ
  | .la, _ => -1
  | .hd, _ => -1
  | .nx, _ => -1
  | .nv, _ => 1
  | .w, _ => 1
  | .el, _ => 0
  | .dg, i => F .ln i
  | f, i => F f i

theorem initArrays_spec (h : Rp n Al (D0 n nz) s F) (hn : 0 ≤ n) :
    wp (initArrays n s) (fun s' => Rm n Al nz s' (ini F)) (fun _ => False) := by
  unfold initArrays
  refine wp_post (wp_forRange (fun k (s : Mem) =>
    Rp n Al (fun f i => D0 n nz f i ∨ (f ≠ .iw ∧ 0 ≤ i ∧ i < k)) s (ini F)) hn ?_ ?_) ?_
  · refine ⟨?_, h.len, ?_, ?_⟩
    · rintro f i (hD | hD)
      · rw [h.val f i hD]
        cases f <;> first | rfl | exact hD.elim
      · omega
    · rintro f i (hD | hD)
      · exact h.dom f i hD
      · omega
    · exact h.fit
  · intro k s1 k0 k1 h1
    have hc : ∀ f, f ≠ .iw → k < cap n Al f := by
      intro f hf
      cases f <;> first | exact k1 | exact absurd rfl hf
    obtain ⟨s2, e2, g2⟩ := h1.wrx (f := .la) (-1) k0 (hc _ (by decide))
    rw [e2, ok_bind]
    obtain ⟨s3, e3, g3⟩ := g2.wrx (f := .hd) (-1) k0 (hc _ (by decide))
    rw [e3, ok_bind]
    obtain ⟨s4, e4, g4⟩ := g3.wrx (f := .nx) (-1) k0 (hc _ (by decide))
    rw [e4, ok_bind]
    obtain ⟨s5, e5, g5⟩ := g4.wrx (f := .nv) 1 k0 (hc _ (by decide))
    rw [e5, ok_bind]
    obtain ⟨s6, e6, g6⟩ := g5.wrx (f := .w) 1 k0 (hc _ (by decide))
    rw [e6, ok_bind]
    obtain ⟨s7, e7, g7⟩ := g6.wrx (f := .el) 0 k0 (hc _ (by decide))
    rw [e7, ok_bind]
    rw [g7.rd (f := .ln) (i := k) (by simp only [D0]; simp; omega), ok_bind]
    obtain ⟨s8, e8, g8⟩ := g7.wrx (f := .dg) (F .ln k) k0 (hc _ (by decide))
    have e0 : ∀ v w x a b c, set (set (set (set (set (set (ini F) .la k a) .hd k b) .nx k c) .nv k v) .w k w) .el k x .ln k
        = F .ln k := by
      intros; simp only [set_apply]; simp [ini]
    rw [e0, e8]
    refine wok ((g8.mono ?_).congr ?_)
    · rintro f i (hD | ⟨hf, i0, i1⟩)
      · simp only [hD]; simp
      · by_cases hi : i = k
        · subst hi
          cases f <;> first | exact absurd rfl hf | simp [D0] <;> omega
        · have : i < k := by omega
          simp [hf, i0, this]
    · intro f i _
      simp only [set_apply]
      by_cases hi : i = k
      · subst hi
        cases f <;> simp [ini]
      · simp [hi]
  · intro s1 h1
    refine h1.mono ?_
    intro f i hD
    cases f <;> simp only [Dom] at hD <;> simp [D0] <;> omega

/-- The variables of the degree lists. -/
def V1 (n dense : ℤ) (F : Sh) (x : ℤ) : Prop := 0 ≤ x ∧ x < n ∧ 0 < F .ln x ∧ F .ln x ≤ dense

/-- The state after `k` rows. -/
structure IL (n nz Al dense : ℤ) (F : Sh) (k : ℤ) (nel ndense : ℤ) (G : Sh) : Prop where
  iw : G .iw = F .iw
  ln : G .ln = F .ln
  dg : ∀ x, 0 ≤ x → x < n → G .dg x = F .ln x
  hi : ∀ x, k ≤ x → x < n → G .nv x = 1 ∧ G .el x = 0 ∧ G .pe x = F .pe x ∧ G .la x = -1
  em : ∀ x, 0 ≤ x → x < k → F .ln x = 0 → G .nv x = 1 ∧ G .el x = -3 ∧ G .pe x = -1
  de : ∀ x, 0 ≤ x → x < k → F .ln x ≠ 0 → dense < F .ln x → G .nv x = 0 ∧ G .el x = -1 ∧ G .pe x = -1
  v : ∀ x, 0 ≤ x → x < k → F .ln x ≠ 0 → F .ln x ≤ dense → G .nv x = 1 ∧ G .el x = 0 ∧ G .pe x = F .pe x
  w : ∀ x, 0 ≤ x → x < n → 0 ≤ G .w x ∧ G .w x < 2 ∧ (G .w x = 0 → x < k ∧ F .ln x = 0)
  dl : ∃ rk, DL n G (fun x => V1 n dense F x ∧ x < k) rk
  cnt : psum n (fun x => V1 n dense F x ∧ x < k) (fun _ => 1) = k - nel
  n0 : 0 ≤ nel ∧ 0 ≤ ndense
  nk : nel ≤ k ∧ ndense ≤ nel

theorem initLists_spec {dense : ℤ} {F0 : Sh} (hn : 0 ≤ n) (hR : Rm n Al nz s F0)
    (hl : ∀ x, 0 ≤ x → x < n → 0 ≤ F .ln x ∧ F .ln x < n)
    (h0 : IL n nz Al dense F 0 0 0 F0) :
    wp (initLists n dense s) (fun y => ∃ G, Rm n Al nz y.1 G ∧ IL n nz Al dense F n y.2.1 y.2.2 G)
      (fun _ => False) := by
  unfold initLists
  refine wp_forRange (fun k (y : Mem × ℤ × ℤ) => ∃ G, Rm n Al nz y.1 G ∧ IL n nz Al dense F k y.2.1 y.2.2 G) hn
    ⟨F0, hR, h0⟩ ?_
  rintro i ⟨s1, nel, ndense⟩ i0 i1 ⟨G, g, h⟩
  dsimp only at g h ⊢
  have hli := hl i i0 i1
  have hh := h.hi i le_rfl i1
  rw [g.rdn .dg (by decide) i0 i1, ok_bind, h.dg i i0 i1]
  have hn0 := h.n0
  have hnk := h.nk
  by_cases hz : F .ln i = 0
  · rw [if_pos hz]
    obtain ⟨s2, e2, g2⟩ := g.wrn .el (by decide) i0 i1 (flip 1)
    rw [e2, ok_bind]
    obtain ⟨s3, e3, g3⟩ := g2.wrn .pe (by decide) i0 i1 (-1)
    rw [e3, ok_bind]
    obtain ⟨s4, e4, g4⟩ := g3.wrn .w (by decide) i0 i1 0
    rw [e4, ok_bind]
    cks g
    have hV : ∀ x, (V1 n dense F x ∧ x < i + 1) ↔ (V1 n dense F x ∧ x < i) := by
      intro x
      constructor
      · rintro ⟨a, b⟩
        refine ⟨a, ?_⟩
        by_contra hc
        obtain rfl : x = i := by omega
        have := a.2.2.1
        omega
      · rintro ⟨a, b⟩; exact ⟨a, by omega⟩
    refine wpr ⟨_, g4, ?_⟩
    constructor
    · simp only [set_ne _ (show Fld.iw ≠ .el by decide), set_ne _ (show Fld.iw ≠ .pe by decide),
        set_ne _ (show Fld.iw ≠ .w by decide)]; exact h.iw
    · simp only [set_ne _ (show Fld.ln ≠ .el by decide), set_ne _ (show Fld.ln ≠ .pe by decide),
        set_ne _ (show Fld.ln ≠ .w by decide)]; exact h.ln
    · intro x x0 x1; rw [set_ne _ (by decide), set_ne _ (by decide), set_ne _ (by decide)]; exact h.dg x x0 x1
    · intro x x0 x1
      have hx : x ≠ i := by omega
      simp only [set_nei _ _ _ _ hx]; exact h.hi x (by omega) x1
    · intro x x0 x1 hx0
      by_cases hx : x = i
      · subst hx
        simp only [set_apply]; simp [hh.1, flip]
      · simp only [set_nei _ _ _ _ hx]; exact h.em x x0 (by omega) hx0
    · intro x x0 x1 hx0
      have hx : x ≠ i := by rintro rfl; exact hx0 hz
      simp only [set_nei _ _ _ _ hx]; exact h.de x x0 (by omega) hx0
    · intro x x0 x1 hx0
      have hx : x ≠ i := by rintro rfl; exact hx0 hz
      simp only [set_nei _ _ _ _ hx]; exact h.v x x0 (by omega) hx0
    · intro x x0 x1
      by_cases hx : x = i
      · subst hx
        rw [set_at]
        exact ⟨by omega, by omega, fun _ => ⟨by omega, hz⟩⟩
      · rw [set_nei _ _ _ _ hx, set_nei _ _ _ _ hx, set_nei _ _ _ _ hx]
        have := h.w x x0 x1
        exact ⟨this.1, this.2.1, fun a => ⟨by have := this.2.2 a; omega, (this.2.2 a).2⟩⟩
    · obtain ⟨rk, hd⟩ := h.dl
      refine ⟨rk, hd.congr hV ?_ ?_ ?_ ?_⟩ <;> intros <;>
        rw [set_ne _ (by decide), set_ne _ (by decide), set_ne _ (by decide)]
    · rw [psum_congr (fun x _ _ => hV x) (fun _ _ _ _ => rfl), h.cnt]; ring
    · have := h.n0; exact ⟨by show 0 ≤ nel + 1; omega, this.2⟩
    · exact ⟨by show nel + 1 ≤ i + 1; omega, by dsimp only; omega⟩
  rw [if_neg hz]
  by_cases hde : F .ln i > dense
  · rw [if_pos hde]
    obtain ⟨s2, e2, g2⟩ := g.wrn .nv (by decide) i0 i1 0
    rw [e2, ok_bind]
    obtain ⟨s3, e3, g3⟩ := g2.wrn .el (by decide) i0 i1 (-1)
    rw [e3, ok_bind]
    obtain ⟨s4, e4, g4⟩ := g3.wrn .pe (by decide) i0 i1 (-1)
    rw [e4, ok_bind]
    cks g
    cks g
    have hV : ∀ x, (V1 n dense F x ∧ x < i + 1) ↔ (V1 n dense F x ∧ x < i) := by
      intro x
      constructor
      · rintro ⟨a, b⟩
        refine ⟨a, ?_⟩
        by_contra hc
        obtain rfl : x = i := by omega
        have := a.2.2.2
        omega
      · rintro ⟨a, b⟩; exact ⟨a, by omega⟩
    refine wpr ⟨_, g4, ?_⟩
    constructor
    · simp only [set_ne _ (show Fld.iw ≠ .el by decide), set_ne _ (show Fld.iw ≠ .pe by decide),
        set_ne _ (show Fld.iw ≠ .nv by decide)]; exact h.iw
    · simp only [set_ne _ (show Fld.ln ≠ .el by decide), set_ne _ (show Fld.ln ≠ .pe by decide),
        set_ne _ (show Fld.ln ≠ .nv by decide)]; exact h.ln
    · intro x x0 x1; rw [set_ne _ (by decide), set_ne _ (by decide), set_ne _ (by decide)]; exact h.dg x x0 x1
    · intro x x0 x1
      have hx : x ≠ i := by omega
      simp only [set_nei _ _ _ _ hx]; exact h.hi x (by omega) x1
    · intro x x0 x1 hx0
      have hx : x ≠ i := by rintro rfl; exact hz hx0
      simp only [set_nei _ _ _ _ hx]; exact h.em x x0 (by omega) hx0
    · intro x x0 x1 hx0 hx1
      by_cases hx : x = i
      · subst hx
        simp only [set_apply]; simp
      · simp only [set_nei _ _ _ _ hx]; exact h.de x x0 (by omega) hx0 hx1
    · intro x x0 x1 hx0 hx1
      have hx : x ≠ i := by rintro rfl; omega
      simp only [set_nei _ _ _ _ hx]; exact h.v x x0 (by omega) hx0 hx1
    · intro x x0 x1
      rw [set_ne _ (by decide), set_ne _ (by decide), set_ne _ (by decide)]
      have := h.w x x0 x1
      exact ⟨this.1, this.2.1, fun a => ⟨by have := this.2.2 a; omega, (this.2.2 a).2⟩⟩
    · obtain ⟨rk, hd⟩ := h.dl
      refine ⟨rk, hd.congr hV ?_ ?_ ?_ ?_⟩ <;> intros <;>
        rw [set_ne _ (by decide), set_ne _ (by decide), set_ne _ (by decide)]
    · rw [psum_congr (fun x _ _ => hV x) (fun _ _ _ _ => rfl), h.cnt]; ring
    · have := h.n0; exact ⟨by show 0 ≤ nel + 1; omega, by show 0 ≤ ndense + 1; omega⟩
    · exact ⟨by show nel + 1 ≤ i + 1; omega, by dsimp only; omega⟩
  · rw [if_neg hde]
    obtain ⟨rk, hd⟩ := h.dl
    have hdgi := h.dg i i0 i1
    have hnS : ¬ (V1 n dense F i ∧ i < i) := fun h => lt_irrefl _ h.2
    have hhd := hd.hd (F .ln i) hli.1 hli.2
    obtain ⟨s2, e2, g2⟩ := insertDeg_spec g (c := i) (d := F .ln i) i0 i1 hli.1 hli.2 (by
      rcases hhd with a | ⟨a, _⟩
      · exact Or.inl a
      · exact Or.inr ⟨a.1.1, a.1.2.1⟩)
    rw [e2, ok_bind]
    have hne : G .hd (F .ln i) ≠ i := by
      intro e
      rcases hhd with a | ⟨a, _⟩
      · omega
      · rw [e] at a; exact hnS a
    rw [← link_of_lnk' G hne hh.2.2.2] at g2
    have hV : ∀ x, (V1 n dense F x ∧ x < i + 1) ↔ ((V1 n dense F x ∧ x < i) ∨ x = i) := by
      intro x
      constructor
      · rintro ⟨a, b⟩
        by_cases hx : x = i
        · exact Or.inr hx
        · exact Or.inl ⟨a, by omega⟩
      · rintro (⟨a, b⟩ | rfl)
        · exact ⟨a, by omega⟩
        · exact ⟨⟨i0, i1, by omega, by omega⟩, by omega⟩
    have hel : ∀ f, f ≠ .hd → f ≠ .la → f ≠ .nx → link G i (F .ln i) f = G f :=
      fun f a b c => link_ne G i _ a b c
    refine wpr ⟨_, g2, ?_⟩
    constructor
    · rw [hel _ (by decide) (by decide) (by decide)]; exact h.iw
    · rw [hel _ (by decide) (by decide) (by decide)]; exact h.ln
    · rw [hel _ (by decide) (by decide) (by decide)]; exact h.dg
    · intro x x0 x1
      rw [hel _ (by decide) (by decide) (by decide), hel _ (by decide) (by decide) (by decide),
        hel _ (by decide) (by decide) (by decide)]
      have := h.hi x (by omega) x1
      refine ⟨this.1, this.2.1, this.2.2.1, ?_⟩
      rw [link_la, if_neg, if_neg (by omega)]
      · exact this.2.2.2
      · rintro ⟨a, b⟩
        rcases hhd with a' | ⟨a', _⟩
        · exact a a'
        · have := a'.2; omega
    · intro x x0 x1 hx0
      have hx : x ≠ i := by rintro rfl; exact hz hx0
      rw [hel _ (by decide) (by decide) (by decide), hel _ (by decide) (by decide) (by decide),
        hel _ (by decide) (by decide) (by decide)]
      exact h.em x x0 (by omega) hx0
    · intro x x0 x1 hx0 hx1
      have hx : x ≠ i := by rintro rfl; exact hde hx1
      rw [hel _ (by decide) (by decide) (by decide), hel _ (by decide) (by decide) (by decide),
        hel _ (by decide) (by decide) (by decide)]
      exact h.de x x0 (by omega) hx0 hx1
    · intro x x0 x1 hx0 hx1
      rw [hel _ (by decide) (by decide) (by decide), hel _ (by decide) (by decide) (by decide),
        hel _ (by decide) (by decide) (by decide)]
      by_cases hx : x = i
      · subst hx; exact ⟨hh.1, hh.2.1, hh.2.2.1⟩
      · exact h.v x x0 (by omega) hx0 hx1
    · intro x x0 x1
      rw [hel _ (by decide) (by decide) (by decide)]
      have := h.w x x0 x1
      exact ⟨this.1, this.2.1, fun a => ⟨by have := this.2.2 a; omega, (this.2.2 a).2⟩⟩
    · have := hd.ins (c := i) hnS i0 i1 (by omega) (by omega)
      rw [hdgi] at this
      exact ⟨_, this.congr hV (fun _ _ _ => rfl) (fun _ _ => rfl) (fun _ _ => rfl) (fun _ _ => rfl)⟩
    · rw [psum_erase (e := i) ((hV i).2 (Or.inr rfl)) i0 i1,
        psum_congr (O' := fun x => V1 n dense F x ∧ x < i) (g := fun _ => 1) ?_ (fun _ _ _ _ => rfl), h.cnt]
      · ring
      · intro x _ _
        rw [hV x]
        constructor
        · rintro ⟨a | a, b⟩
          · exact a
          · exact absurd a b
        · intro a; exact ⟨Or.inl a, by have := a.2; omega⟩
    · exact h.n0
    · exact ⟨by show nel ≤ i + 1; omega, by dsimp only; omega⟩

/-- The invariant holds before the first pivot. -/
theorem init_li {dense nel ndense : ℤ} {G : Sh} (hI : Inp n nz Al s F) {s' : Mem} (g : Rm n Al nz s' G)
    (h : IL n nz Al dense F n nel ndense G)
    (hn : 0 ≤ n) : LI n nz Al { s := s', nel := nel, mindeg := 0, wflg := 2, lemax := 0, pfree := nz, lnz := 0 } G := by
  have hcase : ∀ x, 0 ≤ x → x < n →
      (F .ln x = 0 ∧ G .nv x = 1 ∧ G .el x = -3 ∧ G .pe x = -1) ∨
      (¬ V1 n dense F x ∧ F .ln x ≠ 0 ∧ G .nv x = 0 ∧ G .el x = -1 ∧ G .pe x = -1) ∨
      (V1 n dense F x ∧ G .nv x = 1 ∧ G .el x = 0 ∧ G .pe x = F .pe x) := by
    intro x x0 x1
    by_cases hz : F .ln x = 0
    · exact Or.inl ⟨hz, h.em x x0 x1 hz⟩
    · by_cases hd : F .ln x ≤ dense
      · exact Or.inr (Or.inr ⟨⟨x0, x1, by have := hI.l x x0 x1; omega, hd⟩, h.v x x0 x1 hz hd⟩)
      · exact Or.inr (Or.inl ⟨fun h => hd h.2.2.2, hz, h.de x x0 x1 hz (by omega)⟩)
  have hLV : ∀ x, LV n G x ↔ V1 n dense F x := by
    intro x
    constructor
    · rintro ⟨a, b, c, d⟩
      rcases hcase x a b with h' | h' | h'
      · omega
      · omega
      · exact h'.1
    · intro hv
      rcases hcase x hv.1 hv.2.1 with h' | h' | h'
      · have := hv.2.2.1; omega
      · exact absurd hv h'.1
      · exact ⟨hv.1, hv.2.1, by omega, by omega⟩
  have hLE : ∀ x, ¬ LE n G x := by
    rintro x ⟨a, b, c, d⟩
    rcases hcase x a b with h' | h' | h' <;> omega
  have hLO : ∀ x, LO n G x ↔ V1 n dense F x := by
    intro x
    constructor
    · rintro (h' | h')
      · exact (hLV x).1 h'
      · exact absurd h' (hLE x)
    · intro h'; exact Or.inl ((hLV x).2 h')
  have hpe : ∀ x, V1 n dense F x → G .pe x = F .pe x ∧ G .el x = 0 ∧ G .nv x = 1 := by
    intro x hx
    rcases hcase x hx.1 hx.2.1 with h' | h' | h'
    · have := hx.2.2.1; omega
    · exact absurd hx h'.1
    · exact ⟨h'.2.2.2, h'.2.2.1, h'.2.1⟩
  have hva : ∀ x, V1 n dense F x → vaL G x = obL F x := by
    intro x hx
    unfold vaL obL
    rw [(hpe x hx).1, (hpe x hx).2.1, h.iw, h.ln]
    simp
  have helL : ∀ x, V1 n dense F x → elL G x = [] := by
    intro x hx
    unfold elL
    rw [(hpe x hx).2.1]; simp [seg]
  have hmem : ∀ x, 0 ≤ x → x < n → ∀ y ∈ obL F x, 0 ≤ y ∧ y < n := by
    intro x x0 x1 y hy
    unfold obL at hy
    rw [mem_seg] at hy
    obtain ⟨p, p0, p1, rfl⟩ := hy
    have := hI.l x x0 x1
    exact hI.iw p (by omega) (by omega)
  have hK : ∀ y, 0 ≤ y → y < n → F .ln y ≠ 0 → KK n G y := by
    intro y y0 y1 hy
    refine ⟨y0, y1, ?_⟩
    rcases hcase y y0 y1 with h' | h' | h' <;> omega
  refine ⟨g, hI.nz0, ?_, ?_, ?_, ?_, ?_, ?_, ?_, ?_, h.n0.1, ?_, ?_, ?_, ?_, ?_, le_rfl, ?_⟩
  · intro x x0 x1
    rw [hLO]
    constructor
    · intro hx; rw [(hpe x hx).1]; exact (hI.l x x0 x1).2.2.1
    · intro hp
      rcases hcase x x0 x1 with h' | h' | h'
      · omega
      · omega
      · exact h'.1
  · constructor
    · intro x hx; have := (hLO x).1 hx; exact ⟨this.1, this.2.1⟩
    · intro x hx
      have hv := (hLO x).1 hx
      rw [(hpe x hv).1, h.ln]
      have := hI.l x hv.1 hv.2.1
      exact ⟨this.2.2.1, hv.2.2.1, this.2.2.2⟩
    · intro x y hx hy hxy
      have hx := (hLO x).1 hx
      have hy := (hLO y).1 hy
      rw [(hpe x hx).1, (hpe y hy).1, h.ln]
      exact hI.dj x y hx.1 hx.2.1 hy.1 hy.2.1 hxy
  · refine le_trans (psum_mono (fun _ _ _ _ => trivial) ?_ ?_) hI.sum
    · intro x _ _ _; rw [h.ln]
    · intro x a b _; exact (hI.l x a b).1
  · intro p p0 p1; rw [h.iw]; exact hI.iw p p0 p1
  · intro x hx
    have hv := (hLV x).1 hx
    rw [(hpe x hv).2.1, h.ln]; exact (hI.l x hv.1 hv.2.1).1
  · intro x x0 x1
    rcases hcase x x0 x1 with h' | h' | h' <;> omega
  · constructor
    · intro i hi
      have hv := (hLV i).1 hi
      exact ⟨hi.1, hi.2.1, ⟨hi.1, hi.2.1, by have := hi.2.2.2; omega⟩, hi.2.2.1⟩
    · intro e he; exact absurd he (hLE e)
    · intro i hi e he; rw [helL i ((hLV i).1 hi)] at he; simp at he
    · intro e _ he; exact absurd he (hLE e)
    · intro i j hi hj hij
      have hi := (hLV i).1 hi
      have hj := (hLV j).1 hj
      rw [hva i hi] at hij
      rw [hva j hj]
      exact hI.sy i j hi.1 hi.2.1 hj.1 hj.2.1 hij
    · intro i hi; rw [helL i ((hLV i).1 hi)]; exact List.nodup_nil
    · intro e he; exact absurd he (hLE e)
    · intro e he; exact absurd he (hLE e)
    · intro i hi j hj
      have hi := (hLV i).1 hi
      rw [hva i hi] at hj
      have hjr := hmem i hi.1 hi.2.1 j hj
      refine hK j hjr.1 hjr.2 ?_
      intro e
      have := hI.sy i j hi.1 hi.2.1 hjr.1 hjr.2 hj
      unfold obL at this
      rw [mem_seg, e] at this
      obtain ⟨p, p0, p1, _⟩ := this
      omega
    · intro e he; exact absurd he (hLE e)
    · intro i hi
      have hi := (hLV i).1 hi
      rw [hva i hi]; exact hI.nd i hi.1 hi.2.1
  · rw [psum_congr (O' := fun x => V1 n dense F x ∧ x < n) (g := fun _ => 1) ?_ ?_, h.cnt]
    · intro x _ x1; rw [hLV]; exact ⟨fun a => ⟨a, x1⟩, fun a => a.1⟩
    · intro x _ _ hx; exact (hpe x ((hLV x).1 hx)).2.2
  · obtain ⟨rk, hd⟩ := h.dl
    refine ⟨rk, hd.congr ?_ (fun _ _ _ => rfl) (fun _ _ => rfl) (fun _ _ => rfl) (fun _ _ => rfl)⟩
    intro x; rw [hLV]; exact ⟨fun a => ⟨a, a.2.1⟩, fun a => a.1⟩
  · refine ⟨le_rfl, ?_⟩
    intro c hc
    rw [h.dg c hc.1 hc.2.1]; exact (hI.l c hc.1 hc.2.1).1
  · refine ⟨le_rfl, ?_⟩
    intro x x0 x1
    have := h.w x x0 x1
    refine ⟨this.1, this.2.1, ?_⟩
    intro ho e
    have h1 := this.2.2 e
    have h2 := ((hLO x).1 ho).2.2.1
    omega
  · exact ⟨⟨le_rfl, hn⟩, fun e he => absurd he (hLE e)⟩
  · refine ⟨id, fun _ => 0, ?_⟩
    constructor
    · intro x x0 x1
      rcases hcase x x0 x1 with h' | h' | h' <;> omega
    · intro x x0 x1; exact ⟨x0, x1⟩
    · intro x _ _ _; rfl
    · intro x x0 x1 hx
      have : ((Finset.Ico 0 n).filter (id · = x)) = {x} := by
        ext y
        rw [Finset.mem_filter, Finset.mem_Ico, Finset.mem_singleton]
        constructor
        · rintro ⟨_, h⟩; exact h
        · rintro rfl; exact ⟨⟨x0, x1⟩, rfl⟩
      rw [this]
      rcases hcase x x0 x1 with h' | h' | h'
      · simp [h'.2.1]
      · exact absurd h'.2.2.1 hx
      · simp [h'.2.1]
    · intro x x0 x1 hx
      rcases hcase x x0 x1 with h' | h' | h'
      · omega
      · exact Or.inl ⟨h'.2.2.2.2, rfl⟩
      · omega
    · intro x x0 x1 hx hp
      rcases hcase x x0 x1 with h' | h' | h'
      · omega
      · omega
      · have := hI.l x x0 x1; omega
  · intro x x0 x1
    show -n - 2 ≤ G .el x
    rcases hcase x x0 x1 with h' | h' | h' <;> omega

end Slip.Amd
