import Verif.Proof.ColDiff

/-!
# COLAMD: the hash buckets
-/

namespace Slip.Colamd

set_option linter.unusedSectionVars false

variable [Arith]
variable {n m Al L : ℤ} {s : Mem} {F : Sh} {S : ℤ → Prop} {rk : ℤ → ℕ}

/-- `l` is the chain of the links `f` that starts at `x`. -/
def Ch (f : ℤ → ℤ) : ℤ → List ℤ → Prop
  | x, [] => x = -1
  | x, y :: l => x = y ∧ y ≠ -1 ∧ Ch f (f y) l

omit [Arith] in
theorem Ch.congr {f g : ℤ → ℤ} : ∀ {l : List ℤ} {x : ℤ}, Ch f x l → (∀ y ∈ l, g y = f y) → Ch g x l
  | [], _, h, _ => h
  | y :: l, x, h, hg => by
    refine ⟨h.1, h.2.1, ?_⟩
    rw [hg y (by simp)]
    exact Ch.congr h.2.2 fun z hz => hg z (by simp [hz])

/-- The first column of bucket `h`; `q` are the heads of the degree lists. -/
def bf (q : ℤ → ℤ) (F : Sh) (h : ℤ) : ℤ := if q h > -1 then F .c3 (q h) else -(F .p h + 2)

/-- The buckets `bk`, over the degree lists of the state `G`. -/
structure HB (n : ℤ) (G F : Sh) (S : ℤ → Prop) (bk : ℤ → List ℤ) : Prop where
  hp : ∀ h, 0 ≤ h → h ≤ n → G .p h ≠ -1 → F .p h = G .p h
  hq : ∀ h, 0 ≤ h → h ≤ n → G .p h = -1 → F .p h ≤ -1
  ch : ∀ h, 0 ≤ h → h ≤ n → Ch (F .c4) (bf (G .p) F h) (bk h)
  nd : ∀ h, 0 ≤ h → h ≤ n → (bk h).Nodup
  el : ∀ h, 0 ≤ h → h ≤ n → ∀ x ∈ bk h, 0 ≤ x ∧ x < n ∧ F .c3 x = h ∧ ¬ S x
  s2 : ∀ x, S x → F .c2 x = G .c2 x
  s3 : ∀ x, S x → G .c3 x ≠ -1 → F .c3 x = G .c3 x
  s4 : ∀ x, S x → F .c4 x = G .c4 x

theorem HB.congr {G F' : Sh} {bk : ℤ → List ℤ} (h : HB n G F S bk) (hp : F' .p = F .p)
    (h3 : F' .c3 = F .c3) (h4 : F' .c4 = F .c4) (h2 : ∀ x, S x → F' .c2 x = F .c2 x) :
    HB n G F' S bk := by
  have hbf : bf (G .p) F' = bf (G .p) F := by funext x; unfold bf; rw [hp, h3]
  constructor
  · rw [hp]; exact h.hp
  · rw [hp]; exact h.hq
  · rw [hbf, h4]; exact h.ch
  · exact h.nd
  · rw [h3]; exact h.el
  · intro x hx; rw [h2 x hx]; exact h.s2 x hx
  · rw [h3]; exact h.s3
  · rw [h4]; exact h.s4

theorem HB.start {G : Sh} (hd : DL n G S rk) : HB n G G S (fun _ => []) := by
  constructor
  · intros; rfl
  · intro h h0 h1 hh; omega
  · intro h h0 h1
    show bf _ _ _ = -1
    unfold bf
    rcases hd.hd h h0 h1 with a | ⟨a, b, c⟩
    · rw [a]; simp
    · have := hd.rg _ a
      rw [if_pos (by omega), c]
  · intros; simp
  · intros; simp_all
  · intros; rfl
  · intros; rfl
  · intros; rfl

/-- When all buckets are empty the degree lists are as before. -/
theorem HB.finish {G : Sh} {bk : ℤ → List ℤ} (h : HB n G F S bk) (hd : DL n G S rk)
    (he : ∀ x, 0 ≤ x → x ≤ n → bk x = []) : DL n F S rk := by
  have hb : ∀ x, 0 ≤ x → x ≤ n → bf (G .p) F x = -1 := by
    intro x h0 h1
    have := h.ch x h0 h1
    rw [he x h0 h1] at this
    exact this
  have hgt : ∀ x, 0 ≤ x → x ≤ n → G .p x ≠ -1 → G .p x > -1 := by
    intro x h0 h1 hx
    rcases hd.hd x h0 h1 with a | ⟨a, _⟩
    · exact absurd a hx
    · have := hd.rg _ a; omega
  refine hd.congr (fun _ => Iff.rfl) ?_ h.s2 ?_ h.s4
  · intro d h0 h1
    by_cases hh : G .p d = -1
    · have := hb d h0 h1
      unfold bf at this
      rw [if_neg (by omega)] at this
      omega
    · exact h.hp d h0 h1 hh
  · intro c hc
    by_cases hh : G .c3 c = -1
    · have hr := hd.rg c hc
      rcases hd.pv c hc with ⟨a, b⟩ | ⟨a, _⟩
      · have := hb _ hr.2.2.1 hr.2.2.2
        unfold bf at this
        rw [b, if_pos (by omega)] at this
        omega
      · have := hd.rg _ a; omega
    · exact h.s3 c hc hh

theorem HB.head_val {G : Sh} {bk : ℤ → List ℤ} (h : HB n G F S bk) (hd : DL n G S rk) {x : ℤ}
    (h0 : 0 ≤ x) (h1 : x ≤ n) :
    (F .p x > -1 ↔ G .p x > -1) ∧ (G .p x > -1 → F .p x = G .p x ∧ S (G .p x) ∧
      G .c2 (G .p x) = x) ∧ (¬ G .p x > -1 → G .p x = -1) := by
  rcases hd.hd x h0 h1 with a | ⟨a, b, c⟩
  · have := h.hq x h0 h1 a
    refine ⟨by omega, fun hh => by omega, fun _ => a⟩
  · have hr := hd.rg _ a
    have := h.hp x h0 h1 (by omega)
    refine ⟨by omega, fun _ => ⟨this, a, b⟩, fun hh => by omega⟩

theorem HB.first {G : Sh} {bk : ℤ → List ℤ} (h : HB n G F S bk) {x : ℤ} (h0 : 0 ≤ x) (h1 : x ≤ n)
    (hn : 0 ≤ n) : -1 ≤ bf (G .p) F x ∧ bf (G .p) F x ≤ n := by
  have h2 := h.ch x h0 h1
  have h3 := h.el x h0 h1
  cases hb : bk x with
  | nil => rw [hb] at h2; have : bf (G .p) F x = -1 := h2; omega
  | cons y l =>
    rw [hb] at h2 h3
    have := h3 y (by simp)
    have : bf (G .p) F x = y := h2.1
    omega

theorem pushHash_spec {G : Sh} {bk : ℤ → List ℤ} (hR : Rm n m Al L s F) (h : HB n G F S bk)
    (hd : DL n G S rk) {col hash : ℤ} (h0 : 0 ≤ hash) (h1 : hash ≤ n) (hc0 : 0 ≤ col)
    (hc1 : col < n) (hcS : ¬ S col) (hcb : ∀ x, 0 ≤ x → x ≤ n → col ∉ bk x) :
    ∃ s' F', pushHash col hash s = .ok s' ∧ Rm n m Al L s' F' ∧
      HB n G F' S (Function.update bk hash (col :: bk hash)) ∧
      (∀ f, f ≠ .p → f ≠ .c3 → f ≠ .c4 → F' f = F f) ∧ F' .c3 col = hash ∧
      ∀ x, ¬ S x → x ≠ col → F' .c3 x = F .c3 x := by
  obtain ⟨v1, v2, v3⟩ := h.head_val hd h0 h1
  unfold pushHash
  rw [hR.rd (f := .p) (show 0 ≤ hash ∧ hash < n + 1 from ⟨h0, by omega⟩), ok_bind]
  have key : ∃ s1 F1, (if F .p hash > -1 then do
        let f ← s.rd .c3 (F .p hash)
        let s ← s.wr .c3 (F .p hash) col
        pure (s, f)
      else do
        let f ← Arith.ck (F .p hash + 2)
        let f ← Arith.ck (-f)
        let t ← Arith.ck (col + 2)
        let t ← Arith.ck (-t)
        let s ← s.wr .p hash t
        pure (s, f) : C (Mem × ℤ)) = .ok (s1, bf (G .p) F hash) ∧
      Rm n m Al L s1 F1 ∧ bf (G .p) F1 hash = col ∧
      (∀ x, 0 ≤ x → x ≤ n → x ≠ hash → bf (G .p) F1 x = bf (G .p) F x) ∧
      (∀ f, f ≠ .p → f ≠ .c3 → F1 f = F f) ∧
      (∀ x, 0 ≤ x → x ≤ n → G .p x ≠ -1 → F1 .p x = G .p x) ∧
      (∀ x, 0 ≤ x → x ≤ n → G .p x = -1 → F1 .p x ≤ -1) ∧
      (∀ x, S x → G .c3 x ≠ -1 → F1 .c3 x = G .c3 x) ∧
      (∀ x, ¬ S x → F1 .c3 x = F .c3 x) := by
    by_cases hh : G .p hash > -1
    · obtain ⟨e, hS, h2⟩ := v2 hh
      have hr := hd.rg _ hS
      have hb : bf (G .p) F hash = F .c3 (G .p hash) := by unfold bf; rw [if_pos hh]
      rw [if_pos (v1.2 hh), e, hR.rd (f := .c3) (show 0 ≤ G .p hash ∧ G .p hash < n from
        ⟨hr.1, hr.2.1⟩), ok_bind, hb]
      obtain ⟨s1, e1, g1⟩ := hR.wr (f := .c3) (i := G .p hash) ⟨hr.1, hr.2.1⟩ col
      rw [e1, ok_bind]
      refine ⟨s1, _, rfl, g1, ?_, ?_, ?_, ?_, ?_, ?_, ?_⟩
      · unfold bf; rw [if_pos hh, set_apply]; simp
      · intro x hx0 hx1 hx
        unfold bf
        by_cases hx2 : G .p x > -1
        · have := (h.head_val hd hx0 hx1).2.1 hx2
          rw [if_pos hx2, if_pos hx2, set_apply, if_neg]
          rintro ⟨_, ee⟩
          rw [ee, h2] at this
          exact hx this.2.2.symm
        · rw [if_neg hx2, if_neg hx2, set_ne _ (by decide)]
      · intro f _ hf; rw [set_ne _ hf]
      · intro x hx0 hx1 hx; rw [set_ne _ (by decide)]; exact h.hp x hx0 hx1 hx
      · intro x hx0 hx1 hx; rw [set_ne _ (by decide)]; exact h.hq x hx0 hx1 hx
      · intro x hx hx3
        rw [set_apply, if_neg]
        · exact h.s3 x hx hx3
        · rintro ⟨_, rfl⟩
          rcases hd.hd hash h0 h1 with a | ⟨_, _, a⟩
          · omega
          · exact hx3 a
      · intro x hx
        rw [set_apply, if_neg]
        rintro ⟨_, rfl⟩
        exact hx hS
    · have hG := v3 hh
      have hb : bf (G .p) F hash = -(F .p hash + 2) := by unfold bf; rw [if_neg hh]
      rw [if_neg (fun a => hh (v1.1 a)), hb]
      have hfb := h.first h0 h1 (by omega)
      rw [hb] at hfb
      cks hR
      cks hR
      cks hR
      cks hR
      obtain ⟨s1, e1, g1⟩ := hR.wr (f := .p) (i := hash) ⟨h0, by omega⟩ (-(col + 2))
      rw [e1, ok_bind]
      refine ⟨s1, _, rfl, g1, ?_, ?_, ?_, ?_, ?_, ?_, ?_⟩
      · unfold bf; rw [if_neg hh, set_apply]; simp
      · intro x hx0 hx1 hx
        unfold bf
        have e1 : set F .p hash (-(col + 2)) .p x = F .p x := by
          rw [set_apply, if_neg (by tauto)]
        have e2 : set F .p hash (-(col + 2)) .c3 = F .c3 := set_ne _ (by decide) _ _
        rw [e1, e2]
      · intro f hf _; rw [set_ne _ hf]
      · intro x hx0 hx1 hx
        rw [set_apply, if_neg]
        · exact h.hp x hx0 hx1 hx
        · rintro ⟨_, rfl⟩; exact hx hG
      · intro x hx0 hx1 hx
        rw [set_apply]
        split_ifs
        · omega
        · exact h.hq x hx0 hx1 hx
      · intro x hx hx3; rw [set_ne _ (by decide)]; exact h.s3 x hx hx3
      · intro x _; rw [set_ne _ (by decide)]
  obtain ⟨s1, F1, e1, g1, b1, b2, b3, b4, b5, b6, b7⟩ := key
  rw [e1, ok_bind]
  dsimp only
  obtain ⟨s2, e2, g2⟩ := g1.wr (f := .c4) (i := col) ⟨hc0, hc1⟩ (bf (G .p) F hash)
  rw [e2, ok_bind]
  obtain ⟨s3, e3, g3⟩ := g2.wr (f := .c3) (i := col) ⟨hc0, hc1⟩ hash
  refine ⟨s3, _, e3, g3, ?_, ?_, by rw [set_apply]; simp, ?_⟩
  · have hbf : ∀ x, 0 ≤ x → x ≤ n →
        bf (G .p) (set (set F1 .c4 col (bf (G .p) F hash)) .c3 col hash) x = bf (G .p) F1 x := by
      intro x hx0 hx1
      unfold bf
      by_cases hx2 : G .p x > -1
      · have := (h.head_val hd hx0 hx1).2.1 hx2
        rw [if_pos hx2, if_pos hx2, set_apply, if_neg, set_ne _ (by decide)]
        rintro ⟨_, ee⟩; rw [ee] at this; exact hcS this.2.1
      · rw [if_neg hx2, if_neg hx2, set_ne _ (by decide), set_ne _ (by decide)]
    have h4 : ∀ x, x ≠ col →
        set (set F1 .c4 col (bf (G .p) F hash)) .c3 col hash .c4 x = F .c4 x := by
      intro x hx
      rw [set_ne _ (by decide), set_apply, if_neg (by tauto), b3 .c4 (by decide) (by decide)]
    have h4c : set (set F1 .c4 col (bf (G .p) F hash)) .c3 col hash .c4 col =
        bf (G .p) F hash := by
      rw [set_ne _ (by decide), set_apply, if_pos ⟨rfl, rfl⟩]
    have h3 : ∀ x, x ≠ col →
        set (set F1 .c4 col (bf (G .p) F hash)) .c3 col hash .c3 x = F1 .c3 x := by
      intro x hx
      rw [set_apply, if_neg (by tauto), set_ne _ (by decide)]
    have hchain : ∀ x, 0 ≤ x → x ≤ n →
        Ch (set (set F1 .c4 col (bf (G .p) F hash)) .c3 col hash .c4) (bf (G .p) F x) (bk x) :=
      fun x hx0 hx1 => (h.ch x hx0 hx1).congr fun y hy =>
        h4 y fun e => hcb x hx0 hx1 (e ▸ hy)
    constructor
    · intro x hx0 hx1 hx
      rw [set_ne _ (by decide), set_ne _ (by decide)]; exact b4 x hx0 hx1 hx
    · intro x hx0 hx1 hx
      rw [set_ne _ (by decide), set_ne _ (by decide)]; exact b5 x hx0 hx1 hx
    · intro x hx0 hx1
      rw [hbf x hx0 hx1]
      by_cases hx : x = hash
      · subst hx
        rw [Function.update_self, b1]
        refine ⟨rfl, by omega, ?_⟩
        rw [h4c]
        exact hchain x hx0 hx1
      · rw [Function.update_of_ne hx, b2 x hx0 hx1 hx]
        exact hchain x hx0 hx1
    · intro x hx0 hx1
      by_cases hx : x = hash
      · subst hx
        rw [Function.update_self, List.nodup_cons]
        exact ⟨hcb x hx0 hx1, h.nd x hx0 hx1⟩
      · rw [Function.update_of_ne hx]; exact h.nd x hx0 hx1
    · have base : ∀ x, 0 ≤ x → x ≤ n → ∀ y ∈ bk x, 0 ≤ y ∧ y < n ∧
          set (set F1 .c4 col (bf (G .p) F hash)) .c3 col hash .c3 y = x ∧ ¬ S y := by
        intro x hx0 hx1 y hy
        have hyc : y ≠ col := fun e => hcb x hx0 hx1 (e ▸ hy)
        obtain ⟨a, b, c, d⟩ := h.el x hx0 hx1 y hy
        exact ⟨a, b, by rw [h3 y hyc, b7 y d]; exact c, d⟩
      intro x hx0 hx1 y hy
      by_cases hx : x = hash
      · subst hx
        rw [Function.update_self, List.mem_cons] at hy
        rcases hy with rfl | hy
        · exact ⟨hc0, hc1, by rw [set_apply]; simp, hcS⟩
        · exact base x hx0 hx1 y hy
      · rw [Function.update_of_ne hx] at hy
        exact base x hx0 hx1 y hy
    · intro x hx
      rw [set_ne _ (by decide), set_ne _ (by decide), b3 .c2 (by decide) (by decide)]
      exact h.s2 x hx
    · intro x hx hx3
      rw [h3 x fun e => hcS (e ▸ hx)]; exact b6 x hx hx3
    · intro x hx
      rw [h4 x fun e => hcS (e ▸ hx)]; exact h.s4 x hx
  · intro f hf1 hf2 hf3
    rw [set_ne _ hf2, set_ne _ hf3]; exact b3 f hf1 hf2
  · intro x hx hxc
    rw [set_apply, if_neg (by tauto), set_ne _ (by decide)]; exact b7 x hx

end Slip.Colamd
