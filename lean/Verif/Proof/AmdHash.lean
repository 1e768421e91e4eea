import Verif.Proof.AmdDeg
import Verif.Proof.ColHash

/-!
# AMD: the hash buckets
-/

namespace Slip.Amd

open Slip.Colamd (Ch Ch.congr)

variable [Arith]

variable {n Al L : ℤ} {s : Mem} {F : Sh} {S : ℤ → Prop} {rk : ℤ → ℕ}

/-- The first variable of bucket `h`; `q` are the heads of the degree lists. -/
def bf (q : ℤ → ℤ) (F : Sh) (h : ℤ) : ℤ := if q h > -1 then F .la (q h) else -(F .hd h + 2)

/-- The buckets `bk`, over the degree lists of the state `G`. -/
structure HB (n : ℤ) (G F : Sh) (S : ℤ → Prop) (bk : ℤ → List ℤ) : Prop where
  hp : ∀ h, 0 ≤ h → h < n → G .hd h ≠ -1 → F .hd h = G .hd h
  hq : ∀ h, 0 ≤ h → h < n → G .hd h = -1 → F .hd h ≤ -1
  ch : ∀ h, 0 ≤ h → h < n → Ch (F .nx) (bf (G .hd) F h) (bk h)
  nd : ∀ h, 0 ≤ h → h < n → (bk h).Nodup
  el : ∀ h, 0 ≤ h → h < n → ∀ x ∈ bk h, 0 ≤ x ∧ x < n ∧ F .la x = h ∧ ¬ S x
  s2 : ∀ x, S x → F .dg x = G .dg x
  s3 : ∀ x, S x → G .la x ≠ -1 → F .la x = G .la x
  s4 : ∀ x, S x → F .nx x = G .nx x

theorem HB.congr {G F' : Sh} {bk : ℤ → List ℤ} (h : HB n G F S bk) (hp : F' .hd = F .hd)
    (h3 : F' .la = F .la) (h4 : F' .nx = F .nx) (h2 : ∀ x, S x → F' .dg x = F .dg x) :
    HB n G F' S bk := by
  have hbf : bf (G .hd) F' = bf (G .hd) F := by funext x; unfold bf; rw [hp, h3]
  constructor
  · rw [hp]; exact h.hp
  · rw [hp]; exact h.hq
  · rw [hbf, h4]; exact h.ch
  · exact h.nd
  · rw [h3]; exact h.el
  · intro x hx; rw [h2 x hx]; exact h.s2 x hx
  · rw [h3]; exact h.s3
  · rw [h4]; exact h.s4

theorem HB.start {G : Sh} (hd : DL n G S rk) : HB n G G S (fun _ => []) := by
  constructor
  · intros; rfl
  · intro h h0 h1 hh; omega
  · intro h h0 h1
    show bf _ _ _ = -1
    unfold bf
    rcases hd.hd h h0 h1 with a | ⟨a, b, c⟩
    · rw [a]; simp
    · have := hd.rg _ a
      rw [if_pos (by omega), c]
  · intros; simp
  · intros; simp_all
  · intros; rfl
  · intros; rfl
  · intros; rfl

/-- When all buckets are empty the degree lists are as before. -/
theorem HB.finish {G : Sh} {bk : ℤ → List ℤ} (h : HB n G F S bk) (hd : DL n G S rk)
    (he : ∀ x, 0 ≤ x → x < n → bk x = []) : DL n F S rk := by
  have hb : ∀ x, 0 ≤ x → x < n → bf (G .hd) F x = -1 := by
    intro x h0 h1
    have := h.ch x h0 h1
    rw [he x h0 h1] at this
    exact this
  have hgt : ∀ x, 0 ≤ x → x < n → G .hd x ≠ -1 → G .hd x > -1 := by
    intro x h0 h1 hx
    rcases hd.hd x h0 h1 with a | ⟨a, _⟩
    · exact absurd a hx
    · have := hd.rg _ a; omega
  refine hd.congr (fun _ => Iff.rfl) ?_ h.s2 ?_ h.s4
  · intro d h0 h1
    by_cases hh : G .hd d = -1
    · have := hb d h0 h1
      unfold bf at this
      rw [if_neg (by omega)] at this
      omega
    · exact h.hp d h0 h1 hh
  · intro c hc
    by_cases hh : G .la c = -1
    · have hr := hd.rg c hc
      rcases hd.pv c hc with ⟨a, b⟩ | ⟨a, _⟩
      · have := hb _ hr.2.2.1 hr.2.2.2
        unfold bf at this
        rw [b, if_pos (by omega)] at this
        omega
      · have := hd.rg _ a; omega
    · exact h.s3 c hc hh

theorem HB.head_val {G : Sh} {bk : ℤ → List ℤ} (h : HB n G F S bk) (hd : DL n G S rk) {x : ℤ}
    (h0 : 0 ≤ x) (h1 : x < n) :
    (F .hd x > -1 ↔ G .hd x > -1) ∧ (G .hd x > -1 → F .hd x = G .hd x ∧ S (G .hd x) ∧
      G .dg (G .hd x) = x) ∧ (¬ G .hd x > -1 → G .hd x = -1) := by
  rcases hd.hd x h0 h1 with a | ⟨a, b, c⟩
  · have := h.hq x h0 h1 a
    refine ⟨by omega, fun hh => by omega, fun _ => a⟩
  · have hr := hd.rg _ a
    have := h.hp x h0 h1 (by omega)
    refine ⟨by omega, fun _ => ⟨this, a, b⟩, fun hh => by omega⟩

theorem flip_eq (x : ℤ) : flip x = -(x + 2) := by unfold flip; ring

theorem pushHash_spec {G : Sh} {bk : ℤ → List ℤ} (hR : Rm n Al L s F) (h : HB n G F S bk)
    (hd : DL n G S rk) {col hash : ℤ} (h0 : 0 ≤ hash) (h1 : hash < n) (hc0 : 0 ≤ col)
    (hc1 : col < n) (hcS : ¬ S col) (hcb : ∀ x, 0 ≤ x → x < n → col ∉ bk x) :
    ∃ s' F', pushHash col hash s = .ok s' ∧ Rm n Al L s' F' ∧
      HB n G F' S (Function.update bk hash (col :: bk hash)) ∧
      (∀ f, f ≠ .hd → f ≠ .la → f ≠ .nx → F' f = F f) ∧ F' .la col = hash ∧
      ∀ x, ¬ S x → x ≠ col → F' .la x = F .la x := by
  obtain ⟨v1, v2, v3⟩ := h.head_val hd h0 h1
  unfold pushHash
  rw [hR.rd (f := .hd) (show 0 ≤ hash ∧ hash < n from ⟨h0, by omega⟩), ok_bind]
  have key : ∃ s1 F1, (if F .hd hash ≤ -1 then do
        let f ← ck (flip (F .hd hash))
        let s ← s.wr .nx col f
        let f ← ck (flip col)
        s.wr .hd hash f
      else do
        let l ← s.rd .la (F .hd hash)
        let s ← s.wr .nx col l
        s.wr .la (F .hd hash) col : C Mem) = .ok s1 ∧
      Rm n Al L s1 (set F1 .nx col (bf (G .hd) F hash)) ∧ bf (G .hd) F1 hash = col ∧
      (∀ x, 0 ≤ x → x < n → x ≠ hash → bf (G .hd) F1 x = bf (G .hd) F x) ∧
      (∀ f, f ≠ .hd → f ≠ .la → F1 f = F f) ∧
      (∀ x, 0 ≤ x → x < n → G .hd x ≠ -1 → F1 .hd x = G .hd x) ∧
      (∀ x, 0 ≤ x → x < n → G .hd x = -1 → F1 .hd x ≤ -1) ∧
      (∀ x, S x → G .la x ≠ -1 → F1 .la x = G .la x) ∧
      (∀ x, ¬ S x → F1 .la x = F .la x) := by
    by_cases hh : G .hd hash > -1
    · obtain ⟨e, hS, h2⟩ := v2 hh
      have hr := hd.rg _ hS
      have hb : bf (G .hd) F hash = F .la (G .hd hash) := by unfold bf; rw [if_pos hh]
      have := v1.2 hh
      rw [if_neg (by omega), e, hR.rdn .la (by decide) hr.1 hr.2.1, ok_bind, hb]
      obtain ⟨s0, e0, g0⟩ := hR.wrn .nx (by decide) hc0 hc1 (F .la (G .hd hash))
      rw [e0, ok_bind]
      obtain ⟨s1, e1, g1⟩ := g0.wrn .la (by decide) hr.1 hr.2.1 col
      rw [set_comm _ (by decide)] at g1
      rw [e1]
      refine ⟨s1, _, rfl, g1, ?_, ?_, ?_, ?_, ?_, ?_, ?_⟩
      · unfold bf; rw [if_pos hh, set_apply]; simp
      · intro x hx0 hx1 hx
        unfold bf
        by_cases hx2 : G .hd x > -1
        · have := (h.head_val hd hx0 hx1).2.1 hx2
          rw [if_pos hx2, if_pos hx2, set_apply, if_neg]
          rintro ⟨_, ee⟩
          rw [ee, h2] at this
          exact hx this.2.2.symm
        · rw [if_neg hx2, if_neg hx2, set_ne _ (by decide)]
      · intro f _ hf; rw [set_ne _ hf]
      · intro x hx0 hx1 hx; rw [set_ne _ (by decide)]; exact h.hp x hx0 hx1 hx
      · intro x hx0 hx1 hx; rw [set_ne _ (by decide)]; exact h.hq x hx0 hx1 hx
      · intro x hx hx3
        rw [set_apply, if_neg]
        · exact h.s3 x hx hx3
        · rintro ⟨_, rfl⟩
          rcases hd.hd hash h0 h1 with a | ⟨_, _, a⟩
          · omega
          · exact hx3 a
      · intro x hx
        rw [set_apply, if_neg]
        rintro ⟨_, rfl⟩
        exact hx hS
    · have hG := v3 hh
      have hb : bf (G .hd) F hash = -(F .hd hash + 2) := by unfold bf; rw [if_neg hh]
      rw [if_pos (by by_contra a; exact hh (v1.1 (by omega))), hb]
      have hlo : -(n + 2) ≤ F .hd hash ∧ F .hd hash ≤ 0 := by
        have hc := h.ch hash h0 h1
        have he := h.el hash h0 h1
        have hq := h.hq hash h0 h1 hG
        rw [hb] at hc
        rcases hb2 : bk hash with _ | ⟨y, l⟩
        · rw [hb2] at hc; have : -(F .hd hash + 2) = -1 := hc; omega
        · rw [hb2] at hc he
          have := he y (by simp)
          have := hc.1
          omega
      cks hR
      rw [flip_eq]
      obtain ⟨s0, e0, g0⟩ := hR.wrn .nx (by decide) hc0 hc1 (-(F .hd hash + 2))
      rw [e0, ok_bind]
      cks hR
      rw [flip_eq]
      obtain ⟨s1, e1, g1⟩ := g0.wrn .hd (by decide) h0 h1 (-(col + 2))
      rw [set_comm _ (by decide)] at g1
      rw [e1]
      refine ⟨s1, _, rfl, g1, ?_, ?_, ?_, ?_, ?_, ?_, ?_⟩
      · unfold bf; rw [if_neg hh, set_apply]; simp
      · intro x hx0 hx1 hx
        unfold bf
        have e1 : set F .hd hash (-(col + 2)) .hd x = F .hd x := by
          rw [set_apply, if_neg (by tauto)]
        have e2 : set F .hd hash (-(col + 2)) .la = F .la := set_ne _ (by decide) _ _
        rw [e1, e2]
      · intro f hf _; rw [set_ne _ hf]
      · intro x hx0 hx1 hx
        rw [set_apply, if_neg]
        · exact h.hp x hx0 hx1 hx
        · rintro ⟨_, rfl⟩; exact hx hG
      · intro x hx0 hx1 hx
        rw [set_apply]
        split_ifs
        · omega
        · exact h.hq x hx0 hx1 hx
      · intro x hx hx3; rw [set_ne _ (by decide)]; exact h.s3 x hx hx3
      · intro x _; rw [set_ne _ (by decide)]
  obtain ⟨s1, F1, e1, g2, b1, b2, b3, b4, b5, b6, b7⟩ := key
  rw [e1, ok_bind]
  obtain ⟨s3, e3, g3⟩ := g2.wr (f := .la) (i := col) ⟨hc0, hc1⟩ hash
  refine ⟨s3, _, e3, g3, ?_, ?_, by rw [set_apply]; simp, ?_⟩
  · have hbf : ∀ x, 0 ≤ x → x < n →
        bf (G .hd) (set (set F1 .nx col (bf (G .hd) F hash)) .la col hash) x = bf (G .hd) F1 x := by
      intro x hx0 hx1
      unfold bf
      by_cases hx2 : G .hd x > -1
      · have := (h.head_val hd hx0 hx1).2.1 hx2
        rw [if_pos hx2, if_pos hx2, set_apply, if_neg, set_ne _ (by decide)]
        rintro ⟨_, ee⟩; rw [ee] at this; exact hcS this.2.1
      · rw [if_neg hx2, if_neg hx2, set_ne _ (by decide), set_ne _ (by decide)]
    have h4 : ∀ x, x ≠ col →
        set (set F1 .nx col (bf (G .hd) F hash)) .la col hash .nx x = F .nx x := by
      intro x hx
      rw [set_ne _ (by decide), set_apply, if_neg (by tauto), b3 .nx (by decide) (by decide)]
    have h4c : set (set F1 .nx col (bf (G .hd) F hash)) .la col hash .nx col =
        bf (G .hd) F hash := by
      rw [set_ne _ (by decide), set_apply, if_pos ⟨rfl, rfl⟩]
    have h3 : ∀ x, x ≠ col →
        set (set F1 .nx col (bf (G .hd) F hash)) .la col hash .la x = F1 .la x := by
      intro x hx
      rw [set_apply, if_neg (by tauto), set_ne _ (by decide)]
    have hchain : ∀ x, 0 ≤ x → x < n →
        Ch (set (set F1 .nx col (bf (G .hd) F hash)) .la col hash .nx) (bf (G .hd) F x) (bk x) :=
      fun x hx0 hx1 => (h.ch x hx0 hx1).congr fun y hy =>
        h4 y fun e => hcb x hx0 hx1 (e ▸ hy)
    constructor
    · intro x hx0 hx1 hx
      rw [set_ne _ (by decide), set_ne _ (by decide)]; exact b4 x hx0 hx1 hx
    · intro x hx0 hx1 hx
      rw [set_ne _ (by decide), set_ne _ (by decide)]; exact b5 x hx0 hx1 hx
    · intro x hx0 hx1
      rw [hbf x hx0 hx1]
      by_cases hx : x = hash
      · subst hx
        rw [Function.update_self, b1]
        refine ⟨rfl, by omega, ?_⟩
        rw [h4c]
        exact hchain x hx0 hx1
      · rw [Function.update_of_ne hx, b2 x hx0 hx1 hx]
        exact hchain x hx0 hx1
    · intro x hx0 hx1
      by_cases hx : x = hash
      · subst hx
        rw [Function.update_self, List.nodup_cons]
        exact ⟨hcb x hx0 hx1, h.nd x hx0 hx1⟩
      · rw [Function.update_of_ne hx]; exact h.nd x hx0 hx1
    · have base : ∀ x, 0 ≤ x → x < n → ∀ y ∈ bk x, 0 ≤ y ∧ y < n ∧
          set (set F1 .nx col (bf (G .hd) F hash)) .la col hash .la y = x ∧ ¬ S y := by
        intro x hx0 hx1 y hy
        have hyc : y ≠ col := fun e => hcb x hx0 hx1 (e ▸ hy)
        obtain ⟨a, b, c, d⟩ := h.el x hx0 hx1 y hy
        exact ⟨a, b, by rw [h3 y hyc, b7 y d]; exact c, d⟩
      intro x hx0 hx1 y hy
      by_cases hx : x = hash
      · subst hx
        rw [Function.update_self, List.mem_cons] at hy
        rcases hy with rfl | hy
        · exact ⟨hc0, hc1, by rw [set_apply]; simp, hcS⟩
        · exact base x hx0 hx1 y hy
      · rw [Function.update_of_ne hx] at hy
        exact base x hx0 hx1 y hy
    · intro x hx
      rw [set_ne _ (by decide), set_ne _ (by decide), b3 .dg (by decide) (by decide)]
      exact h.s2 x hx
    · intro x hx hx3
      rw [h3 x fun e => hcS (e ▸ hx)]; exact b6 x hx hx3
    · intro x hx
      rw [h4 x fun e => hcS (e ▸ hx)]; exact h.s4 x hx
  · intro f hf1 hf2 hf3
    rw [set_ne _ hf2, set_ne _ hf3]; exact b3 f hf1 hf2
  · intro x hx hxc
    rw [set_apply, if_neg (by tauto), set_ne _ (by decide)]; exact b7 x hx

end Slip.Amd
