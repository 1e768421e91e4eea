import Verif.Proof.AmdFin1
import Verif.Proof.ColHash

/-!
# AMD: the postorder of the assembly tree
-/

namespace Slip.Amd

open Slip.Colamd (Ch)

variable [Arith]

variable {n Al L : ℤ} {s : Mem} {F : Sh}

/-! ## Chains -/

/-- Following `f` from `x` one visits `l` and ends at `y`. -/
def Sg (f : ℤ → ℤ) : ℤ → List ℤ → ℤ → Prop
  | x, [], y => x = y
  | x, a :: l, y => x = a ∧ a ≠ -1 ∧ Sg f (f a) l y

theorem sg_ch {f : ℤ → ℤ} : ∀ {l : List ℤ} {x : ℤ}, Sg f x l (-1) ↔ Ch f x l
  | [], _ => Iff.rfl
  | _ :: _, _ => by unfold Sg Ch; rw [sg_ch]

theorem sg_append {f : ℤ → ℤ} : ∀ {l l' : List ℤ} {x y : ℤ}, Sg f x (l ++ l') y ↔ ∃ m, Sg f x l m ∧ Sg f m l' y
  | [], _, _, _ => by simp [Sg]
  | a :: l, l', x, y => by
    simp only [List.cons_append, Sg]
    rw [sg_append]
    constructor
    · rintro ⟨a, b, m, c, d⟩; exact ⟨m, ⟨a, b, c⟩, d⟩
    · rintro ⟨m, ⟨a, b, c⟩, d⟩; exact ⟨a, b, m, c, d⟩

theorem Sg.congr {f g : ℤ → ℤ} : ∀ {l : List ℤ} {x y : ℤ}, Sg f x l y → (∀ a ∈ l, g a = f a) → Sg g x l y
  | [], _, _, h, _ => h
  | a :: l, x, y, h, hg => by
    refine ⟨h.1, h.2.1, ?_⟩
    rw [hg a (by simp)]
    exact h.2.2.congr fun b hb => hg b (by simp [hb])

/-- Only the last link changes. -/
theorem Sg.last {f g : ℤ → ℤ} {l : List ℤ} {a x y : ℤ} (h : Sg f x (l ++ [a]) y) (hg : ∀ b ∈ l, g b = f b) :
    Sg g x (l ++ [a]) (g a) := by
  rw [sg_append] at h ⊢
  obtain ⟨m, h1, h2⟩ := h
  exact ⟨m, h1.congr hg, h2.1, h2.2.1, rfl⟩

/-! ## The lists of children -/

/-- The nodes of the assembly tree. -/
def Nd (n : ℤ) (F : Sh) (x : ℤ) : Prop := 0 ≤ x ∧ x < n ∧ 0 < F .nv x

/-- The lists of the children `j ≥ k`. -/
structure CL (n : ℤ) (F : Sh) (k : ℤ) (ch : ℤ → List ℤ) : Prop where
  c : ∀ p, 0 ≤ p → p < n → Sg (F .nx) (F .hd p) (ch p) (-1)
  m : ∀ p, 0 ≤ p → p < n → ∀ j, (j ∈ ch p ↔ Nd n F j ∧ F .pe j = p ∧ k ≤ j)
  nd : ∀ p, 0 ≤ p → p < n → (ch p).Nodup

theorem postInit_spec (hR : Rm n Al L s F) (hn : 0 ≤ n) :
    wp (postInit n s) (fun s' => ∃ F', Rm n Al L s' F' ∧ CL n F' n (fun _ => []) ∧
      ∀ f, f ≠ .hd → f ≠ .nx → F' f = F f) (fun _ => False) := by
  unfold postInit
  refine wp_mono (wp_forRange (fun k (s : Mem) => ∃ F', Rm n Al L s F' ∧
    (∀ x, 0 ≤ x → x < k → F' .hd x = -1) ∧ ∀ f, f ≠ .hd → f ≠ .nx → F' f = F f) hn ?_ ?_) ?_ (fun _ h => h)
  · exact ⟨F, hR, fun x x0 x1 => by omega, fun _ _ _ => rfl⟩
  · rintro k s1 k0 k1 ⟨F1, g, h1, h2⟩
    obtain ⟨s2, e2, g2⟩ := g.wrn .hd (by decide) k0 k1 (-1)
    rw [e2, ok_bind]
    obtain ⟨s3, e3, g3⟩ := g2.wrn .nx (by decide) k0 k1 (-1)
    rw [e3]
    refine wok ⟨_, g3, ?_, ?_⟩
    · intro x x0 x1
      rw [set_ne _ (by decide)]
      by_cases hx : x = k
      · subst hx; rw [set_at]
      · rw [set_nei _ _ _ _ hx]; exact h1 x x0 (by omega)
    · intro f f1 f2; rw [set_ne _ f2, set_ne _ f1]; exact h2 f f1 f2
  · rintro s1 ⟨F1, g, h1, h2⟩
    refine ⟨F1, g, ⟨?_, ?_, ?_⟩, h2⟩
    · intro p p0 p1; exact h1 p p0 p1
    · intro p _ _ j
      simp only [List.not_mem_nil, false_iff]
      rintro ⟨a, _, b⟩
      have := a.2.1
      omega
    · intro p _ _; exact List.nodup_nil

theorem postChildren_spec (hR : Rm n Al L s F) (hn : 0 ≤ n) (h : CL n F n (fun _ => []))
    (hp : ∀ x, Nd n F x → F .pe x = -1 ∨ (0 ≤ F .pe x ∧ F .pe x < n)) :
    wp (postChildren n s) (fun s' => ∃ F' ch, Rm n Al L s' F' ∧ CL n F' 0 ch ∧
      ∀ f, f ≠ .hd → f ≠ .nx → F' f = F f) (fun _ => False) := by
  unfold postChildren
  refine wp_forDown (fun k (s : Mem) => ∃ F' ch, Rm n Al L s F' ∧ CL n F' k ch ∧
      ∀ f, f ≠ .hd → f ≠ .nx → F' f = F f) hn ⟨F, _, hR, h, fun _ _ _ => rfl⟩ ?_
  rintro j s1 j0 j1 ⟨F1, ch, g, h1, h2⟩
  have env : F1 .nv = F .nv := h2 _ (by decide) (by decide)
  have epe : F1 .pe = F .pe := h2 _ (by decide) (by decide)
  have hNd : ∀ x, Nd n F1 x ↔ Nd n F x := fun x => by unfold Nd; rw [env]
  rw [g.rdn .nv (by decide) j0 j1, ok_bind]
  have hskip : (¬ (Nd n F1 j ∧ F1 .pe j ≠ -1)) → CL n F1 j ch := by
    intro hc
    refine ⟨h1.c, ?_, h1.nd⟩
    intro p p0 p1 i
    rw [h1.m p p0 p1]
    constructor
    · rintro ⟨a, b, c⟩; exact ⟨a, b, by omega⟩
    · rintro ⟨a, b, c⟩
      refine ⟨a, b, ?_⟩
      by_contra hh
      obtain rfl : i = j := by omega
      exact hc ⟨a, by omega⟩
  by_cases hv : F1 .nv j > 0
  · rw [if_pos hv, g.rdn .pe (by decide) j0 j1, ok_bind]
    by_cases hpe : F1 .pe j ≠ -1
    · rw [if_pos hpe]
      have hN : Nd n F1 j := ⟨j0, j1, hv⟩
      have hpr : 0 ≤ F1 .pe j ∧ F1 .pe j < n := by
        rcases hp j ((hNd j).1 hN) with a | a
        · rw [epe] at hpe; exact absurd a hpe
        · rw [epe]; exact a
      rw [g.rdn .hd (by decide) hpr.1 hpr.2, ok_bind]
      obtain ⟨s2, e2, g2⟩ := g.wrn .nx (by decide) j0 j1 (F1 .hd (F1 .pe j))
      rw [e2, ok_bind]
      obtain ⟨s3, e3, g3⟩ := g2.wrn .hd (by decide) hpr.1 hpr.2 j
      rw [e3]
      have hnot : ∀ p, 0 ≤ p → p < n → j ∉ ch p := by
        intro p p0 p1 hm
        have := ((h1.m p p0 p1 j).1 hm).2.2
        omega
      refine wok ⟨_, fun p => if p = F1 .pe j then j :: ch p else ch p, g3, ⟨?_, ?_, ?_⟩, ?_⟩
      · intro p p0 p1
        have hcg : ∀ a ∈ ch p, (set (set F1 .nx j (F1 .hd (F1 .pe j))) .hd (F1 .pe j) j) .nx a = F1 .nx a := by
          intro a ha
          rw [set_ne _ (by decide), set_nei _ _ _ _ (by rintro rfl; exact hnot p p0 p1 ha)]
        by_cases he : p = F1 .pe j
        · subst he
          rw [if_pos rfl, set_at]
          refine ⟨rfl, by omega, ?_⟩
          rw [set_ne _ (by decide), set_at]
          have := (h1.c _ p0 p1).congr hcg
          rw [set_ne _ (by decide)] at this
          exact this
        · rw [if_neg he, set_nei _ _ _ _ he, set_ne _ (by decide)]
          exact (h1.c p p0 p1).congr hcg
      · intro p p0 p1 i
        have hNd' : Nd n (set (set F1 .nx j (F1 .hd (F1 .pe j))) .hd (F1 .pe j) j) i ↔ Nd n F1 i := by
          unfold Nd; rw [set_ne _ (by decide), set_ne _ (by decide)]
        rw [hNd', set_ne _ (by decide), set_ne _ (by decide)]
        by_cases he : p = F1 .pe j
        · rw [if_pos he, List.mem_cons, h1.m p p0 p1]
          constructor
          · rintro (rfl | ⟨a, b, c⟩)
            · exact ⟨hN, he.symm, le_rfl⟩
            · exact ⟨a, b, by omega⟩
          · rintro ⟨a, b, c⟩
            by_cases hi : i = j
            · exact Or.inl hi
            · exact Or.inr ⟨a, b, by omega⟩
        · rw [if_neg he, h1.m p p0 p1]
          constructor
          · rintro ⟨a, b, c⟩; exact ⟨a, b, by omega⟩
          · rintro ⟨a, b, c⟩
            have hi : i ≠ j := by rintro rfl; exact he b.symm
            exact ⟨a, b, by omega⟩
      · intro p p0 p1
        by_cases he : p = F1 .pe j
        · rw [if_pos he]; exact List.nodup_cons.2 ⟨hnot p p0 p1, h1.nd p p0 p1⟩
        · rw [if_neg he]; exact h1.nd p p0 p1
      · intro f f1 f2; rw [set_ne _ f1, set_ne _ f2]; exact h2 f f1 f2
    · rw [if_neg hpe]
      exact wpr ⟨F1, ch, g, hskip fun a => hpe a.2, h2⟩
  · rw [if_neg hv]
    exact wpr ⟨F1, ch, g, hskip fun a => hv a.1.2.2, h2⟩

/-! ## The biggest child -/

/-- The last element, or EMPTY. -/
def lst (l : List ℤ) : ℤ := l.getLast?.getD (-1)

theorem lst_snoc (l : List ℤ) (a : ℤ) : lst (l ++ [a]) = a := by unfold lst; simp

theorem findBig_spec (hR : Rm n Al L s F) : ∀ (rem dn : List ℤ) (fuel : ℕ) (f : ℤ) (b : Big), Sg (F .nx) f rem (-1) →
    (∀ x ∈ rem, 0 ≤ x ∧ x < n ∧ 0 ≤ F .el x) → rem.length < fuel → b.fprev = lst dn →
    (dn = [] → b.maxfr = -1) → (dn ≠ [] → ∃ pre post, dn = pre ++ b.bigf :: post ∧ b.bigfprev = lst pre) →
    ∃ b', findBig s fuel f b = .ok b' ∧ b'.fprev = lst (dn ++ rem) ∧
      (dn ++ rem ≠ [] → ∃ pre post, dn ++ rem = pre ++ b'.bigf :: post ∧ b'.bigfprev = lst pre)
  | [], dn, fuel + 1, f, b, hs, _, _, h1, _, h3 => by
    unfold findBig
    rw [if_neg (by simpa [Sg] using hs)]
    exact ⟨b, rfl, by simpa using h1, by simpa using h3⟩
  | [], _, 0, _, _, _, _, hf, _, _, _ => by simp at hf
  | _ :: _, _, 0, _, _, _, _, hf, _, _, _ => by simp at hf
  | a :: rem, dn, fuel + 1, f, b, hs, hr, hf, h1, h2, h3 => by
    unfold findBig
    obtain ⟨rfl, hne, hs'⟩ := hs
    have ha := hr f (by simp)
    rw [if_pos hne, hR.rdn .el (by decide) ha.1 ha.2.1, ok_bind, hR.rdn .nx (by decide) ha.1 ha.2.1, ok_bind]
    have key := findBig_spec hR rem (dn ++ [f]) fuel (F .nx f)
      { (if F .el f ≥ b.maxfr then { b with maxfr := F .el f, bigfprev := b.fprev, bigf := f } else b) with fprev := f }
      hs' (fun x hx => hr x (by simp [hx])) (by simp at hf; omega) (by rw [lst_snoc]) (by simp) (by
        intro _
        by_cases hc : F .el f ≥ b.maxfr
        · simp only [hc, if_true]
          exact ⟨dn, [], rfl, h1⟩
        · simp only [hc, if_false]
          obtain ⟨pre, post, e, e'⟩ := h3 (fun h => hc (by rw [h2 h]; have := ha.2.2; omega))
          exact ⟨pre, post ++ [f], by rw [e]; simp, e'⟩)
    obtain ⟨b', e1, e2, e3⟩ := key
    refine ⟨b', e1, ?_, ?_⟩
    · rw [e2]; simp
    · intro _
      obtain ⟨pre, post, e, e'⟩ := e3 (by simp)
      exact ⟨pre, post, by rw [← e]; simp, e'⟩

theorem moveBig_spec (hR : Rm n Al L s F) {i : ℤ} {b : Big} {l pre post : List ℤ} (i0 : 0 ≤ i) (i1 : i < n)
    (hs : Sg (F .nx) (F .hd i) l (-1)) (hl : ∀ x ∈ l, 0 ≤ x ∧ x < n) (hnd : l.Nodup)
    (e1 : l = pre ++ b.bigf :: post) (e2 : b.bigfprev = lst pre) (e3 : b.fprev = lst l) :
    ∃ s' F' l', moveBig i b s = .ok s' ∧ Rm n Al L s' F' ∧ Sg (F' .nx) (F' .hd i) l' (-1) ∧ (∀ x, x ∈ l' ↔ x ∈ l) ∧
      l'.Nodup ∧ (∀ f, f ≠ .hd → f ≠ .nx → F' f = F f) ∧ (∀ x, x ≠ i → F' .hd x = F .hd x) ∧
      ∀ x, x ∉ l → F' .nx x = F .nx x := by
  unfold moveBig
  have hbl : b.bigf ∈ l := by rw [e1]; simp
  have hb := hl _ hbl
  rw [hR.rdn .nx (by decide) hb.1 hb.2, ok_bind]
  have hs0 := hs
  rw [e1, sg_append] at hs
  obtain ⟨m, hs1, rfl, hbn, hs2⟩ := hs
  rcases List.eq_nil_or_concat' post with rfl | ⟨post', c, rfl⟩
  · have : F .nx b.bigf = -1 := hs2
    rw [if_neg (by simp [this])]
    exact ⟨s, F, l, rfl, hR, hs0, fun _ => Iff.rfl, hnd, fun _ _ _ => rfl, fun _ _ => rfl, fun _ _ => rfl⟩
  have hc : b.fprev = c := by
    rw [e3, e1, show pre ++ b.bigf :: (post' ++ [c]) = (pre ++ b.bigf :: post') ++ [c] by simp, lst_snoc]
  have hcl : c ∈ l := by rw [e1]; simp
  have hcr := hl c hcl
  have hfn : 0 ≤ F .nx b.bigf ∧ F .nx b.bigf < n := by
    cases post' with
    | nil => obtain ⟨h, _⟩ := hs2; rw [h]; exact hcr
    | cons d post' => obtain ⟨h, _⟩ := hs2; rw [h]; exact hl d (by rw [e1]; simp)
  rw [if_pos (by omega), hc]
  set fn := F .nx b.bigf with hfn'
  have hperm : (pre ++ (post' ++ [c]) ++ [b.bigf]).Perm l := by
    rw [e1, List.append_assoc]
    exact List.Perm.append_left _ (List.perm_append_comm)
  rw [e1] at hnd
  have hbc : b.bigf ≠ c := by
    rintro h
    have := (List.nodup_append.1 hnd).2.1
    rw [List.nodup_cons] at this
    exact this.1 (by rw [h]; simp)
  have hbp : b.bigf ∉ post' := by
    have := (List.nodup_append.1 hnd).2.1
    rw [List.nodup_cons] at this
    exact fun h => this.1 (by simp [h])
  have hcp : c ∉ post' := by
    have := (List.nodup_append.1 hnd).2.1
    rw [List.nodup_cons] at this
    have := (List.nodup_append.1 this.2).2.2
    exact fun h => this c h c (by simp) rfl
  have hbpre : b.bigf ∉ pre := fun h => (List.nodup_append.1 hnd).2.2 _ h b.bigf (by simp) rfl
  have hcpre : c ∉ pre := fun h => (List.nodup_append.1 hnd).2.2 _ h c (by simp) rfl
  have hppre : ∀ x ∈ post', x ∉ pre := fun x hx h => (List.nodup_append.1 hnd).2.2 _ h x (by simp [hx]) rfl
  -- the three writes
  rcases List.eq_nil_or_concat' pre with rfl | ⟨pre', q, rfl⟩
  · have : b.bigfprev = -1 := by rw [e2]; rfl
    rw [if_pos this]
    obtain ⟨s1, w1, g1⟩ := hR.wrn .hd (by decide) i0 i1 fn
    rw [w1, ok_bind]
    obtain ⟨s2, w2, g2⟩ := g1.wrn .nx (by decide) hb.1 hb.2 (-1)
    rw [w2, ok_bind]
    obtain ⟨s3, w3, g3⟩ := g2.wrn .nx (by decide) hcr.1 hcr.2 b.bigf
    rw [w3]
    refine ⟨s3, _, _, rfl, g3, ?_, fun x => hperm.mem_iff, hperm.nodup_iff.2 (by rw [e1]; exact hnd), ?_, ?_, ?_⟩
    · rw [sg_append]
      refine ⟨b.bigf, ?_, rfl, hbn, ?_⟩
      · have h1 : set (set (set F .hd i fn) .nx b.bigf (-1)) .nx c b.bigf .hd i = fn := by
          rw [set_ne _ (by decide), set_ne _ (by decide), set_at]
        have h2 := Sg.last (g := set (set (set F .hd i fn) .nx b.bigf (-1)) .nx c b.bigf .nx) hs2 (by
          intro x hx
          rw [set_nei _ _ _ _ (by rintro rfl; exact hcp hx), set_nei _ _ _ _ (by rintro rfl; exact hbp hx),
            set_ne _ (by decide)])
        rw [set_at] at h2
        rw [h1]
        simpa using h2
      · rw [set_nei _ _ _ _ hbc, set_at]; rfl
    · intro f f1 f2; rw [set_ne _ f2, set_ne _ f2, set_ne _ f1]
    · intro x hx; rw [set_ne _ (by decide), set_ne _ (by decide), set_nei _ _ _ _ hx]
    · intro x hx
      rw [set_nei _ _ _ _ (by rintro rfl; exact hx hcl), set_nei _ _ _ _ (by rintro rfl; exact hx hbl),
        set_ne _ (by decide)]
  · have hq : b.bigfprev = q := by rw [e2, lst_snoc]
    have hql : q ∈ l := by rw [e1]; simp
    have hqr := hl q hql
    have hqp : q ∉ pre' := by
      have := (List.nodup_append.1 hnd).1
      have := (List.nodup_append.1 this).2.2
      exact fun h => this q h q (by simp) rfl
    rw [hq, if_neg (by omega)]
    obtain ⟨s1, w1, g1⟩ := hR.wrn .nx (by decide) hqr.1 hqr.2 fn
    rw [w1, ok_bind]
    obtain ⟨s2, w2, g2⟩ := g1.wrn .nx (by decide) hb.1 hb.2 (-1)
    rw [w2, ok_bind]
    obtain ⟨s3, w3, g3⟩ := g2.wrn .nx (by decide) hcr.1 hcr.2 b.bigf
    rw [w3]
    have hqc : q ≠ c := by rintro rfl; exact hcpre (by simp)
    have hqb : q ≠ b.bigf := by rintro rfl; exact hbpre (by simp)
    refine ⟨s3, _, _, rfl, g3, ?_, fun x => hperm.mem_iff, hperm.nodup_iff.2 (by rw [e1]; exact hnd), ?_, ?_, ?_⟩
    · rw [sg_append]
      refine ⟨b.bigf, ?_, rfl, hbn, ?_⟩
      · rw [sg_append]
        refine ⟨fn, ?_, ?_⟩
        · have h2 := Sg.last (g := set (set (set F .nx q fn) .nx b.bigf (-1)) .nx c b.bigf .nx) hs1 (by
            intro x hx
            rw [set_nei _ _ _ _ (by rintro rfl; exact hcpre (by simp [hx])),
              set_nei _ _ _ _ (by rintro rfl; exact hbpre (by simp [hx])),
              set_nei _ _ _ _ (by rintro rfl; exact hqp hx)])
          rw [set_nei _ _ _ _ hqc, set_nei _ _ _ _ hqb, set_at] at h2
          rw [set_ne (f := .nx) (g := .hd) _ (by decide), set_ne (f := .nx) (g := .hd) _ (by decide),
            set_ne (f := .nx) (g := .hd) _ (by decide)]
          exact h2
        · have h2 := Sg.last (g := set (set (set F .nx q fn) .nx b.bigf (-1)) .nx c b.bigf .nx) hs2 (by
            intro x hx
            rw [set_nei _ _ _ _ (by rintro rfl; exact hcp hx), set_nei _ _ _ _ (by rintro rfl; exact hbp hx),
              set_nei _ _ _ _ (by rintro rfl; exact hppre _ hx (by simp))])
          rw [set_at] at h2
          exact h2
      · rw [set_nei _ _ _ _ hbc, set_at]; rfl
    · intro f f1 f2; rw [set_ne _ f2, set_ne _ f2, set_ne _ f2]
    · intro x hx; rw [set_ne _ (by decide), set_ne _ (by decide), set_ne _ (by decide)]
    · intro x hx
      rw [set_nei _ _ _ _ (by rintro rfl; exact hx hcl), set_nei _ _ _ _ (by rintro rfl; exact hx hbl),
        set_nei _ _ _ _ (by rintro rfl; exact hx hql)]

theorem postBig_spec {ch : ℤ → List ℤ} (hR : Rm n Al L s F) (hn : 0 ≤ n) (h : CL n F 0 ch)
    (hel : ∀ x, Nd n F x → 0 ≤ F .el x) :
    wp (postBig n s) (fun s' => ∃ F' ch', Rm n Al L s' F' ∧ CL n F' 0 ch' ∧
      ∀ f, f ≠ .hd → f ≠ .nx → F' f = F f) (fun _ => False) := by
  unfold postBig
  refine wp_forRange (fun k (s : Mem) => ∃ F' ch, Rm n Al L s F' ∧ CL n F' 0 ch ∧
      ∀ f, f ≠ .hd → f ≠ .nx → F' f = F f) hn ⟨F, _, hR, h, fun _ _ _ => rfl⟩ ?_
  rintro i s1 i0 i1 ⟨F1, ch, g, h1, h2⟩
  have env : F1 .nv = F .nv := h2 _ (by decide) (by decide)
  have eel : F1 .el = F .el := h2 _ (by decide) (by decide)
  have hNd : ∀ x, Nd n F1 x ↔ Nd n F x := fun x => by unfold Nd; rw [env]
  rw [g.rdn .nv (by decide) i0 i1, ok_bind]
  by_cases hv : F1 .nv i > 0
  swap
  · rw [if_neg hv]; exact wpr ⟨F1, ch, g, h1, h2⟩
  rw [if_pos hv, g.rdn .hd (by decide) i0 i1, ok_bind]
  by_cases hc : F1 .hd i ≠ -1
  swap
  · rw [if_neg hc]; exact wpr ⟨F1, ch, g, h1, h2⟩
  rw [if_pos hc]
  have hmem : ∀ x ∈ ch i, 0 ≤ x ∧ x < n ∧ 0 ≤ F1 .el x := by
    intro x hx
    have := ((h1.m i i0 i1 x).1 hx).1
    exact ⟨this.1, this.2.1, by rw [eel]; exact hel x ((hNd x).1 this)⟩
  have hlen := length_lt (h1.nd i i0 i1) fun x hx => ⟨(hmem x hx).1, (hmem x hx).2.1⟩
  obtain ⟨b, e1, e2, e3⟩ := findBig_spec g (ch i) [] (n.toNat + 1) (F1 .hd i)
    { fprev := -1, maxfr := -1, bigfprev := -1, bigf := -1 } (h1.c i i0 i1) hmem (by omega) rfl (fun _ => rfl)
    (fun h => absurd rfl h)
  rw [e1, ok_bind]
  have hne : ch i ≠ [] := by
    intro e
    have := h1.c i i0 i1
    rw [e] at this
    exact hc this
  obtain ⟨pre, post, e4, e5⟩ := e3 (by simpa using hne)
  obtain ⟨s2, F2, l', e6, g2, q1, q2, q3, q4, q5, q6⟩ := moveBig_spec g i0 i1 (h1.c i i0 i1)
    (fun x hx => ⟨(hmem x hx).1, (hmem x hx).2.1⟩) (h1.nd i i0 i1) (by simpa using e4) e5 (by simpa using e2)
  rw [e6]
  have hNd2 : ∀ x, Nd n F2 x ↔ Nd n F1 x := fun x => by unfold Nd; rw [q4 _ (by decide) (by decide)]
  refine wok ⟨F2, fun p => if p = i then l' else ch p, g2, ⟨?_, ?_, ?_⟩, ?_⟩
  · intro p p0 p1
    by_cases he : p = i
    · subst he; rw [if_pos rfl]; exact q1
    · rw [if_neg he, q5 p he]
      refine (h1.c p p0 p1).congr ?_
      intro a ha
      refine q6 a fun hm => ?_
      have h3 := ((h1.m p p0 p1 a).1 ha).2.1
      have h4 := ((h1.m i i0 i1 a).1 hm).2.1
      exact he (h3.symm.trans h4)
  · intro p p0 p1 j
    rw [hNd2, q4 _ (by decide) (by decide), ← h1.m p p0 p1]
    by_cases he : p = i
    · subst he; rw [if_pos rfl]; exact q2 j
    · rw [if_neg he]
  · intro p p0 p1
    by_cases he : p = i
    · rw [if_pos he]; exact q3
    · rw [if_neg he]; exact h1.nd p p0 p1
  · intro f f1 f2; rw [q4 f f1 f2, h2 f f1 f2]

end Slip.Amd
