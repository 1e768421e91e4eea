import Verif.Proof.AmdAat3

/-!
# AMD: AMD_preprocess
-/

namespace Slip.Amd

open Slip.Colamd (seg mem_seg seg_congr seg_succ length_seg seg_zero wp_seg)

variable [Arith]

/-- A square matrix; the columns may be unsorted and may have duplicates. -/
structure AM (n nz : ℤ) (a A : ℤ → ℤ) : Prop where
  z : a 0 = 0
  e : a n = nz
  mono : ∀ j, 0 ≤ j → j < n → a j ≤ a (j + 1)
  rg : ∀ p, 0 ≤ p → p < nz → 0 ≤ A p ∧ A p < n

variable {n nz : ℤ} {a A : ℤ → ℤ}

theorem AM.bd (h : AM n nz a A) {j : ℤ} (h0 : 0 ≤ j) (h1 : j < n) : 0 ≤ a j ∧ a j ≤ a (j + 1) ∧ a (j + 1) ≤ nz := by
  have := mono_le h.mono le_rfl h0 (by omega)
  have h2 := mono_le h.mono (show 0 ≤ j + 1 by omega) (show j + 1 ≤ n by omega) le_rfl
  rw [h.z] at this
  rw [h.e] at h2
  exact ⟨this, h.mono j h0 h1, h2⟩

/-! ## The rows -/

/-- The last entry, -1 if there is none. -/
def las (l : List ℤ) : ℤ := l.getLast?.getD (-1)

/-- Put column `j` into row `i`. -/
def stepR (j : ℤ) (c : ℤ → List ℤ) (i : ℤ) : ℤ → List ℤ :=
  if las (c i) ≠ j then Function.update c i (c i ++ [j]) else c

/-- The rows of the first `k` columns. -/
def rowsP (a A : ℤ → ℤ) : ℕ → ℤ → List ℤ
  | 0 => fun _ => []
  | k + 1 => (seg A (a k) (a (k + 1) - a k)).foldl (stepR k) (rowsP a A k)

theorem las_snoc (l : List ℤ) (x : ℤ) : las (l ++ [x]) = x := by simp [las]

theorem stepR_le (j : ℤ) (c : ℤ → List ℤ) (i x : ℤ) : (c x).length ≤ (stepR j c i x).length := by
  unfold stepR
  split_ifs
  · rw [Function.update_apply]
    split_ifs with h
    · rw [h]; simp
    · exact le_rfl
  · exact le_rfl

theorem foldl_le (j : ℤ) (x : ℤ) : ∀ (l : List ℤ) (c : ℤ → List ℤ), (c x).length ≤ (l.foldl (stepR j) c x).length
  | [], _ => le_rfl
  | i :: l, c => (stepR_le j c i x).trans (foldl_le j x l (stepR j c i))

theorem rowsP_le (x : ℤ) {k : ℕ} : ∀ {m : ℕ}, k ≤ m → (rowsP a A k x).length ≤ (rowsP a A m x).length
  | 0, h => by rw [Nat.le_zero.1 h]
  | m + 1, h => by
    rcases Nat.lt_or_ge k (m + 1) with h1 | h1
    · exact (rowsP_le x (by omega : k ≤ m)).trans (foldl_le _ x _ _)
    · rw [show k = m + 1 by omega]

/-- Rows: increasing, columns up to `k`. -/
def RowOk (k : ℤ) (c : ℤ → List ℤ) : Prop := ∀ x, (c x).Pairwise (· < ·) ∧ ∀ y ∈ c x, 0 ≤ y ∧ y ≤ k

theorem las_mem {l : List ℤ} (h : l ≠ []) : las l ∈ l := by
  unfold las
  rw [List.getLast?_eq_some_getLast h]
  exact List.getLast_mem h

theorem las_max {l : List ℤ} (h : l.Pairwise (· < ·)) {y : ℤ} (hy : y ∈ l) : y ≤ las l := by
  induction l using List.reverseRecOn with
  | nil => simp at hy
  | append_singleton l x _ =>
    rw [las_snoc]
    rw [List.pairwise_append] at h
    rcases List.mem_append.1 hy with hy | hy
    · exact (h.2.2 y hy x (by simp)).le
    · rw [List.mem_singleton.1 hy]

theorem stepR_ok {j : ℤ} {c : ℤ → List ℤ} (h : RowOk j c) (j0 : 0 ≤ j) (i : ℤ) : RowOk j (stepR j c i) := by
  unfold stepR
  split_ifs with hl
  · intro x
    rw [Function.update_apply]
    split_ifs with hx
    · obtain ⟨h1, h2⟩ := h i
      refine ⟨?_, ?_⟩
      · rw [List.pairwise_append]
        refine ⟨h1, List.pairwise_singleton _ _, ?_⟩
        intro y hy z hz
        rw [List.mem_singleton.1 hz]
        have hm := las_max h1 hy
        have hle := (h2 _ (las_mem (List.ne_nil_of_mem hy))).2
        omega
      · intro y hy
        rcases List.mem_append.1 hy with hy | hy
        · exact h2 y hy
        · rw [List.mem_singleton.1 hy]; exact ⟨j0, le_rfl⟩
    · exact h x
  · exact h

theorem foldl_ok {j : ℤ} (j0 : 0 ≤ j) : ∀ (l : List ℤ) (c : ℤ → List ℤ), RowOk j c → RowOk j (l.foldl (stepR j) c)
  | [], _, h => h
  | i :: l, _, h => foldl_ok j0 l _ (stepR_ok h j0 i)

theorem RowOk.mono {k k' : ℤ} {c : ℤ → List ℤ} (h : RowOk k c) (hk : k ≤ k') : RowOk k' c :=
  fun x => ⟨(h x).1, fun y hy => ⟨((h x).2 y hy).1, ((h x).2 y hy).2.trans hk⟩⟩

theorem rowsP_ok : ∀ k : ℕ, RowOk (k - 1) (rowsP a A k)
  | 0 => fun x => ⟨List.Pairwise.nil, by simp [rowsP]⟩
  | k + 1 => by
    have := foldl_ok (j := (k : ℤ)) (by omega) (seg A (a k) (a (k + 1) - a k)) _ ((rowsP_ok k).mono (by omega))
    push_cast
    rw [add_sub_cancel_right]
    exact this

/-- The number of entries. -/
theorem stepR_sum {j : ℤ} {c : ℤ → List ℤ} {i : ℤ} :
    ptr (fun x => ((stepR j c i x).length : ℤ)) n ≤ ptr (fun x => ((c x).length : ℤ)) n + 1 := by
  unfold stepR
  split_ifs
  · unfold ptr
    by_cases hi : i ∈ Finset.Ico 0 n
    · rw [← Finset.add_sum_erase _ _ hi, ← Finset.add_sum_erase (Finset.Ico 0 n) (fun x => ((c x).length : ℤ)) hi]
      have : ∑ x ∈ (Finset.Ico 0 n).erase i, ((Function.update c i (c i ++ [j]) x).length : ℤ) =
          ∑ x ∈ (Finset.Ico 0 n).erase i, ((c x).length : ℤ) := by
        apply Finset.sum_congr rfl
        intro x hx
        rw [Function.update_of_ne (Finset.ne_of_mem_erase hx)]
      rw [this, Function.update_self]
      simp
      omega
    · have : ∑ x ∈ Finset.Ico 0 n, ((Function.update c i (c i ++ [j]) x).length : ℤ) =
          ∑ x ∈ Finset.Ico 0 n, ((c x).length : ℤ) := by
        apply Finset.sum_congr rfl
        intro x hx
        rw [Function.update_of_ne (by rintro rfl; exact hi hx)]
      rw [this]; dsimp only; omega
  · omega

theorem foldl_sum {j : ℤ} : ∀ (l : List ℤ) (c : ℤ → List ℤ),
    ptr (fun x => ((l.foldl (stepR j) c x).length : ℤ)) n ≤ ptr (fun x => ((c x).length : ℤ)) n + l.length
  | [], _ => by simp
  | i :: l, c => by
    have h1 := foldl_sum (j := j) l (stepR j c i)
    have h2 := stepR_sum (n := n) (j := j) (c := c) (i := i)
    rw [List.foldl_cons, List.length_cons]
    push_cast
    omega

theorem rowsP_sum (h : AM n nz a A) : ∀ k : ℕ, (k : ℤ) ≤ n → ptr (fun x => ((rowsP a A k x).length : ℤ)) n ≤ a k
  | 0, _ => by rw [Nat.cast_zero, h.z]; simp [rowsP, ptr]
  | k + 1, hk => by
    push_cast at hk
    have h1 := rowsP_sum h k (by omega)
    have hb := h.bd (j := (k : ℤ)) (by omega) (by omega)
    have h2 := foldl_sum (n := n) (j := (k : ℤ)) (seg A (a k) (a (k + 1) - a k)) (rowsP a A k)
    rw [length_seg] at h2
    push_cast
    show ptr (fun x => ((List.foldl (stepR k) (rowsP a A k) (seg A (a k) (a (k + 1) - a k)) x).length : ℤ)) n ≤ _
    omega

/-! ## The program -/

variable {Ap Ai : Arr Int}

theorem preInit_spec {W Flag : Arr Int} {Wl Fl : ℕ} (n0 : 0 ≤ n) (hW : W.length = Wl) (hF : Flag.length = Fl) (h1 : n ≤ Wl)
    (h2 : n ≤ Fl) : wp (preInit n W Flag) (fun y => y.1.length = Wl ∧ y.2.length = Fl ∧
      ∀ x, 0 ≤ x → x < n → get y.1 x = some 0 ∧ get y.2 x = some (-1)) noFail := by
  unfold preInit
  refine wp_forRange (fun k (y : Arr Int × Arr Int) => y.1.length = Wl ∧ y.2.length = Fl ∧
      ∀ x, 0 ≤ x → x < k → get y.1 x = some 0 ∧ get y.2 x = some (-1)) n0 ⟨hW, hF, fun x x0 x1 => by omega⟩ ?_
  rintro k ⟨W, Flag⟩ k0 k1 ⟨g1, g2, g3⟩
  dsimp only at g1 g2 g3 ⊢
  rw [wr_eq k0 (by omega), ok_bind, wr_eq k0 (by omega), ok_bind]
  refine wpr ⟨by rw [length_upd, g1], by rw [length_upd, g2], ?_⟩
  intro x x0 x1
  rw [get_upd k0 (by omega), get_upd k0 (by omega)]
  split_ifs with hx
  · exact ⟨rfl, rfl⟩
  · exact g3 x x0 (by omega)

/-- The state of the counting loop. -/
structure Cn (n : ℤ) (Wl Fl : ℕ) (c : ℤ → List ℤ) (y : Arr Int × Arr Int) : Prop where
  lw : y.1.length = Wl
  lf : y.2.length = Fl
  v : ∀ x, 0 ≤ x → x < n → get y.1 x = some ((c x).length : ℤ) ∧ get y.2 x = some (las (c x))

/-- The rows while column `k` is read. -/
theorem rows_fin {k : ℤ} (k0 : 0 ≤ k) (k1 : k < n) {pre post : List ℤ} {x : ℤ}
    (hs : seg A (a k) (a (k + 1) - a k) = pre ++ x :: post) (z : ℤ) :
    (stepR k (pre.foldl (stepR k) (rowsP a A k.toNat)) x z).length ≤ (rowsP a A n.toNat z).length := by
  have h1 : ((stepR k (pre.foldl (stepR k) (rowsP a A k.toNat)) x z).length) ≤ (rowsP a A (k.toNat + 1) z).length := by
    have h2 := foldl_le k z post (stepR k (pre.foldl (stepR k) (rowsP a A k.toNat)) x)
    have h3 : rowsP a A (k.toNat + 1) = post.foldl (stepR k) (stepR k (pre.foldl (stepR k) (rowsP a A k.toNat)) x) := by
      show (seg A (a (k.toNat : ℤ)) (a ((k.toNat : ℤ) + 1) - a (k.toNat : ℤ))).foldl (stepR (k.toNat : ℤ)) _ = _
      rw [show ((k.toNat : ℕ) : ℤ) = k by omega, hs, List.foldl_append, List.foldl_cons]
    rw [h3]; exact h2
  exact h1.trans (rowsP_le (a := a) (A := A) z (show k.toNat + 1 ≤ n.toNat by omega))

theorem preCount_spec {B : ℤ} (hck : ∀ v : ℤ, 0 ≤ v → v ≤ B → ck v = .ok v)
    (hB : ∀ x, ((rowsP a A n.toNat x).length : ℤ) ≤ B) (h : AM n nz a A) (n0 : 0 ≤ n) (hAp : ∀ j, 0 ≤ j → j ≤ n → get Ap j = some (a j))
    (hAi : ∀ p, 0 ≤ p → p < nz → get Ai p = some (A p)) {Wl Fl : ℕ} {W Flag : Arr Int}
    (hI : Cn n Wl Fl (fun _ => []) (W, Flag)) :
    wp (preCount n Ap Ai W Flag) (Cn n Wl Fl (rowsP a A n.toNat)) noFail := by
  unfold preCount
  refine wp_forRange (fun k (y : Arr Int × Arr Int) => Cn n Wl Fl (rowsP a A k.toNat) y) n0 hI ?_
  rintro k ⟨W, Flag⟩ k0 k1 g
  have hb := h.bd k0 k1
  dsimp only
  rw [rd_eq (hAp _ (by omega) (by omega)), ok_bind, rd_eq (hAp k k0 k1.le), ok_bind]
  have hS := wp_seg (A := A) (a := a k) (l := a (k + 1) - a k) (by omega) (E := noFail) (s := (W, Flag))
    (f := fun p (y : Arr Int × Arr Int) => do
      let i ← rd Ai p
      let f ← rd y.2 i
      if f ≠ k then do
        let w ← rd y.1 i
        let w ← ck (w + 1)
        let W ← wr y.1 i w
        let Flag ← wr y.2 i k
        pure (W, Flag)
      else pure (y.1, y.2))
    (fun pre y => Cn n Wl Fl (pre.foldl (stepR k) (rowsP a A k.toNat)) y) g ?_
  · rw [show a k + (a (k + 1) - a k) = a (k + 1) by ring] at hS
    rw [show (k + 1).toNat = k.toNat + 1 by omega]
    refine wp_mono hS ?_ (fun _ h => h)
    intro y hy
    unfold rowsP
    rw [show ((k.toNat : ℕ) : ℤ) = k by omega]
    exact hy
  · rintro pre x post ⟨W, Flag⟩ hs hx hl g
    have hxr := h.rg (a k + pre.length) (by omega) (by omega)
    rw [hx] at hxr
    rw [rd_eq (hAi _ (by omega) (by omega)), ok_bind, hx]
    dsimp only
    obtain ⟨v1, v2⟩ := g.v x hxr.1 hxr.2
    have b1 := get_bounds v1
    have b2 := get_bounds v2
    dsimp only at v1 v2 b1 b2
    rw [rd_eq v2, ok_bind, List.foldl_append, List.foldl_cons, List.foldl_nil]
    by_cases hl : las (pre.foldl (stepR k) (rowsP a A k.toNat) x) ≠ k
    · have hf := rows_fin k0 k1 hs x
      have hst : ∀ c : ℤ → List ℤ, las (c x) ≠ k → stepR k c x = Function.update c x (c x ++ [k]) := fun c hc => by
        unfold stepR; rw [if_pos hc]
      rw [hst _ hl, Function.update_self, List.length_append, List.length_singleton] at hf
      have hBx := hB x
      have hck' := hck (((List.foldl (stepR k) (rowsP a A k.toNat) pre x).length : ℤ) + 1) (by omega)
        (by omega)
      rw [if_pos hl, rd_eq v1, ok_bind, hck', ok_bind, wr_eq b1.1 b1.2, ok_bind, wr_eq b2.1 b2.2, ok_bind]
      refine wpr ?_
      unfold stepR at hl ⊢
      rw [if_pos hl]
      refine ⟨by rw [length_upd]; exact g.lw, by rw [length_upd]; exact g.lf, ?_⟩
      intro z z0 z1
      rw [get_upd b1.1 b1.2, get_upd b2.1 b2.2, Function.update_apply]
      split_ifs with hz
      · rw [las_snoc]; simp
      · exact g.v z z0 z1
    · rw [if_neg hl]
      refine wpr ?_
      unfold stepR at hl ⊢
      rw [if_neg hl]
      exact g

theorem prePtr_spec {len : ℤ → ℤ} (hn : ∀ x, 0 ≤ len x) (hck : ∀ v : ℤ, 0 ≤ v → v ≤ ptr len n → ck v = .ok v) (n0 : 0 ≤ n) {Rp W : Arr Int} {Rl : ℕ} (hl : Rp.length = Rl) (hR : n + 1 ≤ Rl)
    (hW : ∀ x, 0 ≤ x → x < n → get W x = some (len x)) :
    wp (prePtr n Rp W) (fun R => R.length = Rl ∧ ∀ x, 0 ≤ x → x ≤ n → get R x = some (ptr len x)) noFail := by
  unfold prePtr
  rw [wr_eq le_rfl (by omega), ok_bind]
  refine wp_forRange (fun k (R : Arr Int) => R.length = Rl ∧ ∀ x, 0 ≤ x → x ≤ k → get R x = some (ptr len x)) n0 ⟨?_, ?_⟩ ?_
  · rw [length_upd, hl]
  · intro x x0 x1
    rw [get_upd le_rfl (by omega), if_pos (by omega), show x = 0 by omega, ptr_zero]
  · rintro k R k0 k1 ⟨g1, g2⟩
    have q0 := ptr_mono hn le_rfl (show 0 ≤ k + 1 by omega)
    have q1 := ptr_mono hn (show 0 ≤ k + 1 by omega) (show k + 1 ≤ n by omega)
    rw [ptr_zero] at q0
    rw [ptr_succ _ k0] at q0 q1
    rw [rd_eq (g2 k k0 le_rfl), ok_bind, rd_eq (hW k k0 k1), ok_bind, hck _ q0 q1, ok_bind, wr_eq (by omega) (by omega)]
    refine wok ⟨by rw [length_upd, g1], ?_⟩
    intro x x0 x1
    rw [get_upd (by omega) (by omega)]
    split_ifs with hx
    · rw [hx, ptr_succ _ k0]
    · exact g2 x x0 (by omega)

theorem preReset_spec {len : ℤ → ℤ} (n0 : 0 ≤ n) {Rp W Flag : Arr Int} {Wl Fl : ℕ} (hW : W.length = Wl)
    (hF : Flag.length = Fl) (h1 : n ≤ Wl) (h2 : n ≤ Fl) (hR : ∀ x, 0 ≤ x → x ≤ n → get Rp x = some (ptr len x)) :
    wp (preReset n Rp W Flag) (fun y => y.1.length = Wl ∧ y.2.length = Fl ∧
      ∀ x, 0 ≤ x → x < n → get y.1 x = some (ptr len x) ∧ get y.2 x = some (-1)) noFail := by
  unfold preReset
  refine wp_forRange (fun k (y : Arr Int × Arr Int) => y.1.length = Wl ∧ y.2.length = Fl ∧
      ∀ x, 0 ≤ x → x < k → get y.1 x = some (ptr len x) ∧ get y.2 x = some (-1)) n0 ⟨hW, hF, fun x x0 x1 => by omega⟩ ?_
  rintro k ⟨W, Flag⟩ k0 k1 ⟨g1, g2, g3⟩
  dsimp only at g1 g2 g3 ⊢
  rw [rd_eq (hR k k0 k1.le), ok_bind, wr_eq k0 (by omega), ok_bind, wr_eq k0 (by omega), ok_bind]
  refine wpr ⟨by rw [length_upd, g1], by rw [length_upd, g2], ?_⟩
  intro x x0 x1
  rw [get_upd k0 (by omega), get_upd k0 (by omega)]
  split_ifs with hx
  · rw [hx]; exact ⟨rfl, rfl⟩
  · exact g3 x x0 (by omega)

/-- The state of the fill loop. -/
structure Fi (n : ℤ) (len : ℤ → ℤ) (Al Wl Fl : ℕ) (c : ℤ → List ℤ) (y : Arr Int × Arr Int × Arr Int) : Prop where
  ps : Ps n len Al Wl c (y.1, y.2.1)
  lf : y.2.2.length = Fl
  v : ∀ x, 0 ≤ x → x < n → get y.2.2 x = some (las (c x))

theorem preFill_spec (h : AM n nz a A) (n0 : 0 ≤ n) (hAp : ∀ j, 0 ≤ j → j ≤ n → get Ap j = some (a j))
    (hAi : ∀ p, 0 ≤ p → p < nz → get Ai p = some (A p)) {len : ℤ → ℤ}
    (hlen : ∀ x, len x = (rowsP a A n.toNat x).length)
    (hck : ∀ v : ℤ, 0 ≤ v → v ≤ ptr len n → ck v = .ok v) {Al Wl Fl : ℕ} {Ri W Flag : Arr Int} (hAl : nz ≤ Al)
    (hI : Fi n len Al Wl Fl (fun _ => []) (Ri, W, Flag)) :
    wp (preFill n Ap Ai Ri W Flag) (Fi n len Al Wl Fl (rowsP a A n.toNat)) noFail := by
  have hn : ∀ x, 0 ≤ len x := fun x => by rw [hlen]; omega
  have hsum := rowsP_sum h n.toNat (by omega)
  rw [show ((n.toNat : ℕ) : ℤ) = n by omega, h.e, show (fun x => ((rowsP a A n.toNat x).length : ℤ)) = len from
    funext fun x => (hlen x).symm] at hsum
  unfold preFill
  refine wp_forRange (fun k (y : Arr Int × Arr Int × Arr Int) => Fi n len Al Wl Fl (rowsP a A k.toNat) y) n0 hI ?_
  rintro k ⟨Ri, W, Flag⟩ k0 k1 g
  have hb := h.bd k0 k1
  dsimp only
  rw [rd_eq (hAp _ (by omega) (by omega)), ok_bind, rd_eq (hAp k k0 k1.le), ok_bind]
  have hS := wp_seg (A := A) (a := a k) (l := a (k + 1) - a k) (by omega) (E := noFail) (s := (Ri, W, Flag))
    (f := fun p (y : Arr Int × Arr Int × Arr Int) => do
      let i ← rd Ai p
      let f ← rd y.2.2 i
      if f ≠ k then do
        let w ← rd y.2.1 i
        let Ri ← wr y.1 w k
        let w ← ck (w + 1)
        let W ← wr y.2.1 i w
        let Flag ← wr y.2.2 i k
        pure (Ri, W, Flag)
      else pure (y.1, y.2.1, y.2.2))
    (fun pre y => Fi n len Al Wl Fl (pre.foldl (stepR k) (rowsP a A k.toNat)) y) g ?_
  · rw [show a k + (a (k + 1) - a k) = a (k + 1) by ring] at hS
    rw [show (k + 1).toNat = k.toNat + 1 by omega]
    refine wp_mono hS ?_ (fun _ h => h)
    intro y hy
    unfold rowsP
    rw [show ((k.toNat : ℕ) : ℤ) = k by omega]
    exact hy
  · rintro pre x post ⟨Ri, W, Flag⟩ hs hx hl g
    have hxr := h.rg (a k + pre.length) (by omega) (by omega)
    rw [hx] at hxr
    rw [rd_eq (hAi _ (by omega) (by omega)), ok_bind, hx]
    dsimp only
    have v2 := g.v x hxr.1 hxr.2
    have b2 := get_bounds v2
    dsimp only at v2 b2
    rw [rd_eq v2, ok_bind, List.foldl_append, List.foldl_cons, List.foldl_nil]
    set c := pre.foldl (stepR k) (rowsP a A k.toNat) with hc
    have hfin : ∀ z, ((stepR k c x z).length : ℤ) ≤ len z := by
      intro z
      have h4 := rows_fin k0 k1 hs z
      rw [← hc] at h4
      rw [hlen]; omega
    by_cases hlx : las (c x) ≠ k
    · have hst : stepR k c x = Function.update c x (c x ++ [k]) := by unfold stepR; rw [if_pos hlx]
      rw [hst] at hfin ⊢
      have hlt := hfin x
      rw [Function.update_self, List.length_append, List.length_singleton] at hlt
      push_cast at hlt
      obtain ⟨e1, f1, e2, e3, e4⟩ := push_spec g.ps hn (by omega) (fun z _ _ => by
        have := hfin z
        rw [Function.update_apply] at this
        split_ifs at this with hz
        · rw [hz]; omega
        · exact this) hxr.1 hxr.2 (v := k) (by omega)
      rw [if_pos hlx, e1, ok_bind, e2, ok_bind, hck _ f1.1 f1.2, ok_bind, e3, ok_bind, wr_eq b2.1 b2.2, ok_bind]
      refine wpr ⟨e4, by show (upd Flag x k).length = Fl; rw [length_upd]; exact g.lf, ?_⟩
      intro z z0 z1
      show get (upd Flag x k) z = _
      rw [get_upd b2.1 b2.2, Function.update_apply]
      split_ifs with hz
      · rw [las_snoc]
      · exact g.v z z0 z1
    · have hst : stepR k c x = c := by unfold stepR; rw [if_neg hlx]
      rw [if_neg hlx, hst]
      exact wpr g

/-- AMD_preprocess returns the transpose, sorted and without duplicates. -/
theorem amd_preprocess_spec {N : ℕ} (h : AM N nz a A) (hAp : ∀ j, 0 ≤ j → j ≤ (N : ℤ) → get Ap j = some (a j))
    (hAi : ∀ p, 0 ≤ p → p < nz → get Ai p = some (A p)) {Rp Ri W Flag : Arr Int} (hRp : (N : ℤ) + 1 ≤ Rp.length)
    (hRi : nz ≤ Ri.length) (hW : (N : ℤ) ≤ W.length) (hF : (N : ℤ) ≤ Flag.length)
    (hck : ∀ v : ℤ, 0 ≤ v → v ≤ N * N → ck v = .ok v) :
    wp (amd_preprocess N Ap Ai Rp Ri W Flag) (fun y => y.2.2.1.length = W.length ∧ y.2.2.2.length = Flag.length ∧
      ∃ nz' a' A', SM N nz' a' A' ∧ (∀ j, 0 ≤ j → j ≤ (N : ℤ) → get y.1 j = some (a' j)) ∧
        ∀ p, 0 ≤ p → p < nz' → get y.2.1 p = some (A' p)) noFail := by
  have n0 : (0 : ℤ) ≤ N := by omega
  set len : ℤ → ℤ := fun x => ((rowsP a A N x).length : ℤ) with hlen
  have hn : ∀ x, 0 ≤ len x := fun x => by simp [hlen]
  have hlN : ∀ x, len x ≤ N := by
    intro x
    obtain ⟨h1, h2⟩ := rowsP_ok (a := a) (A := A) N x
    have := length_lt (n := (N : ℤ)) (l := rowsP a A N x) (h1.imp fun h => h.ne) (fun y hy => by have := h2 y hy; omega)
    simp only [hlen]
    omega
  have hpN : ptr len N ≤ N * N := ptr_le N fun x _ _ => hlN x
  have hck' : ∀ v : ℤ, 0 ≤ v → v ≤ ptr len N → ck v = .ok v := fun v v0 v1 => hck v v0 (by omega)
  have hNN : (N : ℤ) ≤ N * N := by
    rcases Nat.eq_zero_or_pos N with h | h
    · rw [h]; simp
    · have : (1 : ℤ) ≤ N := by omega
      nlinarith
  unfold amd_preprocess
  refine wb (wp_mono (preInit_spec (W := W) (Flag := Flag) n0 rfl rfl hW hF) ?_ (fun _ h => h))
  rintro ⟨W1, F1⟩ ⟨g1, g2, g3⟩
  dsimp only at g1 g2 g3 ⊢
  refine wb (wp_mono (preCount_spec (fun v v0 v1 => hck v v0 (v1.trans hNN)) (fun x => hlN x) h n0 hAp hAi (Wl := W.length) (Fl := Flag.length) ⟨g1, g2, g3⟩) ?_ (fun _ h => h))
  rintro ⟨W2, F2⟩ ⟨g4, g5, g6⟩
  rw [Int.toNat_natCast] at g6
  dsimp only at g4 g5 g6 ⊢
  refine wb (wp_mono (prePtr_spec (len := len) hn hck' n0 (Rp := Rp) rfl hRp (fun x x0 x1 => (g6 x x0 x1).1)) ?_ (fun _ h => h))
  rintro R ⟨g7, g8⟩
  refine wb (wp_mono (preReset_spec n0 g4 g5 hW hF g8) ?_ (fun _ h => h))
  rintro ⟨W3, F3⟩ ⟨g9, g10, g11⟩
  dsimp only at g9 g10 g11 ⊢
  refine wb (wp_mono (preFill_spec h n0 hAp hAi (len := len) (Al := Ri.length) (Wl := W.length) (Fl := Flag.length)
    (fun _ => by rw [Int.toNat_natCast]) hck' hRi (Ri := Ri) (W := W3) (Flag := F3) ⟨⟨rfl, g9, fun x x0 x1 => by
      rw [(g11 x x0 x1).1, List.length_nil, Nat.cast_zero, add_zero], fun x _ _ t ht => by simp at ht⟩, g10, fun x x0 x1 =>
      (g11 x x0 x1).2⟩) ?_ (fun _ h => h))
  rintro ⟨Ri2, W4, F4⟩ ⟨g12, g13, -⟩
  rw [Int.toNat_natCast] at g12
  dsimp only at g12 g13 ⊢
  refine wpr ⟨g12.ls, g13, ptr len N, ptr len, fun p => (get Ri2 p).getD 0, ?_, g8, ?_⟩
  · have hv : ∀ x, 0 ≤ x → x < (N : ℤ) → ∀ p, ptr len x ≤ p → p < ptr len (x + 1) →
        ∃ t : ℕ, ∃ ht : t < (rowsP a A N x).length, p = ptr len x + t ∧ (get Ri2 p).getD 0 = (rowsP a A N x)[t] := by
      intro x x0 x1 p p0 p1
      rw [ptr_succ _ x0] at p1
      have ht : (p - ptr len x).toNat < (rowsP a A N x).length := by simp only [hlen] at p1 p0 ⊢; omega
      refine ⟨(p - ptr len x).toNat, ht, by omega, ?_⟩
      have := g12.iw x x0 x1 _ ht
      dsimp only at this
      rw [show ptr len x + ((p - ptr len x).toNat : ℤ) = p by omega, List.getElem?_eq_getElem ht] at this
      rw [this]; rfl
    refine ⟨ptr_zero _, rfl, fun j j0 _ => by rw [ptr_succ _ j0]; have := hn j; omega, ?_, ?_⟩
    · intro p p0 p1
      obtain ⟨x, t, h1, h2, h3, h4, h5⟩ := ptr_tile hn N p p0 p1
      obtain ⟨u, hu, -, e⟩ := hv x h1 h2 p (by omega) (by rw [ptr_succ _ h1]; omega)
      rw [e]
      have := ((rowsP_ok (a := a) (A := A) N) x).2 _ (List.getElem_mem hu)
      omega
    · intro j j0 j1 p q p0 pq q1
      obtain ⟨u, hu, e1, e2⟩ := hv j j0 j1 p p0 (by omega)
      obtain ⟨w, hw, e3, e4⟩ := hv j j0 j1 q (by omega) q1
      rw [e2, e4]
      exact List.pairwise_iff_getElem.1 ((rowsP_ok (a := a) (A := A) N) j).1 u w hu hw (by omega)
  · intro p p0 p1
    obtain ⟨x, t, h1, h2, h3, h4, h5⟩ := ptr_tile hn N p p0 p1
    have ht : t.toNat < (rowsP a A N x).length := by simp only [hlen] at h4; omega
    have := g12.iw x h1 h2 _ ht
    dsimp only at this
    rw [show ptr len x + (t.toNat : ℤ) = p by omega, List.getElem?_eq_getElem ht] at this
    dsimp only
    rw [this]; rfl

end Slip.Amd
