import Verif.Proof.AmdAat2

/-!
# AMD: the lists of A+A'
-/

namespace Slip.Amd

open Slip.Colamd (seg mem_seg seg_congr seg_succ length_seg seg_zero wp_seg)

/-! ## Neighbours -/

variable [Arith]

/-- The other end of a pair. -/
def oth (e : ℤ × ℤ) (x : ℤ) : List ℤ := if e.1 = x then [e.2] else if e.2 = x then [e.1] else []

/-- The neighbours of `x`. -/
def nb (E : List (ℤ × ℤ)) (x : ℤ) : List ℤ := E.flatMap (oth · x)

theorem nb_snoc (E : List (ℤ × ℤ)) (e : ℤ × ℤ) (x : ℤ) : nb (E ++ [e]) x = nb E x ++ oth e x := by
  unfold nb; rw [List.flatMap_append]; simp

theorem mem_oth {e : ℤ × ℤ} {x y : ℤ} : y ∈ oth e x ↔ (e.1 = x ∧ e.2 = y) ∨ (e.1 ≠ x ∧ e.2 = x ∧ e.1 = y) := by
  unfold oth
  split_ifs with h1 h2 <;> simp <;> omega

theorem mem_nb {E : List (ℤ × ℤ)} {x y : ℤ} :
    y ∈ nb E x ↔ ∃ e ∈ E, (e.1 = x ∧ e.2 = y) ∨ (e.1 = y ∧ e.2 = x) := by
  unfold nb
  rw [List.mem_flatMap]
  constructor
  · rintro ⟨e, h1, h2⟩
    rw [mem_oth] at h2
    exact ⟨e, h1, by omega⟩
  · rintro ⟨e, h1, h2⟩
    refine ⟨e, h1, ?_⟩
    rw [mem_oth]
    by_cases hx : e.1 = x <;> omega

theorem nb_symm {E : List (ℤ × ℤ)} {x y : ℤ} (h : y ∈ nb E x) : x ∈ nb E y := by
  rw [mem_nb] at h ⊢
  obtain ⟨e, h1, h2⟩ := h
  exact ⟨e, h1, by omega⟩

theorem nb_nodup {E : List (ℤ × ℤ)} (h : E.Pairwise Df) (x : ℤ) : (nb E x).Nodup := by
  unfold nb
  rw [List.nodup_flatMap]
  refine ⟨?_, ?_⟩
  · intro e _
    unfold oth
    split_ifs <;> simp
  · refine h.imp ?_
    intro e f hd
    rw [Function.onFun, List.disjoint_left]
    intro y h1 h2
    rw [mem_oth] at h1 h2
    apply hd
    omega

theorem nb_prefix {E pre post : List (ℤ × ℤ)} (h : E = pre ++ post) (x : ℤ) : (nb pre x).length ≤ (nb E x).length := by
  rw [h]; unfold nb; rw [List.flatMap_append, List.length_append]; omega

/-! ## The program on a list of pairs -/

theorem wp_runL {σ : Type} {add : Int → Int → σ → C σ} (J : List (ℤ × ℤ) → σ → Prop) (E : List (ℤ × ℤ)) (s : σ)
    (h0 : J [] s) (hs : ∀ pre e post s, E = pre ++ e :: post → J pre s → wp (add e.1 e.2 s) (J (pre ++ [e])) noFail) :
    wp (runL add E s) (J E) noFail := by
  suffices H : ∀ (post pre : List (ℤ × ℤ)) (s : σ), E = pre ++ post → J pre s → wp (runL add post s) (J E) noFail from
    H E [] s rfl h0
  intro post
  induction post with
  | nil => intro pre s h hJ; rw [runL_nil]; refine wok ?_; rw [h, List.append_nil]; exact hJ
  | cons e post ih =>
    intro pre s h hJ
    rw [runL_cons]
    refine wb (wp_mono (hs pre e post s h hJ) ?_ (fun _ h => h))
    intro s' h'
    exact ih (pre ++ [e]) s' (by rw [h]; simp) h'

/-- The counts of AMD_aat. -/
theorem addLen_spec {n B : ℤ} {E : List (ℤ × ℤ)} (hck : ∀ v : ℤ, 0 ≤ v → v ≤ B → ck v = .ok v)
    (hB : ∀ x, 0 ≤ x → x < n → ((nb E x).length : ℤ) ≤ B)
    (hE : ∀ e ∈ E, 0 ≤ e.1 ∧ e.1 < n ∧ 0 ≤ e.2 ∧ e.2 < n ∧ e.1 ≠ e.2) {Len : Arr Int} {L : ℕ} (hl : Len.length = L)
    (h0 : ∀ x, 0 ≤ x → x < n → get Len x = some 0) :
    wp (runL addLen E Len) (fun Len => Len.length = L ∧ ∀ x, 0 ≤ x → x < n → get Len x = some ((nb E x).length : ℤ)) noFail := by
  refine wp_runL (fun P Len => Len.length = L ∧ ∀ x, 0 ≤ x → x < n → get Len x = some ((nb P x).length : ℤ)) E Len
    ⟨hl, fun x x0 x1 => by rw [h0 x x0 x1]; simp [nb]⟩ ?_
  rintro pre e post Len hEq ⟨g1, g2⟩
  obtain ⟨b1, b2, b3, b4, b5⟩ := hE e (by rw [hEq]; simp)
  have hg1 := g2 e.1 b1 b2
  have hg2 := g2 e.2 b3 b4
  have hb1 := get_bounds hg1
  have hb2 := get_bounds hg2
  have hpre := fun x => nb_prefix (show E = (pre ++ [e]) ++ post by rw [hEq]; simp) x
  simp only [nb_snoc, List.length_append] at hpre
  have k1 := hpre e.1
  have k2 := hpre e.2
  have k3 := hB e.1 b1 b2
  have k4 := hB e.2 b3 b4
  rw [show oth e e.1 = [e.2] by unfold oth; rw [if_pos rfl], List.length_singleton] at k1
  rw [show oth e e.2 = [e.1] by unfold oth; rw [if_neg b5, if_pos rfl], List.length_singleton] at k2
  unfold addLen
  rw [rd_eq hg1, ok_bind, hck _ (by omega) (by omega), ok_bind, wr_eq hb1.1 hb1.2, ok_bind,
    rd_eq (v := ((nb pre e.2).length : ℤ)) (by rw [get_upd hb1.1 hb1.2, if_neg (by omega)]; exact hg2), ok_bind,
    hck _ (by omega) (by omega), ok_bind, wr_eq hb2.1 (by rw [length_upd]; exact hb2.2)]
  refine wok ⟨by rw [length_upd, length_upd, g1], ?_⟩
  intro x x0 x1
  rw [get_upd hb2.1 (by rw [length_upd]; exact hb2.2), get_upd hb1.1 hb1.2, nb_snoc, List.length_append]
  unfold oth
  by_cases h2 : x = e.2
  · subst h2
    rw [if_pos rfl, if_neg b5, if_pos rfl]; simp
  · rw [if_neg h2]
    by_cases h1 : x = e.1
    · rw [if_pos h1, h1, if_pos rfl]; simp
    · rw [if_neg h1, if_neg (by omega), if_neg (by omega)]; simpa using g2 x x0 x1

/-! ## Pointers -/

/-- The sum of the lengths before `k`. -/
def ptr (len : ℤ → ℤ) (k : ℤ) : ℤ := ∑ y ∈ Finset.Ico 0 k, len y

theorem ptr_zero (len : ℤ → ℤ) : ptr len 0 = 0 := by simp [ptr]

theorem ptr_succ (len : ℤ → ℤ) {k : ℤ} (h : 0 ≤ k) : ptr len (k + 1) = ptr len k + len k := by
  unfold ptr
  have : Finset.Ico 0 (k + 1) = insert k (Finset.Ico 0 k) := by
    ext x; simp only [Finset.mem_Ico, Finset.mem_insert]; omega
  rw [this, Finset.sum_insert (by simp), add_comm]

theorem ptr_mono {len : ℤ → ℤ} (h : ∀ x, 0 ≤ len x) {i j : ℤ} (hi : 0 ≤ i) (hij : i ≤ j) : ptr len i ≤ ptr len j := by
  exact mono_le (n := j) (a := ptr len) (fun k k0 _ => by rw [ptr_succ len k0]; have := h k; omega) hi hij le_rfl

theorem ptr_lt {len : ℤ → ℤ} (h : ∀ x, 0 ≤ len x) {x y : ℤ} (hx : 0 ≤ x) (hxy : x < y) : ptr len x + len x ≤ ptr len y := by
  have := ptr_mono h (show 0 ≤ x + 1 by omega) (show x + 1 ≤ y by omega)
  rw [ptr_succ len hx] at this
  exact this

theorem ptr_tile {len : ℤ → ℤ} (h : ∀ x, 0 ≤ len x) : ∀ (N : ℕ) (p : ℤ), 0 ≤ p → p < ptr len N →
    ∃ x t : ℤ, 0 ≤ x ∧ x < N ∧ 0 ≤ t ∧ t < len x ∧ p = ptr len x + t
  | 0, p, h0, h1 => by rw [Nat.cast_zero, ptr_zero] at h1; omega
  | N + 1, p, h0, h1 => by
    push_cast at h1
    rw [ptr_succ len (by omega)] at h1
    by_cases hp : p < ptr len N
    · obtain ⟨x, t, g1, g2, g3⟩ := ptr_tile h N p h0 hp
      exact ⟨x, t, g1, by push_cast; omega, g3⟩
    · exact ⟨N, p - ptr len N, by omega, by push_cast; omega, by omega, by omega, by ring⟩

theorem ptr_le {len : ℤ → ℤ} {B : ℤ} : ∀ N : ℕ, (∀ x, 0 ≤ x → x < (N : ℤ) → len x ≤ B) → ptr len N ≤ N * B
  | 0, _ => by rw [Nat.cast_zero, ptr_zero, zero_mul]
  | N + 1, h => by
    have h1 := ptr_le N fun x x0 x1 => h x x0 (by push_cast; omega)
    have h2 := h N (by omega) (by push_cast; omega)
    push_cast
    rw [ptr_succ len (by omega), add_mul, one_mul]
    omega

theorem nb_len {N : ℕ} {E : List (ℤ × ℤ)} (c1 : ∀ e ∈ E, 0 ≤ e.1 ∧ e.1 < (N : ℤ) ∧ 0 ≤ e.2 ∧ e.2 < (N : ℤ) ∧ e.1 ≠ e.2)
    (c2 : E.Pairwise Df) {x : ℤ} (x0 : 0 ≤ x) (x1 : x < N) : ((nb E x).length : ℤ) < N := by
  have hnr : ∀ y, y ∈ nb E x → 0 ≤ y ∧ y < (N : ℤ) ∧ y ≠ x := by
    intro y hy
    rw [mem_nb] at hy
    obtain ⟨e, h1, h2⟩ := hy
    have := c1 e h1
    omega
  have h3 := length_lt (n := N) (l := x :: nb E x) (by
    rw [List.nodup_cons]; exact ⟨fun h => (hnr x h).2.2 rfl, nb_nodup c2 x⟩) (by
    intro y hy
    rcases List.mem_cons.1 hy with rfl | hy
    · exact ⟨x0, x1⟩
    · exact ⟨(hnr y hy).1, (hnr y hy).2.1⟩)
  rw [List.length_cons] at h3
  omega

theorem nb_ptr {N : ℕ} {E : List (ℤ × ℤ)} (c1 : ∀ e ∈ E, 0 ≤ e.1 ∧ e.1 < (N : ℤ) ∧ 0 ≤ e.2 ∧ e.2 < (N : ℤ) ∧ e.1 ≠ e.2)
    (c2 : E.Pairwise Df) : ptr (fun x => ((nb E x).length : ℤ)) N ≤ N * N :=
  ptr_le N fun _ x0 x1 => (nb_len c1 c2 x0 x1).le

/-- The counts and their sum: AMD_aat. -/
theorem amd_aat_spec {N : ℕ} {nz : ℤ} {a A : ℤ → ℤ} {Ap Ai Len Tp : Arr Int} (hSM : SM N nz a A)
    (hAp : ∀ j, 0 ≤ j → j ≤ (N : ℤ) → get Ap j = some (a j)) (hAi : ∀ p, 0 ≤ p → p < nz → get Ai p = some (A p))
    (hl : (N : ℤ) ≤ Tp.length) (hL : (N : ℤ) ≤ Len.length)
    (hck : ∀ v : ℤ, 0 ≤ v → v ≤ N → ck v = .ok v) :
    wp (amd_aat N Ap Ai Len Tp) (fun y => (N : ℤ) ≤ y.1.length ∧ y.2.1.length = Tp.length ∧
      y.2.2 = ptr (fun x => (nb (aatL a A N) x).length) N ∧ (0 ≤ y.2.2 ∧ y.2.2 ≤ N * N) ∧
      ∀ x, 0 ≤ x → x < (N : ℤ) → get y.1 x = some ((nb (aatL a A N) x).length : ℤ)) noFail := by
  obtain ⟨c1, c2⟩ := aatL_spec hSM
  obtain ⟨Tp', l1, e1⟩ := scanAAT_eq (add := addLen) hSM hAp hAi hl
  unfold amd_aat
  refine wb (wp_mono (wp_forRange (fun k (L : Arr Int) => L.length = Len.length ∧ ∀ x, 0 ≤ x → x < k → get L x = some 0)
    (show (0 : ℤ) ≤ N by omega) ⟨rfl, fun x h0 h1 => by omega⟩ ?_) ?_ (fun _ h => h))
  · rintro k L k0 k1 ⟨g1, g2⟩
    rw [wr_eq k0 (by omega)]
    refine wok ⟨by rw [length_upd, g1], ?_⟩
    intro x x0 x1
    rw [get_upd k0 (by omega)]
    split_ifs with hx
    · rfl
    · exact g2 x x0 (by omega)
  rintro L0 ⟨g1, g2⟩
  rw [rd_eq (hAp N (by omega) le_rfl), ok_bind, e1, bind_assoc]
  refine wb (wp_mono (addLen_spec hck (fun x x0 x1 => (nb_len c1 c2 x0 x1).le) c1 g1 g2) ?_ (fun _ h => h))
  rintro L1 ⟨g3, g4⟩
  rw [pure_bind]
  dsimp only
  refine wb (wp_mono (wp_forRange (fun k (z : ℤ) => z = ptr (fun x => ((nb (aatL a A N) x).length : ℤ)) k)
    (show (0 : ℤ) ≤ N by omega) (ptr_zero _).symm ?_) ?_ (fun _ h => h))
  · rintro k z k0 k1 rfl
    rw [rd_eq (g4 k k0 k1), ok_bind]
    exact wpr (ptr_succ _ k0).symm
  rintro z rfl
  exact wpr ⟨by show (N : ℤ) ≤ L1.length; omega, l1, rfl, ⟨by
    have := ptr_mono (len := fun x => ((nb (aatL a A N) x).length : ℤ)) (fun x => by simp) le_rfl (show (0 : ℤ) ≤ N by omega)
    rwa [ptr_zero] at this, nb_ptr c1 c2⟩, g4⟩

/-! ## AMD_1 -/

theorem length_malloc (n : ℤ) : (malloc Int n).length = n.toNat := by simp [malloc]

theorem aatPtr_spec {N : ℕ} {Len : Arr Int} {len : ℤ → ℤ} (hn : ∀ x, 0 ≤ len x)
    (hck : ∀ v : ℤ, 0 ≤ v → v ≤ ptr len N → ck v = .ok v) (hL : ∀ x, 0 ≤ x → x < (N : ℤ) → get Len x = some (len x)) :
    wp (aatPtr N Len) (fun y => y.1.length = N ∧ y.2.1.length = N ∧ y.2.2 = ptr len N ∧
      ∀ x, 0 ≤ x → x < (N : ℤ) → get y.1 x = some (ptr len x) ∧ get y.2.1 x = some (ptr len x)) noFail := by
  unfold aatPtr
  refine wp_forRange (fun k (y : Arr Int × Arr Int × ℤ) => y.1.length = N ∧ y.2.1.length = N ∧ y.2.2 = ptr len k ∧
      ∀ x, 0 ≤ x → x < k → get y.1 x = some (ptr len x) ∧ get y.2.1 x = some (ptr len x))
    (show (0 : ℤ) ≤ N by omega) ⟨by rw [length_malloc]; simp, by rw [length_malloc]; simp, (ptr_zero _).symm,
      fun x h0 h1 => by omega⟩ ?_
  rintro k ⟨Pe, Sp, pf⟩ k0 k1 ⟨g1, g2, g3, g4⟩
  dsimp only at g1 g2 g3 g4 ⊢
  rw [wr_eq k0 (by omega), ok_bind, wr_eq k0 (by omega), ok_bind, rd_eq (hL k k0 k1), ok_bind]
  have q0 := ptr_mono hn le_rfl (show 0 ≤ k + 1 by omega)
  have q1 := ptr_mono hn (show 0 ≤ k + 1 by omega) (show k + 1 ≤ (N : ℤ) by omega)
  rw [ptr_zero] at q0
  rw [ptr_succ _ k0] at q0 q1
  rw [g3, hck _ q0 q1, ok_bind]
  refine wpr ⟨by rw [length_upd, g1], by rw [length_upd, g2], (ptr_succ _ k0).symm, ?_⟩
  intro x x0 x1
  rw [get_upd k0 (by omega), get_upd k0 (by omega)]
  split_ifs with hx
  · rw [hx]; exact ⟨rfl, rfl⟩
  · exact g4 x x0 (by omega)

/-- The lists `c` are stored. -/
structure Ps (n : ℤ) (len : ℤ → ℤ) (Al Sl : ℕ) (c : ℤ → List ℤ) (z : Arr Int × Arr Int) : Prop where
  li : z.1.length = Al
  ls : z.2.length = Sl
  sp : ∀ x, 0 ≤ x → x < n → get z.2 x = some (ptr len x + (c x).length)
  iw : ∀ x, 0 ≤ x → x < n → ∀ t : ℕ, t < (c x).length → get z.1 (ptr len x + t) = (c x)[t]?

theorem push_spec {n : ℤ} {len : ℤ → ℤ} {Al Sl : ℕ} {c : ℤ → List ℤ} {Iw Sp : Arr Int} (h : Ps n len Al Sl c (Iw, Sp))
    (hlen : ∀ x, 0 ≤ len x) (hAl : ptr len n ≤ Al) (hc : ∀ x, 0 ≤ x → x < n → ((c x).length : ℤ) ≤ len x)
    {x v : ℤ} (x0 : 0 ≤ x) (x1 : x < n) (hx : ((c x).length : ℤ) < len x) :
    rd Sp x = .ok (ptr len x + (c x).length) ∧ (0 ≤ ptr len x + (c x).length + 1 ∧ ptr len x + (c x).length + 1 ≤ ptr len n) ∧ wr Iw (ptr len x + (c x).length) v = .ok (upd Iw (ptr len x + (c x).length) v) ∧
    wr Sp x (ptr len x + (c x).length + 1) = .ok (upd Sp x (ptr len x + (c x).length + 1)) ∧
    Ps n len Al Sl (Function.update c x (c x ++ [v])) (upd Iw (ptr len x + (c x).length) v,
      upd Sp x (ptr len x + (c x).length + 1)) := by
  have p0 := ptr_mono hlen le_rfl x0
  rw [ptr_zero] at p0
  have p1 := ptr_lt hlen x0 x1
  have hs := h.sp x x0 x1
  have hb := get_bounds hs
  have hi := h.li
  dsimp only at hb hi
  have hw1 : ptr len x + (c x).length < (Iw.length : ℤ) := by omega
  refine ⟨rd_eq hs, ⟨by omega, by omega⟩, wr_eq (by omega) hw1, wr_eq hb.1 hb.2, by rw [length_upd]; exact h.li, by rw [length_upd]; exact h.ls, ?_, ?_⟩
  · intro y y0 y1
    rw [get_upd hb.1 hb.2, Function.update_apply]
    split_ifs with hy
    · rw [hy]; simp; ring
    · exact h.sp y y0 y1
  · intro y y0 y1 t ht
    rw [get_upd (by omega) hw1]
    rw [Function.update_apply] at ht ⊢
    by_cases hy : y = x
    · rw [if_pos hy] at ht ⊢
      rw [hy]
      rw [List.length_append, List.length_singleton] at ht
      by_cases hte : t = (c x).length
      · rw [if_pos (by omega), hte]; simp
      · rw [if_neg (by omega), List.getElem?_append_left (by omega)]
        exact h.iw x x0 x1 t (by omega)
    · rw [if_neg hy] at ht ⊢
      have hcy := hc y y0 y1
      rw [if_neg]
      · exact h.iw y y0 y1 t ht
      · rcases lt_or_gt_of_ne hy with hlt | hlt
        · have := ptr_lt hlen y0 hlt; omega
        · have := ptr_lt hlen x0 hlt; omega

theorem addIw_spec {N : ℕ} {len : ℤ → ℤ} {Al Sl : ℕ} {E : List (ℤ × ℤ)} {z : Arr Int × Arr Int}
    (hE : ∀ e ∈ E, 0 ≤ e.1 ∧ e.1 < (N : ℤ) ∧ 0 ≤ e.2 ∧ e.2 < (N : ℤ) ∧ e.1 ≠ e.2) (hlen : ∀ x, len x = (nb E x).length)
    (hck : ∀ v : ℤ, 0 ≤ v → v ≤ ptr len N → ck v = .ok v)
    (hAl : ptr len N ≤ Al) (h : Ps N len Al Sl (fun _ => []) z) :
    wp (runL addIw E z) (Ps N len Al Sl (nb E)) noFail := by
  have hn : ∀ x, 0 ≤ len x := fun x => by rw [hlen]; omega
  refine wp_runL (fun P z => Ps N len Al Sl (nb P) z) E z h ?_
  rintro pre e post ⟨Iw, Sp⟩ hEq hJ
  obtain ⟨b1, b2, b3, b4, b5⟩ := hE e (by rw [hEq]; simp)
  have hp : E = (pre ++ [e]) ++ post := by rw [hEq]; simp
  have hpre := fun x => nb_prefix hp x
  simp only [nb_snoc, List.length_append] at hpre
  have o1 : oth e e.1 = [e.2] := by unfold oth; rw [if_pos rfl]
  have o2 : oth e e.2 = [e.1] := by unfold oth; rw [if_neg b5, if_pos rfl]
  have q1 := hpre e.1
  have q2 := hpre e.2
  rw [o1, List.length_singleton] at q1
  rw [o2, List.length_singleton] at q2
  obtain ⟨e1, f1, e2, e3, h3⟩ := push_spec hJ hn hAl (fun x _ _ => by rw [hlen]; have := hpre x; omega) b1 b2 (v := e.2)
    (by rw [hlen]; omega)
  obtain ⟨e4, f4, e5, e6, h6⟩ := push_spec h3 hn hAl (fun x _ _ => by
      rw [hlen]; have := hpre x
      rw [Function.update_apply]
      split_ifs with hx
      · rw [hx, List.length_append, List.length_singleton]; omega
      · omega) b3 b4 (v := e.1)
    (by rw [hlen, Function.update_of_ne (by omega)]; omega)
  unfold addIw
  dsimp only
  rw [e1, ok_bind, e2, ok_bind, hck _ f1.1 f1.2, ok_bind, e3, ok_bind, e4, ok_bind, e5, ok_bind, hck _ f4.1 f4.2, ok_bind, e6, ok_bind]
  refine wpr ?_
  have : nb (pre ++ [e]) = Function.update (Function.update (nb pre) e.1 (nb pre e.1 ++ [e.2])) e.2
      (Function.update (nb pre) e.1 (nb pre e.1 ++ [e.2]) e.2 ++ [e.1]) := by
    funext x
    rw [nb_snoc, Function.update_apply, Function.update_of_ne (Ne.symm b5)]
    by_cases hx : x = e.2
    · rw [if_pos hx, hx, o2]
    · rw [if_neg hx, Function.update_apply]
      by_cases hx1 : x = e.1
      · rw [if_pos hx1, hx1, o1]
      · rw [if_neg hx1]; unfold oth; rw [if_neg (by omega), if_neg (by omega), List.append_nil]
  rw [this]
  exact h6

/-- AMD_1 after AMD_aat. -/
theorem amd_1_spec {N : ℕ} {nz : ℤ} {a A : ℤ → ℤ} {Ap Ai P Pinv Len : Arr Int} {slen : ℤ} {K : Knobs} (hSM : SM N nz a A)
    (hAp : ∀ j, 0 ≤ j → j ≤ (N : ℤ) → get Ap j = some (a j)) (hAi : ∀ p, 0 ≤ p → p < nz → get Ai p = some (A p))
    (hP : (N : ℤ) ≤ P.length) (hPi : (N : ℤ) ≤ Pinv.length) (hLl : (N : ℤ) ≤ Len.length)
    (hL : ∀ x, 0 ≤ x → x < (N : ℤ) → get Len x = some ((nb (aatL a A N) x).length : ℤ))
    (hsl : ptr (fun x => (nb (aatL a A N) x).length) N + 7 * N ≤ slen)
    (hfit : Fits N (slen - 6 * N)) (hNB : ck (9223372036854775807 - (N : ℤ)) = .ok (9223372036854775807 - (N : ℤ))) :
    wp (amd_1 N Ap Ai P Pinv Len slen K) (fun y => (∃ τ : Equiv.Perm (Fin N), Holds y.1 τ) ∧
      0 ≤ y.2 ∧ 2 * y.2 ≤ N * (N - 1)) noFail := by
  obtain ⟨c1, c2⟩ := aatL_spec hSM
  set E := aatL a A N with hEd
  set len : ℤ → ℤ := fun x => ((nb E x).length : ℤ) with hlen
  have hn : ∀ x, 0 ≤ len x := fun x => by simp [hlen]
  have hp0 := ptr_mono hn le_rfl (show (0 : ℤ) ≤ N by omega)
  rw [ptr_zero] at hp0
  obtain ⟨Tp', l1, e1⟩ := scanAAT_eq (add := addIw) hSM hAp hAi (Tp := malloc Int N) (by rw [length_malloc]; omega)
  unfold amd_1
  dsimp only
  have hsl' : ptr len N + 7 * N ≤ slen := hsl
  have hck : ∀ v : ℤ, 0 ≤ v → v ≤ ptr len N → ck v = .ok v := fun v v0 v1 => hfit.lin v (by omega) (by omega)
  rw [hfit.lin (6 * N) (by omega) (by omega), ok_bind, hfit.lin (slen - 6 * N) (by omega) (by omega), ok_bind]
  refine wb (wp_mono (aatPtr_spec hn hck hL) ?_ (fun _ h => h))
  rintro ⟨Pe, Sp, pf⟩ ⟨g1, g2, g3, g4⟩
  dsimp only at g1 g2 g3 g4 ⊢
  subst g3
  rw [e1, bind_assoc]
  have hml : (malloc Int (slen - 6 * N)).length = (slen - 6 * N).toNat := length_malloc _
  refine wb (wp_mono (addIw_spec (len := len) (Al := (slen - 6 * N).toNat) (Sl := N) c1 (fun _ => rfl) hck (by omega)
    ⟨hml, g2, fun x x0 x1 => by rw [(g4 x x0 x1).2, List.length_nil, Nat.cast_zero, add_zero], fun x _ _ t ht => by simp at ht⟩) ?_ (fun _ h => h))
  rintro ⟨Iw, Sp2⟩ hPs
  rw [pure_bind]
  dsimp only
  have hli := hPs.li
  have hls := hPs.ls
  dsimp only at hli hls
  set F : Sh := fun f i => match f with
    | .iw => (get Iw i).getD 0
    | .pe => ptr len i
    | .ln => len i
    | _ => 0 with hF
  have hob : ∀ x, 0 ≤ x → x < (N : ℤ) → obL F x = nb E x := by
    intro x x0 x1
    unfold obL
    apply List.ext_getElem?
    intro t
    by_cases ht : t < (nb E x).length
    · have := hPs.iw x x0 x1 t ht
      dsimp only at this
      unfold seg
      rw [List.getElem?_map, List.getElem?_range (by
        show t < (len x).toNat
        simp only [hlen]; omega)]
      show some ((get Iw (ptr len x + t)).getD 0) = _
      rw [this, List.getElem?_eq_getElem ht]
      rfl
    · rw [List.getElem?_eq_none (by rw [length_seg]; show (len x).toNat ≤ t; simp only [hlen]; omega),
        List.getElem?_eq_none (by omega)]
  have hnr : ∀ x y, y ∈ nb E x → 0 ≤ y ∧ y < (N : ℤ) ∧ y ≠ x := by
    intro x y hy
    rw [mem_nb] at hy
    obtain ⟨e, h1, h2⟩ := hy
    have := c1 e h1
    omega
  have htile : ∀ p, 0 ≤ p → p < ptr len N → ∃ v, get Iw p = some v ∧ 0 ≤ v ∧ v < (N : ℤ) := by
    intro p p0 p1
    obtain ⟨x, t, h1, h2, h3, h4, h5⟩ := ptr_tile hn N p p0 p1
    have ht : t.toNat < (nb E x).length := by simp only [hlen] at h4; omega
    have := hPs.iw x h1 h2 t.toNat ht
    rw [show ((t.toNat : ℕ) : ℤ) = t by omega, ← h5, List.getElem?_eq_getElem ht] at this
    have hm := hnr x _ (List.getElem_mem ht)
    exact ⟨_, this, hm.1, hm.2.1⟩
  have hInp : Inp N (ptr len N) (slen - 6 * N) (initMem N Iw Pe Len Sp2 Tp' Pinv P) F := by
    refine ⟨⟨?_, ?_, ?_, hfit⟩, hp0, ?_, ?_, ?_, ?_, ?_, fun x x0 x1 => by rw [hob x x0 x1]; exact nb_nodup c2 x⟩
    · rintro f i hD
      cases f <;> try exact absurd hD id
      · obtain ⟨v, h1, -⟩ := htile i hD.1 hD.2
        show get Iw i = some ((get Iw i).getD 0)
        rw [h1]; rfl
      · exact (g4 i hD.1 hD.2).1
      · exact hL i hD.1 hD.2
    · intro f
      have hm : (N : ℤ) ≤ (malloc Int N).length := by rw [length_malloc]; omega
      cases f
      · show slen - 6 * N ≤ (Iw.length : ℤ); omega
      · show (N : ℤ) ≤ (Pe.length : ℤ); omega
      · exact hLl
      · show (N : ℤ) ≤ (Sp2.length : ℤ); omega
      · exact hPi
      · exact hP
      · exact hm
      · exact hm
      · exact hm
      · show (N : ℤ) ≤ (Tp'.length : ℤ); rw [l1]; exact hm
    · rintro f i hD
      cases f <;> try exact absurd hD id
      · exact ⟨hD.1, by show i < slen - 6 * N; have := hD.2; omega⟩
      · exact hD
      · exact hD
    · intro x x0 x1
      have h1 := ptr_mono hn le_rfl x0
      rw [ptr_zero] at h1
      have h2 := ptr_lt hn x0 x1
      refine ⟨hn x, ?_, h1, h2⟩
      have h3 := length_lt (n := N) (l := x :: nb E x) (by
        rw [List.nodup_cons]; exact ⟨fun h => (hnr x x h).2.2 rfl, nb_nodup c2 x⟩) (by
        intro y hy
        rcases List.mem_cons.1 hy with rfl | hy
        · exact ⟨x0, x1⟩
        · exact ⟨(hnr x y hy).1, (hnr x y hy).2.1⟩)
      rw [List.length_cons] at h3
      show ((nb E x).length : ℤ) < N
      omega
    · intro x y x0 x1 y0 y1 hxy
      rcases lt_or_gt_of_ne hxy with h | h
      · exact .inl (ptr_lt hn x0 h)
      · exact .inr (ptr_lt hn y0 h)
    · show psum N (fun _ => True) len ≤ ptr len N
      unfold psum ptr
      simp
    · intro p p0 p1
      obtain ⟨v, h1, h2, h3⟩ := htile p p0 p1
      show 0 ≤ (get Iw p).getD 0 ∧ (get Iw p).getD 0 < N
      rw [h1]; exact ⟨h2, h3⟩
    · intro x y x0 x1 y0 y1 hy
      rw [hob x x0 x1] at hy
      rw [hob y y0 y1]
      exact nb_symm hy
  refine wb (wp_mono (amd_2_spec hInp (by have : ptr len N + 7 * N ≤ slen := hsl; show ptr len N + (N : ℤ) ≤ slen - 6 * N; omega) hNB) ?_ (fun _ h => h))
  rintro ⟨s, lnz⟩ hs
  exact wpr hs

end Slip.Amd
