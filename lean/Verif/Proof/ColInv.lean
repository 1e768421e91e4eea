import Verif.Proof.ColBase
import Mathlib.Data.Finset.Card

/-!
# COLAMD: the invariants of the ordering phase
-/

namespace Slip.Colamd

/-- Column `c` is a live column. -/
@[reducible] def CA (n : ℤ) (F : Sh) (c : ℤ) : Prop := 0 ≤ c ∧ c < n ∧ 0 ≤ F .cs c

/-- Row `r` is a live row. -/
@[reducible] def RA (m : ℤ) (F : Sh) (r : ℤ) : Prop := 0 ≤ r ∧ r < m ∧ 0 ≤ F .r2 r

/-- The entries of a column. -/
def colL (F : Sh) (c : ℤ) : List ℤ := seg (F .A) (F .cs c) (F .cl c)

/-- The entries of a row. -/
def rowL (F : Sh) (r : ℤ) : List ℤ := seg (F .A) (F .rs r) (F .rl r)

/-- The external degree: thickness of the live columns of a row. -/
def rdeg (n : ℤ) (F : Sh) (r : ℤ) : ℤ :=
  ∑ c ∈ Finset.Ico 0 n, if 0 ≤ F .cs c ∧ c ∈ rowL F r then F .c1 c else 0

/-- The thickness of the other live columns that share a row with `c`. -/
def nsum (n : ℤ) (F : Sh) (c : ℤ) : ℤ :=
  ∑ c' ∈ Finset.Ico 0 n,
    if 0 ≤ F .cs c' ∧ c' ≠ c ∧ ∃ r ∈ colL F c, r ∈ colL F c' then F .c1 c' else 0

/-- The thickness of the columns in `S`. -/
def tsum (n : ℤ) (F : Sh) (S : ℤ → Prop) [DecidablePred S] : ℤ :=
  ∑ c ∈ Finset.Ico 0 n, if S c then F .c1 c else 0

/-- The layout of the index space: columns below `B`, rows between `B` and `pf`. -/
structure Lay (n m nnz B pf : ℤ) (F : Sh) : Prop where
  B0 : 0 ≤ B
  Bn : B ≤ nnz
  Bp : B ≤ pf
  cb : ∀ c, CA n F c → 0 ≤ F .cl c ∧ F .cs c + F .cl c ≤ B
  co : ∀ c c', CA n F c → CA n F c' → c < c' → F .cs c + F .cl c ≤ F .cs c'
  rb : ∀ r, RA m F r → 0 ≤ F .rl r ∧ B ≤ F .rs r ∧ F .rs r + F .rl r ≤ pf
  rd : ∀ r r', RA m F r → RA m F r' → r ≠ r' →
    F .rs r + F .rl r ≤ F .rs r' ∨ F .rs r' + F .rl r' ≤ F .rs r
  nn : ∀ i, 0 ≤ i → i < pf → 0 ≤ F .A i

/-- The columns and the rows represent the same matrix, with the right degrees. -/
structure Inc (n m : ℤ) (F : Sh) : Prop where
  cv : ∀ c, CA n F c → ∀ r ∈ colL F c, RA m F r
  rv : ∀ r, RA m F r → ∀ c ∈ rowL F r, 0 ≤ c ∧ c < n
  cn : ∀ c, CA n F c → (colL F c).Nodup
  rn : ∀ r, RA m F r → (rowL F r).Nodup
  sy : ∀ c r, CA n F c → RA m F r → (r ∈ colL F c ↔ c ∈ rowL F r)
  dg : ∀ r, RA m F r → F .r1 r = rdeg n F r ∧ 0 < F .r1 r
  th : ∀ c, CA n F c → 1 ≤ F .c1 c
  tt : tsum n F (fun c => 0 ≤ F .cs c) ≤ n

/-- The scores bound the sizes of the pivot rows. -/
def Sc (n : ℤ) (F : Sh) : Prop := ∀ c, CA n F c → nsum n F c ≤ F .c2 c

/-- The degree lists hold the columns of `S`. -/
structure DL (n : ℤ) (F : Sh) (S : ℤ → Prop) (rk : ℤ → ℕ) : Prop where
  rg : ∀ c, S c → 0 ≤ c ∧ c < n ∧ 0 ≤ F .c2 c ∧ F .c2 c ≤ n
  hd : ∀ d, 0 ≤ d → d ≤ n →
    F .p d = -1 ∨ (S (F .p d) ∧ F .c2 (F .p d) = d ∧ F .c3 (F .p d) = -1)
  pv : ∀ c, S c → (F .c3 c = -1 ∧ F .p (F .c2 c) = c) ∨
    (S (F .c3 c) ∧ F .c4 (F .c3 c) = c ∧ F .c2 (F .c3 c) = F .c2 c ∧ rk (F .c3 c) < rk c)
  nx : ∀ c, S c → F .c4 c = -1 ∨
    (S (F .c4 c) ∧ F .c3 (F .c4 c) = c ∧ F .c2 (F .c4 c) = F .c2 c)

/-- The marks are below the tag. -/
structure Mk (m tag mx : ℤ) (F : Sh) : Prop where
  tg : 1 ≤ tag
  tu : tag ≤ 2147483648
  lt : ∀ r, RA m F r → F .r2 r < tag
  md : ∀ r, RA m F r → F .r1 r ≤ mx

/-- The columns that have a position (`dp`), the columns they represent (`root`), and the tree of
absorbed columns (`e` decreases towards the root). -/
structure Gh (n n2 k : ℤ) (F : Sh) (dp : ℤ → Prop) (root : ℤ → ℤ) (e : ℤ → ℕ) : Prop where
  rt : ∀ x, 0 ≤ x → x < n → 0 ≤ root x ∧ root x < n ∧ F .cs (root x) ≠ -2
  se : ∀ x, 0 ≤ x → x < n → F .cs x ≠ -2 → root x = x
  pa : ∀ x, 0 ≤ x → x < n → F .cs x = -2 →
    0 ≤ F .c1 x ∧ F .c1 x < n ∧ root (F .c1 x) = root x ∧ e (F .c1 x) < e x ∧ F .c2 x = -1
  eb : ∀ x, 0 ≤ x → x < n → (e x : ℤ) < F .c1 (root x)
  sz : ∀ c, 0 ≤ c → c < n → F .cs c ≠ -2 →
    (((Finset.Ico 0 n).filter fun x => root x = c).card : ℤ) = F .c1 c
  od : ∀ c, 0 ≤ c → c < n → dp c → F .cs c ≠ -2 ∧ 0 ≤ F .c2 c ∧ F .c2 c + F .c1 c ≤ n ∧
    (F .c2 c + F .c1 c ≤ k ∨ n2 ≤ F .c2 c)
  dj : ∀ c c', 0 ≤ c → c < n → dp c → 0 ≤ c' → c' < n → dp c' → c ≠ c' →
    F .c2 c + F .c1 c ≤ F .c2 c' ∨ F .c2 c' + F .c1 c' ≤ F .c2 c
  kd : ∀ c, 0 ≤ c → c < n → -2 ≤ F .cs c
  kn : 0 ≤ k ∧ k ≤ n2 ∧ n2 ≤ n
  ez : ∀ x, 0 ≤ x → x < n → F .cs x ≠ -2 → e x = 0

/-- The state between two pivots. -/
structure Inv [Arith] (n m nnz n2 Al : ℤ) (z : Ord) (F : Sh) (B : ℤ) (rk : ℤ → ℕ) (root : ℤ → ℤ)
    (e : ℤ → ℕ) : Prop where
  rp : Rm n m Al z.pfree z.s F
  pf : z.pfree ≤ Al
  al : 2 * nnz + n ≤ Al
  lay : Lay n m nnz B z.pfree F
  inc : Inc n m F
  sc : Sc n F
  tot : tsum n F (fun c => 0 ≤ F .cs c) = n2 - z.k
  dl : DL n F (CA n F) rk
  ms : 0 ≤ z.ms ∧ z.ms ≤ n ∧ ∀ d, 0 ≤ d → d < z.ms → F .p d = -1
  mar : Mk m z.tag z.maxDeg F
  mxn : 0 ≤ z.maxDeg ∧ z.maxDeg ≤ n
  gh : Gh n n2 z.k F (fun c => F .cs c = -1) root e

/-! ## Sums -/

theorem sum_list {n : ℤ} {P : List ℤ} (hP : P.Nodup) (hb : ∀ c ∈ P, 0 ≤ c ∧ c < n) (f : ℤ → ℤ) :
    (P.map f).sum = ∑ c ∈ Finset.Ico 0 n, if c ∈ P then f c else 0 := by
  rw [← Finset.sum_filter]
  have : (Finset.Ico 0 n).filter (· ∈ P) = P.toFinset := by
    ext c; simp only [Finset.mem_filter, Finset.mem_Ico, List.mem_toFinset]
    exact ⟨fun h => h.2, fun h => ⟨hb c h, h⟩⟩
  rw [this, List.sum_toFinset _ hP]

theorem sum_ite_mono {n : ℤ} {p q : ℤ → Prop} [DecidablePred p] [DecidablePred q] {f : ℤ → ℤ}
    (h : ∀ c, 0 ≤ c → c < n → p c → q c) (h0 : ∀ c, 0 ≤ c → c < n → q c → 0 ≤ f c) :
    (∑ c ∈ Finset.Ico 0 n, if p c then f c else 0) ≤ ∑ c ∈ Finset.Ico 0 n, if q c then f c else 0 := by
  apply Finset.sum_le_sum
  intro c hc
  rw [Finset.mem_Ico] at hc
  have := h c hc.1 hc.2
  have := h0 c hc.1 hc.2
  split_ifs <;> first | exact le_rfl | tauto

theorem sum_ite_congr {n : ℤ} {p q : ℤ → Prop} [DecidablePred p] [DecidablePred q] {f g : ℤ → ℤ}
    (h : ∀ c, 0 ≤ c → c < n → (p c ↔ q c)) (h0 : ∀ c, 0 ≤ c → c < n → q c → f c = g c) :
    (∑ c ∈ Finset.Ico 0 n, if p c then f c else 0) = ∑ c ∈ Finset.Ico 0 n, if q c then g c else 0 := by
  apply Finset.sum_congr rfl
  intro c hc
  rw [Finset.mem_Ico] at hc
  have := h c hc.1 hc.2
  have := h0 c hc.1 hc.2
  split_ifs <;> first | rfl | tauto

theorem Inc.sum_le {n m : ℤ} {F : Sh} (h : Inc n m F) {Q : List ℤ} (hQ : Q.Nodup)
    (hc : ∀ c ∈ Q, CA n F c) : (Q.map (F .c1)).sum ≤ n := by
  rw [sum_list hQ fun c hq => ⟨(hc c hq).1, (hc c hq).2.1⟩]
  refine le_trans ?_ h.tt
  exact sum_ite_mono (fun c _ _ hq => (hc c hq).2.2) fun c c0 c1 hc => by
    have := h.th c ⟨c0, c1, hc⟩; omega

theorem Inc.c1_le {n m : ℤ} {F : Sh} (h : Inc n m F) {c : ℤ} (hc : CA n F c) : F .c1 c ≤ n := by
  have := h.sum_le (List.nodup_singleton c) (by simpa using hc)
  simpa using this

theorem Inc.r1_le {n m : ℤ} {F : Sh} (h : Inc n m F) {r : ℤ} (hr : RA m F r) : F .r1 r ≤ n := by
  rw [(h.dg r hr).1]
  refine le_trans ?_ h.tt
  exact sum_ite_mono (fun c _ _ hq => hq.1) fun c c0 c1 hc => by
    have := h.th c ⟨c0, c1, hc⟩; omega

theorem Gh.c1_le {n n2 k : ℤ} {F : Sh} {dp : ℤ → Prop} {root : ℤ → ℤ} {e : ℤ → ℕ}
    (h : Gh n n2 k F dp root e) {c : ℤ} (h0 : 0 ≤ c) (h1 : c < n) (h2 : F .cs c ≠ -2) :
    0 ≤ F .c1 c ∧ F .c1 c ≤ n := by
  rw [← h.sz c h0 h1 h2]
  refine ⟨by positivity, ?_⟩
  have := Finset.card_filter_le (Finset.Ico 0 n) fun x => root x = c
  rw [Int.card_Ico] at this
  omega

theorem len_le_sum {P : List ℤ} {f : ℤ → ℤ} (h : ∀ c ∈ P, 1 ≤ f c) :
    (P.length : ℤ) ≤ (P.map f).sum := by
  induction P with
  | nil => simp
  | cons a P ih =>
    simp only [List.length_cons, List.map_cons, List.sum_cons]
    have := h a (by simp)
    have := ih fun c hc => h c (by simp [hc])
    push_cast; omega

end Slip.Colamd
