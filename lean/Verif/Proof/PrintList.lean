import Verif.Proof.Print
import Mathlib.Data.List.Nodup

/-!
# The output of `SLIP_matrix_check`: the complete listing and the messages
-/

namespace Slip

/-! ## Specification of the listing -/

/-- `a, a+1, ..., b-1`. -/
def irange (a b : Int) : List Int := (List.range (b - a).toNat).map fun (k : ℕ) => a + k

/-- An entry: its place and its value. -/
def entry (A : Mat) (e : Ev) (t : Int) : List Ev := e :: ((valAt A t).map Ev.val).toList

/-- Column `j` of a CSC matrix: its entries in the order in which they are stored. -/
def cscColumn (A : Mat) (j : Int) : List Ev :=
  .column j :: (irange ((get (deref A.p) j).getD 0) ((get (deref A.p) (j + 1)).getD 0)).flatMap fun t =>
    entry A (.row ((get (deref A.i) t).getD 0)) t

/-- Column `j` of a dense matrix. -/
def denseColumn (A : Mat) (j : Int) : List Ev :=
  .column j :: (irange 0 A.m).flatMap fun i => entry A (.row i) (i + j * A.m)

/-- All columns, or all triplets. -/
def listBody (A : Mat) : List Ev :=
  match A.kind with
  | .csc => (irange 0 A.n).flatMap (cscColumn A)
  | .triplet => (irange 0 A.nz).flatMap fun t =>
      entry A (.pair ((get (deref A.i) t).getD 0) ((get (deref A.j) t).getD 0)) t
  | .dense => (irange 0 A.n).flatMap (denseColumn A)
  | .bad _ => []

/-- The complete listing of a matrix with `N` entries. -/
def listing (A : Mat) (N : Int) : List Ev :=
  [.header A.m A.n N A.nzmax A.kind A.type, .scaleIs, .scale A.scale] ++ listBody A

/-- Position `t` is in column `j` of a CSC matrix. -/
def InCol (A : Mat) (j t : Int) : Prop :=
  (0 ≤ j ∧ j < A.n) ∧ ∃ a b, get (deref A.p) j = some a ∧ get (deref A.p) (j + 1) = some b ∧ a ≤ t ∧ t < b

/-- What an error message says about a matrix with `N` entries. -/
def Msg.says (E : PrEnv) (A : Mat) (N : Int) : Msg → Prop
  | .memory => E.mem = false
  | .nz => N < 0
  | .m => A.m < 0
  | .n => A.n < 0
  | .nzmax => A.nzmax < 0
  | .type => A.type.good = false
  | .p => A.kind = .csc ∧ (A.p = none ∨ (∃ v, get (deref A.p) 0 = some v ∧ v ≠ 0) ∨
      ∃ j a b, (0 ≤ j ∧ j < A.n) ∧ get (deref A.p) j = some a ∧ get (deref A.p) (j + 1) = some b ∧ (b < a ∨ N < b))
  | .ix => A.kind = .csc ∧ (A.i = none ∨ A.x = none)
  | .ijx => A.kind = .triplet ∧ (A.i = none ∨ A.j = none ∨ A.x = none)
  | .x => A.kind = .dense ∧ A.x = none
  | .range i j => A.kind = .csc ∧ (∃ t, InCol A j t ∧ get (deref A.i) t = some i) ∧ (i < 0 ∨ A.m ≤ i)
  | .dup i j => (A.kind = .csc ∧ ∃ t t', t ≠ t' ∧ InCol A j t ∧ InCol A j t' ∧
        get (deref A.i) t = some i ∧ get (deref A.i) t' = some i) ∨
      (A.kind = .triplet ∧ ∃ t t', t ≠ t' ∧ (0 ≤ t ∧ t < A.nz) ∧ (0 ≤ t' ∧ t' < A.nz) ∧
        (get (deref A.i) t = some i ∧ get (deref A.j) t = some j) ∧
        get (deref A.i) t' = some i ∧ get (deref A.j) t' = some j)
  | .index => A.kind = .triplet ∧ ∃ t r c, (0 ≤ t ∧ t < A.nz) ∧ get (deref A.i) t = some r ∧
      get (deref A.j) t = some c ∧ (r < 0 ∨ A.m ≤ r ∨ c < 0 ∨ A.n ≤ c)

/-- The code returned along with a message. -/
def Msg.code : Msg → Info
  | .memory => .outOfMemory
  | _ => .incorrectInput

/-! ## Lists -/

theorem irange_empty {a b : Int} (h : b ≤ a) : irange a b = [] := by
  unfold irange
  rw [show (b - a).toNat = 0 by omega]
  rfl

theorem irange_succ {a b : Int} (h : a ≤ b) : irange a (b + 1) = irange a b ++ [b] := by
  unfold irange
  rw [show (b + 1 - a).toNat = (b - a).toNat + 1 by omega, List.range_succ, List.map_append]
  congr 1
  simp only [List.map_cons, List.map_nil]
  congr 1
  omega

theorem irange_split {a b c : Int} (h1 : a ≤ b) (h2 : b ≤ c) : irange a c = irange a b ++ irange b c := by
  obtain ⟨k, rfl⟩ := Int.le.dest h2
  clear h2
  induction k with
  | zero => simp [irange_empty (le_refl b)]
  | succ k ih =>
    push_cast
    rw [← add_assoc, irange_succ (by omega), irange_succ (by omega), ← List.append_assoc, ← ih]

theorem irange_cons {a b : Int} (h : a < b) : irange a b = a :: irange (a + 1) b := by
  rw [irange_split (show a ≤ a + 1 by omega) (show a + 1 ≤ b by omega), irange_succ le_rfl, irange_empty le_rfl]
  rfl

/-- The beginning of a listing. -/
theorem prefix_flatMap {a b k : Int} (f : Int → List Ev) (h1 : a ≤ k) (h2 : k < b) {pre : List Ev} (hp : pre <+: f k) :
    (irange a k).flatMap f ++ pre <+: (irange a b).flatMap f := by
  rw [irange_split h1 h2.le, List.flatMap_append, irange_cons h2, List.flatMap_cons]
  exact (List.prefix_append_right_inj _).2 (hp.trans (List.prefix_append _ _))

/-! ## Rules -/

/-- The computation ends in `Q`, or fails in `X`. -/
def wpP {α : Type} (m : Pm α) (s : Pr) (Q : α → Pr → Prop) (X : Fail → Pr → Prop) : Prop :=
  match m s with
  | (.ok a, s') => Q a s'
  | (.error e, s') => X e s'

section
variable {α β σ : Type} {X : Fail → Pr → Prop}

theorem wpP_bind {m : Pm α} {f : α → Pm β} {s : Pr} {Q : β → Pr → Prop}
    (h : wpP m s (fun a s' => wpP (f a) s' Q X) X) : wpP (m >>= f) s Q X := by
  unfold wpP at h ⊢
  rw [Pm.bind_run]
  rcases hm : m s with ⟨_ | a, s'⟩
  · rw [hm] at h; exact h
  · rw [hm] at h; exact h

theorem wpP_mono {m : Pm α} {s : Pr} {Q Q' : α → Pr → Prop} (h : wpP m s Q X) (hq : ∀ a s, Q a s → Q' a s) :
    wpP m s Q' X := by
  unfold wpP at h ⊢
  rcases hm : m s with ⟨_ | a, s'⟩
  · rw [hm] at h; exact h
  · rw [hm] at h; exact hq _ _ h

theorem wpP_pure {a : α} {s : Pr} {Q : α → Pr → Prop} (h : Q a s) : wpP (Pure.pure a : Pm α) s Q X := h

theorem wpP_rd {a : Arr α} {t : Int} {f : α → Pm β} {s : Pr} {Q : β → Pr → Prop} (hX : X .ub s)
    (h : ∀ v, get a t = some v → wpP (f v) s Q X) : wpP (Pm.lift (rd a t) >>= f) s Q X := by
  unfold wpP
  rw [get_lift]
  cases hg : get a t with
  | none => exact hX
  | some v => exact h v hg

theorem wpP_forRange {lo hi : Int} {x : σ} {f : Int → σ → Pm σ} {s : Pr} (I : Int → σ → Pr → Prop) (hle : lo ≤ hi)
    (h0 : I lo x s) (h : ∀ k x s, lo ≤ k → k < hi → I k x s → wpP (f k x) s (I (k + 1)) X) :
    wpP (forRangeP lo hi x f) s (I hi) X := by
  unfold forRangeP
  obtain ⟨c, rfl⟩ := Int.le.dest hle
  rw [show (lo + (c : ℤ) - lo).toNat = c by omega]
  clear hle
  induction c generalizing lo x s with
  | zero => simpa [forCntP] using wpP_pure (X := X) (Q := I (lo + 0)) (by simpa using h0)
  | succ c ih =>
    unfold forCntP
    refine wpP_bind (wpP_mono (h lo x s le_rfl (by omega) h0) fun y s' hI => ?_)
    have := ih (lo := lo + 1) (x := y) (s := s') hI
    rw [show lo + 1 + (c : ℤ) = lo + ((c + 1 : ℕ) : ℤ) by push_cast; omega] at this
    exact this fun k x s h1 h2 => h k x s (by omega) h2

/-- A loop that keeps `I`. -/
theorem wpP_forRange_const {lo hi : Int} {x : σ} {f : Int → σ → Pm σ} {s : Pr} (I : σ → Pr → Prop)
    (h0 : I x s) (h : ∀ k x s, lo ≤ k → k < hi → I x s → wpP (f k x) s I X) :
    wpP (forRangeP lo hi x f) s I X := by
  by_cases hle : lo ≤ hi
  · exact wpP_forRange (fun _ => I) hle h0 h
  · unfold forRangeP
    rw [show (hi - lo).toNat = 0 by omega]
    exact h0

end

/-- The state at level 3 and above, with this output. -/
structure At (s : Pr) (l : List Ev) : Prop where
  full : 3 ≤ s.pr
  ok : s.status = .ok
  out : s.out = l

/-- How the function can fail: an error message that is true, after the beginning of the listing. -/
def Bad (E : PrEnv) (A : Mat) (N : Int) (e : Fail) (s : Pr) : Prop :=
  e = .ub ∨ ∃ msg pre, e = .ret msg.code ∧ s.out = pre ++ [.err msg] ∧ pre <+: listing A N ∧ msg.says E A N

section
variable {E : PrEnv} {A : Mat} {N : Int} {α β : Type} {Q : α → Pr → Prop} {s : Pr} {l : List Ev}

theorem wpP_complain (h : At s l) (msg : Msg) (hl : l <+: listing A N) (hs : msg.says E A N) :
    wpP (complain msg msg.code : Pm α) s Q (Bad E A N) := by
  have h3 := h.full
  unfold wpP complain
  rw [Pm.bind_run]
  rw [show pr1 (.err msg) s = (.ok (), { s with out := s.out ++ [.err msg] }) from if_pos (by omega)]
  exact Or.inr ⟨msg, l, rfl, by show s.out ++ _ = _; rw [h.out], hl, hs⟩

theorem wpP_start {e : Ev} {k : Pm β} {Q : β → Pr → Prop} {X : Fail → Pr → Prop} (h : At s l)
    (hk : ∀ s', At s' (l ++ [e]) → wpP k s' Q X) : wpP (limit >>= fun _ => pr2 e >>= fun _ => k) s Q X := by
  have h3 := h.full
  rw [show (limit >>= fun _ => pr2 e >>= fun _ => k) = ((limit >>= fun _ => pr2 e) >>= fun _ => k) from by
    funext s
    simp only [Pm.bind_run]
    rcases limit s with ⟨_ | _, s'⟩ <;> rfl]
  refine wpP_bind ?_
  unfold wpP
  rw [run_start3 h3]
  exact hk _ ⟨h3, h.ok, by rw [← h.out]⟩

theorem wpP_entry (hE : ∀ k, E.asp k = .ok) (h : At s l) {e : Ev} {t : Int} {d : Bool} {Q : Unit → Pr → Prop}
    (hQ : ∀ s', At s' (l ++ entry A e t) → Q () s') :
    wpP (showEntry E A e t d) s Q (Bad E A N) := by
  obtain ⟨c, s', hr⟩ := showEntry_run3 hE A e t d h.full h.ok
  unfold wpP
  rw [hr]
  cases hv : valAt A t with
  | none => exact Or.inl rfl
  | some v =>
    refine hQ _ ⟨h.full, h.ok, ?_⟩
    show s.out ++ [e] ++ [.val v] = _
    rw [h.out]
    simp [entry, hv]

theorem wpP_mem (h : At s l) (hl : l <+: listing A N) {Q : Unit → Pr → Prop} (hQ : Q () s) :
    wpP (needMem E) s Q (Bad E A N) := by
  unfold needMem
  by_cases hm : E.mem = false
  · rw [if_pos hm]
    exact wpP_complain h .memory hl hm
  · rw [if_neg hm]
    exact wpP_pure hQ

/-- The column pointers. -/
theorem wpP_ptr (hk : A.kind = .csc) (h : At s l) (hl : l <+: listing A N) (hn : 0 ≤ A.n) :
    wpP (checkPtrP (deref A.p) A.n N) s (fun _ s' => At s' l ∧ ∀ j, 0 ≤ j → j < A.n →
      ∃ a b, get (deref A.p) j = some a ∧ get (deref A.p) (j + 1) = some b ∧ a ≤ b ∧ b ≤ N) (Bad E A N) := by
  unfold checkPtrP
  refine wpP_forRange (fun k _ s => At s l ∧ ∀ j, 0 ≤ j → j < k →
      ∃ a b, get (deref A.p) j = some a ∧ get (deref A.p) (j + 1) = some b ∧ a ≤ b ∧ b ≤ N) hn
    ⟨h, fun j h1 h2 => by omega⟩ ?_
  rintro k - s hk0 hkn ⟨hA, hI⟩
  refine wpP_rd (Or.inl rfl) fun a ha => wpP_rd (Or.inl rfl) fun b hb => ?_
  by_cases hc : b < a ∨ b > N
  · rw [if_pos hc]
    exact wpP_complain hA .p hl ⟨hk, Or.inr (Or.inr ⟨k, a, b, ⟨hk0, hkn⟩, ha, hb, hc⟩)⟩
  · rw [if_neg hc]
    refine wpP_pure ⟨hA, fun j h1 h2 => ?_⟩
    rcases lt_or_eq_of_le (Int.lt_add_one_iff.1 h2) with h3 | h3
    · exact hI j h1 h3
    · subst h3
      exact ⟨a, b, ha, hb, by omega, by omega⟩

/-- The rows of a CSC matrix. -/
theorem wpP_rows (hE : ∀ k, E.asp k = .ok) (hk : A.kind = .csc) (hn : 0 ≤ A.n) (h : At s ((listing A N).take 3))
    (hp : ∀ j, 0 ≤ j → j < A.n → ∃ a b, get (deref A.p) j = some a ∧ get (deref A.p) (j + 1) = some b ∧ a ≤ b ∧ b ≤ N) :
    wpP (checkRowsP E A (deref A.p) (deref A.i)) s (fun _ s' => At s' (listing A N)) (Bad E A N) := by
  have hlist : listing A N = (listing A N).take 3 ++ (irange 0 A.n).flatMap (cscColumn A) := by
    unfold listing listBody
    rw [hk]
    rfl
  generalize hH : (listing A N).take 3 = H at h hlist
  unfold checkRowsP
  refine wpP_bind (wpP_mem h (hlist ▸ List.prefix_append _ _) ?_)
  refine wpP_bind ?_
  refine wpP_mono (wpP_forRange (fun k (work : Arr Int) s => At s (H ++ (irange 0 k).flatMap (cscColumn A)) ∧
    ∀ r w, get work r = some w → w ≤ k) hn
    ⟨by simpa [irange_empty] using h, ?_⟩ ?_) ?_
  · intro r w hg
    unfold get at hg
    split at hg
    · simp at hg
    · unfold calloc at hg
      rw [List.getElem?_replicate] at hg
      split at hg
      · simp at hg; omega
      · simp at hg
  · rintro j work s hj0 hjn ⟨hA, hw⟩
    refine wpP_start hA fun s' hA' => ?_
    refine wpP_rd (Or.inl rfl) fun a ha => wpP_rd (Or.inl rfl) fun b hb => ?_
    obtain ⟨a', b', ha', hb', hab, -⟩ := hp j hj0 hjn
    rw [ha] at ha'
    rw [hb] at hb'
    cases ha'
    cases hb'
    let f : Int → List Ev := fun t => entry A (.row ((get (deref A.i) t).getD 0)) t
    have hcol : cscColumn A j = .column j :: (irange a b).flatMap f := by
      unfold cscColumn
      rw [ha, hb]
      rfl
    refine wpP_mono (wpP_forRange (fun t (work : Arr Int) s =>
      At s (H ++ (irange 0 j).flatMap (cscColumn A) ++ [.column j] ++ (irange a t).flatMap f) ∧
      ∀ r w, get work r = some w → w ≤ j + 1 ∧ (w = j + 1 → ∃ t', a ≤ t' ∧ t' < t ∧ get (deref A.i) t' = some r)) hab
      ⟨by simpa [irange_empty] using hA', fun r w hg => ?_⟩ ?_) ?_
    · have := hw r w hg
      exact ⟨by omega, fun h => by omega⟩
    · rintro t work s hat htb ⟨hA, hw⟩
      have hpre : H ++ (irange 0 j).flatMap (cscColumn A) ++ [.column j] ++ (irange a t).flatMap f <+: listing A N := by
        rw [hlist, List.append_assoc, List.append_assoc]
        refine (List.prefix_append_right_inj _).2 ?_
        refine prefix_flatMap (cscColumn A) hj0 hjn ?_
        rw [hcol]
        show _ :: _ <+: _
        refine (List.cons_prefix_cons).2 ⟨rfl, ?_⟩
        have := prefix_flatMap f hat htb (List.nil_prefix)
        simpa using this
      refine wpP_rd (Or.inl rfl) fun r hr => ?_
      have hin : InCol A j t := ⟨⟨hj0, hjn⟩, a, b, ha, hb, hat, htb⟩
      by_cases hc : r < 0 ∨ r ≥ A.m
      · rw [if_pos hc]
        exact wpP_complain hA (.range r j) hpre ⟨hk, ⟨t, hin, hr⟩, hc⟩
      rw [if_neg hc]
      refine wpP_rd (Or.inl rfl) fun w hwg => ?_
      by_cases hd : w = j + 1
      · rw [if_pos hd]
        obtain ⟨t', h1, h2, h3⟩ := (hw r w hwg).2 hd
        exact wpP_complain hA (.dup r j) hpre (Or.inl ⟨hk, t', t, by omega, ⟨⟨hj0, hjn⟩, a, b, ha, hb, h1, by omega⟩, hin, h3, hr⟩)
      rw [if_neg hd]
      refine wpP_bind (wpP_entry hE hA fun s' hA' => ?_)
      unfold wpP Pm.lift wr
      by_cases hb' : 0 ≤ r ∧ r < (work.length : ℤ)
      · rw [if_pos hb']
        dsimp only
        refine ⟨?_, fun r' w' hg => ?_⟩
        · rw [irange_succ hat, List.flatMap_append]
          simp only [List.flatMap_cons, List.flatMap_nil, List.append_nil]
          rw [← List.append_assoc]
          simpa [f, hr] using hA'
        · by_cases he : r' = r
          · subst he
            rw [get_upd_self hb'.1 hb'.2] at hg
            cases hg
            exact ⟨le_rfl, fun _ => ⟨t, hat, by omega, hr⟩⟩
          · have h0 : 0 ≤ r' := by
              by_contra hneg
              unfold get at hg
              rw [if_pos (by omega)] at hg
              cases hg
            rw [get_upd_ne hb'.1 hb'.2 _ he] at hg
            obtain ⟨h1, h2⟩ := hw r' w' hg
            refine ⟨h1, fun h => ?_⟩
            obtain ⟨t', h3, h4, h5⟩ := h2 h
            exact ⟨t', h3, by omega, h5⟩
      · rw [if_neg hb']
        exact Or.inl rfl
    · rintro work s ⟨hA, hw⟩
      refine ⟨?_, fun r w hg => (hw r w hg).1⟩
      rw [irange_succ hj0, List.flatMap_append]
      simp only [List.flatMap_cons, List.flatMap_nil, List.append_nil]
      rw [hcol]
      simpa using hA
  · rintro work s ⟨hA, -⟩
    refine wpP_pure ?_
    rw [hlist]
    exact hA

/-- The triplets. -/
theorem wpP_triplets (hE : ∀ k, E.asp k = .ok) (hk : A.kind = .triplet) (hz : 0 ≤ A.nz)
    (h : At s ((listing A N).take 3)) :
    wpP (checkTripletsP E A (deref A.i) (deref A.j) A.nz) s (fun _ s' => At s' (listing A N)) (Bad E A N) := by
  let f : Int → List Ev := fun t => entry A (.pair ((get (deref A.i) t).getD 0) ((get (deref A.j) t).getD 0)) t
  have hlist : listing A N = (listing A N).take 3 ++ (irange 0 A.nz).flatMap f := by
    unfold listing listBody
    rw [hk]
    rfl
  generalize hH : (listing A N).take 3 = H at h hlist
  unfold checkTripletsP
  refine wpP_mono (wpP_forRange (fun t _ s => At s (H ++ (irange 0 t).flatMap f)) hz
    (by simpa [irange_empty] using h) ?_) ?_
  · rintro t - s ht0 htn hA
    refine wpP_rd (Or.inl rfl) fun r hr => wpP_rd (Or.inl rfl) fun c hc => ?_
    by_cases hb : r < 0 ∨ r ≥ A.m ∨ c < 0 ∨ c ≥ A.n
    · rw [if_pos hb]
      refine wpP_complain hA .index ?_ ⟨hk, t, r, c, ⟨ht0, htn⟩, hr, hc, hb⟩
      rw [hlist]
      refine (List.prefix_append_right_inj _).2 ?_
      have := prefix_flatMap f ht0 htn (List.nil_prefix)
      simpa using this
    · rw [if_neg hb]
      refine wpP_entry hE hA fun s' hA' => ?_
      rw [irange_succ ht0, List.flatMap_append]
      simp only [List.flatMap_cons, List.flatMap_nil, List.append_nil]
      rw [← List.append_assoc]
      simpa [f, hr, hc] using hA'
  · intro _ s hA
    rw [hlist]
    exact hA

/-- Duplicate triplets. -/
theorem wpP_dup {qs : List (Int × Int) → List (Int × Int)} (hq : QsortOk qs) (hk : A.kind = .triplet) (hz : 0 ≤ A.nz)
    (h : At s (listing A N)) :
    wpP (checkDupP E qs (deref A.i) (deref A.j) A.nz) s (fun _ s' => At s' (listing A N)) (Bad E A N) := by
  unfold checkDupP
  refine wpP_bind (wpP_mem h (List.prefix_refl _) ?_)
  refine wpP_bind ?_
  have hload : wp (forRange 0 A.nz [] fun t (work : List (Int × Int)) => do
      let c ← rd (deref A.j) t
      let r ← rd (deref A.i) t
      pure (work ++ [(c, r)]))
      (fun work => ∀ (k : ℕ) c r, work[k]? = some (c, r) → (k : ℤ) < A.nz ∧
        get (deref A.i) k = some r ∧ get (deref A.j) k = some c) (fun e => e = .ub) := by
    refine wp_post (wp_forRange (fun t (work : List (Int × Int)) => (work.length : ℤ) = t ∧
      ∀ (k : ℕ) c r, work[k]? = some (c, r) → (k : ℤ) < A.nz ∧
        get (deref A.i) k = some r ∧ get (deref A.j) k = some c) hz ⟨rfl, by simp⟩ ?_) fun w hw => hw.2
    rintro t work ht0 htn ⟨hl, hI⟩
    unfold rd
    cases hc : get (deref A.j) t with
    | none => exact rfl
    | some c =>
      rw [ok_bind]
      cases hr : get (deref A.i) t with
      | none => exact rfl
      | some r =>
        rw [ok_bind, wp_pure]
        refine ⟨by simp; omega, fun k c' r' hg => ?_⟩
        rw [List.getElem?_append] at hg
        split at hg
        · exact hI k c' r' hg
        · rename_i hlt
          have hkl : k = work.length := by
            by_contra hne
            rw [List.getElem?_eq_none (by simp; omega)] at hg
            cases hg
          subst hkl
          simp at hg
          obtain ⟨rfl, rfl⟩ := hg
          rw [hl]
          exact ⟨htn, hr, hc⟩
  unfold wpP Pm.lift
  cases hw : (forRange 0 A.nz [] fun t (work : List (Int × Int)) => do
      let c ← rd (deref A.j) t
      let r ← rd (deref A.i) t
      pure (work ++ [(c, r)])) with
  | error e =>
    rw [hw] at hload
    exact Or.inl hload
  | ok work =>
    rw [hw] at hload
    have hload : ∀ (k : ℕ) c r, work[k]? = some (c, r) → (k : ℤ) < A.nz ∧
        get (deref A.i) k = some r ∧ get (deref A.j) k = some c := hload
    show wpP _ s _ _
    refine wpP_forRange_const (fun _ s => At s (listing A N)) h ?_
    rintro t - s ht1 htn hA
    refine wpP_rd (Or.inl rfl) fun x hx => wpP_rd (Or.inl rfl) fun y hy => ?_
    by_cases hd : x.1 = y.1 ∧ x.2 = y.2
    · rw [if_pos hd]
      refine wpP_complain hA (.dup x.2 x.1) (List.prefix_refl _) (Or.inr ⟨hk, ?_⟩)
      have hxy : x = y := Prod.ext hd.1 hd.2
      subst hxy
      have hgl : ∀ (u : Int) (v : Int × Int), 0 ≤ u → get ((qs work).map some) u = some v →
          (qs work)[u.toNat]? = some v := by
        intro u v hu hg
        unfold get at hg
        rw [if_neg (by omega), List.getElem?_map] at hg
        cases hq : (qs work)[u.toNat]? with
        | none => rw [hq] at hg; cases hg
        | some z => rw [hq] at hg; simpa using hg
      have h1 := hgl t x (by omega) hx
      have h2 := hgl (t - 1) x (by omega) hy
      have hnd : ¬ (qs work).Nodup := by
        intro hnd
        rw [List.nodup_iff_getElem?_ne_getElem?] at hnd
        have hlt : t.toNat < (qs work).length := by
          by_contra hge
          rw [List.getElem?_eq_none (by omega)] at h1
          cases h1
        exact hnd (t - 1).toNat t.toNat (by omega) hlt (by rw [h1, h2])
      have hnd' : ¬ work.Nodup := fun h => hnd ((hq work).1.nodup_iff.2 h)
      -- the pair occurs twice in `qs work`, so it does in `work`
      have hcount : 2 ≤ (qs work).count x := by
        have hlt : t.toNat < (qs work).length := by
          by_contra hge
          rw [List.getElem?_eq_none (by omega)] at h1
          cases h1
        have : List.Sublist [x, x] (qs work) := by
          have e1 := (List.getElem?_eq_some_iff.1 h1).2
          have e2 := (List.getElem?_eq_some_iff.1 h2).2
          have hdrop : (qs work).drop (t - 1).toNat = x :: x :: (qs work).drop (t.toNat + 1) := by
            rw [List.drop_eq_getElem_cons (by omega), e2]
            congr 1
            rw [show (t - 1).toNat + 1 = t.toNat by omega, List.drop_eq_getElem_cons hlt, e1]
          have hs := List.drop_sublist (t - 1).toNat (qs work)
          rw [hdrop] at hs
          exact (List.Sublist.cons_cons x (List.Sublist.cons_cons x (List.nil_sublist _))).trans hs
        simpa using this.count_le x
      rw [(hq work).1.count_eq] at hcount
      have hsub : List.Sublist [x, x] work := by
        have := List.replicate_sublist_iff.2 hcount
        simpa using this
      obtain ⟨g, hg, hgm⟩ := List.sublist_iff_exists_orderEmbedding_getElem?_eq.1 hsub |>.imp fun g hg =>
        And.intro hg (g.strictMono (show (0 : ℕ) < 1 by omega))
      have q0 := hg 0
      have q1 := hg 1
      simp only [List.getElem?_cons_zero, List.getElem?_cons_succ] at q0 q1
      obtain ⟨b0, i0, j0⟩ := hload (g 0) x.1 x.2 q0.symm
      obtain ⟨b1, i1, j1⟩ := hload (g 1) x.1 x.2 q1.symm
      exact ⟨g 0, g 1, by omega, ⟨by omega, b0⟩, ⟨by omega, b1⟩, ⟨i0, j0⟩, i1, j1⟩
    · rw [if_neg hd]
      exact wpP_pure hA

/-- A dense matrix. -/
theorem wpP_dense (hE : ∀ k, E.asp k = .ok) (hk : A.kind = .dense) (hm : 0 ≤ A.m) (hn : 0 ≤ A.n)
    (h : At s ((listing A N).take 3)) :
    wpP (checkDenseP E A) s (fun _ s' => At s' (listing A N)) (Bad E A N) := by
  have hlist : listing A N = (listing A N).take 3 ++ (irange 0 A.n).flatMap (denseColumn A) := by
    unfold listing listBody
    rw [hk]
    rfl
  generalize hH : (listing A N).take 3 = H at h hlist
  unfold checkDenseP
  refine wpP_mono (wpP_forRange (fun j _ s => At s (H ++ (irange 0 j).flatMap (denseColumn A))) hn
    (by simpa [irange_empty] using h) ?_) ?_
  · rintro j - s hj0 hjn hA
    refine wpP_start hA fun s' hA' => ?_
    let f : Int → List Ev := fun i => entry A (.row i) (i + j * A.m)
    refine wpP_mono (wpP_forRange (fun i _ s =>
      At s (H ++ (irange 0 j).flatMap (denseColumn A) ++ [.column j] ++ (irange 0 i).flatMap f)) hm
      (by simpa [irange_empty] using hA') ?_) ?_
    · rintro i - s hi0 him hA
      refine wpP_entry hE hA fun s' hA' => ?_
      rw [irange_succ hi0, List.flatMap_append]
      simp only [List.flatMap_cons, List.flatMap_nil, List.append_nil]
      rw [← List.append_assoc]
      exact hA'
    · intro _ s hA
      rw [irange_succ hj0, List.flatMap_append]
      simp only [List.flatMap_cons, List.flatMap_nil, List.append_nil]
      simpa [denseColumn, f] using hA
  · intro _ s hA
    rw [hlist]
    exact hA

/-- The header. -/
theorem wpP_header (hE : ∀ k, E.asp k = .ok) {Q : Unit → Pr → Prop} {X : Fail → Pr → Prop} (h : At s [])
    (hQ : ∀ s', At s' ((listing A N).take 3) → Q () s') : wpP (showHeader E A N) s Q X := by
  have h3 := h.full
  unfold showHeader
  refine wpP_bind ?_
  unfold wpP
  rw [show pr2 (.header A.m A.n N A.nzmax A.kind A.type) s =
    (.ok (), { s with out := s.out ++ [.header A.m A.n N A.nzmax A.kind A.type] }) from if_pos (by omega)]
  dsimp only
  unfold showScale
  rw [if_pos (show s.pr ≥ 2 by omega), Pm.bind_run]
  rw [show pr2 .scaleIs { s with out := s.out ++ [.header A.m A.n N A.nzmax A.kind A.type] } =
    (.ok (), { s with out := s.out ++ [.header A.m A.n N A.nzmax A.kind A.type] ++ [.scaleIs] }) from
      if_pos (show s.pr ≥ 2 by omega)]
  dsimp only
  rw [format_run hE]
  rw [show ∀ o c, pr2 (.scale A.scale) { s with out := o, status := .ok, calls := c } =
    (.ok (), { s with out := o ++ [.scale A.scale], status := .ok, calls := c }) from
      fun o c => if_pos (show s.pr ≥ 2 by omega)]
  refine hQ _ ⟨h3, rfl, ?_⟩
  show s.out ++ _ ++ _ ++ _ = _
  rw [h.out]
  rfl

/-- The whole function at level 3 and above. -/
theorem wpP_body (hE : ∀ k, E.asp k = .ok) {qs : List (Int × Int) → List (Int × Int)} (hq : QsortOk qs)
    (hN : SLIP_matrix_nnz true (some A) = .ok N) (h : At s []) :
    wpP (checkBody E qs true (some A)) s (fun _ s' => At s' (listing A N)) (Bad E A N) := by
  have hnil : ([] : List Ev) <+: listing A N := List.nil_prefix
  have h3p : (listing A N).take 3 <+: listing A N := List.take_prefix _ _
  unfold checkBody
  simp only [Bool.not_true, Bool.false_eq_true, if_false]
  rw [hN]
  refine wpP_bind ?_
  unfold wpP Pm.lift
  dsimp only
  rw [← wpP]
  by_cases h0 : N < 0
  · rw [if_pos h0]; exact wpP_complain h .nz hnil h0
  rw [if_neg h0]
  by_cases h1 : A.m < 0
  · rw [if_pos h1]; exact wpP_complain h .m hnil h1
  rw [if_neg h1]
  by_cases h2 : A.n < 0
  · rw [if_pos h2]; exact wpP_complain h .n hnil h2
  rw [if_neg h2]
  by_cases h4 : A.nzmax < 0
  · rw [if_pos h4]; exact wpP_complain h .nzmax hnil h4
  rw [if_neg h4]
  by_cases h5 : (!A.type.good) = true
  · rw [if_pos h5]; exact wpP_complain h .type hnil (by simpa [Msg.says] using h5)
  rw [if_neg h5]
  refine wpP_bind (wpP_header hE h fun s hA => ?_)
  unfold checkKindP
  cases hk : A.kind with
  | csc =>
    dsimp only
    refine wpP_bind ?_
    have hp0 : wpP (Pm.lift (if A.nzmax > 0 ∧ A.p ≠ none then rd (deref A.p) 0 else pure 0)) s
        (fun p0 s' => s' = s ∧ (A.nzmax > 0 ∧ A.p ≠ none → get (deref A.p) 0 = some p0)) (Bad E A N) := by
      unfold wpP Pm.lift
      by_cases hc : A.nzmax > 0 ∧ A.p ≠ none
      · rw [if_pos hc]
        unfold rd
        cases hg : get (deref A.p) 0 with
        | none => exact Or.inl rfl
        | some v => exact ⟨rfl, fun _ => rfl⟩
      · rw [if_neg hc]
        exact ⟨rfl, fun h => absurd h hc⟩
    refine wpP_mono hp0 ?_
    rintro p0 s' ⟨rfl, hg⟩
    by_cases hc : A.nzmax > 0 ∧ (A.p = none ∨ p0 ≠ 0)
    · rw [if_pos hc]
      refine wpP_complain hA .p h3p ⟨hk, ?_⟩
      by_cases hn : A.p = none
      · exact Or.inl hn
      · rcases hc.2 with h | h
        · exact absurd h hn
        · exact Or.inr (Or.inl ⟨p0, hg ⟨hc.1, hn⟩, h⟩)
    rw [if_neg hc]
    refine wpP_bind (wpP_mono (wpP_ptr hk hA h3p (by omega)) ?_)
    rintro - s ⟨hA, hp⟩
    by_cases hc : A.nzmax > 0 ∧ (A.i = none ∨ A.x = none)
    · rw [if_pos hc]
      exact wpP_complain hA .ix h3p ⟨hk, hc.2⟩
    rw [if_neg hc]
    exact wpP_rows hE hk (by omega) hA hp
  | triplet =>
    dsimp only
    have hNz : N = A.nz := by
      unfold SLIP_matrix_nnz at hN
      simp only [Bool.not_true, Bool.false_eq_true, if_false, hk] at hN
      cases hN
      rfl
    by_cases hc : A.nzmax > 0 ∧ (A.i = none ∨ A.j = none ∨ A.x = none)
    · rw [if_pos hc]
      exact wpP_complain hA .ijx h3p ⟨hk, hc.2⟩
    rw [if_neg hc]
    rw [show N = A.nz from hNz] at hA ⊢
    refine wpP_bind (wpP_mono (wpP_triplets hE hk (by omega) hA) ?_)
    intro _ s hA
    exact wpP_dup hq hk (by omega) hA
  | dense =>
    dsimp only
    by_cases hc : A.nzmax > 0 ∧ A.x = none
    · rw [if_pos hc]
      exact wpP_complain hA .x h3p ⟨hk, hc.2⟩
    rw [if_neg hc]
    exact wpP_dense hE hk (by omega) (by omega) hA
  | bad v =>
    exfalso
    unfold SLIP_matrix_nnz at hN
    simp only [Bool.not_true, Bool.false_eq_true, if_false, hk] at hN
    cases hN
    omega

end

end Slip
