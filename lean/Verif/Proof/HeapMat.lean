import Verif.Proof.Heap

/-!
# Rules for statements, and for matrices
-/

namespace Slip.Mem

variable {α β σ : Type} {base : Addr → Option ℕ} {own rest : Multiset Addr} {n : ℕ}

/-- The statement `s` keeps account of the blocks `cells` of its variables: it starts with variables
that satisfy `I` and ends with variables that satisfy `K`, and also `J` if the status is OK; in this
case no request was refused, provided `P`. -/
def Tri (base : Addr → Option ℕ) (cells : σ → Multiset Addr) (P : Prop) (I K J : σ → Prop) (s : Step σ) :
    Prop :=
  ∀ w rest n, I w → Does base (cells w + rest) n (s w) (fun a own' n' =>
    own' = cells a.2 + rest ∧ K a.2 ∧ (a.1 = .ok → J a.2 ∧ (P → n' = n)))

section
variable {cells : σ → Multiset Addr} {P : Prop} {I K J I' J' L : σ → Prop} {s t : Step σ}

theorem Tri.mono {P' : Prop} {K' : σ → Prop} (h : Tri base cells P I K J s) (h1 : ∀ w, I' w → I w)
    (h2 : ∀ w, K w → K' w) (h3 : ∀ w, J w → J' w) (hP : P' → P) : Tri base cells P' I' K' J' s := by
  intro w rest n hw
  refine (h w rest n (h1 w hw)).mono fun a own' n' ⟨e, hK, hJ⟩ => ⟨e, h2 _ hK, fun hr => ?_⟩
  exact ⟨h3 _ (hJ hr).1, fun hp => (hJ hr).2 (hP hp)⟩

theorem Tri.skip (h : ∀ w, I w → K w ∧ J w) : Tri base cells P I K J (fun w => pure (.ok, w)) :=
  fun w _ _ hw => Does.pure ⟨rfl, (h w hw).1, fun _ => ⟨(h w hw).2, fun _ => rfl⟩⟩

theorem Tri.nil (h : ∀ w, I w → K w ∧ J w) : Tri base cells P I K J (seq []) := Tri.skip h

theorem Tri.cons {l : List (Step σ)} (h : Tri base cells P I K L s) (hl : Tri base cells P L K J (seq l)) :
    Tri base cells P I K J (seq (s :: l)) := by
  intro w rest n hw
  unfold seq
  refine (h w rest n hw).bind ?_
  rintro ⟨r, w'⟩ own' n' ⟨e, hK, hJ⟩
  dsimp only at *
  split
  · rename_i hr
    rw [e]
    refine (hl w' rest n' (hJ hr).1).mono ?_
    rintro ⟨r2, w2⟩ own2 n2 ⟨e2, hK2, hJ2⟩
    refine ⟨e2, hK2, fun hr2 => ⟨(hJ2 hr2).1, fun hp => ?_⟩⟩
    rw [(hJ2 hr2).2 hp, (hJ hr).2 hp]
  · rename_i hr
    exact Does.pure ⟨e, hK, fun h => absurd h hr⟩

/-- A sequence of statements with an invariant for each place. -/
theorem Tri.stages {Inv : ℕ → σ → Prop} (l : List (Step σ)) : ∀ (i : ℕ),
    (∀ w, Inv (i + l.length) w → K w) →
    (∀ j (hj : j < l.length), Tri base cells P (Inv (i + j)) K (Inv (i + j + 1)) l[j]) →
    Tri base cells P (Inv i) K (Inv (i + l.length)) (seq l) := by
  induction l with
  | nil => exact fun i hK _ => Tri.nil fun w hw => ⟨hK w hw, hw⟩
  | cons s l ih =>
    intro i hK h
    refine Tri.cons (L := Inv (i + 1)) (h 0 (Nat.zero_lt_succ _)) ?_
    have e : i + (s :: l).length = i + 1 + l.length := by rw [List.length_cons]; omega
    rw [e] at hK ⊢
    refine ih (i + 1) hK fun j hj => ?_
    have := h (j + 1) (Nat.succ_lt_succ hj)
    rw [List.getElem_cons_succ] at this
    rw [show i + 1 + j = i + (j + 1) by omega]
    exact this

theorem Tri.forFrom {Inv : ℕ → σ → Prop} {s : ℕ → Step σ} (c : ℕ) : ∀ (lo : ℕ),
    (∀ w, Inv (lo + c) w → K w) →
    (∀ i, lo ≤ i → i < lo + c → Tri base cells P (Inv i) K (Inv (i + 1)) (s i)) →
    Tri base cells P (Inv lo) K (Inv (lo + c)) (forFrom c lo s) := by
  induction c with
  | zero => exact fun lo hK _ => Tri.skip fun w hw => ⟨hK w hw, hw⟩
  | succ c ih =>
    intro lo hK h w rest n hw
    unfold Mem.forFrom
    refine (h lo le_rfl (by omega) w rest n hw).bind ?_
    rintro ⟨r, w'⟩ own' n' ⟨e, hK', hJ⟩
    dsimp only at *
    split
    · rename_i hr
      rw [e]
      have h2 := ih (lo + 1) (by rw [show lo + 1 + c = lo + (c + 1) by omega]; exact hK)
        (fun i h1 h2 => h i (by omega) (by omega)) w' rest n' (hJ hr).1
      rw [show lo + 1 + c = lo + (c + 1) by omega] at h2
      refine h2.mono ?_
      rintro ⟨r2, w2⟩ own2 n2 ⟨e2, hK2, hJ2⟩
      refine ⟨e2, hK2, fun hr2 => ⟨(hJ2 hr2).1, fun hp => ?_⟩⟩
      rw [(hJ2 hr2).2 hp, (hJ hr).2 hp]
    · rename_i hr
      exact Does.pure ⟨e, hK', fun h => absurd h hr⟩

theorem Tri.forN {Inv : ℕ → σ → Prop} {s : ℕ → Step σ} {c : ℕ} (hK : ∀ w, Inv c w → K w)
    (h : ∀ i, i < c → Tri base cells P (Inv i) K (Inv (i + 1)) (s i)) :
    Tri base cells P (Inv 0) K (Inv c) (forN c s) := by
  have := Tri.forFrom (base := base) (cells := cells) (P := P) (K := K) (Inv := Inv) (s := s) c 0
    (by rw [Nat.zero_add]; exact hK) (fun i _ h2 => h i (by omega))
  rw [Nat.zero_add] at this
  exact this

/-- A loop with an invariant. -/
theorem Tri.loop {s : ℕ → Step σ} {c : ℕ} (hK : ∀ w, I w → K w)
    (h : ∀ i, i < c → Tri base cells P I K I (s i)) : Tri base cells P I K I (Mem.forN c s) :=
  Tri.forN (Inv := fun _ => I) hK h

theorem Tri.choose {f : ℕ → Step σ} (h : ∀ c, Tri base cells P I K J (f c)) :
    Tri base cells P I K J (fun w => Mem.choose >>= fun c => f c w) := by
  intro w rest n hw
  refine does_choose.bind ?_
  rintro c own' n' ⟨rfl, rfl⟩
  exact h c w rest n' hw

theorem Tri.anyTimes (hK : ∀ w, I w → K w) (h : Tri base cells P I K I s) :
    Tri base cells P I K I (anyTimes s) :=
  Tri.choose (f := fun c => Mem.forN c fun _ => s) fun _ => Tri.loop hK fun _ _ => h

theorem Tri.ite {c : Prop} [Decidable c] (h1 : c → Tri base cells P I K J s)
    (h2 : ¬ c → Tri base cells P I K J t) : Tri base cells P I K J (fun w => if c then s w else t w) := by
  by_cases hc : c
  · simpa only [if_pos hc] using h1 hc
  · simpa only [if_neg hc] using h2 hc

theorem Tri.either (h1 : Tri base cells P I K J s) (h2 : Tri base cells P I K J t) :
    Tri base cells P I K J (either s t) :=
  Tri.choose (f := fun c w => if c = 0 then s w else t w) fun c => Tri.ite (fun _ => h1) fun _ => h2

theorem Tri.maybe (h : Tri base cells P I K J s) (hs : ∀ w, I w → K w ∧ J w) :
    Tri base cells P I K J (maybe s) :=
  Tri.choose (f := fun c w => if c = 0 then pure (.ok, w) else s w) fun c =>
    Tri.ite (fun _ => Tri.skip hs) fun _ => h

theorem Tri.when {c : σ → Bool} (h : Tri base cells P (fun w => I w ∧ c w = true) K J s)
    (hs : ∀ w, I w → c w = false → K w ∧ J w) : Tri base cells P I K J (when c s) := by
  intro w rest n hw
  unfold Mem.when
  cases hc : c w with
  | true => exact h w rest n ⟨hw, hc⟩
  | false => exact Does.pure ⟨rfl, (hs w hw hc).1, fun _ => ⟨(hs w hw hc).2, fun _ => rfl⟩⟩

theorem Tri.unchecked (hP : ¬ P) (h : Tri base cells False I K J s) (hK : ∀ w, K w → J' w) :
    Tri base cells P I K J' (unchecked s) := by
  intro w rest n hw
  refine (h w rest n hw).bind ?_
  rintro ⟨r, w'⟩ own' n' ⟨e, hK', hJ⟩
  exact Does.pure ⟨e, hK', fun _ => ⟨hK _ hK', fun hp => absurd hp hP⟩⟩

theorem Tri.query (h : ∀ w, I w → K w ∧ J w) : Tri base cells P I K J query := by
  intro w rest n hw
  refine does_query.mono ?_
  rintro ⟨r, w'⟩ own' n' ⟨e, e2, h3⟩
  dsimp only at *
  subst e2
  exact ⟨e, (h w' hw).1, fun hr => ⟨(h w' hw).2, fun _ => h3 hr⟩⟩

/-- A function that keeps account. -/
def Neutral (base : Addr → Option ℕ) (P : Prop) (f : M Info) : Prop :=
  ∀ own n, Does base own n f (fun r own' n' => own' = own ∧ (r = .ok → P → n' = n))

theorem Tri.just {f : M Info} (hf : Neutral base P f) (h : ∀ w, I w → K w ∧ J w) :
    Tri base cells P I K J (just f) := by
  intro w rest n hw
  refine (hf _ n).bind ?_
  rintro r own' n' ⟨e, hr⟩
  exact Does.pure ⟨e, (h w hw).1, fun h1 => ⟨(h w hw).2, hr h1⟩⟩

/-- A statement on one of the variables; `a0` is a value without blocks. -/
theorem Tri.on {ca : α → Multiset Addr} {get : σ → α} {set : σ → α → σ} {s : Step α} {Ia Ka Ja : α → Prop}
    (a0 : α) (hc : ∀ w a, cells (set w a) = ca a + cells (set w a0)) (hid : ∀ w, set w (get w) = w)
    (hs : Tri base ca P Ia Ka Ja s) (h1 : ∀ w, I w → Ia (get w))
    (hK : ∀ w a, I w → Ka a → K (set w a)) (hJ : ∀ w a, I w → Ka a → Ja a → J (set w a)) :
    Tri base cells P I K J (on get set s) := by
  intro w rest n hw
  have e : cells w + rest = ca (get w) + (cells (set w a0) + rest) := by
    conv_lhs => rw [← hid w, hc]
    rw [add_assoc]
  rw [e]
  refine (hs (get w) _ n (h1 w hw)).bind ?_
  rintro ⟨r, a⟩ own' n' ⟨e, hK', hJ'⟩
  refine Does.pure ⟨?_, hK w a hw hK', fun hr => ⟨hJ w a hw hK' (hJ' hr).1, (hJ' hr).2⟩⟩
  dsimp only
  rw [e, hc w a, add_assoc]

end

/-! ## Objects -/

theorem Tri.call {P : Prop} {w : ℕ} : Tri base blks P (fun x => x.length = w) (fun x => x.length = w)
    (fun x => x.length = w) call := by
  intro x rest n hx
  refine (does_call rfl).mono ?_
  rintro ⟨r, x'⟩ own' n' ⟨e, hl, hr⟩
  exact ⟨e, hl.trans hx, fun h => ⟨hl.trans hx, fun _ => hr h⟩⟩

theorem Tri.init {P : Prop} {w : ℕ} : Tri base blks P (fun x => x.length = w ∧ blks x = 0)
    (fun x => x.length = w) (fun x => x.length = w) init := by
  rintro x rest n ⟨hx, h0⟩
  rw [h0, zero_add]
  refine does_init.mono ?_
  rintro ⟨r, x'⟩ own' n' ⟨e, hl, hr, _⟩
  exact ⟨e, hl.trans hx, fun h => ⟨hl.trans hx, fun _ => hr h⟩⟩

/-! ## Arrays -/

theorem arrBlks_set {xs : List Obj} {i : ℕ} {o : Obj} (h : xs[i]? = some o) (o' : Obj) :
    arrBlks (xs.set i o') + blks o = arrBlks xs + blks o' := by
  induction xs generalizing i with
  | nil => cases h
  | cons a xs ih =>
    cases i with
    | zero =>
      rw [List.getElem?_cons_zero] at h
      cases h
      rw [List.set_cons_zero, arrBlks_cons, arrBlks_cons]
      abel
    | succ i =>
      rw [List.getElem?_cons_succ] at h
      rw [List.set_cons_succ, arrBlks_cons, arrBlks_cons, add_assoc, ih h, add_assoc]

theorem arrBlks_split {xs : List Obj} {i : ℕ} {o : Obj} (h : xs[i]? = some o) :
    ∃ fr, arrBlks xs = blks o + fr ∧ ∀ o', arrBlks (xs.set i o') = blks o' + fr := by
  refine ⟨arrBlks (xs.set i []), ?_, fun o' => ?_⟩
  · have := arrBlks_set h []
    rw [blks_nil, add_zero] at this
    rw [← this, add_comm]
  · have h1 := arrBlks_set h []
    have h2 := arrBlks_set h o'
    rw [blks_nil, add_zero] at h1
    rw [← h1] at h2
    have h3 : arrBlks (xs.set i o') + blks o = (blks o' + arrBlks (xs.set i [])) + blks o := by
      rw [h2]; abel
    exact add_right_cancel h3

theorem arrBlks_append (xs ys : List Obj) : arrBlks (xs ++ ys) = arrBlks xs + arrBlks ys := by
  unfold arrBlks; simp

theorem arrBlks_nulls (c w : ℕ) : arrBlks (List.replicate c (nulls w)) = 0 := by
  induction c with
  | zero => rfl
  | succ c ih => rw [List.replicate_succ, arrBlks_cons, blks_nulls, ih, add_zero]

/-- All entries from `k` on have no blocks. -/
def BlankFrom (k : ℕ) (xs : List Obj) : Prop := ∀ j o, k ≤ j → xs[j]? = some o → blks o = 0

theorem arrBlks_blank {xs : List Obj} (h : BlankFrom 0 xs) : arrBlks xs = 0 := by
  induction xs with
  | nil => rfl
  | cons o xs ih =>
    rw [arrBlks_cons, h 0 o le_rfl rfl, zero_add]
    exact ih fun j o' _ ho => h (j + 1) o' (Nat.zero_le _) (by rw [List.getElem?_cons_succ]; exact ho)

theorem BlankFrom.mono {k k' : ℕ} {xs : List Obj} (h : BlankFrom k xs) (hk : k ≤ k') : BlankFrom k' xs :=
  fun j o hj => h j o (hk.trans hj)

theorem BlankFrom.set {k i : ℕ} {xs : List Obj} (h : BlankFrom k xs) (hi : i < k) (o : Obj) :
    BlankFrom k (xs.set i o) := by
  intro j o' hj ho
  rw [List.getElem?_set_ne (by omega)] at ho
  exact h j o' hj ho

theorem blankFrom_nulls (k c w : ℕ) : BlankFrom k (List.replicate c (nulls w)) := by
  intro j o _ ho
  have := List.eq_of_mem_replicate (List.mem_of_getElem? ho)
  rw [this, blks_nulls]

theorem BlankFrom.append {k : ℕ} {xs ys : List Obj} (h1 : BlankFrom k xs) (h2 : BlankFrom 0 ys) :
    BlankFrom k (xs ++ ys) := by
  intro j o hj ho
  by_cases hl : j < xs.length
  · rw [List.getElem?_append_left hl] at ho
    exact h1 j o hj ho
  · rw [List.getElem?_append_right (by omega)] at ho
    exact h2 _ o (Nat.zero_le _) ho

theorem BlankFrom.drop {k : ℕ} {xs : List Obj} (h : BlankFrom k xs) : BlankFrom 0 (xs.drop k) := by
  intro j o _ ho
  rw [List.getElem?_drop] at ho
  exact h _ o (by omega) ho

theorem arrBlks_take {k : ℕ} {xs : List Obj} (h : BlankFrom k xs) : arrBlks (xs.take k) = arrBlks xs := by
  conv_rhs => rw [← List.take_append_drop k xs, arrBlks_append, arrBlks_blank h.drop, add_zero]

/-- All entries have `w` pointers. -/
def Wide (w : ℕ) (xs : List Obj) : Prop := ∀ o ∈ xs, o.length = w

theorem Wide.set {w i : ℕ} {xs : List Obj} {o : Obj} (h : Wide w xs) (ho : o.length = w) :
    Wide w (xs.set i o) := by
  intro o' h'
  rcases List.mem_or_eq_of_mem_set h' with h1 | rfl
  · exact h o' h1
  · exact ho

theorem wide_nulls (c w : ℕ) : Wide w (List.replicate c (nulls w)) := by
  intro o ho
  rw [List.eq_of_mem_replicate ho, nulls, List.length_replicate]

/-- A statement on an entry of an array. -/
theorem Tri.item {P : Prop} {N i : ℕ} {s : Step Obj} {Ia Ka Ja : Obj → Prop} {I K J : List Obj → Prop}
    (hs : Tri base blks P Ia Ka Ja s)
    (h1 : ∀ xs, I xs → ∃ o, xs[i]? = some o ∧ Ia o)
    (hK : ∀ xs o, I xs → Ka o → K (xs.set i o)) (hJ : ∀ xs o, I xs → Ka o → Ja o → J (xs.set i o)) :
    Tri base arrBlks P I K J (item i s) := by
  intro xs rest n hx
  obtain ⟨o, ho, hI⟩ := h1 xs hx
  obtain ⟨fr, e1, e2⟩ := arrBlks_split ho
  unfold Mem.item
  rw [ho]
  dsimp only
  rw [e1, add_assoc]
  refine (hs o _ n hI).bind ?_
  rintro ⟨r, o'⟩ own' n' ⟨e, hK', hJ'⟩
  refine Does.pure ⟨?_, hK xs o' hx hK', fun hr => ⟨hJ xs o' hx hK' (hJ' hr).1, (hJ' hr).2⟩⟩
  dsimp only
  rw [e, e2, add_assoc]

end Slip.Mem
