import Verif.Model.Store

/-!
# Simulation of the value model by the heap model: rules
-/

namespace Slip.Store

theorem Frame.refl (h : Heap) : Frame h h := ⟨fun _ _ => rfl, fun _ _ => rfl, le_rfl, le_rfl⟩

theorem Frame.trans {a b c : Heap} (h : Frame a b) (g : Frame b c) : Frame a c :=
  ⟨fun r hr => (g.1 r (lt_of_lt_of_le hr h.2.2.1)).trans (h.1 r hr),
   fun r hr => (g.2.1 r (lt_of_lt_of_le hr h.2.2.2)).trans (h.2.1 r hr),
   h.2.2.1.trans g.2.2.1, h.2.2.2.trans g.2.2.2⟩

variable {α β γ δ σ τ : Type} {h0 h : Heap}

/-- Started in `h`, the heap computation `mH` does what the value computation `m` does: it returns
`(R a).1` in the heap `(R a).2` when `m` returns `a`, and it fails as `m` does, with the arrays of `h0`
unchanged. -/
def Sim (h0 h : Heap) (mH : H β) (m : C α) (R : α → β × Heap) : Prop :=
  match m with
  | .ok a => mH h = (.ok (R a).1, (R a).2)
  | .error e => ∃ h', mH h = (.error e, h') ∧ Frame h0 h'

theorem Sim.pure {a : α} {b : β} {R : α → β × Heap} (e : R a = (b, h)) :
    Sim h0 h (pure b : H β) (pure a : C α) R := by
  show (Except.ok b, h) = _
  rw [e]

theorem Sim.ok {a : α} {b : β} {R : α → β × Heap} (e : R a = (b, h)) :
    Sim h0 h (Pure.pure b : H β) (.ok a : C α) R := Sim.pure e

/-- Sequencing, with what is known of the result of the value computation. -/
theorem Sim.bindW {mH : H β} {m : C α} {R : α → β × Heap} {fH : β → H δ} {f : α → C γ}
    {R' : γ → δ × Heap} (h1 : Sim h0 h mH m R)
    (h2 : ∀ a, m = .ok a → Sim h0 (R a).2 (fH (R a).1) (f a) R') :
    Sim h0 h (mH >>= fH) (m >>= f) R' := by
  cases m with
  | error e =>
    obtain ⟨h', e1, e2⟩ := h1
    refine ⟨h', ?_, e2⟩
    show (match mH h with | (.ok a, h) => fH a h | (.error e, h) => (.error e, h)) = _
    rw [e1]
  | ok a =>
    have h1 : mH h = (.ok (R a).1, (R a).2) := h1
    have h3 := h2 a rfl
    have e : (mH >>= fH) h = fH (R a).1 (R a).2 := by
      show (match mH h with | (.ok a, h) => fH a h | (.error e, h) => (.error e, h)) = _
      rw [h1]
    unfold Sim at h3 ⊢
    rw [e]
    exact h3

theorem Sim.bind {mH : H β} {m : C α} {R : α → β × Heap} {fH : β → H δ} {f : α → C γ}
    {R' : γ → δ × Heap} (h1 : Sim h0 h mH m R)
    (h2 : ∀ a, Sim h0 (R a).2 (fH (R a).1) (f a) R') : Sim h0 h (mH >>= fH) (m >>= f) R' :=
  Sim.bindW h1 fun a _ => h2 a

/-- The heap computation with a continuation that only repackages the result. -/
theorem Sim.bindPure {mH : H β} {m : C α} {R : α → β × Heap} {f : α → C γ} {R' : γ → β × Heap}
    (h1 : Sim h0 h mH m R) (h2 : ∀ a, Sim h0 (R a).2 (Pure.pure (R a).1) (f a) R') :
    Sim h0 h mH (m >>= f) R' := by
  have := Sim.bind h1 (fH := fun b => Pure.pure b) h2
  have e : (mH >>= fun b => (Pure.pure b : H β)) = mH := by
    funext g
    show (match mH g with
      | (Except.ok a, h) => (Except.ok a, h)
      | (Except.error e, h) => (Except.error e, h)) = _
    rcases mH g with ⟨_ | _, _⟩ <;> rfl
  rwa [e] at this

/-- The value computation followed by heap steps that it does not have. -/
theorem Sim.then {mH : H β} {m : C α} {R : α → β × Heap} {fH : β → H δ} {R' : α → δ × Heap}
    (h1 : Sim h0 h mH m R)
    (h2 : ∀ a, m = .ok a → fH (R a).1 (R a).2 = (.ok (R' a).1, (R' a).2)) :
    Sim h0 h (mH >>= fH) m R' := by
  have := Sim.bindW (f := fun a => (.ok a : C α)) (fH := fH) (R' := R') h1 fun a e => h2 a e
  have e : (m >>= fun a => (.ok a : C α)) = m := by cases m <;> rfl
  rwa [e] at this

/-- The value computation with no continuation. -/
theorem Sim.last {mH : H β} {m : C α} {R R' : α → β × Heap}
    (h1 : Sim h0 h mH m R) (h2 : ∀ a, R a = R' a) : Sim h0 h mH m R' := by
  have : R = R' := funext h2
  rwa [← this]

theorem Sim.error {e : Fail} {R : α → β × Heap} (hF : Frame h0 h) :
    Sim h0 h (lift (.error e) : H β) (.error e : C α) R := ⟨h, rfl, hF⟩

theorem Sim.lift' {m : C α} (hF : Frame h0 h) : Sim h0 h (lift m) m fun a => (a, h) := by
  cases m with
  | ok a => rfl
  | error e => exact ⟨h, rfl, hF⟩

theorem Sim.lift {m : C α} {fH : α → H δ} {f : α → C γ} {R : γ → δ × Heap} (hF : Frame h0 h)
    (h2 : ∀ a, Sim h0 h (fH a) (f a) R) : Sim h0 h (lift m >>= fH) (m >>= f) R :=
  Sim.bind (Sim.lift' hF) h2

theorem Sim.rd' {r : Ref} {i : Int} {a : Arr Int} (e : h.z r = a) (hF : Frame h0 h) :
    Sim h0 h (rdH r i) (rd a i) fun v => (v, h) := by
  subst e; exact Sim.lift' (m := rd (h.z r) i) hF

theorem Sim.rd {r : Ref} {i : Int} {a : Arr Int} {fH : Int → H δ} {f : Int → C γ}
    {R : γ → δ × Heap} (e : h.z r = a) (hF : Frame h0 h)
    (h2 : ∀ v, Sim h0 h (fH v) (f v) R) : Sim h0 h (rdH r i >>= fH) (rd a i >>= f) R :=
  Sim.bind (Sim.rd' e hF) h2

theorem Sim.rdq {r : Ref} {i : Int} {a : Arr ℚ} {fH : ℚ → H δ} {f : ℚ → C γ}
    {R : γ → δ × Heap} (e : h.q r = a) (hF : Frame h0 h)
    (h2 : ∀ v, Sim h0 h (fH v) (f v) R) : Sim h0 h (rdqH r i >>= fH) (Slip.rd a i >>= f) R := by
  subst e; exact Sim.bind (Sim.lift' (m := Slip.rd (h.q r) i) hF) h2

theorem Sim.mod' {r : Ref} {g : Arr Int → C (Arr Int)} {a : Arr Int} (e : h.z r = a)
    (hF : Frame h0 h) : Sim h0 h (modH r g) (g a) fun a' => ((), h.put r a') := by
  subst e
  unfold Sim
  cases e1 : g (h.z r) with
  | ok a' => show modH r g h = _; unfold modH; rw [e1]
  | error e => exact ⟨h, by unfold modH; rw [e1], hF⟩

theorem Sim.modq' {r : Ref} {g : Arr ℚ → C (Arr ℚ)} {a : Arr ℚ} (e : h.q r = a)
    (hF : Frame h0 h) : Sim h0 h (modqH r g) (g a) fun a' => ((), h.putq r a') := by
  subst e
  unfold Sim
  cases e1 : g (h.q r) with
  | ok a' => show modqH r g h = _; unfold modqH; rw [e1]
  | error e => exact ⟨h, by unfold modqH; rw [e1], hF⟩

/-- Array `r` is the component `a` of the heap `E a`. -/
structure Slot (h0 : Heap) (E : Arr Int → Heap) (r : Ref) : Prop where
  get : ∀ a, (E a).z r = a
  put : ∀ a b, (E a).put r b = E b
  fr : ∀ a, Frame h0 (E a)

/-- Array `r` of rationals is the component `a` of the heap `E a`. -/
structure Slotq (h0 : Heap) (E : Arr ℚ → Heap) (r : Ref) : Prop where
  get : ∀ a, (E a).q r = a
  put : ∀ a b, (E a).putq r b = E b
  fr : ∀ a, Frame h0 (E a)

theorem Sim.modE {E : Arr Int → Heap} {r : Ref} {g : Arr Int → C (Arr Int)} {a : Arr Int}
    (s : Slot h0 E r) : Sim h0 (E a) (modH r g) (g a) fun a' => ((), E a') :=
  (Sim.mod' (s.get a) (s.fr a)).last fun b => by rw [s.put]

theorem Sim.mod {E : Arr Int → Heap} {r : Ref} {g : Arr Int → C (Arr Int)} {a : Arr Int}
    {fH : Unit → H δ} {f : Arr Int → C γ} {R : γ → δ × Heap} (s : Slot h0 E r)
    (h2 : ∀ a', Sim h0 (E a') (fH ()) (f a') R) : Sim h0 (E a) (modH r g >>= fH) (g a >>= f) R :=
  Sim.bind (Sim.modE s) h2

theorem Sim.wr {E : Arr Int → Heap} {r : Ref} {i v : Int} {a : Arr Int}
    {fH : Unit → H δ} {f : Arr Int → C γ} {R : γ → δ × Heap} (s : Slot h0 E r)
    (h2 : ∀ a', Sim h0 (E a') (fH ()) (f a') R) :
    Sim h0 (E a) (wrH r i v >>= fH) (Slip.wr a i v >>= f) R := Sim.mod (g := fun a => Slip.wr a i v) s h2

theorem Sim.zset {E : Arr Int → Heap} {r : Ref} {i v : Int} {a : Arr Int}
    {fH : Unit → H δ} {f : Arr Int → C γ} {R : γ → δ × Heap} (s : Slot h0 E r)
    (h2 : ∀ a', Sim h0 (E a') (fH ()) (f a') R) :
    Sim h0 (E a) (zsetH r i v >>= fH) (Slip.zset a i v >>= f) R :=
  Sim.mod (g := fun a => Slip.zset a i v) s h2

theorem Sim.zinit {E : Arr Int → Heap} {r : Ref} {i : Int} {a : Arr Int}
    {fH : Unit → H δ} {f : Arr Int → C γ} {R : γ → δ × Heap} (s : Slot h0 E r)
    (h2 : ∀ a', Sim h0 (E a') (fH ()) (f a') R) :
    Sim h0 (E a) (zinitH r i >>= fH) (Slip.zinit a i >>= f) R :=
  Sim.mod (g := fun a => Slip.zinit a i) s h2

theorem Sim.zsetq {E : Arr ℚ → Heap} {r : Ref} {i : Int} {v : ℚ} {a : Arr ℚ}
    {fH : Unit → H δ} {f : Arr ℚ → C γ} {R : γ → δ × Heap} (s : Slotq h0 E r)
    (h2 : ∀ a', Sim h0 (E a') (fH ()) (f a') R) :
    Sim h0 (E a) (zsetqH r i v >>= fH) (Slip.zset a i v >>= f) R :=
  Sim.bind ((Sim.modq' (g := fun a => Slip.zset a i v) (s.get a) (s.fr a)).last
    (R' := fun a' => ((), E a')) fun b => by rw [s.put]) h2

theorem Sim.zsetqE {E : Arr ℚ → Heap} {r : Ref} {i : Int} {v : ℚ} {a : Arr ℚ} (s : Slotq h0 E r) :
    Sim h0 (E a) (zsetqH r i v) (Slip.zset a i v) fun a' => ((), E a') :=
  (Sim.modq' (g := fun a => Slip.zset a i v) (s.get a) (s.fr a)).last fun b => by rw [s.put]

theorem Sim.ite {c : Prop} [Decidable c] {mH nH : H β} {m n : C α} {R : α → β × Heap}
    (h1 : c → Sim h0 h mH m R) (h2 : ¬c → Sim h0 h nH n R) :
    Sim h0 h (if c then mH else nH) (if c then m else n) R := by
  by_cases hc : c
  · rw [if_pos hc, if_pos hc]; exact h1 hc
  · rw [if_neg hc, if_neg hc]; exact h2 hc

theorem Sim.forCnt {f : Int → σ → C σ} {fH : Int → τ → H τ} {R : σ → τ × Heap}
    (hs : ∀ i s, Sim h0 (R s).2 (fH i (R s).1) (f i s) R) :
    ∀ (m : Nat) (lo : Int) (s : σ),
      Sim h0 (R s).2 (forCntH m lo (R s).1 fH) (Slip.forCnt m lo s f) R
  | 0, _, _ => Sim.ok rfl
  | m + 1, lo, s => by
    unfold forCntH Slip.forCnt
    exact Sim.bind (hs lo s) fun a => Sim.forCnt hs m (lo + 1) a

theorem Sim.forDownCnt {f : Int → σ → C σ} {fH : Int → τ → H τ} {R : σ → τ × Heap}
    (hs : ∀ i s, Sim h0 (R s).2 (fH i (R s).1) (f i s) R) :
    ∀ (m : Nat) (lo : Int) (s : σ),
      Sim h0 (R s).2 (forDownCntH m lo (R s).1 fH) (Slip.forDownCnt m lo s f) R
  | 0, _, _ => Sim.ok rfl
  | m + 1, lo, s => by
    unfold forDownCntH Slip.forDownCnt
    exact Sim.bind (hs (lo + m) s) fun a => Sim.forDownCnt hs m lo a

/-- The rule for loops: `R` maps the state of the value loop to the scalars and the heap. -/
theorem Sim.for' {f : Int → σ → C σ} {fH : Int → τ → H τ} (R : σ → τ × Heap) {lo hi : Int} {s : σ}
    {t : τ} (e : (t, h) = R s) (hs : ∀ i s, Sim h0 (R s).2 (fH i (R s).1) (f i s) R) :
    Sim h0 h (forH lo hi t fH) (forRange lo hi s f) R := by
  have := Sim.forCnt hs (hi - lo).toNat lo s
  rw [← e] at this
  exact this

theorem Sim.forDown' {f : Int → σ → C σ} {fH : Int → τ → H τ} (R : σ → τ × Heap) {lo hi : Int}
    {s : σ} {t : τ} (e : (t, h) = R s) (hs : ∀ i s, Sim h0 (R s).2 (fH i (R s).1) (f i s) R) :
    Sim h0 h (forDownH lo hi t fH) (forDown lo hi s f) R := by
  have := Sim.forDownCnt hs (hi - lo).toNat lo s
  rw [← e] at this
  exact this

theorem bind_run {mH : H β} {fH : β → H δ} {b : β} {h' : Heap} (e : mH h = (.ok b, h')) :
    (mH >>= fH) h = fH b h' := by
  show (match mH h with | (.ok a, h) => fH a h | (.error e, h) => (.error e, h)) = _
  rw [e]

/-- A heap step that the value model does not make. -/
theorem Sim.step {mH : H β} {fH : β → H δ} {m : C γ} {R : γ → δ × Heap} {b : β} {h' : Heap}
    (e : mH h = (.ok b, h')) (h2 : Sim h0 h' (fH b) m R) : Sim h0 h (mH >>= fH) m R := by
  have e : (mH >>= fH) h = fH b h' := by
    show (match mH h with | (.ok a, h) => fH a h | (.error e, h) => (.error e, h)) = _
    rw [e]
  unfold Sim at h2 ⊢
  rw [e]; exact h2

/-! ## Extensions of a heap -/

/-- The heap `h0` after the allocation of the arrays `l` and `lq`. -/
def ext (h0 : Heap) (l : List (Arr Int)) (lq : List (Arr ℚ)) : Heap where
  z r := if h0.nz ≤ r then (l[r - h0.nz]?).getD (h0.z r) else h0.z r
  q r := if h0.nq ≤ r then (lq[r - h0.nq]?).getD (h0.q r) else h0.q r
  nz := h0.nz + l.length
  nq := h0.nq + lq.length

theorem ext_nil (h0 : Heap) : ext h0 [] [] = h0 := by
  cases h0
  unfold ext
  simp

theorem ext_frame (h0 : Heap) (l lq) : Frame h0 (ext h0 l lq) :=
  ⟨fun r hr => if_neg (by omega), fun r hr => if_neg (by omega), Nat.le_add_right .., Nat.le_add_right ..⟩

theorem ext_old {l lq} {r : Ref} (hr : r < h0.nz) : (ext h0 l lq).z r = h0.z r := if_neg (by omega)

theorem ext_z {l lq} {j : ℕ} {a : Arr Int} (e : l[j]? = some a) : (ext h0 l lq).z (h0.nz + j) = a := by
  show (if _ then _ else _) = _
  rw [if_pos (by omega), Nat.add_sub_cancel_left, e]; rfl

theorem ext_q {l lq} {j : ℕ} {a : Arr ℚ} (e : lq[j]? = some a) : (ext h0 l lq).q (h0.nq + j) = a := by
  show (if _ then _ else _) = _
  rw [if_pos (by omega), Nat.add_sub_cancel_left, e]; rfl

theorem ext_put {l lq} {j : ℕ} {a : Arr Int} (hj : j < l.length) :
    (ext h0 l lq).put (h0.nz + j) a = ext h0 (l.set j a) lq := by
  unfold Heap.put ext
  congr 1
  · funext s
    by_cases hs : s = h0.nz + j
    · subst hs
      simp [hj]
    · by_cases hs' : h0.nz ≤ s
      · have : j ≠ s - h0.nz := by omega
        simp [hs, hs', List.getElem?_set, this]
      · simp [hs, hs']
  · simp

theorem ext_putq {l lq} {j : ℕ} {a : Arr ℚ} (hj : j < lq.length) :
    (ext h0 l lq).putq (h0.nq + j) a = ext h0 l (lq.set j a) := by
  unfold Heap.putq ext
  congr 1
  · funext s
    by_cases hs : s = h0.nq + j
    · subst hs
      simp [hj]
    · by_cases hs' : h0.nq ≤ s
      · have : j ≠ s - h0.nq := by omega
        simp [hs, hs', List.getElem?_set, this]
      · simp [hs, hs']
  · simp

theorem new_run {l lq} {a : Arr Int} :
    newH a (ext h0 l lq) = (.ok (h0.nz + l.length), ext h0 (l ++ [a]) lq) := by
  show (Except.ok _, _) = _
  congr 1
  unfold Heap.put ext
  simp only [Heap.mk.injEq]
  refine ⟨?_, trivial, by simp [Nat.add_assoc], trivial⟩
  funext s
  by_cases hs : s = h0.nz + l.length
  · subst hs; simp
  · by_cases hs' : h0.nz ≤ s
    · simp only [hs, hs', if_true, if_false, List.getElem?_append]
      by_cases h3 : s - h0.nz < l.length
      · simp [h3]
      · rw [if_neg h3, List.getElem?_eq_none (by omega), List.getElem?_eq_none (by simp; omega)]
    · simp [hs, hs']

theorem Sim.new {l lq} {a : Arr Int} {fH : Ref → H δ} {m : C γ} {R : γ → δ × Heap}
    (h2 : Sim h0 (ext h0 (l ++ [a]) lq) (fH (h0.nz + l.length)) m R) :
    Sim h0 (ext h0 l lq) (newH a >>= fH) m R :=
  Sim.step new_run h2

theorem newq_run {l lq} {a : Arr ℚ} :
    newqH a (ext h0 l lq) = (.ok (h0.nq + lq.length), ext h0 l (lq ++ [a])) := by
  show (Except.ok _, _) = _
  congr 1
  unfold Heap.putq ext
  simp only [Heap.mk.injEq]
  refine ⟨trivial, ?_, trivial, by simp [Nat.add_assoc]⟩
  funext s
  by_cases hs : s = h0.nq + lq.length
  · subst hs; simp
  · by_cases hs' : h0.nq ≤ s
    · simp only [hs, hs', if_true, if_false, List.getElem?_append]
      by_cases h3 : s - h0.nq < lq.length
      · simp [h3]
      · rw [if_neg h3, List.getElem?_eq_none (by omega), List.getElem?_eq_none (by simp; omega)]
    · simp [hs, hs']

theorem Sim.newq {l lq} {a : Arr ℚ} {fH : Ref → H δ} {m : C γ} {R : γ → δ × Heap}
    (h2 : Sim h0 (ext h0 l (lq ++ [a])) (fH (h0.nq + lq.length)) m R) :
    Sim h0 (ext h0 l lq) (newqH a >>= fH) m R :=
  Sim.step newq_run h2

theorem free_run {l lq} {j : ℕ} (hj : j < l.length) :
    freeH (h0.nz + j) (ext h0 l lq) = (.ok (), ext h0 (l.set j []) lq) := by
  show (Except.ok (), Heap.put _ _ _) = _
  rw [ext_put hj]

theorem freeq_run {l lq} {j : ℕ} (hj : j < lq.length) :
    freeqH (h0.nq + j) (ext h0 l lq) = (.ok (), ext h0 l (lq.set j [])) := by
  show (Except.ok (), Heap.putq _ _ _) = _
  rw [ext_putq hj]

/-- An operation on a heap that the value model does not have (releasing a workspace). -/
theorem Sim.free {l lq} {j : ℕ} {fH : Unit → H δ} {m : C γ} {R : γ → δ × Heap} (hj : j < l.length)
    (h2 : Sim h0 (ext h0 (l.set j []) lq) (fH ()) m R) :
    Sim h0 (ext h0 l lq) (freeH (h0.nz + j) >>= fH) m R := by
  have e : (freeH (h0.nz + j) >>= fH) (ext h0 l lq) = fH () (ext h0 (l.set j []) lq) := by
    show fH () _ = _
    rw [ext_put hj]
  unfold Sim at h2 ⊢
  rw [e]; exact h2

theorem Sim.freeq {l lq} {j : ℕ} {fH : Unit → H δ} {m : C γ} {R : γ → δ × Heap} (hj : j < lq.length)
    (h2 : Sim h0 (ext h0 l (lq.set j [])) (fH ()) m R) :
    Sim h0 (ext h0 l lq) (freeqH (h0.nq + j) >>= fH) m R := by
  have e : (freeqH (h0.nq + j) >>= fH) (ext h0 l lq) = fH () (ext h0 l (lq.set j [])) := by
    show fH () _ = _
    rw [ext_putq hj]
  unfold Sim at h2 ⊢
  rw [e]; exact h2

end Slip.Store
