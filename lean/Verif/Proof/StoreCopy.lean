import Verif.Model.StoreCopy

/-!
# `SLIP_matrix_copy` over a heap: rules
-/

namespace Slip.Copy

variable {α β γ δ σ τ : Type} {h0 h : Heap}

/-- A new array in `h`. -/
def Heap.add (h : Heap) (v : Vals) : Heap := { h.put h.next (some v) with next := h.next + 1 }

/-- `k` pointers have been handed out and returned. -/
def Heap.grow (h : Heap) (k : ℕ) : Heap := { h with next := h.next + k }

theorem put_a (r s : ℕ) (v : Option Vals) : (h.put r v).a s = if s = r then v else h.a s := rfl
theorem add_a (v : Vals) (s : ℕ) : (h.add v).a s = if s = h.next then some v else h.a s := rfl
@[simp] theorem grow_a (k s : ℕ) : (h.grow k).a s = h.a s := rfl
@[simp] theorem put_next (r : ℕ) (v : Option Vals) : (h.put r v).next = h.next := rfl
@[simp] theorem add_next (v : Vals) : (h.add v).next = h.next + 1 := rfl
@[simp] theorem grow_next (k : ℕ) : (h.grow k).next = h.next + k := rfl

theorem put_put (r : ℕ) (v w : Option Vals) : (h.put r v).put r w = h.put r w := by
  unfold Heap.put
  congr 1
  funext s
  by_cases e : s = r <;> simp [e]

theorem put_comm {r s : ℕ} (e : r ≠ s) (v w : Option Vals) : (h.put r v).put s w = (h.put s w).put r v := by
  unfold Heap.put
  congr 1
  funext t
  by_cases e1 : t = r
  · subst e1; simp [e]
  · simp [e1]

theorem put_self {r : ℕ} {v : Option Vals} (e : h.a r = v) : h.put r v = h := by
  unfold Heap.put
  cases h with
  | mk a n =>
    congr 1
    funext s
    by_cases e1 : s = r
    · subst e1; simp [← e]
    · simp [e1]

theorem Keeps.refl (h : Heap) : Keeps h h := ⟨le_rfl, fun _ _ => rfl⟩

theorem Keeps.put (k : Keeps h0 h) {r : ℕ} (hr : h0.next ≤ r) (v : Option Vals) : Keeps h0 (h.put r v) :=
  ⟨k.1, fun s hs => by rw [put_a, if_neg (by omega)]; exact k.2 s hs⟩

theorem Keeps.add (k : Keeps h0 h) (v : Vals) : Keeps h0 (h.add v) :=
  ⟨k.1.trans (Nat.le_succ _), fun s hs => by
    rw [add_a, if_neg (by have := k.1; omega)]; exact k.2 s hs⟩

theorem Keeps.grow (k : Keeps h0 h) (n : ℕ) : Keeps h0 (h.grow n) :=
  ⟨k.1.trans (Nat.le_add_right _ _), k.2⟩

theorem Ok.add (o : h.Ok) (v : Vals) : (h.add v).Ok := fun r hr => by
  have hr : h.next + 1 ≤ r := hr
  rw [add_a, if_neg (by omega)]; exact o r (by omega)

theorem Ok.grow (o : h.Ok) (n : ℕ) : (h.grow n).Ok := fun r hr => o r (le_trans (Nat.le_add_right _ n) hr)

theorem Ok.put (o : h.Ok) {r : ℕ} (hr : r < h.next) (v : Option Vals) : (h.put r v).Ok := fun s hs => by
  have hs : h.next ≤ s := hs
  rw [put_a, if_neg (by omega)]; exact o s hs

/-- Freeing what was added. -/
theorem add_free (o : h.Ok) (v : Vals) : (h.add v).put h.next none = h.grow 1 := by
  unfold Heap.add Heap.grow Heap.put
  congr 1
  funext s
  by_cases e : s = h.next
  · subst e; simp [o h.next le_rfl]
  · simp [e]

theorem arr_ne (T : Acc α) {r : ℕ} {v : Option Vals} {p : Option ℕ} (e : p ≠ some r) :
    arr T (h.put r v) p = arr T h p := by
  cases p with
  | none => rfl
  | some s =>
    show (((h.put r v).a s).bind T.get).getD [] = _
    rw [put_a, if_neg (fun c => e (by rw [c]))]; rfl

theorem arr_eq (T : Acc α) {r : ℕ} {a : Arr α} : arr T (h.put r (some (T.of a))) (some r) = a := by
  show (((h.put r _).a r).bind T.get).getD [] = _
  rw [put_a, if_pos rfl]
  show ((T.get (T.of a))).getD [] = _
  rw [T.get_of]; rfl

theorem arr_of (T : Acc α) {r : ℕ} {a : Arr α} (e : h.a r = some (T.of a)) : arr T h (some r) = a := by
  show ((h.a r).bind T.get).getD [] = _
  rw [e]
  show ((T.get (T.of a))).getD [] = _
  rw [T.get_of]; rfl

theorem arr_add (T : Acc α) {v : Vals} {p : Option ℕ} (e : ∀ r ∈ p, r < h.next) : arr T (h.add v) p = arr T h p :=
  arr_ne (h := { h with next := h.next + 1 }) T (by rintro rfl; exact absurd (e _ rfl) (lt_irrefl _))

@[simp] theorem arr_grow (T : Acc α) (k : ℕ) (p : Option ℕ) : arr T (h.grow k) p = arr T h p := rfl

/-- Started in `h`, the heap computation `mK` does what the value computation `m` does: if `m` returns `a` it returns some `b` in a
heap `h'` with `Q a b h'`, and it fails as `m` does, with the arrays of `h0` unchanged. -/
def Sim (h0 h : Heap) (mK : K β) (m : C α) (Q : α → β → Heap → Prop) : Prop :=
  match m with
  | .ok a => ∃ b h', mK h = (.ok b, h') ∧ Q a b h'
  | .error e => ∃ h', mK h = (.error e, h') ∧ Keeps h0 h'

variable {Q : α → β → Heap → Prop}

theorem Sim.pure {a : α} {b : β} (q : Q a b h) : Sim h0 h (pure b : K β) (pure a : C α) Q := ⟨b, h, rfl, q⟩

theorem Sim.ok {a : α} {b : β} (q : Q a b h) : Sim h0 h (Pure.pure b : K β) (.ok a : C α) Q := ⟨b, h, rfl, q⟩

theorem Sim.error {e : Fail} (k : Keeps h0 h) : Sim h0 h (Copy.lift (.error e) : K β) (.error e : C α) Q := ⟨h, rfl, k⟩

theorem Sim.bind {mK : K β} {m : C α} {fK : β → K δ} {f : α → C γ} {Q' : γ → δ → Heap → Prop}
    (h1 : Sim h0 h mK m Q) (h2 : ∀ a b h', Q a b h' → Sim h0 h' (fK b) (f a) Q') :
    Sim h0 h (mK >>= fK) (m >>= f) Q' := by
  cases m with
  | error e =>
    obtain ⟨h', e1, e2⟩ := h1
    refine ⟨h', ?_, e2⟩
    show (match mK h with | (.ok a, h) => fK a h | (.error e, h) => (.error e, h)) = _
    rw [e1]
  | ok a =>
    obtain ⟨b, h', e1, q⟩ := h1
    have h3 := h2 a b h' q
    have e : (mK >>= fK) h = fK b h' := by
      show (match mK h with | (.ok a, h) => fK a h | (.error e, h) => (.error e, h)) = _
      rw [e1]
    unfold Sim at h3 ⊢
    rw [e]
    exact h3

theorem Sim.conseq {mK : K β} {m : C α} {Q' : α → β → Heap → Prop} (h1 : Sim h0 h mK m Q)
    (h2 : ∀ a b h', Q a b h' → Q' a b h') : Sim h0 h mK m Q' := by
  cases m with
  | error e => exact h1
  | ok a =>
    obtain ⟨b, h', e1, q⟩ := h1
    exact ⟨b, h', e1, h2 a b h' q⟩

/-- A heap step that the value model does not make. -/
theorem Sim.step {mK : K β} {fK : β → K δ} {m : C γ} {Q' : γ → δ → Heap → Prop} {b : β} {h' : Heap}
    (e : mK h = (.ok b, h')) (h2 : Sim h0 h' (fK b) m Q') : Sim h0 h (mK >>= fK) m Q' := by
  have e : (mK >>= fK) h = fK b h' := by
    show (match mK h with | (.ok a, h) => fK a h | (.error e, h) => (.error e, h)) = _
    rw [e]
  unfold Sim at h2 ⊢
  rw [e]; exact h2

/-- A step of the value model that only repackages the result. -/
theorem Sim.bindPure {mK : K β} {m : C α} {f : α → C γ} {Q' : γ → β → Heap → Prop}
    (h1 : Sim h0 h mK m Q) (h2 : ∀ a b h', Q a b h' → Sim h0 h' (Pure.pure b) (f a) Q') :
    Sim h0 h mK (m >>= f) Q' := by
  have := Sim.bind h1 (fK := fun b => Pure.pure b) h2
  have e : (mK >>= fun b => (Pure.pure b : K β)) = mK := by
    funext g
    show (match mK g with
      | (Except.ok a, h) => (Except.ok a, h)
      | (Except.error e, h) => (Except.error e, h)) = _
    rcases mK g with ⟨_ | _, _⟩ <;> rfl
  rwa [e] at this

/-- Heap steps after the end of the value model. -/
theorem Sim.bindPure' {mK : K β} {m : C α} {fK : β → K δ} {Q' : α → δ → Heap → Prop}
    (h1 : Sim h0 h mK m Q) (h2 : ∀ a b h', Q a b h' → Sim h0 h' (fK b) (Pure.pure a) Q') :
    Sim h0 h (mK >>= fK) m Q' := by
  have := Sim.bind (f := fun a => (Pure.pure a : C α)) h1 h2
  have e : (m >>= fun a => (Pure.pure a : C α)) = m := by cases m <;> rfl
  rwa [e] at this

theorem Sim.lift' {m : C α} (k : Keeps h0 h) : Sim h0 h (Copy.lift m) m fun a b h' => b = a ∧ h' = h := by
  cases m with
  | ok a => exact ⟨a, h, rfl, rfl, rfl⟩
  | error e => exact ⟨h, rfl, k⟩

theorem Sim.lift {m : C α} {fK : α → K δ} {f : α → C γ} {Q' : γ → δ → Heap → Prop} (k : Keeps h0 h)
    (h2 : ∀ a, Sim h0 h (fK a) (f a) Q') : Sim h0 h (Copy.lift m >>= fK) (m >>= f) Q' :=
  Sim.bind (Sim.lift' k) fun a b h' q => by obtain ⟨rfl, rfl⟩ := q; exact h2 _

theorem Sim.rd' {T : Acc α} {p : Option ℕ} {i : Int} {a : Arr α} (e : arr T h p = a) (k : Keeps h0 h) :
    Sim h0 h (rdK T p i) (Slip.rd a i) fun v w h' => w = v ∧ h' = h := by
  subst e; exact Sim.lift' (m := Slip.rd (arr T h p) i) k

theorem Sim.rd {T : Acc α} {p : Option ℕ} {i : Int} {a : Arr α} {fK : α → K δ} {f : α → C γ}
    {Q' : γ → δ → Heap → Prop} (e : arr T h p = a) (k : Keeps h0 h)
    (h2 : ∀ v, Sim h0 h (fK v) (f v) Q') : Sim h0 h (rdK T p i >>= fK) (Slip.rd a i >>= f) Q' :=
  Sim.bind (Sim.rd' e k) fun a b h' q => by obtain ⟨rfl, rfl⟩ := q; exact h2 _

theorem Sim.mod' {T : Acc α} {r : ℕ} {g : Arr α → C (Arr α)} {a : Arr α} (e : h.a r = some (T.of a))
    (k : Keeps h0 h) :
    Sim h0 h (modK T (some r) g) (g a) fun a' _ h' => h' = h.put r (some (T.of a')) := by
  have e0 : (h.a r).bind T.get = some a := by rw [e]; exact T.get_of a
  unfold Sim
  cases e1 : g a with
  | ok a' => exact ⟨(), h.put r (some (T.of a')), by unfold modK; simp only [e0, e1], rfl⟩
  | error e => exact ⟨h, by unfold modK; simp only [e0, e1], k⟩

theorem Sim.mod {T : Acc α} {r : ℕ} {g : Arr α → C (Arr α)} {a : Arr α} {fK : Unit → K δ} {f : Arr α → C γ}
    {Q' : γ → δ → Heap → Prop} (e : h.a r = some (T.of a)) (k : Keeps h0 h)
    (h2 : ∀ a', Sim h0 (h.put r (some (T.of a'))) (fK ()) (f a') Q') :
    Sim h0 h (modK T (some r) g >>= fK) (g a >>= f) Q' :=
  Sim.bind (Sim.mod' e k) fun a b h' q => by subst q; exact h2 _

theorem Sim.wr {r : ℕ} {i v : Int} {a : Arr Int} {fK : Unit → K δ} {f : Arr Int → C γ}
    {Q' : γ → δ → Heap → Prop} (e : h.a r = some (accI.of a)) (k : Keeps h0 h)
    (h2 : ∀ a', Sim h0 (h.put r (some (accI.of a'))) (fK ()) (f a') Q') :
    Sim h0 h (wrK (some r) i v >>= fK) (Slip.wr a i v >>= f) Q' :=
  Sim.mod (g := fun a => Slip.wr a i v) e k h2

theorem Sim.wr' {r : ℕ} {i v : Int} {a : Arr Int} (e : h.a r = some (accI.of a)) (k : Keeps h0 h) :
    Sim h0 h (wrK (some r) i v) (Slip.wr a i v) fun a' _ h' => h' = h.put r (some (accI.of a')) :=
  Sim.mod' (g := fun a => Slip.wr a i v) e k

theorem Sim.zset {T : Acc α} {r : ℕ} {i : Int} {v : α} {a : Arr α} {fK : Unit → K δ} {f : Arr α → C γ}
    {Q' : γ → δ → Heap → Prop} (e : h.a r = some (T.of a)) (k : Keeps h0 h)
    (h2 : ∀ a', Sim h0 (h.put r (some (T.of a'))) (fK ()) (f a') Q') :
    Sim h0 h (zsetK T (some r) i v >>= fK) (Slip.zset a i v >>= f) Q' :=
  Sim.mod (g := fun a => Slip.zset a i v) e k h2

theorem Sim.zset' {T : Acc α} {r : ℕ} {i : Int} {v : α} {a : Arr α} (e : h.a r = some (T.of a)) (k : Keeps h0 h) :
    Sim h0 h (zsetK T (some r) i v) (Slip.zset a i v) fun a' _ h' => h' = h.put r (some (T.of a')) :=
  Sim.mod' (g := fun a => Slip.zset a i v) e k

theorem new_run (v : Vals) : newK v h = (.ok (some h.next), h.add v) := rfl

theorem Sim.new {v : Vals} {fK : Option ℕ → K δ} {m : C γ} {Q' : γ → δ → Heap → Prop}
    (h2 : Sim h0 (h.add v) (fK (some h.next)) m Q') : Sim h0 h (newK v >>= fK) m Q' :=
  Sim.step (new_run v) h2

theorem free_run {r : ℕ} (e : (h.a r).isSome) : freeK (some r) h = (.ok (), h.put r none) := by
  unfold freeK
  simp only [e, if_true]

theorem Sim.free {r : ℕ} {fK : Unit → K δ} {m : C γ} {Q' : γ → δ → Heap → Prop} (e : (h.a r).isSome)
    (h2 : Sim h0 (h.put r none) (fK ()) m Q') : Sim h0 h (freeK (some r) >>= fK) m Q' :=
  Sim.step (free_run e) h2

theorem Sim.ite {c : Prop} [Decidable c] {mK nK : K β} {m n : C α}
    (h1 : c → Sim h0 h mK m Q) (h2 : ¬c → Sim h0 h nK n Q) :
    Sim h0 h (if c then mK else nK) (if c then m else n) Q := by
  by_cases hc : c
  · rw [if_pos hc, if_pos hc]; exact h1 hc
  · rw [if_neg hc, if_neg hc]; exact h2 hc

theorem Sim.forCnt {f : Int → σ → C σ} {fK : Int → τ → K τ} {R : σ → τ → Heap → Prop}
    (hs : ∀ i s t h, R s t h → Sim h0 h (fK i t) (f i s) R) :
    ∀ (m : Nat) (lo : Int) (s : σ) (t : τ) (h : Heap), R s t h →
      Sim h0 h (forCntK m lo t fK) (Slip.forCnt m lo s f) R
  | 0, _, _, _, _, r => Sim.ok r
  | m + 1, lo, s, t, h, r => by
    unfold forCntK Slip.forCnt
    exact Sim.bind (hs lo s t h r) fun a b h' q => Sim.forCnt hs m (lo + 1) a b h' q

/-- The rule for loops: `R` relates the state of the value loop to the scalars and the heap. -/
theorem Sim.for' {f : Int → σ → C σ} {fK : Int → τ → K τ} (R : σ → τ → Heap → Prop) {lo hi : Int} {s : σ}
    {t : τ} (e : R s t h) (hs : ∀ i s t h, R s t h → Sim h0 h (fK i t) (f i s) R) :
    Sim h0 h (forK lo hi t fK) (forRange lo hi s f) R :=
  Sim.forCnt hs (hi - lo).toNat lo s t h e

end Slip.Copy
