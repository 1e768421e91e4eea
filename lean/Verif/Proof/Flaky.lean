import Verif.Model.Flaky

/-!
# A run in which memory is refused is the unlimited run, cut short
-/

namespace Slip.Flaky

/-- The two statuses with which a refused request ends a function. -/
def Refused {α : Type} (r : C α) : Prop :=
  r = .error (.ret .outOfMemory) ∨ r = .error (.ret .incorrectInput)

theorem bind_def {α β : Type} (m : F α) (f : α → F β) (ω : ℕ → Bool) (t : ℕ) : (m >>= f) ω t =
    match m ω t with
    | (.ok a, t') => f a ω t'
    | (.error e, t') => (.error e, t') := rfl

/-- What `m` does depends on the answers to its own requests only. -/
def Det {α : Type} (m : F α) : Prop :=
  ∀ ω ω' t, t ≤ (m ω t).2 ∧ ((∀ s, t ≤ s → s < (m ω t).2 → ω' s = ω s) → m ω' t = m ω t)

namespace Det

variable {α β : Type}

theorem lift (c : C α) : Det (Flaky.lift c) := fun _ _ _ => ⟨le_refl _, fun _ => rfl⟩

theorem request : Det Flaky.request := fun ω ω' t => ⟨Nat.le_succ t, fun h => by
  have : ω' t = ω t := h t (le_refl _) (Nat.lt_succ_self t)
  unfold Flaky.request
  rw [this]⟩

theorem bind {m : F α} {f : α → F β} (h : Det m) (hf : ∀ a, Det (f a)) : Det (m >>= f) := by
  intro ω ω' t
  rw [bind_def, bind_def]
  obtain ⟨h1, h2⟩ := h ω ω' t
  rcases hm : m ω t with ⟨r, t'⟩
  rw [hm] at h1 h2
  dsimp only at h1 h2
  cases r with
  | error e =>
    dsimp only
    exact ⟨h1, fun hs => by rw [h2 hs]⟩
  | ok a =>
    dsimp only
    obtain ⟨h3, h4⟩ := hf a ω ω' t'
    refine ⟨h1.trans h3, fun hs => ?_⟩
    rw [h2 fun s s1 s2 => hs s s1 (by omega)]
    exact h4 fun s s1 s2 => hs s (by omega) s2

theorem wrap (f : C α → C β) {m : F α} (h : Det m) : Det (Flaky.wrap f m) := by
  intro ω ω' t
  obtain ⟨h1, h2⟩ := h ω ω' t
  refine ⟨h1, fun hs => ?_⟩
  show (f (m ω' t).1, (m ω' t).2) = _
  rw [h2 hs]
  rfl

end Det

/-- `m` is the computation `c`, except that it ends early when a request is refused. -/
structure Flk {α : Type} (m : F α) (c : C α) : Prop where
  det : Det m
  out : ∀ ω t, t ≤ (m ω t).2 ∧
  ((Refused (m ω t).1 ∧ ∃ s, t ≤ s ∧ s < (m ω t).2 ∧ ω s = true) ∨
   ((m ω t).1 = c ∧ ∀ s, t ≤ s → s < (m ω t).2 → ω s = false))

/-- As `Flk`; `bad` says that an earlier request was refused, and then only an early end is left. -/
def Cut {α : Type} (bad : Bool) (m : F α) (c : C α) : Prop := Det m ∧ ∀ ω t, t ≤ (m ω t).2 ∧
  ((Refused (m ω t).1 ∧ (bad = true ∨ ∃ s, t ≤ s ∧ s < (m ω t).2 ∧ ω s = true)) ∨
   (bad = false ∧ (m ω t).1 = c ∧ ∀ s, t ≤ s → s < (m ω t).2 → ω s = false))

namespace Cut

variable {α β : Type}

theorem flk {m : F α} {c : C α} (h : Cut false m c) : Flk m c := by
  refine ⟨h.1, ?_⟩
  intro ω t
  obtain ⟨h1, h2⟩ := h.2 ω t
  refine ⟨h1, ?_⟩
  rcases h2 with ⟨h2, h3 | h3⟩ | ⟨-, h3⟩
  · cases h3
  · exact Or.inl ⟨h2, h3⟩
  · exact Or.inr h3

theorem of_flk {m : F α} {c : C α} (h : Flk m c) : Cut false m c := by
  refine ⟨h.det, ?_⟩
  intro ω t
  obtain ⟨h1, h2⟩ := h.out ω t
  refine ⟨h1, ?_⟩
  rcases h2 with ⟨h2, h3⟩ | h3
  · exact Or.inl ⟨h2, Or.inr h3⟩
  · exact Or.inr ⟨rfl, h3⟩

theorem ok (a : α) : Cut false (pure a : F α) (.ok a) := ⟨Det.lift _, fun _ t =>
  ⟨le_refl _, Or.inr ⟨rfl, rfl, fun s h1 h2 => absurd h2 (show ¬ s < t by omega)⟩⟩⟩

theorem out (c : C α) : Cut true (Flaky.lift (.error (.ret .outOfMemory)) : F α) c := ⟨Det.lift _, fun _ _ =>
  ⟨le_refl _, Or.inl ⟨Or.inl rfl, Or.inl rfl⟩⟩⟩

theorem inp (c : C α) : Cut true (Flaky.lift (.error (.ret .incorrectInput)) : F α) c := ⟨Det.lift _, fun _ _ =>
  ⟨le_refl _, Or.inl ⟨Or.inr rfl, Or.inl rfl⟩⟩⟩

theorem request_def (f : Bool → F β) (ω : ℕ → Bool) (t : ℕ) :
    (Flaky.request >>= f) ω t = f (!ω t) ω (t + 1) := rfl

theorem request {bad : Bool} {f : Bool → F β} {c : C β} (h1 : Cut bad (f true) c) (h2 : Cut true (f false) c) :
    Cut bad (Flaky.request >>= f) c := by
  refine ⟨Det.bind Det.request fun b => by cases b <;> [exact h2.1; exact h1.1], ?_⟩
  intro ω t
  rw [request_def]
  rcases hω : ω t with _ | _
  · rw [show (!false) = true from rfl]
    obtain ⟨ht, h⟩ := h1.2 ω (t + 1)
    refine ⟨by omega, ?_⟩
    rcases h with ⟨hr, hb | ⟨s, hs1, hs2, hs3⟩⟩ | ⟨hb, hr, hs⟩
    · exact Or.inl ⟨hr, Or.inl hb⟩
    · exact Or.inl ⟨hr, Or.inr ⟨s, by omega, hs2, hs3⟩⟩
    · refine Or.inr ⟨hb, hr, fun s hs1 hs2 => ?_⟩
      by_cases hst : s = t
      · rw [hst, hω]
      · exact hs s (by omega) hs2
  · rw [show (!true) = false from rfl]
    obtain ⟨ht, h⟩ := h2.2 ω (t + 1)
    refine ⟨by omega, ?_⟩
    rcases h with ⟨hr, -⟩ | ⟨hb, -⟩
    · exact Or.inl ⟨hr, Or.inr ⟨t, le_refl _, by omega, hω⟩⟩
    · cases hb

theorem requests {bad : Bool} {f : Bool → F β} {c : C β} (h1 : Cut bad (f true) c) (h2 : Cut true (f false) c) :
    ∀ k, Cut bad (Flaky.requests k >>= f) c
  | 0 => h1
  | k + 1 => by
    have e : (Flaky.requests (k + 1) >>= f) =
        (Flaky.request >>= fun g => if g then Flaky.requests k >>= f else f false) := by
      funext ω t
      rw [request_def]
      have e1 : Flaky.requests (k + 1) ω t =
          (if (!ω t) = true then Flaky.requests k else pure false) ω (t + 1) := rfl
      rw [bind_def, e1]
      cases ω t <;> rfl
    rw [e]
    exact request (requests h1 h2 k) h2

end Cut

namespace Flk

variable {α β σ : Type}

theorem lift (c : C α) : Flk (Flaky.lift c) c := ⟨Det.lift _, fun _ _ =>
  ⟨le_refl _, Or.inr ⟨rfl, fun _ h1 h2 => absurd h2 (by simp only [Flaky.lift]; omega)⟩⟩⟩

theorem pure (a : α) : Flk (Pure.pure a) (Pure.pure a) := Flk.lift _

theorem bind {m : F α} {c : C α} {f : α → F β} {g : α → C β} (h : Flk m c) (hf : ∀ a, Flk (f a) (g a)) :
    Flk (m >>= f) (c >>= g) := by
  refine ⟨Det.bind h.det fun a => (hf a).det, ?_⟩
  intro ω t
  rw [bind_def]
  have := h.out ω t
  rcases hm : m ω t with ⟨r, t'⟩
  rw [hm] at this
  dsimp only at this
  obtain ⟨ht, hr | ⟨rfl, hr⟩⟩ := this
  · obtain ⟨hr, hs⟩ := hr
    rcases hr with rfl | rfl
    · exact ⟨ht, Or.inl ⟨Or.inl rfl, hs⟩⟩
    · exact ⟨ht, Or.inl ⟨Or.inr rfl, hs⟩⟩
  · cases r with
    | error e => exact ⟨ht, Or.inr ⟨rfl, hr⟩⟩
    | ok a =>
      dsimp only
      obtain ⟨h1, h2⟩ := (hf a).out ω t'
      refine ⟨ht.trans h1, ?_⟩
      rcases h2 with ⟨h2, s, hs1, hs2, hs3⟩ | ⟨h2, h3⟩
      · exact Or.inl ⟨h2, s, ht.trans hs1, hs2, hs3⟩
      · refine Or.inr ⟨h2, fun s hs1 hs2 => ?_⟩
        by_cases hlt : s < t'
        · exact hr s hs1 hlt
        · exact h3 s (by omega) hs2

/-- A part that computes nothing new. -/
theorem step {m : F α} {a : α} {f : α → F β} {c : C β} (h : Flk m (.ok a)) (hf : Flk (f a) c) :
    Flk (m >>= f) c := by
  have hd : Det (m >>= f) := by
    intro ω ω' t
    rw [bind_def, bind_def]
    obtain ⟨h1, h2⟩ := h.det ω ω' t
    have ho := (h.out ω t).2
    rcases hm : m ω t with ⟨r, t'⟩
    rw [hm] at h1 h2 ho
    dsimp only at h1 h2 ho
    have herr : ∀ e, r = .error e → t ≤ t' ∧ ((∀ s, t ≤ s → s < t' → ω' s = ω s) →
        (match m ω' t with
          | (.ok a, t') => f a ω' t'
          | (.error e, t') => (.error e, t')) = (.error e, t')) := by
      rintro e rfl
      exact ⟨h1, fun hs => by rw [h2 hs]⟩
    rcases ho with ⟨hr | hr, -⟩ | ⟨hr, -⟩
    · have := herr _ hr; subst hr; exact this
    · have := herr _ hr; subst hr; exact this
    subst hr
    dsimp only
    obtain ⟨h3, h4⟩ := hf.det ω ω' t'
    refine ⟨h1.trans h3, fun hs => ?_⟩
    rw [h2 fun s s1 s2 => hs s s1 (by omega)]
    exact h4 fun s s1 s2 => hs s (by omega) s2
  have hg : Flk (m >>= f) ((.ok a : C α) >>= fun _ => c) := by
    refine ⟨hd, ?_⟩
    intro ω t
    rw [bind_def]
    have := h.out ω t
    rcases hm : m ω t with ⟨r, t'⟩
    rw [hm] at this
    dsimp only at this
    obtain ⟨ht, hr | ⟨rfl, hr⟩⟩ := this
    · obtain ⟨hr, hs⟩ := hr
      rcases hr with rfl | rfl
      · exact ⟨ht, Or.inl ⟨Or.inl rfl, hs⟩⟩
      · exact ⟨ht, Or.inl ⟨Or.inr rfl, hs⟩⟩
    · dsimp only
      obtain ⟨h1, h2⟩ := hf.out ω t'
      refine ⟨ht.trans h1, ?_⟩
      rcases h2 with ⟨h2, s, hs1, hs2, hs3⟩ | ⟨h2, h3⟩
      · exact Or.inl ⟨h2, s, ht.trans hs1, hs2, hs3⟩
      · refine Or.inr ⟨h2, fun s hs1 hs2 => ?_⟩
        by_cases hlt : s < t'
        · exact hr s hs1 hlt
        · exact h3 s (by omega) hs2
  exact hg

theorem need_out : Flk (need .outOfMemory) (.ok ()) :=
  (Cut.request (Cut.ok ()) (Cut.out _)).flk

theorem gmp_then {f : Unit → F β} {c : C β} (hf : Flk (f ()) c) : Flk (gmp >>= f) c := step need_out hf

theorem need_then {f : Unit → F β} {c : C β} (hf : Flk (f ()) c) : Flk (need .outOfMemory >>= f) c :=
  step need_out hf

theorem forCnt {f' : Int → σ → F σ} {f : Int → σ → C σ} (h : ∀ i s, Flk (f' i s) (f i s)) :
    ∀ (k : Nat) (lo : Int) (s : σ), Flk (forCntF k lo s f') (Slip.forCnt k lo s f)
  | 0, _, s => Flk.pure s
  | k + 1, lo, s => by
    unfold forCntF Slip.forCnt
    exact bind (h lo s) fun a => forCnt h k (lo + 1) a

theorem forRange {f' : Int → σ → F σ} {f : Int → σ → C σ} {lo hi : Int} {s : σ}
    (h : ∀ i s, Flk (f' i s) (f i s)) : Flk (forRangeF lo hi s f') (Slip.forRange lo hi s f) :=
  forCnt h _ lo s

theorem forDownCnt {f' : Int → σ → F σ} {f : Int → σ → C σ} (h : ∀ i s, Flk (f' i s) (f i s)) :
    ∀ (k : Nat) (lo : Int) (s : σ), Flk (forDownCntF k lo s f') (Slip.forDownCnt k lo s f)
  | 0, _, s => Flk.pure s
  | k + 1, lo, s => by
    unfold forDownCntF Slip.forDownCnt
    exact bind (h _ s) fun a => forDownCnt h k lo a

theorem forDown {f' : Int → σ → F σ} {f : Int → σ → C σ} {lo hi : Int} {s : σ}
    (h : ∀ i s, Flk (f' i s) (f i s)) : Flk (forDownF lo hi s f') (Slip.forDown lo hi s f) :=
  forDownCnt h _ lo s

theorem zset {α : Type} (a : Arr α) (i : Int) (v : α) : Flk (zsetF a i v) (Slip.zset a i v) :=
  gmp_then (lift _)

theorem zinit (a : Arr Int) (i : Int) : Flk (zinitF a i) (Slip.zinit a i) := gmp_then (lift _)

end Flk

/-- Lemmas for the functions that are called. -/
syntax "flk_leaf" : tactic

macro_rules | `(tactic| flk_leaf) => `(tactic| with_reducible exact Flk.lift _)
macro_rules | `(tactic| flk_leaf) => `(tactic| with_reducible exact Flk.pure _)
macro_rules | `(tactic| flk_leaf) => `(tactic| with_reducible exact Flk.zset _ _ _)
macro_rules | `(tactic| flk_leaf) => `(tactic| with_reducible exact Flk.zinit _ _)

macro "flks" : tactic => `(tactic| repeat' first
  | flk_leaf
  | with_reducible apply Flk.gmp_then
  | with_reducible apply Flk.need_then
  | with_reducible apply Flk.bind
  | with_reducible apply Flk.forRange
  | with_reducible apply Flk.forDown
  | intro _
  | split)

theorem allocate_flk (csc : Bool) (entries : ℕ) : Flk (allocate csc entries) (.ok ()) := by
  unfold allocate
  refine Flk.need_then (Flk.gmp_then (Flk.gmp_then ?_))
  apply Cut.flk
  have body : ∀ bad pattern, (bad = false → pattern = true) → (pattern = true → bad = false) →
      Cut bad (do
        let x ← request
        let x ← if x then requests entries else pure false
        if pattern && x then pure () else lift (.error (.ret .incorrectInput))) (.ok ()) := by
    intro bad pattern h1 h2
    refine Cut.request ?_ ?_
    · refine Cut.requests ?_ ?_ entries
      · cases pattern with
        | true => rw [h2 rfl]; exact Cut.ok ()
        | false =>
          have : bad = true := by cases bad <;> simp_all
          rw [this]; exact Cut.inp _
      · cases pattern <;> exact Cut.inp _
    · cases pattern <;> exact Cut.inp _
  cases csc with
  | false => exact body false true (fun _ => rfl) (fun _ => rfl)
  | true =>
    refine Cut.request (Cut.request ?_ ?_) (Cut.request ?_ ?_)
    · exact body false true (fun _ => rfl) (fun _ => rfl)
    · exact body true false (by simp) (by simp)
    · exact body true false (by simp) (by simp)
    · exact body true false (by simp) (by simp)

theorem Flk.allocate_then {β : Type} {csc : Bool} {e : ℕ} {f : Unit → F β} {c : C β} (hf : Flk (f ()) c) :
    Flk (allocate csc e >>= f) c := Flk.step (allocate_flk csc e) hf

theorem allocCscF_flk (n nzmax : Int) : Flk (allocCscF n nzmax) (.ok (allocCsc n nzmax)) :=
  Flk.allocate_then (Flk.pure _)

theorem allocDenseF_flk (α : Type) [Zero α] (m n : Int) : Flk (allocDenseF α m n) (.ok (allocDense α m n)) :=
  Flk.allocate_then (Flk.pure _)

theorem histUpdateF_flk (rhos x : Arr Int) (j hj s : Int) :
    Flk (histUpdateF rhos x j hj s) (histUpdate rhos x j hj s) := by
  unfold histUpdateF histUpdate
  flks

macro_rules | `(tactic| flk_leaf) => `(tactic| with_reducible exact histUpdateF_flk ..)

theorem ipgeUpdateF_flk (rhos h x : Arr Int) (i j jnew l : Int) :
    Flk (ipgeUpdateF rhos h x i j jnew l) (ipgeUpdate rhos h x i j jnew l) := by
  unfold ipgeUpdateF ipgeUpdate
  flks

macro_rules | `(tactic| flk_leaf) => `(tactic| with_reducible exact ipgeUpdateF_flk ..)

theorem solveStepF_flk (Lp Li Lx pinv rhos xi : Arr Int) (k p : Int) (h x : Arr Int) :
    Flk (solveStepF Lp Li Lx pinv rhos xi k p h x) (solveStep Lp Li Lx pinv rhos xi k p h x) := by
  unfold solveStepF solveStep
  flks

macro_rules | `(tactic| flk_leaf) => `(tactic| with_reducible exact solveStepF_flk ..)

theorem slip_ref_triangular_solveF_flk (L A : Csc) (k : Int) (xi q rhos pinv row_perm h x : Arr Int) :
    Flk (slip_ref_triangular_solveF L A k xi q rhos pinv row_perm h x)
      (slip_ref_triangular_solve L A k xi q rhos pinv row_perm h x) := by
  unfold slip_ref_triangular_solveF slip_ref_triangular_solve
  flks

macro_rules | `(tactic| flk_leaf) => `(tactic| with_reducible exact slip_ref_triangular_solveF_flk ..)

theorem smallestInitF_flk (x pivs xi : Arr Int) : ∀ (m : ℕ) (flag : Int),
    Flk (smallestInitF x pivs xi m flag) (smallestInit x pivs xi m flag)
  | 0, _ => Flk.pure _
  | m + 1, flag => by
    have ih := smallestInitF_flk x pivs xi m (flag + 1)
    unfold smallestInitF smallestInit
    flks
    exact ih

macro_rules | `(tactic| flk_leaf) => `(tactic| with_reducible exact smallestInitF_flk ..)

theorem slip_get_smallest_pivotF_flk (x pivs : Arr Int) (n top : Int) (xi : Arr Int) :
    Flk (slip_get_smallest_pivotF x pivs n top xi) (slip_get_smallest_pivot x pivs n top xi) := by
  unfold slip_get_smallest_pivotF slip_get_smallest_pivot
  refine Flk.gmp_then (Flk.bind (by flks) fun r => Flk.bind (by flks) fun s => ?_)
  obtain ⟨pivot, small⟩ := s
  dsimp only
  flks

macro_rules | `(tactic| flk_leaf) => `(tactic| with_reducible exact slip_get_smallest_pivotF_flk ..)

theorem slip_get_largest_pivotF_flk (x pivs : Arr Int) (n top : Int) (xi : Arr Int) :
    Flk (slip_get_largest_pivotF x pivs n top xi) (slip_get_largest_pivot x pivs n top xi) := by
  unfold slip_get_largest_pivotF slip_get_largest_pivot
  refine Flk.gmp_then (Flk.bind (by flks) fun s => ?_)
  obtain ⟨pivot, small⟩ := s
  dsimp only
  flks

macro_rules | `(tactic| flk_leaf) => `(tactic| with_reducible exact slip_get_largest_pivotF_flk ..)

theorem choosePivotF_flk (nc : Int → Int → ℚ → Bool) (order : Pivot) (tol : Dbl) (x pivs : Arr Int)
    (n top : Int) (xi : Arr Int) (col : Int) :
    Flk (choosePivotF nc order tol x pivs n top xi col) (choosePivot nc order tol x pivs n top xi col) := by
  unfold choosePivotF choosePivot
  cases order <;> dsimp only <;> flks

macro_rules | `(tactic| flk_leaf) => `(tactic| with_reducible exact choosePivotF_flk ..)

theorem slip_get_pivotF_flk (nc : Int → Int → ℚ → Bool) (order : Pivot) (tol : Dbl) (x pivs : Arr Int)
    (n top : Int) (xi : Arr Int) (col k : Int) (rhos pinv row_perm : Arr Int) :
    Flk (slip_get_pivotF nc order tol x pivs n top xi col k rhos pinv row_perm)
      (slip_get_pivot nc order tol x pivs n top xi col k rhos pinv row_perm) := by
  unfold slip_get_pivotF slip_get_pivot
  flks

macro_rules | `(tactic| flk_leaf) => `(tactic| with_reducible exact slip_get_pivotF_flk ..)

theorem slip_sparse_reallocF_flk (A : Csc) : Flk (slip_sparse_reallocF A) (.ok (slip_sparse_realloc A)) := by
  unfold slip_sparse_reallocF
  apply Cut.flk
  refine Cut.request (Cut.request ?_ ?_) (Cut.request ?_ ?_)
  · exact Cut.ok _
  · exact Cut.out _
  · exact Cut.out _
  · exact Cut.out _

theorem growF_flk (b : Prop) [Decidable b] (A : Csc) :
    Flk (if b then slip_sparse_reallocF A else pure A) (.ok (if b then slip_sparse_realloc A else A)) := by
  split
  · exact slip_sparse_reallocF_flk A
  · exact Flk.pure A

theorem pushEntryF_flk (M : Csc) (nz row v : Int) : Flk (pushEntryF M nz row v) (pushEntry M nz row v) := by
  unfold pushEntryF pushEntry
  flks

macro_rules | `(tactic| flk_leaf) => `(tactic| with_reducible exact pushEntryF_flk ..)

theorem popStepF_flk (xi pinv x : Arr Int) (k j : Int) (s : Int × Int × Csc × Csc) :
    Flk (popStepF xi pinv x k j s) (popStep xi pinv x k j s) := by
  unfold popStepF popStep
  flks

macro_rules | `(tactic| flk_leaf) => `(tactic| with_reducible exact popStepF_flk ..)

theorem factStepF_flk (nc : Int → Int → ℚ → Bool) (order : Pivot) (tol : Dbl) (A : Csc) (q : Arr Int)
    (k : Int) (s : FactSt) : Flk (factStepF nc order tol A q k s) (factStep nc order tol A q k s) := by
  unfold factStepF factStep
  refine Flk.bind (Flk.lift _) fun Lp => Flk.bind (Flk.lift _) fun Up => Flk.bind (Flk.lift _) fun col => ?_
  apply Flk.step (growF_flk _ _)
  apply Flk.step (growF_flk _ _)
  flks

macro_rules | `(tactic| flk_leaf) => `(tactic| with_reducible exact factStepF_flk ..)

theorem factInitF_flk (n lnz unz : Int) : Flk (factInitF n lnz unz) (factInit n lnz unz) := by
  unfold factInitF
  apply Cut.flk
  have bad : ∀ (f : F FactSt), Cut true (lift (.error (.ret .outOfMemory)) : F FactSt) (factInit n lnz unz) :=
    fun _ => Cut.out _
  have good : Cut false (do
      let h := malloc Int n
      let pivs := malloc Int n
      let pinv := malloc Int n
      let row_perm := malloc Int n
      let (h, pivs, pinv, row_perm) ← lift (forRange 0 n (h, pivs, pinv, row_perm)
        fun i (h, pivs, pinv, row_perm) => do
          let h ← wr h i (-1)
          let pivs ← wr pivs i (-1)
          let pinv ← wr pinv i i
          let row_perm ← wr row_perm i i
          pure (h, pivs, pinv, row_perm))
      allocate false 0 -- rhos
      let L ← allocCscF n lnz
      let U ← allocCscF n unz
      allocate false 0 -- x
      let x ← forRangeF 0 n (malloc Int (max n 1)) fun i x => zinitF x i
      pure { lnz := 0, unz := 0, L := L, U := U,
             rhos := malloc Int (max n 1), pinv := pinv, row_perm := row_perm, pivs := pivs,
             h := h, xi := malloc Int (2 * n), x := x }) (factInit n lnz unz) := by
    apply Cut.of_flk
    unfold factInit
    refine Flk.bind (Flk.lift _) fun r => ?_
    obtain ⟨h, pivs, pinv, row_perm⟩ := r
    refine Flk.allocate_then (Flk.step (allocCscF_flk _ _) (Flk.step (allocCscF_flk _ _) (Flk.allocate_then ?_)))
    flks
  repeat' apply Cut.request
  all_goals first
    | exact good
    | exact Cut.out _

macro_rules | `(tactic| flk_leaf) => `(tactic| with_reducible exact factInitF_flk ..)

theorem factorizeF_flk (nc : Int → Int → ℚ → Bool) (order : Pivot) (tol : Dbl) (A : Csc) (q : Arr Int)
    (lnz unz : Int) : Flk (factorizeF nc order tol A q lnz unz) (factorize nc order tol A q lnz unz) := by
  unfold factorizeF factorize
  flks

/-! ## The solve -/

theorem slip_permute_bF_flk (b2 : Dense Int) (pinv : Arr Int) :
    Flk (slip_permute_bF b2 pinv) (slip_permute_b b2 pinv) := by
  unfold slip_permute_bF slip_permute_b
  refine Flk.step (allocDenseF_flk ..) ?_
  flks

macro_rules | `(tactic| flk_leaf) => `(tactic| with_reducible exact slip_permute_bF_flk ..)

theorem fwdUpdateF_flk (rhos h x : Arr Int) (ij ii i l : Int) :
    Flk (fwdUpdateF rhos h x ij ii i l) (fwdUpdate rhos h x ij ii i l) := by
  unfold fwdUpdateF fwdUpdate
  flks

macro_rules | `(tactic| flk_leaf) => `(tactic| with_reducible exact fwdUpdateF_flk ..)

theorem fwdStepF_flk (L : Csc) (rhos : Arr Int) (m k i : Int) (h x : Arr Int) :
    Flk (fwdStepF L rhos m k i h x) (fwdStep L rhos m k i h x) := by
  unfold fwdStepF fwdStep
  flks

macro_rules | `(tactic| flk_leaf) => `(tactic| with_reducible exact fwdStepF_flk ..)

theorem slip_forward_subF_flk (L : Csc) (x : Dense Int) (rhos : Arr Int) :
    Flk (slip_forward_subF L x rhos) (slip_forward_sub L x rhos) := by
  unfold slip_forward_subF slip_forward_sub
  refine Flk.allocate_then ?_
  flks

macro_rules | `(tactic| flk_leaf) => `(tactic| with_reducible exact slip_forward_subF_flk ..)

theorem slip_matrix_mulF_flk (x : Dense Int) (s : Int) : Flk (slip_matrix_mulF x s) (slip_matrix_mul x s) := by
  unfold slip_matrix_mulF slip_matrix_mul
  flks

macro_rules | `(tactic| flk_leaf) => `(tactic| with_reducible exact slip_matrix_mulF_flk ..)

theorem backInnerF_flk (U : Csc) (m k j : Int) (y : Arr Int) (i : Int) :
    Flk (backInnerF U m k j y i) (backInner U m k j y i) := by
  unfold backInnerF backInner
  flks

macro_rules | `(tactic| flk_leaf) => `(tactic| with_reducible exact backInnerF_flk ..)

theorem backStepF_flk (U : Csc) (m k j : Int) (y : Arr Int) :
    Flk (backStepF U m k j y) (backStep U m k j y) := by
  unfold backStepF backStep
  flks

macro_rules | `(tactic| flk_leaf) => `(tactic| with_reducible exact backStepF_flk ..)

theorem slip_back_subF_flk (U : Csc) (b : Dense Int) : Flk (slip_back_subF U b) (slip_back_sub U b) := by
  unfold slip_back_subF slip_back_sub
  flks

macro_rules | `(tactic| flk_leaf) => `(tactic| with_reducible exact slip_back_subF_flk ..)

theorem slip_matrix_divF_flk (x : Dense Int) (s : Int) : Flk (slip_matrix_divF x s) (slip_matrix_div x s) := by
  unfold slip_matrix_divF slip_matrix_div
  refine Flk.gmp_then (Flk.gmp_then (Flk.step (allocDenseF_flk ..) ?_))
  flks

macro_rules | `(tactic| flk_leaf) => `(tactic| with_reducible exact slip_matrix_divF_flk ..)

theorem slip_permute_xF_flk (x2 : Dense ℚ) (q : Arr Int) :
    Flk (slip_permute_xF x2 q) (slip_permute_x x2 q) := by
  unfold slip_permute_xF slip_permute_x
  refine Flk.step (allocDenseF_flk ..) ?_
  flks

macro_rules | `(tactic| flk_leaf) => `(tactic| with_reducible exact slip_permute_xF_flk ..)

theorem checkMulF_flk (A : Csc) (x : Dense ℚ) (m n : Int) (b2 : Arr ℚ) :
    Flk (checkMulF A x m n b2) (checkMul A x m n b2) := by
  unfold checkMulF checkMul
  flks

macro_rules | `(tactic| flk_leaf) => `(tactic| with_reducible exact checkMulF_flk ..)

theorem checkCmpF_flk (b : Dense Int) (b2 : Arr ℚ) : Flk (checkCmpF b b2) (checkCmp b b2) := by
  unfold checkCmpF checkCmp
  flks

macro_rules | `(tactic| flk_leaf) => `(tactic| with_reducible exact checkCmpF_flk ..)

theorem slip_check_solutionF_flk (A : Csc) (x : Dense ℚ) (b : Dense Int) :
    Flk (slip_check_solutionF A x b) (slip_check_solution A x b) := by
  unfold slip_check_solutionF slip_check_solution
  refine Flk.gmp_then (Flk.step (allocDenseF_flk ..) ?_)
  flks

macro_rules | `(tactic| flk_leaf) => `(tactic| with_reducible exact slip_check_solutionF_flk ..)

theorem scaleSolutionF_flk (x : Dense ℚ) (sA sb : ℚ) : Flk (scaleSolutionF x sA sb) (scaleSolution x sA sb) := by
  unfold scaleSolutionF scaleSolution
  flks

macro_rules | `(tactic| flk_leaf) => `(tactic| with_reducible exact scaleSolutionF_flk ..)

theorem luSolveF_flk (A : Csc) (sA : ℚ) (b : Dense Int) (sb : ℚ) (F : Factors) (q : Arr Int) (check : Bool) :
    Flk (luSolveF A sA b sb F q check) (luSolve A sA b sb F q check) := by
  unfold luSolveF luSolve
  flks

/-! ## The user-callable functions -/

/-- `m` is the computation `c`, except that it returns a result with `P` when a request is refused. -/
structure Stop {α : Type} (P : α → Prop) (m : F α) (c : C α) : Prop where
  det : Det m
  out : ∀ ω t, t ≤ (m ω t).2 ∧
    (((∃ a, (m ω t).1 = .ok a ∧ P a) ∧ ∃ s, t ≤ s ∧ s < (m ω t).2 ∧ ω s = true) ∨
     ((m ω t).1 = c ∧ ∀ s, t ≤ s → s < (m ω t).2 → ω s = false))

namespace Stop

variable {α β : Type} {P : α → Prop} {Q : β → Prop}

theorem lift (c : C α) : Stop P (Flaky.lift c) c := ⟨Det.lift _, fun _ t =>
  ⟨le_refl _, Or.inr ⟨rfl, fun s h1 h2 => absurd h2 (show ¬ s < t by omega)⟩⟩⟩

theorem pure (a : α) : Stop P (Pure.pure a) (Pure.pure a) := Stop.lift _

theorem wrap {f : C α → C β} {m : F α} {c : C α} (h : Flk m c)
    (h1 : ∃ b, f (.error (.ret .outOfMemory)) = .ok b ∧ Q b)
    (h2 : ∃ b, f (.error (.ret .incorrectInput)) = .ok b ∧ Q b) : Stop Q (Flaky.wrap f m) (f c) := by
  refine ⟨Det.wrap f h.det, ?_⟩
  intro ω t
  obtain ⟨ht, h⟩ := h.out ω t
  refine ⟨ht, ?_⟩
  rcases h with ⟨hr, hs⟩ | ⟨hr, hs⟩
  · refine Or.inl ⟨?_, hs⟩
    rcases hr with hr | hr
    · rw [show (Flaky.wrap f m ω t).1 = f (m ω t).1 from rfl, hr]; exact h1
    · rw [show (Flaky.wrap f m ω t).1 = f (m ω t).1 from rfl, hr]; exact h2
  · exact Or.inr ⟨by rw [show (Flaky.wrap f m ω t).1 = f (m ω t).1 from rfl, hr], hs⟩

/-- After a result with `P` the rest returns a result with `Q`, without further requests. -/
theorem bind {m : F α} {c : C α} {f : α → F β} {g : α → C β} (h : Stop P m c)
    (hP : ∀ a, P a → ∃ b, f a = Pure.pure b ∧ Q b) (hf : ∀ a, Stop Q (f a) (g a)) :
    Stop Q (m >>= f) (c >>= g) := by
  refine ⟨Det.bind h.det fun a => (hf a).det, ?_⟩
  intro ω t
  rw [bind_def]
  have := h.out ω t
  rcases hm : m ω t with ⟨r, t'⟩
  rw [hm] at this
  dsimp only at this
  obtain ⟨ht, hr | ⟨rfl, hr⟩⟩ := this
  · obtain ⟨⟨a, rfl, ha⟩, hs⟩ := hr
    dsimp only
    obtain ⟨b, e, hb⟩ := hP a ha
    rw [e]
    exact ⟨ht, Or.inl ⟨⟨b, rfl, hb⟩, hs⟩⟩
  · cases r with
    | error e => exact ⟨ht, Or.inr ⟨rfl, hr⟩⟩
    | ok a =>
      dsimp only
      obtain ⟨h1, h2⟩ := (hf a).out ω t'
      refine ⟨ht.trans h1, ?_⟩
      rcases h2 with ⟨h2, s, hs1, hs2, hs3⟩ | ⟨h2, h3⟩
      · exact Or.inl ⟨h2, s, ht.trans hs1, hs2, hs3⟩
      · refine Or.inr ⟨h2, fun s hs1 hs2 => ?_⟩
        by_cases hlt : s < t'
        · exact hr s hs1 hlt
        · exact h3 s (by omega) hs2

theorem liftBind {c : C α} {f : α → F β} {g : α → C β} (hf : ∀ a, Stop Q (f a) (g a)) :
    Stop Q (Flaky.lift c >>= f) (c >>= g) :=
  bind (P := fun _ => False) (lift c) (fun _ h => h.elim) hf

theorem request {f : Bool → F β} {c : C β} {b : β} (h1 : Stop Q (f true) c) (h2 : f false = Pure.pure b) (hb : Q b) :
    Stop Q (Flaky.request >>= f) c := by
  refine ⟨Det.bind Det.request fun b => by
    cases b
    · rw [h2]; exact Det.lift _
    · exact h1.det, ?_⟩
  intro ω t
  rw [Cut.request_def]
  rcases hω : ω t with _ | _
  · rw [show (!false) = true from rfl]
    obtain ⟨ht, h⟩ := h1.out ω (t + 1)
    refine ⟨by omega, ?_⟩
    rcases h with ⟨hr, s, hs1, hs2, hs3⟩ | ⟨hr, hs⟩
    · exact Or.inl ⟨hr, s, by omega, hs2, hs3⟩
    · refine Or.inr ⟨hr, fun s hs1 hs2 => ?_⟩
      by_cases hst : s = t
      · rw [hst, hω]
      · exact hs s (by omega) hs2
  · rw [show (!true) = false from rfl, h2]
    exact ⟨Nat.le_succ t, Or.inl ⟨⟨b, rfl, hb⟩, t, le_refl _, Nat.lt_succ_self t, hω⟩⟩

end Stop

/-- The statuses of a refused request. -/
def NoMem (e : Info) : Prop := e = .outOfMemory ∨ e = .incorrectInput

theorem SLIP_LU_analyzeF_stop (O : Orderings) (init : Bool) (S : Handle Analysis) (A : Option Mat)
    (opt : Option Options) : Stop (fun r => r = (.outOfMemory, some none)) (SLIP_LU_analyzeF O init S A opt)
      (SLIP_LU_analyze O init S A opt) := by
  unfold SLIP_LU_analyzeF SLIP_LU_analyze
  cases init with
  | false => exact Stop.pure _
  | true =>
    simp only [Bool.not_true, Bool.false_eq_true, if_false]
    cases A with
    | none => exact Stop.pure _
    | some A =>
      dsimp only
      by_cases h1 : A.kind ≠ .csc
      · rw [if_pos h1, if_pos h1]; exact Stop.pure _
      rw [if_neg h1, if_neg h1]
      by_cases h2 : S = none ∨ A.n ≠ A.m
      · rw [if_pos h2, if_pos h2]; exact Stop.pure _
      rw [if_neg h2, if_neg h2]
      unfold analyzeBodyF analyzeBody
      simp only [bind_assoc]
      refine Stop.liftBind fun anz => Stop.request ?_ rfl rfl
      refine Stop.request ?_ rfl rfl
      simp only [Bool.not_true, Bool.false_eq_true, if_false]
      cases optOrder opt with
      | none =>
        dsimp only
        simp only [bind_assoc]
        exact Stop.liftBind fun q => Stop.pure _
      | amd =>
        dsimp only
        exact Stop.liftBind fun r => Stop.pure _
      | colamd =>
        dsimp only
        simp only [bind_assoc]
        refine Stop.request ?_ rfl rfl
        simp only [Bool.not_true, Bool.false_eq_true, if_false]
        exact Stop.liftBind fun q => Stop.liftBind fun A2 => Stop.liftBind fun r => Stop.pure _

theorem SLIP_LU_factorizeF_stop (nc : Int → Int → ℚ → Bool) (init : Bool) (L U rhos : Handle Mat)
    (pinv : Handle (Arr Int)) (A : Option Mat) (S : Option Analysis) (opt : Option Options) :
    Stop (fun r => NoMem r.info ∧ r.L = some none ∧ r.U = some none ∧ r.rhos = some none ∧ r.pinv = some none)
      (SLIP_LU_factorizeF nc init L U rhos pinv A S opt) (SLIP_LU_factorize nc init L U rhos pinv A S opt) := by
  unfold SLIP_LU_factorizeF SLIP_LU_factorize
  cases init with
  | false => exact Stop.pure _
  | true =>
    simp only [Bool.not_true, Bool.false_eq_true, if_false]
    cases A with
    | none => exact Stop.pure _
    | some A =>
      dsimp only
      by_cases h1 : A.kind ≠ .csc
      · rw [if_pos h1, if_pos h1]; exact Stop.pure _
      rw [if_neg h1, if_neg h1]
      by_cases h2 : A.type ≠ .mpz
      · rw [if_pos h2, if_pos h2]; exact Stop.pure _
      rw [if_neg h2, if_neg h2]
      refine Stop.liftBind fun anz => ?_
      cases S with
      | none => exact Stop.pure _
      | some S =>
        dsimp only
        by_cases h3 : L = none ∨ U = none ∨ rhos = none ∨ pinv = none ∨ anz < 0
        · rw [if_pos h3, if_pos h3]; exact Stop.pure _
        rw [if_neg h3, if_neg h3]
        exact Stop.wrap (factorizeF_flk ..) ⟨_, rfl, Or.inl rfl, rfl, rfl, rfl, rfl⟩
          ⟨_, rfl, Or.inr rfl, rfl, rfl, rfl, rfl⟩

theorem SLIP_LU_solveF_stop (init : Bool) (x : Handle Mat) (b A L U rhos : Option Mat)
    (S : Option Analysis) (pinv : Option (Arr Int)) (opt : Option Options) :
    Stop (fun r => NoMem r.1 ∧ r.2 = some none) (SLIP_LU_solveF init x b A L U rhos S pinv opt)
      (SLIP_LU_solve init x b A L U rhos S pinv opt) := by
  unfold SLIP_LU_solveF SLIP_LU_solve
  cases init with
  | false => exact Stop.pure _
  | true =>
    simp only [Bool.not_true, Bool.false_eq_true, if_false]
    by_cases h1 : requireFails b .dense .mpz = true
    · rw [if_pos h1, if_pos h1]; exact Stop.pure _
    rw [if_neg h1, if_neg h1]
    by_cases h2 : requireFails A .csc .mpz = true
    · rw [if_pos h2, if_pos h2]; exact Stop.pure _
    rw [if_neg h2, if_neg h2]
    by_cases h3 : requireFails L .csc .mpz = true
    · rw [if_pos h3, if_pos h3]; exact Stop.pure _
    rw [if_neg h3, if_neg h3]
    by_cases h4 : requireFails U .csc .mpz = true
    · rw [if_pos h4, if_pos h4]; exact Stop.pure _
    rw [if_neg h4, if_neg h4]
    by_cases h5 : requireFails rhos .dense .mpz = true
    · rw [if_pos h5, if_pos h5]; exact Stop.pure _
    rw [if_neg h5, if_neg h5]
    rcases b with _ | b
    · exact Stop.pure _
    rcases A with _ | A
    · exact Stop.pure _
    rcases L with _ | L
    · exact Stop.pure _
    rcases U with _ | U
    · exact Stop.pure _
    rcases rhos with _ | rhos
    · exact Stop.pure _
    rcases S with _ | S
    · exact Stop.pure _
    rcases pinv with _ | pinv
    · exact Stop.pure _
    · dsimp only
      by_cases h6 : x = none ∨ L.m ≠ A.m ∨ L.n ≠ U.m ∨ U.n ≠ A.n ∨ A.n ≠ A.m ∨ A.m ≠ b.m
      · rw [if_pos h6, if_pos h6]; exact Stop.pure _
      rw [if_neg h6, if_neg h6]
      exact Stop.wrap (luSolveF_flk ..) ⟨_, rfl, Or.inl rfl, rfl⟩ ⟨_, rfl, Or.inr rfl, rfl⟩

/-- If as many requests are granted as the run with unlimited memory makes, the run is that one. -/
theorem Stop.enough {α : Type} {P : α → Prop} {m : F α} {c : C α} (h : Stop P m c) (ω : ℕ → Bool) (t : ℕ)
    (hω : ∀ s, t ≤ s → s < (m (fun _ => false) t).2 → ω s = false) :
    m ω t = m (fun _ => false) t ∧ (m ω t).1 = c := by
  have e := (h.det (fun _ => false) ω t).2 hω
  refine ⟨e, ?_⟩
  rw [e]
  rcases (h.out (fun _ => false) t).2 with ⟨-, s, -, -, hs⟩ | ⟨h1, -⟩
  · cases hs
  · exact h1

end Slip.Flaky
