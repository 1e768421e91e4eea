import Verif.Model.FlakyCopy
import Verif.Proof.Flaky

/-!
# `SLIP_matrix_copy` with refused memory is the unlimited one, cut short, but for the scale
-/

namespace Slip.Flaky

theorem allocateF_flk (kind : Kind) (type : Ty) (m n nzmax : Int) (shallow init : Bool) :
    Flk (allocateF kind type m n nzmax shallow init) (Slip.allocate kind type m n nzmax shallow init) := by
  unfold allocateF
  by_cases h : m < 0 ∨ n < 0 ∨ kind.ok = false ∨ type.ok = false
  · rw [if_pos h]
    unfold Slip.allocate
    rw [if_pos h]
    exact Flk.lift _
  · rw [if_neg h]
    cases shallow with
    | true => exact Flk.need_then (Flk.gmp_then (Flk.gmp_then (Flk.lift _)))
    | false => exact Flk.allocate_then (Flk.lift _)

macro_rules | `(tactic| flk_leaf) => `(tactic| with_reducible exact allocateF_flk ..)

macro "flkc" : tactic => `(tactic| repeat' first
  | flk_leaf
  | with_reducible apply Flk.gmp_then
  | with_reducible apply Flk.need_then
  | with_reducible apply Flk.allocate_then
  | with_reducible apply Flk.bind
  | with_reducible apply Flk.forRange
  | intro _
  | split)

theorem slip_expand_mpq_arrayF_flk (x_out : Arr Int) (x : Arr ℚ) (n : Int) :
    Flk (slip_expand_mpq_arrayF x_out x n) (slip_expand_mpq_array x_out x n) := by
  unfold slip_expand_mpq_arrayF slip_expand_mpq_array
  flkc

macro_rules | `(tactic| flk_leaf) => `(tactic| with_reducible exact slip_expand_mpq_arrayF_flk ..)

theorem gcdLoopF_flk (x : Arr Int) : ∀ (c : ℕ) (i : Int) (s : Option (Int × Int)),
    Flk (gcdLoopF x c i s) (gcdLoop x c i s)
  | 0, i, none => Flk.pure _
  | 0, i, some _ => Flk.pure _
  | c + 1, i, none => by
    unfold gcdLoopF gcdLoop
    refine Flk.bind (Flk.lift _) fun v => ?_
    split
    · exact Flk.gmp_then (gcdLoopF_flk x c (i + 1) _)
    · exact gcdLoopF_flk x c (i + 1) _
  | c + 1, i, some (k, g) => by
    unfold gcdLoopF gcdLoop
    refine Flk.bind (Flk.lift _) fun v => Flk.gmp_then ?_
    dsimp only
    split
    · exact Flk.pure _
    · exact gcdLoopF_flk x c (i + 1) _

macro_rules | `(tactic| flk_leaf) => `(tactic| with_reducible exact gcdLoopF_flk ..)

theorem reduceGcdF_flk (x_out : Arr Int) (scale : ℚ) (n : Int) :
    Flk (reduceGcdF x_out scale n) (reduceGcd x_out scale n) := by
  unfold reduceGcdF reduceGcd
  refine Flk.gmp_then (Flk.bind (gcdLoopF_flk ..) fun r => ?_)
  rcases r with _ | ⟨k, g, _ | _⟩
  · exact Flk.pure _
  · dsimp only
    refine Flk.bind (by flkc) fun x => Flk.gmp_then (Flk.gmp_then (Flk.pure _))
  · exact Flk.pure _

macro_rules | `(tactic| flk_leaf) => `(tactic| with_reducible exact reduceGcdF_flk ..)

theorem slip_expand_double_arrayF_flk (opt : Option Options) (x_out : Arr Int) (x : Arr Dbl) (n : Int) :
    Flk (slip_expand_double_arrayF opt x_out x n) (slip_expand_double_array opt x_out x n) := by
  unfold slip_expand_double_arrayF slip_expand_double_array
  flkc

macro_rules | `(tactic| flk_leaf) => `(tactic| with_reducible exact slip_expand_double_arrayF_flk ..)

theorem slip_expand_mpfr_arrayF_flk (opt : Option Options) (x_out : Arr Int) (x : Arr Dbl) (n : Int) :
    Flk (slip_expand_mpfr_arrayF opt x_out x n) (slip_expand_mpfr_array opt x_out x n) := by
  unfold slip_expand_mpfr_arrayF slip_expand_mpfr_array
  flkc

macro_rules | `(tactic| flk_leaf) => `(tactic| with_reducible exact slip_expand_mpfr_arrayF_flk ..)

theorem call_flk {β : Type} (c : C β) : Flk (call c) c := Flk.gmp_then (Flk.lift _)

macro_rules | `(tactic| flk_leaf) => `(tactic| with_reducible exact call_flk ..)

theorem Flk.temp_then {β : Type} {xs : ℚ} {f : Unit → F β} {c : C β} (hf : Flk (f ()) c) : Flk (tempF xs >>= f) c := by
  unfold tempF
  split
  · exact Flk.step (Flk.pure _) hf
  · exact Flk.gmp_then hf

theorem unscaleZF_flk (xs : ℚ) (v : ℤ) : Flk (unscaleZF xs v) (unscaleZ xs v) := by
  unfold unscaleZF
  refine Flk.gmp_then ?_
  by_cases h : xs = 1
  · rw [if_pos h]; exact Flk.lift _
  · rw [if_neg h]; exact Flk.gmp_then (Flk.lift _)

macro_rules | `(tactic| flk_leaf) => `(tactic| with_reducible exact unscaleZF_flk ..)

theorem castLoopF_flk {α β : Type} {f : Int → α → F β} {g : Int → α → C β} (h : ∀ k v, Flk (f k v) (g k v))
    (y : Arr β) (x : Arr α) (n : Int) : Flk (castLoopF f y x n) (castLoop g y x n) := by
  unfold castLoopF castLoop
  refine Flk.forRange fun k y => Flk.bind (Flk.lift _) fun v => Flk.bind (h k v) fun w => Flk.lift _

theorem slip_cast_arrayF_flk (fp : Fp) (opt : Option Options) (Y X : Option Vals) (n : Int) (ys xs : ℚ) :
    Flk (slip_cast_arrayF fp opt Y X n ys xs) (slip_cast_array fp opt Y X n ys xs) := by
  have loop : ∀ {α β : Type} {f : Int → α → F β} {g : Int → α → C β} {y : Arr β} {x : Arr α} {h : Arr β → Vals × ℚ}
      {h' : Arr β → F (Vals × ℚ)}, (∀ y, Flk (h' y) (.ok (h y))) →
      (∀ k v, Flk (f k v) (g k v)) →
      Flk (castLoopF f y x n >>= h') (castLoop g y x n >>= fun y => pure (h y)) :=
    fun hh hl => Flk.bind (castLoopF_flk hl _ _ _) fun y => hh y
  rcases Y with _ | Y
  · exact Flk.lift _
  rcases X with _ | X
  · cases Y <;> exact Flk.lift _
  cases Y <;> cases X <;> unfold slip_cast_arrayF slip_cast_array <;> dsimp only
  all_goals first
    | exact Flk.bind (by flk_leaf) fun r => Flk.pure _
    | exact loop (fun _ => Flk.pure _) fun _ _ => by flk_leaf
    | exact loop (fun _ => Flk.gmp_then (Flk.pure _)) fun _ _ => by flk_leaf
    | skip
  · exact Flk.temp_then (loop (fun _ => Flk.pure _) fun _ _ =>
      Flk.bind (unscaleZF_flk _ _) fun q => Flk.temp_then (Flk.pure _))
  · refine Flk.temp_then (loop (fun _ => Flk.pure _) fun _ _ => ?_)
    split
    · exact call_flk _
    · exact Flk.bind (unscaleZF_flk _ _) fun q => Flk.gmp_then (Flk.lift _)
  · refine Flk.temp_then (loop (fun _ => Flk.pure _) fun _ _ => ?_)
    split
    · exact call_flk _
    · exact Flk.bind (unscaleZF_flk _ _) fun q => Flk.gmp_then (Flk.pure _)

macro_rules | `(tactic| flk_leaf) => `(tactic| with_reducible exact slip_cast_arrayF_flk ..)

theorem slip_cast_matrixF_flk (fp : Fp) (opt : Option Options) (type : Ty) (A : Mat) :
    Flk (slip_cast_matrixF fp opt type A) (slip_cast_matrix fp opt type A) := by
  unfold slip_cast_matrixF slip_cast_matrix
  flkc

macro_rules | `(tactic| flk_leaf) => `(tactic| with_reducible exact slip_cast_matrixF_flk ..)

theorem withValsF_flk {β : Type} (opt : Option Options) (c y : Option Vals)
    {f : {α : Type} → Bool → Elt α → Arr α → Arr α → F (Arr α × β)}
    {g : {α : Type} → Elt α → Arr α → Arr α → C (Arr α × β)}
    (h : ∀ {α : Type} (b : Bool) (e : Elt α) (c y : Arr α), Flk (f b e c y) (g e c y)) :
    Flk (withValsF opt c y f) (withVals opt c y g) := by
  rcases c with _ | c
  · exact Flk.lift _
  rcases y with _ | y
  · cases c <;> exact Flk.lift _
  cases c <;> cases y <;> unfold withValsF withVals <;> dsimp only
  all_goals first
    | exact Flk.lift _
    | exact Flk.bind (h _ _ _ _) fun r => Flk.pure _

theorem storeF_flk {α : Type} (w : Bool) (a : Arr α) (i : Int) (v : α) : Flk (storeF w a i v) (zset a i v) := by
  unfold storeF
  split
  · exact Flk.zset _ _ _
  · exact Flk.lift _

macro_rules | `(tactic| flk_leaf) => `(tactic| with_reducible exact storeF_flk ..)

theorem buildCscF_flk {α : Type} (w : Bool) (e : Elt α) (Ai Aj : Arr Int) (nz : Int) (W Ci : Arr Int)
    (Cx Yx : Arr α) : Flk (buildCscF w e Ai Aj nz W Ci Cx Yx) (buildCsc e Ai Aj nz W Ci Cx Yx) := by
  unfold buildCscF buildCsc
  flkc

theorem buildFromDenseF_flk {α : Type} (w : Bool) (e : Elt α) (m n : Int) (Cp Ci : Arr Int) (Cx Yx : Arr α) :
    Flk (buildFromDenseF w e m n Cp Ci Cx Yx) (buildFromDense e m n Cp Ci Cx Yx) := by
  unfold buildFromDenseF buildFromDense
  flkc

theorem scatterCscF_flk {α : Type} (w : Bool) (e : Elt α) (m n : Int) (Ap Ai : Arr Int) (Cx Yx : Arr α) :
    Flk (scatterCscF w e m n Ap Ai Cx Yx) (scatterCsc e m n Ap Ai Cx Yx) := by
  unfold scatterCscF scatterCsc
  flkc

theorem scatterTripletF_flk {α : Type} (w : Bool) (e : Elt α) (m nz : Int) (Ai Aj : Arr Int) (Cx Yx : Arr α) :
    Flk (scatterTripletF w e m nz Ai Aj Cx Yx) (scatterTriplet e m nz Ai Aj Cx Yx) := by
  unfold scatterTripletF scatterTriplet
  flkc

theorem copyCscCscF_flk (fp : Fp) (opt : Option Options) (type : Ty) (A : Mat) (nz : Int) :
    Flk (copyCscCscF fp opt type A nz) (copyCscCsc fp opt type A nz) := by
  unfold copyCscCscF copyCscCsc
  flkc

theorem copyCscTripletF_flk (fp : Fp) (opt : Option Options) (type : Ty) (A : Mat) (nz : Int) :
    Flk (copyCscTripletF fp opt type A nz) (copyCscTriplet fp opt type A nz) := by
  unfold copyCscTripletF copyCscTriplet
  flkc

theorem copyTripletTripletF_flk (fp : Fp) (opt : Option Options) (type : Ty) (A : Mat) (nz : Int) :
    Flk (copyTripletTripletF fp opt type A nz) (copyTripletTriplet fp opt type A nz) := by
  unfold copyTripletTripletF copyTripletTriplet
  flkc

theorem copyDenseDenseF_flk (fp : Fp) (opt : Option Options) (type : Ty) (A : Mat) (nz : Int) :
    Flk (copyDenseDenseF fp opt type A nz) (copyDenseDense fp opt type A nz) := by
  unfold copyDenseDenseF copyDenseDense
  flkc

/-! ## The ignored status -/

/-- The result with another scale. -/
def setScale (σ : ℚ) (M : Mat) : C Mat := pure { M with scale := σ }

theorem Flk.bindk {α β γ : Type} {m : F α} {c : C α} {f : α → F γ} {g : α → C β} {k : β → C γ} (h : Flk m c)
    (hf : ∀ a, Flk (f a) (g a >>= k)) : Flk (m >>= f) ((c >>= g) >>= k) := by
  rw [bind_assoc]
  exact Flk.bind h hf

/-- `m` is the computation `c`, except that it ends early when a request is refused, or is `c'` though a request was refused. -/
structure Amb {α : Type} (m : F α) (c c' : C α) : Prop where
  det : Det m
  out : ∀ ω t, t ≤ (m ω t).2 ∧
    ((Refused (m ω t).1 ∧ ∃ s, t ≤ s ∧ s < (m ω t).2 ∧ ω s = true) ∨
     ((m ω t).1 = c ∧ ∀ s, t ≤ s → s < (m ω t).2 → ω s = false) ∨
     ((m ω t).1 = c' ∧ ∃ s, t ≤ s ∧ s < (m ω t).2 ∧ ω s = true))

namespace Amb

variable {α β γ : Type}

theorem bind {m : F α} {c : C α} {f : α → F β} {g g' : α → C β} (h : Flk m c) (hf : ∀ a, Amb (f a) (g a) (g' a)) :
    Amb (m >>= f) (c >>= g) (c >>= g') := by
  refine ⟨Det.bind h.det fun a => (hf a).det, ?_⟩
  intro ω t
  rw [bind_def]
  have := h.out ω t
  rcases hm : m ω t with ⟨r, t'⟩
  rw [hm] at this
  dsimp only at this
  obtain ⟨ht, hr | ⟨rfl, hr⟩⟩ := this
  · obtain ⟨hr, hs⟩ := hr
    rcases hr with rfl | rfl
    · exact ⟨ht, Or.inl ⟨Or.inl rfl, hs⟩⟩
    · exact ⟨ht, Or.inl ⟨Or.inr rfl, hs⟩⟩
  · cases r with
    | error e => exact ⟨ht, Or.inr (Or.inl ⟨rfl, hr⟩)⟩
    | ok a =>
      dsimp only
      obtain ⟨h1, h2⟩ := (hf a).out ω t'
      refine ⟨ht.trans h1, ?_⟩
      rcases h2 with ⟨h2, s, hs1, hs2, hs3⟩ | ⟨h2, h3⟩ | ⟨h2, s, hs1, hs2, hs3⟩
      · exact Or.inl ⟨h2, s, ht.trans hs1, hs2, hs3⟩
      · refine Or.inr (Or.inl ⟨h2, fun s hs1 hs2 => ?_⟩)
        by_cases hlt : s < t'
        · exact hr s hs1 hlt
        · exact h3 s (by omega) hs2
      · exact Or.inr (Or.inr ⟨h2, s, ht.trans hs1, hs2, hs3⟩)

theorem bindk {m : F α} {c : C α} {f : α → F β} {g : α → C β} {k : β → C β} (h : Flk m c)
    (hf : ∀ a, Amb (f a) (g a) (g a >>= k)) : Amb (m >>= f) (c >>= g) ((c >>= g) >>= k) := by
  rw [bind_assoc]
  exact bind h hf

/-- A request whose answer does not stop the program. -/
theorem ignored {f : Bool → F β} {c c' : C β} (h1 : Flk (f true) c) (h2 : Flk (f false) c') :
    Amb (Flaky.request >>= f) c c' := by
  refine ⟨Det.bind Det.request fun b => by cases b <;> [exact h2.det; exact h1.det], ?_⟩
  intro ω t
  rw [Cut.request_def]
  rcases hω : ω t with _ | _
  · rw [show (!false) = true from rfl]
    obtain ⟨ht, h⟩ := h1.out ω (t + 1)
    refine ⟨by omega, ?_⟩
    rcases h with ⟨hr, s, hs1, hs2, hs3⟩ | ⟨hr, hs⟩
    · exact Or.inl ⟨hr, s, by omega, hs2, hs3⟩
    · refine Or.inr (Or.inl ⟨hr, fun s hs1 hs2 => ?_⟩)
      by_cases hst : s = t
      · rw [hst, hω]
      · exact hs s (by omega) hs2
  · rw [show (!true) = false from rfl]
    obtain ⟨ht, h⟩ := h2.out ω (t + 1)
    refine ⟨by omega, ?_⟩
    rcases h with ⟨hr, -⟩ | ⟨hr, -⟩
    · exact Or.inl ⟨hr, t, le_refl _, by omega, hω⟩
    · exact Or.inr (Or.inr ⟨hr, t, le_refl _, by omega, hω⟩)

theorem need_then {f : Unit → F β} {c c' : C β} (hf : Amb (f ()) c c') : Amb (need .outOfMemory >>= f) c c' := by
  have := bind Flk.need_out (g := fun _ => c) (g' := fun _ => c') fun _ => hf
  exact this

theorem of_flk {m : F α} {c c' : C α} (h : Flk m c) : Amb m c c' := by
  refine ⟨h.det, fun ω t => ?_⟩
  obtain ⟨h1, h2⟩ := h.out ω t
  exact ⟨h1, h2.imp id Or.inl⟩

end Amb

variable (junk : ℚ) (fp : Fp) (opt : Option Options) (type : Ty) (A : Mat) (nz : Int)

theorem copyTripletCscF_amb : Amb (copyTripletCscF junk fp opt type A nz) (copyTripletCsc fp opt type A nz)
    (copyTripletCsc fp opt type A nz >>= setScale junk) := by
  unfold copyTripletCscF copyTripletCsc
  refine Amb.bindk (slip_cast_matrixF_flk ..) fun r => ?_
  obtain ⟨y, s⟩ := r
  dsimp only
  refine Amb.need_then (Amb.bindk (allocateF_flk ..) fun c => ?_)
  refine Amb.ignored ?_ ?_
  · refine Flk.bind (Flk.lift _) fun W => Flk.bind (Flk.lift _) fun r => ?_
    exact Flk.bind (withValsF_flk _ _ _ fun b e c y => buildCscF_flk ..) fun v => Flk.pure _
  · refine Flk.bindk (Flk.lift _) fun W => Flk.bindk (Flk.lift _) fun r => ?_
    exact Flk.bindk (withValsF_flk _ _ _ fun b e c y => buildCscF_flk ..) fun v => Flk.pure _

theorem copyDenseCscF_amb : Amb (copyDenseCscF junk fp opt type A nz) (copyDenseCsc fp opt type A nz)
    (copyDenseCsc fp opt type A nz >>= setScale junk) := by
  unfold copyDenseCscF copyDenseCsc
  refine Amb.bindk (slip_cast_matrixF_flk ..) fun r => ?_
  obtain ⟨y, s⟩ := r
  dsimp only
  refine Amb.bindk (Flk.lift _) fun r => ?_
  obtain ⟨v, actual⟩ := r
  dsimp only
  refine Amb.bindk (allocateF_flk ..) fun c => ?_
  refine Amb.ignored ?_ ?_
  · exact Flk.bind (withValsF_flk _ _ _ fun b e c y => buildFromDenseF_flk ..) fun v => Flk.pure _
  · exact Flk.bindk (withValsF_flk _ _ _ fun b e c y => buildFromDenseF_flk ..) fun v => Flk.pure _

theorem copyCscDenseF_amb : Amb (copyCscDenseF junk fp opt type A nz) (copyCscDense fp opt type A nz)
    (copyCscDense fp opt type A nz >>= setScale junk) := by
  unfold copyCscDenseF copyCscDense
  refine Amb.bindk (allocateF_flk ..) fun c => ?_
  refine Amb.bindk (slip_cast_matrixF_flk ..) fun r => ?_
  obtain ⟨y, s⟩ := r
  dsimp only
  refine Amb.ignored ?_ ?_
  · exact Flk.bind (withValsF_flk _ _ _ fun b e c y => Flk.bind (scatterCscF_flk ..) fun _ => Flk.pure _) fun v => Flk.pure _
  · exact Flk.bindk (withValsF_flk _ _ _ fun b e c y => Flk.bind (scatterCscF_flk ..) fun _ => Flk.pure _) fun v => Flk.pure _

theorem copyTripletDenseF_amb : Amb (copyTripletDenseF junk fp opt type A nz) (copyTripletDense fp opt type A nz)
    (copyTripletDense fp opt type A nz >>= setScale junk) := by
  unfold copyTripletDenseF copyTripletDense
  refine Amb.bindk (allocateF_flk ..) fun c => ?_
  refine Amb.bindk (slip_cast_matrixF_flk ..) fun r => ?_
  obtain ⟨y, s⟩ := r
  dsimp only
  refine Amb.ignored ?_ ?_
  · exact Flk.bind (withValsF_flk _ _ _ fun b e c y => Flk.bind (scatterTripletF_flk ..) fun _ => Flk.pure _) fun v => Flk.pure _
  · exact Flk.bindk (withValsF_flk _ _ _ fun b e c y => Flk.bind (scatterTripletF_flk ..) fun _ => Flk.pure _) fun v => Flk.pure _

theorem Amb.andThen {α β : Type} {m : F α} {c c' : C α} {f : α → F β} {g : α → C β} (h : Amb m c c')
    (hf : ∀ a, Flk (f a) (g a)) : Amb (m >>= f) (c >>= g) (c' >>= g) := by
  refine ⟨Det.bind h.det fun a => (hf a).det, ?_⟩
  intro ω t
  rw [bind_def]
  have := h.out ω t
  rcases hm : m ω t with ⟨r, t'⟩
  rw [hm] at this
  dsimp only at this
  obtain ⟨ht, hr | ⟨rfl, hr⟩ | ⟨rfl, hr⟩⟩ := this
  · obtain ⟨hr, hs⟩ := hr
    rcases hr with rfl | rfl
    · exact ⟨ht, Or.inl ⟨Or.inl rfl, hs⟩⟩
    · exact ⟨ht, Or.inl ⟨Or.inr rfl, hs⟩⟩
  · cases r with
    | error e => exact ⟨ht, Or.inr (Or.inl ⟨rfl, hr⟩)⟩
    | ok a =>
      dsimp only
      obtain ⟨h1, h2⟩ := (hf a).out ω t'
      refine ⟨ht.trans h1, ?_⟩
      rcases h2 with ⟨h2, s, hs1, hs2, hs3⟩ | ⟨h2, h3⟩
      · exact Or.inl ⟨h2, s, ht.trans hs1, hs2, hs3⟩
      · refine Or.inr (Or.inl ⟨h2, fun s hs1 hs2 => ?_⟩)
        by_cases hlt : s < t'
        · exact hr s hs1 hlt
        · exact h3 s (by omega) hs2
  · obtain ⟨s, hs1, hs2, hs3⟩ := hr
    cases r with
    | error e => exact ⟨ht, Or.inr (Or.inr ⟨rfl, s, hs1, hs2, hs3⟩)⟩
    | ok a =>
      dsimp only
      obtain ⟨h1, h2⟩ := (hf a).out ω t'
      refine ⟨ht.trans h1, ?_⟩
      rcases h2 with ⟨h2, -⟩ | ⟨h2, -⟩
      · exact Or.inl ⟨h2, s, hs1, by omega, hs3⟩
      · exact Or.inr (Or.inr ⟨h2, s, hs1, by omega, hs3⟩)

/-- The values are of the given type. -/
def ConOk : Ty → Vals → Prop
  | .mpz, .mpz _ => True
  | .mpq, .mpq _ => True
  | .mpfr, .mpfr _ => True
  | .int64, .int64 _ => True
  | .fp64, .fp64 _ => True
  | _, _ => False

theorem allocate_ok {kind : Kind} {type : Ty} {m n nzmax : Int} {c : Mat}
    (h : Slip.allocate kind type m n nzmax false true = .ok c) : c.scale = 1 ∧ ∃ N, c.x = newVals type N true := by
  unfold Slip.allocate at h
  by_cases hb : m < 0 ∨ n < 0 ∨ kind.ok = false ∨ type.ok = false
  · rw [if_pos hb] at h; cases h
  · rw [if_neg hb] at h
    simp only [Bool.false_eq_true, if_false] at h
    cases h
    exact ⟨rfl, _, rfl⟩

theorem withVals_con {β : Type} {type : Ty} {N : Int} {y : Option Vals}
    {f : {α : Type} → Elt α → Arr α → Arr α → C (Arr α × β)} {v : Vals} {b : β}
    (h : withVals opt (newVals type N true) y f = .ok (v, b)) : ConOk type v := by
  rcases y with _ | y
  · cases type <;> cases h
  cases type <;> cases y <;> unfold withVals newVals at h <;> dsimp only at h
  all_goals first
    | cases h; done
    | skip
  all_goals
    revert h
    generalize f _ _ _ = r
    intro h
    rcases r with e | ⟨a, b'⟩
    · cases h
    · cases h; trivial

theorem cast_same {N n : Int} {v : Vals} (hv : ConOk type v) (ys xs σ : ℚ) :
    slip_cast_array fp opt (newVals type N true) (some v) n ys σ =
      slip_cast_array fp opt (newVals type N true) (some v) n ys xs >>= fun r =>
        pure (r.1, if type = .mpz then σ else ys) := by
  cases type <;> cases v <;> first
    | exact hv.elim
    | skip
  all_goals
    unfold slip_cast_array newVals
    dsimp only
    generalize castLoop _ _ _ _ = r
    rcases r with e | y
    · rfl
    · rfl

theorem copyDenseCsc_con {t : Mat} (h : copyDenseCsc fp opt type A nz = .ok t) : ∃ v, t.x = some v ∧ ConOk type v := by
  unfold copyDenseCsc at h
  rcases h1 : slip_cast_matrix fp opt type A with e | ⟨y, s⟩
  · rw [h1] at h; cases h
  rw [h1, ok_bind] at h
  dsimp only at h
  revert h
  generalize (withVals opt y y _ : C (Vals × Int)) = r
  intro h
  rcases r with e | ⟨v, actual⟩
  · cases h
  rw [ok_bind] at h
  dsimp only at h
  rcases h2 : Slip.allocate .csc type A.m A.n actual false true with e | c
  · rw [h2] at h; cases h
  rw [h2, ok_bind] at h
  obtain ⟨-, N, hN⟩ := allocate_ok h2
  rw [hN] at h
  rcases h3 : (withVals opt (newVals type N true) y fun e Cx Yx =>
      buildFromDense e A.m A.n (deref c.p) (deref c.i) Cx Yx) with e | ⟨x, p, i⟩
  · rw [h3] at h; cases h
  rw [h3, ok_bind] at h
  cases h
  exact ⟨x, rfl, withVals_con opt h3⟩

theorem copyCscTriplet_scale {t : Mat} {tnz : Int} (ht : ∃ v, t.x = some v ∧ ConOk type v) (σ : ℚ) :
    copyCscTriplet fp opt type { t with scale := σ } tnz =
      copyCscTriplet fp opt type t tnz >>= setScale (if type = .mpz then σ else 1) := by
  obtain ⟨v, hv, hc⟩ := ht
  unfold copyCscTriplet
  dsimp only
  rcases h2 : Slip.allocate .triplet type t.m t.n tnz false true with e | c
  · rfl
  obtain ⟨h1, N, hN⟩ := allocate_ok h2
  rw [ok_bind, ok_bind, hN, hv, h1, cast_same fp opt type hc 1 t.scale σ]
  rcases slip_cast_array fp opt (newVals type N true) (some v) tnz 1 t.scale with e | ⟨x, s⟩
  · rfl
  rw [ok_bind, ok_bind]
  dsimp only
  generalize (copyInts (deref c.i) (deref t.i) tnz) = r
  rcases r with e | i
  · rfl
  rw [ok_bind]
  generalize (forRange 0 t.n (deref c.j) _ : C (Arr Int)) = r
  rcases r with e | j
  · rfl
  · rfl

theorem copyDenseTripletF_amb : Amb (copyDenseTripletF junk fp opt type A nz) (copyDenseTriplet fp opt type A nz)
    (copyDenseTriplet fp opt type A nz >>= setScale (if type = .mpz then junk else 1)) := by
  unfold copyDenseTripletF copyDenseTriplet
  have := (copyDenseCscF_amb junk fp opt type A nz).andThen (f := fun t => do
      let tnz ← lift (SLIP_matrix_nnz true (some t))
      let c ← copyCscTripletF fp opt type t tnz
      pure { c with nz := nz })
    (g := fun t => do
      let tnz ← SLIP_matrix_nnz true (some t)
      let c ← copyCscTriplet fp opt type t tnz
      pure { c with nz := nz })
    fun t => Flk.bind (Flk.lift _) fun tnz => Flk.bind (copyCscTripletF_flk ..) fun c => Flk.pure _
  have e : (copyDenseCsc fp opt type A nz >>= setScale junk >>= fun t => do
      let tnz ← SLIP_matrix_nnz true (some t)
      let c ← copyCscTriplet fp opt type t tnz
      pure { c with nz := nz }) = (copyDenseCsc fp opt type A nz >>= fun t => do
      let tnz ← SLIP_matrix_nnz true (some t)
      let c ← copyCscTriplet fp opt type t tnz
      pure { c with nz := nz }) >>= setScale (if type = .mpz then junk else 1) := by
    rcases h : copyDenseCsc fp opt type A nz with e | t
    · rfl
    · have hc := copyDenseCsc_con fp opt type A nz h
      rw [ok_bind, ok_bind]
      unfold setScale
      rw [show (pure { t with scale := junk } : C Mat) = .ok { t with scale := junk } from rfl, ok_bind]
      rw [show SLIP_matrix_nnz true (some { t with scale := junk }) = SLIP_matrix_nnz true (some t) from rfl]
      rcases SLIP_matrix_nnz true (some t) with e | tnz
      · rfl
      rw [ok_bind, ok_bind, copyCscTriplet_scale fp opt type hc]
      rcases copyCscTriplet fp opt type t tnz with e | c
      · rfl
      · rfl
  rw [e] at this
  exact this

theorem copyBodyF_amb (kind : Kind) : Amb (copyBodyF junk fp opt kind type A nz) (copyBody fp opt kind type A nz)
    (copyBody fp opt kind type A nz >>= setScale
      (if kind = .triplet ∧ A.kind = .dense ∧ type ≠ .mpz then 1 else junk)) := by
  unfold copyBodyF copyBody
  have e1 : ∀ {k k' : Kind}, (k = .triplet → k' = .dense → False) →
      (if k = .triplet ∧ k' = .dense ∧ type ≠ .mpz then (1 : ℚ) else junk) = junk :=
    fun h => if_neg fun h' => h h'.1 h'.2.1
  rcases hA : A.kind with _ | _ | _ | _ <;> rcases kind with _ | _ | _ | _
  · exact Amb.of_flk (copyCscCscF_flk fp opt type A nz)
  · exact Amb.of_flk (copyCscTripletF_flk fp opt type A nz)
  · rw [e1 (by intro h1 h2; cases h1)]; exact copyCscDenseF_amb junk fp opt type A nz
  · exact Amb.of_flk (Flk.lift _)
  · rw [e1 (by intro h1 h2; cases h1)]; exact copyTripletCscF_amb junk fp opt type A nz
  · exact Amb.of_flk (copyTripletTripletF_flk fp opt type A nz)
  · rw [e1 (by intro h1 h2; cases h1)]; exact copyTripletDenseF_amb junk fp opt type A nz
  · exact Amb.of_flk (Flk.lift _)
  · rw [e1 (by intro h1 h2; cases h1)]; exact copyDenseCscF_amb junk fp opt type A nz
  rotate_left
  · exact Amb.of_flk (copyDenseDenseF_flk fp opt type A nz)
  · exact Amb.of_flk (Flk.lift _)
  · exact Amb.of_flk (Flk.lift _)
  · exact Amb.of_flk (Flk.lift _)
  · exact Amb.of_flk (Flk.lift _)
  · exact Amb.of_flk (Flk.lift _)
  have := copyDenseTripletF_amb junk fp opt type A nz
  by_cases ht : type = .mpz
  · rw [if_pos ht] at this
    rw [if_neg fun h => h.2.2 ht]
    exact this
  · rw [if_neg ht] at this
    rw [if_pos ⟨rfl, rfl, ht⟩]
    exact this

/-- The pairs of storage formats for which every status is checked. -/
def Checked (kind : Kind) (k : Kind) : Prop :=
  (k = .csc ∧ (kind = .csc ∨ kind = .triplet)) ∨ (k = .triplet ∧ kind = .triplet) ∨ (k = .dense ∧ kind = .dense)

theorem copyBodyF_flk {kind : Kind} (h : Checked kind A.kind) :
    Flk (copyBodyF junk fp opt kind type A nz) (copyBody fp opt kind type A nz) := by
  unfold copyBodyF copyBody
  rcases h with ⟨h, rfl | rfl⟩ | ⟨h, rfl⟩ | ⟨h, rfl⟩ <;> rw [h]
  · exact copyCscCscF_flk ..
  · exact copyCscTripletF_flk ..
  · exact copyTripletTripletF_flk ..
  · exact copyDenseDenseF_flk ..

theorem SLIP_matrix_copyF_det (junk : ℚ) (fp : Fp) (init : Bool) (Ch : Handle Mat) (kind : Kind) (type : Ty)
    (A : Option Mat) (opt : Option Options) : Det (SLIP_matrix_copyF junk fp init Ch kind type A opt) := by
  unfold SLIP_matrix_copyF
  by_cases h0 : (!init) = true
  · rw [if_pos h0]; exact Det.lift _
  rw [if_neg h0]
  refine Det.bind (Det.lift _) fun nz => ?_
  cases A with
  | none => exact Det.lift _
  | some A =>
    dsimp only
    by_cases h : Ch = none ∨ nz < 0 ∨ A.type.ok = false ∨ kind.ok = false ∨ type.ok = false
    · rw [if_pos h]; exact Det.lift _
    · rw [if_neg h]
      exact Det.wrap _ (copyBodyF_amb ..).det

theorem SLIP_matrix_copyF_stop {junk : ℚ} {fp : Fp} {init : Bool} {Ch : Handle Mat} {kind : Kind} {type : Ty}
    {A : Option Mat} {opt : Option Options} (hk : ∀ M, A = some M → Checked kind M.kind) :
    Stop (fun r => NoMem r.1 ∧ r.2 = some none) (SLIP_matrix_copyF junk fp init Ch kind type A opt)
      (SLIP_matrix_copy fp init Ch kind type A opt) := by
  unfold SLIP_matrix_copyF SLIP_matrix_copy
  by_cases h0 : (!init) = true
  · rw [if_pos h0, if_pos h0]; exact Stop.pure _
  rw [if_neg h0, if_neg h0]
  refine Stop.liftBind fun nz => ?_
  cases A with
  | none => exact Stop.pure _
  | some A =>
    dsimp only
    by_cases h : Ch = none ∨ nz < 0 ∨ A.type.ok = false ∨ kind.ok = false ∨ type.ok = false
    · rw [if_pos h, if_pos h]; exact Stop.pure _
    · rw [if_neg h, if_neg h]
      exact Stop.wrap (copyBodyF_flk _ _ _ _ _ _ (hk A rfl)) ⟨_, rfl, Or.inl rfl, rfl⟩ ⟨_, rfl, Or.inr rfl, rfl⟩

/-- As `Stop.bind`, for the results that the first part can have. -/
theorem Stop.bindOn {α β : Type} {P : α → Prop} {Q : β → Prop} {m : F α} {c : C α} {f : α → F β} {g : α → C β} (h : Stop P m c)
    (hP : ∀ a, P a → ∃ b, f a = Pure.pure b ∧ Q b) (hd : ∀ a, Det (f a)) (hf : ∀ a, c = .ok a → Stop Q (f a) (g a)) :
    Stop Q (m >>= f) (c >>= g) := by
  refine ⟨Det.bind h.det hd, ?_⟩
  intro ω t
  rw [bind_def]
  have := h.out ω t
  rcases hm : m ω t with ⟨r, t'⟩
  rw [hm] at this
  dsimp only at this
  obtain ⟨ht, hr | ⟨rfl, hr⟩⟩ := this
  · obtain ⟨⟨a, rfl, ha⟩, hs⟩ := hr
    dsimp only
    obtain ⟨b, e, hb⟩ := hP a ha
    rw [e]
    exact ⟨ht, Or.inl ⟨⟨b, rfl, hb⟩, hs⟩⟩
  · cases r with
    | error e => exact ⟨ht, Or.inr ⟨rfl, hr⟩⟩
    | ok a =>
      dsimp only
      obtain ⟨h1, h2⟩ := (hf a rfl).out ω t'
      refine ⟨ht.trans h1, ?_⟩
      rcases h2 with ⟨h2, s, hs1, hs2, hs3⟩ | ⟨h2, h3⟩
      · exact Or.inl ⟨h2, s, ht.trans hs1, hs2, hs3⟩
      · refine Or.inr ⟨h2, fun s hs1 hs2 => ?_⟩
        by_cases hlt : s < t'
        · exact hr s hs1 hlt
        · exact h3 s (by omega) hs2

theorem solve_dense {init : Bool} {b A L U rhos : Option Mat} {S : Option Analysis} {pinv : Option (Arr Int)}
    {opt : Option Options} {x : Handle Mat} (h : SLIP_LU_solve init (some none) b A L U rhos S pinv opt = .ok (.ok, x)) :
    ∀ M, x.join = some M → Checked .dense M.kind := by
  unfold SLIP_LU_solve at h
  by_cases h0 : (!init) = true
  · rw [if_pos h0] at h; cases h
  rw [if_neg h0] at h
  by_cases h1 : requireFails b .dense .mpz = true
  · rw [if_pos h1] at h; cases h
  rw [if_neg h1] at h
  by_cases h1 : requireFails A .csc .mpz = true
  · rw [if_pos h1] at h; cases h
  rw [if_neg h1] at h
  by_cases h1 : requireFails L .csc .mpz = true
  · rw [if_pos h1] at h; cases h
  rw [if_neg h1] at h
  by_cases h1 : requireFails U .csc .mpz = true
  · rw [if_pos h1] at h; cases h
  rw [if_neg h1] at h
  by_cases h1 : requireFails rhos .dense .mpz = true
  · rw [if_pos h1] at h; cases h
  rw [if_neg h1] at h
  rcases b with _ | b
  · cases h
  rcases A with _ | A
  · cases h
  rcases L with _ | L
  · cases h
  rcases U with _ | U
  · cases h
  rcases rhos with _ | rhos
  · cases h
  rcases S with _ | S
  · cases h
  rcases pinv with _ | pinv
  · cases h
  dsimp only at h
  by_cases h1 : (some none : Handle Mat) = none ∨ L.m ≠ A.m ∨ L.n ≠ U.m ∨ U.n ≠ A.n ∨ A.n ≠ A.m ∨ A.m ≠ b.m
  · rw [if_pos h1] at h; cases h
  rw [if_neg h1] at h
  unfold solveWrap at h
  split at h
  · cases h
    rintro M hM
    cases hM
    exact Or.inr (Or.inr ⟨rfl, rfl⟩)
  · cases h
    rintro M hM
    cases hM
  · cases h

theorem SLIP_backslashF_stop (junk : ℚ) (fp : Fp) (O : Orderings) (nc : Int → Int → ℚ → Bool) (init : Bool)
    (X : Handle Mat) (type : Ty) (A b : Option Mat) (opt : Option Options) :
    Stop (fun r => NoMem r.1 ∧ r.2 = some none) (SLIP_backslashF junk fp O nc init X type A b opt)
      (SLIP_backslash fp O nc init X type A b opt) := by
  unfold SLIP_backslashF SLIP_backslash
  by_cases h0 : (!init) = true
  · rw [if_pos h0, if_pos h0]; exact Stop.pure _
  rw [if_neg h0, if_neg h0]
  by_cases h1 : X = none
  · rw [if_pos h1, if_pos h1]; exact Stop.pure _
  rw [if_neg h1, if_neg h1]
  by_cases h2 : type ≠ .mpq ∧ type ≠ .fp64 ∧ type ≠ .mpfr
  · rw [if_pos h2, if_pos h2]; exact Stop.pure _
  rw [if_neg h2, if_neg h2]
  by_cases h3 : requireFails A .csc .mpz = true
  · rw [if_pos h3, if_pos h3]; exact Stop.pure _
  rw [if_neg h3, if_neg h3]
  by_cases h4 : requireFails b .dense .mpz = true
  · rw [if_pos h4, if_pos h4]; exact Stop.pure _
  rw [if_neg h4, if_neg h4]
  have nm : ∀ {e : Info}, NoMem e → e ≠ .ok := by
    intro e h
    rcases h with rfl | rfl <;> decide
  refine Stop.bind (SLIP_LU_analyzeF_stop ..) ?_ fun r => ?_
  · rintro _ rfl
    exact ⟨(.outOfMemory, some none), rfl, Or.inl rfl, rfl⟩
  obtain ⟨info, S⟩ := r
  dsimp only
  by_cases hi : info ≠ .ok
  · rw [if_pos hi, if_pos hi]; exact Stop.pure _
  rw [if_neg hi, if_neg hi]
  refine Stop.bind (SLIP_LU_factorizeF_stop ..) ?_ fun f => ?_
  · rintro f ⟨hn, -⟩
    exact ⟨(f.info, some none), if_pos (nm hn), hn, rfl⟩
  by_cases hi : f.info ≠ .ok
  · rw [if_pos hi, if_pos hi]; exact Stop.pure _
  rw [if_neg hi, if_neg hi]
  refine Stop.bindOn (SLIP_LU_solveF_stop ..) ?_ (fun r => ?_) fun r hr => ?_
  · rintro ⟨e, x⟩ ⟨hn, -⟩
    exact ⟨(e, some none), if_pos (nm hn), hn, rfl⟩
  · obtain ⟨info, x⟩ := r
    dsimp only
    by_cases hi : info ≠ .ok
    · rw [if_pos hi]; exact Det.lift _
    rw [if_neg hi]
    by_cases ht : type = .mpq
    · rw [if_pos ht]; exact Det.lift _
    rw [if_neg ht]
    refine Det.bind (SLIP_matrix_copyF_det _ _ _ _ _ _ _ _) fun r => ?_
    obtain ⟨info, x2⟩ := r
    dsimp only
    by_cases hi : info ≠ .ok
    · rw [if_pos hi]; exact Det.lift _
    · rw [if_neg hi]; exact Det.lift _
  obtain ⟨info, x⟩ := r
  dsimp only
  by_cases hi : info ≠ .ok
  · rw [if_pos hi, if_pos hi]; exact Stop.pure _
  rw [if_neg hi, if_neg hi]
  by_cases ht : type = .mpq
  · rw [if_pos ht, if_pos ht]; exact Stop.pure _
  rw [if_neg ht, if_neg ht]
  rw [not_not] at hi
  subst hi
  refine Stop.bind (SLIP_matrix_copyF_stop (solve_dense hr)) ?_ fun r => ?_
  · rintro ⟨e, x⟩ ⟨hn, -⟩
    exact ⟨(e, some none), if_pos (nm hn), hn, rfl⟩
  obtain ⟨info, x2⟩ := r
  dsimp only
  by_cases hi : info ≠ .ok
  · rw [if_pos hi, if_pos hi]; exact Stop.pure _
  · rw [if_neg hi, if_neg hi]; exact Stop.pure _

end Slip.Flaky
