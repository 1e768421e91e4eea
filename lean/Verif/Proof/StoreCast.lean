import Verif.Proof.StoreCopy

/-!
# `SLIP_matrix_copy` over a heap: `slip_cast_array`, `slip_cast_matrix`
-/

namespace Slip.Copy

variable {α β γ δ σ τ : Type} {h0 h : Heap}

theorem heap_ext {a b : Heap} (h1 : ∀ s, a.a s = b.a s) (h2 : a.next = b.next) : a = b := by
  cases a; cases b
  congr 1
  exact funext h1

theorem castLoop_sim {Ty : Acc β} {Tx : Acc α} {f : Int → α → C β} {r : ℕ} {x : Option ℕ} {a : Arr β} {xa : Arr α}
    {n : Int} (hr : h0.next ≤ r) (k : Keeps h0 h) (ey : h.a r = some (Ty.of a)) (ex : arr Tx h x = xa)
    (ne : x ≠ some r) :
    Sim h0 h (castLoopK Ty Tx f (some r) x n) (castLoop f a xa n)
      fun a' _ h' => h' = h.put r (some (Ty.of a')) := by
  unfold castLoopK castLoop
  refine Sim.for' (fun a' _ h' => h' = h.put r (some (Ty.of a'))) (by rw [put_self ey]) ?_
  rintro i s t h' rfl
  refine Sim.rd (by rw [arr_ne _ ne]; exact ex) (k.put hr _) fun v => Sim.lift (k.put hr _) fun w => ?_
  refine (Sim.zset' (T := Ty) (by rw [put_a, if_pos rfl]) (k.put hr _)).conseq ?_
  rintro a' - h' rfl
  exact put_put ..

theorem expand_mpq_sim {r : ℕ} {x : Option ℕ} {a : Arr Int} {xa : Arr ℚ} {n : Int} (hr : h0.next ≤ r)
    (hrn : r < h.next) (ok : h.Ok) (k : Keeps h0 h) (ey : h.a r = some (.mpz a)) (ex : arr accQ h x = xa)
    (ne : x ≠ some r) (hx : ∀ s ∈ x, s < h.next) :
    Sim h0 h (slip_expand_mpq_arrayK (some r) x n) (slip_expand_mpq_array a xa n)
      fun p s h' => s = p.2 ∧ h' = (h.put r (some (.mpz p.1))).grow 2 := by
  unfold slip_expand_mpq_arrayK slip_expand_mpq_array
  dsimp only
  refine Sim.new (Sim.new ?_)
  simp only [add_next]
  have hx' : ∀ t ∈ x, t ≠ h.next ∧ t ≠ h.next + 1 := fun t ht => by have := hx t ht; omega
  have nx0 : x ≠ some h.next := fun e => (hx' _ e).1 rfl
  have nx1 : x ≠ some (h.next + 1) := fun e => (hx' _ e).2 rfl
  have hk := k.1
  generalize e1 : (h.add (Vals.mpz (List.replicate (max n 1).toNat (some 0)))).add
    (Vals.mpq (List.replicate (max n 1).toNat (some 0))) = h1
  have k1 : Keeps h0 h1 := by rw [← e1]; exact (k.add _).add _
  have hA : ∀ s, h1.a s = if s = h.next + 1 then some (Vals.mpq (List.replicate (max n 1).toNat (some 0)))
      else if s = h.next then some (Vals.mpz (List.replicate (max n 1).toNat (some 0))) else h.a s := by
    intro s; rw [← e1]; rfl
  have ex1 : arr accQ h1 x = xa := by
    rw [← e1, arr_add accQ (fun t ht => by have := hx t ht; simp; omega), arr_add accQ hx]; exact ex
  show Sim h0 h1 _ _ _
  refine Sim.bind (Sim.for' (fun s _ h' => h' = h1.put h.next (some (.mpz s))) ?_ ?_) ?_
  · rw [put_self]; rw [hA]; rw [if_neg (by omega), if_pos rfl]
  · rintro i s t h' rfl
    refine Sim.rd (by rw [arr_ne _ nx0]; exact ex1) (k1.put hk _) fun v => ?_
    refine (Sim.zset' (T := accZ) (by rw [put_a, if_pos rfl]; rfl) (k1.put hk _)).conseq ?_
    rintro a' - h' rfl
    exact put_put ..
  rintro x3 - h' rfl
  refine Sim.rd (T := accZ) (arr_eq (T := accZ)) (k1.put hk _) fun t0 => ?_
  refine Sim.bind (Sim.for' (fun s t h' => t = s ∧ h' = h1.put h.next (some (.mpz x3))) ⟨rfl, rfl⟩ ?_) ?_
  · rintro i s t h' ⟨rfl, rfl⟩
    refine Sim.rd (T := accZ) (arr_eq (T := accZ)) (k1.put hk _) fun d => Sim.pure ⟨rfl, rfl⟩
  rintro t1 t h' ⟨rfl, rfl⟩
  refine Sim.bind (Sim.for' (fun (s : Arr ℚ × Arr Int) _ h' => h' =
    ((h1.put h.next (some (.mpz x3))).put (h.next + 1) (some (.mpq s.1))).put r (some (.mpz s.2))) ?_ ?_) ?_
  · have e : (h1.put h.next (some (Vals.mpz x3))).a (h.next + 1) = some (Vals.mpq (List.replicate (max n 1).toNat (some 0))) := by
      rw [put_a, if_neg (by omega), hA, if_pos rfl]
    rw [put_self e]
    refine (put_self ?_).symm
    rw [put_a, if_neg (by omega), hA, if_neg (by omega), if_neg (by omega)]; exact ey
  · rintro i ⟨x4, xo⟩ t h' rfl
    have kk : ∀ u w, Keeps h0 (((h1.put h.next (some (.mpz x3))).put (h.next + 1) u).put r w) := fun u w =>
      ((k1.put hk _).put (by omega) _).put hr _
    refine Sim.rd (by rw [arr_ne _ ne, arr_ne _ nx1, arr_ne _ nx0]; exact ex1) (kk _ _) fun v => ?_
    refine Sim.zset (T := accQ) (r := h.next + 1) (a := x4)
      (by rw [put_a, if_neg (by omega), put_a, if_pos rfl]; rfl) (kk _ _) fun x4' => ?_
    have e2 : (((h1.put h.next (some (Vals.mpz x3))).put (h.next + 1) (some (Vals.mpq x4))).put r (some (Vals.mpz xo))).put
        (h.next + 1) (some (accQ.of x4')) =
        ((h1.put h.next (some (Vals.mpz x3))).put (h.next + 1) (some (Vals.mpq x4'))).put r (some (Vals.mpz xo)) := by
      rw [put_comm (show r ≠ h.next + 1 by omega), put_put]; rfl
    rw [e2]
    refine Sim.rd (T := accQ) (a := x4') (arr_of accQ (by rw [put_a, if_neg (by omega), put_a, if_pos rfl]; rfl)) (kk _ _)
      fun w => ?_
    refine Sim.bindPure (Sim.zset' (T := accZ) (a := xo) (by rw [put_a, if_pos rfl]; rfl) (kk _ _)) ?_
    rintro a' - h' rfl
    exact Sim.pure (put_put ..)
  rintro ⟨x4, xo⟩ - h' rfl
  dsimp only
  refine Sim.free (by rw [put_a, if_neg (by omega), put_a, if_neg (by omega), put_a, if_pos rfl]; rfl) ?_
  refine Sim.free (by rw [put_a, if_neg (by omega), put_a, if_neg (by omega), put_a, if_pos rfl]; rfl) ?_
  refine Sim.pure ⟨rfl, ?_⟩
  rw [← e1]
  refine heap_ext (fun s => ?_) rfl
  simp only [put_a, add_a, grow_a, add_next]
  have o1 := ok h.next le_rfl
  have o2 := ok (h.next + 1) (by omega)
  by_cases c1 : s = h.next + 1
  · subst c1
    rw [if_pos rfl, if_neg (by omega), o2]
  · rw [if_neg c1]
    by_cases c2 : s = h.next
    · subst c2; rw [if_pos rfl, if_neg (by omega), o1]
    · rw [if_neg c2]
      by_cases c3 : s = r
      · rw [if_pos c3, if_pos c3]
      · simp [c1, c2, c3]

theorem gcdLoop_sim {x : Option ℕ} {xa : Arr Int} (k : Keeps h0 h) (ex : arr accZ h x = xa) :
    ∀ (c : ℕ) (i : Int) (s : Option (Int × Int)),
      Sim h0 h (gcdLoopK x c i s) (gcdLoop xa c i s) fun v w h' => w = v ∧ h' = h
  | 0, i, s => Sim.pure ⟨rfl, rfl⟩
  | c + 1, i, none => by
    unfold gcdLoopK gcdLoop
    exact Sim.rd ex k fun v => Sim.ite (fun _ => gcdLoop_sim k ex c _ _) fun _ => gcdLoop_sim k ex c _ _
  | c + 1, i, some (q, g) => by
    unfold gcdLoopK gcdLoop
    exact Sim.rd ex k fun v => Sim.ite (fun _ => Sim.pure ⟨rfl, rfl⟩) fun _ => gcdLoop_sim k ex c _ _

theorem reduceGcd_sim {r : ℕ} {a : Arr Int} {s : ℚ} {n : Int} (hr : h0.next ≤ r) (k : Keeps h0 h)
    (ey : h.a r = some (.mpz a)) :
    Sim h0 h (reduceGcdK (some r) s n) (reduceGcd a s n)
      fun p t h' => t = p.2 ∧ h' = h.put r (some (.mpz p.1)) := by
  unfold reduceGcdK reduceGcd
  refine Sim.bind (gcdLoop_sim k (arr_of accZ ey) _ _ _) ?_
  rintro v w h' ⟨rfl, rfl⟩
  match w with
  | none => exact Sim.pure ⟨rfl, (put_self ey).symm⟩
  | some (_, _, true) => exact Sim.pure ⟨rfl, (put_self ey).symm⟩
  | some (q, g, false) =>
    refine Sim.bind (Sim.for' (fun a' _ h'' => h'' = h'.put r (some (.mpz a'))) (put_self ey).symm ?_) ?_
    · rintro i s' t h'' rfl
      refine Sim.rd (T := accZ) (arr_eq (T := accZ)) (k.put hr _) fun v => Sim.lift (k.put hr _) fun d => ?_
      refine (Sim.zset' (T := accZ) (by rw [put_a, if_pos rfl]; rfl) (k.put hr _)).conseq ?_
      rintro a' - h'' rfl
      exact put_put ..
    · rintro a' - h'' rfl
      exact Sim.pure ⟨rfl, rfl⟩

/-- The heap at the end of `slip_expand_double_array` and `slip_expand_mpfr_array`. -/
theorem free_x3 {r : ℕ} (hrn : r < h.next) (ok : h.Ok) (u w : Vals) (v v' : Option Vals) :
    ((((h.add u).put h.next (some w)).put r v).put r v').put h.next none = (h.put r v').grow 1 := by
  refine heap_ext (fun s => ?_) rfl
  simp only [put_a, add_a, grow_a]
  by_cases c : s = h.next
  · subst c
    rw [if_pos rfl, if_neg (by omega), ok _ le_rfl]
  · by_cases c3 : s = r
    · subst c3; simp [c]
    · simp [c, c3]

theorem expand_double_sim {opt : Option Options} {r : ℕ} {x : Option ℕ} {a : Arr Int} {xa : Arr Dbl} {n : Int}
    (hr : h0.next ≤ r) (hrn : r < h.next) (ok : h.Ok) (k : Keeps h0 h) (ey : h.a r = some (.mpz a))
    (ex : arr accD h x = xa) (ne : x ≠ some r) (hx : ∀ s ∈ x, s < h.next) :
    Sim h0 h (slip_expand_double_arrayK opt (some r) x n) (slip_expand_double_array opt a xa n)
      fun p s h' => s = p.2 ∧ h' = (h.put r (some (.mpz p.1))).grow 1 := by
  unfold slip_expand_double_arrayK slip_expand_double_array
  dsimp only
  refine Sim.new ?_
  have nx0 : x ≠ some h.next := fun e => lt_irrefl _ (hx _ e)
  have hk := k.1
  have k1 : ∀ u, Keeps h0 (h.add u) := fun u => k.add _
  have ex1 : ∀ u, arr accD (h.add u) x = xa := fun u => by rw [arr_add accD hx]; exact ex
  refine Sim.bind (Sim.for' (fun (s : Arr Dbl × Arr Int) _ h' => h' =
    ((h.add (Vals.mpfr (List.replicate (max n 1).toNat (some .nan)))).put h.next (some (.mpfr s.1))).put r
      (some (.mpz s.2))) ?_ ?_) ?_
  · refine Eq.symm ((put_self ?_).trans (put_self ?_))
    · rw [put_a, if_neg (by omega), add_a, if_neg (by omega)]; exact ey
    · rw [add_a, if_pos rfl]
  · rintro i ⟨x3, xo⟩ t h' rfl
    generalize Vals.mpfr (List.replicate (max n 1).toNat (some .nan)) = u
    have kk : ∀ u v w, Keeps h0 (((h.add u).put h.next v).put r w) := fun u v w =>
      ((k1 u).put hk _).put hr _
    have e2 : ∀ (p p' : Arr Dbl) (q : Arr Int), (((h.add u).put h.next (some (.mpfr p))).put r (some (.mpz q))).put
        h.next (some (accR.of p')) = ((h.add u).put h.next (some (.mpfr p'))).put r (some (.mpz q)) := by
      intro p p' q
      rw [put_comm (show r ≠ h.next by omega), put_put]; rfl
    have e3 : ∀ (p : Arr Dbl) (q : Arr Int),
        (((h.add u).put h.next (some (.mpfr p))).put r (some (.mpz q))).a h.next = some (accR.of p) := fun p q => by
      rw [put_a, if_neg (by omega), put_a, if_pos rfl]; rfl
    refine Sim.rd (by rw [arr_ne _ ne, arr_ne _ nx0]; exact ex1 u) (kk ..) fun v => ?_
    refine Sim.zset (T := accR) (e3 _ _) (kk ..) fun x3 => ?_
    rw [e2]
    refine Sim.rd (T := accR) (arr_of accR (e3 _ _)) (kk ..) fun v => ?_
    refine Sim.zset (T := accR) (e3 _ _) (kk ..) fun x3 => ?_
    rw [e2]
    refine Sim.rd (T := accR) (arr_of accR (e3 _ _)) (kk ..) fun v => ?_
    refine Sim.bindPure (Sim.zset' (T := accZ) (a := xo) (by rw [put_a, if_pos rfl]; rfl) (kk ..)) ?_
    rintro a' - h' rfl
    exact Sim.pure (put_put ..)
  rintro ⟨x3, xo⟩ - h' rfl
  refine Sim.bindPure' (reduceGcd_sim hr (((k1 _).put hk _).put hr _) (by rw [put_a, if_pos rfl])) ?_
  rintro ⟨xo', s⟩ t h' ⟨rfl, rfl⟩
  refine Sim.free (by rw [put_a, if_neg (by omega), put_a, if_neg (by omega), put_a, if_pos rfl]; rfl) ?_
  exact Sim.pure ⟨rfl, free_x3 hrn ok _ _ _ _⟩

theorem expand_mpfr_sim {opt : Option Options} {r : ℕ} {x : Option ℕ} {a : Arr Int} {xa : Arr Dbl} {n : Int}
    (hr : h0.next ≤ r) (hrn : r < h.next) (ok : h.Ok) (k : Keeps h0 h) (ey : h.a r = some (.mpz a))
    (ex : arr accR h x = xa) (ne : x ≠ some r) (hx : ∀ s ∈ x, s < h.next) :
    Sim h0 h (slip_expand_mpfr_arrayK opt (some r) x n) (slip_expand_mpfr_array opt a xa n)
      fun p s h' => s = p.2 ∧ h' = (h.put r (some (.mpz p.1))).grow 1 := by
  unfold slip_expand_mpfr_arrayK slip_expand_mpfr_array
  dsimp only
  refine Sim.new ?_
  have nx0 : x ≠ some h.next := fun e => lt_irrefl _ (hx _ e)
  have hk := k.1
  have k1 : ∀ u, Keeps h0 (h.add u) := fun u => k.add _
  have ex1 : ∀ u, arr accR (h.add u) x = xa := fun u => by rw [arr_add accR hx]; exact ex
  refine Sim.bind (Sim.for' (fun (s : Arr Dbl × Arr Int) _ h' => h' =
    ((h.add (Vals.mpfr (List.replicate (max n 1).toNat (some .nan)))).put h.next (some (.mpfr s.1))).put r
      (some (.mpz s.2))) ?_ ?_) ?_
  · refine Eq.symm ((put_self ?_).trans (put_self ?_))
    · rw [put_a, if_neg (by omega), add_a, if_neg (by omega)]; exact ey
    · rw [add_a, if_pos rfl]
  · rintro i ⟨x3, xo⟩ t h' rfl
    generalize Vals.mpfr (List.replicate (max n 1).toNat (some .nan)) = u
    have kk : ∀ u v w, Keeps h0 (((h.add u).put h.next v).put r w) := fun u v w =>
      ((k1 u).put hk _).put hr _
    have e2 : ∀ (p p' : Arr Dbl) (q : Arr Int), (((h.add u).put h.next (some (.mpfr p))).put r (some (.mpz q))).put
        h.next (some (accR.of p')) = ((h.add u).put h.next (some (.mpfr p'))).put r (some (.mpz q)) := by
      intro p p' q
      rw [put_comm (show r ≠ h.next by omega), put_put]; rfl
    have e3 : ∀ (p : Arr Dbl) (q : Arr Int),
        (((h.add u).put h.next (some (.mpfr p))).put r (some (.mpz q))).a h.next = some (accR.of p) := fun p q => by
      rw [put_a, if_neg (by omega), put_a, if_pos rfl]; rfl
    refine Sim.rd (by rw [arr_ne _ ne, arr_ne _ nx0]; exact ex1 u) (kk ..) fun v => ?_
    refine Sim.zset (T := accR) (e3 _ _) (kk ..) fun x3 => ?_
    rw [e2]
    refine Sim.rd (T := accR) (arr_of accR (e3 _ _)) (kk ..) fun v => ?_
    refine Sim.bindPure (Sim.zset' (T := accZ) (a := xo) (by rw [put_a, if_pos rfl]; rfl) (kk ..)) ?_
    rintro a' - h' rfl
    exact Sim.pure (put_put ..)
  rintro ⟨x3, xo⟩ - h' rfl
  refine Sim.bindPure' (reduceGcd_sim hr (((k1 _).put hk _).put hr _) (by rw [put_a, if_pos rfl])) ?_
  rintro ⟨xo', s⟩ t h' ⟨rfl, rfl⟩
  refine Sim.free (by rw [put_a, if_neg (by omega), put_a, if_neg (by omega), put_a, if_pos rfl]; rfl) ?_
  exact Sim.pure ⟨rfl, free_x3 hrn ok _ _ _ _⟩

/-- The post-condition of `slip_cast_array`: only the array `r` has changed. -/
def Casts (h : Heap) (r : ℕ) (p : Vals × ℚ) (s : ℚ) (h' : Heap) : Prop :=
  s = p.2 ∧ ∃ j, h' = (h.put r (some p.1)).grow j

theorem vals_run {r : ℕ} {v : Vals} (e : h.a r = some v) : valsK (some r) h = (.ok (some v), h) := by
  unfold valsK
  simp only [e]

theorem cast_array_sim (fp : Fp) (opt : Option Options) {r : ℕ} {x : Option ℕ} {v : Vals} {n : Int} {ys xs : ℚ}
    (hr : h0.next ≤ r) (ok : h.Ok) (k : Keeps h0 h) (ey : h.a r = some v) (hx : ∀ s ∈ x, (h.a s).isSome)
    (ne : x ≠ some r) :
    Sim h0 h (slip_cast_arrayK fp opt (some r) x n ys xs) (slip_cast_array fp opt (some v) (x.bind h.a) n ys xs)
      (Casts h r) := by
  have hrn : r < h.next := by
    by_contra c
    rw [ok r (by omega)] at ey
    cases ey
  unfold slip_cast_arrayK
  refine Sim.step (vals_run ey) ?_
  cases x with
  | none =>
    refine Sim.step (b := none) (h' := h) rfl ?_
    have e : slip_cast_array fp opt (some v) ((none : Option ℕ).bind h.a) n ys xs = .error (.ret .incorrectInput) := by
      cases v <;> rfl
    have e' : castSwitchK fp opt (some v) none (some r) none n ys xs = lift (.error (.ret .incorrectInput)) := by
      cases v <;> rfl
    rw [e, e']
    exact Sim.error k
  | some s =>
    obtain ⟨w, es⟩ := Option.isSome_iff_exists.1 (hx s rfl)
    have hsn : ∀ t ∈ some s, t < h.next := by
      intro t ht
      cases ht
      by_contra c
      rw [ok s (by omega)] at es
      cases es
    refine Sim.step (vals_run es) ?_
    have e : (some s).bind h.a = some w := es
    rw [e]
    cases v <;> cases w
    all_goals dsimp only [castSwitchK, slip_cast_array]
    case mpz.mpq =>
      exact Sim.bindPure (expand_mpq_sim hr hrn ok k ey (arr_of accQ es) ne hsn)
        (by rintro ⟨a', s'⟩ t h' ⟨rfl, rfl⟩; exact Sim.pure ⟨rfl, 2, rfl⟩)
    case mpz.mpfr =>
      exact Sim.bindPure (expand_mpfr_sim hr hrn ok k ey (arr_of accR es) ne hsn)
        (by rintro ⟨a', s'⟩ t h' ⟨rfl, rfl⟩; exact Sim.pure ⟨rfl, 1, rfl⟩)
    case mpz.fp64 =>
      exact Sim.bindPure (expand_double_sim hr hrn ok k ey (arr_of accD es) ne hsn)
        (by rintro ⟨a', s'⟩ t h' ⟨rfl, rfl⟩; exact Sim.pure ⟨rfl, 1, rfl⟩)
    all_goals
      refine Sim.bind (castLoop_sim hr k (by exact ey) (arr_of _ (by exact es)) ne) ?_
      rintro a' - h' rfl
      exact Sim.pure ⟨rfl, 0, rfl⟩

end Slip.Copy
