import Verif.Proof.TextLines
import Verif.Proof.MatlabFun
import Verif.SpecMat

/-!
# The text of a listing determines the matrix
-/

namespace Slip

/-- The number printed for a value of an exact type. -/
def Num.exact : Num → Option ℚ
  | .mpz v => some v
  | .mpq v => some v
  | .int64 v => some v
  | _ => none

theorem Num.text_exact {real : Num → List Char} {x : Num} {r : ℚ} (h : x.exact = some r) :
    x.text real = fraction r ++ c!" \n" := by
  cases x <;> simp only [Num.exact, Option.some.injEq, reduceCtorEq] at h <;> subst h <;> simp only [Num.text, fraction_int]

/-- The number that is printed for entry `t`. -/
def rawAt (A : Mat) (t : ℤ) : ℚ := ((valAt A t).bind Num.exact).getD 0

/-- What a printed number stands for. -/
def conv (t : Ty) (s r : ℚ) : ℚ := if t = .mpz then r / s else r

/-- The types whose numbers are printed exactly. -/
def Ty.Exact (t : Ty) : Prop := t = .mpz ∨ t = .mpq ∨ t = .int64

theorem rawAt_spec {A : Mat} {t : ℤ} {v : ℚ} (hx : ∃ x, A.x = some x ∧ x.ty = A.type) (ht : A.type.Exact)
    (hv : A.val t = some v) :
    ∃ x, valAt A t = some x ∧ x.exact = some (rawAt A t) ∧ v = conv A.type A.scale (rawAt A t) := by
  obtain ⟨x, hx, hty⟩ := hx
  unfold Mat.val at hv
  unfold rawAt valAt
  rw [hx] at hv ⊢
  rw [← hty] at ht ⊢
  rcases ht with h | h | h <;> cases x <;> simp only [Vals.ty, reduceCtorEq] at h <;>
    simp only [Option.bind_some, Vals.val] at hv
  · rename_i a
    cases hg : get a t with
    | none => rw [hg] at hv; cases hv
    | some z => rw [hg] at hv; cases hv; simp [hg, Num.exact, conv, Vals.ty]
  · rename_i a
    cases hg : get a t with
    | none => rw [hg] at hv; cases hv
    | some z => rw [hg] at hv; cases hv; simp [hg, Num.exact, conv, Vals.ty]
  · rename_i a
    cases hg : get a t with
    | none => rw [hg] at hv; cases hv
    | some z => rw [hg] at hv; cases hv; simp [hg, Num.exact, conv, Vals.ty]

/-- The entries of column `j` of a CSC matrix. -/
def cscRows (A : Mat) (j : Int) : List Ln :=
  (irange ((get (deref A.p) j).getD 0) ((get (deref A.p) (j + 1)).getD 0)).map fun t =>
    .row ((get (deref A.i) t).getD 0) (rawAt A t)

/-- The entries of column `j` of a dense matrix. -/
def denseRows (A : Mat) (j : Int) : List Ln := (irange 0 A.m).map fun i => .row i (rawAt A (i + j * A.m))

/-- The entries of a triplet matrix. -/
def tripletRows (A : Mat) : List Ln := (irange 0 A.nz).map fun t =>
  .pair ((get (deref A.i) t).getD 0) ((get (deref A.j) t).getD 0) (rawAt A t)

/-- All columns, or all triplets. -/
def bodyLines (A : Mat) : List Ln :=
  match A.kind with
  | .csc => (irange 0 A.n).flatMap fun j => .column j :: cscRows A j
  | .triplet => tripletRows A
  | .dense => (irange 0 A.n).flatMap fun j => .column j :: denseRows A j
  | .bad _ => []

/-- The lines of a listing. -/
def lns (A : Mat) (N : Int) : List Ln := [.header A.m A.n N A.nzmax A.kind A.type, .scale A.scale] ++ bodyLines A

theorem mem_irange {a b t : ℤ} : t ∈ irange a b ↔ a ≤ t ∧ t < b := by
  unfold irange
  rw [List.mem_map]
  constructor
  · rintro ⟨k, hk, rfl⟩
    rw [List.mem_range] at hk
    omega
  · rintro ⟨h1, h2⟩
    exact ⟨(t - a).toNat, List.mem_range.2 (by omega), by omega⟩

theorem flatMap_text {α : Type} {l : List α} {f : α → List Ev} {f' : α → List Ln} {g : Ev → List Char}
    (h : ∀ x ∈ l, (f x).flatMap g = (f' x).flatMap Ln.text) :
    (l.flatMap f).flatMap g = (l.flatMap f').flatMap Ln.text := by
  induction l with
  | nil => rfl
  | cons x l ih =>
    simp only [List.flatMap_cons, List.flatMap_append]
    rw [h x (by simp), ih fun y hy => h y (by simp [hy])]

theorem flatMap_text_map {α : Type} {l : List α} {f : α → List Ev} {f' : α → Ln} {g : Ev → List Char}
    (h : ∀ x ∈ l, (f x).flatMap g = (f' x).text) :
    (l.flatMap f).flatMap g = (l.map f').flatMap Ln.text := by
  rw [List.map_eq_flatMap]
  exact flatMap_text fun x hx => by rw [h x hx]; simp

theorem entry_row {real : Num → List Char} {A : Mat} {t : ℤ} {v : ℚ} (hx : ∃ x, A.x = some x ∧ x.ty = A.type)
    (ht : A.type.Exact) (hv : A.val t = some v) (i : ℤ) :
    (entry A (.row i) t).flatMap (Ev.text real) = (Ln.row i (rawAt A t)).text := by
  obtain ⟨x, h1, h2, -⟩ := rawAt_spec hx ht hv
  unfold entry
  rw [h1]
  simp [Ev.text, Num.text_exact h2, Ln.text, Ln.body]

theorem entry_pair {real : Num → List Char} {A : Mat} {t : ℤ} {v : ℚ} (hx : ∃ x, A.x = some x ∧ x.ty = A.type)
    (ht : A.type.Exact) (hv : A.val t = some v) (i j : ℤ) :
    (entry A (.pair i j) t).flatMap (Ev.text real) = (Ln.pair i j (rawAt A t)).text := by
  obtain ⟨x, h1, h2, -⟩ := rawAt_spec hx ht hv
  unfold entry
  rw [h1]
  simp [Ev.text, Num.text_exact h2, Ln.text, Ln.body]

/-- The text of the listing of a valid matrix. -/
theorem text_listing {real : Num → List Char} {A : Mat} {m n : ℕ} (h : Valid m n A) (ht : A.type.Exact) (N : ℤ) :
    outText real (listing A N) = (lns A N).flatMap Ln.text := by
  have body : (listBody A).flatMap (Ev.text real) = (bodyLines A).flatMap Ln.text := by
    unfold listBody bodyLines
    rcases h with h | h | h
    · rw [h.kind]
      refine flatMap_text fun j hj => ?_
      obtain ⟨hj0, hj1⟩ := mem_irange.1 hj
      rw [h.cols] at hj1
      obtain ⟨a, b, ha, hb, -, hc, -⟩ := h.col j.toNat (by omega)
      rw [Int.toNat_of_nonneg hj0] at ha hb
      unfold cscColumn cscRows
      rw [ha, hb]
      simp only [Option.getD_some, List.flatMap_cons]
      rw [flatMap_text_map (f' := fun t => .row ((get (deref A.i) t).getD 0) (rawAt A t)) fun t ht' => ?_]
      · simp [Ev.text, Ln.text, Ln.body]
      · obtain ⟨h0, h1⟩ := mem_irange.1 ht'
        obtain ⟨-, v, hv⟩ := hc t h0 h1
        exact entry_row h.typed ht hv _
    · rw [h.kind]
      refine flatMap_text_map fun t ht' => ?_
      obtain ⟨h0, h1⟩ := mem_irange.1 ht'
      obtain ⟨-, -, v, hv⟩ := h.entry t h0 h1
      exact entry_pair h.typed ht hv _ _
    · rw [h.kind]
      refine flatMap_text fun j hj => ?_
      obtain ⟨hj0, hj1⟩ := mem_irange.1 hj
      rw [h.cols] at hj1
      unfold denseColumn denseRows
      simp only [List.flatMap_cons]
      rw [flatMap_text_map (f' := fun i => .row i (rawAt A (i + j * A.m))) fun i hi => ?_]
      · simp [Ev.text, Ln.text, Ln.body]
      · obtain ⟨h0, h1⟩ := mem_irange.1 hi
        rw [h.rows] at h1
        obtain ⟨v, hv⟩ := h.entry i.toNat (by omega) j.toNat (by omega)
        rw [Int.toNat_of_nonneg h0, Int.toNat_of_nonneg hj0, ← h.rows] at hv
        exact entry_row h.typed ht hv _
  unfold outText listing lns
  rw [List.flatMap_append, List.flatMap_append, body]
  congr 1
  simp [Ev.text, Ln.text, Ln.body]

/-! ## Segments -/

/-- Not the beginning of a column. -/
def Ln.isRow : Ln → Bool
  | .row _ _ => true
  | _ => false

theorem segment {a b r s : List Ln} (ha : ∀ l ∈ a, l.isRow = true) (hb : ∀ l ∈ b, l.isRow = true)
    (hr : ∀ l, r.head? = some l → l.isRow = false) (hs : ∀ l, s.head? = some l → l.isRow = false)
    (h : a ++ r = b ++ s) : a = b ∧ r = s := by
  have key : ∀ {a r : List Ln}, (∀ l ∈ a, l.isRow = true) → (∀ l, r.head? = some l → l.isRow = false) →
      (a ++ r).takeWhile Ln.isRow = a ∧ (a ++ r).dropWhile Ln.isRow = r := by
    intro a r ha hr
    rw [List.takeWhile_append_of_pos ha, List.dropWhile_append_of_pos ha]
    cases r with
    | nil => simp
    | cons c r => simp [List.takeWhile_cons, List.dropWhile_cons, hr c rfl]
  have h1 := key ha hr
  have h2 := key hb hs
  rw [h] at h1
  exact ⟨h1.1.symm.trans h2.1, h1.2.symm.trans h2.2⟩

theorem columns_eq {l : List ℤ} {f g : ℤ → List Ln} (hf : ∀ j ∈ l, ∀ x ∈ f j, x.isRow = true)
    (hg : ∀ j ∈ l, ∀ x ∈ g j, x.isRow = true)
    (h : (l.flatMap fun j => Ln.column j :: f j) = l.flatMap fun j => Ln.column j :: g j) : ∀ j ∈ l, f j = g j := by
  induction l with
  | nil => simp
  | cons j l ih =>
    simp only [List.flatMap_cons, List.cons_append, List.cons.injEq, true_and] at h
    have hd : ∀ (f : ℤ → List Ln) (x : Ln), (l.flatMap fun j => Ln.column j :: f j).head? = some x → x.isRow = false := by
      intro f x hx
      cases l with
      | nil => simp at hx
      | cons k l =>
        simp only [List.flatMap_cons, List.cons_append, List.head?_cons, Option.some.injEq] at hx
        subst hx; rfl
    obtain ⟨h1, h2⟩ := segment (hf j (by simp)) (hg j (by simp)) (hd f) (hd g) h
    have := ih (fun j hj => hf j (by simp [hj])) (fun j hj => hg j (by simp [hj])) h2
    intro k hk
    rcases List.mem_cons.1 hk with rfl | hk
    · exact h1
    · exact this k hk

theorem irange_length {a b : ℤ} : (irange a b).length = (b - a).toNat := by simp [irange]

theorem irange_get {a b : ℤ} {s : ℕ} (h : s < (irange a b).length) : (irange a b)[s] = a + s := by simp [irange]

/-- What a line says about row `i` of its column. -/
def Ln.rowPart (ty : Ty) (s : ℚ) (i : ℤ) : Ln → ℚ
  | .row r v => if r = i then conv ty s v else 0
  | _ => 0

/-- What a line of a triplet matrix says about entry `(i, j)`. -/
def Ln.pairPart (ty : Ty) (s : ℚ) (i j : ℤ) : Ln → ℚ
  | .pair r c v => if r = i ∧ c = j then conv ty s v else 0
  | _ => 0

theorem csc_num {A : Mat} {m n : ℕ} (h : ValidCsc m n A) (ht : A.type.Exact) (i : ℕ) {j : ℕ} (hj : j < n) :
    A.num i j = ((cscRows A j).map (Ln.rowPart A.type A.scale i)).sum := by
  obtain ⟨a, b, ha, hb, hab, hc, -⟩ := h.col j hj
  unfold Mat.num
  rw [h.kind]
  simp only
  rw [ha, hb]
  simp only
  have hl : (cscRows A j) = (irange a b).map fun t => .row ((get (deref A.i) t).getD 0) (rawAt A t) := by
    unfold cscRows
    rw [ha, hb]; rfl
  have hlen : ((cscRows A j).length : ℤ) = b - a := by rw [hl, List.length_map, irange_length]; omega
  rw [show b = a + (cscRows A j).length by omega]
  refine sum_Ico_list _ _ _ _ fun s hs => ?_
  have hs' : s < (irange a b).length := by rw [hl, List.length_map] at hs; exact hs
  have hs2 : a + (s : ℤ) < b := by rw [irange_length] at hs'; omega
  obtain ⟨⟨r, -, hr⟩, v, hv⟩ := hc (a + s) (by omega) hs2
  obtain ⟨x, -, -, hx⟩ := rawAt_spec h.typed ht hv
  simp only [hl, List.getElem_map, irange_get, hr, hv, Option.getD_some, Ln.rowPart, Option.some.injEq, ← hx]

theorem triplet_num {A : Mat} {m n : ℕ} (h : ValidTriplet m n A) (ht : A.type.Exact) (i j : ℕ) :
    A.num i j = ((tripletRows A).map (Ln.pairPart A.type A.scale i j)).sum := by
  unfold Mat.num
  rw [h.kind]
  simp only
  have hlen : ((tripletRows A).length : ℤ) = A.nz := by
    unfold tripletRows
    rw [List.length_map, irange_length]
    have := h.nz
    omega
  rw [show Finset.Ico 0 A.nz = Finset.Ico 0 (0 + ((tripletRows A).length : ℤ)) by rw [hlen, zero_add]]
  refine sum_Ico_list _ _ _ _ fun s hs => ?_
  have hs' : s < (irange 0 A.nz).length := by
    unfold tripletRows at hs; rw [List.length_map] at hs; exact hs
  have hs2 : (0 : ℤ) + (s : ℤ) < A.nz := by rw [irange_length] at hs'; omega
  obtain ⟨⟨r, -, hr⟩, ⟨c, -, hc⟩, v, hv⟩ := h.entry (0 + s) (by omega) hs2
  obtain ⟨x, -, -, hx⟩ := rawAt_spec h.typed ht hv
  simp only [tripletRows, List.getElem_map, irange_get, hr, hc, hv, Option.getD_some, Ln.pairPart, Option.some.injEq, ← hx]

end Slip
