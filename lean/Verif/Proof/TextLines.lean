import Verif.Proof.Text
import Verif.Proof.PrintList

/-!
# A listing as lines of text
-/

namespace Slip

/-- One line of a listing; `v` is the number printed. -/
inductive Ln
  | header (m n nz nzmax : Int) (k : Kind) (t : Ty)
  | scale (q : ℚ)
  | column (j : Int)
  | row (i : Int) (v : ℚ)
  | pair (i j : Int) (v : ℚ)

/-- The text of a line without the newline. -/
def Ln.body : Ln → List Char
  | .header m n nz nzmax k t => c!"SLIP_matrix: nrows: " ++ (decimal m ++ (',' :: c!" ncols: " ++ (decimal n ++
      (',' :: c!" nz:" ++ (decimal nz ++ (',' :: c!" nzmax: " ++ (decimal nzmax ++ (',' :: c!" kind: " ++
      (k.name ++ (',' :: c!" type: " ++ t.name))))))))))
  | .scale q => c!"scale factor: " ++ fraction q
  | .column j => c!"column " ++ (decimal j ++ c!" :")
  | .row i v => c!"  row " ++ (decimal i ++ (' ' :: c!": " ++ (fraction v ++ c!" ")))
  | .pair i j v => c!"  " ++ (decimal i ++ (' ' :: (decimal j ++ (' ' :: c!": " ++ (fraction v ++ c!" ")))))

/-- The text of a line. -/
def Ln.text (l : Ln) : List Char := l.body ++ ['\n']

/-- A header has a kind and a type that exist. -/
def Ln.Good : Ln → Prop
  | .header _ _ _ _ k t => (∀ v, k ≠ .bad v) ∧ ∀ v, t ≠ .bad v
  | _ => True

theorem split_at {c : Char} {a b r s : List Char} (ha : c ∉ a) (hb : c ∉ b) (h : a ++ c :: r = b ++ c :: s) :
    a = b ∧ r = s := by
  induction a generalizing b with
  | nil =>
    cases b with
    | nil => exact ⟨rfl, (List.cons.inj h).2⟩
    | cons x b => exact absurd (List.cons.inj h).1 (fun e => hb (by simp [e]))
  | cons x a ih =>
    cases b with
    | nil => exact absurd (List.cons.inj h).1 (fun e => ha (by simp [e]))
    | cons y b =>
      obtain ⟨h1, h2⟩ := List.cons.inj h
      obtain ⟨h3, h4⟩ := ih (fun h => ha (by simp [h])) (fun h => hb (by simp [h])) h2
      exact ⟨by rw [h1, h3], h4⟩

theorem decimal_not (z : ℤ) {c : Char} (h : plain c = false) : c ∉ decimal z := fun hc => by
  rw [(decimal_all z c hc).1] at h; cases h

theorem fraction_not (q : ℚ) {c : Char} (h : plain c = false) : c ∉ fraction q := fun hc => by
  rw [fraction_all q c hc] at h; cases h

theorem kindName_not (k : Kind) {c : Char} (h : c = ',' ∨ c = '\n') : c ∉ k.name := by
  rcases h with rfl | rfl <;> cases k <;> (try (unfold Kind.name; decide)) <;>
    (unfold Kind.name; dsimp only; split <;> decide)

theorem typeName_not (t : Ty) : '\n' ∉ t.name := by
  cases t <;> (try (unfold Ty.name; decide)) <;> (unfold Ty.name; dsimp only; split <;> decide)

theorem Ln.body_not (l : Ln) : '\n' ∉ l.body := by
  have d := fun z => decimal_not z (c := '\n') (by decide)
  have f := fun q => fraction_not q (c := '\n') (by decide)
  cases l with
  | header m n nz nzmax k t =>
    simp [Ln.body, d, kindName_not k (Or.inr rfl), typeName_not]
  | scale q => simp only [Ln.body, List.mem_append, f]; decide
  | column j => simp only [Ln.body, List.mem_append, d]; decide
  | row i v => simp only [Ln.body, List.mem_append, List.mem_cons, d, f]; decide
  | pair i j v => simp only [Ln.body, List.mem_append, List.mem_cons, d, f]; decide

theorem kind_inj {k k' : Kind} (h : ∀ v, k ≠ .bad v) (h' : ∀ v, k' ≠ .bad v) (e : k.name = k'.name) : k = k' := by
  cases k <;> cases k' <;> first | rfl | exact absurd rfl (h _) | exact absurd rfl (h' _) | exact absurd e (by decide)

theorem type_inj {k k' : Ty} (h : ∀ v, k ≠ .bad v) (h' : ∀ v, k' ≠ .bad v) (e : k.name = k'.name) : k = k' := by
  cases k <;> cases k' <;> first | rfl | exact absurd rfl (h _) | exact absurd rfl (h' _) | exact absurd e (by decide)

theorem row_ne_pair (i v i' j v') : (Ln.row i v).body ≠ (Ln.pair i' j v').body := by
  intro h
  simp only [Ln.body] at h
  have h := List.append_cancel_left (as := [' ', ' ']) h
  cases hd : decimal i' with
  | nil => rw [hd] at h; exact absurd (congrArg List.head? h) (by simp)
  | cons c l =>
    rw [hd] at h
    have hc := (decimal_all i' c (by simp [hd])).1
    have : c = 'r' := ((List.cons.inj h).1).symm
    rw [this] at hc
    exact absurd hc (by decide)

theorem Ln.body_inj {a b : Ln} (ha : a.Good) (hb : b.Good) (h : a.body = b.body) : a = b := by
  have d := fun z => decimal_not z (c := ',') (by decide)
  have d' := fun z => decimal_not z (c := ' ') (by decide)
  have f := fun q => fraction_not q (c := ' ') (by decide)
  have bad : ∀ {x y : Char} {r s : List Char}, x ≠ y → x :: r = y :: s → False := fun hn h => hn (List.cons.inj h).1
  cases a <;> cases b
  case header.header m n nz nm k t m' n' nz' nm' k' t' =>
    simp only [Ln.body, List.cons_append, List.nil_append, List.cons.injEq, true_and] at h
    obtain ⟨e1, h⟩ := split_at (d _) (d _) h
    simp only [List.cons_append, List.nil_append, List.cons.injEq, true_and] at h
    obtain ⟨e2, h⟩ := split_at (d _) (d _) h
    simp only [List.cons_append, List.nil_append, List.cons.injEq, true_and] at h
    obtain ⟨e3, h⟩ := split_at (d _) (d _) h
    simp only [List.cons_append, List.nil_append, List.cons.injEq, true_and] at h
    obtain ⟨e4, h⟩ := split_at (d _) (d _) h
    simp only [List.cons_append, List.nil_append, List.cons.injEq, true_and] at h
    obtain ⟨e5, h⟩ := split_at (kindName_not k (Or.inl rfl)) (kindName_not k' (Or.inl rfl)) h
    simp only [List.cons_append, List.nil_append, List.cons.injEq, true_and] at h
    rw [decimal_inj e1, decimal_inj e2, decimal_inj e3, decimal_inj e4, kind_inj ha.1 hb.1 e5, type_inj ha.2 hb.2 h]
  case scale.scale q q' =>
    simp only [Ln.body, List.append_cancel_left_eq] at h
    rw [fraction_inj h]
  case column.column j j' =>
    simp only [Ln.body, List.append_cancel_left_eq, List.append_cancel_right_eq] at h
    rw [decimal_inj h]
  case row.row i v i' v' =>
    simp only [Ln.body, List.cons_append, List.nil_append, List.cons.injEq, true_and] at h
    obtain ⟨e1, h⟩ := split_at (d' _) (d' _) h
    simp only [List.cons_append, List.nil_append, List.cons.injEq, true_and, List.append_cancel_right_eq] at h
    rw [decimal_inj e1, fraction_inj h]
  case pair.pair i j v i' j' v' =>
    simp only [Ln.body, List.cons_append, List.nil_append, List.cons.injEq, true_and] at h
    obtain ⟨e1, h⟩ := split_at (d' _) (d' _) h
    obtain ⟨e2, h⟩ := split_at (d' _) (d' _) h
    simp only [List.cons_append, List.nil_append, List.cons.injEq, true_and, List.append_cancel_right_eq] at h
    rw [decimal_inj e1, decimal_inj e2, fraction_inj h]
  case row.pair => exact absurd h (row_ne_pair _ _ _ _ _)
  case pair.row => exact absurd h.symm (row_ne_pair _ _ _ _ _)
  all_goals exact (bad (by decide) h).elim

/-- The text of a list of lines determines the lines. -/
theorem lines_inj {a b : List Ln} (ha : ∀ l ∈ a, l.Good) (hb : ∀ l ∈ b, l.Good)
    (h : a.flatMap Ln.text = b.flatMap Ln.text) : a = b := by
  induction a generalizing b with
  | nil =>
    cases b with
    | nil => rfl
    | cons x b => exact absurd h (by simp [Ln.text])
  | cons x a ih =>
    cases b with
    | nil => exact absurd h (by simp [Ln.text])
    | cons y b =>
      simp only [List.flatMap_cons, Ln.text, List.append_assoc, List.singleton_append] at h
      obtain ⟨h1, h2⟩ := split_at x.body_not y.body_not h
      rw [Ln.body_inj (ha x (by simp)) (hb y (by simp)) h1,
        ih (fun l hl => ha l (by simp [hl])) (fun l hl => hb l (by simp [hl])) h2]

end Slip
