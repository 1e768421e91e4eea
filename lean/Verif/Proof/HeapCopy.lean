import Verif.Proof.HeapFact

/-!
# Conversions and SLIP_matrix_copy
-/

namespace Slip.Mem

variable {α β σ : Type} {base : Addr → Option ℕ} {own rest : Multiset Addr} {n : ℕ} {P : Prop}

/-! ## The three slip_expand_*_array -/

def ExpandVars.cells (w : ExpandVars) : Multiset Addr :=
  blks w.expon + blks w.temp_expon + blks w.gcd + blks w.one + blks w.temp + matBlks w.x3 + matBlks w.x4 + w.Y.blocks

structure ExpandVars.I (pe pt pg po pm : Obj → Prop) (p3 p4 : Option HMat → Prop) (pY : HMat → Prop)
    (w : ExpandVars) : Prop where
  expon : pe w.expon
  temp_expon : pt w.temp_expon
  gcd : pg w.gcd
  one : po w.one
  temp : pm w.temp
  x3 : p3 w.x3
  x4 : p4 w.x4
  Y : pY w.Y

section
variable {pe pt pg po pm KO JO : Obj → Prop} {p3 p4 K J : Option HMat → Prop} {pY JY : HMat → Prop}
  {s : Step (Option HMat)} {so : Step Obj} {sY : Step HMat}

/-- The variables can be freed; `Y` satisfies `pY`. -/
abbrev ExpandVars.Ready (pY : HMat → Prop) : ExpandVars → Prop :=
  ExpandVars.I Any Any Any Any Any matSized matSized pY

theorem ExpandVars.I.ready {w : ExpandVars} (h : ExpandVars.I pe pt pg po pm p3 p4 pY w)
    (h3 : ∀ o, p3 o → matSized o) (h4 : ∀ o, p4 o → matSized o) : ExpandVars.Ready pY w :=
  ⟨trivial, trivial, trivial, trivial, trivial, h3 _ h.x3, h4 _ h.x4, h.Y⟩

theorem ExpandVars.on_expon (hs : Tri base blks P pe KO JO so) (h3 : ∀ o, p3 o → matSized o)
    (h4 : ∀ o, p4 o → matSized o) :
    Tri base ExpandVars.cells P (ExpandVars.I pe pt pg po pm p3 p4 pY) (ExpandVars.Ready pY)
      (ExpandVars.I JO pt pg po pm p3 p4 pY) (at! expon so) :=
  Tri.on [] (fun w a => by unfold ExpandVars.cells; dsimp only; rw [blks_nil]; abel) (fun _ => rfl) hs
    (fun w h => h.expon) (fun w a h _ => ⟨trivial, trivial, trivial, trivial, trivial, h3 _ h.x3, h4 _ h.x4, h.Y⟩)
    (fun w a h _ h1 => ⟨h1, h.2, h.3, h.4, h.5, h.6, h.7, h.8⟩)

theorem ExpandVars.on_temp_expon (hs : Tri base blks P pt KO JO so) (h3 : ∀ o, p3 o → matSized o)
    (h4 : ∀ o, p4 o → matSized o) :
    Tri base ExpandVars.cells P (ExpandVars.I pe pt pg po pm p3 p4 pY) (ExpandVars.Ready pY)
      (ExpandVars.I pe JO pg po pm p3 p4 pY) (at! temp_expon so) :=
  Tri.on [] (fun w a => by unfold ExpandVars.cells; dsimp only; rw [blks_nil]; abel) (fun _ => rfl) hs
    (fun w h => h.temp_expon) (fun w a h _ => ⟨trivial, trivial, trivial, trivial, trivial, h3 _ h.x3, h4 _ h.x4, h.Y⟩)
    (fun w a h _ h1 => ⟨h.1, h1, h.3, h.4, h.5, h.6, h.7, h.8⟩)

theorem ExpandVars.on_gcd (hs : Tri base blks P pg KO JO so) (h3 : ∀ o, p3 o → matSized o)
    (h4 : ∀ o, p4 o → matSized o) :
    Tri base ExpandVars.cells P (ExpandVars.I pe pt pg po pm p3 p4 pY) (ExpandVars.Ready pY)
      (ExpandVars.I pe pt JO po pm p3 p4 pY) (at! gcd so) :=
  Tri.on [] (fun w a => by unfold ExpandVars.cells; dsimp only; rw [blks_nil]; abel) (fun _ => rfl) hs
    (fun w h => h.gcd) (fun w a h _ => ⟨trivial, trivial, trivial, trivial, trivial, h3 _ h.x3, h4 _ h.x4, h.Y⟩)
    (fun w a h _ h1 => ⟨h.1, h.2, h1, h.4, h.5, h.6, h.7, h.8⟩)

theorem ExpandVars.on_one (hs : Tri base blks P po KO JO so) (h3 : ∀ o, p3 o → matSized o)
    (h4 : ∀ o, p4 o → matSized o) :
    Tri base ExpandVars.cells P (ExpandVars.I pe pt pg po pm p3 p4 pY) (ExpandVars.Ready pY)
      (ExpandVars.I pe pt pg JO pm p3 p4 pY) (at! one so) :=
  Tri.on [] (fun w a => by unfold ExpandVars.cells; dsimp only; rw [blks_nil]; abel) (fun _ => rfl) hs
    (fun w h => h.one) (fun w a h _ => ⟨trivial, trivial, trivial, trivial, trivial, h3 _ h.x3, h4 _ h.x4, h.Y⟩)
    (fun w a h _ h1 => ⟨h.1, h.2, h.3, h1, h.5, h.6, h.7, h.8⟩)

theorem ExpandVars.on_temp (hs : Tri base blks P pm KO JO so) (h3 : ∀ o, p3 o → matSized o)
    (h4 : ∀ o, p4 o → matSized o) :
    Tri base ExpandVars.cells P (ExpandVars.I pe pt pg po pm p3 p4 pY) (ExpandVars.Ready pY)
      (ExpandVars.I pe pt pg po JO p3 p4 pY) (at! temp so) :=
  Tri.on [] (fun w a => by unfold ExpandVars.cells; dsimp only; rw [blks_nil]; abel) (fun _ => rfl) hs
    (fun w h => h.temp) (fun w a h _ => ⟨trivial, trivial, trivial, trivial, trivial, h3 _ h.x3, h4 _ h.x4, h.Y⟩)
    (fun w a h _ h1 => ⟨h.1, h.2, h.3, h.4, h1, h.6, h.7, h.8⟩)

theorem ExpandVars.on_x3 (hs : Tri base matBlks P p3 K J s) (h3 : ∀ o, K o → matSized o)
    (h4 : ∀ o, p4 o → matSized o) :
    Tri base ExpandVars.cells P (ExpandVars.I pe pt pg po pm p3 p4 pY) (ExpandVars.Ready pY)
      (ExpandVars.I pe pt pg po pm J p4 pY) (at! x3 s) :=
  Tri.on none (fun w a => by unfold ExpandVars.cells; dsimp only; rw [matBlks_none]; abel) (fun _ => rfl) hs
    (fun w h => h.x3) (fun w a h h1 => ⟨trivial, trivial, trivial, trivial, trivial, h3 _ h1, h4 _ h.x4, h.Y⟩)
    (fun w a h _ h1 => ⟨h.1, h.2, h.3, h.4, h.5, h1, h.7, h.8⟩)

theorem ExpandVars.on_x4 (hs : Tri base matBlks P p4 K J s) (h3 : ∀ o, p3 o → matSized o)
    (h4 : ∀ o, K o → matSized o) :
    Tri base ExpandVars.cells P (ExpandVars.I pe pt pg po pm p3 p4 pY) (ExpandVars.Ready pY)
      (ExpandVars.I pe pt pg po pm p3 J pY) (at! x4 s) :=
  Tri.on none (fun w a => by unfold ExpandVars.cells; dsimp only; rw [matBlks_none]; abel) (fun _ => rfl) hs
    (fun w h => h.x4) (fun w a h h1 => ⟨trivial, trivial, trivial, trivial, trivial, h3 _ h.x3, h4 _ h1, h.Y⟩)
    (fun w a h _ h1 => ⟨h.1, h.2, h.3, h.4, h.5, h.6, h1, h.8⟩)

theorem ExpandVars.on_Y (hs : Keeps base HMat.blocks P pY sY) (h3 : ∀ o, p3 o → matSized o)
    (h4 : ∀ o, p4 o → matSized o) :
    Tri base ExpandVars.cells P (ExpandVars.I pe pt pg po pm p3 p4 pY) (ExpandVars.Ready pY)
      (ExpandVars.I pe pt pg po pm p3 p4 pY) (at! Y sY) := by
  rintro ⟨a1, a2, a3, a4, a5, a6, a7, Y⟩ rest n h
  refine Does.congr (own' := Y.blocks + (blks a1 + blks a2 + blks a3 + blks a4 + blks a5 + matBlks a6 + matBlks a7 +
    rest)) (by unfold ExpandVars.cells; abel) ?_
  refine (hs Y _ n h.Y).bind ?_
  rintro ⟨r, Y'⟩ own' n' ⟨e, hK', hJ'⟩
  refine Does.pure ⟨?_, ⟨trivial, trivial, trivial, trivial, trivial, h3 _ h.x3, h4 _ h.x4, hK'⟩, fun hr =>
    ⟨⟨h.1, h.2, h.3, h.4, h.5, h.6, h.7, (hJ' hr).1⟩, (hJ' hr).2⟩⟩
  rw [e]
  unfold ExpandVars.cells
  dsimp only
  abel

end

theorem does_expandFreeAll {w : ExpandVars} (h3 : matSized w.x3) (h4 : matSized w.x4) :
    Does base (w.cells + own) n (expandFreeAll w) (fun _ own' n' => own' = w.Y.blocks + own ∧ n' = n) := by
  unfold expandFreeAll
  refine (does_clear (rest := blks w.temp_expon + (blks w.gcd + (blks w.one + (blks w.temp + (matBlks w.x3 +
    (matBlks w.x4 + (w.Y.blocks + own))))))) (by unfold ExpandVars.cells; abel)).pass fun _ => ?_
  exact (does_clear rfl).pass fun _ => (does_clear rfl).pass fun _ => (does_clear rfl).pass fun _ =>
    (does_clear rfl).pass fun _ => (does_matFree h3 rfl).pass fun _ => does_matFree h4 rfl

section
variable {κ : Kind} {a b : ℤ} {N : ℕ}

theorem does_expandFinish {c : ℕ} {r : Info} {w : ExpandVars} (hc : c ≤ N)
    (hw : ExpandVars.Ready (Full κ .mpz a b N) w) :
    Does base (w.cells + own) n (expandFinish c r w) (fun a' own' _ => own' = a'.2.blocks + own ∧
      Full κ .mpz a b N a'.2) := by
  unfold expandFinish
  split
  · refine (does_expandFreeAll hw.x3 hw.x4).pass fun _ => ?_
    exact Does.pure ⟨rfl, hw.Y⟩
  · refine does_choose.pass fun ch => ?_
    split
    · refine (does_expandFreeAll hw.x3 hw.x4).pass fun _ => ?_
      have hu : Keeps base HMat.blocks False (Full κ .mpz a b N) (unchecked (onScale call)) :=
        Tri.unchecked id Tri.scaleCall fun _ h => h
      exact (hu w.Y own n hw.Y).mono fun _ _ _ h => ⟨h.1, h.2.1⟩
    · refine does_choose.pass fun k => ?_
      have hs : Keeps base ExpandVars.cells False (ExpandVars.Ready (Full κ .mpz a b N)) (maybe (seq (σ := ExpandVars)
          [forN (c - k) (fun i => at! Y (entry (k + i) call)), at! temp call, at! Y (onScale call)])) := by
        have hS : ∀ o, matSized o → matSized o := fun _ h => h
        refine .maybe (.cons (.forN fun i hi => ?_) (.cons ?_ (.cons ?_ .nil)))
        · exact ExpandVars.on_Y (Keeps.entryCall rfl (by omega)) hS hS
        · exact ExpandVars.on_temp Keeps.call hS hS
        · exact ExpandVars.on_Y Tri.scaleCall hS hS
      refine (hs w own n hw).bind ?_
      rintro ⟨r, w'⟩ own' n' ⟨rfl, hK, _⟩
      dsimp only at hK ⊢
      refine (does_expandFreeAll hK.x3 hK.x4).pass fun _ => ?_
      exact Does.pure ⟨rfl, hK.Y⟩

/-- A column of `c` numbers has `c` entries. -/
theorem cap_col (c : ℕ) : c ≤ capacity .dense c 1 c := by have := cap_dense c 1 c; simpa using this

theorem keeps_expand_double {c : ℕ} (hc : c ≤ N) :
    Keeps base HMat.blocks False (Full κ .mpz a b N) (slip_expand_double_array c) := by
  intro Y rest n hY
  set pY := Full κ .mpz a b N with hpY
  set X := PtrTo (Full .dense .mpfr c 1 (capacity .dense c 1 c)) with hX
  have hXs : ∀ o, X o → matSized o := fun _ h => h.sized
  have hS : ∀ o, matSized o → matSized o := fun _ h => h
  have hN : ∀ o, NoMat o → matSized o := fun _ h => h.sized
  set E := ExpandVars.I (fun x => x = []) (fun x => x = []) Any Any Any X NoMat pY with hE
  have hR : ∀ w, E w → ExpandVars.Ready pY w := fun w h => h.ready hXs hN
  have hs : Tri base ExpandVars.cells False
      (ExpandVars.I (fun x => x = []) (fun x => x = []) Blank Blank Blank NoMat NoMat pY) (ExpandVars.Ready pY) E
      (seq (σ := ExpandVars)
        [at! temp init, at! gcd init, at! one init, at! x3 (allocTo .dense .mpfr c 1 c false true),
         at! Y (onScale call),
         forN c (fun i => seq
           [at! x3 (there (entry i call)), at! x3 (there (entry i call)), at! Y (entry i call)]),
         at! one call,
         anyTimes (seq [query, maybe (at! gcd call), query])]) := by
    refine (ExpandVars.on_temp Tri.initAny hN hN).cons ?_
    refine (ExpandVars.on_gcd Tri.initAny hN hN).cons ?_
    refine (ExpandVars.on_one Tri.initAny hN hN).cons ?_
    refine (ExpandVars.on_x3 Tri.allocFull hS hN).cons ?_
    refine (ExpandVars.on_Y Tri.scaleCall hXs hN).cons ?_
    have hq : Tri base ExpandVars.cells False E (ExpandVars.Ready pY) E query := Tri.query fun w h => ⟨hR w h, h⟩
    have hg : Tri base ExpandVars.cells False E (ExpandVars.Ready pY) E (at! gcd call) :=
      ExpandVars.on_gcd Keeps.call hXs hN
    refine Tri.cons (L := E) (Tri.loop hR fun i hi => ?_) ((ExpandVars.on_one Keeps.call hXs hN).cons
      ((Tri.anyTimes hR (hq.cons ((hg.maybe fun w h => ⟨hR w h, h⟩).cons (hq.cons (Tri.nil fun w h => ⟨hR w h, h⟩))))).cons
        (Tri.nil fun w h => ⟨hR w h, h⟩)))
    have hx : Tri base ExpandVars.cells False E (ExpandVars.Ready pY) E (at! x3 (there (entry i call))) :=
      ExpandVars.on_x3 (Keeps.there (Keeps.entryCall rfl (hi.trans_le (cap_col c)))) hXs hN
    exact hx.cons (hx.cons ((ExpandVars.on_Y (Keeps.entryCall rfl (hi.trans_le hc)) hXs hN).cons
      (Tri.nil fun w h => ⟨hR w h, h⟩)))
  unfold slip_expand_double_array
  refine Does.congr (own' := ExpandVars.cells ⟨[], [], nulls 1, nulls 1, nulls 2, none, none, Y⟩ + rest) (by
    unfold ExpandVars.cells; simp only [blks_nulls, blks_nil, matBlks_none, zero_add]) ?_
  refine (hs _ rest n ⟨rfl, rfl, blks_nulls 1, blks_nulls 1, blks_nulls 2, rfl, rfl, hY⟩).bind ?_
  rintro ⟨r, w⟩ own' n' ⟨rfl, hK, hJ⟩
  dsimp only at hK ⊢
  exact (does_expandFinish hc hK).mono fun a own' n' h => ⟨h.1, h.2, fun _ => ⟨h.2, False.elim⟩⟩

theorem keeps_expand_mpfr {c : ℕ} (hc : c ≤ N) :
    Keeps base HMat.blocks False (Full κ .mpz a b N) (slip_expand_mpfr_array c) := by
  intro Y rest n hY
  set pY := Full κ .mpz a b N with hpY
  set X := PtrTo (Full .dense .mpfr c 1 (capacity .dense c 1 c)) with hX
  have hXs : ∀ o, X o → matSized o := fun _ h => h.sized
  have hS : ∀ o, matSized o → matSized o := fun _ h => h
  have hN : ∀ o, NoMat o → matSized o := fun _ h => h.sized
  set E := ExpandVars.I Any Any Any Any Any X NoMat pY with hE
  have hR : ∀ w, E w → ExpandVars.Ready pY w := fun w h => h.ready hXs hN
  have hs : Tri base ExpandVars.cells False
      (ExpandVars.I Blank Blank Blank Blank Blank NoMat NoMat pY) (ExpandVars.Ready pY) E
      (seq (σ := ExpandVars)
        [at! temp init, at! expon init, at! temp_expon init, at! gcd init, at! one init,
         at! x3 (allocTo .dense .mpfr c 1 c false true), at! expon call,
         forN c (fun i => seq [at! x3 (there (entry i call)), at! Y (entry i call)]),
         at! temp_expon call, at! Y (onScale call), at! one call,
         anyTimes (seq [query, maybe (at! gcd call), query])]) := by
    refine (ExpandVars.on_temp Tri.initAny hN hN).cons ?_
    refine (ExpandVars.on_expon Tri.initAny hN hN).cons ?_
    refine (ExpandVars.on_temp_expon Tri.initAny hN hN).cons ?_
    refine (ExpandVars.on_gcd Tri.initAny hN hN).cons ?_
    refine (ExpandVars.on_one Tri.initAny hN hN).cons ?_
    refine (ExpandVars.on_x3 Tri.allocFull hS hN).cons ?_
    refine (ExpandVars.on_expon Keeps.call hXs hN).cons ?_
    have hq : Tri base ExpandVars.cells False E (ExpandVars.Ready pY) E query := Tri.query fun w h => ⟨hR w h, h⟩
    have hg : Tri base ExpandVars.cells False E (ExpandVars.Ready pY) E (at! gcd call) :=
      ExpandVars.on_gcd Keeps.call hXs hN
    refine Tri.cons (L := E) (Tri.loop hR fun i hi => ?_) ((ExpandVars.on_temp_expon Keeps.call hXs hN).cons
      ((ExpandVars.on_Y Tri.scaleCall hXs hN).cons ((ExpandVars.on_one Keeps.call hXs hN).cons
      ((Tri.anyTimes hR (hq.cons ((hg.maybe fun w h => ⟨hR w h, h⟩).cons (hq.cons (Tri.nil fun w h => ⟨hR w h, h⟩))))).cons
        (Tri.nil fun w h => ⟨hR w h, h⟩)))))
    have hx : Tri base ExpandVars.cells False E (ExpandVars.Ready pY) E (at! x3 (there (entry i call))) :=
      ExpandVars.on_x3 (Keeps.there (Keeps.entryCall rfl (hi.trans_le (cap_col c)))) hXs hN
    exact hx.cons ((ExpandVars.on_Y (Keeps.entryCall rfl (hi.trans_le hc)) hXs hN).cons
      (Tri.nil fun w h => ⟨hR w h, h⟩))
  unfold slip_expand_mpfr_array
  refine Does.congr (own' := ExpandVars.cells ⟨nulls 1, nulls 1, nulls 1, nulls 1, nulls 2, none, none, Y⟩ + rest) (by
    unfold ExpandVars.cells; simp only [blks_nulls, matBlks_none, zero_add]) ?_
  refine (hs _ rest n ⟨blks_nulls 1, blks_nulls 1, blks_nulls 1, blks_nulls 1, blks_nulls 2, rfl, rfl, hY⟩).bind ?_
  rintro ⟨r, w⟩ own' n' ⟨rfl, hK, hJ⟩
  dsimp only at hK ⊢
  exact (does_expandFinish hc hK).mono fun a own' n' h => ⟨h.1, h.2, fun _ => ⟨h.2, False.elim⟩⟩

theorem keeps_expand_mpq {c : ℕ} (hc : c ≤ N) :
    Keeps base HMat.blocks P (Full κ .mpz a b N) (slip_expand_mpq_array c) := by
  intro Y rest n hY
  set pY := Full κ .mpz a b N with hpY
  set X := PtrTo (Full .dense .mpz c 1 (capacity .dense c 1 c)) with hX
  set X4 := PtrTo (Full .dense .mpq c 1 (capacity .dense c 1 c)) with hX4
  have hXs : ∀ o, X o → matSized o := fun _ h => h.sized
  have hX4s : ∀ o, X4 o → matSized o := fun _ h => h.sized
  have hS : ∀ o, matSized o → matSized o := fun _ h => h
  have hN : ∀ o, NoMat o → matSized o := fun _ h => h.sized
  set E := ExpandVars.I Blank Blank Blank Blank Any X X4 pY with hE
  have hR : ∀ w, E w → ExpandVars.Ready pY w := fun w h => h.ready hXs hX4s
  have hs : Tri base ExpandVars.cells P
      (ExpandVars.I Blank Blank Blank Blank Blank NoMat NoMat pY) (ExpandVars.Ready pY) E
      (seq (σ := ExpandVars)
        [at! temp init, at! x3 (allocTo .dense .mpz c 1 c false true),
         at! x4 (allocTo .dense .mpq c 1 c false true),
         forN c (fun i => at! x3 (there (entry i call))),
         at! temp call, forN (c - 1) (fun _ => at! temp call), at! Y (onScale call),
         forN c (fun i => seq [at! x4 (there (entry i call)), at! Y (entry i call)])]) := by
    refine (ExpandVars.on_temp Tri.initAny hN hN).cons ?_
    refine (ExpandVars.on_x3 Tri.allocFull hS hN).cons ?_
    refine (ExpandVars.on_x4 Tri.allocFull hXs hS).cons ?_
    have ht : Tri base ExpandVars.cells P E (ExpandVars.Ready pY) E (at! temp call) :=
      ExpandVars.on_temp Keeps.call hXs hX4s
    refine Tri.cons (L := E) (Tri.loop hR fun i hi => ?_) (ht.cons ((Tri.loop hR fun _ _ => ht).cons
      ((ExpandVars.on_Y Tri.scaleCall hXs hX4s).cons (Tri.cons (L := E) (Tri.loop hR fun i hi => ?_)
        (Tri.nil fun w h => ⟨hR w h, h⟩)))))
    · exact ExpandVars.on_x3 (Keeps.there (Keeps.entryCall rfl (hi.trans_le (cap_col c)))) hXs hX4s
    · exact (ExpandVars.on_x4 (Keeps.there (Keeps.entryCall rfl (hi.trans_le (cap_col c)))) hXs hX4s).cons
        ((ExpandVars.on_Y (Keeps.entryCall rfl (hi.trans_le hc)) hXs hX4s).cons (Tri.nil fun w h => ⟨hR w h, h⟩))
  unfold slip_expand_mpq_array
  refine Does.congr (own' := ExpandVars.cells ⟨[], [], [], [], nulls 1, none, none, Y⟩ + rest) (by
    unfold ExpandVars.cells; simp only [blks_nulls, blks_nil, matBlks_none, zero_add]) ?_
  refine (hs _ rest n ⟨blks_nil, blks_nil, blks_nil, blks_nil, blks_nulls 1, rfl, rfl, hY⟩).bind ?_
  rintro ⟨r, w⟩ own' n' ⟨rfl, hK, hJ⟩
  dsimp only at hK ⊢
  refine (does_expandFreeAll hK.x3 hK.x4).pass fun _ => ?_
  exact Does.pure ⟨rfl, hK.Y, fun hr => ⟨hK.Y, (hJ hr).2⟩⟩

end

/-! ## slip_cast_array, slip_cast_matrix -/

def CastVars.cells (w : CastVars) : Multiset Addr := blks w.temp + w.Y.blocks

def CastVars.I (pt : Obj → Prop) (pY : HMat → Prop) (w : CastVars) : Prop := pt w.temp ∧ pY w.Y

theorem CastVars.on_temp {pt KO JO : Obj → Prop} {pY : HMat → Prop} {so : Step Obj} (hs : Tri base blks P pt KO JO so) :
    Tri base CastVars.cells P (CastVars.I pt pY) (CastVars.I Any pY) (CastVars.I JO pY) (at! temp so) :=
  Tri.on [] (fun w a => by unfold CastVars.cells; dsimp only; rw [blks_nil, zero_add]) (fun _ => rfl) hs
    (fun w h => h.1) (fun w a h _ => ⟨trivial, h.2⟩) (fun w a h _ h1 => ⟨h1, h.2⟩)

theorem CastVars.on_Y {pt : Obj → Prop} {pY : HMat → Prop} {s : Step HMat} (hs : Keeps base HMat.blocks P pY s) :
    Keeps base CastVars.cells P (CastVars.I pt pY) (at! Y s) := by
  rintro ⟨t, Y⟩ rest n ⟨h1, h2⟩
  refine Does.congr (own' := Y.blocks + (blks t + rest)) (by unfold CastVars.cells; abel) ?_
  refine (hs Y _ n h2).bind ?_
  rintro ⟨r, a⟩ own' n' ⟨e, hK', hJ'⟩
  refine Does.pure ⟨?_, ⟨h1, hK'⟩, fun hr => ⟨⟨h1, (hJ' hr).1⟩, (hJ' hr).2⟩⟩
  rw [e]
  unfold CastVars.cells
  dsimp only
  abel

section
variable {κ : Kind} {τ : Ty} {a b : ℤ} {N : ℕ}

theorem keeps_cast {xtype : Ty} {c : ℕ} (hc : c ≤ N) (hP : P → ¬ fromFloat τ xtype) :
    Keeps base HMat.blocks P (Full κ τ a b N) (slip_cast_array xtype c) := by
  intro Y rest n hY
  unfold slip_cast_array
  have hx := hY.1.hasX
  rw [if_neg (by rw [Option.isNone_iff_eq_none]; intro h; rw [h] at hx; cases hx)]
  set pY := Full κ τ a b N with hpY
  have hpass : ∀ s, Tri base CastVars.cells P (CastVars.I Blank pY) (CastVars.I Any pY) (CastVars.I Any pY) s →
      Does base (Y.blocks + rest) n (do
        let (r, w) ← s ⟨nulls 2, Y⟩
        clear w.temp
        pure (r, w.Y)) (fun a own' n' => own' = a.2.blocks + rest ∧ pY a.2 ∧ (a.1 = .ok → pY a.2 ∧ (P → n' = n))) := by
    intro s hs
    refine Does.congr (own' := CastVars.cells ⟨nulls 2, Y⟩ + rest) (by
      unfold CastVars.cells; simp only [blks_nulls, zero_add]) ?_
    refine (hs _ rest n ⟨blks_nulls 2, hY⟩).bind ?_
    rintro ⟨r, w⟩ own' n' ⟨rfl, hK, hJ⟩
    dsimp only at hK hJ ⊢
    refine (does_clear (rest := w.Y.blocks + rest) (by unfold CastVars.cells; rw [add_assoc])).pass fun _ => ?_
    exact Does.pure ⟨rfl, hK.2, fun hr => ⟨hK.2, (hJ hr).2⟩⟩
  refine hpass _ ?_
  have hw : ∀ {s : Step CastVars}, Keeps base CastVars.cells P (CastVars.I Blank pY) s →
      Tri base CastVars.cells P (CastVars.I Blank pY) (CastVars.I Any pY) (CastVars.I Any pY) s := fun h =>
    h.mono (fun _ h => h) (fun _ h => ⟨trivial, h.2⟩) (fun _ h => ⟨trivial, h.2⟩) id
  have hwk : ∀ w, CastVars.I Blank pY w → CastVars.I Any pY w ∧ CastVars.I Any pY w :=
    fun w h => ⟨⟨trivial, h.2⟩, trivial, h.2⟩
  have hwb : ∀ w, CastVars.I Blank pY w → CastVars.I Any pY w ∧ CastVars.I Blank pY w :=
    fun w h => ⟨⟨trivial, h.2⟩, h⟩
  have hent : isMp τ = true → ∀ {pt : Obj → Prop} k, k < c →
      Keeps base CastVars.cells P (CastVars.I pt pY) (at! Y (entry k call)) :=
    fun hm pt k hk => CastVars.on_Y (Keeps.entryCall hm (hk.trans_le hc))
  have hsc : ∀ {pt : Obj → Prop}, Keeps base CastVars.cells P (CastVars.I pt pY) (at! Y (onScale call)) :=
    fun {pt} => CastVars.on_Y Tri.scaleCall
  have htc : Keeps base CastVars.cells P (CastVars.I Any pY) (at! temp call) := CastVars.on_temp Keeps.call
  rw [hY.1.type]
  split
  · exact hw (.cons (.forN (hent rfl)) (.cons hsc .nil))
  · exact hw (CastVars.on_Y (keeps_expand_mpq hc))
  · exact hw ((CastVars.on_Y (keeps_expand_mpfr hc)).mono (fun _ h => h) (fun _ h => h) (fun _ h => h)
      fun hp => hP hp ⟨rfl, Or.inl rfl⟩)
  · exact hw (.cons (.forN (hent rfl)) (.cons hsc .nil))
  · exact hw ((CastVars.on_Y (keeps_expand_double hc)).mono (fun _ h => h) (fun _ h => h) (fun _ h => h)
      fun hp => hP hp ⟨rfl, Or.inr rfl⟩)
  · refine hw (.cons .query (.cons (Tri.either (Keeps.forN (hent rfl))
      (Keeps.forN fun k hk => Keeps.cons (hent rfl k hk) (.cons (hent rfl k hk) .nil))) .nil))
  · exact hw (.forN (hent rfl))
  · refine (Tri.query hwb).cons ((Tri.either (hw (.forN (hent rfl))) ?_).cons (Tri.nil fun w h => ⟨h, h⟩))
    refine (CastVars.on_temp Tri.initAny).cons (Keeps.cons (.forN fun k hk => ?_) .nil)
    exact .cons htc (.cons htc (.cons (hent rfl k hk) .nil))
  · exact hw (.forN (hent rfl))
  · refine (Tri.query hwb).cons ((Tri.either (hw (.forN fun _ _ => .query)) ?_).cons (Tri.nil fun w h => ⟨h, h⟩))
    refine (CastVars.on_temp Tri.initAny).cons (Keeps.cons (.forN fun k hk => ?_) .nil)
    exact .cons htc (.cons htc (.cons .query .nil))
  · exact hw (.forN fun _ _ => .query)
  · exact hw (.forN fun _ _ => .query)
  · exact hw .skip

/-- The conversion of a matrix: the result is a new matrix, or a shallow one with the entries of `A`. -/
theorem makes_castMatrix {A : HMat} (hP : P → ¬ fromFloat τ A.type) :
    Makes base P matSized (slip_cast_matrix τ A) := by
  intro own n
  refine Does.congr (own' := matBlks none + own) (zero_add _).symm ?_
  refine Tri.result (I := NoMat) ?_ rfl
  by_cases ht : τ = A.type
  · rw [decide_eq_true ht]
    refine Tri.cons (L := PtrTo (NewShallow .dense τ A.nnz 1 A.nnz)) ?_ (Tri.cons (L := matSized) ?_ (Tri.nil fun w h => ⟨h, h⟩))
    · intro o rest n ho
      rw [ho, zero_add]
      refine does_matAllocate.mono ?_
      rintro ⟨r, o'⟩ own' n' ⟨e, h1, h2⟩
      dsimp only at e h1 h2 ⊢
      by_cases hr : r = .ok
      · obtain ⟨hn, _, _, _, _, B, rfl, _, hB⟩ := h1 hr
        have hB := hB rfl
        refine ⟨e, matSized_some fun h => ?_, fun _ => ⟨⟨B, rfl, hB⟩, fun _ => hn⟩⟩
        rw [hB.shallow.2.2.2] at h
        cases h
      · rw [h2 hr] at e ⊢
        exact ⟨e, matSized_none, fun h => absurd h hr⟩
    · rintro _ rest n ⟨B, rfl, hB⟩
      unfold Mem.there
      dsimp only
      rw [if_pos ht]
      have hsz : HMat.Sized { B with x := A.x, xs := A.xs } := by
        intro h
        have h : B.xShallow = false := h
        rw [hB.shallow.2.2.2] at h
        cases h
      refine Does.pure ⟨?_, matSized_some hsz, fun _ => ⟨matSized_some hsz, fun _ => rfl⟩⟩
      show B.blocks + rest = HMat.blocks _ + rest
      unfold HMat.blocks
      dsimp only
      rw [hB.shallow.2.2.2]
      rfl
  · rw [decide_eq_false ht]
    refine Tri.cons Tri.allocFull (Tri.cons (L := matSized) ?_ (Tri.nil fun w h => ⟨h, h⟩))
    refine Tri.mono (Tri.there (I := Full .dense τ A.nnz 1 (capacity .dense A.nnz 1 A.nnz))
      (K := Full .dense τ A.nnz 1 (capacity .dense A.nnz 1 A.nnz))
      (J := Full .dense τ A.nnz 1 (capacity .dense A.nnz 1 A.nnz)) ?_) (fun _ h => h) (fun _ h => h.sized)
      (fun _ h => h.sized) id
    intro Y rest n hY
    dsimp only
    rw [if_neg ht]
    split
    · exact Does.pure ⟨rfl, hY, nofun⟩
    · refine keeps_cast ?_ hP Y rest n hY
      unfold capacity
      rw [if_pos rfl]
      omega

end

/-! ## SLIP_matrix_copy -/

def CopyVars.cells (w : CopyVars) : Multiset Addr := matBlks w.T + matBlks w.Y + blk w.W + matBlks w.C

def CopyVars.I (pT pY : Option HMat → Prop) (pW : Option Addr → Prop) (pC : Option HMat → Prop)
    (w : CopyVars) : Prop := pT w.T ∧ pY w.Y ∧ pW w.W ∧ pC w.C

/-- A pointer to nothing. -/
abbrev NoBlk : Option Addr → Prop := fun p => blk p = 0

abbrev AnyBlk : Option Addr → Prop := fun _ => True

abbrev CopyVars.Ready : CopyVars → Prop := CopyVars.I matSized matSized AnyBlk matSized

section
variable {pT pY pC J K : Option HMat → Prop} {pW : Option Addr → Prop} {s : Step (Option HMat)}

theorem CopyVars.I.ready {w : CopyVars} (h : CopyVars.I pT pY pW pC w) (h1 : ∀ o, pT o → matSized o)
    (h2 : ∀ o, pY o → matSized o) (h3 : ∀ o, pC o → matSized o) : w.Ready :=
  ⟨h1 _ h.1, h2 _ h.2.1, trivial, h3 _ h.2.2.2⟩

theorem CopyVars.on_T (hs : Tri base matBlks P pT K J s) (h1 : ∀ o, K o → matSized o)
    (h2 : ∀ o, pY o → matSized o) (h3 : ∀ o, pC o → matSized o) :
    Tri base CopyVars.cells P (CopyVars.I pT pY pW pC) CopyVars.Ready (CopyVars.I J pY pW pC) (at! T s) :=
  Tri.on none (fun w a => by unfold CopyVars.cells; dsimp only; rw [matBlks_none]; abel) (fun _ => rfl) hs
    (fun w h => h.1) (fun w a h h4 => ⟨h1 _ h4, h2 _ h.2.1, trivial, h3 _ h.2.2.2⟩) (fun w a h _ h4 => ⟨h4, h.2⟩)

theorem CopyVars.on_Y (hs : Tri base matBlks P pY K J s) (h1 : ∀ o, pT o → matSized o)
    (h2 : ∀ o, K o → matSized o) (h3 : ∀ o, pC o → matSized o) :
    Tri base CopyVars.cells P (CopyVars.I pT pY pW pC) CopyVars.Ready (CopyVars.I pT J pW pC) (at! Y s) :=
  Tri.on none (fun w a => by unfold CopyVars.cells; dsimp only; rw [matBlks_none]; abel) (fun _ => rfl) hs
    (fun w h => h.2.1) (fun w a h h4 => ⟨h1 _ h.1, h2 _ h4, trivial, h3 _ h.2.2.2⟩)
    (fun w a h _ h4 => ⟨h.1, h4, h.2.2⟩)

theorem CopyVars.on_C (hs : Tri base matBlks P pC K J s) (h1 : ∀ o, pT o → matSized o)
    (h2 : ∀ o, pY o → matSized o) (h3 : ∀ o, K o → matSized o) :
    Tri base CopyVars.cells P (CopyVars.I pT pY pW pC) CopyVars.Ready (CopyVars.I pT pY pW J) (at! C s) :=
  Tri.on none (fun w a => by unfold CopyVars.cells; dsimp only; rw [matBlks_none]; abel) (fun _ => rfl) hs
    (fun w h => h.2.2.2) (fun w a h h4 => ⟨h1 _ h.1, h2 _ h.2.1, trivial, h3 _ h4⟩)
    (fun w a h _ h4 => ⟨h.1, h.2.1, h.2.2.1, h4⟩)

theorem CopyVars.on_C' (hs : Tri base matBlks P pC K J s) :
    Tri base CopyVars.cells P (CopyVars.I pT pY pW pC) (CopyVars.I pT pY pW K) (CopyVars.I pT pY pW J) (at! C s) :=
  Tri.on none (fun w a => by unfold CopyVars.cells; dsimp only; rw [matBlks_none]; abel) (fun _ => rfl) hs
    (fun w h => h.2.2.2) (fun w a h h4 => ⟨h.1, h.2.1, h.2.2.1, h4⟩)
    (fun w a h _ h4 => ⟨h.1, h.2.1, h.2.2.1, h4⟩)

/-- The work space. -/
theorem CopyVars.on_W (h1 : ∀ o, pT o → matSized o) (h2 : ∀ o, pY o → matSized o) (h3 : ∀ o, pC o → matSized o) :
    Tri base CopyVars.cells False (CopyVars.I pT pY NoBlk pC) CopyVars.Ready (CopyVars.I pT pY AnyBlk pC)
      (at! W mallocTo) := by
  refine Tri.on (ca := blk) (Ia := NoBlk) (Ka := AnyBlk) (Ja := AnyBlk) none
    (fun w a => by unfold CopyVars.cells; dsimp only; rw [blk_none]; abel) (fun _ => rfl) ?_
    (fun w h => h.2.2.1) (fun w a h h4 => ⟨h1 _ h.1, h2 _ h.2.1, trivial, h3 _ h.2.2.2⟩)
    (fun w a h _ h4 => ⟨h.1, h.2.1, trivial, h.2.2.2⟩)
  intro p rest n hp
  rw [hp, zero_add]
  refine does_malloc.bind ?_
  rintro q own' n' ⟨rfl, _⟩
  exact Does.pure ⟨rfl, trivial, fun _ => ⟨trivial, False.elim⟩⟩

end

/-- A matrix with its own arrays, of some capacity. -/
abbrev Deep (κ : Kind) (τ : Ty) (a b : ℤ) (o : Option HMat) : Prop := ∃ N, PtrTo (Full κ τ a b N) o

theorem Deep.sized {κ : Kind} {τ : Ty} {a b : ℤ} {o : Option HMat} (h : Deep κ τ a b o) : matSized o :=
  h.elim fun _ h => h.sized

theorem does_copyReturn {r : Info} {w : CopyVars} (hw : w.Ready) :
    Does base (w.cells + own) n (copyReturn r w) (fun a own' n' => own' = matBlks a.2 + own ∧
      (a.1 ≠ .ok → a.2 = none) ∧ (a.1 = .ok → r = .ok ∧ a.2 = w.C) ∧ n' = n) := by
  unfold copyReturn
  refine Does.congr (own' := matBlks w.T + (matBlks w.Y + (blk w.W + (matBlks w.C + own)))) (by
    unfold CopyVars.cells; abel) ?_
  refine (does_matFree hw.1 rfl).pass fun _ => (does_matFree hw.2.1 rfl).pass fun _ => (does_free rfl).pass fun _ => ?_
  split
  · rename_i hr
    refine (does_matFree hw.2.2.2 rfl).pass fun _ => ?_
    exact Does.pure ⟨(zero_add _).symm, fun _ => rfl, fun h => absurd h hr, rfl⟩
  · rename_i hr
    rw [not_not] at hr
    exact Does.pure ⟨rfl, fun h => absurd rfl h, fun _ => ⟨hr, rfl⟩, rfl⟩

/-- A statement on the variables of `SLIP_matrix_copy`, followed by a return. -/
theorem makes_copy {pT pY J : Option HMat → Prop} {pW : Option Addr → Prop} {s : Step CopyVars}
    (hs : Tri base CopyVars.cells P (CopyVars.I NoMat NoMat NoBlk NoMat) CopyVars.Ready
      (CopyVars.I pT pY pW J) s) :
    Makes base P J (do
      let (r, w) ← s ⟨none, none, none, none⟩
      copyReturn r w) := by
  intro own n
  refine Does.congr (own' := CopyVars.cells ⟨none, none, none, none⟩ + own) (by
    unfold CopyVars.cells; rw [matBlks_none, blk_none]; simp only [zero_add]) ?_
  refine (hs _ own n ⟨rfl, rfl, rfl, rfl⟩).bind ?_
  rintro ⟨r, w⟩ own' n' ⟨rfl, hK, hJ⟩
  dsimp only at hK hJ ⊢
  refine (does_copyReturn hK).mono ?_
  rintro ⟨r', o⟩ own2 n2 ⟨e, h1, h2, rfl⟩
  refine ⟨e, h1, fun hr => ?_⟩
  obtain ⟨h3, h4⟩ := h2 hr
  rw [h4]
  exact ⟨(hJ h3).1.2.2.2, (hJ h3).2⟩

section
variable {κ : Kind} {τ : Ty} {a b : ℤ} {N : ℕ}

theorem keeps_castTo {A : HMat} (hc : A.nnz.toNat ≤ N) (hP : P → ¬ fromFloat τ A.type) :
    Keeps base HMat.blocks P (Full κ τ a b N) (castTo A) := by
  intro C rest n hC
  unfold castTo
  split
  · exact Does.pure ⟨rfl, hC, nofun⟩
  · exact keeps_cast hc hP C rest n hC

theorem Mat.pn {k : ℕ} {A : HMat} (h : Mat κ τ a b N k A) (c : ℤ) : Mat κ τ a b N k { A with pn := c } :=
  ⟨⟨h.1.1, h.1.2, h.1.3, h.1.4, h.1.5, h.1.6, h.1.7, h.1.8, h.1.9, h.1.10, h.1.11, h.1.12, h.1.13, h.1.14⟩, h.2⟩

theorem Mat.nz {k : ℕ} {A : HMat} (h : Mat κ τ a b N k A) (c : ℤ) : Mat κ τ a b N k { A with nz := c } :=
  ⟨⟨h.1.1, h.1.2, h.1.3, h.1.4, h.1.5, h.1.6, h.1.7, h.1.8, h.1.9, h.1.10, h.1.11, h.1.12, h.1.13, h.1.14⟩, h.2⟩

theorem keeps_pn {k : ℕ} {c : ℤ} :
    Keeps base HMat.blocks P (Mat κ τ a b N k) (fun C => pure (.ok, { C with pn := c })) :=
  fun _ _ _ h => Does.pure ⟨rfl, h.pn c, fun _ => ⟨h.pn c, fun _ => rfl⟩⟩

theorem keeps_nz {k : ℕ} {c : ℤ} :
    Keeps base HMat.blocks P (Mat κ τ a b N k) (fun C => pure (.ok, { C with nz := c })) :=
  fun _ _ _ h => Does.pure ⟨rfl, h.nz c, fun _ => ⟨h.nz c, fun _ => rfl⟩⟩

theorem cap_sparse (hκ : κ ≠ .dense) (c : ℤ) : c.toNat ≤ capacity κ a b c := by
  unfold capacity
  rw [if_neg hκ]
  omega

end

section
variable {type : Ty} {A : HMat}

theorem tri_toCsc_csc (hk : A.kind = .csc) (hP : P → ¬ fromFloat type A.type) :
    Tri base CopyVars.cells P (CopyVars.I NoMat NoMat NoBlk NoMat) CopyVars.Ready
      (CopyVars.I NoMat NoMat NoBlk (Deep .csc type A.m A.n)) (copyToCsc type A) := by
  unfold copyToCsc
  rw [hk]
  dsimp only
  set F := PtrTo (Full .csc type A.m A.n (capacity .csc A.m A.n A.nnz)) with hF
  have hN : ∀ o, NoMat o → matSized o := fun _ h => h.sized
  have hFs : ∀ o, F o → matSized o := fun _ h => h.sized
  refine Tri.cons (CopyVars.on_C Tri.allocFull hN hN fun _ h => h) ?_
  refine Tri.cons (CopyVars.on_C (Keeps.there keeps_pn) hN hN hFs) ?_
  refine Tri.cons (CopyVars.on_C (Keeps.there (keeps_castTo (cap_sparse (by simp) _) hP)) hN hN hFs) ?_
  exact Tri.nil fun w h => ⟨h.ready hN hN hFs, h.1, h.2.1, h.2.2.1, _, h.2.2.2⟩

/-- `put` writes into the array. -/
theorem keeps_put {pT pY : Option HMat → Prop} {pW : Option Addr → Prop} {κ : Kind} {a b : ℤ} {N : ℕ}
    {s : Step Obj → Step HMat}
    (hs : isMp type = true → Keeps base HMat.blocks P (Full κ type a b N) (s call))
    (h1 : ∀ o, pT o → matSized o) (h2 : ∀ o, pY o → matSized o) :
    Tri base CopyVars.cells P (CopyVars.I pT pY pW (PtrTo (Full κ type a b N))) CopyVars.Ready
      (CopyVars.I pT pY pW (PtrTo (Full κ type a b N))) (put type s) := by
  have hF : ∀ o, PtrTo (Full κ type a b N) o → matSized o := fun _ h => h.sized
  unfold put
  split
  · rename_i hm
    exact CopyVars.on_C (Keeps.there (hs hm)) h1 h2 hF
  · exact Tri.skip fun w h => ⟨h.ready h1 h2 hF, h⟩

/-- The unchecked `SLIP_mpq_set (C->scale, Y->scale)`. -/
theorem tri_setScale {pT pY : Option HMat → Prop} {pW : Option Addr → Prop} {κ : Kind} {a b : ℤ} {N : ℕ}
    (hP : ¬ P) (h1 : ∀ o, pT o → matSized o) (h2 : ∀ o, pY o → matSized o) :
    Tri base CopyVars.cells P (CopyVars.I pT pY pW (PtrTo (Full κ type a b N))) CopyVars.Ready
      (CopyVars.I pT pY pW (PtrTo (Full κ type a b N))) (unchecked (at! C (there (onScale call)))) :=
  (Tri.unchecked (J' := CopyVars.I pT pY pW (PtrTo (Full κ type a b N))) hP
    (CopyVars.on_C' (Keeps.there Tri.scaleCall)) fun _ h => h).mono (fun _ h => h)
    (fun w h => h.ready h1 h2 fun _ h => h.sized) (fun _ h => h) id

theorem tri_toCsc_triplet (hk : A.kind = .triplet) (hP : ¬ P) :
    Tri base CopyVars.cells P (CopyVars.I NoMat NoMat NoBlk NoMat) CopyVars.Ready
      (CopyVars.I NoMat matSized AnyBlk (Deep .csc type A.m A.n)) (copyToCsc type A) := by
  unfold copyToCsc
  rw [hk]
  dsimp only
  set F := PtrTo (Full .csc type A.m A.n (capacity .csc A.m A.n A.nnz)) with hF
  have hN : ∀ o, NoMat o → matSized o := fun _ h => h.sized
  have hS : ∀ o, matSized o → matSized o := fun _ h => h
  have hFs : ∀ o, F o → matSized o := fun _ h => h.sized
  refine Tri.cons (CopyVars.on_Y (Tri.makes (makes_castMatrix fun h => absurd h hP) hS matSized_none) hN hS hN) ?_
  refine Tri.cons ((CopyVars.on_W (base := base) hN hS hN).mono (fun _ h => h) (fun _ h => h)
    (fun _ h => h) hP) ?_
  refine Tri.cons (L := CopyVars.I NoMat matSized AnyBlk NoMat) ?_ ?_
  · intro w rest n h
    dsimp only
    split
    · exact Does.pure ⟨rfl, h.ready hN hS hN, nofun⟩
    · exact Does.pure ⟨rfl, h.ready hN hS hN, fun _ => ⟨h, fun _ => rfl⟩⟩
  refine Tri.cons (CopyVars.on_C Tri.allocFull hN hS hS) ?_
  refine Tri.cons (tri_setScale hP hN hS) ?_
  refine Tri.cons (CopyVars.on_C (Keeps.there keeps_pn) hN hS hFs) ?_
  refine Tri.cons (Tri.loop (fun w h => h.ready hN hS hFs) fun i hi => keeps_put (fun hm =>
    Keeps.entryAny hm (by omega) (cap_sparse (by simp) _)) hN hS) ?_
  exact Tri.nil fun w h => ⟨h.ready hN hS hFs, h.1, h.2.1, h.2.2.1, _, h.2.2.2⟩

theorem tri_toCsc_dense (hk : A.kind = .dense) (hP : ¬ P) :
    Tri base CopyVars.cells P (CopyVars.I NoMat NoMat NoBlk NoMat) CopyVars.Ready
      (CopyVars.I NoMat matSized NoBlk (Deep .csc type A.m A.n)) (copyToCsc type A) := by
  unfold copyToCsc
  rw [hk]
  dsimp only
  have hN : ∀ o, NoMat o → matSized o := fun _ h => h.sized
  have hS : ∀ o, matSized o → matSized o := fun _ h => h
  refine Tri.cons (CopyVars.on_Y (Tri.makes (makes_castMatrix fun h => absurd h hP) hS matSized_none) hN hS hN) ?_
  refine Tri.cons (L := CopyVars.I NoMat matSized NoBlk NoMat) ?_ ?_
  · exact Tri.when (Tri.mono (Keeps.forN (I := CopyVars.I NoMat matSized NoBlk NoMat) fun _ _ => .query) (fun w h => h.1)
      (fun w h => h.ready hN hS hN) (fun _ h => h) id) fun w h _ => ⟨h.ready hN hS hN, h⟩
  refine Tri.cons ?_ (Tri.nil fun w h => ⟨h.ready hN hS fun _ h => h.sized, h⟩)
  refine Tri.choose fun c => ?_
  generalize hact : c % (A.nnz.toNat + 1) = actual
  set F := PtrTo (Full .csc type A.m A.n (capacity .csc A.m A.n actual)) with hF
  have hFs : ∀ o, F o → matSized o := fun _ h => h.sized
  have hq : ∀ w, CopyVars.I NoMat matSized NoBlk F w → w.Ready := fun w h => h.ready hN hS hFs
  have hwq : Tri base CopyVars.cells P (CopyVars.I NoMat matSized NoBlk F) CopyVars.Ready
      (CopyVars.I NoMat matSized NoBlk F) (when (fun _ => isMp type) (anyTimes query)) :=
    (Keeps.when (Keeps.anyTimes Keeps.query)).mono (fun _ h => h) hq (fun _ h => h) id
  refine Tri.cons (CopyVars.on_C Tri.allocFull hN hS hS) ?_
  refine Tri.cons (tri_setScale hP hN hS) ?_
  refine Tri.cons (Tri.loop hq fun i hi => hwq.cons (Tri.cons (keeps_put (fun hm =>
    Keeps.entryCall hm (lt_of_lt_of_le hi ?_)) hN hS) (Tri.nil fun w h => ⟨hq w h, h⟩))) ?_
  · exact cap_sparse (by simp) (actual : ℤ)
  refine hwq.cons ?_
  refine Tri.cons (CopyVars.on_C (Keeps.there keeps_pn) hN hS hFs) ?_
  exact Tri.nil fun w h => ⟨h.ready hN hS hFs, h.1, h.2.1, h.2.2.1, _, h.2.2.2⟩

theorem tri_toTriplet (hP : P → ¬ fromFloat type A.type) :
    Tri base CopyVars.cells P (CopyVars.I NoMat NoMat NoBlk NoMat) CopyVars.Ready
      (CopyVars.I NoMat NoMat NoBlk (Deep .triplet type A.m A.n)) (copyToTriplet type A) := by
  unfold copyToTriplet
  set F := PtrTo (Full .triplet type A.m A.n (capacity .triplet A.m A.n A.nnz)) with hF
  have hN : ∀ o, NoMat o → matSized o := fun _ h => h.sized
  have hFs : ∀ o, F o → matSized o := fun _ h => h.sized
  refine Tri.cons (CopyVars.on_C Tri.allocFull hN hN fun _ h => h) ?_
  refine Tri.cons (CopyVars.on_C (Keeps.there (keeps_castTo (cap_sparse (by simp) _) hP)) hN hN hFs) ?_
  refine Tri.cons (CopyVars.on_C (Keeps.there keeps_nz) hN hN hFs) ?_
  exact Tri.nil fun w h => ⟨h.ready hN hN hFs, h.1, h.2.1, h.2.2.1, _, h.2.2.2⟩

theorem tri_toDense_dense (hk : A.kind = .dense) (hP : P → ¬ fromFloat type A.type) :
    Tri base CopyVars.cells P (CopyVars.I NoMat NoMat NoBlk NoMat) CopyVars.Ready
      (CopyVars.I NoMat NoMat NoBlk (Deep .dense type A.m A.n)) (copyToDense type A) := by
  unfold copyToDense
  rw [hk]
  dsimp only
  set F := PtrTo (Full .dense type A.m A.n (capacity .dense A.m A.n A.nnz)) with hF
  have hN : ∀ o, NoMat o → matSized o := fun _ h => h.sized
  have hFs : ∀ o, F o → matSized o := fun _ h => h.sized
  refine Tri.cons (CopyVars.on_C Tri.allocFull hN hN fun _ h => h) ?_
  refine Tri.cons (CopyVars.on_C (Keeps.there (keeps_castTo ?_ hP)) hN hN hFs) ?_
  · unfold HMat.nnz capacity
    rw [hk, if_pos rfl]
    dsimp only
    split <;> omega
  exact Tri.nil fun w h => ⟨h.ready hN hN hFs, h.1, h.2.1, h.2.2.1, _, h.2.2.2⟩

theorem tri_toDense_sparse (hk : A.kind ≠ .dense) (hP : ¬ P) (hd : 0 < A.nnz → 0 < A.m * A.n) :
    Tri base CopyVars.cells P (CopyVars.I NoMat NoMat NoBlk NoMat) CopyVars.Ready
      (CopyVars.I NoMat matSized NoBlk (Deep .dense type A.m A.n)) (copyToDense type A) := by
  have e : copyToDense type A = seq
      [at! C (allocTo .dense type A.m A.n A.nnz false true), seq
        [at! Y (fun _ => slip_cast_matrix type A),
         unchecked (at! C (there (onScale call))),
         forN A.nnz.toNat (fun _ => put type (entryAny (A.m * A.n).toNat))]] := by
    unfold copyToDense
    cases h : A.kind with
    | dense => exact absurd h hk
    | _ => rfl
  rw [e]
  set F := PtrTo (Full .dense type A.m A.n (capacity .dense A.m A.n A.nnz)) with hF
  have hN : ∀ o, NoMat o → matSized o := fun _ h => h.sized
  have hS : ∀ o, matSized o → matSized o := fun _ h => h
  have hFs : ∀ o, F o → matSized o := fun _ h => h.sized
  refine Tri.cons (CopyVars.on_C Tri.allocFull hN hN fun _ h => h) (Tri.cons ?_ (Tri.nil fun w h =>
    ⟨h.ready hN hS fun _ h => h.sized, h⟩))
  refine Tri.cons (CopyVars.on_Y (Tri.makes (makes_castMatrix fun h => absurd h hP) hS matSized_none) hN hS hFs) ?_
  refine Tri.cons (tri_setScale hP hN hS) ?_
  refine Tri.cons (Tri.loop (fun w h => h.ready hN hS hFs) fun i hi => keeps_put (fun hm =>
    Keeps.entryAny hm ?_ ?_) hN hS) ?_
  · have := hd (by omega)
    omega
  · unfold capacity
    rw [if_pos rfl]
    omega
  exact Tri.nil fun w h => ⟨h.ready hN hS hFs, h.1, h.2.1, h.2.2.1, _, h.2.2.2⟩

/-- `SLIP_matrix_copy` makes a matrix with its own arrays. -/
theorem makes_matCopy {kind : Kind} (h1 : kind.isBad = false) (h2 : A.kind.isBad = false)
    (hP : P → Clean kind type A) (hd : 0 < A.nnz → 0 < A.m * A.n) :
    Makes base P (Deep kind type A.m A.n) (matCopy kind type A) := by
  have hN : ∀ o, NoMat o → matSized o := fun _ h => h.sized
  have hS : ∀ o, matSized o → matSized o := fun _ h => h
  have hcsc : ∀ {P : Prop}, (P → Clean .csc type A) → Makes base P (Deep .csc type A.m A.n) (do
      let (r, w) ← copyToCsc type A ⟨none, none, none, none⟩
      copyReturn r w) := by
    intro P hP
    cases hk : A.kind with
    | csc => exact makes_copy (tri_toCsc_csc hk fun h => (hP h).2)
    | triplet => exact makes_copy (tri_toCsc_triplet hk fun h => by
        rcases (hP h).1 with h | h
        · rw [hk] at h; cases h
        · exact absurd h.1 nofun)
    | dense => exact makes_copy (tri_toCsc_dense hk fun h => by
        rcases (hP h).1 with h | h
        · rw [hk] at h; cases h
        · exact absurd h.1 nofun)
    | bad c => rw [hk] at h2; cases h2
  unfold matCopy
  split
  · exact hcsc hP
  · rename_i hk
    have hP : ¬ P := fun h => by
      rcases (hP h).1 with h | h
      · rw [hk] at h; cases h
      · rw [hk] at h; exact absurd h.2 nofun
    set D := Deep .csc type A.m A.n with hD
    set E := Deep .triplet type A.m A.n with hE
    have hDs : ∀ o, D o → matSized o := fun _ h => h.sized
    have hEs : ∀ o, E o → matSized o := fun _ h => h.sized
    refine makes_copy (pT := NoMat) (pY := NoMat) (pW := NoBlk) ?_
    refine Tri.cons (CopyVars.on_T (Tri.makes (hcsc fun h => absurd h hP) hDs matSized_none) hS hN hN) ?_
    refine Tri.cons (L := CopyVars.I D NoMat NoBlk E) ?_ ?_
    · intro w rest n hw
      obtain ⟨N, T, hT, hT2⟩ := hw.1
      dsimp only
      rw [hT]
      dsimp only
      refine CopyVars.on_C (J := E) (Tri.makes ?_ hEs matSized_none) hDs hN hS w rest n hw
      have e1 := hT2.1.rows
      have e2 := hT2.1.cols
      rw [hE, ← e1, ← e2]
      exact makes_copy (tri_toTriplet fun h => absurd h hP)
    refine Tri.cons (CopyVars.on_T (Tri.free.mono hDs (fun _ h => h) (fun _ h => h) id) hN hN hEs) ?_
    refine Tri.cons (CopyVars.on_C (J := E) (K := E) ?_ hN hN hEs) (Tri.nil fun w h => ⟨h.ready hN hN hEs, h⟩)
    rintro o rest n ⟨N, h⟩
    exact (Keeps.there keeps_nz).mono (fun _ h => h) (fun _ h => ⟨N, h⟩) (fun _ h => ⟨N, h⟩) id o rest n h
  · exact makes_copy (tri_toTriplet fun h => (hP h).2)
  · rename_i κ _ _ hk1 hk2 hk3
    obtain rfl : κ = .dense := by
      cases κ with
      | csc => exact absurd rfl hk1
      | triplet => exact absurd rfl hk2
      | dense => rfl
      | bad c => cases h1
    by_cases hk : A.kind = .dense
    · exact makes_copy (tri_toDense_dense hk fun h => (hP h).2)
    · exact makes_copy (tri_toDense_sparse hk (fun h => (hP h).1.elim hk fun h => absurd h.1 nofun) hd)

end

end Slip.Mem
