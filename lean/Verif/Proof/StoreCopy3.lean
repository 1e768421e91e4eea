import Verif.Proof.StoreCopy2

/-!
# `SLIP_matrix_copy` over a heap: the loops
-/

namespace Slip.Copy

variable {α β γ δ σ τ : Type} {h0 h : Heap}

theorem copyInts_sim {r : ℕ} {x : Option ℕ} {a xa : Arr Int} {n : Int} (hr : h0.next ≤ r) (k : Keeps h0 h)
    (ey : h.a r = some (.int64 a)) (ex : arr accI h x = xa) (ne : x ≠ some r) :
    Sim h0 h (copyIntsK (some r) x n) (copyInts a xa n) fun a' _ h' => h' = h.put r (some (.int64 a')) := by
  unfold copyIntsK copyInts
  refine Sim.for' (fun a' _ h' => h' = h.put r (some (.int64 a'))) (by rw [put_self ey]) ?_
  rintro i s t h' rfl
  refine Sim.rd (by rw [arr_ne _ ne]; exact ex) (k.put hr _) fun v => ?_
  refine (Sim.wr' (by rw [put_a, if_pos rfl]; rfl) (k.put hr _)).conseq ?_
  rintro a' - h' rfl
  exact put_put ..

/-- Two arrays replaced. -/
def Heap.put2 (h : Heap) (r1 : ℕ) (v1 : Vals) (r2 : ℕ) (v2 : Vals) : Heap := (h.put r1 (some v1)).put r2 (some v2)

/-- Three arrays replaced. -/
def Heap.put3 (h : Heap) (r1 : ℕ) (v1 : Vals) (r2 : ℕ) (v2 : Vals) (r3 : ℕ) (v3 : Vals) : Heap :=
  (h.put2 r1 v1 r2 v2).put r3 (some v3)

theorem put2_a {r1 r2 : ℕ} {v1 v2 : Vals} (s : ℕ) :
    (h.put2 r1 v1 r2 v2).a s = if s = r2 then some v2 else if s = r1 then some v1 else h.a s := rfl

theorem put3_a {r1 r2 r3 : ℕ} {v1 v2 v3 : Vals} (s : ℕ) :
    (h.put3 r1 v1 r2 v2 r3 v3).a s =
      if s = r3 then some v3 else if s = r2 then some v2 else if s = r1 then some v1 else h.a s := rfl

theorem put2_1 {r1 r2 : ℕ} (n12 : r1 ≠ r2) {v1 v2 w : Vals} : (h.put2 r1 v1 r2 v2).put r1 (some w) = h.put2 r1 w r2 v2 := by
  refine heap_ext (fun s => ?_) rfl
  simp only [put_a, put2_a]
  by_cases c1 : s = r1 <;> by_cases c2 : s = r2 <;> simp_all

theorem put2_2 {r1 r2 : ℕ} {v1 v2 w : Vals} : (h.put2 r1 v1 r2 v2).put r2 (some w) = h.put2 r1 v1 r2 w := put_put ..

theorem put3_1 {r1 r2 r3 : ℕ} (n12 : r1 ≠ r2) (n13 : r1 ≠ r3) {v1 v2 v3 w : Vals} :
    (h.put3 r1 v1 r2 v2 r3 v3).put r1 (some w) = h.put3 r1 w r2 v2 r3 v3 := by
  refine heap_ext (fun s => ?_) rfl
  simp only [put_a, put3_a]
  by_cases c1 : s = r1 <;> by_cases c2 : s = r2 <;> by_cases c3 : s = r3 <;> simp_all

theorem put3_2 {r1 r2 r3 : ℕ} (n23 : r2 ≠ r3) {v1 v2 v3 w : Vals} :
    (h.put3 r1 v1 r2 v2 r3 v3).put r2 (some w) = h.put3 r1 v1 r2 w r3 v3 := by
  refine heap_ext (fun s => ?_) rfl
  simp only [put_a, put3_a]
  by_cases c2 : s = r2 <;> by_cases c3 : s = r3 <;> simp_all

theorem put3_3 {r1 r2 r3 : ℕ} {v1 v2 v3 w : Vals} :
    (h.put3 r1 v1 r2 v2 r3 v3).put r3 (some w) = h.put3 r1 v1 r2 v2 r3 w := put_put ..

theorem put2_self {r1 r2 : ℕ} {v1 v2 : Vals} (e1 : h.a r1 = some v1) (e2 : h.a r2 = some v2) : h.put2 r1 v1 r2 v2 = h := by
  unfold Heap.put2
  rw [put_self e1, put_self e2]

theorem put3_self {r1 r2 r3 : ℕ} {v1 v2 v3 : Vals} (e1 : h.a r1 = some v1) (e2 : h.a r2 = some v2) (e3 : h.a r3 = some v3) :
    h.put3 r1 v1 r2 v2 r3 v3 = h := by
  unfold Heap.put3
  rw [put2_self e1 e2, put_self e3]

theorem Keeps.put2 (k : Keeps h0 h) {r1 r2 : ℕ} (h1 : h0.next ≤ r1) (h2 : h0.next ≤ r2) (v1 v2 : Vals) :
    Keeps h0 (h.put2 r1 v1 r2 v2) := (k.put h1 _).put h2 _

theorem Keeps.put3 (k : Keeps h0 h) {r1 r2 r3 : ℕ} (h1 : h0.next ≤ r1) (h2 : h0.next ≤ r2) (h3 : h0.next ≤ r3) (v1 v2 v3 : Vals) :
    Keeps h0 (h.put3 r1 v1 r2 v2 r3 v3) := (k.put2 h1 h2 _ _).put h3 _

theorem arr_put3 (T : Acc α) {r1 r2 r3 : ℕ} {v1 v2 v3 : Vals} {p : Option ℕ} (e1 : p ≠ some r1) (e2 : p ≠ some r2)
    (e3 : p ≠ some r3) : arr T (h.put3 r1 v1 r2 v2 r3 v3) p = arr T h p := by
  unfold Heap.put3 Heap.put2
  rw [arr_ne _ e3, arr_ne _ e2, arr_ne _ e1]

theorem cumsum_sim {r c : ℕ} {pa ca : Arr Int} {n : Int} (hr : h0.next ≤ r) (hc : h0.next ≤ c) (k : Keeps h0 h)
    (ep : h.a r = some (.int64 pa)) (ec : h.a c = some (.int64 ca)) (ne : r ≠ c) :
    Sim h0 h (slip_cumsumK (some r) (some c) n) (slip_cumsum pa ca n)
      fun s _ h' => h' = h.put2 r (.int64 s.1) c (.int64 s.2) := by
  unfold slip_cumsumK slip_cumsum
  refine Sim.bind (Sim.for' (fun (s : Arr Int × Arr Int × Int) t h' => t = s.2.2 ∧ h' = h.put2 r (.int64 s.1) c (.int64 s.2.1))
    ⟨rfl, (put2_self ep ec).symm⟩ ?_) ?_
  · rintro i ⟨p, q, nz⟩ t h' ⟨rfl, rfl⟩
    refine Sim.wr (by rw [put2_a, if_neg ne, if_pos rfl]; rfl) (k.put2 hr hc _ _) fun p' => ?_
    change Sim h0 ((h.put2 r (.int64 p) c (.int64 q)).put r (some (.int64 p'))) _ _ _
    rw [put2_1 ne]
    refine Sim.rd (arr_of accI (by rw [put2_a, if_pos rfl]; rfl)) (k.put2 hr hc _ _) fun ci => ?_
    refine Sim.rd (arr_of accI (by rw [put2_a, if_neg ne, if_pos rfl]; rfl)) (k.put2 hr hc _ _) fun pi => ?_
    refine Sim.wr (by rw [put2_a, if_pos rfl]; rfl) (k.put2 hr hc _ _) fun q' => ?_
    exact Sim.pure ⟨rfl, put2_2⟩
  · rintro ⟨p, q, nz⟩ t h' ⟨rfl, rfl⟩
    refine Sim.bindPure (Sim.wr' (by rw [put2_a, if_neg ne, if_pos rfl]; rfl) (k.put2 hr hc _ _)) ?_
    rintro p' - h' rfl
    exact Sim.pure (put2_1 ne)

theorem buildCsc_sim {T : Acc α} {e : Elt α} {Ai Aj Yx : Option ℕ} {ai aj : Arr Int} {yx : Arr α} {nz : Int} {W i x : ℕ}
    {w ci : Arr Int} {cx : Arr α} (hW : h0.next ≤ W) (hi : h0.next ≤ i) (hx : h0.next ≤ x) (k : Keeps h0 h)
    (eW : h.a W = some (.int64 w)) (ei : h.a i = some (.int64 ci)) (ex : h.a x = some (T.of cx))
    (nWi : W ≠ i) (nWx : W ≠ x) (nix : i ≠ x) (eAi : arr accI h Ai = ai) (eAj : arr accI h Aj = aj) (eY : arr T h Yx = yx)
    (dA : ∀ r ∈ Ai, r ≠ W ∧ r ≠ i ∧ r ≠ x) (dJ : ∀ r ∈ Aj, r ≠ W ∧ r ≠ i ∧ r ≠ x) (dY : ∀ r ∈ Yx, r ≠ W ∧ r ≠ i ∧ r ≠ x) :
    Sim h0 h (buildCscK T e Ai Aj nz (some W) (some i) (some x) Yx) (buildCsc e ai aj nz w ci cx yx)
      fun s _ h' => ∃ w', h' = h.put3 W w' i (.int64 s.2) x (T.of s.1) := by
  unfold buildCscK buildCsc
  have ga : ∀ {β : Type} (S : Acc β) {q : Option ℕ} (_ : ∀ r ∈ q, r ≠ W ∧ r ≠ i ∧ r ≠ x) (v1 v2 v3 : Vals),
      arr S (h.put3 W v1 i v2 x v3) q = arr S h q := fun S q d v1 v2 v3 =>
    arr_put3 S (fun c => (d _ c).1 rfl) (fun c => (d _ c).2.1 rfl) (fun c => (d _ c).2.2 rfl)
  have kk := fun v1 v2 v3 => k.put3 hW hi hx v1 v2 v3
  refine Sim.bindPure (Sim.for' (fun (s : Arr Int × Arr Int × Arr α) _ h' =>
    h' = h.put3 W (.int64 s.1) i (.int64 s.2.1) x (T.of s.2.2)) (put3_self eW ei ex).symm ?_) ?_
  · rintro q ⟨w, ci, cx⟩ t h' rfl
    refine Sim.rd ((ga _ dJ ..).trans eAj) (kk ..) fun j => ?_
    refine Sim.rd (arr_of accI (by rw [put3_a, if_neg nWx, if_neg nWi, if_pos rfl]; rfl)) (kk ..) fun p => ?_
    refine Sim.wr (by rw [put3_a, if_neg nWx, if_neg nWi, if_pos rfl]; rfl) (kk ..) fun w' => ?_
    change Sim h0 ((h.put3 W (.int64 w) i (.int64 ci) x (T.of cx)).put W (some (.int64 w'))) _ _ _
    rw [put3_1 nWi nWx]
    refine Sim.rd ((ga _ dA ..).trans eAi) (kk ..) fun v => ?_
    refine Sim.wr (by rw [put3_a, if_neg nix, if_pos rfl]; rfl) (kk ..) fun c' => ?_
    change Sim h0 ((h.put3 W (.int64 w') i (.int64 ci) x (T.of cx)).put i (some (.int64 c'))) _ _ _
    rw [put3_2 nix]
    refine Sim.rd ((ga _ dY ..).trans eY) (kk ..) fun v => ?_
    refine Sim.bindPure (Sim.zset' (by rw [put3_a, if_pos rfl]) (kk ..)) ?_
    rintro x' - h' rfl
    exact Sim.pure put3_3
  · rintro ⟨w, ci, cx⟩ t h' rfl
    exact Sim.pure ⟨_, rfl⟩

theorem countNz_sim {T : Acc α} {e : Elt α} {Yx : Option ℕ} {yx : Arr α} {nz : Int} (k : Keeps h0 h) (eY : arr T h Yx = yx) :
    Sim h0 h (countNzK T e nz Yx) (countNz e nz yx) fun v w h' => w = v ∧ h' = h := by
  unfold countNzK countNz
  refine Sim.for' (fun v w h' => w = v ∧ h' = h) ⟨rfl, rfl⟩ ?_
  rintro i s t h' ⟨rfl, rfl⟩
  exact Sim.rd eY k fun v => Sim.ite (fun _ => Sim.pure ⟨rfl, rfl⟩) fun _ => Sim.pure ⟨rfl, rfl⟩

theorem buildFromDense_sim {T : Acc α} {e : Elt α} {Yx : Option ℕ} {yx : Arr α} {m n : Int} {p i x : ℕ}
    {cp ci : Arr Int} {cx : Arr α} (hp : h0.next ≤ p) (hi : h0.next ≤ i) (hx : h0.next ≤ x) (k : Keeps h0 h)
    (ep : h.a p = some (.int64 cp)) (ei : h.a i = some (.int64 ci)) (ex : h.a x = some (T.of cx))
    (npi : p ≠ i) (npx : p ≠ x) (nix : i ≠ x) (eY : arr T h Yx = yx) (dY : ∀ r ∈ Yx, r ≠ p ∧ r ≠ i ∧ r ≠ x) :
    Sim h0 h (buildFromDenseK T e m n (some p) (some i) (some x) Yx) (buildFromDense e m n cp ci cx yx)
      fun s _ h' => h' = h.put3 p (.int64 s.2.1) i (.int64 s.2.2) x (T.of s.1) := by
  unfold buildFromDenseK buildFromDense
  have ga : ∀ (v1 v2 v3 : Vals), arr T (h.put3 p v1 i v2 x v3) Yx = yx := fun v1 v2 v3 =>
    (arr_put3 T (fun c => (dY _ c).1 rfl) (fun c => (dY _ c).2.1 rfl) (fun c => (dY _ c).2.2 rfl)).trans eY
  have kk := fun v1 v2 v3 => k.put3 hp hi hx v1 v2 v3
  refine Sim.bind (Sim.for' (fun (s : Int × Arr Int × Arr Int × Arr α) t h' =>
    t = s.1 ∧ h' = h.put3 p (.int64 s.2.1) i (.int64 s.2.2.1) x (T.of s.2.2.2)) ⟨rfl, (put3_self ep ei ex).symm⟩ ?_) ?_
  · rintro j ⟨nz, cp, ci, cx⟩ t h' ⟨rfl, rfl⟩
    refine Sim.wr (by rw [put3_a, if_neg npx, if_neg npi, if_pos rfl]; rfl) (kk ..) fun p' => ?_
    change Sim h0 ((h.put3 p (.int64 cp) i (.int64 ci) x (T.of cx)).put p (some (.int64 p'))) _ _ _
    rw [put3_1 npi npx]
    refine Sim.bindPure (Sim.for' (fun (s : Int × Arr Int × Arr α) t h' =>
      t = s.1 ∧ h' = h.put3 p (.int64 p') i (.int64 s.2.1) x (T.of s.2.2)) ⟨rfl, rfl⟩ ?_) ?_
    · rintro q ⟨nz, ci, cx⟩ t h' ⟨rfl, rfl⟩
      refine Sim.rd (ga ..) (kk ..) fun v => ?_
      refine Sim.ite (fun _ => Sim.pure ⟨rfl, rfl⟩) fun _ => ?_
      refine Sim.wr (by rw [put3_a, if_neg nix, if_pos rfl]; rfl) (kk ..) fun c' => ?_
      change Sim h0 ((h.put3 p (.int64 p') i (.int64 ci) x (T.of cx)).put i (some (.int64 c'))) _ _ _
      rw [put3_2 nix]
      refine Sim.zset (by rw [put3_a, if_pos rfl]) (kk ..) fun x' => ?_
      exact Sim.pure ⟨rfl, put3_3⟩
    · rintro ⟨nz, ci, cx⟩ t h' ⟨rfl, rfl⟩
      exact Sim.pure ⟨rfl, rfl⟩
  · rintro ⟨nz, cp, ci, cx⟩ t h' ⟨rfl, rfl⟩
    refine Sim.bindPure (Sim.wr' (by rw [put3_a, if_neg npx, if_neg npi, if_pos rfl]; rfl) (kk ..)) ?_
    rintro p' - h' rfl
    exact Sim.pure (put3_1 npi npx)

theorem scatterCsc_sim {T : Acc α} {e : Elt α} {Ap Ai Yx : Option ℕ} {ap ai : Arr Int} {yx : Arr α} {m n : Int} {x : ℕ}
    {cx : Arr α} (hx : h0.next ≤ x) (k : Keeps h0 h) (ex : h.a x = some (T.of cx)) (eAp : arr accI h Ap = ap)
    (eAi : arr accI h Ai = ai) (eY : arr T h Yx = yx) (dp : Ap ≠ some x) (di : Ai ≠ some x) (dY : Yx ≠ some x) :
    Sim h0 h (scatterCscK T e m n Ap Ai (some x) Yx) (scatterCsc e m n ap ai cx yx)
      fun s _ h' => h' = h.put x (some (T.of s)) := by
  unfold scatterCscK scatterCsc
  have kk := fun v => k.put hx v
  refine Sim.for' (fun s _ h' => h' = h.put x (some (T.of s))) (put_self ex).symm ?_
  rintro j s t h' rfl
  refine Sim.rd (by rw [arr_ne _ dp]; exact eAp) (kk _) fun a => Sim.rd (by rw [arr_ne _ dp]; exact eAp) (kk _) fun b => ?_
  refine Sim.for' (fun s _ h' => h' = h.put x (some (T.of s))) rfl ?_
  rintro q s t h' rfl
  refine Sim.rd (by rw [arr_ne _ di]; exact eAi) (kk _) fun i => Sim.rd (by rw [arr_ne _ dY]; exact eY) (kk _) fun v => ?_
  refine (Sim.zset' (by rw [put_a, if_pos rfl]) (kk _)).conseq ?_
  rintro x' - h' rfl
  exact put_put ..

theorem scatterTriplet_sim {T : Acc α} {e : Elt α} {Ai Aj Yx : Option ℕ} {ai aj : Arr Int} {yx : Arr α} {m nz : Int} {x : ℕ}
    {cx : Arr α} (hx : h0.next ≤ x) (k : Keeps h0 h) (ex : h.a x = some (T.of cx)) (eAi : arr accI h Ai = ai)
    (eAj : arr accI h Aj = aj) (eY : arr T h Yx = yx) (di : Ai ≠ some x) (dj : Aj ≠ some x) (dY : Yx ≠ some x) :
    Sim h0 h (scatterTripletK T e m nz Ai Aj (some x) Yx) (scatterTriplet e m nz ai aj cx yx)
      fun s _ h' => h' = h.put x (some (T.of s)) := by
  unfold scatterTripletK scatterTriplet
  have kk := fun v => k.put hx v
  refine Sim.for' (fun s _ h' => h' = h.put x (some (T.of s))) (put_self ex).symm ?_
  rintro q s t h' rfl
  refine Sim.rd (by rw [arr_ne _ di]; exact eAi) (kk _) fun i => Sim.rd (by rw [arr_ne _ dj]; exact eAj) (kk _) fun j => ?_
  refine Sim.rd (by rw [arr_ne _ dY]; exact eY) (kk _) fun v => ?_
  refine (Sim.zset' (by rw [put_a, if_pos rfl]) (kk _)).conseq ?_
  rintro x' - h' rfl
  exact put_put ..

/-- The loop that writes the column of every entry, SLIP_matrix_copy.c lines 395-402. -/
theorem cols_sim {Ap : Option ℕ} {ap : Arr Int} {n : Int} {x : ℕ} {cj : Arr Int} (hx : h0.next ≤ x) (k : Keeps h0 h)
    (ex : h.a x = some (.int64 cj)) (eAp : arr accI h Ap = ap) (dp : Ap ≠ some x) :
    Sim h0 h (forK 0 n () fun j _ => do
        let a ← rdK accI Ap j
        let b ← rdK accI Ap (j + 1)
        forK a b () fun p _ => wrK (some x) p j)
      (forRange 0 n cj fun j Cj => do
        let a ← rd ap j
        let b ← rd ap (j + 1)
        forRange a b Cj fun p Cj => wr Cj p j)
      fun s _ h' => h' = h.put x (some (.int64 s)) := by
  have kk := fun v => k.put hx v
  refine Sim.for' (fun s _ h' => h' = h.put x (some (.int64 s))) (put_self ex).symm ?_
  rintro j s t h' rfl
  refine Sim.rd (by rw [arr_ne _ dp]; exact eAp) (kk _) fun a => Sim.rd (by rw [arr_ne _ dp]; exact eAp) (kk _) fun b => ?_
  refine Sim.for' (fun s _ h' => h' = h.put x (some (.int64 s))) rfl ?_
  rintro q s t h' rfl
  refine (Sim.wr' (by rw [put_a, if_pos rfl]; rfl) (kk _)).conseq ?_
  rintro x' - h' rfl
  exact put_put ..

/-- The loop that counts the entries of each column, SLIP_matrix_copy.c lines 128-134. -/
theorem count_sim {Aj : Option ℕ} {aj : Arr Int} {nz : Int} {W : ℕ} {w : Arr Int} (hW : h0.next ≤ W) (k : Keeps h0 h)
    (eW : h.a W = some (.int64 w)) (eAj : arr accI h Aj = aj) (dj : Aj ≠ some W) :
    Sim h0 h (forK 0 nz () fun k _ => do
        let j ← rdK accI Aj k
        let w ← rdK accI (some W) j
        wrK (some W) j (w + 1))
      (forRange 0 nz w fun k W => do
        let j ← rd aj k
        let w ← rd W j
        wr W j (w + 1))
      fun s _ h' => h' = h.put W (some (.int64 s)) := by
  have kk := fun v => k.put hW v
  refine Sim.for' (fun s _ h' => h' = h.put W (some (.int64 s))) (put_self eW).symm ?_
  rintro q s t h' rfl
  refine Sim.rd (by rw [arr_ne _ dj]; exact eAj) (kk _) fun j => ?_
  refine Sim.rd (arr_of accI (by rw [put_a, if_pos rfl]; rfl)) (kk _) fun v => ?_
  refine (Sim.wr' (by rw [put_a, if_pos rfl]; rfl) (kk _)).conseq ?_
  rintro x' - h' rfl
  exact put_put ..

end Slip.Copy
