import Verif.Model.MatlabRun
import Verif.Proof.Matlab
import Verif.Props.Machine2
import Verif.Props.Machine3
import Verif.Props.Accepted

/-!
# The MATLAB interface in 64-bit arithmetic: reading the arguments, one call, sequences of calls
-/

namespace Slip
variable {α β : Type}

theorem MexS.bind_ok {m : MexS α} {f : α → MexS β} {s s' : Bool} {a : α} (h : m s = .ok (.ok a, s')) :
    (m >>= f) s = f a s' := by
  show (m s >>= _ : C _) = _
  rw [h]
  rfl

theorem MexS.bind_fail {m : MexS α} {f : α → MexS β} {s s' : Bool} {msg : String}
    (h : m s = .ok (.error msg, s')) : (m >>= f) s = .ok (.error msg, s') := by
  show (m s >>= _ : C _) = _
  rw [h]
  rfl

theorem MexS.lib_ok {f : Bool → C α} {s : Bool} {a : α} (h : f s = .ok a) : MexS.lib f s = .ok (.ok a, s) := by
  show (f s >>= _ : C _) = _
  rw [h]
  rfl

theorem MexS.of_pure (a : α) (s : Bool) : MexS.of (pure a : Mex α) s = .ok (.ok a, s) := rfl

/-- From the result of the call in the old model to the result of the library function. -/
theorem copy_of {c : C (Info × Handle Mat)} {A' : Mat}
    (h : (Mex.lift c >>= fun r => do mexOk r.1; mexGet r.2 : Mex Mat) = pure A') :
    c = .ok (.ok, some (some A')) := by
  match c, h with
  | .error e, h => cases h
  | .ok (info, hd), h =>
    by_cases hi : info = .ok
    · subst hi
      match hd, h with
      | none, h => cases h
      | some none, h => cases h
      | some (some M), h => cases h; rfl
    · have : (mexOk info : Mex Unit) = Mex.fail (mexMessage info) := if_neg hi
      change (mexOk info >>= fun _ => mexGet hd : Mex Mat) = pure A' at h
      rw [this] at h
      cases h

theorem alloc_ok {kind : Kind} {type : Ty} {m n z : Int} {M : Mat}
    (h : allocate64 kind type m n z true false = .ok M) : MexS.alloc kind type m n z true = .ok (.ok M, true) := by
  refine MexS.lib_ok ?_
  show (match allocate64 kind type m n z true false with
    | .ok M => .ok M
    | .error _ => .error .ub : C Mat) = _
  rw [h]

theorem get_ok (M : Mat) : MexS.get (some (some M)) true = .ok (.ok M, true) := rfl

theorem copy64_run {c : Bool → C (Info × Handle Mat)} {M : Mat} (h : c true = .ok (.ok, some (some M))) :
    (MexS.lib c >>= fun r => do MexS.check r.1; MexS.get r.2 : MexS Mat) true = .ok (.ok M, true) := by
  rw [MexS.bind_ok (MexS.lib_ok h)]
  rfl

theorem mexGetA64_spec {fp : Fp} (hfp : Int64ToDExact fp) {opt : Option Options} (hopt : 93 ≤ optPrec opt)
    {n : ℕ} {A : MxSparse} (hA : A.Ok n) (hn : (n : ℤ) ≤ 2 ^ 29) {A' : Mat} (eA : mexGetA fp opt A = pure A') :
    mexGetA64 fp opt A true = .ok (.ok A', true) ∧ 0 < A'.nzmax := by
  obtain ⟨N, hN, hx, hM⟩ := mxSparse_valid hA
  choose! v hv using hx
  have hchk := check_for_inf_spec hfp hv
  unfold mexGetA at eA
  rw [hA.cols, hA.rows, rd_eq hN, Mex.lift_ok, Mex.pure_bind', if_neg (by simp), hchk, Mex.pure_bind'] at eA
  unfold mexGetA64
  rw [hA.cols, hA.rows, MexS.bind_ok (MexS.lib_ok (rd_eq hN)), if_neg (by simp), hchk, MexS.bind_ok (MexS.of_pure _ _)]
  have hP : IsPattern n A.jc A.ir := by
    refine ⟨hA.p0, fun j hj => ?_⟩
    obtain ⟨a, b, ha, hb, hab, he, hd⟩ := hA.col j hj
    exact ⟨a, b, ha, hb, hab, fun t h1 h2 => (he t h1 h2).1, hd⟩
  have hle : (N : ℤ) ≤ n * n := by
    obtain ⟨z, hz, -, hz1⟩ := M64.ptr_le hP n le_rfl
    rw [hN] at hz
    rw [Option.some.inj hz]
    exact hz1
  have run : ∀ M : Mat, Valid n n M → M.kind = .csc → SLIP_matrix_nnz true (some M) = .ok (N : ℤ) → (N : ℤ) ≤ n * n →
      (Mex.lift (SLIP_matrix_copy fp true (some none) .csc .mpz (some M) opt) >>= fun r => do
        mexOk r.1; mexGet r.2 : Mex Mat) = pure A' →
      (MexS.lib (fun s => SLIP_matrix_copy64 fp s (some none) .csc .mpz (some M) opt) >>= fun r => do
        MexS.check r.1; MexS.get r.2 : MexS Mat) true = .ok (.ok A', true) ∧ 0 < A'.nzmax := by
    intro M hV hk hnz hle e
    refine ⟨copy64_run (M := A') ?_, copy_room (copy_of e)⟩
    rw [← copy_of e]
    have hnn : (n : ℤ) * n ≤ 2 ^ 58 := by nlinarith
    exact C46_copy hV hnz (by omega) (by omega) (by omega)
      (fun h => by rcases h with h | h; · rw [hk] at h; cases h
                   · cases h) _ (by rw [copy_of e]; simp)
  by_cases hI : ∀ k, k < N → IsI64 (v k)
  · rw [decide_eq_true hI] at eA ⊢
    simp only [if_true] at eA ⊢
    obtain ⟨y, ey, hy⟩ := castInt64_spec (fun k hk => (hv k hk).1) hI
    rw [ey, Mex.lift_ok, Mex.pure_bind'] at eA
    have ea : allocate .csc .int64 n n N true false = .ok
      ⟨n, n, max (N : ℤ) 1, 0, .csc, .int64, none, true, none, true, none, true, none, true, 1⟩ := rfl
    rw [ea, Mex.lift_ok, Mex.pure_bind', Mex.pure_bind'] at eA
    have ea' : allocate64 .csc .int64 n n N true false = .ok
      ⟨n, n, max (N : ℤ) 1, 0, .csc, .int64, none, true, none, true, none, true, none, true, 1⟩ := rfl
    simp only at eA
    obtain ⟨hV, hm, hz⟩ := hM ⟨n, n, max (N : ℤ) 1, 0, .csc, .int64, some A.jc, true, some A.ir, true, none,
      true, some (.int64 y), false, 1⟩ ⟨rfl, rfl, ⟨_, rfl, rfl⟩, by norm_num⟩ rfl rfl rfl (fun k hk => by
        rw [(hv k hk).num]
        show (get y k).map _ = _
        rw [hy k hk]
        simp only [Option.map_some]
        rw [← (hI k hk).1])
    rw [MexS.bind_ok (MexS.lib_ok (f := fun _ => castInt64 A.pr N) ey), MexS.bind_ok (alloc_ok ea')]
    exact run _ (Or.inl hV) rfl hz hle eA
  · rw [decide_eq_false hI] at eA ⊢
    simp only [Bool.false_eq_true, if_false] at eA ⊢
    have ea : allocate .csc .fp64 n n N true false = .ok
      ⟨n, n, max (N : ℤ) 1, 0, .csc, .fp64, none, true, none, true, none, true, none, true, 1⟩ := rfl
    rw [ea, Mex.lift_ok, Mex.pure_bind', Mex.pure_bind'] at eA
    have ea' : allocate64 .csc .fp64 n n N true false = .ok
      ⟨n, n, max (N : ℤ) 1, 0, .csc, .fp64, none, true, none, true, none, true, none, true, 1⟩ := rfl
    simp only at eA
    obtain ⟨hV, hm, hz⟩ := hM ⟨n, n, max (N : ℤ) 1, 0, .csc, .fp64, some A.jc, true, some A.ir, true, none,
      true, some (.fp64 A.pr), true, 1⟩ ⟨rfl, rfl, ⟨_, rfl, rfl⟩, by norm_num⟩ rfl rfl rfl (fun k hk => rfl)
    rw [MexS.bind_ok (alloc_ok ea')]
    exact run _ (Or.inl hV) rfl hz hle eA

theorem mexGetB64_spec {fp : Fp} (hfp : Int64ToDExact fp) {opt : Option Options}
    {n k : ℕ} {b : MxFull} (hb : b.Ok n k) (hn : (n : ℤ) ≤ 2 ^ 60) (hk : (k : ℤ) ≤ 2 ^ 60) (hnk : (n : ℤ) * k ≤ 2 ^ 60)
    {b' : Mat} (eB : mexGetB fp opt n b = pure b') :
    mexGetB64 fp opt n b true = .ok (.ok b', true) ∧ 0 < b'.nzmax := by
  have hx : ∀ t : ℕ, t < n * k → ∃ v, MxExact (get b.pr t) v := by
    intro t ht
    obtain ⟨i, hi, j, hj, rfl⟩ := ix2_surj ht
    push_cast
    exact hb.entry i hi j hj
  choose! v hv using hx
  have hchk := check_for_inf_spec hfp hv
  have hcast : ((n * k : ℕ) : ℤ) = (k : ℤ) * n := by push_cast; ring
  have hcast' : ((n * k : ℕ) : ℤ) = (n : ℤ) * k := by push_cast; ring
  have hpos : (0 : ℤ) ≤ (n : ℤ) * k := by positivity
  have i1 : i64 ((k : ℤ) * n) = .ok ((n * k : ℕ) : ℤ) := by
    rw [hcast]
    rw [mul_comm]; exact M64.i64_eq (by omega) (by omega)
  have i2 : i64 ((n : ℤ) * k) = .ok ((n * k : ℕ) : ℤ) := by
    rw [hcast']
    exact M64.i64_eq (by omega) (by omega)
  have hval' : ∀ M : Mat, Header n k M → M.kind = .dense →
      (∀ t : ℕ, t < n * k → M.val t = dnum (get b.pr t)) → Valid n k M := by
    intro M hH hk hval
    refine Or.inr (Or.inr ⟨hH, hk, fun i hi j hj => ?_⟩)
    have := hval _ (ix2_lt hi hj)
    rw [(hv _ (ix2_lt hi hj)).num] at this
    push_cast at this
    exact ⟨_, this⟩
  have run : ∀ M : Mat, Valid n k M → M.kind = .dense → M.m = n → M.n = k →
      (Mex.lift (SLIP_matrix_copy fp true (some none) .dense .mpz (some M) opt) >>= fun r => do
        mexOk r.1; mexGet r.2 : Mex Mat) = pure b' →
      (MexS.lib (fun s => SLIP_matrix_copy64 fp s (some none) .dense .mpz (some M) opt) >>= fun r => do
        MexS.check r.1; MexS.get r.2 : MexS Mat) true = .ok (.ok b', true) ∧ 0 < b'.nzmax := by
    intro M hV hkd hm hn' e
    refine ⟨copy64_run (M := b') ?_, copy_room (copy_of e)⟩
    rw [← copy_of e]
    have hz : SLIP_matrix_nnz true (some M) = .ok ((n : ℤ) * k) := by
      unfold SLIP_matrix_nnz
      simp only [Bool.not_true, Bool.false_eq_true, if_false, hkd, hm, hn']
      rw [if_neg (by omega)]
      rfl
    exact C46_copy hV hz hnk hn hk (fun _ => hnk) _ (by rw [copy_of e]; simp)
  unfold mexGetB at eB
  rw [hb.rows, hb.cols, if_neg (by simp), ← hcast, hchk, Mex.pure_bind'] at eB
  unfold mexGetB64
  rw [hb.rows, hb.cols, if_neg (by simp), MexS.bind_ok (MexS.lib_ok (f := fun _ => i64 ((k : ℤ) * n)) i1), hchk,
    MexS.bind_ok (MexS.of_pure _ _)]
  by_cases hI : ∀ t, t < n * k → IsI64 (v t)
  · rw [decide_eq_true hI] at eB ⊢
    simp only [if_true] at eB ⊢
    obtain ⟨y, ey, hy⟩ := castInt64_spec (fun k hk => (hv k hk).1) hI
    have ea : allocate .dense .int64 n k ((n : ℤ) * k) true false = .ok
      ⟨n, k, max ((n : ℤ) * k) 1, 0, .dense, .int64, none, true, none, true, none, true, none, true, 1⟩ := rfl
    have ea' : allocate64 .dense .int64 n k ((n * k : ℕ) : ℤ) true false = .ok
        ⟨n, k, max ((n : ℤ) * k) 1, 0, .dense, .int64, none, true, none, true, none, true, none, true, 1⟩ := by
      unfold allocate64
      rw [if_neg (by simp [Kind.ok, Ty.ok])]
      rw [if_pos rfl, i2, ok_bind, hcast']
      rfl
    rw [ea, Mex.lift_ok, Mex.pure_bind', ← hcast', ey, Mex.lift_ok, Mex.pure_bind', Mex.pure_bind'] at eB
    rw [MexS.bind_ok (MexS.lib_ok (f := fun _ => i64 ((n : ℤ) * k)) i2), MexS.bind_ok (alloc_ok ea'),
      MexS.bind_ok (MexS.lib_ok (f := fun _ => castInt64 b.pr ((n * k : ℕ) : ℤ)) ey)]
    simp only at eB
    rw [hcast'] at eB
    have hV := hval' ⟨n, k, max ((n : ℤ) * k) 1, 0, .dense, .int64, none, true, none, true, none, true,
      some (.int64 y), true, 1⟩ ⟨rfl, rfl, ⟨_, rfl, rfl⟩, by norm_num⟩ rfl fun t ht => by
        rw [(hv t ht).num]
        show (get y t).map _ = _
        rw [hy t ht]
        simp only [Option.map_some]
        rw [← (hI t ht).1]
    rw [pure_bind]
    exact run _ hV rfl rfl rfl eB
  · rw [decide_eq_false hI] at eB ⊢
    simp only [Bool.false_eq_true, if_false] at eB ⊢
    have ea : allocate .dense .fp64 n k ((n : ℤ) * k) true false = .ok
      ⟨n, k, max ((n : ℤ) * k) 1, 0, .dense, .fp64, none, true, none, true, none, true, none, true, 1⟩ := rfl
    have ea' : allocate64 .dense .fp64 n k ((n * k : ℕ) : ℤ) true false = .ok
        ⟨n, k, max ((n : ℤ) * k) 1, 0, .dense, .fp64, none, true, none, true, none, true, none, true, 1⟩ := by
      unfold allocate64
      rw [if_neg (by simp [Kind.ok, Ty.ok])]
      rw [if_pos rfl, i2, ok_bind, hcast']
      rfl
    rw [ea, Mex.lift_ok, Mex.pure_bind', Mex.pure_bind'] at eB
    rw [MexS.bind_ok (MexS.lib_ok (f := fun _ => i64 ((n : ℤ) * k)) i2), MexS.bind_ok (alloc_ok ea')]
    simp only at eB
    have hV := hval' ⟨n, k, max ((n : ℤ) * k) 1, 0, .dense, .fp64, none, true, none, true, none, true,
      some (.fp64 b.pr), true, 1⟩ ⟨rfl, rfl, ⟨_, rfl, rfl⟩, by norm_num⟩ rfl fun t ht => rfl
    rw [pure_bind]
    exact run _ hV rfl rfl rfl eB

/-- The check of a matrix does not change anything. -/
theorem show_ok {qs : List (Int × Int) → List (Int × Int)} (hq : QsortOk qs) {o : Options} {M : Mat} {N : ℤ}
    (ha : Accepted M) (hN : SLIP_matrix_nnz true (some M) = .ok N) (hz : N ≤ 2 ^ 59) (hn : M.n ≤ 2 ^ 60)
    (hd : M.kind = .dense → M.m * M.n ≤ 2 ^ 60) : MexS.show qs o M true = .ok (.ok (), true) := by
  unfold MexS.show
  by_cases hp : o.printLevel > 0
  · rw [if_pos hp]
    have e := ha qs hq (some o)
    rw [MexS.bind_ok (MexS.lib_ok (a := .ok) (f := fun s => SLIP_matrix_check64 qs s (some M) (some o))
      ((C46_check qs (some o) M hN hz hn hd (by rw [e]; simp)).trans e))]
    rfl
  · rw [if_neg hp]
    rfl

end Slip
