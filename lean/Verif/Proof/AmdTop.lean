import Verif.Proof.AmdFin2

/-!
# AMD_2
-/

namespace Slip.Amd

variable [Arith]

theorem amd_2_spec {N : ℕ} {nz Al : ℤ} {s : Mem} {F : Sh} {K : Knobs} (h : Inp N nz Al s F) (hAl : nz + N ≤ Al)
    (hNB : ck (9223372036854775807 - (N : ℤ)) = .ok (9223372036854775807 - (N : ℤ))) :
    wp (amd_2 N Al nz K s) (fun y => (∃ τ : Equiv.Perm (Fin N), Holds (y.1 .la) τ) ∧
      0 ≤ y.2 ∧ 2 * y.2 ≤ N * (N - 1)) (fun _ => False) := by
  have hN0 : (0 : ℤ) ≤ N := by omega
  unfold amd_2
  dsimp only
  refine wb (wp_mono (initArrays_spec h.rp hN0) ?_ (fun _ h => h))
  intro s1 g1
  rw [hNB, ok_bind]
  rw [show clear_flag 0 (9223372036854775807 - (N : ℤ)) N s1 = (do
    let s ← forRange 0 (N : ℤ) s1 fun x s => do
      let w ← s.rd .w x
      if w ≠ 0 then s.wr .w x 1 else pure s
    pure (s, 2)) by unfold clear_flag; rw [if_pos (Or.inl (by norm_num))]]
  refine wb (wb (wp_mono (wp_forRange (fun k (s : Mem) => Rm N Al nz s (ini F)) hN0 g1 ?_) ?_ (fun _ h => h)))
  · intro x s2 x0 x1 g2
    rw [g2.rdn .w (by decide) x0 x1, ok_bind, show ini F .w x = 1 from rfl, if_pos (by norm_num)]
    obtain ⟨s3, e3, g3⟩ := g2.wrn .w (by decide) x0 x1 1
    rw [e3]
    refine wok (g3.congr ?_)
    intro f i _
    rw [set_apply]
    split_ifs with hh
    · rw [hh.1]; rfl
    · rfl
  intro s2 g2
  refine wpr ?_
  dsimp only
  refine wb (wp_mono (initLists_spec (F := F) hN0 g2 (fun x x0 x1 => ⟨(h.l x x0 x1).1, (h.l x x0 x1).2.1⟩) ?_) ?_
    (fun _ h => h))
  · refine ⟨rfl, rfl, fun _ _ _ => rfl, fun _ _ _ => ⟨rfl, rfl, rfl, rfl⟩, fun x x0 x1 => by omega,
      fun x x0 x1 => by omega, fun x x0 x1 => by omega, ?_, ⟨fun _ => 0, ?_⟩, ?_, ⟨le_rfl, le_rfl⟩, ⟨le_rfl, le_rfl⟩⟩
    · intro x _ _
      rw [show ini F .w x = 1 from rfl]
      exact ⟨by norm_num, by norm_num, fun h => absurd h (by norm_num)⟩
    · refine ⟨?_, ?_, ?_, ?_⟩
      · rintro c ⟨a, b⟩; have := a.1; omega
      · intro d _ _; exact Or.inl rfl
      · rintro c ⟨a, b⟩; have := a.1; omega
      · rintro c ⟨a, b⟩; have := a.1; omega
    · rw [psum_zero]
      · rfl
      · rintro x x0 _ ⟨a, b⟩; omega
  rintro ⟨s3, nel, ndense⟩ ⟨G, g3, hL⟩
  dsimp only at g3 hL ⊢
  have hd0 := hL.n0.2
  refine wb (wp_mono (pivotLoop_spec rfl hAl hd0 _ _ _ (init_li h g3 hL hN0) ?_) ?_ (fun _ h => h))
  · have := hL.n0.1
    show ((N : ℤ) - nel).toNat < _
    omega
  rintro z ⟨⟨hz, hlz⟩, F', hF'⟩
  refine wb (wp_mono (finish_spec hF' hz) ?_ (fun _ h => h))
  intro s4 h4
  refine wpr ⟨h4, ?_⟩
  have h1 := hF'.lz
  have h2 : 0 ≤ (ndense - 1) * ndense := by
    rcases eq_or_lt_of_le hd0 with e | e
    · rw [← e]; norm_num
    · exact mul_nonneg (by omega) hd0
  have h3 : 0 ≤ (ndense - 1) * ndense / 2 := Int.ediv_nonneg h2 (by norm_num)
  show 0 ≤ z.lnz + (ndense - 1) * ndense / 2 ∧ 2 * (z.lnz + (ndense - 1) * ndense / 2) ≤ N * (N - 1)
  refine ⟨by omega, ?_⟩
  have h4 : z.nel = N := by
    have h5 := hF'.nl
    have h6 : 0 ≤ psum N (LV N F') (F' .nv) := psum_nonneg fun x _ _ hx => hx.2.2.1.le
    omega
  have h7 := hL.nk
  have h8 := hL.n0
  have h9 : ((N : ℤ) - nel + ndense) * (N - nel + ndense - 1) ≤ N * (N - 1) := by
    rcases eq_or_lt_of_le hN0 with e | e
    · rw [show (N : ℤ) - nel + ndense = 0 by omega]; simp [← e]
    · rcases eq_or_lt_of_le (show 0 ≤ (N : ℤ) - nel + ndense by omega) with e' | e'
      · rw [← e']
        have : (0 : ℤ) ≤ N * (N - 1) := mul_nonneg hN0 (by omega)
        omega
      · exact mul_le_mul (by omega) (by omega) (by omega) hN0
  rw [h4, sub_self, zero_add] at hlz
  have h10 : 2 * ((ndense - 1) * ndense / 2) ≤ (ndense - 1) * ndense := by omega
  have h11 : (ndense - 1) * ndense = ndense * (ndense - 1) := mul_comm _ _
  dsimp only at hlz
  omega

end Slip.Amd
