import Verif.Props.WorseSolved

/-! # C96: the size by Etemad-Shahidi et al. (2020) is a limit up to the tolerance -/

open Classical
open PF WorseStrProof
noncomputable section

/-- C96, Etemad-Shahidi et al. (2020): there is a size `p` that is exactly the limit: every size at least as large keeps
the damage within the allowed damage and every smaller size does not. For every starting value and positive tolerance
the returned size differs from it by what the tolerance leaves, once the limit of passes is large enough. Partial: the
returned size itself is not exactly the limit. -/
theorem C96_etemad2020_size_partial {H T N c ra S Dc C0 t : ℝ} (m M Mc rc : PF) (b : Bool) (hH : 0 < H) (hT : 0 < T)
    (hN : 0 < N) (hc : 0 < c) (hr : 1025 < ra) (hS : 0 < S) (hDc : 0 ≤ Dc)
    (hm : b = true → ∃ x : ℝ, x < 1 / 3 ∧ m = fin x) (hC0 : 0 < C0) (ht : 0 < t) :
    ∃ p D : ℝ, 0 < p ∧ 0 < D ∧
    (∀ x, 0 < x → ∃ v, (Etemad2020.calculate_damage_number_S (fin H) (fin T) (fin N) (fin c) (fin ra) (fin x) M (fin Dc)
      Mc rc (fin 1025) m b).res = .ok (fin v) ∧ (v ≤ S ↔ p ≤ x)) ∧
    (∃ n0 : ℕ, ∀ n ≥ n0, (Etemad2020.calculate_nominal_rock_diameter_Dn50 (fin H) (fin T) (fin N) (fin c) (fin ra)
      (fin S) (fin Dc) Mc rc m b (fin C0) n (fin t)).res = .ok (fin D)) ∧
    (t < D → |Real.log D - Real.log p| ≤ 0.22 * (t / (D - t))) := by
  obtain ⟨n0, D, p, hD, hp, hres, e, hcl⟩ := EtemadProof.size_near m M Mc rc b hH hT hN hc hr hS hDc hm C0 t hC0 ht
  refine ⟨p, D, hp, hD, fun x hx => ?_, ⟨n0, hres⟩, hcl⟩
  obtain ⟨z, hz⟩ : ∃ z : ℝ, b = true → z < 1 / 3 ∧ m = fin z := by
    cases b with
    | false => exact ⟨0, by simp⟩
    | true => obtain ⟨z, hz⟩ := hm rfl; exact ⟨z, fun _ => hz⟩
  rcases le_or_gt p x with h | h
  · obtain ⟨u, v, k, k', h1, -⟩ := C92_etemad2020_damage m m M M Mc Mc rc rc b b hT hc hH le_rfl hN le_rfl hp h hDc
      le_rfl (by norm_num) le_rfl hr le_rfl hz hz le_rfl
    rw [e, Except.ok.injEq, fin_inj] at k'
    exact ⟨u, k, iff_of_true (by linarith) h⟩
  · obtain ⟨u, v, k, k', -, h1⟩ := C92_etemad2020_damage m m M M Mc Mc rc rc b b hT hc hH le_rfl hN le_rfl hx h.le hDc
      le_rfl (by norm_num) le_rfl hr le_rfl hz hz le_rfl
    rw [e, Except.ok.injEq, fin_inj] at k
    have := h1 (Or.inr (Or.inr (Or.inl h)))
    exact ⟨v, k', iff_of_false (by linarith) (not_le.mpr h)⟩

example := C96_etemad2020_size_partial (H := 2) (T := 8) (N := 3000) (c := 2) (ra := 2650) (S := 2) (Dc := 0.3)
  (C0 := 1) (t := 0.001) nan nan nan nan false (by norm_num) (by norm_num) (by norm_num) (by norm_num) (by norm_num)
  (by norm_num) (by norm_num) (by simp) (by norm_num) (by norm_num)
end
