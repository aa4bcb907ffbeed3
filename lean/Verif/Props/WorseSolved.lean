import Verif.Props.WorseRock
import Verif.Props.WorseRear
import Verif.Props.Etemad2020
import Verif.Props.RearHeight
import Verif.Props.RearPozuetaHeight
import Verif.Props.WorseToeMore
import Verif.Props.ToeEtemad

/-! # C92: worse conditions never make the result of an iteration look safer

The iterations stop when a pass changes the estimate by less than the tolerance. What is compared is therefore, first,
the exact solution (the size or wave height with the requested damage), and second, the returned numbers, which follow
up to the error left by the tolerance. -/

open Classical
open PF WorseStrProof
noncomputable section

namespace EtemadProof
open Etemad2020

/-- the size returned once the limit is large enough, and its distance from the solution -/
theorem size_near {H T N c ra S Dc : ℝ} (m M Mc rc : PF) (b : Bool) (hH : 0 < H) (hT : 0 < T) (hN : 0 < N)
    (hc : 0 < c) (hr : 1025 < ra) (hS : 0 < S) (hDc : 0 ≤ Dc) (hm : b = true → ∃ x : ℝ, x < 1 / 3 ∧ m = fin x)
    (C0 t : ℝ) (hC0 : 0 < C0) (ht : 0 < t) : ∃ (n0 : ℕ) (D p : ℝ), 0 < D ∧ 0 < p ∧
    (∀ n ≥ n0, (calculate_nominal_rock_diameter_Dn50 (fin H) (fin T) (fin N) (fin c) (fin ra)
      (fin S) (fin Dc) Mc rc m b (fin C0) n (fin t)).res = .ok (fin D)) ∧
    (calculate_damage_number_S (fin H) (fin T) (fin N) (fin c) (fin ra) (fin p) M (fin Dc) Mc rc
      (fin 1025) m b).res = .ok (fin S) ∧
    (t < D → |Real.log D - Real.log p| ≤ 0.22 * (t / (D - t))) := by
  obtain ⟨I, hI, e⟩ := dep_eval hm
  obtain ⟨K, st, hK, hdam, hst, hsize⟩ := size_eval Mc rc hH hT hN hc hr hI e hS hDc
  obtain ⟨n0, P, hP, hcl, hres⟩ := loop_stops st K Dc C0 hK hDc hC0 hst t ht
  have hlip := fun x y hx hy => Fit_log (x := x) (y := y) hK hDc hx hy
  obtain ⟨p, hp, hfix, huniq, -⟩ := log_contraction (Fit K Dc) 0.18 (by norm_num) (by norm_num)
    (fun x hx => Fit_pos hK hDc hx) hlip
  have hD := Fit_pos hK hDc hP
  refine ⟨n0 + 1, Fit K Dc P, p, hD, hp, fun n hn => ?_, ?_, fun htD => ?_⟩
  · obtain ⟨n, rfl⟩ := Nat.exists_eq_succ_of_ne_zero (show n ≠ 0 by omega)
    obtain ⟨D, h1, h2⟩ := hsize C0 t n hC0
    rw [hres _ (by omega), Option.some.injEq] at h1
    rw [h1]; exact h2
  · rw [S_eval M Mc rc hT hN hc (by norm_num) hr hp hDc hI e hH, Except.ok.injEq, fin_inj,
      hdam p _ hp (cp_pos hp hDc), fixed_iff hK hDc hp hS]
    exact hfix
  · have h1 := log_a_posteriori (Fit K Dc) 0.18 p P (by norm_num) hP hp hfix hlip
    have h2 := abs_log_sub_le ht.le htD hP hcl
    have h3 : 0 ≤ t / (Fit K Dc P - t) := le_trans (abs_nonneg _) h2
    calc _ ≤ _ := h1
      _ ≤ 0.18 / (1 - 0.18) * (t / (Fit K Dc P - t)) := by gcongr
      _ ≤ 0.22 * (t / (Fit K Dc P - t)) := by gcongr; norm_num

end EtemadProof

section
variable {T c H H' N N' Dc Dc' ra ra' x x' : ℝ} (m m' M M' Mc Mc' rc rc' : PF)
    (b b' : Bool) (hT : 0 < T) (hc : 0 < c) (hH : 0 < H) (hHH : H ≤ H') (hN : 0 < N) (hNN : N ≤ N')
    (hDc : 0 ≤ Dc') (hcc : Dc' ≤ Dc) (hr' : 1025 < ra')
    (hrr : ra' ≤ ra) (hm : b = true → x < 1 / 3 ∧ m = fin x) (hm' : b' = true → x' < 1 / 3 ∧ m' = fin x')
    (hbb : (if b' then 1 - 3 * x' else 1) ≤ (if b then 1 - 3 * x else 1))
include hT hc hH hHH hN hNN hDc hcc hr' hrr hm hm' hbb

/-- C92: with the wave period and the slope unchanged, the size with the requested damage is not less for a higher
wave, a longer storm, lighter armour, a finer core, a stronger reduction by the foreshore and a stricter damage limit
(Etemad-Shahidi et al. 2020) -/
theorem C92_etemad2020_required_size {D D' S S' : ℝ} (hD' : 0 < D') (hSS : S' ≤ S)
    (e : (Etemad2020.calculate_damage_number_S (fin H) (fin T) (fin N) (fin c) (fin ra) (fin D) M (fin Dc) Mc rc
        (fin 1025) m b).res = .ok (fin S))
    (e' : (Etemad2020.calculate_damage_number_S (fin H') (fin T) (fin N') (fin c) (fin ra') (fin D') M' (fin Dc') Mc'
        rc' (fin 1025) m' b').res = .ok (fin S')) :
    D ≤ D' ∧ (H < H' ∨ N < N' ∨ S' < S ∨ Dc' < Dc ∨ (if b' then 1 - 3 * x' else 1) < (if b then 1 - 3 * x else 1) →
      D < D') := by
  have key : ∀ h : D' ≤ D, S ≤ S' ∧ (H < H' ∨ N < N' ∨ D' < D ∨ Dc' < Dc ∨
      (if b' then 1 - 3 * x' else 1) < (if b then 1 - 3 * x else 1) → S < S') := by
    intro h
    obtain ⟨y, y', k, k', h1, h2⟩ := C92_etemad2020_damage m m' M M' Mc Mc' rc rc' b b' hT hc hH hHH hN hNN hD' h hDc
      hcc (by norm_num) le_rfl hr' hrr hm hm' hbb
    rw [e, Except.ok.injEq, fin_inj] at k
    rw [e', Except.ok.injEq, fin_inj] at k'
    subst k k'
    exact ⟨h1, h2⟩
  refine ⟨?_, fun hs => ?_⟩
  · by_contra h
    push Not at h
    have := (key h.le).2 (Or.inr (Or.inr (Or.inl h)))
    linarith
  · by_contra h
    push Not at h
    obtain ⟨k1, k2⟩ := key h
    rcases hs with a | a | a | a | a
    · linarith [k2 (Or.inl a)]
    · linarith [k2 (Or.inr (Or.inl a))]
    · linarith
    · linarith [k2 (Or.inr (Or.inr (Or.inr (Or.inl a))))]
    · linarith [k2 (Or.inr (Or.inr (Or.inr (Or.inr a))))]

/-- C92: the sizes returned for any tolerance, once the limit of passes is large enough, follow the same order up to
the error left by the tolerance -/
theorem C92_etemad2020_size {S S' C0 t : ℝ} (hS : 0 < S') (hSS : S' ≤ S) (hC0 : 0 < C0) (ht : 0 < t) :
    ∃ (n0 : ℕ) (D D' : ℝ), 0 < D ∧ 0 < D' ∧ ∀ n ≥ n0,
      (Etemad2020.calculate_nominal_rock_diameter_Dn50 (fin H) (fin T) (fin N) (fin c) (fin ra) (fin S) (fin Dc) Mc rc m
        b (fin C0) n (fin t)).res = .ok (fin D) ∧
      (Etemad2020.calculate_nominal_rock_diameter_Dn50 (fin H') (fin T) (fin N') (fin c) (fin ra') (fin S') (fin Dc')
        Mc' rc' m' b' (fin C0) n (fin t)).res = .ok (fin D') ∧
      (t < D → t < D' → Real.log D ≤ Real.log D' + 0.22 * (t / (D - t)) + 0.22 * (t / (D' - t))) := by
  have hex : b = true → ∃ x : ℝ, x < 1 / 3 ∧ m = fin x := fun h => ⟨x, hm h⟩
  have hex' : b' = true → ∃ x : ℝ, x < 1 / 3 ∧ m' = fin x := fun h => ⟨x', hm' h⟩
  obtain ⟨k, D, p, hD, hp, r, e, d⟩ := EtemadProof.size_near m nan Mc rc b hH hT hN hc (hr'.trans_le hrr)
    (hS.trans_le hSS) (hDc.trans hcc) hex C0 t hC0 ht
  obtain ⟨k', D', p', hD', hp', r', e', d'⟩ := EtemadProof.size_near m' nan Mc' rc' b' (hH.trans_le hHH) hT
    (hN.trans_le hNN) hc hr' hS hDc hex' C0 t hC0 ht
  have hpp := (C92_etemad2020_required_size m m' nan nan Mc Mc' rc rc' b b' hT hc hH hHH hN hNN hDc hcc hr' hrr hm hm'
    hbb hp' hSS e e').1
  refine ⟨max k k', D, D', hD, hD', fun n hn => ⟨r n (le_trans (le_max_left _ _) hn),
    r' n (le_trans (le_max_right _ _) hn), fun h h' => ?_⟩⟩
  have a := abs_le.mp (d h)
  have a' := abs_le.mp (d' h')
  have := Real.log_le_log hp hpp
  linarith [a.2, a'.1]
end

/-- a higher wave and a finer core: the larger size is really larger -/
example : ∃ D D' : ℝ, 0 < D' ∧
    (Etemad2020.calculate_damage_number_S (fin 2) (fin 8) (fin 1000) (fin 2) (fin 2650) (fin D) nan (fin 0.3) nan nan
        (fin 1025) (fin 0.02) true).res = .ok (fin 4) ∧
    (Etemad2020.calculate_damage_number_S (fin 3) (fin 8) (fin 3000) (fin 2) (fin 2600) (fin D') nan (fin 0.2) nan nan
        (fin 1025) (fin 0.02) true).res = .ok (fin 2) ∧ D < D' := by
  obtain ⟨-, -, p, -, hp, -, e, -⟩ := EtemadProof.size_near (H := 2) (T := 8) (N := 1000) (c := 2) (ra := 2650)
    (S := 4) (Dc := 0.3) (fin 0.02) nan nan nan true (by norm_num) (by norm_num) (by norm_num) (by norm_num)
    (by norm_num) (by norm_num) (by norm_num) (fun _ => ⟨0.02, by norm_num, rfl⟩) 0.5 1e-5 (by norm_num) (by norm_num)
  obtain ⟨-, -, p', -, hp', -, e', -⟩ := EtemadProof.size_near (H := 3) (T := 8) (N := 3000) (c := 2) (ra := 2600)
    (S := 2) (Dc := 0.2) (fin 0.02) nan nan nan true (by norm_num) (by norm_num) (by norm_num) (by norm_num)
    (by norm_num) (by norm_num) (by norm_num) (fun _ => ⟨0.02, by norm_num, rfl⟩) 0.5 1e-5 (by norm_num) (by norm_num)
  exact ⟨p, p', hp', e, e', (C92_etemad2020_required_size (x := 0.02) (x' := 0.02) _ _ _ _ _ _ _ _ _ _ (by norm_num)
    (by norm_num) (by norm_num) (by norm_num) (by norm_num) (by norm_num) (by norm_num) (by norm_num) (by norm_num)
    (by norm_num) (by norm_num) (by norm_num) (by norm_num) hp' (by norm_num) e e').2 (Or.inl (by norm_num))⟩

example := C92_etemad2020_size (T := 8) (c := 2) (H := 2) (H' := 3) (N := 1000) (N' := 3000) (Dc := 0.3)
  (Dc' := 0.2) (ra := 2650) (ra' := 2600) (x := 0.02) (x' := 0.02) (fin 0.02) (fin 0.02) nan nan nan nan true
  true (by norm_num) (by norm_num) (by norm_num) (by norm_num) (by norm_num) (by norm_num) (by norm_num) (by norm_num)
  (by norm_num) (by norm_num) (by norm_num) (by norm_num) (by norm_num) (S := 4) (S' := 2) (C0 := 0.5) (t := 1e-5)
  (by norm_num) (by norm_num) (by norm_num) (by norm_num)

/-! ## Rear slopes -/

namespace WorseStrProof

theorem runup_of_z1p {H T ca f z : ℝ} (hH : 0 < H) (hT : 0 < T) (hc : 0 < ca) (hf : 0 < f)
    (hz : VanGent2001.calculate_wave_runup_height_z1p (fin H) (fin T) (fin f) (fin ca) = fin z) :
    Published.VanGentRunup 1.45 5.1 (Textbook.iribarren H T ca) f H z := by
  obtain ⟨y, -, e, h⟩ := (C78_vangent_runup_defaults H T ca f hH hT hc hf).1
  have : fin z = fin y := by rw [← hz]; simpa using e
  rw [fin_inj] at this
  rwa [this]

end WorseStrProof

section
variable {ca ca' f f' T T' Rc Rc' Rf Rf' Rr Rr' N N' D D' S S' : ℝ} (cp : ℝ) (M M' rho rho' : PF)
  (hcp : 0 < cp) (hca : 0 < ca') (haa : ca' ≤ ca) (hf : 0 < f) (hff : f ≤ f')
  (hT : 0 < T) (hTT : T ≤ T') (hRc : 0 < Rc') (hRR : Rc' ≤ Rc) (hRr : 0 ≤ Rr) (hrr : Rr ≤ Rr') (hR' : Rr' < Rc')
  (hRf : 0 < Rf') (hee : Rf' ≤ Rf) (hN : 0 < N) (hNN : N ≤ N') (hD : 0 < D') (hDD : D' ≤ D) (hSS : S' ≤ S)
include hcp hca haa hf hff hT hTT hRc hRR hRr hrr hR' hRf hee hN hNN hD hDD hSS

/-- C92: longer waves, a longer storm, a smoother or steeper front slope, a lower crest or crest element, smaller
stones and a stricter damage limit never allow a higher wave (Van Gent 2007), if a crest that is lowered stays above a
fifth of the run-up level: among the wave heights whose run-up passes the crest, the one with the requested damage is
not higher. Missing: the condition on the crest level, see `C92_rear2007_crest_refuted` -/
theorem C92_rear2007_allowed_height_partial {H H' z z' : ℝ} (hH : 0 < H) (hH' : 0 < H') (hz : Rc < z)
    (hl : Rc' < Rc → z' ≤ 5 * Rc')
    (ez : VanGent2001.calculate_wave_runup_height_z1p (fin H) (fin T) (fin f) (fin ca) = fin z)
    (ez' : VanGent2001.calculate_wave_runup_height_z1p (fin H') (fin T') (fin f') (fin ca') = fin z')
    (e : (VanGent2007Rear.calculate_damage_number_S (fin ca) (fin cp) (fin f) (fin H) (fin T) (fin Rc) (fin Rf)
        (fin Rr) (fin N) (fin D) M rho).res = .ok (fin S))
    (e' : (VanGent2007Rear.calculate_damage_number_S (fin ca') (fin cp) (fin f') (fin H') (fin T') (fin Rc') (fin Rf')
        (fin Rr') (fin N') (fin D') M' rho').res = .ok (fin S')) :
    H' ≤ H ∧ (T < T' ∨ ca' < ca ∨ f < f' ∨ Rc' < Rc ∨ Rr < Rr' ∨ Rf' < Rf ∨ N < N' ∨ D' < D ∨ S' < S → H' < H) := by
  have key : ∀ h : H ≤ H', S ≤ S' ∧ (H < H' ∨ T < T' ∨ ca' < ca ∨ f < f' ∨ Rc' < Rc ∨ Rr < Rr' ∨ Rf' < Rf ∨ N < N' ∨
      D' < D → S < S') := by
    intro h
    obtain ⟨y, y', k, k', h1, h2⟩ := C92_rear2007_damage_partial cp M M' rho rho' hcp hca haa hf hff hH h hT hTT hRc hRR
      hRr hrr hR' hRf.le hee hN hNN (runup_of_z1p hH hT (hca.trans_le haa) hf ez)
      (runup_of_z1p hH' (hT.trans_le hTT) hca (hf.trans_le hff) ez') hz hl D D' hD hDD
    rw [e, Except.ok.injEq, fin_inj] at k
    rw [e', Except.ok.injEq, fin_inj] at k'
    subst k k'
    exact ⟨h1, h2⟩
  refine ⟨?_, fun hs => ?_⟩
  · by_contra h
    push Not at h
    have := (key h.le).2 (Or.inl h)
    linarith
  · by_contra h
    push Not at h
    obtain ⟨k1, k2⟩ := key h
    rcases hs with a | a | a | a | a | a | a | a | a
    · linarith [k2 (by simp only [a, true_or, or_true])]
    · linarith [k2 (by simp only [a, true_or, or_true])]
    · linarith [k2 (by simp only [a, true_or, or_true])]
    · linarith [k2 (by simp only [a, true_or, or_true])]
    · linarith [k2 (by simp only [a, true_or, or_true])]
    · linarith [k2 (by simp only [a, true_or, or_true])]
    · linarith [k2 (by simp only [a, true_or, or_true])]
    · linarith [k2 (by simp only [a, or_true])]
    · linarith

/-- C92: the wave heights returned without a convergence warning follow the same order up to the error left by the
tolerance; the crest level is the same in both situations (see `C92_rear2007_allowed_height_partial`) -/
theorem C92_rear2007_height_partial (hS : 0 < S') (hRcc : Rc' = Rc) (t : ℝ) (n : ℕ) (ht : 0 ≤ t) (hn : 1 ≤ n) :
    ∃ H H' : ℝ, 0 < H ∧ 0 < H' ∧
      (VanGent2007Rear.calculate_maximum_significant_wave_height_Hs (fin ca) (fin cp) (fin f) (fin S) (fin T) (fin Rc)
        (fin Rf) (fin Rr) (fin N) (fin D) M rho (fin t) n).res = .ok (fin H) ∧
      (VanGent2007Rear.calculate_maximum_significant_wave_height_Hs (fin ca') (fin cp) (fin f') (fin S') (fin T')
        (fin Rc') (fin Rf') (fin Rr') (fin N') (fin D') M' rho' (fin t) n).res = .ok (fin H') ∧
      (.text "Maximum number of iterations reached, convergence not achieved" ∉
        (VanGent2007Rear.calculate_maximum_significant_wave_height_Hs (fin ca) (fin cp) (fin f) (fin S) (fin T) (fin Rc)
          (fin Rf) (fin Rr) (fin N) (fin D) M rho (fin t) n).warns →
      .text "Maximum number of iterations reached, convergence not achieved" ∉
        (VanGent2007Rear.calculate_maximum_significant_wave_height_Hs (fin ca') (fin cp) (fin f') (fin S') (fin T')
          (fin Rc') (fin Rf') (fin Rr') (fin N') (fin D') M' rho' (fin t) n).warns →
      t < H → t < H' → Real.log H' ≤ Real.log H + t / (H - t) + t / (H' - t)) := by
  obtain ⟨p, hp, hu, hs⟩ := C63_solves ca cp f T Rc Rf Rr N D S M rho (hca.trans_le haa) hcp hf hT (hRc.trans_le hRR)
    (hRf.trans_le hee) hRr (by linarith) hN (hD.trans_le hDD) (hS.trans_le hSS)
  obtain ⟨p', hp', hu', hs'⟩ := C63_solves ca' cp f' T' Rc' Rf' Rr' N' D' S' M' rho' hca hcp (hf.trans_le hff)
    (hT.trans_le hTT) hRc hRf (hRr.trans hrr) hR' (hN.trans_le hNN) hD hS
  obtain ⟨z, hz, ez, e⟩ := (hu p hp).mpr rfl
  obtain ⟨z', -, ez', e'⟩ := (hu' p' hp').mpr rfl
  have hpp := (C92_rear2007_allowed_height_partial cp M M' rho rho' hcp hca haa hf hff hT hTT hRc hRR hRr hrr hR' hRf hee
    hN hNN hD hDD hSS hp hp' hz (fun h => absurd hRcc h.ne) ez ez' e e').1
  obtain ⟨H, hH, r, d, -⟩ := hs t n ht hn
  obtain ⟨H', hH', r', d', -⟩ := hs' t n ht hn
  refine ⟨H, H', hH, hH', r, r', fun w w' h h' => ?_⟩
  have a := abs_le.mp (d w h)
  have a' := abs_le.mp (d' w' h')
  have := Real.log_le_log hp' hpp
  linarith [a.1, a'.2]
end

example := C92_rear2007_height_partial (ca := 3) (ca' := 2) (f := 0.5) (f' := 0.6) (T := 8) (T' := 9) (Rc := 3)
  (Rc' := 3) (Rf := 1) (Rf' := 0.5) (Rr := 0.5) (Rr' := 1) (N := 1000) (N' := 3000) (D := 1) (D' := 0.9) (S := 4)
  (S' := 2) 1.5 nan nan nan nan (by norm_num) (by norm_num) (by norm_num) (by norm_num) (by norm_num) (by norm_num)
  (by norm_num) (by norm_num) (by norm_num) (by norm_num) (by norm_num) (by norm_num) (by norm_num) (by norm_num)
  (by norm_num) (by norm_num) (by norm_num) (by norm_num) (by norm_num) (by norm_num) rfl 1e-3 100 (by norm_num)
  (by norm_num)

section
variable {ca ca' cp cp' gf gf' gc gc' T T' Rc Rc' Rr Rr' B B' N N' rr rr' rw rw' D D' S S' : ℝ} (M M' : PF)
  (hca : 0 < ca') (haa : ca' ≤ ca) (hcp : 0 < cp') (hpp : cp' ≤ cp) (hgf : 0 < gf) (hff : gf ≤ gf') (hgc : 0 < gc)
  (hcc : gc ≤ gc') (hT : 0 < T) (hTT : T ≤ T') (hRc : 0 < Rc') (hRR : Rc' ≤ Rc) (hRr : 0 ≤ Rr')
  (hrr : Rr' ≤ Rr) (hB : 0 ≤ B') (hBB : B' ≤ B) (hN : 0 < N) (hNN : N ≤ N') (hw : 0 < rw) (hww : rw ≤ rw')
  (hr' : rw' < rr') (hrho : rr' ≤ rr) (hD : 0 < D') (hDD : D' ≤ D) (hSS : S' ≤ S)
include hca haa hcp hpp hgf hff hgc hcc hT hTT hRc hRR hRr hrr hB hBB hN hNN hw hww hr' hrho hD hDD hSS

/-- C92: longer waves, a longer storm, smoother slopes, steeper slopes at either side, a lower or narrower crest, a lower
rear side, smaller or lighter stones and a stricter damage limit never allow a higher wave (Van Gent & Pozueta 2004):
among the wave heights whose run-up passes the crest, the one with the requested damage is not higher -/
theorem C92_pozueta_allowed_height {H H' z : ℝ} (hH : 0 < H) (hz : Rc < z)
    (ez : VanGent2001.calculate_wave_runup_height_z1p (fin H) (fin T) (fin gf) (fin ca) = fin z)
    (e : (VanGentPozueta2004.calculate_damage_number_S (fin ca) (fin cp) (fin gf) (fin gc) (fin H) (fin T) (fin Rc)
        (fin Rr) (fin B) (fin N) (fin D) M (fin rr) (fin rw)).res = .ok (fin S))
    (e' : (VanGentPozueta2004.calculate_damage_number_S (fin ca') (fin cp') (fin gf') (fin gc') (fin H') (fin T')
        (fin Rc') (fin Rr') (fin B') (fin N') (fin D') M' (fin rr') (fin rw')).res = .ok (fin S')) :
    H' ≤ H ∧ (T < T' ∨ ca' < ca ∨ cp' < cp ∨ gc < gc' ∨ Rc' < Rc ∨ Rr' < Rr ∨ B' < B ∨ N < N' ∨ D' < D ∨ S' < S →
      H' < H) := by
  have key : ∀ h : H ≤ H', S ≤ S' ∧ (H < H' ∨ T < T' ∨ ca' < ca ∨ cp' < cp ∨ gc < gc' ∨ Rc' < Rc ∨ Rr' < Rr ∨ B' < B ∨
      N < N' ∨ D' < D → S < S') := by
    intro h
    obtain ⟨y, y', k, k', h1, h2⟩ := C92_pozueta_damage M M' hca haa hcp hpp hgf hff hgc hcc hH h hT hTT
      (hRc.le.trans hRR) hRR (hRr.trans hrr) hrr hB hBB hN hNN hw hww hr' hrho
      (runup_of_z1p hH hT (hca.trans_le haa) hgf ez) hz D D' hD hDD
    rw [e, Except.ok.injEq, fin_inj] at k
    rw [e', Except.ok.injEq, fin_inj] at k'
    subst k k'
    exact ⟨h1, h2⟩
  refine ⟨?_, fun hs => ?_⟩
  · by_contra h
    push Not at h
    have := (key h.le).2 (Or.inl h)
    linarith
  · by_contra h
    push Not at h
    obtain ⟨k1, k2⟩ := key h
    rcases hs with a | a | a | a | a | a | a | a | a | a
    · linarith [k2 (by simp only [a, true_or, or_true])]
    · linarith [k2 (by simp only [a, true_or, or_true])]
    · linarith [k2 (by simp only [a, true_or, or_true])]
    · linarith [k2 (by simp only [a, true_or, or_true])]
    · linarith [k2 (by simp only [a, true_or, or_true])]
    · linarith [k2 (by simp only [a, true_or, or_true])]
    · linarith [k2 (by simp only [a, true_or, or_true])]
    · linarith [k2 (by simp only [a, true_or, or_true])]
    · linarith [k2 (by simp only [a, or_true])]
    · linarith

/-- C92: the wave heights returned without a convergence warning follow the same order up to the error left by the
tolerance. Missing: crests wider than `0.75 * Rc / gamma_f`, where the iteration need not settle (see C66) -/
theorem C92_pozueta_height_partial (hS : 0 < S') (hBc : B * gf ≤ 0.75 * Rc) (hBc' : B' * gf' ≤ 0.75 * Rc')
    (t : ℝ) (n : ℕ) (ht : 0 ≤ t) (hn : 1 ≤ n) :
    ∃ H H' : ℝ, 0 < H ∧ 0 < H' ∧
      (VanGentPozueta2004.calculate_maximum_significant_wave_height_Hs (fin ca) (fin cp) (fin gf) (fin gc) (fin S)
        (fin T) (fin Rc) (fin Rr) (fin B) (fin N) (fin D) M (fin rr) (fin rw) (tolerance := fin t)
        (max_iterations := n)).res = .ok (fin H) ∧
      (VanGentPozueta2004.calculate_maximum_significant_wave_height_Hs (fin ca') (fin cp') (fin gf') (fin gc') (fin S')
        (fin T') (fin Rc') (fin Rr') (fin B') (fin N') (fin D') M' (fin rr') (fin rw') (tolerance := fin t)
        (max_iterations := n)).res = .ok (fin H') ∧
      (.text "Maximum number of iterations reached, convergence not achieved" ∉
        (VanGentPozueta2004.calculate_maximum_significant_wave_height_Hs (fin ca) (fin cp) (fin gf) (fin gc) (fin S)
        (fin T) (fin Rc) (fin Rr) (fin B) (fin N) (fin D) M (fin rr) (fin rw) (tolerance := fin t)
        (max_iterations := n)).warns →
      .text "Maximum number of iterations reached, convergence not achieved" ∉
        (VanGentPozueta2004.calculate_maximum_significant_wave_height_Hs (fin ca') (fin cp') (fin gf') (fin gc') (fin S')
        (fin T') (fin Rc') (fin Rr') (fin B') (fin N') (fin D') M' (fin rr') (fin rw') (tolerance := fin t)
        (max_iterations := n)).warns →
      t < H → t < H' → Real.log H' ≤ Real.log H + 99 * (t / (H - t)) + 99 * (t / (H' - t))) := by
  have hcs : npow (0.008 : PF) 6.0 = fin ((0.008 : ℝ) ^ (6.0 : ℝ)) := by
    rw [sci_eq, sci_eq, npow_fin (by norm_num)]
  rw [hcs]
  have hcs0 : (0 : ℝ) < (0.008 : ℝ) ^ (6.0 : ℝ) := by positivity
  obtain ⟨p, hp, hu, hs⟩ := C66_solves_partial ca cp gf gc T Rc Rr B N D S rr rw _ M (hca.trans_le haa)
    (hcp.trans_le hpp) hgf hgc hT (hRc.trans_le hRR) (hRr.trans hrr) (hB.trans hBB) hN hw (by linarith) hcs0
    (hD.trans_le hDD) (hS.trans_le hSS) hBc
  obtain ⟨p', hp', hu', hs'⟩ := C66_solves_partial ca' cp' gf' gc' T' Rc' Rr' B' N' D' S' rr' rw' _ M' hca hcp
    (hgf.trans_le hff) (hgc.trans_le hcc) (hT.trans_le hTT) hRc hRr hB (hN.trans_le hNN) (hw.trans_le hww) hr' hcs0 hD
    hS hBc'
  obtain ⟨z, hz, ez, e⟩ := (hu p hp).mpr rfl
  obtain ⟨z', -, ez', e'⟩ := (hu' p' hp').mpr rfl
  rw [← hcs] at e e'
  have hle := (C92_pozueta_allowed_height M M' hca haa hcp hpp hgf hff hgc hcc hT hTT hRc hRR hRr hrr hB hBB hN hNN hw hww
    hr' hrho hD hDD hSS hp hz ez e e').1
  obtain ⟨H, hH, r, d, -⟩ := hs t n ht hn
  obtain ⟨H', hH', r', d', -⟩ := hs' t n ht hn
  refine ⟨H, H', hH, hH', r, r', fun w w' h h' => ?_⟩
  have a := abs_le.mp (d w h)
  have a' := abs_le.mp (d' w' h')
  have := Real.log_le_log hp' hle
  linarith [a.1, a'.2]
end

example := C92_pozueta_height_partial (ca := 3) (ca' := 2) (cp := 2) (cp' := 1.5) (gf := 0.5) (gf' := 0.55) (gc := 0.5)
  (gc' := 0.6) (T := 8) (T' := 9) (Rc := 4) (Rc' := 3.5) (Rr := 4) (Rr' := 3) (B := 5) (B' := 4) (N := 1000)
  (N' := 3000) (rr := 2650) (rr' := 2600) (rw := 1000) (rw' := 1025) (D := 1) (D' := 0.9) (S := 4) (S' := 2) nan nan
  (by norm_num) (by norm_num) (by norm_num) (by norm_num) (by norm_num) (by norm_num) (by norm_num) (by norm_num)
  (by norm_num) (by norm_num) (by norm_num) (by norm_num) (by norm_num) (by norm_num) (by norm_num) (by norm_num)
  (by norm_num) (by norm_num) (by norm_num) (by norm_num) (by norm_num) (by norm_num) (by norm_num) (by norm_num)
  (by norm_num) (by norm_num) (by norm_num) (by norm_num) 1e-3 100 (by norm_num) (by norm_num)

/-! ## Toes -/

section
variable {ra ra' rw rw' T T' h h' ht ht' B B' m m' N N' D D' g c1 c2 c3 c4 c5 c6 c7 : ℝ} (hw : 0 < rw) (hww : rw ≤ rw')
  (hr' : rw' < ra') (hrr : ra' ≤ ra) (h1 : 0 ≤ c1) (h2 : 0 < c2) (h3 : 0 ≤ c3) (h4 : 0 ≤ c4) (h5 : 0 < c5) (h6 : c6 ≤ 0)
  (h46 : c4 - c6 < 1) (h7 : 0 ≤ c7) (hT : 0 < T) (hTT : T ≤ T') (hh : 0 < h) (hhh : h ≤ h') (hht : 0 < ht')
  (htt : ht' ≤ ht) (hB : 0 < B) (hBB : B ≤ B') (hmm : m ≤ m') (hm : c7 * m' < 1) (hD : 0 < D') (hDD : D' ≤ D)
  (hg : 0 < g) (hNN : N' ≤ N)
include hw hww hr' hrr h1 h2 h3 h4 h5 h6 h46 h7 hT hTT hh hhh hht htt hB hBB hmm hm hD hDD hg hNN

/-- C92: a longer wave, smaller or lighter stones, a shallower or wider toe, a steeper foreshore or a stricter damage
limit never allow a higher wave (Etemad-Shahidi et al. 2021), for coefficients with the published signs: among the
wave heights that move stones, the one with the requested damage is not higher -/
theorem C92_etemad_toe_allowed_height {H H' : ℝ} (hH : 0 < H) (hd : c1 < Textbook.Ns H D ra rw)
    (e : (EtemadShahidi2021.calculate_damage_Nod (fin H) (fin T) (fin h) (fin ht) (fin B) (fin m) (fin D) (fin ra)
        (fin rw) (fin g) (fin c1) (fin c2) (fin c3) (fin c4) (fin c5)
        (fin c6) (fin c7)).res = .ok (fin N))
    (e' : (EtemadShahidi2021.calculate_damage_Nod (fin H') (fin T') (fin h') (fin ht') (fin B') (fin m') (fin D')
        (fin ra') (fin rw') (fin g) (fin c1) (fin c2) (fin c3) (fin c4) (fin c5)
        (fin c6) (fin c7)).res = .ok (fin N')) :
    H' ≤ H ∧ (D' < D ∨ N' < N → H' < H) := by
  have key : ∀ k : H ≤ H', N ≤ N' ∧ (H < H' ∨ D' < D → N < N') := by
    intro k
    obtain ⟨y, y', k1, k2, k3, k4⟩ := C92_etemad_toe_damage c1 c2 c3 c4 c5 c6 c7 hw hww hr' hrr h1 h2 h3 h4 h5 h6 h46 h7
      H H' T T' h h' ht ht' B B' m m' D D' g hH k hT hTT hh hhh hht htt hB hBB hmm hm hD hDD hg hd
    rw [e, Except.ok.injEq, fin_inj] at k1
    rw [e', Except.ok.injEq, fin_inj] at k2
    subst k1 k2
    exact ⟨k3, k4⟩
  refine ⟨?_, fun hs => ?_⟩
  · by_contra k
    push Not at k
    have := (key k.le).2 (Or.inl k)
    linarith
  · by_contra k
    push Not at k
    obtain ⟨k1, k2⟩ := key k
    rcases hs with a | a
    · linarith [k2 (Or.inr a)]
    · linarith

/-- C92: the wave heights returned by the solver follow the same order up to the error left by its tolerance of 1 mm -/
theorem C92_etemad_toe_height (hN : 0 < N') {s0 : ℝ} (hs0 : 0 < s0) (n : ℕ) (hn : 0 < n) :
    ∃ (r r' : PyM PF) (H H' : ℝ), 0 < H ∧ 0 < H' ∧
      EtemadShahidi2021.calculate_significant_wave_height_Hs (fin T) (fin h) (fin ht) (fin B) (fin N) (fin m) (fin D)
        (fin ra) (fin rw) (fin g) (fin c1) (fin c2) (fin c3) (fin c4) (fin c5)
        (fin c6) (fin c7) (fin s0) n = some r ∧
      EtemadShahidi2021.calculate_significant_wave_height_Hs (fin T') (fin h') (fin ht') (fin B') (fin N') (fin m')
        (fin D') (fin ra') (fin rw') (fin g) (fin c1) (fin c2) (fin c3) (fin c4) (fin c5)
        (fin c6) (fin c7) (fin s0) n = some r' ∧
      r.res = .ok (fin H) ∧ r'.res = .ok (fin H') ∧
      (1e-3 < H → 1e-3 < H' → Real.log H' ≤ Real.log H + (c4 - c6) / (1 - (c4 - c6)) * (1e-3 / (H - 1e-3)) +
        (c4 - c6) / (1 - (c4 - c6)) * (1e-3 / (H' - 1e-3))) := by
  have hq : |c4 - c6| = c4 - c6 := abs_of_nonneg (by linarith)
  have hcm := mul_le_mul_of_nonneg_left hmm h7
  obtain ⟨r, H, p, a1, a2, a3, a4, a5, a6⟩ := C31_terminates_partial (D := D) (T := T) (h := h) (ht := ht) (Bt := B)
    (N := N) (m := m) (ra := ra) (rw := rw) (g := g) (c1 := c1) (c2 := c2) (c3 := c3) (c4 := c4) (c5 := c5) (c6 := c6)
    (c7 := c7) (s0 := s0) (hD.trans_le hDD) hT hh (hht.trans_le htt) hB (hN.trans_le hNN) hg hw (by linarith) h1 h2
    (by linarith) hs0 (by linarith) h5.ne' n hn
  obtain ⟨r', H', p', b1, b2, b3, b4, b5, b6⟩ := C31_terminates_partial (D := D') (T := T') (h := h') (ht := ht')
    (Bt := B') (N := N') (m := m') (ra := ra') (rw := rw') (g := g) (c1 := c1) (c2 := c2) (c3 := c3) (c4 := c4)
    (c5 := c5) (c6 := c6) (c7 := c7) (s0 := s0) hD (hT.trans_le hTT) (hh.trans_le hhh) hht (hB.trans_le hBB) hN hg
    (hw.trans_le hww) hr' h1 h2 (by linarith) hs0 (by linarith) h5.ne' n hn
  obtain ⟨e, hd⟩ := (a5 p a4).mpr rfl
  obtain ⟨e', -⟩ := (b5 p' b4).mpr rfl
  have hle := (C92_etemad_toe_allowed_height hw hww hr' hrr h1 h2 h3 h4 h5 h6 h46 h7 hT hTT hh hhh hht htt hB hBB hmm hm
    hD hDD hg hNN a4 hd e e').1
  refine ⟨r, r', H, H', a3, b3, a1, b1, a2, b2, fun k k' => ?_⟩
  have l := abs_le.mp (a6 k)
  have l' := abs_le.mp (b6 k')
  rw [hq] at l l'
  have := Real.log_le_log b4 hle
  linarith [l.1, l'.2]
end

/-- the coefficients are the default ones -/
example := C92_etemad_toe_height (ra := 2650) (ra' := 2600) (rw := 1000) (rw' := 1025) (T := 8) (T' := 9) (h := 8)
  (h' := 8) (ht := 6) (ht' := 5) (B := 3) (B' := 4) (m := 0.02) (m' := 0.03) (N := 2) (N' := 1) (D := 1) (D' := 0.9)
  (g := 9.81) (c1 := 1.2) (c2 := 11.2) (c3 := 7 / 4) (c4 := 1 / 6) (c5 := 2 / 5) (c6 := -1 / 10) (c7 := 3.7)
  (by norm_num) (by norm_num) (by norm_num) (by norm_num) (by norm_num) (by norm_num) (by norm_num) (by norm_num)
  (by norm_num) (by norm_num) (by norm_num) (by norm_num) (by norm_num) (by norm_num) (by norm_num) (by norm_num)
  (by norm_num) (by norm_num) (by norm_num) (by norm_num) (by norm_num) (by norm_num) (by norm_num) (by norm_num)
  (by norm_num) (by norm_num) (by norm_num) (s0 := 0.03) (by norm_num) 1000 (by norm_num)

end
