import Verif.Props.RangeStructures
import Verif.Props.RearHeight
import Verif.Props.RearPozuetaHeight

/-! # Validity warnings of the wave height solvers for rear slopes (C60)

`H` is the wave height returned, `H0` the last but one in the iteration and `z` its run-up. The run-up level the
check is about is `z` scaled to the wave height returned. -/

open Classical
open PF
open CorePhysics CoreUtility RangeProof Textbook
noncomputable section

section
open VanGent2007Rear RearProof RunupProof VdMProof
variable (ca cp gm T Rc Rf Rr N D S : ℝ) (M rho : PF) (hca : 0 < ca) (hcp : 0 < cp) (hgm : 0 < gm)
  (hT : 0 < T) (hRc : 0 < Rc) (hRf : 0 < Rf) (hRr : 0 ≤ Rr) (hR : Rr < Rc) (hN : 0 < N) (hD : 0 < D)
  (hS : 0 < S)
include hca hcp hgm hT hRc hRf hRr hR hN hD hS

/-- C60 (missing: the wave steepness and the density of the rock, which are never checked): the wave height
solver of Van Gent (2007), once it has settled -/
theorem C60_rear_vangent_height_partial (t : ℝ) (n : ℕ) (hn : 1 ≤ n)
    (hw : .text "Maximum number of iterations reached, convergence not achieved" ∉
      (calculate_maximum_significant_wave_height_Hs (fin ca) (fin cp) (fin gm) (fin S) (fin T) (fin Rc)
        (fin Rf) (fin Rr) (fin N) (fin D) M rho (fin t) n).warns) :
    ∃ H H0 z : ℝ, 0 < H ∧ 0 < H0 ∧ |H - H0| ≤ t ∧
    (calculate_maximum_significant_wave_height_Hs (fin ca) (fin cp) (fin gm) (fin S) (fin T) (fin Rc)
      (fin Rf) (fin Rr) (fin N) (fin D) M rho (fin t) n).res = .ok (fin H) ∧
    VanGent2001.calculate_wave_runup_height_z1p (fin H0) (fin T) (fin gm) (fin ca) = fin z ∧
    WarnsExactly (calculate_maximum_significant_wave_height_Hs (fin ca) (fin cp) (fin gm) (fin S) (fin T)
        (fin Rc) (fin Rf) (fin Rr) (fin N) (fin D) M rho (fin t) n) "Van Gent (2007)"
      [⟨"N_waves", fin N, 1000, 10000⟩,
       ⟨"Rc/Hs", fin (Rc / H), 0.5, 1.9⟩,
       ⟨"Rc/Dn50", fin (Rc / D), 7.0, 22.0⟩,
       ⟨"(z1% - Rc)/Hs", fin ((z * (H / H0) - Rc) / H), 0.2, 1.3⟩,
       ⟨"Rc2,front/Hs", fin (Rf / H), 0.0, 0.5⟩,
       ⟨"Stability number Ns", fin (Ns H D 2650 1025), 4.0, 12.0⟩,
       ⟨"Rc2,rear/Hs", fin (Rr / H), 0.0, 1.3⟩,
       ⟨"S", fin S, 2.0, 100.0⟩] := by
  have hpos := F07_pos hca hcp hgm hT hRc hRf.le hRr hR hN hD hS
  obtain ⟨k, hk, e, h1, h2⟩ := rear_loop (t := t) hRf hpos
    (step07_eval hca hcp hgm hT hRc hRf.le hRr hR hN hD hS) hn
  obtain ⟨k', hk', r1, r2, r3, r4⟩ := height07_eval (n := n) (t := t) hca hcp hgm hT hRc hRf.le hRr hR
    hN hD hS M rho hRf hn
  have hkk : k = k' := by
    rcases Nat.lt_trichotomy k k' with h | h | h
    · rcases h1 with h1 | h1
      · omega
      · exact absurd h1 (not_le.mpr (r4 _ h))
    · exact h
    · rcases r3 with r3 | r3
      · omega
      · exact absurd r3 (not_le.mpr (h2 _ h))
  subst hkk
  have hlt : ¬ (k + 1 ≥ n) := fun h => hw (r2.mpr (by omega))
  have h5 := r3.resolve_left (by omega)
  have hx := it_pos hRf hpos k
  have hH := it_pos hRf hpos (k + 1)
  have hz : VanGent2001.calculate_wave_runup_height_z1p
      (fin ((F07 ca cp gm T Rc Rf Rr N D S)^[k] Rf)) (fin T) (fin gm) (fin ca) =
      fin (rf 1.45 5.1 (xi ((F07 ca cp gm T Rc Rf Rr N D S)^[k] Rf) T ca) * gm *
        (F07 ca cp gm T Rc Rf Rr N D S)^[k] Rf) := by
    unfold VanGent2001.calculate_wave_runup_height_z1p
    simp only [sci_eq]
    exact zX_eval hT hca (by norm_num) (by norm_num) hx
  refine ⟨_, _, _, hH, hx, h5, r1, hz, ?_⟩
  have hp := rfxi_pos hT hca (c0 := 1.45) (c1 := 5.1) (by norm_num) (by norm_num) hx
  unfold calculate_maximum_significant_wave_height_Hs
  rw [use_Dn50, bind_nil]
  dsimp only
  rw [e]
  dsimp only
  rw [if_neg hlt]
  have key := RangeStructures.rear_check (Rc := Rc) (Ff := Rf) (Fr := Rr) (D := D)
    (z := Z07 cp Rc (1 + 5 * Rr / (Rc - Rr)) √N D S Rf ((F07 ca cp gm T Rc Rf Rr N D S)^[k] Rf)) (S := S)
    (N := N) hH hD
  have hZ : Z07 cp Rc (1 + 5 * Rr / (Rc - Rr)) √N D S Rf ((F07 ca cp gm T Rc Rf Rr N D S)^[k] Rf) =
      rf 1.45 5.1 (xi ((F07 ca cp gm T Rc Rf Rr N D S)^[k] Rf) T ca) * gm *
        (F07 ca cp gm T Rc Rf Rr N D S)^[k] Rf *
        ((F07 ca cp gm T Rc Rf Rr N D S)^[k + 1] Rf / (F07 ca cp gm T Rc Rf Rr N D S)^[k] Rf) := by
    rw [Function.iterate_succ_apply']
    generalize (F07 ca cp gm T Rc Rf Rr N D S)^[k] Rf = x at *
    unfold F07
    field_simp
  rw [← hZ]
  exact ret _ key
end

section
open VanGentPozueta2004 RearProof RunupProof VdMProof
variable (ca cp gf gc T Rc Rr B N D S rr rw cs : ℝ) (M : PF) (hca : 0 < ca) (hcp : 0 < cp)
  (hgf : 0 < gf) (hgc : 0 < gc) (hT : 0 < T) (hRc : 0 < Rc) (hB : 0 ≤ B) (hN : 0 < N)
  (hw : 0 < rw) (hr : rw < rr) (hcs : 0 < cs) (hD : 0 < D) (hS : 0 < S)
include hca hcp hgf hgc hT hRc hB hN hw hr hcs hD hS

/-- C60: the wave height solver of Van Gent & Pozueta (2004), once it has settled -/
theorem C60_rear_pozueta_height (t : ℝ) (n : ℕ) (hn : 1 ≤ n)
    (hq : .text "Maximum number of iterations reached, convergence not achieved" ∉
      (calculate_maximum_significant_wave_height_Hs (fin ca) (fin cp) (fin gf) (fin gc) (fin S) (fin T)
        (fin Rc) (fin Rr) (fin B) (fin N) (fin D) M (fin rr) (fin rw) (fin cs) (fin t) n).warns) :
    ∃ H H0 z : ℝ, 0 < H ∧ 0 < H0 ∧ |H - H0| ≤ t ∧
    (calculate_maximum_significant_wave_height_Hs (fin ca) (fin cp) (fin gf) (fin gc) (fin S) (fin T)
      (fin Rc) (fin Rr) (fin B) (fin N) (fin D) M (fin rr) (fin rw) (fin cs) (fin t) n).res = .ok (fin H) ∧
    VanGent2001.calculate_wave_runup_height_z1p (fin H0) (fin T) (fin gf) (fin ca) = fin z ∧
    WarnsExactly (calculate_maximum_significant_wave_height_Hs (fin ca) (fin cp) (fin gf) (fin gc) (fin S)
        (fin T) (fin Rc) (fin Rr) (fin B) (fin N) (fin D) M (fin rr) (fin rw) (fin cs) (fin t) n)
      "Van Gent & Pozueta (2004)"
      [⟨"sm-1,0", fin (steepness H T), 0.019, 0.036⟩,
       ⟨"N_waves", fin N, 0, 4000⟩,
       ⟨"Rc/Hs", fin (Rc / H), 0.3, 2.0⟩,
       ⟨"Rc_rear/Hs", fin (Rr / H), 0.3, 6.0⟩,
       ⟨"B_c/Hs", fin (B / H), 1.3, 1.6⟩,
       ⟨"(z1% - Rc)/(gamma_f*Hs)", fin ((z * (H / H0) - Rc) / (gf * H)), 0.0, 1.4⟩,
       ⟨"Hs/(Delta*Dn50_rear)", fin (Ns H D rr rw), 5.5, 8.5⟩,
       ⟨"cot phi", fin cp, 2.0, 4.0⟩,
       ⟨"S", fin S, 2.0, 50.0⟩] := by
  have hd : 0 < √((rr - rw) / rw) := Real.sqrt_pos.mpr (div_pos (sub_pos.mpr hr) hw)
  have hsn := Real.sqrt_pos.mpr hN
  have hpos := F04_pos (Rr := Rr) hcs hca hT hd hcp hsn hD hS hRc hB hgf hgc
  have hx0 : 0 < (Rc + 0.5) / (2.552 * gf) := by positivity
  obtain ⟨k, hk, e, h1, h2⟩ := rear_loop (t := t) hx0 hpos
    (step04_eval (Rr := Rr) (Rc := Rc) hca hcp hgf hgc hT hB hN hw hr hcs hD hS) hn
  obtain ⟨k', hk', r1, r2, r3, r4⟩ := height04_eval (n := n) (t := t) (Rr := Rr) hca hcp hgf hgc hT hB
    hN hw hr hcs hD hS M hRc rfl hn
  have hkk : k = k' := by
    rcases Nat.lt_trichotomy k k' with h | h | h
    · rcases h1 with h1 | h1
      · omega
      · exact absurd h1 (not_le.mpr (r4 _ h))
    · exact h
    · rcases r3 with r3 | r3
      · omega
      · exact absurd r3 (not_le.mpr (h2 _ h))
  subst hkk
  have hlt : ¬ (k + 1 ≥ n) := fun h => hq (r2.mpr (by omega))
  have h5 := r3.resolve_left (by omega)
  have hx := it_pos hx0 hpos k
  have hH := it_pos hx0 hpos (k + 1)
  have hz := z1p_eval hca hcp hgf hgc hT hB hN hw hr hcs hD hS hx
  refine ⟨_, _, _, hH, hx, h5, r1, hz, ?_⟩
  have hp := rfxi_pos hT hca (c0 := 1.45) (c1 := 5.1) (by norm_num) (by norm_num) hx
  obtain ⟨De, hDe, hDD, eD⟩ := Delta_eval hw hr
  have e0 : ((fin Rc + 0.5) / (2.552 * fin gf) : PF) = fin ((Rc + 0.5) / (2.552 * gf)) := by pf_eval []
  unfold calculate_maximum_significant_wave_height_Hs
  dsimp only
  rw [use_Dn50, bind_nil, eD, hDD, e0]
  rw [e]
  dsimp only
  rw [if_neg hlt]
  have hZ : W04 cs T √((rr - rw) / rw) cp √N D S Rr B gf gc
        ((F04 cs ca T √((rr - rw) / rw) cp √N D S Rc Rr B gf gc)^[k] ((Rc + 0.5) / (2.552 * gf))) + Rc =
      rf 1.45 5.1 (xi ((F04 cs ca T √((rr - rw) / rw) cp √N D S Rc Rr B gf gc)^[k]
        ((Rc + 0.5) / (2.552 * gf))) T ca) * gf *
        (F04 cs ca T √((rr - rw) / rw) cp √N D S Rc Rr B gf gc)^[k] ((Rc + 0.5) / (2.552 * gf)) *
        ((F04 cs ca T √((rr - rw) / rw) cp √N D S Rc Rr B gf gc)^[k + 1] ((Rc + 0.5) / (2.552 * gf)) /
          (F04 cs ca T √((rr - rw) / rw) cp √N D S Rc Rr B gf gc)^[k] ((Rc + 0.5) / (2.552 * gf))) := by
    rw [Function.iterate_succ_apply']
    generalize (F04 cs ca T √((rr - rw) / rw) cp √N D S Rc Rr B gf gc)^[k] ((Rc + 0.5) / (2.552 * gf)) = x at *
    unfold F04
    field_simp
  have key := RangeStructures.pozueta_check (Rc := Rc) (Rr := Rr) (cp := cp) (gf := gf) (D := D) (rr := rr)
    (rw := rw) (B := B) (T := T)
    (z := W04 cs T √((rr - rw) / rw) cp √N D S Rr B gf gc
        ((F04 cs ca T √((rr - rw) / rw) cp √N D S Rc Rr B gf gc)^[k] ((Rc + 0.5) / (2.552 * gf))) + Rc)
    (S := S) (N := N) hH hT hD hgf hw hr
  rw [← hZ]
  exact ret _ key
end

-- the two ordinary rear slopes of C63 and C66: from some iteration limit on the solver has settled
example : ∃ n0, ∀ n ≥ n0, ∃ H H0 z : ℝ, 0 < H ∧ 0 < H0 ∧ |H - H0| ≤ 0.001 ∧
    (VanGent2007Rear.calculate_maximum_significant_wave_height_Hs (fin 2) (fin 2) (fin 0.5) (fin 4) (fin 8)
      (fin 3) (fin 0.5) (fin 0.5) (fin 3000) (fin 0.4) nan nan (fin 0.001) n).res = .ok (fin H) ∧
    VanGent2001.calculate_wave_runup_height_z1p (fin H0) (fin 8) (fin 0.5) (fin 2) = fin z ∧
    WarnsExactly (VanGent2007Rear.calculate_maximum_significant_wave_height_Hs (fin 2) (fin 2) (fin 0.5)
        (fin 4) (fin 8) (fin 3) (fin 0.5) (fin 0.5) (fin 3000) (fin 0.4) nan nan (fin 0.001) n)
      "Van Gent (2007)"
      [⟨"N_waves", fin 3000, 1000, 10000⟩,
       ⟨"Rc/Hs", fin (3 / H), 0.5, 1.9⟩,
       ⟨"Rc/Dn50", fin (3 / 0.4), 7.0, 22.0⟩,
       ⟨"(z1% - Rc)/Hs", fin ((z * (H / H0) - 3) / H), 0.2, 1.3⟩,
       ⟨"Rc2,front/Hs", fin (0.5 / H), 0.0, 0.5⟩,
       ⟨"Stability number Ns", fin (Ns H 0.4 2650 1025), 4.0, 12.0⟩,
       ⟨"Rc2,rear/Hs", fin (0.5 / H), 0.0, 1.3⟩,
       ⟨"S", fin 4, 2.0, 100.0⟩] := by
  obtain ⟨n0, H, h⟩ := C63_terminates 2 2 0.5 8 3 0.5 0.5 3000 0.4 4 nan nan (by norm_num) (by norm_num)
    (by norm_num) (by norm_num) (by norm_num) (by norm_num) (by norm_num) (by norm_num) (by norm_num)
    (by norm_num) (by norm_num) 0.001 (by norm_num)
  exact ⟨n0 + 1, fun n hn => C60_rear_vangent_height_partial 2 2 0.5 8 3 0.5 0.5 3000 0.4 4 nan nan
    (by norm_num) (by norm_num) (by norm_num) (by norm_num) (by norm_num) (by norm_num) (by norm_num)
    (by norm_num) (by norm_num) (by norm_num) (by norm_num) 0.001 n
    (by omega) (h n (by omega)).2⟩

example : ∃ n0, ∀ n ≥ n0, ∃ H H0 z : ℝ, 0 < H ∧ 0 < H0 ∧ |H - H0| ≤ 0.001 ∧
    (VanGentPozueta2004.calculate_maximum_significant_wave_height_Hs (fin 2) (fin 2) (fin 0.5) (fin 0.6) (fin 5)
      (fin 8) (fin 3) (fin 3) (fin 4) (fin 2000) (fin 0.5) nan (fin 2650) (fin 1025) (fin 1e-12) (fin 0.001)
      n).res = .ok (fin H) ∧
    VanGent2001.calculate_wave_runup_height_z1p (fin H0) (fin 8) (fin 0.5) (fin 2) = fin z ∧
    WarnsExactly (VanGentPozueta2004.calculate_maximum_significant_wave_height_Hs (fin 2) (fin 2) (fin 0.5)
        (fin 0.6) (fin 5) (fin 8) (fin 3) (fin 3) (fin 4) (fin 2000) (fin 0.5) nan (fin 2650) (fin 1025)
        (fin 1e-12) (fin 0.001) n) "Van Gent & Pozueta (2004)"
      [⟨"sm-1,0", fin (steepness H 8), 0.019, 0.036⟩,
       ⟨"N_waves", fin 2000, 0, 4000⟩,
       ⟨"Rc/Hs", fin (3 / H), 0.3, 2.0⟩,
       ⟨"Rc_rear/Hs", fin (3 / H), 0.3, 6.0⟩,
       ⟨"B_c/Hs", fin (4 / H), 1.3, 1.6⟩,
       ⟨"(z1% - Rc)/(gamma_f*Hs)", fin ((z * (H / H0) - 3) / (0.5 * H)), 0.0, 1.4⟩,
       ⟨"Hs/(Delta*Dn50_rear)", fin (Ns H 0.5 2650 1025), 5.5, 8.5⟩,
       ⟨"cot phi", fin 2, 2.0, 4.0⟩,
       ⟨"S", fin 5, 2.0, 50.0⟩] := by
  obtain ⟨n0, H, h⟩ := C66_terminates_partial 2 2 0.5 0.6 8 3 3 4 2000 0.5 5 2650 1025 1e-12 nan
    (by norm_num) (by norm_num) (by norm_num) (by norm_num) (by norm_num) (by norm_num) (by norm_num)
    (by norm_num) (by norm_num) (by norm_num) (by norm_num) (by norm_num) (by norm_num) (by norm_num)
    (by norm_num) 0.001
    (by norm_num)
  exact ⟨n0 + 1, fun n hn => C60_rear_pozueta_height 2 2 0.5 0.6 8 3 3 4 2000 0.5 5 2650 1025 1e-12 nan
    (by norm_num) (by norm_num) (by norm_num) (by norm_num) (by norm_num) (by norm_num) (by norm_num)
    (by norm_num) (by norm_num) (by norm_num) (by norm_num) (by norm_num) (by norm_num)
    0.001 n (by omega) (h n (by omega)).2⟩

end
