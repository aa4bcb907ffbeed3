import Verif.Lemmas.Range
import Verif.Model.VanDerMeer
import Verif.Model.Etemad2020
import Verif.Model.RockArmourOther

/-! # Validity warnings of the rock armour formulas (C60)

`WarnsExactly` is the full claim for one function: it returns, and it warns about exactly those
quantities of the published list that are outside their range.  Where the result itself is one of the
quantities (or part of one), it is named `r` in the statement. -/

open Classical
open PF
open CorePhysics CoreUtility RangeProof Textbook
noncomputable section

namespace RangeArmour

/-! ### Van der Meer (1988)

The published list also limits the wave steepness.  The functions take no peak period, and their check
of the steepness, which needs one, never runs: see `C60_vandermeer1988_steepness_refuted`. -/

theorem C60_vandermeer1988_damage_partial {H H2 N c P rr D : ℝ} (Tm M cpl cs rw : PF) (hH : 0 < H) :
    WarnsExactly (VdM1988.calculate_damage_number_S (fin H) (fin H2) Tm (fin N) (fin c) (fin P) (fin rr)
        (fin D) M cpl cs rw) "Van der Meer (1988)"
      [⟨"Notional permeability P", fin P, 0.1, 0.6⟩,
       ⟨"Cotangent of outer structure slope cot_alpha", fin c, 1.1, 7.0⟩,
       ⟨"Number of waves N_waves", fin N, 0, 7500⟩,
       ⟨"Ratio H2%/Hs", fin (H2 / H), 1.10, 1.40⟩,
       ⟨"Density of armour layer rock rho_armour", fin rr, 2000, 3100⟩] := by
  unfold VdM1988.calculate_damage_number_S
  refine after (VdMProof.use_Dn50 ..) (ret _ ?_)
  unfold VdM1988.check_validity_range
  dsimp only
  exact check (by simp) rfl <| check (by simp) rfl <| skip (by simp) <| check (by simp) rfl <|
    check (by simp) (ratio_eval hH) <| last (by simp) rfl

theorem C60_vandermeer1988_size_partial {H H2 N c P rr : ℝ} (Tm S cpl cs rw : PF) (hH : 0 < H) :
    WarnsExactly (VdM1988.calculate_nominal_rock_diameter_Dn50 (fin H) (fin H2) Tm (fin N) (fin c)
        (fin P) (fin rr) S cpl cs rw) "Van der Meer (1988)"
      [⟨"Notional permeability P", fin P, 0.1, 0.6⟩,
       ⟨"Cotangent of outer structure slope cot_alpha", fin c, 1.1, 7.0⟩,
       ⟨"Number of waves N_waves", fin N, 0, 7500⟩,
       ⟨"Ratio H2%/Hs", fin (H2 / H), 1.10, 1.40⟩,
       ⟨"Density of armour layer rock rho_armour", fin rr, 2000, 3100⟩] := by
  unfold VdM1988.calculate_nominal_rock_diameter_Dn50
  refine ret _ ?_
  unfold VdM1988.check_validity_range
  dsimp only
  exact check (by simp) rfl <| check (by simp) rfl <| skip (by simp) <| check (by simp) rfl <|
    check (by simp) (ratio_eval hH) <| last (by simp) rfl

example := RangeArmour.C60_vandermeer1988_size_partial (H := 2) (H2 := 2.8) (N := 3000) (c := 2) (P := 0.4)
  (rr := 2650) (Tm := .fin 8) (S := .fin 2) (cpl := .fin 6.2) (cs := .fin 1) (rw := .fin 1025) (by norm_num)

/-- the wave-height function does not check the ratio `H2%/Hs` either, although it is an argument -/
theorem C60_vandermeer1988_height_partial {N c P rr D : ℝ} (ratio Tm S M cpl cs g rw : PF) :
    WarnsExactly (VdM1988.calculate_significant_wave_height_Hs ratio Tm (fin N) (fin c) (fin P) (fin rr)
        S (fin D) M cpl cs g rw) "Van der Meer (1988)"
      [⟨"Notional permeability P", fin P, 0.1, 0.6⟩,
       ⟨"Cotangent of outer structure slope cot_alpha", fin c, 1.1, 7.0⟩,
       ⟨"Number of waves N_waves", fin N, 0, 7500⟩,
       ⟨"Density of armour layer rock rho_armour", fin rr, 2000, 3100⟩] := by
  unfold VdM1988.calculate_significant_wave_height_Hs
  refine after (VdMProof.use_Dn50 ..) (ret _ ?_)
  unfold VdM1988.check_validity_range
  dsimp only
  exact check (by simp) rfl <| check (by simp) rfl <| skip (by simp) <| check (by simp) rfl <|
    skip (by simp) <| last (by simp) rfl

/-- a 1:8 slope under 9000 waves: two warnings -/
example : (VdM1988.calculate_damage_number_S (fin 2) (fin 2.6) (fin 6) (fin 9000) (fin 8) (fin 0.4)
    (fin 2650) (fin 1)).warns ≠ [] := by
  have h := C60_vandermeer1988_damage_partial (H := 2) (H2 := 2.6) (N := 9000) (c := 8) (P := 0.4)
    (rr := 2650) (D := 1) (fin 6) nan 8.7 1.4 1025.0 (by norm_num)
  intro e
  have := (h.2 (.range "Number of waves N_waves" "Van der Meer (1988)" (fin 9000) 0 7500)).mpr
    ⟨⟨"Number of waves N_waves", fin 9000, 0, 7500⟩, by simp, by
      right; show (7500 : PF) < fin 9000; rw [ofNat_eq, lt_fin]; norm_num, rfl⟩
  rw [e] at this; cases this

/-- whatever the arguments, none of the three functions ever says anything about the wave steepness -/
theorem C60_vandermeer1988_steepness_refuted :
    (∀ H H2 Tm N c P rr D M cpl cs rw, NeverWarnsAbout (VdM1988.calculate_damage_number_S H H2 Tm N c P
      rr D M cpl cs rw) "Wave steepness s0p") ∧
    (∀ H H2 Tm N c P rr S cpl cs rw, NeverWarnsAbout (VdM1988.calculate_nominal_rock_diameter_Dn50 H H2
      Tm N c P rr S cpl cs rw) "Wave steepness s0p") ∧
    (∀ q Tm N c P rr S D M cpl cs g rw, NeverWarnsAbout (VdM1988.calculate_significant_wave_height_Hs q
      Tm N c P rr S D M cpl cs g rw) "Wave steepness s0p") := by
  have key : ∀ a b d e f g, NeverWarnsAbout (VdM1988.check_validity_range a b nan d e f g)
      "Wave steepness s0p" := by
    intro a b d e f g
    unfold VdM1988.check_validity_range
    dsimp only
    exact never_bind (never_other (by decide)) fun _ => never_bind (never_other (by decide)) fun _ =>
      never_bind (never_missing (by simp)) fun _ => never_bind (never_other (by decide)) fun _ =>
      never_bind (never_other (by decide)) fun _ => never_other (by decide)
  refine ⟨?_, ?_, ?_⟩
  · intros; exact never_bind never_usage fun _ => never_bind (key _ _ _ _ _ _) fun _ => never_pure
  · intros; exact never_bind (key _ _ _ _ _ _) fun _ => never_pure
  · intros; exact never_bind never_usage fun _ => never_bind (key _ _ _ _ _ _) fun _ => never_pure

/-! ### Modified Van der Meer (Van Gent et al., 2003)

The stability number that is checked is computed with a water density of 1025 kg/m³, also when another
`rho_water` is passed to the calculation: the claim holds for `rho_water = 1025` only. -/

theorem C60_modified_damage_partial {H H2 T N c P rr D : ℝ} (M cpl cs rw : PF) (hH : 0 < H)
    (hT : 0 < T) (hc : 0 < c) (hD : 0 < D) (hr : 1025 < rr) :
    WarnsExactly (VdMModified.calculate_damage_number_S (fin H) (fin H2) (fin T) (fin N) (fin c) (fin P)
        (fin rr) (fin D) M cpl cs rw) "Modified Van der Meer (Van Gent et al., 2003)"
      [⟨"Notional permeability P", fin P, 0.1, 0.6⟩,
       ⟨"Stability number Ns", fin (Ns H D rr 1025), 0.5, 4.5⟩,
       ⟨"Iribarren number ksi_m-1,0", fin (iribarren H T c), 1.3, 15.0⟩,
       ⟨"Cotangent of outer structure slope cot_alpha", fin c, 2.0, 4.0⟩,
       ⟨"Number of waves N_waves", fin N, 0, 3000⟩,
       ⟨"Ratio H2%/Hs", fin (H2 / H), 1.20, 1.40⟩] := by
  unfold VdMModified.calculate_damage_number_S
  refine after (VdMProof.use_Dn50 ..) (ret _ ?_)
  unfold VdMModified.check_validity_range
  dsimp only
  refine check (by simp) rfl <| check (by simp) ?_ <| check (by simp) (irib_eval hH hT hc) <|
    check (by simp) rfl <| check (by simp) rfl <| last (by simp) (ratio_eval hH)
  rw [water]; exact Ns_eval hD (by norm_num) hr

example := RangeArmour.C60_modified_damage_partial (H := 2) (H2 := 2.8) (T := 8) (N := 3000) (c := 2)
  (P := 0.4) (rr := 2650) (D := 1) (M := .fin 5000) (cpl := .fin 6.2) (cs := .fin 1) (rw := .fin 1025)
  (by norm_num) (by norm_num) (by norm_num) (by norm_num) (by norm_num)

theorem C60_modified_size_partial {H H2 T N c P rr r : ℝ} (S cpl cs rw : PF) (hH : 0 < H)
    (hT : 0 < T) (hc : 0 < c) (hr : 1025 < rr) (hpos : 0 < r)
    (hres : (VdMModified.calculate_nominal_rock_diameter_Dn50 (fin H) (fin H2) (fin T) (fin N) (fin c)
        (fin P) (fin rr) S cpl cs rw).res = .ok (fin r)) :
    WarnsExactly (VdMModified.calculate_nominal_rock_diameter_Dn50 (fin H) (fin H2) (fin T) (fin N)
        (fin c) (fin P) (fin rr) S cpl cs rw) "Modified Van der Meer (Van Gent et al., 2003)"
      [⟨"Notional permeability P", fin P, 0.1, 0.6⟩,
       ⟨"Stability number Ns", fin (Ns H r rr 1025), 0.5, 4.5⟩,
       ⟨"Iribarren number ksi_m-1,0", fin (iribarren H T c), 1.3, 15.0⟩,
       ⟨"Cotangent of outer structure slope cot_alpha", fin c, 2.0, 4.0⟩,
       ⟨"Number of waves N_waves", fin N, 0, 3000⟩,
       ⟨"Ratio H2%/Hs", fin (H2 / H), 1.20, 1.40⟩] := by
  unfold VdMModified.calculate_nominal_rock_diameter_Dn50 at hres ⊢
  dsimp only at hres ⊢
  refine with_result (m := fun d => VdMModified.check_validity_range (fin H) (fin H2) (fin T) (fin N)
    (fin c) (fin P) d (fin rr) 1025.0) (by simp) ?_ hres
  unfold VdMModified.check_validity_range
  dsimp only
  refine check (by simp) rfl <| check (by simp) ?_ <| check (by simp) (irib_eval hH hT hc) <|
    check (by simp) rfl <| check (by simp) rfl <| last (by simp) (ratio_eval hH)
  rw [water]; exact Ns_eval hpos (by norm_num) hr

/-- the wave-height function does not check the ratio `H2%/Hs` -/
theorem C60_modified_height_partial {T N c P rr D r : ℝ} (q S M cpl cs g rw : PF)
    (hT : 0 < T) (hc : 0 < c) (hD : 0 < D) (hr : 1025 < rr) (hpos : 0 < r)
    (hres : (VdMModified.calculate_significant_wave_height_Hs q (fin T) (fin N) (fin c)
        (fin P) (fin rr) S (fin D) M cpl cs g rw).res = .ok (fin r)) :
    WarnsExactly (VdMModified.calculate_significant_wave_height_Hs q (fin T) (fin N) (fin c)
        (fin P) (fin rr) S (fin D) M cpl cs g rw) "Modified Van der Meer (Van Gent et al., 2003)"
      [⟨"Notional permeability P", fin P, 0.1, 0.6⟩,
       ⟨"Stability number Ns", fin (Ns r D rr 1025), 0.5, 4.5⟩,
       ⟨"Iribarren number ksi_m-1,0", fin (iribarren r T c), 1.3, 15.0⟩,
       ⟨"Cotangent of outer structure slope cot_alpha", fin c, 2.0, 4.0⟩,
       ⟨"Number of waves N_waves", fin N, 0, 3000⟩] := by
  unfold VdMModified.calculate_significant_wave_height_Hs at hres ⊢
  rw [VdMProof.use_Dn50, bind_nil] at hres ⊢
  dsimp only at hres ⊢
  refine with_result (m := fun h => VdMModified.check_validity_range h nan (fin T) (fin N)
    (fin c) (fin P) (fin D) (fin rr) 1025.0) (by simp) ?_ hres
  unfold VdMModified.check_validity_range
  dsimp only
  refine check (by simp) rfl <| check (by simp) ?_ <| check (by simp) (irib_eval hpos hT hc) <|
    check (by simp) rfl <| check (by simp) rfl <| skip_last (by simp)
  rw [water]; exact Ns_eval hD (by norm_num) hr

/-- with fresh water (1000 kg/m³) the reported stability number is not that of the calculation: here
it is 4.4 (in range) while the check says 4.57 (out of range) -/
theorem C60_modified_other_density_refuted :
    ∃ w ∈ (VdMModified.calculate_damage_number_S (fin 6.6) (fin 8.58) (fin 10) (fin 1000) (fin 3) (fin 0.4)
        (fin 2500) (fin 1) (rho_water := fin 1000)).warns, (∃ v, w = .range "Stability number Ns"
          "Modified Van der Meer (Van Gent et al., 2003)" (fin v) 0.5 4.5 ∧ v ≠ Ns 6.6 1 2500 1000) ∧
      ¬ Limit.Violated ⟨"Stability number Ns", fin (Ns 6.6 1 2500 1000), 0.5, 4.5⟩ := by
  have h := C60_modified_damage_partial (H := 6.6) (H2 := 8.58) (T := 10) (N := 1000) (c := 3) (P := 0.4)
    (rr := 2500) (D := 1) nan 8.4 1.3 (fin 1000) (by norm_num) (by norm_num) (by norm_num) (by norm_num)
    (by norm_num)
  refine ⟨_, (h.2 _).mpr ⟨⟨"Stability number Ns", fin (Ns 6.6 1 2500 1025), 0.5, 4.5⟩, by simp, ?_, rfl⟩,
    ⟨_, rfl, ?_⟩, ?_⟩
  · right
    show (4.5 : PF) < fin _
    rw [sci_eq, lt_fin]; norm_num [Ns, Delta]
  · norm_num [Ns, Delta]
  · unfold Limit.Violated
    simp only [sci_eq, lt_fin]
    norm_num [Ns, Delta]

/-! ### Van der Meer (2021)

The formula has no `H2%`.  The code calls the modified formula with `H2% = Hs`, whose check then finds
the ratio 1 outside 1.2-1.4: every call with a positive wave height warns about a quantity that the
caller never gave. -/

theorem C60_vandermeer2021_refuted {H T N c P rr D : ℝ} (M cpl cs k1 k2 S : PF) (hH : 0 < H)
    (hT : 0 < T) (hc : 0 < c) (hD : 0 < D) (hr : 1025 < rr) :
    Warn.range "Ratio H2%/Hs" "Modified Van der Meer (Van Gent et al., 2003)" (fin 1) 1.20 1.40 ∈
      (VdM2021.calculate_damage_number_S (fin H) (fin T) (fin N) (fin c) (fin P) (fin rr) (fin D) M cpl
        cs k1 k2).warns ∧
    Warn.range "Ratio H2%/Hs" "Modified Van der Meer (Van Gent et al., 2003)" (fin 1) 1.20 1.40 ∈
      (VdM2021.calculate_nominal_rock_diameter_Dn50 (fin H) (fin T) (fin N) (fin c) (fin P) (fin rr) S
        cpl cs k1 k2).warns := by
  have hv : OutOfRange (1.20 : PF) 1.40 (fin H / fin H) := by
    left
    rw [ratio_eval hH, div_self hH.ne', sci_eq, lt_fin]; norm_num
  have e1 : (fin H / fin H : PF) = fin 1 := by rw [ratio_eval hH, div_self hH.ne']
  constructor
  · unfold VdM2021.calculate_damage_number_S VdMModified.calculate_damage_number_S
    rw [VdMProof.use_Dn50, bind_nil]
    unfold VdMModified.check_validity_range
    simp only [bind_assoc, pure_bind, check_bind_warns, List.mem_append]
    right; right; right; right; right; left
    rw [check_if_given_warns, if_pos ⟨by simp, hv⟩, e1]
    simp
  · unfold VdM2021.calculate_nominal_rock_diameter_Dn50
      VdMModified.calculate_nominal_rock_diameter_Dn50
    unfold VdMModified.check_validity_range
    simp only [bind_assoc, pure_bind, check_bind_warns, List.mem_append]
    right; right; right; right; right; left
    rw [check_if_given_warns, if_pos ⟨by simp, hv⟩, e1]
    simp

example : Warn.range "Ratio H2%/Hs" "Modified Van der Meer (Van Gent et al., 2003)" (fin 1) 1.20 1.40 ∈
    (VdM2021.calculate_damage_number_S (fin 2) (fin 6) (fin 1000) (fin 3) (fin 0.4) (fin 2650)
      (fin 1)).warns :=
  (C60_vandermeer2021_refuted nan 6.49 0.97 1.0 1.0 nan (by norm_num) (by norm_num) (by norm_num)
    (by norm_num) (by norm_num)).1

/-! ### Etemad-Shahidi et al. (2020) -/

theorem etemad_check {H T N c S D Dc rr rw : ℝ} (hH : 0 < H) (hT : 0 < T) (hc : 0 < c) (hD : 0 < D)
    (hw : 0 < rw) (hr : rw < rr) :
    WarnsExactly (Etemad2020.check_validity_range (fin H) (fin T) (fin N) (fin c) nan (fin S) (fin D)
        (fin Dc) (fin rr) (fin rw)) "Etemad-Shahidi et al., 2020"
      [⟨"Wave steepness sm-1,0", fin (steepness H T), 0.003, 0.088⟩,
       ⟨"Iribarren number ksi_m-1,0", fin (iribarren H T c), 0.65, 8.18⟩,
       ⟨"Cotangent of outer structure slope cot_alpha", fin c, 1.5, 6.0⟩,
       ⟨"Number of waves N_waves", fin N, 500, 5000⟩,
       ⟨"Buoyant density Delta", fin (Delta rr rw), 0.92, 2.05⟩,
       ⟨"Relative core diameter Dn50_core / Dn50", fin (Dc / D), 0.0, 1.0⟩,
       ⟨"Stability number Ns", fin (Ns H D rr rw), 1.0, 4.3⟩,
       ⟨"Damage number S", fin S, 2.0, 12.0⟩] := by
  unfold Etemad2020.check_validity_range
  dsimp only
  exact check (by simp) (steep_eval hT) <| check (by simp) (irib_eval hH hT hc) <|
    check (by simp) rfl <| check (by simp) rfl <| check (by simp) (Delta_eval' hw hr) <|
    skip (by simp) <| check (by simp) (ratio_eval hD) <| check (by simp) (Ns_eval hD hw hr) <|
    last (by simp) rfl

theorem etemad_check_res (a b c d e f g h i j : PF) :
    (Etemad2020.check_validity_range a b c d e f g h i j).res = .ok () := by
  simp [Etemad2020.check_validity_range]

theorem depth_warns (m : PF) (b : Bool) : (Etemad2020.depth_limitation m b).warns = [] := by
  unfold Etemad2020.depth_limitation
  split_ifs <;> rfl

theorem bound_warns (o : Option PF) : (Etemad2020.bound o).warns = [] := by
  cases o <;> rfl

theorem C60_etemad2020_damage {H T N c D Dc rr rw r : ℝ} (M Mc rc m : PF) (lim : Bool) (hH : 0 < H)
    (hT : 0 < T) (hc : 0 < c) (hD : 0 < D) (hw : 0 < rw) (hr : rw < rr)
    (hres : (Etemad2020.calculate_damage_number_S (fin H) (fin T) (fin N) (fin c) (fin rr) (fin D) M
      (fin Dc) Mc rc (fin rw) m lim).res = .ok (fin r)) :
    WarnsExactly (Etemad2020.calculate_damage_number_S (fin H) (fin T) (fin N) (fin c) (fin rr) (fin D) M
        (fin Dc) Mc rc (fin rw) m lim) "Etemad-Shahidi et al., 2020"
      [⟨"Wave steepness sm-1,0", fin (steepness H T), 0.003, 0.088⟩,
       ⟨"Iribarren number ksi_m-1,0", fin (iribarren H T c), 0.65, 8.18⟩,
       ⟨"Cotangent of outer structure slope cot_alpha", fin c, 1.5, 6.0⟩,
       ⟨"Number of waves N_waves", fin N, 500, 5000⟩,
       ⟨"Buoyant density Delta", fin (Delta rr rw), 0.92, 2.05⟩,
       ⟨"Relative core diameter Dn50_core / Dn50", fin (Dc / D), 0.0, 1.0⟩,
       ⟨"Stability number Ns", fin (Ns H D rr rw), 1.0, 4.3⟩,
       ⟨"Damage number S", fin r, 2.0, 12.0⟩] := by
  unfold Etemad2020.calculate_damage_number_S at hres ⊢
  refine step (depth_warns ..) hres fun a _ hres => ?_
  rw [VdMProof.use_Dn50, bind_nil, VdMProof.use_Dn50, bind_nil] at hres ⊢
  dsimp only at hres ⊢
  exact with_result (m := fun s => Etemad2020.check_validity_range (fin H) (fin T) (fin N) (fin c) nan s
    (fin D) (fin Dc) (fin rr) (fin rw)) (etemad_check_res ..) (etemad_check hH hT hc hD hw hr) hres

/-- (the size and wave-height functions take no water density and use 1025 kg/m³) -/
theorem C60_etemad2020_size {H T N c Dc rr S r : ℝ} (Mc rc m : PF) (lim : Bool) (C0 : PF) (k : ℕ)
    (tol : PF) (hH : 0 < H) (hT : 0 < T) (hc : 0 < c) (hr : 1025 < rr) (hpos : 0 < r)
    (hres : (Etemad2020.calculate_nominal_rock_diameter_Dn50 (fin H) (fin T) (fin N) (fin c) (fin rr)
      (fin S) (fin Dc) Mc rc m lim C0 k tol).res = .ok (fin r)) :
    WarnsExactly (Etemad2020.calculate_nominal_rock_diameter_Dn50 (fin H) (fin T) (fin N) (fin c)
        (fin rr) (fin S) (fin Dc) Mc rc m lim C0 k tol) "Etemad-Shahidi et al., 2020"
      [⟨"Wave steepness sm-1,0", fin (steepness H T), 0.003, 0.088⟩,
       ⟨"Iribarren number ksi_m-1,0", fin (iribarren H T c), 0.65, 8.18⟩,
       ⟨"Cotangent of outer structure slope cot_alpha", fin c, 1.5, 6.0⟩,
       ⟨"Number of waves N_waves", fin N, 500, 5000⟩,
       ⟨"Buoyant density Delta", fin (Delta rr 1025), 0.92, 2.05⟩,
       ⟨"Relative core diameter Dn50_core / Dn50", fin (Dc / r), 0.0, 1.0⟩,
       ⟨"Stability number Ns", fin (Ns H r rr 1025), 1.0, 4.3⟩,
       ⟨"Damage number S", fin S, 2.0, 12.0⟩] := by
  unfold Etemad2020.calculate_nominal_rock_diameter_Dn50 at hres ⊢
  refine step (depth_warns ..) hres fun a _ hres => ?_
  rw [VdMProof.use_Dn50, bind_nil] at hres ⊢
  dsimp only at hres ⊢
  refine step (bound_warns _) hres fun b _ hres => ?_
  refine step (bound_warns _) hres fun d _ hres => ?_
  refine with_result (m := fun x => Etemad2020.check_validity_range (fin H) (fin T) (fin N) (fin c) nan
    (fin S) x (fin Dc) (fin rr) 1025.0) (etemad_check_res ..) ?_ hres
  rw [water]
  exact etemad_check hH hT hc hpos (by norm_num) hr

theorem C60_etemad2020_height {T N c D Dc rr S r : ℝ} (M Mc rc m : PF) (lim : Bool) (g : PF)
    (hT : 0 < T) (hc : 0 < c) (hD : 0 < D) (hr : 1025 < rr) (hpos : 0 < r)
    (hres : (Etemad2020.calculate_significant_wave_height_Hs (fin T) (fin N) (fin c) (fin rr)
      (fin S) (fin D) M (fin Dc) Mc rc m lim g).res = .ok (fin r)) :
    WarnsExactly (Etemad2020.calculate_significant_wave_height_Hs (fin T) (fin N) (fin c)
        (fin rr) (fin S) (fin D) M (fin Dc) Mc rc m lim g) "Etemad-Shahidi et al., 2020"
      [⟨"Wave steepness sm-1,0", fin (steepness r T), 0.003, 0.088⟩,
       ⟨"Iribarren number ksi_m-1,0", fin (iribarren r T c), 0.65, 8.18⟩,
       ⟨"Cotangent of outer structure slope cot_alpha", fin c, 1.5, 6.0⟩,
       ⟨"Number of waves N_waves", fin N, 500, 5000⟩,
       ⟨"Buoyant density Delta", fin (Delta rr 1025), 0.92, 2.05⟩,
       ⟨"Relative core diameter Dn50_core / Dn50", fin (Dc / D), 0.0, 1.0⟩,
       ⟨"Stability number Ns", fin (Ns r D rr 1025), 1.0, 4.3⟩,
       ⟨"Damage number S", fin S, 2.0, 12.0⟩] := by
  unfold Etemad2020.calculate_significant_wave_height_Hs at hres ⊢
  refine step (depth_warns ..) hres fun a _ hres => ?_
  rw [VdMProof.use_Dn50, bind_nil, VdMProof.use_Dn50, bind_nil] at hres ⊢
  dsimp only at hres ⊢
  refine with_result (m := fun x => Etemad2020.check_validity_range x (fin T) (fin N) (fin c) nan
    (fin S) (fin D) (fin Dc) (fin rr) 1025.0) (etemad_check_res ..) ?_ hres
  rw [water]
  exact etemad_check hpos hT hc hD (by norm_num) hr

/-! ### Jumelet et al. (2024) -/

theorem jumelet_check {H T N c : ℝ} (hH : 0 < H) (hT : 0 < T) (hc : 0 < c) :
    WarnsExactly (Jumelet2024.check_validity_range (fin H) (fin T) (fin N) (fin c))
      "Jumelet et al., 2024"
      [⟨"Wave steepness sm-1,0", fin (steepness H T), 0.009, 0.057⟩,
       ⟨"Iribarren number ksi_m-1,0", fin (iribarren H T c), 0.42, 1.66⟩,
       ⟨"Cotangent of outer structure slope cot_alpha", fin c, 6.0, 10.0⟩,
       ⟨"Number of waves N_waves", fin N, 250, 20000⟩] := by
  unfold Jumelet2024.check_validity_range
  dsimp only
  exact check (by simp) (steep_eval hT) <| check (by simp) (irib_eval hH hT hc) <|
    check (by simp) rfl <| last (by simp) rfl

theorem C60_jumelet_damage {H T N c D : ℝ} (rr M cpl rw : PF) (hH : 0 < H) (hT : 0 < T) (hc : 0 < c) :
    WarnsExactly (Jumelet2024.calculate_damage_number_S (fin H) (fin T) (fin N) (fin c) rr (fin D) M cpl
        rw) "Jumelet et al., 2024"
      [⟨"Wave steepness sm-1,0", fin (steepness H T), 0.009, 0.057⟩,
       ⟨"Iribarren number ksi_m-1,0", fin (iribarren H T c), 0.42, 1.66⟩,
       ⟨"Cotangent of outer structure slope cot_alpha", fin c, 6.0, 10.0⟩,
       ⟨"Number of waves N_waves", fin N, 250, 20000⟩] := by
  unfold Jumelet2024.calculate_damage_number_S
  exact after (VdMProof.use_Dn50 ..) (ret _ (jumelet_check hH hT hc))

example := RangeArmour.C60_jumelet_damage (H := 2) (T := 8) (N := 3000) (c := 2) (D := 1) (rr := .fin 2650)
  (M := .fin 5000) (cpl := .fin 6.2) (rw := .fin 1025) (by norm_num) (by norm_num) (by norm_num)

theorem C60_jumelet_size {H T N c : ℝ} (rr S cpl : PF) (hH : 0 < H) (hT : 0 < T) (hc : 0 < c) :
    WarnsExactly (Jumelet2024.calculate_nominal_rock_diameter_Dn50 (fin H) (fin T) (fin N) (fin c) rr S
        cpl) "Jumelet et al., 2024"
      [⟨"Wave steepness sm-1,0", fin (steepness H T), 0.009, 0.057⟩,
       ⟨"Iribarren number ksi_m-1,0", fin (iribarren H T c), 0.42, 1.66⟩,
       ⟨"Cotangent of outer structure slope cot_alpha", fin c, 6.0, 10.0⟩,
       ⟨"Number of waves N_waves", fin N, 250, 20000⟩] := by
  unfold Jumelet2024.calculate_nominal_rock_diameter_Dn50
  exact ret _ (jumelet_check hH hT hc)

example := RangeArmour.C60_jumelet_size (H := 2) (T := 8) (N := 3000) (c := 2) (rr := .fin 2650)
  (S := .fin 2) (cpl := .fin 6.2) (by norm_num) (by norm_num) (by norm_num)

theorem C60_jumelet_height {T N c D r : ℝ} (rr S M cpl g s0 : PF) (k : ℕ) (tol : PF)
    (hT : 0 < T) (hc : 0 < c) (hpos : 0 < r)
    (hres : (Jumelet2024.calculate_significant_wave_height_Hs (fin T) (fin N) (fin c) rr S (fin D) M cpl
      g s0 k tol).res = .ok (fin r)) :
    WarnsExactly (Jumelet2024.calculate_significant_wave_height_Hs (fin T) (fin N) (fin c) rr S (fin D) M
        cpl g s0 k tol) "Jumelet et al., 2024"
      [⟨"Wave steepness sm-1,0", fin (steepness r T), 0.009, 0.057⟩,
       ⟨"Iribarren number ksi_m-1,0", fin (iribarren r T c), 0.42, 1.66⟩,
       ⟨"Cotangent of outer structure slope cot_alpha", fin c, 6.0, 10.0⟩,
       ⟨"Number of waves N_waves", fin N, 250, 20000⟩] := by
  unfold Jumelet2024.calculate_significant_wave_height_Hs at hres ⊢
  rw [VdMProof.use_Dn50, bind_nil] at hres ⊢
  dsimp only at hres ⊢
  generalize Jumelet2024.LoopState.Hs _ = o at hres ⊢
  cases o with
  | none => cases hres
  | some h =>
    exact with_result (m := fun x => Jumelet2024.check_validity_range x (fin T) (fin N) (fin c))
      (by simp [Jumelet2024.check_validity_range]) (jumelet_check hpos hT hc) hres

/-! ### Scaravaglione et al. (2025)

As for the modified Van der Meer formula, the stability number that is checked uses 1025 kg/m³. -/

theorem scaravaglione_check {H T N c D Dc rr : ℝ} (hH : 0 < H) (hT : 0 < T) (hc : 0 < c) (hD : 0 < D)
    (hr : 1025 < rr) :
    WarnsExactly (Scaravaglione2025.check_validity_range (fin H) (fin T) (fin N) (fin c) nan (fin D)
        (fin Dc) (fin rr)) "Scaravaglione et al. (2025)"
      [⟨"Stability number Ns", fin (Ns H D rr 1025), 1.47, 3.44⟩,
       ⟨"Wave steepness s_m-1,0", fin (steepness H T), 0.020, 0.049⟩,
       ⟨"Iribarren number ksi_m-1,0", fin (iribarren H T c), 1.3, 15.0⟩,
       ⟨"Cotangent of outer structure slope cot_alpha", fin c, 2.0, 2.0⟩,
       ⟨"Number of waves N_waves", fin N, 652, 4064⟩,
       ⟨"Ratio core to armour Dn50_core / Dn50", fin (Dc / D), 0.21, 0.71⟩] := by
  unfold Scaravaglione2025.check_validity_range
  dsimp only
  refine skip (by simp) <| check (by simp) ?_ <| check (by simp) (steep_eval hT) <|
    check (by simp) (irib_eval hH hT hc) <| check (by simp) rfl <| check (by simp) rfl <|
    last (by simp) (ratio_eval hD)
  rw [water]; exact Ns_eval hD (by norm_num) hr

theorem scaravaglione_check_res (a b c d e f g h i : PF) :
    (Scaravaglione2025.check_validity_range a b c d e f g h i).res = .ok () := by
  simp [Scaravaglione2025.check_validity_range]

theorem C60_scaravaglione_damage_partial {H T N c D Dc rr : ℝ} (rc M Mc cv rw : PF) (hH : 0 < H)
    (hT : 0 < T) (hc : 0 < c) (hD : 0 < D) (hr : 1025 < rr) :
    WarnsExactly (Scaravaglione2025.calculate_damage_number_S (fin H) (fin T) (fin N) (fin c) (fin rr) rc
        (fin D) (fin Dc) M Mc cv rw) "Scaravaglione et al. (2025)"
      [⟨"Stability number Ns", fin (Ns H D rr 1025), 1.47, 3.44⟩,
       ⟨"Wave steepness s_m-1,0", fin (steepness H T), 0.020, 0.049⟩,
       ⟨"Iribarren number ksi_m-1,0", fin (iribarren H T c), 1.3, 15.0⟩,
       ⟨"Cotangent of outer structure slope cot_alpha", fin c, 2.0, 2.0⟩,
       ⟨"Number of waves N_waves", fin N, 652, 4064⟩,
       ⟨"Ratio core to armour Dn50_core / Dn50", fin (Dc / D), 0.21, 0.71⟩] := by
  unfold Scaravaglione2025.calculate_damage_number_S
  exact after (VdMProof.use_Dn50 ..) (after (VdMProof.use_Dn50 ..)
    (ret _ (scaravaglione_check hH hT hc hD hr)))

example := RangeArmour.C60_scaravaglione_damage_partial (H := 2) (T := 8) (N := 3000) (c := 2) (D := 1)
  (Dc := 0.3) (rr := 2650) (rc := .fin 2650) (M := .fin 5000) (Mc := .fin 10) (cv := .fin 1)
  (rw := .fin 1025) (by norm_num) (by norm_num) (by norm_num) (by norm_num) (by norm_num)

theorem C60_scaravaglione_size_partial {H T N c Dc rr r : ℝ} (rc S Mc cv rw : PF) (hH : 0 < H)
    (hT : 0 < T) (hc : 0 < c) (hr : 1025 < rr) (hpos : 0 < r)
    (hres : (Scaravaglione2025.calculate_nominal_rock_diameter_Dn50 (fin H) (fin T) (fin N) (fin c)
      (fin rr) rc S (fin Dc) Mc cv rw).res = .ok (fin r)) :
    WarnsExactly (Scaravaglione2025.calculate_nominal_rock_diameter_Dn50 (fin H) (fin T) (fin N) (fin c)
        (fin rr) rc S (fin Dc) Mc cv rw) "Scaravaglione et al. (2025)"
      [⟨"Stability number Ns", fin (Ns H r rr 1025), 1.47, 3.44⟩,
       ⟨"Wave steepness s_m-1,0", fin (steepness H T), 0.020, 0.049⟩,
       ⟨"Iribarren number ksi_m-1,0", fin (iribarren H T c), 1.3, 15.0⟩,
       ⟨"Cotangent of outer structure slope cot_alpha", fin c, 2.0, 2.0⟩,
       ⟨"Number of waves N_waves", fin N, 652, 4064⟩,
       ⟨"Ratio core to armour Dn50_core / Dn50", fin (Dc / r), 0.21, 0.71⟩] := by
  unfold Scaravaglione2025.calculate_nominal_rock_diameter_Dn50 at hres ⊢
  rw [VdMProof.use_Dn50, bind_nil] at hres ⊢
  dsimp only at hres ⊢
  exact with_result (m := fun x => Scaravaglione2025.check_validity_range (fin H) (fin T) (fin N) (fin c)
    nan x (fin Dc) (fin rr)) (scaravaglione_check_res ..) (scaravaglione_check hH hT hc hpos hr) hres

theorem C60_scaravaglione_height_partial {T N c D Dc rr r : ℝ} (rc S M Mc cv g rw : PF)
    (hT : 0 < T) (hc : 0 < c) (hD : 0 < D) (hr : 1025 < rr) (hpos : 0 < r)
    (hres : (Scaravaglione2025.calculate_significant_wave_height_Hm0 (fin T) (fin N) (fin c)
      (fin rr) rc S (fin D) (fin Dc) M Mc cv g rw).res = .ok (fin r)) :
    WarnsExactly (Scaravaglione2025.calculate_significant_wave_height_Hm0 (fin T) (fin N) (fin c)
        (fin rr) rc S (fin D) (fin Dc) M Mc cv g rw) "Scaravaglione et al. (2025)"
      [⟨"Stability number Ns", fin (Ns r D rr 1025), 1.47, 3.44⟩,
       ⟨"Wave steepness s_m-1,0", fin (steepness r T), 0.020, 0.049⟩,
       ⟨"Iribarren number ksi_m-1,0", fin (iribarren r T c), 1.3, 15.0⟩,
       ⟨"Cotangent of outer structure slope cot_alpha", fin c, 2.0, 2.0⟩,
       ⟨"Number of waves N_waves", fin N, 652, 4064⟩,
       ⟨"Ratio core to armour Dn50_core / Dn50", fin (Dc / D), 0.21, 0.71⟩] := by
  unfold Scaravaglione2025.calculate_significant_wave_height_Hm0 at hres ⊢
  rw [VdMProof.use_Dn50, bind_nil, VdMProof.use_Dn50, bind_nil] at hres ⊢
  dsimp only at hres ⊢
  exact with_result (m := fun x => Scaravaglione2025.check_validity_range x (fin T) (fin N) (fin c)
    nan (fin D) (fin Dc) (fin rr)) (scaravaglione_check_res ..)
    (scaravaglione_check hpos hT hc hD hr) hres

/-! ### Kramer & Burcharth (2004) -/

theorem kramer_check {Rc D : ℝ} (hD : 0 < D) :
    WarnsExactly (KramerBurcharth.check_validity_range (fin Rc) (fin D)) "Kramer & Burcharth, 2004"
      [⟨"Relative crest height Rc / Dn50", fin (Rc / D), -3.1, 1.5⟩] := by
  unfold KramerBurcharth.check_validity_range
  exact last (by simp) (ratio_eval hD)

theorem C60_kramer_height {Rc D : ℝ} (rr M : PF) (hD : 0 < D) :
    WarnsExactly (KramerBurcharth.calculate_significant_wave_height_Hs (fin Rc) rr (fin D) M)
      "Kramer & Burcharth, 2004" [⟨"Relative crest height Rc / Dn50", fin (Rc / D), -3.1, 1.5⟩] := by
  unfold KramerBurcharth.calculate_significant_wave_height_Hs
  exact after (VdMProof.use_Dn50 ..) (ret _ (kramer_check hD))

theorem C60_kramer_size {Rc r : ℝ} (H rr N0 : PF) (k : ℕ) (tol : PF) (hpos : 0 < r)
    (hres : (KramerBurcharth.calculate_nominal_rock_diameter_Dn50 H (fin Rc) rr N0 k tol).res =
      .ok (fin r)) :
    WarnsExactly (KramerBurcharth.calculate_nominal_rock_diameter_Dn50 H (fin Rc) rr N0 k tol)
      "Kramer & Burcharth, 2004" [⟨"Relative crest height Rc / Dn50", fin (Rc / r), -3.1, 1.5⟩] := by
  unfold KramerBurcharth.calculate_nominal_rock_diameter_Dn50 at hres ⊢
  dsimp only at hres ⊢
  exact with_result (m := fun x => KramerBurcharth.check_validity_range (fin Rc) x)
    (by simp [KramerBurcharth.check_validity_range]) (kramer_check hpos) hres

theorem C60_kramer_freeboard {D r : ℝ} (H rr M q0 : PF) (k : ℕ) (tol : PF) (hD : 0 < D)
    (hres : (KramerBurcharth.calculate_crest_freeboard_Rc H rr (fin D) M q0 k tol).res = .ok (fin r)) :
    WarnsExactly (KramerBurcharth.calculate_crest_freeboard_Rc H rr (fin D) M q0 k tol)
      "Kramer & Burcharth, 2004" [⟨"Relative crest height Rc / Dn50", fin (r / D), -3.1, 1.5⟩] := by
  unfold KramerBurcharth.calculate_crest_freeboard_Rc at hres ⊢
  rw [VdMProof.use_Dn50, bind_nil] at hres ⊢
  dsimp only at hres ⊢
  exact with_result (m := fun x => KramerBurcharth.check_validity_range x (fin D))
    (by simp [KramerBurcharth.check_validity_range]) (kramer_check hD) hres

/-- a crest four diameters below the water level is reported -/
example : (KramerBurcharth.calculate_significant_wave_height_Hs (fin (-4)) (fin 2650) (fin 1)).warns ≠ [] := by
  intro e
  have := ((C60_kramer_height (Rc := -4) (D := 1) (fin 2650) nan (by norm_num)).2
    (.range "Relative crest height Rc / Dn50" "Kramer & Burcharth, 2004" (fin (-4 / 1)) (-3.1) 1.5)).mpr
    ⟨⟨"Relative crest height Rc / Dn50", fin (-4 / 1), -3.1, 1.5⟩, by simp, by
      left; show fin (-4 / 1) < (-3.1 : PF); rw [sci_eq, neg_fin, lt_fin]; norm_num, rfl⟩
  rw [e] at this; cases this

end RangeArmour
end
