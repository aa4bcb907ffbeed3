import Verif.Lemmas.Range
import Verif.Model.Toe
import Verif.Model.ConcreteHudson
import Verif.Model.Cubes
import Verif.Model.RearSlope
import Verif.Model.CrestWall
import Verif.Model.Goda1985

/-! # Validity warnings of the toe, concrete armour, rear slope, crest wall and caisson formulas (C60)

See `RangeArmour` for the reading of `WarnsExactly`; `r` is the result of the call. -/

open Classical
open PF
open CorePhysics CoreUtility RangeProof Textbook
noncomputable section

namespace RangeStructures

/-! ### Toe berms: Gerding (1993) -/

theorem gerding_check {ht h D : ℝ} (hh : 0 < h) (hD : 0 < D) :
    WarnsExactly (Gerding1993.check_validity (fin ht) (fin h) (fin D)) "Gerding (1993)"
      [⟨"Relative toe height (h)", fin (ht / h), 0.4, 0.9⟩,
       ⟨"Relative toe height (Dn50)", fin (ht / D), 3, 25⟩] := by
  unfold Gerding1993.check_validity
  dsimp only
  exact check (by simp) (ratio_eval hh) <| last (by simp) (ratio_eval hD)

theorem C60_gerding_damage {ht h D : ℝ} (H rr rw : PF) (hh : 0 < h) (hD : 0 < D) :
    WarnsExactly (Gerding1993.calculate_damage_Nod H (fin ht) (fin h) (fin D) rr rw) "Gerding (1993)"
      [⟨"Relative toe height (h)", fin (ht / h), 0.4, 0.9⟩,
       ⟨"Relative toe height (Dn50)", fin (ht / D), 3, 25⟩] := by
  unfold Gerding1993.calculate_damage_Nod
  exact ret _ (gerding_check hh hD)

theorem C60_gerding_height {ht h D : ℝ} (N rr rw : PF) (hh : 0 < h) (hD : 0 < D) :
    WarnsExactly (Gerding1993.calculate_wave_height_Hs (fin D) (fin ht) (fin h) N rr rw) "Gerding (1993)"
      [⟨"Relative toe height (h)", fin (ht / h), 0.4, 0.9⟩,
       ⟨"Relative toe height (Dn50)", fin (ht / D), 3, 25⟩] := by
  unfold Gerding1993.calculate_wave_height_Hs
  exact ret _ (gerding_check hh hD)

example := RangeStructures.C60_gerding_height (ht := 5) (h := 8) (D := 1) (N := 0.5) (rr := .fin 2650)
  (rw := .fin 1025) (by norm_num) (by norm_num)

theorem C60_gerding_size {ht h r : ℝ} (H N rr rw : PF) (hh : 0 < h) (hpos : 0 < r)
    (hres : (Gerding1993.calculate_nominal_diameter_Dn50 H (fin ht) (fin h) N rr rw).res = .ok (fin r)) :
    WarnsExactly (Gerding1993.calculate_nominal_diameter_Dn50 H (fin ht) (fin h) N rr rw) "Gerding (1993)"
      [⟨"Relative toe height (h)", fin (ht / h), 0.4, 0.9⟩,
       ⟨"Relative toe height (Dn50)", fin (ht / r), 3, 25⟩] := by
  unfold Gerding1993.calculate_nominal_diameter_Dn50 at hres ⊢
  exact with_result (m := fun x => Gerding1993.check_validity (fin ht) (fin h) x)
    (by simp [Gerding1993.check_validity]) (gerding_check hh hpos) hres

theorem C60_gerding_depth {h D r : ℝ} (H N rr rw : PF) (hh : 0 < h) (hD : 0 < D)
    (hres : (Gerding1993.calculate_depth_above_toe_ht H (fin D) (fin h) N rr rw).res = .ok (fin r)) :
    WarnsExactly (Gerding1993.calculate_depth_above_toe_ht H (fin D) (fin h) N rr rw) "Gerding (1993)"
      [⟨"Relative toe height (h)", fin (r / h), 0.4, 0.9⟩,
       ⟨"Relative toe height (Dn50)", fin (r / D), 3, 25⟩] := by
  unfold Gerding1993.calculate_depth_above_toe_ht at hres ⊢
  exact with_result (m := fun x => Gerding1993.check_validity x (fin h) (fin D))
    (by simp [Gerding1993.check_validity]) (gerding_check hh hD) hres

/-- a toe at a tenth of the depth: reported -/
example : (Gerding1993.calculate_damage_Nod (fin 2) (fin 1) (fin 10) (fin 0.2) (fin 2650)
    (fin 1025)).warns ≠ [] := by
  intro e
  have := ((C60_gerding_damage (ht := 1) (h := 10) (D := 0.2) (fin 2) (fin 2650) (fin 1025) (by norm_num)
    (by norm_num)).2 (.range "Relative toe height (h)" "Gerding (1993)" (fin (1 / 10)) 0.4 0.9)).mpr
    ⟨⟨"Relative toe height (h)", fin (1 / 10), 0.4, 0.9⟩, by simp, by
      left; show fin (1 / 10) < (0.4 : PF); rw [sci_eq, lt_fin]; norm_num, rfl⟩
  rw [e] at this; cases this

/-! ### Toe berms: Van der Meer (1998)

The criterion `Nod^-0.15 · Hs/(Δ Dn50) ≥ 2` is computed as `Nod^-0.15 · (Hs/Δ) · Dn50`.  Every result of
the formula meets the criterion, and yet every toe of stones smaller than 0.49 m is reported. -/

theorem C60_toe_vandermeer1998_refuted {H ht h D rr rw : ℝ} (hH : 0 < H) (h0 : 0 < ht) (hh : ht ≤ h)
    (hD : 0 < D) (hw : 0 < rw) (hr : rw < rr) (hsmall : D < 0.49) :
    ∃ r v : ℝ, (VanDerMeer1998.calculate_damage_Nod (fin H) (fin ht) (fin h) (fin D) (fin rr)
        (fin rw)).res = .ok (fin r) ∧
      2 ≤ r ^ (-0.15 : ℝ) * Ns H D rr rw ∧
      Warn.range "Nod vs Ns" "van der Meer (1998)" (fin v) 2 pinf ∈
        (VanDerMeer1998.calculate_damage_Nod (fin H) (fin ht) (fin h) (fin D) (fin rr) (fin rw)).warns := by
  have hh0 : 0 < h := lt_of_lt_of_le h0 hh
  obtain ⟨De, hDe, hDD, eD⟩ := Delta_eval hw hr
  set A : ℝ := 2 + 6.2 * (ht / h) ^ (2.7 : ℝ) with hA
  have hq : (0:ℝ) < (ht / h) ^ (2.7 : ℝ) := by positivity
  have hq1 : (ht / h) ^ (2.7 : ℝ) ≤ 1 :=
    Real.rpow_le_one (by positivity) ((div_le_one hh0).mpr hh) (by norm_num)
  have hA2 : 2 ≤ A := by rw [hA]; linarith
  have hA8 : A ≤ 8.2 := by rw [hA]; linarith
  have hApos : 0 < A := by linarith
  have hNs : Ns H D rr rw = H / (De * D) := by rw [hDD]; rfl
  set N : ℝ := (H / (De * D) / A) ^ (1 / 0.15 : ℝ) with hN
  have hb : 0 < H / (De * D) / A := by positivity
  have e1 : N ^ (-0.15 : ℝ) = A / (H / (De * D)) := by
    rw [hN, ← Real.rpow_mul hb.le]
    have : (1 / 0.15 * -0.15 : ℝ) = -1 := by norm_num
    rw [this, Real.rpow_neg_one, inv_div]
  have hNpos : 0 < N := by rw [hN]; positivity
  have hv : N ^ (-0.15 : ℝ) * (H / De * D) = A * D ^ 2 := by
    rw [e1]; field_simp
  have hv2 : A * D ^ 2 < 2 := by nlinarith
  have hNod : npow (fin H / (fin De * fin D) / (2 + 6.2 * npow (fin ht / fin h) 2.7)) (1 / 0.15)
      = fin N := by
    rw [hN, hA]; pf_eval []
  have hval : npow (fin N) (-0.15) * (fin H / fin De * fin D) = fin (A * D ^ 2) := by
    rw [← hv]; pf_eval []
  refine ⟨N, A * D ^ 2, ?_, ?_, ?_⟩
  · unfold VanDerMeer1998.calculate_damage_Nod
    dsimp only
    rw [eD, hNod]
    simp [VanDerMeer1998.check_validity, PyM.pure_def]
  · rw [e1, hNs, div_mul_cancel₀ _ (by positivity)]; exact hA2
  · unfold VanDerMeer1998.calculate_damage_Nod
    dsimp only
    rw [eD, hNod]
    unfold VanDerMeer1998.check_validity
    simp only [bind_assoc, check_bind_warns, List.mem_append]
    right; right; right; left
    rw [check_if_given_warns, hval, if_pos]
    · simp
    · refine ⟨by simp, Or.inl ?_⟩
      rw [ofNat_eq, lt_fin]; exact hv2

/-- 0.3 m stones, 2 m waves, toe at half the depth -/
example : ∃ r v : ℝ, (VanDerMeer1998.calculate_damage_Nod (fin 2) (fin 4) (fin 8) (fin 0.3) (fin 2650)
        (fin 1025)).res = .ok (fin r) ∧ 2 ≤ r ^ (-0.15 : ℝ) * Ns 2 0.3 2650 1025 ∧
      Warn.range "Nod vs Ns" "van der Meer (1998)" (fin v) 2 pinf ∈
        (VanDerMeer1998.calculate_damage_Nod (fin 2) (fin 4) (fin 8) (fin 0.3) (fin 2650)
          (fin 1025)).warns :=
  C60_toe_vandermeer1998_refuted (by norm_num) (by norm_num) (by norm_num) (by norm_num) (by norm_num)
    (by norm_num) (by norm_num)

/-! ### Toe berms: Van Gent & Van der Werf (2014) -/

theorem vgvdw_check {H t ht c : ℝ} (hH : 0 < H) (ht0 : 0 < ht) (htt : 0 < t) :
    WarnsExactly (VanGentVanDerWerf2014.check_validity (fin H) (fin t) (fin ht) (fin c))
      "van Gent & van der Werf (2014)"
      [⟨"Armour slope cot_alpha_armour_slope", fin c, 1.5, 4⟩,
       ⟨"Armour slope cot_alpha_armour_slope, closer to 1:4 more inaccuracies are found", fin c, 1.5, 2⟩,
       ⟨"Relative toe height tt/h", fin (t / (ht + t)), 0.1, 0.3⟩,
       ⟨"Relative water depth h/Hs", fin ((ht + t) / H), 1.2, 4.5⟩] := by
  unfold VanGentVanDerWerf2014.check_validity
  dsimp only
  refine check (by simp) rfl <| check (by simp) rfl <| check (by simp) ?_ <| last (by simp) ?_
  · rw [add_fin, div_fin (by positivity)]
  · rw [add_fin, div_fin hH.ne']

theorem C60_toe_vangent_damage {H t ht c : ℝ} (T B D rr rw g c1 c2 c3 c4 c5 : PF) (hH : 0 < H)
    (ht0 : 0 < ht) (htt : 0 < t) :
    WarnsExactly (VanGentVanDerWerf2014.calculate_damage_Nod (fin H) T (fin ht) B (fin t) D rr rw (fin c)
        g c1 c2 c3 c4 c5) "van Gent & van der Werf (2014)"
      [⟨"Armour slope cot_alpha_armour_slope", fin c, 1.5, 4⟩,
       ⟨"Armour slope cot_alpha_armour_slope, closer to 1:4 more inaccuracies are found", fin c, 1.5, 2⟩,
       ⟨"Relative toe height tt/h", fin (t / (ht + t)), 0.1, 0.3⟩,
       ⟨"Relative water depth h/Hs", fin ((ht + t) / H), 1.2, 4.5⟩] := by
  unfold VanGentVanDerWerf2014.calculate_damage_Nod
  exact ret _ (vgvdw_check hH ht0 htt)

example := RangeStructures.C60_toe_vangent_damage (H := 2) (t := 1) (ht := 5) (c := 2) (T := .fin 8)
  (B := .fin 4) (D := .fin 1) (rr := .fin 2650) (rw := .fin 1025) (g := .fin 9.81) (c1 := .fin 1.5)
  (c2 := .fin 0.2) (c3 := .fin 0.3) (c4 := .fin 0.3) (c5 := .fin 1) (by norm_num) (by norm_num)
  (by norm_num)

theorem C60_toe_vangent_size {H t ht c : ℝ} (T B N rr rw g : PF) (hH : 0 < H)
    (ht0 : 0 < ht) (htt : 0 < t) :
    WarnsExactly (VanGentVanDerWerf2014.calculate_nominal_diameter_Dn50 (fin H) T (fin ht) B (fin t) N rr
        rw (fin c) g) "van Gent & van der Werf (2014)"
      [⟨"Armour slope cot_alpha_armour_slope", fin c, 1.5, 4⟩,
       ⟨"Armour slope cot_alpha_armour_slope, closer to 1:4 more inaccuracies are found", fin c, 1.5, 2⟩,
       ⟨"Relative toe height tt/h", fin (t / (ht + t)), 0.1, 0.3⟩,
       ⟨"Relative water depth h/Hs", fin ((ht + t) / H), 1.2, 4.5⟩] := by
  unfold VanGentVanDerWerf2014.calculate_nominal_diameter_Dn50
  exact ret _ (vgvdw_check hH ht0 htt)

example := RangeStructures.C60_toe_vangent_size (H := 2) (t := 1) (ht := 5) (c := 2) (T := .fin 8)
  (B := .fin 4) (N := 0.5) (rr := .fin 2650) (rw := .fin 1025) (g := .fin 9.81) (by norm_num) (by norm_num)
  (by norm_num)

/-! ### Toe berms: Etemad-Shahidi et al. (2021)

Of the eleven published limits only one is ever looked at: the functions hand nothing but the wave
height and the depth above the toe to the check. -/

theorem etemad2021_check {H ht : ℝ} (hH : 0 < H) :
    WarnsExactly (EtemadShahidi2021.check_validity (Hs := fin H) (ht := fin ht))
      "Etemad-Shahidi et al. (2021)"
      [⟨"Relative water depth above the toe ht/Hs", fin (ht / H), 0.48, 2.58⟩] := by
  unfold EtemadShahidi2021.check_validity
  dsimp only
  refine skip (by simp) ?_
  rw [if_neg (by simp)]
  exact skip (by simp) <| check (by simp) (ratio_eval hH) <| skip (by simp) <| check_nan rfl <|
    skip (by simp) <| skip (by simp) <| skip (by simp) <| skip (by simp) <| skip_last (by simp)

theorem C60_toe_etemad_damage_partial {H ht : ℝ} (T h B m D rr rw g c1 c2 c3 c4 c5 c6 c7 : PF)
    (hH : 0 < H) :
    WarnsExactly (EtemadShahidi2021.calculate_damage_Nod (fin H) T h (fin ht) B m D rr rw g c1 c2 c3 c4 c5
        c6 c7) "Etemad-Shahidi et al. (2021)"
      [⟨"Relative water depth above the toe ht/Hs", fin (ht / H), 0.48, 2.58⟩] := by
  unfold EtemadShahidi2021.calculate_damage_Nod
  exact ret _ (etemad2021_check hH)

theorem C60_toe_etemad_size_partial {H ht : ℝ} (T h B N m rr rw g c1 c2 c3 c4 c5 c6 c7 : PF)
    (hH : 0 < H) :
    WarnsExactly (EtemadShahidi2021.calculate_nominal_diameter_Dn50 (fin H) T h (fin ht) B N m rr rw g c1
        c2 c3 c4 c5 c6 c7) "Etemad-Shahidi et al. (2021)"
      [⟨"Relative water depth above the toe ht/Hs", fin (ht / H), 0.48, 2.58⟩] := by
  unfold EtemadShahidi2021.calculate_nominal_diameter_Dn50
  exact ret _ (etemad2021_check hH)

/-- a foreshore slope of 1:2 and a density of 4000 kg/m³ pass without a word -/
example : (EtemadShahidi2021.calculate_damage_Nod (fin 2) (fin 8) (fin 5) (fin 3) (fin 3) (fin 0.5)
    (fin 1) (fin 4000)).warns = [] := by
  refine (C60_toe_etemad_damage_partial (H := 2) (ht := 3) (fin 8) (fin 5) (fin 3) (fin 0.5) (fin 1)
    (fin 4000) 1025.0 9.81 1.2 11.2 (7.0 / 4.0) (1.0 / 6.0) (2.0 / 5.0) (-1.0 / 10.0) 3.7
    (by norm_num)).silent ?_
  intro l hl
  simp only [List.mem_singleton] at hl
  subst hl
  unfold Limit.Violated
  simp only [sci_eq, lt_fin]
  norm_num

/-! ### Toe berms: Takahashi et al. (1990) -/

theorem C60_takahashi {B r : ℝ} (disper : PF → PF → PF → PF) (H T h b g : PF)
    (hres : (Takahashi1990.calculate_stability_number_Ns disper H T h (fin B) b g).res = .ok (fin r)) :
    WarnsExactly (Takahashi1990.calculate_stability_number_Ns disper H T h (fin B) b g)
      "Takahashi et al (1990)"
      [⟨"Stability number Ns", fin r, 0, pinf⟩, ⟨"Toe width Bt", fin B, 0, pinf⟩] := by
  unfold Takahashi1990.calculate_stability_number_Ns at hres ⊢
  refine with_result (m := fun x => Takahashi1990.check_validity x (fin B))
    (by simp [Takahashi1990.check_validity]) ?_ hres
  unfold Takahashi1990.check_validity
  dsimp only
  exact check (by simp) rfl <| last (by simp) rfl

/-! ### Concrete armour units

(The Core-Loc mass and wave-height functions never call their own check, and the cube, Cubipod and
Tetrapod ones have none: they are modelled as plain functions.) -/

theorem C60_accropode_mass {c : ℝ} (H rw rr K a : PF) :
    WarnsExactly (Accropode.calculate_unit_mass_M H rw rr K (fin c) a) "Accropodes Hudson 1959"
      [⟨"Cotangent of the front-side slope of the structure", fin c, 1.33, 1.5⟩] := by
  unfold Accropode.calculate_unit_mass_M Accropode.check_validity_range
  exact ret _ (perm (both (last (by simp) rfl) fun _ => skip_formula (by simp)) (by simp))

theorem C60_accropode_height {c : ℝ} (M rw rr K a : PF) :
    WarnsExactly (Accropode.calculate_significant_wave_height_Hs M rw rr K (fin c) a)
      "Accropodes Hudson 1959"
      [⟨"Cotangent of the front-side slope of the structure", fin c, 1.33, 1.5⟩] := by
  unfold Accropode.calculate_significant_wave_height_Hs Accropode.check_validity_range
  exact ret _ (perm (both (last (by simp) rfl) fun _ => skip_formula (by simp)) (by simp))

theorem C60_accropode_KD {s : ℝ} :
    WarnsExactly (Accropode.calculate_KD_breaking_trunk_from_seabed_slope (fin s))
      "Accropode documentation" [⟨"Seabed slope in percentage", fin s, 0, 10⟩] := by
  unfold Accropode.calculate_KD_breaking_trunk_from_seabed_slope Accropode.check_validity_range
  exact ret _ (perm (both (skip_formula (by simp)) fun _ => last (by simp) rfl) (by simp))

theorem C60_accropode2_mass {c : ℝ} (H rw rr K a : PF) :
    WarnsExactly (Accropode2.calculate_unit_mass_M H rw rr K (fin c) a) "Accropode II Hudson 1959"
      [⟨"Cotangent of the front-side slope of the structure", fin c, 1.33, 1.5⟩] := by
  unfold Accropode2.calculate_unit_mass_M Accropode2.check_validity_range
  exact ret _ (perm (both (last (by simp) rfl) fun _ => skip_formula (by simp)) (by simp))

theorem C60_accropode2_height {c : ℝ} (M rw rr K a : PF) :
    WarnsExactly (Accropode2.calculate_significant_wave_height_Hs M rw rr K (fin c) a)
      "Accropode II Hudson 1959"
      [⟨"Cotangent of the front-side slope of the structure", fin c, 1.33, 1.5⟩] := by
  unfold Accropode2.calculate_significant_wave_height_Hs Accropode2.check_validity_range
  exact ret _ (perm (both (last (by simp) rfl) fun _ => skip_formula (by simp)) (by simp))

theorem C60_accropode2_KD {s : ℝ} :
    WarnsExactly (Accropode2.calculate_KD_breaking_trunk_from_seabed_slope (fin s))
      "Accropode II documentation" [⟨"Seabed slope in percentage", fin s, 0, 10⟩] := by
  unfold Accropode2.calculate_KD_breaking_trunk_from_seabed_slope Accropode2.check_validity_range
  exact ret _ (perm (both (skip_formula (by simp)) fun _ => last (by simp) rfl) (by simp))

theorem C60_core_loc_KD {s : ℝ} :
    WarnsExactly (CoreLoc.calculate_KD_breaking_trunk_from_seabed_slope (fin s))
      "Core Loc documentation" [⟨"Seabed slope in percentage", fin s, 0, 10⟩] := by
  unfold CoreLoc.calculate_KD_breaking_trunk_from_seabed_slope CoreLoc.check_validity_range
  exact ret _ (perm (both (skip_formula (by simp)) fun _ => last (by simp) rfl) (by simp))

theorem cubes_check {H T rr N c : ℝ} (hT : 0 < T) :
    WarnsExactly (CubesVdM.check_validity_range (fin H) (fin T) (fin rr) (fin N) (fin c))
      "Double layer cubes vander Meer 1988"
      [⟨"Significant wave height Hs", fin H, 0.01, 20⟩,
       ⟨"Number of waves N_waves", fin N, 0, 7500⟩,
       ⟨"Wave period Tm", fin T, 0.5, 30⟩,
       ⟨"Armour density rho_armour", fin rr, 2000, 3100⟩,
       ⟨"Cotangent of outer structure slope cot_alpha", fin c, 1.5, 1.5⟩,
       ⟨"Wave steepness using Tm and Hs", fin (steepness H T), 0.005, 0.07⟩] := by
  unfold CubesVdM.check_validity_range
  dsimp only
  exact check (by simp) rfl <| check (by simp) rfl <| check (by simp) rfl <| check (by simp) rfl <|
    check (by simp) rfl <| last (by simp) (steep_eval hT)

theorem C60_cubes_size {H T rr N c : ℝ} (rw Nod : PF) (hT : 0 < T) :
    WarnsExactly (CubesVdM.calculate_nominal_diameter_Dn_vanDerMeer1988 (fin H) (fin T) rw (fin rr)
        (fin N) (fin c) Nod) "Double layer cubes vander Meer 1988"
      [⟨"Significant wave height Hs", fin H, 0.01, 20⟩,
       ⟨"Number of waves N_waves", fin N, 0, 7500⟩,
       ⟨"Wave period Tm", fin T, 0.5, 30⟩,
       ⟨"Armour density rho_armour", fin rr, 2000, 3100⟩,
       ⟨"Cotangent of outer structure slope cot_alpha", fin c, 1.5, 1.5⟩,
       ⟨"Wave steepness using Tm and Hs", fin (steepness H T), 0.005, 0.07⟩] := by
  unfold CubesVdM.calculate_nominal_diameter_Dn_vanDerMeer1988
  exact ret (fun _ => _) (cubes_check hT)

example := RangeStructures.C60_cubes_size (H := 2) (T := 8) (rr := 2650) (N := 3000) (c := 2)
  (rw := .fin 1025) (Nod := .fin 0.5) (by norm_num)

/-- the period with which waves of height `H` have the steepness `s` -/
def periodOf (H s : ℝ) : ℝ := √(H / s / (9.81 / (2 * Real.pi)))

theorem period_eval {H s : ℝ} (hH : 0 < H) (hs : 0 < s) :
    npow (fin H / fin s / (9.81 / (2 * PF.pi))) 0.5 = fin (periodOf H s) := by
  have := Real.pi_pos
  unfold periodOf
  rw [Real.sqrt_eq_rpow]
  have e : (0.5 : PF) = fin (1 / 2) := by rw [sci_eq]; norm_num
  rw [e]
  pf_eval []

theorem period_pos {H s : ℝ} (hH : 0 < H) (hs : 0 < s) : 0 < periodOf H s := by
  have := Real.pi_pos
  unfold periodOf; positivity

theorem period_steep {H s : ℝ} (hH : 0 < H) (hs : 0 < s) : steepness H (periodOf H s) = s := by
  have := Real.pi_pos
  unfold steepness periodOf
  have hg : (0:ℝ) < 9.81 := by norm_num
  generalize (9.81 : ℝ) = g at hg
  rw [Real.sq_sqrt (by positivity)]
  field_simp

/-- the functions that take the steepness itself check the period belonging to it -/
theorem C60_cubes_damage {H D s rr N c : ℝ} (rw : PF) (hH : 0 < H) (hs : 0 < s) :
    WarnsExactly (CubesVdM.calculate_damage_Nod_vanDerMeer1988 (fin H) (fin D) (fin s) rw (fin rr) (fin N)
        (fin c)) "Double layer cubes vander Meer 1988"
      [⟨"Significant wave height Hs", fin H, 0.01, 20⟩,
       ⟨"Number of waves N_waves", fin N, 0, 7500⟩,
       ⟨"Wave period Tm", fin (√(H / s / (9.81 / (2 * Real.pi)))), 0.5, 30⟩,
       ⟨"Armour density rho_armour", fin rr, 2000, 3100⟩,
       ⟨"Cotangent of outer structure slope cot_alpha", fin c, 1.5, 1.5⟩,
       ⟨"Wave steepness using Tm and Hs", fin s, 0.005, 0.07⟩] := by
  unfold CubesVdM.calculate_damage_Nod_vanDerMeer1988
  dsimp only
  rw [stab_Ns, bind_nil]
  dsimp only
  rw [period_eval hH hs]
  have := ret (fun _ : Unit => npow (((fin H / (calculate_buoyant_density_Delta (fin rr) rw * fin D)
    / npow (fin s) (-0.1)) - 1) / 6.7 * npow (fin N) 0.3) (1 / 0.4))
    (cubes_check (H := H) (rr := rr) (N := N) (c := c) (period_pos hH hs))
  rw [period_steep hH hs] at this
  exact this

example := RangeStructures.C60_cubes_damage (H := 2) (D := 1) (s := 1) (rr := 2650) (N := 3000) (c := 2)
  (rw := .fin 1025) (by norm_num) (by norm_num)

theorem C60_cubes_height {D s rr N c r : ℝ} (rw Nod : PF) (hs : 0 < s) (hpos : 0 < r)
    (hres : (CubesVdM.calculate_wave_height_Hs_vanDerMeer1988 (fin D) (fin s) rw (fin rr) (fin N) (fin c)
      Nod).res = .ok (fin r)) :
    WarnsExactly (CubesVdM.calculate_wave_height_Hs_vanDerMeer1988 (fin D) (fin s) rw (fin rr) (fin N)
        (fin c) Nod) "Double layer cubes vander Meer 1988"
      [⟨"Significant wave height Hs", fin r, 0.01, 20⟩,
       ⟨"Number of waves N_waves", fin N, 0, 7500⟩,
       ⟨"Wave period Tm", fin (√(r / s / (9.81 / (2 * Real.pi)))), 0.5, 30⟩,
       ⟨"Armour density rho_armour", fin rr, 2000, 3100⟩,
       ⟨"Cotangent of outer structure slope cot_alpha", fin c, 1.5, 1.5⟩,
       ⟨"Wave steepness using Tm and Hs", fin s, 0.005, 0.07⟩] := by
  unfold CubesVdM.calculate_wave_height_Hs_vanDerMeer1988 at hres ⊢
  dsimp only at hres ⊢
  rw [stab_Hs, bind_nil] at hres ⊢
  dsimp only at hres ⊢
  refine with_result (m := fun x => CubesVdM.check_validity_range x
    (npow (x / fin s / (9.81 / (2 * PF.pi))) 0.5) (fin rr) (fin N) (fin c))
    (by simp [CubesVdM.check_validity_range]) ?_ hres
  rw [period_eval hpos hs]
  have := cubes_check (H := r) (rr := rr) (N := N) (c := c) (period_pos hpos hs)
  rw [period_steep hpos hs] at this
  exact this

/-! ### Rear slope: Van Gent (2007)

The wave period is an argument of the functions but not handed to the check: the wave steepness is
never reported (and the check of the width of the crest element has no source either). -/

theorem rear_check {Rc Ff Fr D H z S N : ℝ} (hH : 0 < H) (hD : 0 < D) :
    WarnsExactly (VanGent2007Rear.check_validity_range (Rc := fin Rc) (Rc2_front := fin Ff)
        (Rc2_rear := fin Fr) (Dn50 := fin D) (Hs := fin H) (z1p := fin z) (S := fin S) (N_waves := fin N))
      "Van Gent (2007)"
      [⟨"N_waves", fin N, 1000, 10000⟩,
       ⟨"Rc/Hs", fin (Rc / H), 0.5, 1.9⟩,
       ⟨"Rc/Dn50", fin (Rc / D), 7.0, 22.0⟩,
       ⟨"(z1% - Rc)/Hs", fin ((z - Rc) / H), 0.2, 1.3⟩,
       ⟨"Rc2,front/Hs", fin (Ff / H), 0.0, 0.5⟩,
       ⟨"Stability number Ns", fin (Ns H D 2650 1025), 4.0, 12.0⟩,
       ⟨"Rc2,rear/Hs", fin (Fr / H), 0.0, 1.3⟩,
       ⟨"S", fin S, 2.0, 100.0⟩] := by
  unfold VanGent2007Rear.check_validity_range
  dsimp only
  refine skip (by simp) <| skip (by simp) <| check (by simp) rfl <| check (by simp) (ratio_eval hH) <|
    check (by simp) (ratio_eval hD) <| check (by simp) ?_ <| check (by simp) (ratio_eval hH) <|
    skip (by simp) <| skip (by simp) <| check (by simp) ?_ <| check (by simp) (ratio_eval hH) <|
    last (by simp) rfl
  · rw [sub_fin, div_fin hH.ne']
  · rw [ofNat_eq, ofNat_eq]; exact Ns_eval hD (by norm_num) (by norm_num)

theorem C60_rear_vangent_damage_partial {ca cp ga H T Rc Ff Fr N D z r : ℝ} (M rr : PF)
    (hH : 0 < H) (hD : 0 < D)
    (hz : VanGent2001.calculate_wave_runup_height_z1p (fin H) (fin T) (fin ga) (fin ca) = fin z)
    (hres : (VanGent2007Rear.calculate_damage_number_S (fin ca) (fin cp) (fin ga) (fin H) (fin T) (fin Rc)
      (fin Ff) (fin Fr) (fin N) (fin D) M rr).res = .ok (fin r)) :
    WarnsExactly (VanGent2007Rear.calculate_damage_number_S (fin ca) (fin cp) (fin ga) (fin H) (fin T)
        (fin Rc) (fin Ff) (fin Fr) (fin N) (fin D) M rr) "Van Gent (2007)"
      [⟨"N_waves", fin N, 1000, 10000⟩,
       ⟨"Rc/Hs", fin (Rc / H), 0.5, 1.9⟩,
       ⟨"Rc/Dn50", fin (Rc / D), 7.0, 22.0⟩,
       ⟨"(z1% - Rc)/Hs", fin ((z - Rc) / H), 0.2, 1.3⟩,
       ⟨"Rc2,front/Hs", fin (Ff / H), 0.0, 0.5⟩,
       ⟨"Stability number Ns", fin (Ns H D 2650 1025), 4.0, 12.0⟩,
       ⟨"Rc2,rear/Hs", fin (Fr / H), 0.0, 1.3⟩,
       ⟨"S", fin r, 2.0, 100.0⟩] := by
  unfold VanGent2007Rear.calculate_damage_number_S at hres ⊢
  rw [VdMProof.use_Dn50, hz] at hres ⊢
  rw [bind_nil] at hres ⊢
  dsimp only at hres ⊢
  exact with_result (m := fun x => VanGent2007Rear.check_validity_range (Rc := fin Rc)
    (Rc2_front := fin Ff) (Rc2_rear := fin Fr) (Dn50 := fin D) (Hs := fin H) (z1p := fin z) (S := x)
    (N_waves := fin N)) (by simp [VanGent2007Rear.check_validity_range]) (rear_check hH hD) hres

theorem C60_rear_vangent_size_partial {ca cp ga S H T Rc Ff Fr N z r : ℝ}
    (hH : 0 < H) (hpos : 0 < r)
    (hz : VanGent2001.calculate_wave_runup_height_z1p (fin H) (fin T) (fin ga) (fin ca) = fin z)
    (hres : (VanGent2007Rear.calculate_nominal_rock_diameter_Dn50 (fin ca) (fin cp) (fin ga) (fin S) (fin H)
      (fin T) (fin Rc) (fin Ff) (fin Fr) (fin N)).res = .ok (fin r)) :
    WarnsExactly (VanGent2007Rear.calculate_nominal_rock_diameter_Dn50 (fin ca) (fin cp) (fin ga) (fin S)
        (fin H) (fin T) (fin Rc) (fin Ff) (fin Fr) (fin N)) "Van Gent (2007)"
      [⟨"N_waves", fin N, 1000, 10000⟩,
       ⟨"Rc/Hs", fin (Rc / H), 0.5, 1.9⟩,
       ⟨"Rc/Dn50", fin (Rc / r), 7.0, 22.0⟩,
       ⟨"(z1% - Rc)/Hs", fin ((z - Rc) / H), 0.2, 1.3⟩,
       ⟨"Rc2,front/Hs", fin (Ff / H), 0.0, 0.5⟩,
       ⟨"Stability number Ns", fin (Ns H r 2650 1025), 4.0, 12.0⟩,
       ⟨"Rc2,rear/Hs", fin (Fr / H), 0.0, 1.3⟩,
       ⟨"S", fin S, 2.0, 100.0⟩] := by
  unfold VanGent2007Rear.calculate_nominal_rock_diameter_Dn50 at hres ⊢
  dsimp only at hres ⊢
  rw [hz] at hres ⊢
  exact with_result (m := fun x => VanGent2007Rear.check_validity_range (Rc := fin Rc)
    (Rc2_front := fin Ff) (Rc2_rear := fin Fr) (Dn50 := x) (Hs := fin H) (z1p := fin z) (S := fin S)
    (N_waves := fin N)) (by simp [VanGent2007Rear.check_validity_range]) (rear_check hH hpos) hres

/-- no call of any of the three functions ever mentions the wave steepness -/
theorem C60_rear_vangent_steepness_refuted :
    (∀ ca cp ga H T Rc Ff Fr N D M rr, NeverWarnsAbout (VanGent2007Rear.calculate_damage_number_S ca cp ga
      H T Rc Ff Fr N D M rr) "sm-1,0") ∧
    (∀ ca cp ga S H T Rc Ff Fr N, NeverWarnsAbout (VanGent2007Rear.calculate_nominal_rock_diameter_Dn50 ca
      cp ga S H T Rc Ff Fr N) "sm-1,0") := by
  have key : ∀ Rc Ff Fr D H z S N, NeverWarnsAbout (VanGent2007Rear.check_validity_range (Rc := Rc)
      (Rc2_front := Ff) (Rc2_rear := Fr) (Dn50 := D) (Hs := H) (z1p := z) (S := S) (N_waves := N))
      "sm-1,0" := by
    intro Rc Ff Fr D H z S N
    unfold VanGent2007Rear.check_validity_range
    dsimp only
    refine never_bind (never_missing (by simp)) fun _ => ?_
    iterate 10 refine never_bind (never_other (by decide)) fun _ => ?_
    exact never_other (by decide)
  constructor
  · intros; exact never_bind never_usage fun _ => never_bind (key _ _ _ _ _ _ _ _) fun _ => never_pure
  · intros; exact never_bind (key _ _ _ _ _ _ _ _) fun _ => never_pure

/-! ### Rear slope: Van Gent & Pozueta (2004) -/

theorem pozueta_check {Rc Rr cp gf D rr rw B H T z S N : ℝ} (hH : 0 < H) (hT : 0 < T) (hD : 0 < D)
    (hg : 0 < gf) (hw : 0 < rw) (hr : rw < rr) :
    WarnsExactly (VanGentPozueta2004.check_validity_range (fin Rc) (fin Rr) (fin cp) (fin gf) (fin D)
        (fin rr) (fin rw) (fin B) (fin H) (fin T) (fin z) (fin S) (fin N)) "Van Gent & Pozueta (2004)"
      [⟨"sm-1,0", fin (steepness H T), 0.019, 0.036⟩,
       ⟨"N_waves", fin N, 0, 4000⟩,
       ⟨"Rc/Hs", fin (Rc / H), 0.3, 2.0⟩,
       ⟨"Rc_rear/Hs", fin (Rr / H), 0.3, 6.0⟩,
       ⟨"B_c/Hs", fin (B / H), 1.3, 1.6⟩,
       ⟨"(z1% - Rc)/(gamma_f*Hs)", fin ((z - Rc) / (gf * H)), 0.0, 1.4⟩,
       ⟨"Hs/(Delta*Dn50_rear)", fin (Ns H D rr rw), 5.5, 8.5⟩,
       ⟨"cot phi", fin cp, 2.0, 4.0⟩,
       ⟨"S", fin S, 2.0, 50.0⟩] := by
  unfold VanGentPozueta2004.check_validity_range
  dsimp only
  refine check (by simp) (steep_eval hT) <| check (by simp) rfl <| check (by simp) (ratio_eval hH) <|
    check (by simp) (ratio_eval hH) <| check (by simp) (ratio_eval hH) <| check (by simp) ?_ <|
    check (by simp) (Ns_eval hD hw hr) <| check (by simp) rfl <| last (by simp) rfl
  rw [sub_fin, mul_fin, div_fin (by positivity)]

theorem C60_rear_pozueta_damage {ca cp gf gc H T Rc Rr B N D rr rw z r : ℝ} (M cs : PF)
    (hH : 0 < H) (hT : 0 < T) (hD : 0 < D) (hg : 0 < gf) (hw : 0 < rw) (hr : rw < rr)
    (hz : VanGent2001.calculate_wave_runup_height_z1p (fin H) (fin T) (fin gf) (fin ca) = fin z)
    (hres : (VanGentPozueta2004.calculate_damage_number_S (fin ca) (fin cp) (fin gf) (fin gc) (fin H)
      (fin T) (fin Rc) (fin Rr) (fin B) (fin N) (fin D) M (fin rr) (fin rw) cs).res = .ok (fin r)) :
    WarnsExactly (VanGentPozueta2004.calculate_damage_number_S (fin ca) (fin cp) (fin gf) (fin gc) (fin H)
        (fin T) (fin Rc) (fin Rr) (fin B) (fin N) (fin D) M (fin rr) (fin rw) cs)
      "Van Gent & Pozueta (2004)"
      [⟨"sm-1,0", fin (steepness H T), 0.019, 0.036⟩,
       ⟨"N_waves", fin N, 0, 4000⟩,
       ⟨"Rc/Hs", fin (Rc / H), 0.3, 2.0⟩,
       ⟨"Rc_rear/Hs", fin (Rr / H), 0.3, 6.0⟩,
       ⟨"B_c/Hs", fin (B / H), 1.3, 1.6⟩,
       ⟨"(z1% - Rc)/(gamma_f*Hs)", fin ((z - Rc) / (gf * H)), 0.0, 1.4⟩,
       ⟨"Hs/(Delta*Dn50_rear)", fin (Ns H D rr rw), 5.5, 8.5⟩,
       ⟨"cot phi", fin cp, 2.0, 4.0⟩,
       ⟨"S", fin r, 2.0, 50.0⟩] := by
  unfold VanGentPozueta2004.calculate_damage_number_S at hres ⊢
  rw [VdMProof.use_Dn50, hz] at hres ⊢
  rw [bind_nil] at hres ⊢
  dsimp only at hres ⊢
  exact with_result (m := fun x => VanGentPozueta2004.check_validity_range (fin Rc) (fin Rr) (fin cp)
    (fin gf) (fin D) (fin rr) (fin rw) (fin B) (fin H) (fin T) (fin z) x (fin N))
    (by simp [VanGentPozueta2004.check_validity_range]) (pozueta_check hH hT hD hg hw hr) hres

theorem C60_rear_pozueta_size {ca cp gf gc S H T Rc Rr B N rr rw z r : ℝ} (cs : PF)
    (hH : 0 < H) (hT : 0 < T) (hg : 0 < gf) (hw : 0 < rw) (hr : rw < rr) (hpos : 0 < r)
    (hz : VanGent2001.calculate_wave_runup_height_z1p (fin H) (fin T) (fin gf) (fin ca) = fin z)
    (hres : (VanGentPozueta2004.calculate_nominal_rock_diameter_Dn50 (fin ca) (fin cp) (fin gf) (fin gc)
      (fin S) (fin H) (fin T) (fin Rc) (fin Rr) (fin B) (fin rr) (fin N) (fin rw) cs).res =
        .ok (fin r)) :
    WarnsExactly (VanGentPozueta2004.calculate_nominal_rock_diameter_Dn50 (fin ca) (fin cp) (fin gf)
        (fin gc) (fin S) (fin H) (fin T) (fin Rc) (fin Rr) (fin B) (fin rr) (fin N) (fin rw) cs)
      "Van Gent & Pozueta (2004)"
      [⟨"sm-1,0", fin (steepness H T), 0.019, 0.036⟩,
       ⟨"N_waves", fin N, 0, 4000⟩,
       ⟨"Rc/Hs", fin (Rc / H), 0.3, 2.0⟩,
       ⟨"Rc_rear/Hs", fin (Rr / H), 0.3, 6.0⟩,
       ⟨"B_c/Hs", fin (B / H), 1.3, 1.6⟩,
       ⟨"(z1% - Rc)/(gamma_f*Hs)", fin ((z - Rc) / (gf * H)), 0.0, 1.4⟩,
       ⟨"Hs/(Delta*Dn50_rear)", fin (Ns H r rr rw), 5.5, 8.5⟩,
       ⟨"cot phi", fin cp, 2.0, 4.0⟩,
       ⟨"S", fin S, 2.0, 50.0⟩] := by
  unfold VanGentPozueta2004.calculate_nominal_rock_diameter_Dn50 at hres ⊢
  dsimp only at hres ⊢
  rw [hz] at hres ⊢
  exact with_result (m := fun x => VanGentPozueta2004.check_validity_range (fin Rc) (fin Rr) (fin cp)
    (fin gf) x (fin rr) (fin rw) (fin B) (fin H) (fin T) (fin z) (fin S) (fin N))
    (by simp [VanGentPozueta2004.check_validity_range]) (pozueta_check hH hT hpos hg hw hr) hres

/-! ### Crest wall: Van Gent & Van der Werf (2019) -/

theorem wall_check {H A R : ℝ} (hH : 0 < H) (hA : 0 < A) :
    WarnsExactly (CrestWall.check_validity (Hm0 := fin H) (Ac := fin A) (Rc := fin R))
      "Van Gent and Van der Werf 2019"
      [⟨"(Rc-Ac)/Hm0", fin ((R - A) / H), 0.26, 0.77⟩,
       ⟨"Rc/Ac", fin (R / A), 1.27, 1.55⟩,
       ⟨"Rc/Hm0", fin (R / H), 0.79, 2.18⟩] := by
  unfold CrestWall.check_validity
  dsimp only
  refine check (by simp) ?_ <| check (by simp) (ratio_eval hA) <| check (by simp) (ratio_eval hH) <|
    skip (by simp) <| skip_last (by simp)
  rw [sub_fin, div_fin hH.ne']

theorem wall_from_z2p {H A R : ℝ} (z W rw g c : PF) (hH : 0 < H) (hA : 0 < A) :
    WarnsExactly (CrestWall.calculate_FH2p_perpendicular_from_z2p (fin H) z (fin A) (fin R) W rw g c)
      "Van Gent and Van der Werf 2019"
      [⟨"(Rc-Ac)/Hm0", fin ((R - A) / H), 0.26, 0.77⟩,
       ⟨"Rc/Ac", fin (R / A), 1.27, 1.55⟩,
       ⟨"Rc/Hm0", fin (R / H), 0.79, 2.18⟩] := by
  unfold CrestWall.calculate_FH2p_perpendicular_from_z2p
  exact perm (both (wall_check hH hA) fun _ => ret _ (wall_check hH hA)) (fun l => by rw [List.mem_append, or_self])

theorem C60_wall_horizontal {H A R : ℝ} (T c W gb gf c0 c1 rw g cF : PF) (hH : 0 < H) (hA : 0 < A) :
    WarnsExactly (CrestWall.calculate_FH2p_perpendicular (fin H) T c (fin A) (fin R) W gb gf c0 c1 rw g
        cF) "Van Gent and Van der Werf 2019"
      [⟨"(Rc-Ac)/Hm0", fin ((R - A) / H), 0.26, 0.77⟩,
       ⟨"Rc/Ac", fin (R / A), 1.27, 1.55⟩,
       ⟨"Rc/Hm0", fin (R / H), 0.79, 2.18⟩] := by
  unfold CrestWall.calculate_FH2p_perpendicular
  exact perm (both (wall_from_z2p _ W rw g cF hH hA) fun _ => ret _ (wall_check hH hA))
    (fun l => by rw [List.mem_append, or_self])

example := RangeStructures.C60_wall_horizontal (H := 2) (A := 1) (R := 1) (T := .fin 8) (c := .fin 2)
  (W := .fin 500) (gb := .fin 1) (gf := .fin 0.5) (c0 := .fin 1.5) (c1 := .fin 1.5) (rw := .fin 1025)
  (g := .fin 9.81) (cF := .fin 1) (by norm_num) (by norm_num)

theorem C60_wall_horizontal_oblique {H A R b : ℝ} (T c W gb gf c0 c1 cF rw g : PF) (hH : 0 < H)
    (hA : 0 < A) :
    WarnsExactly (CrestWall.calculate_FH2p_oblique (fin H) T (fin b) c (fin A) (fin R) W gb gf c0 c1 cF rw
        g) "Van Gent and Van der Werf 2019"
      [⟨"(Rc-Ac)/Hm0", fin ((R - A) / H), 0.26, 0.77⟩,
       ⟨"Rc/Ac", fin (R / A), 1.27, 1.55⟩,
       ⟨"Rc/Hm0", fin (R / H), 0.79, 2.18⟩,
       ⟨"beta", fin b, 0.0, 75.0⟩] := by
  unfold CrestWall.calculate_FH2p_oblique
  have h2 : WarnsExactly (CrestWall.check_validity (Hm0 := fin H) (Ac := fin A) (Rc := fin R)
      (beta := fin b)) "Van Gent and Van der Werf 2019"
      [⟨"(Rc-Ac)/Hm0", fin ((R - A) / H), 0.26, 0.77⟩,
       ⟨"Rc/Ac", fin (R / A), 1.27, 1.55⟩,
       ⟨"Rc/Hm0", fin (R / H), 0.79, 2.18⟩,
       ⟨"beta", fin b, 0.0, 75.0⟩] := by
    unfold CrestWall.check_validity
    dsimp only
    refine check (by simp) ?_ <| check (by simp) (ratio_eval hA) <| check (by simp) (ratio_eval hH) <|
      skip (by simp) <| last (by simp) rfl
    rw [sub_fin, div_fin hH.ne']
  refine perm (both (wall_from_z2p _ W rw g cF hH hA) fun _ => ret _ h2) ?_
  intro l
  simp only [List.mem_append, List.mem_cons, List.not_mem_nil, or_false]
  tauto

example := RangeStructures.C60_wall_horizontal_oblique (H := 2) (A := 1) (R := 1) (b := 20) (T := .fin 8)
  (c := .fin 2) (W := .fin 500) (gb := .fin 1) (gf := .fin 0.5) (c0 := .fin 1.5) (c1 := .fin 1.5)
  (cF := .fin 1) (rw := .fin 1025) (g := .fin 9.81) (by norm_num) (by norm_num)

theorem C60_wall_vertical {H A F : ℝ} (T c B gb gf c0 c1 cF cb rw g : PF) (hH : 0 < H) :
    WarnsExactly (CrestWall.calculate_FV2p_perpendicular (fin H) T c (fin A) B (fin F) gb gf c0 c1 cF cb
        rw g) "Van Gent and Van der Werf 2019"
      [⟨"Fb/Hm0", fin (F / H), 0.0, 0.62⟩] := by
  unfold CrestWall.calculate_FV2p_perpendicular CrestWall.check_validity
  dsimp only
  exact ret _ <| skip (by simp) <| skip (by simp) <| skip (by simp) <|
    check (by simp) (ratio_eval hH) <| skip_last (by simp)

example := RangeStructures.C60_wall_vertical (H := 2) (A := 1) (F := 1) (T := .fin 8) (c := .fin 2)
  (B := .fin 4) (gb := .fin 1) (gf := .fin 0.5) (c0 := .fin 1.5) (c1 := .fin 1.5) (cF := .fin 1)
  (cb := .fin 1) (rw := .fin 1025) (g := .fin 9.81) (by norm_num)

theorem C60_wall_vertical_oblique {H A F b : ℝ} (T c B gb gf c0 c1 cF cb rw g : PF) (hH : 0 < H) :
    WarnsExactly (CrestWall.calculate_FV2p_oblique (fin H) T (fin b) c (fin A) B (fin F) gb gf c0 c1 cF cb
        rw g) "Van Gent and Van der Werf 2019"
      [⟨"Fb/Hm0", fin (F / H), 0.0, 0.62⟩, ⟨"beta", fin b, 0.0, 75.0⟩] := by
  unfold CrestWall.calculate_FV2p_oblique CrestWall.check_validity
  dsimp only
  exact ret _ <| skip (by simp) <| skip (by simp) <| skip (by simp) <|
    check (by simp) (ratio_eval hH) <| last (by simp) rfl

/-- waves at 80° are reported -/
example : (CrestWall.calculate_FV2p_oblique (fin 2) (fin 8) (fin 80) (fin 2) (fin 2) (fin 3)
    (fin 1)).warns ≠ [] := by
  intro e
  have := ((C60_wall_vertical_oblique (H := 2) (A := 2) (F := 1) (b := 80) (fin 8) (fin 2) (fin 3) 1.0
    0.45 1.45 5.0 0.4 0.5 1025.0 9.81 (by norm_num)).2
    (.range "beta" "Van Gent and Van der Werf 2019" (fin 80) 0.0 75.0)).mpr
    ⟨⟨"beta", fin 80, 0.0, 75.0⟩, by simp, by
      right; show (75.0 : PF) < fin 80; rw [sci_eq, lt_fin]; norm_num, rfl⟩
  rw [e] at this; cases this

end RangeStructures
end
