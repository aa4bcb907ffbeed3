import Verif.SpecScale
import Verif.Lemmas.Scale.CrestWall
import Verif.Lemmas.Scale.Goda1985

/-! # C82: a scale model

Lengths times `lam`, times by its square root, gravity and densities as they are. Results without a
dimension are the same, and the others follow with their own dimension. Equality of the whole outcome:
the warnings and errors are the same too. -/

open Classical
open PF
open CorePhysics CoreUtility ScaleProof
noncomputable section

theorem C82_crest_wall {lam : ℝ} (hl : 0 < lam) :
    (∀ (z2p Ac beta gamma_A : PF),
      CrestWall.calculate_influence_oblique_waves_force_gamma_F_beta (Scale.len lam z2p) (Scale.len lam Ac) beta gamma_A =
        CrestWall.calculate_influence_oblique_waves_force_gamma_F_beta z2p Ac beta gamma_A) ∧
    (∀ (z2p Ac beta gamma_A : PF),
      CrestWall.calculate_influence_oblique_waves_horizontal_force_gamma_FH_beta (Scale.len lam z2p) (Scale.len lam Ac) beta gamma_A =
        CrestWall.calculate_influence_oblique_waves_horizontal_force_gamma_FH_beta z2p Ac beta gamma_A) ∧
    (∀ (z2p Ac beta gamma_A : PF),
      CrestWall.calculate_influence_oblique_waves_vertical_force_gamma_FV_beta (Scale.len lam z2p) (Scale.len lam Ac) beta gamma_A =
        CrestWall.calculate_influence_oblique_waves_vertical_force_gamma_FV_beta z2p Ac beta gamma_A) ∧
    (∀ (Hm0 z2p Ac Rc Hwall rho_water g cFH : PF),
      CrestWall.calculate_FH2p_perpendicular_from_z2p (Scale.len lam Hm0) (Scale.len lam z2p) (Scale.len lam Ac) (Scale.len lam Rc) (Scale.len lam Hwall) rho_water g cFH =
        Scale.area lam <$> CrestWall.calculate_FH2p_perpendicular_from_z2p Hm0 z2p Ac Rc Hwall rho_water g cFH) ∧
    (∀ (Hm0 Tmm10 cot_alpha Ac Rc Hwall gamma_beta gamma_f c0 c1 rho_water g cFH : PF),
      CrestWall.calculate_FH2p_perpendicular (Scale.len lam Hm0) (Scale.time lam Tmm10) cot_alpha (Scale.len lam Ac) (Scale.len lam Rc) (Scale.len lam Hwall) gamma_beta gamma_f c0 c1 rho_water g cFH =
        Scale.area lam <$> CrestWall.calculate_FH2p_perpendicular Hm0 Tmm10 cot_alpha Ac Rc Hwall gamma_beta gamma_f c0 c1 rho_water g cFH) ∧
    (∀ (Hm0 Tmm10 beta cot_alpha Ac Rc Hwall gamma_beta gamma_f c0 c1 cFH rho_water g : PF),
      CrestWall.calculate_FH2p_oblique (Scale.len lam Hm0) (Scale.time lam Tmm10) beta cot_alpha (Scale.len lam Ac) (Scale.len lam Rc) (Scale.len lam Hwall) gamma_beta gamma_f c0 c1 cFH rho_water g =
        Scale.area lam <$> CrestWall.calculate_FH2p_oblique Hm0 Tmm10 beta cot_alpha Ac Rc Hwall gamma_beta gamma_f c0 c1 cFH rho_water g) ∧
    (∀ (z2p Ac Bwall Fb cFV cFb rho_water g : PF),
      CrestWall.calculate_FV2p_perpendicular_from_z2p (Scale.len lam z2p) (Scale.len lam Ac) (Scale.len lam Bwall) (Scale.len lam Fb) cFV cFb rho_water g =
        Scale.area lam (CrestWall.calculate_FV2p_perpendicular_from_z2p z2p Ac Bwall Fb cFV cFb rho_water g)) ∧
    (∀ (Hm0 Tmm10 cot_alpha Ac Bwall Fb gamma_beta gamma_f c0 c1 cFV cFb rho_water g : PF),
      CrestWall.calculate_FV2p_perpendicular (Scale.len lam Hm0) (Scale.time lam Tmm10) cot_alpha (Scale.len lam Ac) (Scale.len lam Bwall) (Scale.len lam Fb) gamma_beta gamma_f c0 c1 cFV cFb rho_water g =
        Scale.area lam <$> CrestWall.calculate_FV2p_perpendicular Hm0 Tmm10 cot_alpha Ac Bwall Fb gamma_beta gamma_f c0 c1 cFV cFb rho_water g) ∧
    (∀ (Hm0 Tmm10 beta cot_alpha Ac Bwall Fb gamma_beta gamma_f c0 c1 cFV cFb rho_water g : PF),
      CrestWall.calculate_FV2p_oblique (Scale.len lam Hm0) (Scale.time lam Tmm10) beta cot_alpha (Scale.len lam Ac) (Scale.len lam Bwall) (Scale.len lam Fb) gamma_beta gamma_f c0 c1 cFV cFb rho_water g =
        Scale.area lam <$> CrestWall.calculate_FV2p_oblique Hm0 Tmm10 beta cot_alpha Ac Bwall Fb gamma_beta gamma_f c0 c1 cFV cFb rho_water g) ∧
    (∀ (FH2p : PF),
      CrestWall.calculate_FH01p_perpendicular (Scale.area lam FH2p) =
        Scale.area lam (CrestWall.calculate_FH01p_perpendicular FH2p)) ∧
    (∀ (FV2p s0p : PF),
      CrestWall.calculate_FV01p_perpendicular (Scale.area lam FV2p) s0p =
        Scale.area lam (CrestWall.calculate_FV01p_perpendicular FV2p s0p)) := by
  simp only [len_eq hl, time_eq hl, vel_eq hl, area_eq hl, disch_eq hl, vol_eq hl]
  exact ⟨CrestWall_calculate_influence_oblique_waves_force_gamma_F_beta, CrestWall_calculate_influence_oblique_waves_horizontal_force_gamma_FH_beta, CrestWall_calculate_influence_oblique_waves_vertical_force_gamma_FV_beta, CrestWall_calculate_FH2p_perpendicular_from_z2p, CrestWall_calculate_FH2p_perpendicular, CrestWall_calculate_FH2p_oblique, CrestWall_calculate_FV2p_perpendicular_from_z2p, CrestWall_calculate_FV2p_perpendicular, CrestWall_calculate_FV2p_oblique, CrestWall_calculate_FH01p_perpendicular, CrestWall_calculate_FV01p_perpendicular⟩

/-- Pressures are heights of water; forces per metre go with the area, moments per metre with the
volume. -/
theorem C82_goda1985_loads {lam : ℝ} (hl : 0 < lam) {disper : PF → PF → PF → PF} (hd : Scale.Dispersion disper)
    (HD Hsi Tmax beta h_s d B1 cota_seabed rho_water hacc Rc Bup s0 g : PF) :
    Goda1985.calculate_pressures_and_forces disper (Scale.len lam HD) (Scale.len lam Hsi) (Scale.time lam Tmax) beta
        (Scale.len lam h_s) (Scale.len lam d) (Scale.len lam B1) cota_seabed rho_water (Scale.len lam hacc)
        (Scale.len lam Rc) (Scale.len lam Bup) s0 g =
      (fun r : Goda1985.Loads =>
        { r with
          FH := Scale.area lam r.FH, FU := Scale.area lam r.FU, MH := Scale.vol lam r.MH, MU := Scale.vol lam r.MU,
          p1 := Scale.len lam r.p1, p2 := Scale.len lam r.p2, p3 := Scale.len lam r.p3, p4 := Scale.len lam r.p4,
          pu := Scale.len lam r.pu, hstar_c := Scale.len lam r.hstar_c, h_5Hs := Scale.len lam r.h_5Hs,
          etastar := Scale.len lam r.etastar, L := Scale.len lam r.L }) <$>
        Goda1985.calculate_pressures_and_forces disper HD Hsi Tmax beta h_s d B1 cota_seabed rho_water hacc Rc Bup s0 g := by
  simp only [len_eq hl, time_eq hl, area_eq hl, vol_eq hl]
  exact goda_loads (hdw hl hd) ..

/-- The safety factors and the pressures on the rubble mound. -/
theorem C82_goda1985_safety {lam : ℝ} (hl : 0 < lam) :
    (∀ hacc Rc Bup rho_below rho_water rho_above g : PF,
      Goda1985.calculate_Wup (Scale.len lam hacc) (Scale.len lam Rc) (Scale.len lam Bup) rho_below rho_water rho_above g =
        Scale.area lam (Goda1985.calculate_Wup hacc Rc Bup rho_below rho_water rho_above g)) ∧
    (∀ FU FH Wup muf tup MH MU : PF,
      Goda1985.calculate_safety_factors (Scale.area lam FU) (Scale.area lam FH) (Scale.area lam Wup) muf
          (Scale.len lam tup) (Scale.vol lam MH) (Scale.vol lam MU) =
        Goda1985.calculate_safety_factors FU FH Wup muf tup MH MU) ∧
    (∀ Wup tup MH MU FU Bup : PF,
      Goda1985.calculate_bearing_pressures (Scale.area lam Wup) (Scale.len lam tup) (Scale.vol lam MH)
          (Scale.vol lam MU) (Scale.area lam FU) (Scale.len lam Bup) =
        (fun r : Goda1985.Bearing =>
          { pe := Scale.len lam r.pe, Me := Scale.vol lam r.Me, We := Scale.area lam r.We, te := Scale.len lam r.te })
          (Goda1985.calculate_bearing_pressures Wup tup MH MU FU Bup)) := by
  simp only [len_eq hl, time_eq hl, area_eq hl, vol_eq hl]
  exact ⟨Goda1985_calculate_Wup, Goda_factors, Goda_bearing⟩

/-- The whole design. Partial: results and errors only, since the warnings are given for absolute
quantities (a negative height, a wave period) and quote them. -/
theorem C82_goda1985_reactions_partial {lam : ℝ} (hl : 0 < lam) {disper : PF → PF → PF → PF}
    (hd : Scale.Dispersion disper)
    (HD Hsi Tmax beta h_s d B1 cota_seabed rho_water hacc Rc Bup ra rb s0 muf t g : PF) :
    (Goda1985.calculate_forces_and_reactions disper (Scale.len lam HD) (Scale.len lam Hsi) (Scale.time lam Tmax) beta
        (Scale.len lam h_s) (Scale.len lam d) (Scale.len lam B1) cota_seabed rho_water (Scale.len lam hacc)
        (Scale.len lam Rc) (Scale.len lam Bup) ra rb s0 muf t g).res =
      ((fun r : Goda1985.Reactions =>
        { r with
          loads := { r.loads with
            FH := Scale.area lam r.loads.FH, FU := Scale.area lam r.loads.FU, MH := Scale.vol lam r.loads.MH,
            MU := Scale.vol lam r.loads.MU, p1 := Scale.len lam r.loads.p1, p2 := Scale.len lam r.loads.p2,
            p3 := Scale.len lam r.loads.p3, p4 := Scale.len lam r.loads.p4, pu := Scale.len lam r.loads.pu,
            hstar_c := Scale.len lam r.loads.hstar_c, h_5Hs := Scale.len lam r.loads.h_5Hs,
            etastar := Scale.len lam r.loads.etastar, L := Scale.len lam r.loads.L },
          bearing := {
            pe := Scale.len lam r.bearing.pe, Me := Scale.vol lam r.bearing.Me, We := Scale.area lam r.bearing.We,
            te := Scale.len lam r.bearing.te },
          tup := Scale.len lam r.tup, Wup := Scale.area lam r.Wup }) <$>
        Goda1985.calculate_forces_and_reactions disper HD Hsi Tmax beta h_s d B1 cota_seabed rho_water hacc Rc Bup
          ra rb s0 muf t g).res := by
  simp only [len_eq hl, time_eq hl, area_eq hl, vol_eq hl]
  exact goda_reactions (hdw hl hd) ..

/-- a solver that follows the scale: waves on deep water, `k = ω² / g` -/
theorem deep_solver_scales : Scale.Dispersion (fun w _ g => w * w / g) := by
  intro lam hl w h g
  show Scale.times _ w * Scale.times _ w / g = _
  rw [inv_time_eq hl, inv_len_eq hl, sc_mul, mul_sc, sc_sc, sc_div]
  norm_num

/-- a caisson 10 m high in 8 m of water, at a scale of 1 to 40 -/
example : Goda1985.calculate_Wup (fin (8 / 40)) (fin (2 / 40)) (fin (16 / 40)) (fin 2100) 1025 (fin 2100) =
    Scale.area (1 / 40) (Goda1985.calculate_Wup (fin 8) (fin 2) (fin 16) (fin 2100) 1025 (fin 2100)) := by
  have h := (C82_goda1985_safety (lam := 1 / 40) (by norm_num)).1 (fin 8) (fin 2) (fin 16) (fin 2100) 1025 (fin 2100) 9.81
  simp only [Scale.len, Scale.times, mul_fin] at h
  norm_num at h ⊢
  exact h


end
