import Verif.Lemmas.Scale
import Verif.Model.OvertoppingMore
/-! Dimensions of the quantities of `Verif/Model/OvertoppingMore.lean`. -/

open Classical
open PF
open CorePhysics CoreUtility
noncomputable section

namespace ScaleProof

variable {l : {x : ℝ // 0 < x}}
set_option maxHeartbeats 1000000

theorem VanGent2021Caisson_check_validity_range (Hm0 Tmm10 beta Rc q_diml : PF) :
    VanGent2021Caisson.check_validity_range (sc l 1 Hm0) (sc l (1 / 2) Tmm10) beta (sc l 1 Rc) q_diml =
      VanGent2021Caisson.check_validity_range Hm0 Tmm10 beta Rc q_diml := by
  unfold VanGent2021Caisson.check_validity_range
  dims [steep, steep_nan, steep_nan', map_bind, map_pure, bind_map_left]

theorem VanGent2021Caisson_swell_coefficient (c_swell Hm0_swell : PF) (crossing_seas : Bool) :
    VanGent2021Caisson.swell_coefficient c_swell (sc l 1 Hm0_swell) crossing_seas =
      VanGent2021Caisson.swell_coefficient c_swell Hm0_swell crossing_seas := by
  unfold VanGent2021Caisson.swell_coefficient
  dims [map_bind, map_pure, bind_map_left]

theorem VanGent2021Caisson_calculate_dimensionless_overtopping_discharge_q (Hm0 Rc beta gamma_beta Hm0_swell c
    c_swell : PF) (short_crested_waves crossing_seas parapet : Bool) :
    VanGent2021Caisson.calculate_dimensionless_overtopping_discharge_q (sc l 1 Hm0) (sc l 1 Rc) beta
        gamma_beta (sc l 1 Hm0_swell) c c_swell short_crested_waves crossing_seas parapet =
      VanGent2021Caisson.calculate_dimensionless_overtopping_discharge_q Hm0 Rc beta gamma_beta Hm0_swell c
          c_swell short_crested_waves crossing_seas parapet := by
  unfold VanGent2021Caisson.calculate_dimensionless_overtopping_discharge_q
      VanGent2021Caisson.check_validity_range
  dims [steep, steep_nan, steep_nan', map_bind, map_pure, bind_map_left,
      VanGent2021Caisson_check_validity_range, VanGent2021Caisson_swell_coefficient]

theorem VanGent2021Caisson_calculate_overtopping_discharge_q (Hm0 Rc beta gamma_beta Hm0_swell c c_swell : PF)
    (short_crested_waves crossing_seas parapet : Bool) (g : PF) :
    VanGent2021Caisson.calculate_overtopping_discharge_q (sc l 1 Hm0) (sc l 1 Rc) beta gamma_beta (sc l 1
        Hm0_swell) c c_swell short_crested_waves crossing_seas parapet g =
      sc l (3 / 2) <$> VanGent2021Caisson.calculate_overtopping_discharge_q Hm0 Rc beta gamma_beta Hm0_swell c
          c_swell short_crested_waves crossing_seas parapet g := by
  unfold VanGent2021Caisson.calculate_overtopping_discharge_q
  dims [map_bind, map_pure, bind_map_left, VanGent2021Caisson_calculate_dimensionless_overtopping_discharge_q]

theorem VanGent2021Caisson_calculate_dimensionless_crest_freeboard (Hm0 q beta gamma_beta Hm0_swell c c_swell
    : PF) (short_crested_waves crossing_seas parapet : Bool) (g : PF) :
    VanGent2021Caisson.calculate_dimensionless_crest_freeboard (sc l 1 Hm0) (sc l (3 / 2) q) beta gamma_beta
        (sc l 1 Hm0_swell) c c_swell short_crested_waves crossing_seas parapet g =
      VanGent2021Caisson.calculate_dimensionless_crest_freeboard Hm0 q beta gamma_beta Hm0_swell c c_swell
          short_crested_waves crossing_seas parapet g := by
  unfold VanGent2021Caisson.calculate_dimensionless_crest_freeboard VanGent2021Caisson.check_validity_range
  dims [steep, steep_nan, steep_nan', map_bind, map_pure, bind_map_left,
      VanGent2021Caisson_check_validity_range, VanGent2021Caisson_swell_coefficient]

theorem VanGent2021Caisson_calculate_crest_freeboard_Rc (Hm0 q beta gamma_beta Hm0_swell c c_swell : PF)
    (short_crested_waves crossing_seas parapet : Bool) (g : PF) :
    VanGent2021Caisson.calculate_crest_freeboard_Rc (sc l 1 Hm0) (sc l (3 / 2) q) beta gamma_beta (sc l 1
        Hm0_swell) c c_swell short_crested_waves crossing_seas parapet g =
      sc l 1 <$> VanGent2021Caisson.calculate_crest_freeboard_Rc Hm0 q beta gamma_beta Hm0_swell c c_swell
          short_crested_waves crossing_seas parapet g := by
  unfold VanGent2021Caisson.calculate_crest_freeboard_Rc
  dims [map_bind, map_pure, bind_map_left, VanGent2021Caisson_calculate_dimensionless_crest_freeboard]

theorem VanGent2025_check_validity_range (Hm0 Hm0_deep Tmm10 beta h cot_alpha Dn50 Rc Ac Gc B_berm db : PF) :
    VanGent2025.check_validity_range (sc l 1 Hm0) (sc l 1 Hm0_deep) (sc l (1 / 2) Tmm10) beta (sc l 1 h)
        cot_alpha (sc l 1 Dn50) (sc l 1 Rc) (sc l 1 Ac) (sc l 1 Gc) (sc l 1 B_berm) (sc l 1 db) =
      VanGent2025.check_validity_range Hm0 Hm0_deep Tmm10 beta h cot_alpha Dn50 Rc Ac Gc B_berm db := by
  unfold VanGent2025.check_validity_range
  dims [steep, steep_nan, steep_nan', irib, irib_nan, irib_nan', map_bind, map_pure, bind_map_left]

theorem VanGent2025_q_diml_max_equation (Hm0 Hm0_swell ksi_mm10 cot_alpha Rc gamma_f gamma_b gamma_v
    gamma_beta c2 c3 : PF) :
    VanGent2025.q_diml_max_equation (sc l 1 Hm0) (sc l 1 Hm0_swell) ksi_mm10 cot_alpha (sc l 1 Rc) gamma_f
        gamma_b gamma_v gamma_beta c2 c3 =
      VanGent2025.q_diml_max_equation Hm0 Hm0_swell ksi_mm10 cot_alpha Rc gamma_f gamma_b gamma_v gamma_beta
          c2 c3 := by
  unfold VanGent2025.q_diml_max_equation
  dims []

theorem VanGent2025_calculate_influence_friction_gamma_f (Dn50 Hm0 smm10 c_f1 c_f2 smm10_lim : PF) :
    VanGent2025.calculate_influence_friction_gamma_f (sc l 1 Dn50) (sc l 1 Hm0) smm10 c_f1 c_f2 smm10_lim =
      VanGent2025.calculate_influence_friction_gamma_f Dn50 Hm0 smm10 c_f1 c_f2 smm10_lim := by
  unfold VanGent2025.calculate_influence_friction_gamma_f
  dims []

theorem VanGent2025_calculate_influence_berm_gamma_b (Hm0 smm10 Ac B_berm BL c_b1 c_b2 c_b3 c_b4 : PF) :
    VanGent2025.calculate_influence_berm_gamma_b (sc l 1 Hm0) smm10 (sc l 1 Ac) (sc l 1 B_berm) (sc l 1 BL)
        c_b1 c_b2 c_b3 c_b4 =
      VanGent2025.calculate_influence_berm_gamma_b Hm0 smm10 Ac B_berm BL c_b1 c_b2 c_b3 c_b4 := by
  unfold VanGent2025.calculate_influence_berm_gamma_b
  dims []

theorem VanGent2025_calculate_influence_crest_wall_gamma_v (cot_alpha Rc Ac c_v : PF) :
    VanGent2025.calculate_influence_crest_wall_gamma_v cot_alpha (sc l 1 Rc) (sc l 1 Ac) c_v =
      VanGent2025.calculate_influence_crest_wall_gamma_v cot_alpha Rc Ac c_v := by
  unfold VanGent2025.calculate_influence_crest_wall_gamma_v
  dims []

theorem VanGent2025_calculate_influence_wind_gamma_w (Rc Ac Hm0 q_diml c_w1 c_w2 : PF) :
    VanGent2025.calculate_influence_wind_gamma_w (sc l 1 Rc) (sc l 1 Ac) (sc l 1 Hm0) q_diml c_w1 c_w2 =
      VanGent2025.calculate_influence_wind_gamma_w Rc Ac Hm0 q_diml c_w1 c_w2 := by
  unfold VanGent2025.calculate_influence_wind_gamma_w
  dims []

theorem VanGent2025_friction_or_raise (Hm0 Tmm10 Dn50 gamma_f : PF) :
    VanGent2025.friction_or_raise (sc l 1 Hm0) (sc l (1 / 2) Tmm10) (sc l 1 Dn50) gamma_f =
      VanGent2025.friction_or_raise Hm0 Tmm10 Dn50 gamma_f := by
  unfold VanGent2025.friction_or_raise
  dims [steep, steep_nan, steep_nan', map_bind, map_pure, bind_map_left,
      VanGent2025_calculate_influence_friction_gamma_f]

theorem VanGent2025_Rc_diml_max_equation (Hm0 Hm0_swell q cot_alpha ksi_mm10 gamma_f gamma_b gamma_v
    gamma_beta c2 c3 g : PF) :
    VanGent2025.Rc_diml_max_equation (sc l 1 Hm0) (sc l 1 Hm0_swell) (sc l (3 / 2) q) cot_alpha ksi_mm10
        gamma_f gamma_b gamma_v gamma_beta c2 c3 g =
      VanGent2025.Rc_diml_max_equation Hm0 Hm0_swell q cot_alpha ksi_mm10 gamma_f gamma_b gamma_v gamma_beta
          c2 c3 g := by
  unfold VanGent2025.Rc_diml_max_equation
  dims []

theorem VanGent2025_Rc_diml_eqB1 (Hm0 Hm0_swell q_diml cot_alpha ksi_mm10 gamma_f gamma_b gamma_v gamma_beta :
    PF) :
    VanGent2025.Rc_diml_eqB1 (sc l 1 Hm0) (sc l 1 Hm0_swell) q_diml cot_alpha ksi_mm10 gamma_f gamma_b gamma_v
        gamma_beta =
      VanGent2025.Rc_diml_eqB1 Hm0 Hm0_swell q_diml cot_alpha ksi_mm10 gamma_f gamma_b gamma_v gamma_beta :=
          by
  unfold VanGent2025.Rc_diml_eqB1
  dims []

theorem DeRidder2024_check_validity_range (h Hm0 Hm0_HF Hm0_LF Tmm10 Tmm10_HF Rc cot_alpha m_foreshore_slope
    Dn50 : PF) :
    DeRidder2024.check_validity_range (sc l 1 h) (sc l 1 Hm0) (sc l 1 Hm0_HF) (sc l 1 Hm0_LF) (sc l (1 / 2)
        Tmm10) (sc l (1 / 2) Tmm10_HF) (sc l 1 Rc) cot_alpha m_foreshore_slope (sc l 1 Dn50) =
      DeRidder2024.check_validity_range h Hm0 Hm0_HF Hm0_LF Tmm10 Tmm10_HF Rc cot_alpha m_foreshore_slope Dn50
          := by
  unfold DeRidder2024.check_validity_range
  dims [steep, steep_nan, steep_nan', irib, irib_nan, irib_nan', map_bind, map_pure, bind_map_left]

theorem DeRidder2024_period_HF (Hm0 smm10_HF : PF) :
    DeRidder2024.period_HF (sc l 1 Hm0) smm10_HF =
      sc l (1 / 2) (DeRidder2024.period_HF Hm0 smm10_HF) := by
  unfold DeRidder2024.period_HF
  dims []

theorem DeRidder2024_calculate_dimensionless_crest_freeboard_discharge_q_eq24 (Hm0 smm10_HF gamma_f q g : PF)
    :
    DeRidder2024.calculate_dimensionless_crest_freeboard_discharge_q_eq24 (sc l 1 Hm0) smm10_HF gamma_f (sc l
        (3 / 2) q) g =
      DeRidder2024.calculate_dimensionless_crest_freeboard_discharge_q_eq24 Hm0 smm10_HF gamma_f q g := by
  unfold DeRidder2024.calculate_dimensionless_crest_freeboard_discharge_q_eq24
      DeRidder2024.check_validity_range
  dims [steep, steep_nan, steep_nan', irib, irib_nan, irib_nan', map_bind, map_pure, bind_map_left,
      DeRidder2024_check_validity_range, DeRidder2024_period_HF]

theorem DeRidder2024_calculate_crest_freeboard_discharge_q_eq24 (Hm0 smm10_HF gamma_f q _g : PF) :
    DeRidder2024.calculate_crest_freeboard_discharge_q_eq24 (sc l 1 Hm0) smm10_HF gamma_f (sc l (3 / 2) q) _g
        =
      sc l 1  <$> DeRidder2024.calculate_crest_freeboard_discharge_q_eq24 Hm0 smm10_HF gamma_f q _g := by
  unfold DeRidder2024.calculate_crest_freeboard_discharge_q_eq24
  dims [map_bind, map_pure, bind_map_left,
      DeRidder2024_calculate_dimensionless_crest_freeboard_discharge_q_eq24]

theorem DeRidder2024_calculate_crest_freeboard_discharge_q_eq26 (Hm0 smm10_HF Hm0_LF gamma_f q g : PF) :
    DeRidder2024.calculate_crest_freeboard_discharge_q_eq26 (sc l 1 Hm0) smm10_HF (sc l 1 Hm0_LF) gamma_f (sc
        l (3 / 2) q) g =
      sc l 1 <$> DeRidder2024.calculate_crest_freeboard_discharge_q_eq26 Hm0 smm10_HF Hm0_LF gamma_f q g := by
  unfold DeRidder2024.calculate_crest_freeboard_discharge_q_eq26 DeRidder2024.check_validity_range
  dims [steep, steep_nan, steep_nan', irib, irib_nan, irib_nan', map_bind, map_pure, bind_map_left,
      DeRidder2024_check_validity_range, DeRidder2024_period_HF]

theorem DeRidder2024_calculate_dimensionless_overtopping_discharge_eq24 (Hm0 smm10_HF gamma_f Rc : PF) :
    DeRidder2024.calculate_dimensionless_overtopping_discharge_eq24 (sc l 1 Hm0) smm10_HF gamma_f (sc l 1 Rc)
        =
      DeRidder2024.calculate_dimensionless_overtopping_discharge_eq24 Hm0 smm10_HF gamma_f Rc := by
  unfold DeRidder2024.calculate_dimensionless_overtopping_discharge_eq24 DeRidder2024.check_validity_range
  dims [steep, steep_nan, steep_nan', irib, irib_nan, irib_nan', map_bind, map_pure, bind_map_left,
      DeRidder2024_check_validity_range, DeRidder2024_period_HF]

theorem DeRidder2024_calculate_overtopping_discharge_q_eq24 (Hm0 smm10_HF gamma_f Rc g : PF) :
    DeRidder2024.calculate_overtopping_discharge_q_eq24 (sc l 1 Hm0) smm10_HF gamma_f (sc l 1 Rc) g =
      sc l (3 / 2)  <$> DeRidder2024.calculate_overtopping_discharge_q_eq24 Hm0 smm10_HF gamma_f Rc g := by
  unfold DeRidder2024.calculate_overtopping_discharge_q_eq24
  dims [map_bind, map_pure, bind_map_left, DeRidder2024_calculate_dimensionless_overtopping_discharge_eq24]

theorem DeRidder2024_calculate_dimensionless_overtopping_discharge_eq26 (Hm0 smm10_HF Hm0_LF gamma_f Rc : PF)
    :
    DeRidder2024.calculate_dimensionless_overtopping_discharge_eq26 (sc l 1 Hm0) smm10_HF (sc l 1 Hm0_LF)
        gamma_f (sc l 1 Rc) =
      DeRidder2024.calculate_dimensionless_overtopping_discharge_eq26 Hm0 smm10_HF Hm0_LF gamma_f Rc := by
  unfold DeRidder2024.calculate_dimensionless_overtopping_discharge_eq26 DeRidder2024.check_validity_range
  dims [steep, steep_nan, steep_nan', irib, irib_nan, irib_nan', map_bind, map_pure, bind_map_left,
      DeRidder2024_check_validity_range, DeRidder2024_period_HF]

theorem DeRidder2024_calculate_overtopping_discharge_q_eq26 (Hm0 smm10_HF Hm0_LF gamma_f Rc g : PF) :
    DeRidder2024.calculate_overtopping_discharge_q_eq26 (sc l 1 Hm0) smm10_HF (sc l 1 Hm0_LF) gamma_f (sc l 1
        Rc) g =
      sc l (3 / 2) <$> DeRidder2024.calculate_overtopping_discharge_q_eq26 Hm0 smm10_HF Hm0_LF gamma_f Rc g :=
          by
  unfold DeRidder2024.calculate_overtopping_discharge_q_eq26
  dims [map_bind, map_pure, bind_map_left, DeRidder2024_calculate_dimensionless_overtopping_discharge_eq26]

theorem DeRidder2026_check_validity_range (h Hm0 Hm0_HF Hm0_LF Tmm10 Tmm10_HF Rc Dn50 theta : PF) :
    DeRidder2026.check_validity_range (sc l 1 h) (sc l 1 Hm0) (sc l 1 Hm0_HF) (sc l 1 Hm0_LF) (sc l (1 / 2)
        Tmm10) (sc l (1 / 2) Tmm10_HF) (sc l 1 Rc) (sc l 1 Dn50) theta =
      DeRidder2026.check_validity_range h Hm0 Hm0_HF Hm0_LF Tmm10 Tmm10_HF Rc Dn50 theta := by
  unfold DeRidder2026.check_validity_range
  dims [steep, steep_nan, steep_nan', map_bind, map_pure, bind_map_left]

theorem DeRidder2026_calculate_dimensionless_crest_freeboard_discharge_q_eq28 (Hm0 smm10_HF gamma_f q g
    gamma_beta : PF) :
    DeRidder2026.calculate_dimensionless_crest_freeboard_discharge_q_eq28 (sc l 1 Hm0) smm10_HF gamma_f (sc l
        (3 / 2) q) g gamma_beta =
      DeRidder2026.calculate_dimensionless_crest_freeboard_discharge_q_eq28 Hm0 smm10_HF gamma_f q g
          gamma_beta := by
  unfold DeRidder2026.calculate_dimensionless_crest_freeboard_discharge_q_eq28
  dims []

theorem DeRidder2026_calculate_crest_freeboard_discharge_q_eq28 (Hm0 smm10_HF gamma_f q g theta : PF) :
    DeRidder2026.calculate_crest_freeboard_discharge_q_eq28 (sc l 1 Hm0) smm10_HF gamma_f (sc l (3 / 2) q) g
        theta =
      sc l 1  <$> DeRidder2026.calculate_crest_freeboard_discharge_q_eq28 Hm0 smm10_HF gamma_f q g theta := by
  unfold DeRidder2026.calculate_crest_freeboard_discharge_q_eq28
  dims [map_bind, map_pure, bind_map_left,
      DeRidder2026_calculate_dimensionless_crest_freeboard_discharge_q_eq28]

theorem DeRidder2026_calculate_crest_freeboard_discharge_q_eq32 (Hm0_HF smm10_HF Hm0_LF gamma_f q g theta :
    PF) :
    DeRidder2026.calculate_crest_freeboard_discharge_q_eq32 (sc l 1 Hm0_HF) smm10_HF (sc l 1 Hm0_LF) gamma_f
        (sc l (3 / 2) q) g theta =
      sc l 1 <$> DeRidder2026.calculate_crest_freeboard_discharge_q_eq32 Hm0_HF smm10_HF Hm0_LF gamma_f q g
          theta := by
  unfold DeRidder2026.calculate_crest_freeboard_discharge_q_eq32
  dims [map_bind, map_pure, bind_map_left]

theorem DeRidder2026_calculate_dimensionless_overtopping_discharge_eq28 (Hm0 smm10_HF gamma_f Rc theta : PF) :
    DeRidder2026.calculate_dimensionless_overtopping_discharge_eq28 (sc l 1 Hm0) smm10_HF gamma_f (sc l 1 Rc)
        theta =
      DeRidder2026.calculate_dimensionless_overtopping_discharge_eq28 Hm0 smm10_HF gamma_f Rc theta := by
  unfold DeRidder2026.calculate_dimensionless_overtopping_discharge_eq28 DeRidder2026.check_validity_range
  dims [steep, steep_nan, steep_nan', map_bind, map_pure, bind_map_left, DeRidder2024_period_HF,
      DeRidder2026_check_validity_range]

theorem DeRidder2026_calculate_overtopping_discharge_q_eq28 (Hm0 smm10_HF gamma_f Rc g theta : PF) :
    DeRidder2026.calculate_overtopping_discharge_q_eq28 (sc l 1 Hm0) smm10_HF gamma_f (sc l 1 Rc) g theta =
      sc l (3 / 2) <$> DeRidder2026.calculate_overtopping_discharge_q_eq28 Hm0 smm10_HF gamma_f Rc g theta :=
          by
  unfold DeRidder2026.calculate_overtopping_discharge_q_eq28
  dims [map_bind, map_pure, bind_map_left, DeRidder2026_calculate_dimensionless_overtopping_discharge_eq28]

theorem DeRidder2026_calculate_dimensionless_overtopping_discharge_eq32 (Hm0_HF smm10_HF Hm0_LF gamma_f Rc
    theta : PF) :
    DeRidder2026.calculate_dimensionless_overtopping_discharge_eq32 (sc l 1 Hm0_HF) smm10_HF (sc l 1 Hm0_LF)
        gamma_f (sc l 1 Rc) theta =
      DeRidder2026.calculate_dimensionless_overtopping_discharge_eq32 Hm0_HF smm10_HF Hm0_LF gamma_f Rc theta
          := by
  unfold DeRidder2026.calculate_dimensionless_overtopping_discharge_eq32 DeRidder2026.check_validity_range
  dims [steep, steep_nan, steep_nan', map_bind, map_pure, bind_map_left, DeRidder2024_period_HF,
      DeRidder2026_check_validity_range]

theorem DeRidder2026_calculate_overtopping_discharge_q_eq32 (Hm0_HF smm10_HF Hm0_LF gamma_f Rc g theta : PF) :
    DeRidder2026.calculate_overtopping_discharge_q_eq32 (sc l 1 Hm0_HF) smm10_HF (sc l 1 Hm0_LF) gamma_f (sc l
        1 Rc) g theta =
      sc l (3 / 2) <$> DeRidder2026.calculate_overtopping_discharge_q_eq32 Hm0_HF smm10_HF Hm0_LF gamma_f Rc g
          theta := by
  unfold DeRidder2026.calculate_overtopping_discharge_q_eq32
  dims [map_bind, map_pure, bind_map_left, DeRidder2026_calculate_dimensionless_overtopping_discharge_eq32]

theorem VanGent2025_gammas (Hm0 Tmm10 Ac B_berm db : PF) :
    VanGent2025.calculate_influence_berm_gamma_b (sc l 1 Hm0) (calculate_wave_steepness_s (sc l 1 Hm0) (sc l (1 / 2) Tmm10)) (sc l 1 Ac) (sc l 1 B_berm) (sc l 1 Ac - sc l 1 db) =
      VanGent2025.calculate_influence_berm_gamma_b Hm0 (calculate_wave_steepness_s Hm0 Tmm10) Ac B_berm (Ac - db) := by
  rw [steep, sc_sub, VanGent2025_calculate_influence_berm_gamma_b]

theorem VanGent2025_check (Hm0 Tmm10 beta cot_alpha Dn50 Rc Ac B_berm db : PF) :
    VanGent2025.check_validity_range (Hm0 := sc l 1 Hm0) (Tmm10 := sc l (1 / 2) Tmm10) (beta := beta) (cot_alpha := cot_alpha) (Dn50 := sc l 1 Dn50) (Rc := sc l 1 Rc) (Ac := sc l 1 Ac) (B_berm := sc l 1 B_berm) (db := sc l 1 db) =
      VanGent2025.check_validity_range (Hm0 := Hm0) (Tmm10 := Tmm10) (beta := beta) (cot_alpha := cot_alpha) (Dn50 := Dn50) (Rc := Rc) (Ac := Ac) (B_berm := B_berm) (db := db) := by
  have h := VanGent2025_check_validity_range (l := l) Hm0 nan Tmm10 beta nan cot_alpha Dn50 Rc Ac nan B_berm db
  simp only [sc_nan] at h
  exact h

theorem VanGent2025_calculate_dimensionless_overtopping_discharge_q (Hm0 Hm0_swell Tmm10 Rc Ac cot_alpha beta B_berm db Dn50 gamma_f gamma_b gamma_v gamma_beta : PF) (design_calculation include_influence_wind : Bool) :
    VanGent2025.calculate_dimensionless_overtopping_discharge_q (sc l 1 Hm0) (sc l 1 Hm0_swell) (sc l (1 / 2) Tmm10) (sc l 1 Rc) (sc l 1 Ac) cot_alpha beta (sc l 1 B_berm) (sc l 1 db) (sc l 1 Dn50) gamma_f gamma_b gamma_v gamma_beta design_calculation include_influence_wind =
      VanGent2025.calculate_dimensionless_overtopping_discharge_q Hm0 Hm0_swell Tmm10 Rc Ac cot_alpha beta B_berm db Dn50 gamma_f gamma_b gamma_v gamma_beta design_calculation include_influence_wind := by
  unfold VanGent2025.calculate_dimensionless_overtopping_discharge_q
  simp only [VanGent2025_gammas, VanGent2025_check, VanGent2025_friction_or_raise, VanGent2025_q_diml_max_equation, VanGent2025_calculate_influence_wind_gamma_w, irib]
  dims []

theorem VanGent2025_calculate_overtopping_discharge_q (Hm0 Hm0_swell Tmm10 Rc Ac cot_alpha beta B_berm db Dn50 gamma_f gamma_b gamma_v gamma_beta g : PF) (design_calculation include_influence_wind : Bool) :
    VanGent2025.calculate_overtopping_discharge_q (sc l 1 Hm0) (sc l 1 Hm0_swell) (sc l (1 / 2) Tmm10) (sc l 1 Rc) (sc l 1 Ac) cot_alpha beta (sc l 1 B_berm) (sc l 1 db) (sc l 1 Dn50) gamma_f gamma_b gamma_v gamma_beta g design_calculation include_influence_wind =
      (fun r => (sc l (3 / 2) r.1, r.2)) <$> VanGent2025.calculate_overtopping_discharge_q Hm0 Hm0_swell Tmm10 Rc Ac cot_alpha beta B_berm db Dn50 gamma_f gamma_b gamma_v gamma_beta g design_calculation include_influence_wind := by
  unfold VanGent2025.calculate_overtopping_discharge_q
  rw [VanGent2025_calculate_dimensionless_overtopping_discharge_q, map_bind]
  dims [map_pure]

theorem VanGent2025_calculate_dimensionless_crest_freeboard (Hm0 Hm0_swell Tmm10 q Ac cot_alpha beta B_berm db Dn50 gamma_f gamma_b gamma_v gamma_beta g : PF) (design_calculation include_influence_wind : Bool) (max_iter : ℕ) (tolerance : PF) :
    VanGent2025.calculate_dimensionless_crest_freeboard (sc l 1 Hm0) (sc l 1 Hm0_swell) (sc l (1 / 2) Tmm10) (sc l (3 / 2) q) (sc l 1 Ac) cot_alpha beta (sc l 1 B_berm) (sc l 1 db) (sc l 1 Dn50) gamma_f gamma_b gamma_v gamma_beta g design_calculation include_influence_wind max_iter tolerance =
      VanGent2025.calculate_dimensionless_crest_freeboard Hm0 Hm0_swell Tmm10 q Ac cot_alpha beta B_berm db Dn50 gamma_f gamma_b gamma_v gamma_beta g design_calculation include_influence_wind max_iter tolerance := by
  have hq : sc l (3 / 2) q / PF.sqrt (g * npow (sc l 1 Hm0) 3) = q / PF.sqrt (g * npow Hm0 3) := by dims []
  unfold VanGent2025.calculate_dimensionless_crest_freeboard
  simp only [hq, VanGent2025_gammas, VanGent2025_check, VanGent2025_friction_or_raise, VanGent2025_Rc_diml_max_equation, VanGent2025_Rc_diml_eqB1, mul_sc, VanGent2025_calculate_influence_wind_gamma_w, irib]

theorem VanGent2025_calculate_crest_freeboard_Rc (Hm0 Hm0_swell Tmm10 q Ac cot_alpha beta B_berm db Dn50 gamma_f gamma_b gamma_v gamma_beta : PF) (design_calculation include_influence_wind : Bool) :
    VanGent2025.calculate_crest_freeboard_Rc (sc l 1 Hm0) (sc l 1 Hm0_swell) (sc l (1 / 2) Tmm10) (sc l (3 / 2) q) (sc l 1 Ac) cot_alpha beta (sc l 1 B_berm) (sc l 1 db) (sc l 1 Dn50) gamma_f gamma_b gamma_v gamma_beta design_calculation include_influence_wind =
      (fun r => (sc l 1 r.1, r.2)) <$> VanGent2025.calculate_crest_freeboard_Rc Hm0 Hm0_swell Tmm10 q Ac cot_alpha beta B_berm db Dn50 gamma_f gamma_b gamma_v gamma_beta design_calculation include_influence_wind := by
  unfold VanGent2025.calculate_crest_freeboard_Rc
  rw [VanGent2025_calculate_dimensionless_crest_freeboard, map_bind]
  simp only [mul_sc, map_pure]

end ScaleProof
end
