import Verif.Lemmas.Scale
import Verif.Model.Goda1985
/-! Dimensions of the quantities of `Verif/Model/Goda1985.lean`. -/

open Classical
open PF
open CorePhysics CoreUtility
noncomputable section

namespace ScaleProof

variable {l : {x : ℝ // 0 < x}}
set_option maxHeartbeats 1000000

theorem Goda1985_calculate_Wup (hacc Rc Bup rho_fill_below_SWL rho_water rho_fill_above_SWL g : PF) :
    Goda1985.calculate_Wup (sc l 1 hacc) (sc l 1 Rc) (sc l 1 Bup) rho_fill_below_SWL rho_water
        rho_fill_above_SWL g =
      sc l 2 (Goda1985.calculate_Wup hacc Rc Bup rho_fill_below_SWL rho_water rho_fill_above_SWL g) := by
  unfold Goda1985.calculate_Wup
  dims []

open Goda1985

def loadsOf (l : {x : ℝ // 0 < x}) (r : Loads) : Loads where
  FH := sc l 2 r.FH
  FU := sc l 2 r.FU
  MH := sc l 3 r.MH
  MU := sc l 3 r.MU
  p1 := sc l 1 r.p1
  p2 := sc l 1 r.p2
  p3 := sc l 1 r.p3
  p4 := sc l 1 r.p4
  hstar_c := sc l 1 r.hstar_c
  pu := sc l 1 r.pu
  h_5Hs := sc l 1 r.h_5Hs
  etastar := sc l 1 r.etastar
  L := sc l 1 r.L
  alpha_1 := r.alpha_1
  alpha_2 := r.alpha_2
  alpha_3 := r.alpha_3
  impulsive_breaking := r.impulsive_breaking

theorem impulsive (beta B1 L cota s0 Rc Hsi d h_s : PF) :
    check_impulsive_breaking beta (sc l 1 B1) (sc l 1 L) cota s0 (sc l 1 Rc) (sc l 1 Hsi) (sc l 1 d) (sc l 1 h_s) =
      check_impulsive_breaking beta B1 L cota s0 Rc Hsi d h_s := by
  unfold check_impulsive_breaking
  simp only [List.forall_mem_cons, sc_isnan]
  dims []

theorem goda_loads {disper : PF → PF → PF → PF}
    (hd : ∀ w h g, disper (sc l (-(1 / 2)) w) (sc l 1 h) g = sc l (-1) (disper w h g))
    (HD Hsi Tmax beta h_s d B1 cota_seabed rho_water hacc Rc Bup s0 g : PF) :
    calculate_pressures_and_forces disper (sc l 1 HD) (sc l 1 Hsi) (sc l (1 / 2) Tmax) beta (sc l 1 h_s) (sc l 1 d) (sc l 1 B1) cota_seabed rho_water (sc l 1 hacc) (sc l 1 Rc) (sc l 1 Bup) s0 g =
      loadsOf l <$> calculate_pressures_and_forces disper HD Hsi Tmax beta h_s d B1 cota_seabed rho_water hacc Rc Bup s0 g := by
  unfold calculate_pressures_and_forces
  rw [wavelength hd]
  simp only [impulsive]
  simp only [map_bind, map_pure, loadsOf]
  dims []

theorem Goda_factors (FU FH Wup muf tup MH MU : PF) :
    calculate_safety_factors (sc l 2 FU) (sc l 2 FH) (sc l 2 Wup) muf (sc l 1 tup) (sc l 3 MH) (sc l 3 MU) =
      calculate_safety_factors FU FH Wup muf tup MH MU := by
  unfold calculate_safety_factors
  dims []

def bearingOf (l : {x : ℝ // 0 < x}) (r : Bearing) : Bearing where
  pe := sc l 1 r.pe
  Me := sc l 3 r.Me
  We := sc l 2 r.We
  te := sc l 1 r.te

theorem Goda_bearing (Wup tup MH MU FU Bup : PF) :
    calculate_bearing_pressures (sc l 2 Wup) (sc l 1 tup) (sc l 3 MH) (sc l 3 MU) (sc l 2 FU) (sc l 1 Bup) =
      bearingOf l (calculate_bearing_pressures Wup tup MH MU FU Bup) := by
  unfold calculate_bearing_pressures bearingOf
  dims []

def reactionsOf (l : {x : ℝ // 0 < x}) (r : Reactions) : Reactions where
  loads := loadsOf l r.loads
  bearing := bearingOf l r.bearing
  tup := sc l 1 r.tup
  Wup := sc l 2 r.Wup
  SF_sliding := r.SF_sliding
  SF_overturning := r.SF_overturning
  is_valid := r.is_valid

theorem goda_reactions {disper : PF → PF → PF → PF}
    (hd : ∀ w h g, disper (sc l (-(1 / 2)) w) (sc l 1 h) g = sc l (-1) (disper w h g))
    (HD Hsi Tmax beta h_s d B1 cota_seabed rho_water hacc Rc Bup ra rb s0 muf t g : PF) :
    (calculate_forces_and_reactions disper (sc l 1 HD) (sc l 1 Hsi) (sc l (1 / 2) Tmax) beta (sc l 1 h_s) (sc l 1 d) (sc l 1 B1) cota_seabed rho_water (sc l 1 hacc) (sc l 1 Rc) (sc l 1 Bup) ra rb s0 muf t g).res =
      (reactionsOf l <$> calculate_forces_and_reactions disper HD Hsi Tmax beta h_s d B1 cota_seabed rho_water hacc Rc Bup ra rb s0 muf t g).res := by
  unfold calculate_forces_and_reactions check_validity_range
  rw [goda_loads hd, bind_map_left, map_bind, res_bind, res_bind]
  congr 1
  funext r
  simp only [loadsOf, Goda1985_calculate_Wup, mul_sc, Goda_factors, Goda_bearing, map_bind, map_pure, res_bind, res_check, ok_bind, reactionsOf]

end ScaleProof
end
