import Verif.Lemmas.Range
import Verif.Model.VanDerMeer
import Verif.Model.Toe
import Verif.Model.RearSlope
import Verif.Model.Transmission
import Verif.Model.OvertoppingMore
import Verif.Model.Goda1985
import Verif.Model.RockArmourOther
import Verif.Model.Overtopping
import Verif.Model.CrestWall

/-! # The validity checks called directly (C79)

Several calculations hand only some of their arguments to the validity check (see the refuted claims of
C60).  The check functions are public; called with all arguments they report as published. -/

open Classical
open PF
open CorePhysics CoreUtility RangeProof Textbook
noncomputable section

namespace RangeChecks

/-- C79: Van der Meer (1988), including the steepness that the calculations never hand over -/
theorem C79_vandermeer1988 {H H2 T N c P rr : ℝ} (hH : 0 < H) (hT : 0 < T) :
    WarnsExactly (VdM1988.check_validity_range (fin H) (fin H2) (fin T) (fin N) (fin c) (fin P) (fin rr))
      "Van der Meer (1988)"
      [⟨"Notional permeability P", fin P, 0.1, 0.6⟩,
       ⟨"Cotangent of outer structure slope cot_alpha", fin c, 1.1, 7.0⟩,
       ⟨"Wave steepness s0p", fin (steepness H T), 0.005, 0.06⟩,
       ⟨"Number of waves N_waves", fin N, 0, 7500⟩,
       ⟨"Ratio H2%/Hs", fin (H2 / H), 1.10, 1.40⟩,
       ⟨"Density of armour layer rock rho_armour", fin rr, 2000, 3100⟩] := by
  unfold VdM1988.check_validity_range
  dsimp only
  exact check (by simp) rfl <| check (by simp) rfl <| check (by simp) (steep_eval hT) <|
    check (by simp) rfl <| check (by simp) (ratio_eval hH) <| last (by simp) rfl

/-- C79: modified Van der Meer, with any water density -/
theorem C79_modified {H H2 T N c P D rr rw : ℝ} (hH : 0 < H) (hT : 0 < T) (hc : 0 < c) (hD : 0 < D)
    (hw : 0 < rw) (hr : rw < rr) :
    WarnsExactly (VdMModified.check_validity_range (fin H) (fin H2) (fin T) (fin N) (fin c) (fin P) (fin D)
      (fin rr) (fin rw)) "Modified Van der Meer (Van Gent et al., 2003)"
      [⟨"Notional permeability P", fin P, 0.1, 0.6⟩,
       ⟨"Stability number Ns", fin (Ns H D rr rw), 0.5, 4.5⟩,
       ⟨"Iribarren number ksi_m-1,0", fin (iribarren H T c), 1.3, 15.0⟩,
       ⟨"Cotangent of outer structure slope cot_alpha", fin c, 2.0, 4.0⟩,
       ⟨"Number of waves N_waves", fin N, 0, 3000⟩,
       ⟨"Ratio H2%/Hs", fin (H2 / H), 1.20, 1.40⟩] := by
  unfold VdMModified.check_validity_range
  dsimp only
  exact check (by simp) rfl <| check (by simp) (Ns_eval hD hw hr) <|
    check (by simp) (irib_eval hH hT hc) <| check (by simp) rfl <| check (by simp) rfl <|
    last (by simp) (ratio_eval hH)

example := RangeChecks.C79_modified (H := 2) (H2 := 2.8) (T := 8) (N := 3000) (c := 2) (P := 0.4) (D := 1)
  (rr := 2650) (rw := 1025) (by norm_num) (by norm_num) (by norm_num) (by norm_num) (by norm_num)
  (by norm_num)

/-- C79: toe berms by Van der Meer (1998). Missing: the last criterion of the published list is
`Nod^-0.15 Ns`, with the stability number `Hs / (Delta Dn50)`; the check multiplies by `Dn50` -/
theorem C79_toe_vandermeer1998_partial {H ht h D N De : ℝ} (hh : 0 < h) (hD : 0 < D)
    (hDe : 0 < De) (hN : 0 < N) :
    WarnsExactly (VanDerMeer1998.check_validity (fin H) (fin ht) (fin h) (fin D) (fin N) (fin De))
      "van der Meer (1998)"
      [⟨"Relative toe height (h)", fin H, 0.01, 20⟩,
       ⟨"Relative toe height (Dn50)", fin (ht / h), 0.4, 0.9⟩,
       ⟨"Relative toe height (Dn50)", fin (ht / D), 3, 25⟩,
       ⟨"Nod vs Ns", fin (N ^ (-0.15 : ℝ) * (H / De * D)), 2, pinf⟩] := by
  unfold VanDerMeer1998.check_validity
  dsimp only
  refine check (by simp) rfl <| check (by simp) (ratio_eval hh) <| check (by simp) (ratio_eval hD) <|
    last (by simp) ?_
  pf_eval []

example := RangeChecks.C79_toe_vandermeer1998_partial (H := 2) (ht := 5) (h := 8) (D := 1) (N := 0.5)
  (De := 1) (by norm_num) (by norm_num) (by norm_num) (by norm_num)

/-- C79: rear slopes by Van Gent (2007) -/
theorem C79_rear_vangent {Rc Rf Rr Gc D B h H T z S N : ℝ} (hD : 0 < D) (hH : 0 < H) (hT : 0 < T) :
    WarnsExactly (VanGent2007Rear.check_validity_range (fin Rc) (fin Rf) (fin Rr) (fin Gc) (fin D) (fin B)
      (fin h) (fin H) (fin T) (fin z) (fin S) (fin N)) "Van Gent (2007)"
      [⟨"sm-1,0", fin (steepness H T), 0.023, 0.054⟩,
       ⟨"h/Hs", fin (h / H), 3.3, 11.0⟩,
       ⟨"N_waves", fin N, 1000, 10000⟩,
       ⟨"Rc/Hs", fin (Rc / H), 0.5, 1.9⟩,
       ⟨"Rc/Dn50", fin (Rc / D), 7.0, 22.0⟩,
       ⟨"(z1% - Rc)/Hs", fin ((z - Rc) / H), 0.2, 1.3⟩,
       ⟨"Rc2,front/Hs", fin (Rf / H), 0.0, 0.5⟩,
       ⟨"B_element/Hs", fin (B / H), 0.5, 1.5⟩,
       ⟨"Gc/Hs", fin (Gc / H), 0.5, 1.1⟩,
       ⟨"Stability number Ns", fin (Ns H D 2650 1025), 4.0, 12.0⟩,
       ⟨"Rc2,rear/Hs", fin (Rr / H), 0.0, 1.3⟩,
       ⟨"S", fin S, 2.0, 100.0⟩] := by
  have hN : calculate_stability_number_Ns (fin H) (fin D) 2650 1025 = fin (Ns H D 2650 1025) := by
    rw [ofNat_eq, ofNat_eq]; exact Ns_eval hD (by norm_num) (by norm_num)
  unfold VanGent2007Rear.check_validity_range
  dsimp only
  refine check (by simp) (steep_eval hT) <| check (by simp) (ratio_eval hH) <| check (by simp) rfl <|
    check (by simp) (ratio_eval hH) <| check (by simp) (ratio_eval hD) <| check (by simp) ?_ <|
    check (by simp) (ratio_eval hH) <| check (by simp) (ratio_eval hH) <|
    check (by simp) (ratio_eval hH) <| check (by simp) hN <|
    check (by simp) (ratio_eval hH) <| last (by simp) rfl
  rw [sub_fin, div_fin hH.ne']

example := RangeChecks.C79_rear_vangent (Rc := 3) (Rf := 1) (Rr := 1) (Gc := 1) (D := 1) (B := 4) (h := 8)
  (H := 2) (T := 8) (z := 5) (S := 2) (N := 3000) (by norm_num) (by norm_num) (by norm_num)

/-- C79: transmission by Van Gent et al. (2023), whose calculation never checks anything; `L` is the wave
length that the dispersion solver finds for deep water -/
theorem C79_transmission {H T Rc B L : ℝ} (disper : PF → PF → PF → PF) (s : String) (hH : 0 < H)
    (hL : 0 < L)
    (hdisp : calculate_local_wavelength disper (fin T) 1e100 = fin L) :
    WarnsExactly (VanGent2023.check_validity_range disper (fin H) (fin T) (fin Rc) (fin B) (some s))
      "Van Gent et al. (2023)"
      [⟨"Dimensionless crest height Rc / Hm0", fin (Rc / H), -2.5,
          if s = "permeable" then 2.5 else 0.0⟩,
       ⟨"Dimensionless crest width B / Lm-1,0", fin (B / L), 0.017, 0.27⟩,
       ⟨"Dimensionless crest width B / Hm0", fin (B / H), 0.9, 10.6⟩] := by
  unfold VanGent2023.check_validity_range
  dsimp only
  have e : (if some s = some "permeable" then (2.5 : PF) else 0.0) =
      if s = "permeable" then 2.5 else 0.0 := by simp
  rw [e, hdisp]
  exact check (by simp) (ratio_eval hH) <| check (by simp) (ratio_eval hL) <| last (by simp)
    (ratio_eval hH)

/-- C79: set-up behind permeable structures by Van Gent (2024) -/
theorem C79_setup_permeable {H T Rc B hc D : ℝ} (hH : 0 < H) (hT : 0 < T) :
    WarnsExactly (VanGent2024.check_validity_range (fin H) (fin T) (fin Rc) (fin B) (fin hc) (fin D)
      "permeable") "Van Gent (2024)"
      [⟨"Wave steepness sm-1,0", fin (steepness H T), 0.008, 0.04⟩,
       ⟨"Dimensionless freeboard Rc/Hm0", fin (Rc / H), -0.8, 0.0⟩,
       ⟨"Dimensionless submerged structure height hc/Hm0", fin (hc / H), 1.5, 3.0⟩,
       ⟨"Dimensionless submerged structure crest width B/Hm0", fin (B / H), 0.94, 2.35⟩,
       ⟨"Dimensionless median stone diameter Dn50/Hm0", fin (D / H), 0.19, 0.47⟩] := by
  unfold VanGent2024.check_validity_range
  dsimp only
  rw [if_neg (by decide), if_pos rfl, if_neg (by decide), if_pos rfl, if_pos rfl]
  exact check (by simp) (steep_eval hT) <| check (by simp) (ratio_eval hH) <|
    check (by simp) (ratio_eval hH) <| check (by simp) (ratio_eval hH) <| last (by simp) (ratio_eval hH)

example := RangeChecks.C79_setup_permeable (H := 2) (T := 8) (Rc := 3) (B := 4) (hc := 1) (D := 1)
  (by norm_num) (by norm_num)

/-- C79: overtopping of caissons by Van Gent (2021) -/
theorem C79_caisson {H T b Rc q : ℝ} (hH : 0 < H) (hT : 0 < T) :
    WarnsExactly (VanGent2021Caisson.check_validity_range (fin H) (fin T) (fin b) (fin Rc) (fin q))
      "Van Gent (2021)"
      [⟨"Wave steepness sm-1,0", fin (steepness H T), 0.015, 0.041⟩,
       ⟨"Dimensionless freeboard Rc/Hm0", fin (Rc / H), 1.2, 2.9⟩,
       ⟨"Dimensionless overtopping discharge q", fin q, 0.0, 0.0012⟩,
       ⟨"Incident wave angle beta", fin b, 0.0, 75.0⟩] := by
  unfold VanGent2021Caisson.check_validity_range
  exact check (by simp) (steep_eval hT) <| check (by simp) (ratio_eval hH) <| check (by simp) rfl <|
    last (by simp) rfl

example := RangeChecks.C79_caisson (H := 2) (T := 8) (b := 20) (Rc := 3) (q := 0.01) (by norm_num)
  (by norm_num)

/-- C79: overtopping by Van Gent et al. (2025). Missing: the limits of the armour width `Gc` in front of
the crest wall, under whose name the check looks at the freeboard -/
theorem C79_vangent2025_partial {H Hd T b h c D Rc Ac Gc B db : ℝ} (hH : 0 < H) (hT : 0 < T) (hc : 0 < c)
    (hh : 0 < h) :
    WarnsExactly (VanGent2025.check_validity_range (fin H) (fin Hd) (fin T) (fin b) (fin h) (fin c) (fin D)
      (fin Rc) (fin Ac) (fin Gc) (fin B) (fin db)) "Van Gent et al. (2025)"
      [⟨"Cotangent alpha slope", fin c, 1.5, 8.0⟩,
       ⟨"Wave steepness sm-1,0", fin (steepness H T), 0.001, 0.042⟩,
       ⟨"Iribarren number ksi_m-1,0", fin (iribarren H T c), 0.05, 6.0⟩,
       ⟨"Relative water depth h / Hm0", fin (h / H), 0.6, 5.0⟩,
       ⟨"Ratio Hm0_deep / h", fin (Hd / h), 0.0, 1.0⟩,
       ⟨"Non-dimensional crest freeboard Rc / Hm0", fin (Rc / H), 0.6, 5.0⟩,
       ⟨"Non-dimensional stone diameter Dn50 / Hm0", fin (D / H), 0.12, 0.9⟩,
       ⟨"Non-dimensional protruding part of crest wall (Rc - Ac) / Hm0", fin ((Rc - Ac) / H), 0.0, 0.68⟩,
       ⟨"Non-dimensional armour width in front of crest wall Gc / Hm0", fin (Rc / H), 0.6, 5.0⟩,
       ⟨"Non-dimensional Berm width B / Hm0", fin (B / H), 0.6, 5.0⟩,
       ⟨"Non-dimensional Berm height db / Hm0", fin (db / H), -1.7, 0.5⟩,
       ⟨"Incident wave angle beta", fin b, 0.0, 75.0⟩] := by
  unfold VanGent2025.check_validity_range
  refine check (by simp) rfl <| check (by simp) (steep_eval hT) <| check (by simp) (irib_eval hH hT hc) <|
    check (by simp) (ratio_eval hH) <| check (by simp) (ratio_eval hh) <|
    check (by simp) (ratio_eval hH) <| check (by simp) (ratio_eval hH) <| check (by simp) ?_ <|
    check (by simp) (ratio_eval hH) <| check (by simp) (ratio_eval hH) <|
    check (by simp) (ratio_eval hH) <| last (by simp) rfl
  rw [sub_fin, div_fin hH.ne']

example := RangeChecks.C79_vangent2025_partial (H := 2) (Hd := 1) (T := 8) (b := 20) (h := 8) (c := 2)
  (D := 1) (Rc := 3) (Ac := 1) (Gc := 1) (B := 4) (db := 1) (by norm_num) (by norm_num) (by norm_num)
  (by norm_num)

/-- C79: the check of Van Gent et al. (2025) says the same whatever the width of the armour in front of
the crest wall -/
theorem C79_vangent2025_armour_width_refuted (H Hd T b h c D Rc Ac B db : PF) (G G' : ℝ) :
    VanGent2025.check_validity_range H Hd T b h c D Rc Ac (fin G) B db =
      VanGent2025.check_validity_range H Hd T b h c D Rc Ac (fin G') B db := by
  have key : ∀ x, check_if_given [H, fin x] "Non-dimensional armour width in front of crest wall Gc / Hm0"
      "Van Gent et al. (2025)" (Rc / H) 0.6 5.0 =
      check_if_given [H] "Non-dimensional armour width in front of crest wall Gc / Hm0"
      "Van Gent et al. (2025)" (Rc / H) 0.6 5.0 := by
    intro x
    apply PyM.ext'
    · rw [check_if_given_warns, check_if_given_warns]; simp
    · rw [check_if_given_res, check_if_given_res]
  unfold VanGent2025.check_validity_range
  rw [key, key]

/-- C79: overtopping by De Ridder et al. (2024), including the steepness of the short waves -/
theorem C79_deridder2024 {h H Hs Hl T Ts Rc c m D : ℝ} (hH : 0 < H) (hT : 0 < T) (hTs : 0 < Ts)
    (hc : 0 < c) :
    WarnsExactly (DeRidder2024.check_validity_range (fin h) (fin H) (fin Hs) (fin Hl) (fin T) (fin Ts)
      (fin Rc) (fin c) (fin m) (fin D)) "De Ridder et al. (2024)"
      [⟨"Wave steepness sm-1,0", fin (steepness H T), 0.001, 0.040⟩,
       ⟨"Short wave steepness sm-1,0_HF", fin (steepness Hs Ts), 0.004, 0.047⟩,
       ⟨"Iribarren number Ksi_m-1,0", fin (iribarren H T c), 0.05, 1.11⟩,
       ⟨"Foreshore slope m", fin m, 1.0 / 100.0, 1.0 / 20.0⟩,
       ⟨"Rc/Hm0", fin (Rc / H), 0.80, 3.72⟩,
       ⟨"Dn50/Hm0", fin (D / H), 0.12, 0.89⟩,
       ⟨"Hm0_LF/Hm0", fin (Hl / H), 0.10, 0.81⟩,
       ⟨"h/Hm0", fin (h / H), 0.57, 4.95⟩] := by
  unfold DeRidder2024.check_validity_range
  exact check (by simp) (steep_eval hT) <| check (by simp) (steep_eval hTs) <|
    check (by simp) (irib_eval hH hT hc) <| check (by simp) rfl <| check (by simp) (ratio_eval hH) <|
    check (by simp) (ratio_eval hH) <| check (by simp) (ratio_eval hH) <| last (by simp) (ratio_eval hH)

example := RangeChecks.C79_deridder2024 (h := 8) (H := 2) (Hs := 2) (Hl := 1) (T := 8) (Ts := 10) (Rc := 3)
  (c := 2) (m := 0.02) (D := 1) (by norm_num) (by norm_num) (by norm_num) (by norm_num)

/-- C79: overtopping by De Ridder et al. (2026) -/
theorem C79_deridder2026 {h H Hs Hl T Ts Rc D th : ℝ} (hH : 0 < H) (hT : 0 < T) (hTs : 0 < Ts) :
    WarnsExactly (DeRidder2026.check_validity_range (fin h) (fin H) (fin Hs) (fin Hl) (fin T) (fin Ts)
      (fin Rc) (fin D) (fin th)) "De Ridder et al. (2026)"
      [⟨"Wave steepness sm-1,0", fin (steepness H T), 0.003, 0.041⟩,
       ⟨"Short wave steepness sm-1,0_HF", fin (steepness Hs Ts), 0.012, 0.049⟩,
       ⟨"Rc/Hm0", fin (Rc / H), 0.98, 1.94⟩,
       ⟨"Dn50/Hm0", fin (D / H), 0.18, 0.35⟩,
       ⟨"Hm0_LF/Hm0", fin (Hl / H), 0.15, 0.55⟩,
       ⟨"h/Hm0", fin (h / H), 1.41, 2.15⟩,
       ⟨"theta", fin th, 0.0, 56⟩] := by
  unfold DeRidder2026.check_validity_range
  exact check (by simp) (steep_eval hT) <| check (by simp) (steep_eval hTs) <|
    check (by simp) (ratio_eval hH) <|
    check (by simp) (ratio_eval hH) <| check (by simp) (ratio_eval hH) <|
    check (by simp) (ratio_eval hH) <| last (by simp) rfl

example := RangeChecks.C79_deridder2026 (h := 8) (H := 2) (Hs := 2) (Hl := 1) (T := 8) (Ts := 10) (Rc := 3)
  (D := 1) (th := 1) (by norm_num) (by norm_num) (by norm_num)

/-- C79: caisson breakwaters by Goda -/
theorem C79_goda {b c T t B h B1 : ℝ} (hB : 0 < B) :
    WarnsExactly (Goda1985.check_validity_range (fin b) (fin c) (fin T) (fin t) (fin B) (fin h) (fin B1))
      "Goda (2000)"
      [⟨"Angle of wave incidence", fin b, 0.0, 90.0⟩,
       ⟨"Seabed slope", fin c, 10.0, 100.0⟩,
       ⟨"Wave period", fin T, 0.0, 30.0⟩,
       ⟨"Centre of gravity inside of caisson", fin (t / B), 0.0, 1.0⟩,
       ⟨"Water depth at site", fin h, 0.0, pinf⟩,
       ⟨"Width of toe berm", fin B1, 0.0, pinf⟩,
       ⟨"Width of caisson upright section", fin B, 0.0, pinf⟩] := by
  unfold Goda1985.check_validity_range
  dsimp only
  exact check (by simp) rfl <| check (by simp) rfl <| check (by simp) rfl <|
    check (by simp) (ratio_eval hB) <| check (by simp) rfl <| check (by simp) rfl <| last (by simp) rfl

example := RangeChecks.C79_goda (b := 20) (c := 2) (T := 8) (t := 1) (B := 4) (h := 8) (B1 := 1)
  (by norm_num)

/-- C79: toe berms by Etemad-Shahidi et al. (2021): given both a wave height and a period the check does
not return, whatever the other arguments -/
theorem C79_etemad_toe_refuted (H T h ht B D m N c rr rw : PF) (hH : ¬ H.isnan) (hT : ¬ T.isnan) :
    (EtemadShahidi2021.check_validity H T h ht B D m N c rr rw).res = .error .typeError := by
  unfold EtemadShahidi2021.check_validity
  dsimp only
  rw [check_bind_res, if_pos ⟨hH, hT⟩]
  rfl

example := RangeChecks.C79_etemad_toe_refuted (H := .fin 2) (T := .fin 8) (h := .fin 8) (ht := .fin 5)
  (B := .fin 4) (D := .fin 1) (m := .fin 0.02) (N := 0.5) (c := .fin 2) (rr := .fin 2650) (rw := .fin 1025)
  (by norm_num) (by norm_num)

/-- C79: without a period it reports as published -/
theorem C79_etemad_toe_partial {H h ht B D m N c rr rw : ℝ} (hH : 0 < H) (hh : 0 < h) (hD : 0 < D)
    (hw : 0 < rw) (hr : rw < rr) :
    WarnsExactly (EtemadShahidi2021.check_validity (fin H) nan (fin h) (fin ht) (fin B) (fin D) (fin m)
      (fin N) (fin c) (fin rr) (fin rw)) "Etemad-Shahidi et al. (2021)"
      [⟨"Armour slope cot_alpha_armour_slope", fin c, 1.5, 2.0⟩,
       ⟨"Relative water depth above the toe ht/h", fin (ht / h), 0.39, 0.88⟩,
       ⟨"Relative water depth above the toe ht/Hs", fin (ht / H), 0.48, 2.58⟩,
       ⟨"Relative water depth above the toe ht/Dn50", fin (ht / D), 1.97, 23.40⟩,
       ⟨"Relative toe width Bt/Hs", fin (B / H), 0.17, 1.92⟩,
       ⟨"Relative water depth h/Hs", fin (h / H), 1.22, 3.0⟩,
       ⟨"Stability number Ns", fin (Ns H D rr rw), 1.58, 10.0⟩,
       ⟨"Buoyant density Delta", fin (Delta rr rw), 1.65, 1.75⟩,
       ⟨"Foreshore slope m", fin m, 0.02, 0.10⟩,
       ⟨"Damage parameter Nod", fin N, 0.5, 3.79⟩] := by
  unfold EtemadShahidi2021.check_validity
  dsimp only
  refine check (by simp) rfl ?_
  rw [if_neg (by simp)]
  exact check (by simp) (ratio_eval hh) <|
    check (by simp) (ratio_eval hH) <| check (by simp) (ratio_eval hD) <|
    check (by simp) (ratio_eval hH) <| check (by simp) (ratio_eval hH) <|
    check (by simp) (Ns_eval hD hw hr) <| check (by simp) (Delta_eval' hw hr) <| check (by simp) rfl <|
    last (by simp) rfl

example := RangeChecks.C79_etemad_toe_partial (H := 2) (h := 8) (ht := 5) (B := 4) (D := 1) (m := 0.02)
  (N := 0.5) (c := 2) (rr := 2650) (rw := 1025) (by norm_num) (by norm_num) (by norm_num) (by norm_num)
  (by norm_num)

/-- C79: toe berms of caissons by Takahashi et al. (1990) -/
theorem C79_takahashi {N B : ℝ} :
    WarnsExactly (Takahashi1990.check_validity (fin N) (fin B)) "Takahashi et al (1990)"
      [⟨"Stability number Ns", fin N, 0, pinf⟩, ⟨"Toe width Bt", fin B, 0, pinf⟩] := by
  unfold Takahashi1990.check_validity
  dsimp only
  exact check (by simp) rfl <| last (by simp) rfl

/-- C79: rock armour by Scaravaglione et al. (2025), with any water density -/
theorem C79_scaravaglione {H T N c P D Dc rr rw : ℝ} (hH : 0 < H) (hT : 0 < T) (hc : 0 < c) (hD : 0 < D)
    (hw : 0 < rw) (hr : rw < rr) :
    WarnsExactly (Scaravaglione2025.check_validity_range (fin H) (fin T) (fin N) (fin c) (fin P) (fin D)
      (fin Dc) (fin rr) (fin rw)) "Scaravaglione et al. (2025)"
      [⟨"Notional permeability P", fin P, 0.37, 0.55⟩,
       ⟨"Stability number Ns", fin (Ns H D rr rw), 1.47, 3.44⟩,
       ⟨"Wave steepness s_m-1,0", fin (steepness H T), 0.020, 0.049⟩,
       ⟨"Iribarren number ksi_m-1,0", fin (iribarren H T c), 1.3, 15.0⟩,
       ⟨"Cotangent of outer structure slope cot_alpha", fin c, 2.0, 2.0⟩,
       ⟨"Number of waves N_waves", fin N, 652, 4064⟩,
       ⟨"Ratio core to armour Dn50_core / Dn50", fin (Dc / D), 0.21, 0.71⟩] := by
  unfold Scaravaglione2025.check_validity_range
  dsimp only
  exact check (by simp) rfl <| check (by simp) (Ns_eval hD hw hr) <| check (by simp) (steep_eval hT) <|
    check (by simp) (irib_eval hH hT hc) <| check (by simp) rfl <| check (by simp) rfl <|
    last (by simp) (ratio_eval hD)

example := RangeChecks.C79_scaravaglione (H := 2) (T := 8) (N := 3000) (c := 2) (P := 0.4) (D := 1)
  (Dc := 0.3) (rr := 2650) (rw := 1025) (by norm_num) (by norm_num) (by norm_num) (by norm_num)
  (by norm_num) (by norm_num)

/-- C79: overtopping by TAW (2002) -/
theorem C79_overtopping_taw {H T b c cd cu gf gb gbeta gv : ℝ} (hH : 0 < H) (hT : 0 < T) (hc : 0 < c) :
    WarnsExactly (OvertoppingTaw2002.check_validity_range (fin H) (fin T) (fin b) (fin c) (fin cd) (fin cu)
      (fin gf) (fin gb) (fin gbeta) (fin gv)) "TAW (2002)"
      [⟨"Wave steepness sm-1,0", fin (steepness H T), 0.0, 0.07⟩,
       ⟨"Iribarren number ksi_m-1,0", fin (iribarren H T c), 0.0, 7.0⟩,
       ⟨"gamma_b * ksi_m-1,0", fin (gb * iribarren H T c), 0.5, 10.0⟩,
       ⟨"Cotangent alpha lower slope", fin cd, 1.0, 7.0⟩,
       ⟨"Cotangent alpha upper slope", fin cu, 1.0, 7.0⟩,
       ⟨"Incident wave angle beta", fin b, 0.0, 90.0⟩,
       ⟨"Influence factor berm gamma_b", fin gb, 0.4, 1.0⟩,
       ⟨"Influence factor roughness gamma_f", fin gf, 0.4, 1.0⟩,
       ⟨"Influence factor oblique waves gamma_beta", fin gbeta, 0.4, 1.0⟩,
       ⟨"Influence factor vertical wall gamma_v", fin gv, 0.4, 1.0⟩] := by
  unfold OvertoppingTaw2002.check_validity_range
  refine check (by simp) (steep_eval hT) <| check (by simp) (irib_eval hH hT hc) <| check (by simp) ?_ <|
    check (by simp) rfl <| check (by simp) rfl <| check (by simp) rfl <| check (by simp) rfl <|
    check (by simp) rfl <| check (by simp) rfl <| last (by simp) rfl
  rw [irib_eval hH hT hc, mul_fin]

example := RangeChecks.C79_overtopping_taw (H := 2) (T := 8) (b := 20) (c := 2) (cd := 1) (cu := 1)
  (gf := 0.5) (gb := 1) (gbeta := 1) (gv := 1) (by norm_num) (by norm_num) (by norm_num)

/-- C79: crest walls by Van Gent & Van der Werf (2019) -/
theorem C79_crest_wall {R A H F b : ℝ} (hA : 0 < A) (hH : 0 < H) :
    WarnsExactly (CrestWall.check_validity (fin R) (fin A) (fin H) (fin F) (fin b))
      "Van Gent and Van der Werf 2019"
      [⟨"(Rc-Ac)/Hm0", fin ((R - A) / H), 0.26, 0.77⟩,
       ⟨"Rc/Ac", fin (R / A), 1.27, 1.55⟩,
       ⟨"Rc/Hm0", fin (R / H), 0.79, 2.18⟩,
       ⟨"Fb/Hm0", fin (F / H), 0.0, 0.62⟩,
       ⟨"beta", fin b, 0.0, 75.0⟩] := by
  unfold CrestWall.check_validity
  dsimp only
  refine check (by simp) ?_ <| check (by simp) (ratio_eval hA) <| check (by simp) (ratio_eval hH) <|
    check (by simp) (ratio_eval hH) <| last (by simp) rfl
  rw [sub_fin, div_fin hH.ne']

/-- a wave of 2 m and 20 s is not steep enough for Van der Meer (1988): the check says so -/
example : (VdM1988.check_validity_range (fin 2) (fin 2.6) (fin 20) (fin 3000) (fin 3) (fin 0.4)
    (fin 2650)).warns ≠ [] := by
  have h := C79_vandermeer1988 (H := 2) (H2 := 2.6) (T := 20) (N := 3000) (c := 3) (P := 0.4)
    (rr := 2650) (by norm_num) (by norm_num)
  intro e
  have hs : steepness 2 20 < 0.005 := by
    have := Real.pi_le_four
    have := Real.pi_pos
    unfold steepness
    rw [div_lt_iff₀ (by positivity), mul_div_assoc', lt_div_iff₀ (by positivity)]
    norm_num at *
    linarith
  have := (h.2 (.range "Wave steepness s0p" "Van der Meer (1988)" (fin (steepness 2 20)) 0.005 0.06)).mpr
    ⟨⟨"Wave steepness s0p", fin (steepness 2 20), 0.005, 0.06⟩, by simp, by
      left; show fin (steepness 2 20) < (0.005 : PF); rw [sci_eq, lt_fin]; exact hs, rfl⟩
  rw [e] at this; cases this

/-- a cosine-free dispersion solver meets the hypothesis of `C79_transmission` -/
example : ∃ (disper : PF → PF → PF → PF) (L : ℝ), 0 < L ∧
    calculate_local_wavelength disper (fin 8) 1e100 = fin L := by
  refine ⟨fun _ _ _ => fin 0.05, 2 * Real.pi / 0.05, by positivity, ?_⟩
  unfold calculate_local_wavelength
  pf_eval []

end RangeChecks

end
