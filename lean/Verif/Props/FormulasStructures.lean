import Verif.Props.FormulasToe
import Verif.Props.Goda1985
import Verif.Props.CrestWall
import Verif.Props.Takahashi

/-!
# C78: the published formulas of caisson toes, caisson loads and crest walls
-/

open Classical
open PF
open CorePhysics CoreUtility
noncomputable section

/-! ## Takahashi et al. (1990), caisson toes -/

/-- C78: the stability number of a caisson toe.  `L` is the wavelength in the depth above the toe. -/
theorem C78_takahashi (disper : PF → PF → PF → PF) (H h B β g L : ℝ) (T : PF) (hH : 0 < H) (hh : 0 < h)
    (hL : 0 < L) (hw : calculate_local_wavelength disper T (fin h) (fin g) = fin L)
    (hk : 0 < Published.toeKappa (2 * Real.pi / L) h B (β * (Real.pi / 180))) :
    (Takahashi1990.calculate_stability_number_Ns disper (fin H) T (fin h) (fin B) (fin β) (fin g)).res =
      .ok (fin (Published.toeStability
        (Published.toeKappa (2 * Real.pi / L) h B (β * (Real.pi / 180))) (h / H))) := by
  rw [TakahashiProof.Ns_res]
  unfold Takahashi1990.ns_value
  have hs : Real.sinh (2 * (2 * Real.pi / L) * h) ≠ 0 :=
    (Real.sinh_pos_iff.mpr (by have := Real.pi_pos; positivity)).ne'
  have e3 : (1 / 3 : PF) = fin (1 / 3) := by pf_eval []
  have e1 : (1 : PF) = fin 1 := one_eq
  have e2 : (2 : PF) = fin 2 := ofNat_eq 2
  have n2 : ∀ x : ℝ, npow (fin x) (fin 2) = fin (x ^ 2) := npow_two
  have epi : PF.pi = fin Real.pi := rfl
  dsimp only
  rw [hw, e3, e1, e2, epi]
  simp only [sci_eq, deg2rad_fin, sinh_fin, sin_fin, cos_fin, mul_fin, div_fin hL.ne', div_fin hs]
  simp only [n2, mul_fin, max_fin]
  have ek : 2 * (2 * Real.pi / L) * h / Real.sinh (2 * (2 * Real.pi / L) * h) *
      ((0.45 * Real.sin (β * (Real.pi / 180)) ^ 2 *
          Real.cos (2 * Real.pi / L * B * Real.cos (β * (Real.pi / 180))) ^ 2) ⊔
        (Real.cos (β * (Real.pi / 180)) ^ 2 *
          Real.sin (2 * Real.pi / L * B * Real.cos (β * (Real.pi / 180))) ^ 2)) =
      Published.toeKappa (2 * Real.pi / L) h B (β * (Real.pi / 180)) := rfl
  rw [ek]
  generalize Published.toeKappa (2 * Real.pi / L) h B (β * (Real.pi / 180)) = κ at *
  have hp : 0 < κ ^ ((1 : ℝ) / 3) := Real.rpow_pos_of_pos hk _
  rw [npow_fin hk, sub_fin, n2, div_fin hp.ne', div_fin hp.ne', div_fin hH.ne']
  simp only [mul_fin, div_fin hH.ne', neg_fin, exp_fin, add_fin, max_fin]
  unfold Published.toeStability
  rw [mul_div_assoc]

/-! ## Goda (1985), caissons -/

namespace FormulaProof
open GodaProof
theorem goda_angle (β : ℝ) : cb β = Real.cos (Published.godaAngle β) := by
  unfold cb bu Published.godaAngle
  congr 2
  split_ifs with h
  · rw [max_eq_right (by linarith)]
  · rw [max_eq_left (by linarith [not_le.mp h])]

theorem goda_a1 (h L : ℝ) : A1 h L = Published.godaAlpha1 (2 * Real.pi / L) h := by
  unfold A1 Published.godaAlpha1
  have e : 2 * (2 * Real.pi / L) * h = 4 * Real.pi * h / L := by ring
  have e5 : (0.5 : ℝ) = 1 / 2 := by norm_num
  rw [e, e5]

theorem goda_a3 (hacc h L : ℝ) : A3 hacc h L = Published.godaAlpha3 (2 * Real.pi / L) h hacc := by
  unfold A3 Published.godaAlpha3
  have e : 2 * Real.pi / L * h = 2 * Real.pi * h / L := by ring
  rw [e]
end FormulaProof

section
open Goda1985 GodaProof FormulaProof
variable (disper : PF → PF → PF → PF) (T B1 sop : PF) (HD Hsi β h d cot ρ hacc Rc Bup g L : ℝ)
  (hHD : 0 < HD) (hHsi : 0 ≤ Hsi) (hh : 0 < h) (hd : 0 < d) (hcot : 0 < cot) (hρ : 0 < ρ) (hg : 0 < g)
  (hRc : 0 ≤ Rc) (hL : 0 < L) (hw : calculate_local_wavelength disper T (fin h) (fin g) = fin L)
include hHD hHsi hh hd hcot hρ hg hRc hL hw

/-- C78: run-up level, pressure coefficients and pressures of Goda (1985) -/
theorem C78_goda1985_pressures : ∃ l : Loads, (calculate_pressures_and_forces disper (fin HD) (fin Hsi) T
      (fin β) (fin h) (fin d) B1 (fin cot) (fin ρ) (fin hacc) (fin Rc) (fin Bup) sop (fin g)).res = .ok l ∧
    ∃ b k a1 a2 a3 p1 p2 p3 p4 pu e hb : ℝ,
      b = Published.godaAngle β ∧ k = 2 * Real.pi / L ∧ hb = h + 5 * Hsi / cot ∧
      l.h_5Hs = fin hb ∧ l.L = fin L ∧ l.etastar = fin e ∧ l.alpha_1 = fin a1 ∧ l.alpha_2 = fin a2 ∧
      l.alpha_3 = fin a3 ∧ l.p1 = fin p1 ∧ l.p2 = fin p2 ∧ l.p3 = fin p3 ∧ l.p4 = fin p4 ∧ l.pu = fin pu ∧
      e / HD = 0.75 * (1 + Real.cos b) ∧
      a1 = Published.godaAlpha1 k h ∧ a2 = Published.godaAlpha2 hb d HD ∧ a3 = Published.godaAlpha3 k h hacc ∧
      p1 / (ρ * g * HD) = Published.godaP1 b a1 a2 ∧ p2 = p1 / Real.cosh (k * h) ∧ p3 = a3 * p1 ∧
      pu / (ρ * g * HD) = Published.godaPu b a1 a3 ∧
      (Rc < e → p4 = p1 * (1 - Rc / e)) ∧ (e ≤ Rc → p4 = 0) := by
  obtain ⟨i, hi⟩ := loads_eval (disper := disper) (T := T) (HD := HD) (Hsi := Hsi) (β := β) (h := h)
    (d := d) (cot := cot) (ρ := ρ) (hacc := hacc) (Rc := Rc) (Bup := Bup) (g := g) (L := L)
    hHD hHsi hh hd hcot hRc hL hw B1 sop
  have e5 : (0.5 : ℝ) = 1 / 2 := by norm_num
  refine ⟨_, hi, Published.godaAngle β, 2 * Real.pi / L, _, _, _, _, _, _, _, _, _, h5 Hsi h cot, rfl, rfl,
    ?_, rfl, rfl, rfl, rfl, rfl, rfl, rfl, rfl, rfl, rfl, rfl, ?_, goda_a1 h L, rfl, goda_a3 hacc h L, ?_,
    ?_, rfl, ?_, fun h => ?_, fun h => ?_⟩
  · unfold h5; ring
  · rw [goda_angle]; unfold eta; field_simp
  · rw [goda_angle]; unfold P1 Published.godaP1; rw [e5]; field_simp
  · have e : 2 * Real.pi / L * h = 2 * Real.pi * h / L := by ring
    rw [e]
  · rw [goda_angle]; unfold PU Published.godaPu; rw [e5]; field_simp
  · unfold P4; rw [if_pos h]
  · unfold P4; rw [if_neg (not_lt.mpr h)]
end

/-- C78: weight of the caisson in still water and the safety factors against sliding and overturning -/
theorem C78_goda1985_safety (hacc Rc B rb rw ra g FU FH W mu t MH MU : ℝ) (hFH : FH ≠ 0) (hMH : MH ≠ 0) :
    Goda1985.calculate_Wup (fin hacc) (fin Rc) (fin B) (fin rb) (fin rw) (fin ra) (fin g) =
      fin (g * B * ((rb - rw) * hacc + ra * Rc)) ∧
    Goda1985.calculate_safety_factors (fin FU) (fin FH) (fin W) (fin mu) (fin t) (fin MH) (fin MU) =
      (fin (mu * (W - FU) / FH), fin ((W * t - MU) / MH)) := by
  constructor
  · unfold Goda1985.calculate_Wup
    simp only [sub_fin, mul_fin, add_fin]
    congr 1; ring
  · unfold Goda1985.calculate_safety_factors
    simp only [sub_fin, mul_fin, div_fin hFH, div_fin hMH]

/-! ## Van Gent and Van der Werf (2019), crest walls -/

section
open CrestWall CrestProof
variable (H T c Ac gb gf c0 c1 ρ g cF : ℝ) (Rc : PF) (hH : 0 < H) (hT : 0 < T) (hc : 0 < c)
  (hgb : 0 < gb) (hgf : 0 < gf) (h0 : 0 < c0) (h1 : 0 < c1) (hρ : 0 < ρ) (hg : 0 < g) (hcF : 0 < cF)
include hH hT hc hgb hgf h0 h1 hρ hg hcF

/-- C78: the 2% forces of perpendicular waves on a crest wall follow from the run-up level -/
theorem C78_crest_wall_perpendicular (Hwall Bwall Fb cFb : ℝ) (hW : 0 < Hwall) (hB : 0 < Bwall) (hA : 0 < Ac)
    (hFb : 0 ≤ Fb) (hcFb : 0 < cFb) : ∃ z : ℝ,
    Published.VanGentRunup c0 c1 (Textbook.iribarren H T c) (gf * gb) H z ∧
    (calculate_FH2p_perpendicular (fin H) (fin T) (fin c) (fin Ac) Rc (fin Hwall) (fin gb) (fin gf)
      (fin c0) (fin c1) (fin ρ) (fin g) (fin cF)).res =
        .ok (fin (Published.wallHorizontal cF ρ g Hwall z Ac)) ∧
    (calculate_FV2p_perpendicular (fin H) (fin T) (fin c) (fin Ac) (fin Bwall) (fin Fb) (fin gb)
      (fin gf) (fin c0) (fin c1) (fin cF) (fin cFb) (fin ρ) (fin g)).res =
        .ok (fin (Published.wallVertical cF cFb ρ g Bwall z Ac Fb)) := by
  obtain ⟨z, hz0, hz, hp⟩ := C78_vangent_runup H T c (gf * gb) c0 c1 hH hT hc (by positivity) h0 h1
  have hz' : VanGent2001.calculate_wave_runup_height_zXp (fin H) (fin T) (fin gf * fin gb) (fin c) (fin c0)
      (fin c1) = fin z := by
    rw [mul_fin]; exact Except.ok.inj hz
  refine ⟨z, hp, ?_, ?_⟩
  · rw [FH_perp H T c Ac Hwall gb gf c0 c1 ρ g cF Rc hH hT hc hgb hgf h0 h1 hρ hg hcF hW hz']
    unfold Published.wallHorizontal
    rw [max_comm, mul_assoc cF]
  · rw [FV_perp H T c Ac Bwall Fb gb gf c0 c1 ρ g cF cFb hH hT hc hgb hgf h0 h1 hρ hg hcF hcFb hB hA hFb hz']
    unfold Published.wallVertical
    rw [max_comm, mul_assoc cF]

/-- C78 (missing: run-up exactly at the level where the force vanishes, see C38): oblique waves; the
run-up is reduced by (cos² + 1)/2, which for forces above zero gives the formula with the reduced run-up -/
theorem C78_crest_wall_oblique_partial (Hwall Bwall Fb cFb β : ℝ) (hW : 0 < Hwall) (hB : 0 < Bwall)
    (hA : 0 < Ac) (hFb : 0 ≤ Fb) (hcFb : 0 < cFb) (hFA : Fb ≤ Ac) : ∃ z : ℝ,
    Published.VanGentRunup c0 c1 (Textbook.iribarren H T c) (gf * gb) H z ∧
    (Ac < Published.obliqueCos 0.5 β * z →
      (calculate_FH2p_oblique (fin H) (fin T) (fin β) (fin c) (fin Ac) Rc (fin Hwall) (fin gb) (fin gf)
        (fin c0) (fin c1) (fin cF) (fin ρ) (fin g)).res =
          .ok (fin (Published.wallHorizontal cF ρ g Hwall (Published.obliqueCos 0.5 β * z) Ac))) ∧
    (0.75 * Ac < Published.obliqueCos 0.5 β * z →
      (calculate_FV2p_oblique (fin H) (fin T) (fin β) (fin c) (fin Ac) (fin Bwall) (fin Fb) (fin gb)
        (fin gf) (fin c0) (fin c1) (fin cF) (fin cFb) (fin ρ) (fin g)).res =
          .ok (fin (Published.wallVertical cF cFb ρ g Bwall (Published.obliqueCos 0.5 β * z) Ac Fb))) := by
  obtain ⟨z, hz0, hz, hp⟩ := C78_vangent_runup H T c (gf * gb) c0 c1 hH hT hc (by positivity) h0 h1
  have hz' : VanGent2001.calculate_wave_runup_height_zXp (fin H) (fin T) (fin gf * fin gb) (fin c) (fin c0)
      (fin c1) = fin z := by
    rw [mul_fin]; exact Except.ok.inj hz
  have hkb : Published.obliqueCos 0.5 β = kb β := by
    unfold Published.obliqueCos kb
    have : (1 : ℝ) - 0.5 = 0.5 := by norm_num
    rw [this]
  have hle : kb β * z ≤ z := mul_le_of_le_one_left hz0.le (kb_le β)
  rw [hkb]
  refine ⟨z, hp, fun h => ?_, fun h => ?_⟩
  · have hne : 0 < z - 1 * Ac := by linarith
    rw [FH_obl H T β c Ac Hwall gb gf c0 c1 ρ g cF Rc hH hT hc hgb hgf h0 h1 hρ hg hcF hW hz', gF_eval hne.ne',
      mul_fin]
    unfold Published.wallHorizontal
    have a1 : 0 ≤ cF * ρ * g * Hwall * (z - Ac) := mul_nonneg (by positivity) (by linarith)
    have a2 : 0 ≤ cF * (ρ * g) * Hwall * (kb β * z - Ac) := mul_nonneg (by positivity) (by linarith)
    rw [max_eq_left a1, max_eq_right a2]
    congr 2
    have hn : z - Ac ≠ 0 := by linarith
    rw [one_mul]
    field_simp
  · have hne : 0 < z - 0.75 * Ac := by linarith
    rw [FV_obl H T β c Ac Bwall Fb gb gf c0 c1 ρ g cF cFb hH hT hc hgb hgf h0 h1 hρ hg hcF hcFb hB hA hFb hz',
      gF_eval hne.ne', mul_fin]
    unfold Published.wallVertical
    have hb : 0 ≤ 1 - (Fb / Ac) ^ cFb :=
      sub_nonneg.mpr (Real.rpow_le_one (by positivity) ((div_le_one hA).mpr hFA) hcFb.le)
    have a1 : 0 ≤ cF * ρ * g * Bwall * (z - 0.75 * Ac) * (1 - (Fb / Ac) ^ cFb) :=
      mul_nonneg (mul_nonneg (by positivity) hne.le) hb
    have a2 : 0 ≤ cF * (ρ * g) * Bwall * (kb β * z - 0.75 * Ac) * (1 - (Fb / Ac) ^ cFb) :=
      mul_nonneg (mul_nonneg (by positivity) (by linarith)) hb
    rw [max_eq_left a1, max_eq_right a2]
    congr 2
    generalize (0.75 : ℝ) = y at *
    generalize (Fb / Ac) ^ cFb = u
    field_simp
end

/-! ## Examples -/

-- a caisson toe under head-on waves of wave number 1 rad/m, berm a quarter of the angle period wide
example : (Takahashi1990.calculate_stability_number_Ns (fun _ _ _ => fin 1) (fin 2) (fin 8) (fin 3)
      (fin (Real.pi / 6)) (fin 0) (fin 9.81)).res =
    .ok (fin (Published.toeStability (Published.toeKappa 1 3 (Real.pi / 6) 0) (3 / 2))) := by
  have hπ := Real.pi_pos
  have hw : calculate_local_wavelength (fun _ _ _ => fin 1) (fin 8) (fin 3) (fin 9.81) =
      fin (2 * Real.pi) := by
    unfold calculate_local_wavelength
    pf_eval []
    field_simp
  have e1 : 2 * Real.pi / (2 * Real.pi) = 1 := by field_simp
  have e0 : (0 : ℝ) * (Real.pi / 180) = 0 := zero_mul _
  have h := C78_takahashi (fun _ _ _ => fin 1) 2 3 (Real.pi / 6) 0 9.81 (2 * Real.pi) (fin 8)
    (by norm_num) (by norm_num) (by positivity) hw
  rw [e1, e0] at h
  refine h ?_
  unfold Published.toeKappa
  have hs : 0 < Real.sinh (2 * 1 * 3) := Real.sinh_pos_iff.mpr (by norm_num)
  refine mul_pos (by positivity) (lt_max_of_lt_right ?_)
  rw [Real.cos_zero, one_mul, mul_one, Real.sin_pi_div_six]
  norm_num

-- 8 m draught, 4 m freeboard, 15 m wide; 1500 kN horizontal and 600 kN uplift per metre
example : Goda1985.calculate_Wup (fin 8) (fin 4) (fin 15) (fin 2300) (fin 1025) (fin 2300) (fin 10) =
      fin 2910000 ∧
    Goda1985.calculate_safety_factors (fin 600) (fin 1500) (fin 4000) (fin 0.6) (fin 7.5) (fin 12000)
      (fin 6000) = (fin 1.36, fin 2) := by
  have h := C78_goda1985_safety 8 4 15 2300 1025 2300 10 600 1500 4000 0.6 7.5 12000 6000 (by norm_num)
    (by norm_num)
  rw [h.1, h.2]
  norm_num

example : ∃ l : Goda1985.Loads, ∃ p1 pu : ℝ, (Goda1985.calculate_pressures_and_forces
      (fun _ _ _ => 2 * PF.pi / 100) (fin 6) (fin 3.5) 10 (fin 20) (fin 10) (fin 7) 3 (fin 50) (fin 1025)
      (fin 8) (fin 4) (fin 15) nan (fin 9.81)).res = .ok l ∧ l.p1 = fin p1 ∧ l.pu = fin pu ∧
    pu / (1025 * 9.81 * 6) = Published.godaPu (Published.godaAngle 20)
      (Published.godaAlpha1 (2 * Real.pi / 100) 10) (Published.godaAlpha3 (2 * Real.pi / 100) 10 8) := by
  have hw : calculate_local_wavelength (fun _ _ _ => 2 * PF.pi / 100) 10 (fin 10) (fin 9.81) =
      fin 100 := by
    unfold calculate_local_wavelength
    have := Real.pi_pos
    pf_eval []
    field_simp
  obtain ⟨l, hl, b, k, a1, a2, a3, p1, _, _, _, pu, _, _, hb, hk, -, -, -, -, -, -, -, h1, -, -, -, hu, -, e1,
    -, e3, -, -, -, eu, -⟩ := C78_goda1985_pressures (fun _ _ _ => 2 * PF.pi / 100) 10 3 nan 6 3.5 20 10 7
      50 1025 8 4 15 9.81 100 (by norm_num) (by norm_num) (by norm_num) (by norm_num) (by norm_num)
      (by norm_num) (by norm_num) (by norm_num) (by norm_num) hw
  subst hb hk
  exact ⟨l, p1, pu, hl, h1, hu, by rw [eu, e1, e3]⟩

-- head-on and 30° waves of 3 m on a wall whose armour crest is at still water plus 10 cm
example : ∃ z F : ℝ, Published.VanGentRunup 1.45 5 (Textbook.iribarren 3 9 2) (0.45 * 1) 3 z ∧
    (CrestWall.calculate_FH2p_perpendicular (fin 3) (fin 9) (fin 2) (fin 0.1) 5 (fin 2) (fin 1) (fin 0.45)
      (fin 1.45) (fin 5) (fin 1025) (fin 9.81) (fin 1)).res = .ok (fin F) ∧
    (0.1 < Published.obliqueCos 0.5 30 * z →
      (CrestWall.calculate_FH2p_oblique (fin 3) (fin 9) (fin 30) (fin 2) (fin 0.1) 5 (fin 2) (fin 1) (fin 0.45)
        (fin 1.45) (fin 5) (fin 1) (fin 1025) (fin 9.81)).res = .ok (fin
          (Published.wallHorizontal 1 1025 9.81 2 (Published.obliqueCos 0.5 30 * z) 0.1))) := by
  obtain ⟨z, h1, h2, -⟩ := C78_crest_wall_oblique_partial 3 9 2 0.1 1 0.45 1.45 5 1025 9.81 1 5
    (by norm_num) (by norm_num) (by norm_num) (by norm_num) (by norm_num) (by norm_num) (by norm_num)
    (by norm_num) (by norm_num) (by norm_num) 2 3 0.05 0.5 30 (by norm_num) (by norm_num) (by norm_num)
    (by norm_num) (by norm_num) (by norm_num)
  obtain ⟨_, -, h4, -⟩ := C78_crest_wall_perpendicular 3 9 2 0.1 1 0.45 1.45 5 1025 9.81 1 5
    (by norm_num) (by norm_num) (by norm_num) (by norm_num) (by norm_num) (by norm_num) (by norm_num)
    (by norm_num) (by norm_num) (by norm_num) 2 3 0.05 0.5 (by norm_num) (by norm_num) (by norm_num)
    (by norm_num) (by norm_num)
  exact ⟨z, _, h1, h4, h2⟩

end
