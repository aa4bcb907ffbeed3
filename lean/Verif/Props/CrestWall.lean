import Verif.Lemmas.Runup
import Verif.Lemmas.Check
import Verif.Model.CrestWall

/-! # Crest wall loads, Van Gent & Van der Werf 2019 (C38, C72) -/

open Classical
open PF
open CorePhysics
open CrestWall
open VanGent2001 (calculate_wave_runup_height_zXp)
noncomputable section

namespace CrestProof

@[simp] theorem check_res (Rc Ac H Fb b : PF) : (check_validity Rc Ac H Fb b).res = .ok () := by
  unfold check_validity; simp

@[simp] theorem check_bind {α} (Rc Ac H Fb b : PF) (f : Unit → PyM α) :
    (check_validity Rc Ac H Fb b >>= f).res = (f ()).res := PyM.bind_res_of_ok (check_res ..) f

theorem two_sci : (2.0 : PF) = fin 2 := by rw [sci_eq]; norm_num
theorem one_sci' : (1.0 : PF) = fin 1 := by rw [sci_eq]; norm_num

/-- reduction factor of the run-up level for oblique waves -/
def kb (β : ℝ) : ℝ := 0.5 * Real.cos (β * (Real.pi / 180)) ^ 2 + 0.5

theorem kb_le (β : ℝ) : kb β ≤ 1 := by
  unfold kb
  have := Real.cos_sq_le_one (β * (Real.pi / 180))
  norm_num; linarith

theorem kb_ge (β : ℝ) : 1 / 2 ≤ kb β := by
  unfold kb
  have := sq_nonneg (Real.cos (β * (Real.pi / 180)))
  norm_num; linarith

theorem kb_eq (β : ℝ) : kb β = (1 + Real.cos (β * (Real.pi / 180)) ^ 2) / 2 := by
  unfold kb; norm_num; ring

theorem kb_zero : kb 0 = 1 := by rw [kb_eq]; norm_num

theorem gF_eval {z A β k : ℝ} (h : z - k * A ≠ 0) :
    calculate_influence_oblique_waves_force_gamma_F_beta (fin z) (fin A) (fin β) (fin k) =
      fin ((kb β * z - k * A) / (z - k * A)) := by
  unfold calculate_influence_oblique_waves_force_gamma_F_beta kb
  rw [two_sci]; pf_eval []

theorem gF_sing {z A β k : ℝ} (h : z - k * A = 0) (hz : 0 ≤ z) :
    calculate_influence_oblique_waves_force_gamma_F_beta (fin z) (fin A) (fin β) (fin k) * fin 0 =
      nan := by
  unfold calculate_influence_oblique_waves_force_gamma_F_beta
  rw [two_sci]; pf_eval []
  rw [h, div_zero_fin]
  unfold mulInf
  split_ifs
  · show mulInf 0 = nan; unfold mulInf; simp
  · show neg (mulInf 0) = nan; unfold mulInf; simp [neg]
  · rfl

/-- oblique over perpendicular force -/
theorem oblique_le {a z β : ℝ} (k : ℝ) (hz : 0 ≤ z) (hza : z ≠ a) (hk : 0 ≤ k) :
    (kb β * z - a) / (z - a) * (k * (z - a) ⊔ 0) ≤ k * (z - a) ⊔ 0 ∧
    (a ≤ kb β * z → 0 ≤ (kb β * z - a) / (z - a) * (k * (z - a) ⊔ 0)) ∧
    (0 < k → a < z → kb β * z < a → (kb β * z - a) / (z - a) * (k * (z - a) ⊔ 0) < 0) := by
  rcases lt_or_gt_of_ne hza with h | h
  · have : k * (z - a) ⊔ 0 = 0 := sup_eq_right.mpr (by nlinarith)
    rw [this]
    simp only [mul_zero, le_refl, implies_true, true_and]
    intro _ h2; linarith
  · have hd : 0 < z - a := sub_pos.mpr h
    have e : k * (z - a) ⊔ 0 = k * (z - a) := sup_eq_left.mpr (by positivity)
    rw [e]
    have e2 : (kb β * z - a) / (z - a) * (k * (z - a)) = k * (kb β * z - a) := by field_simp
    rw [e2]
    refine ⟨?_, fun h3 => mul_nonneg hk (by linarith), fun h4 _ h5 =>
      mul_neg_of_pos_of_neg h4 (by linarith)⟩
    have := mul_le_mul_of_nonneg_right (kb_le β) hz
    exact mul_le_mul_of_nonneg_left (by linarith) hk

end CrestProof
open CrestProof RunupProof

section
variable (H T β c Ac Hwall gb gf c0 c1 ρ g cF : ℝ) (Rc : PF) (hH : 0 < H) (hT : 0 < T) (hc : 0 < c)
  (hgb : 0 < gb) (hgf : 0 < gf) (h0 : 0 < c0) (h1 : 0 < c1) (hρ : 0 < ρ) (hg : 0 < g)
  (hcF : 0 < cF) (hW : 0 < Hwall)
include hH hT hc hgb hgf h0 h1 hρ hg hcF hW

namespace CrestProof

theorem FHz_eval (z : ℝ) : (calculate_FH2p_perpendicular_from_z2p (fin H) (fin z) (fin Ac) Rc
    (fin Hwall) (fin ρ) (fin g) (fin cF)).res = .ok (fin (cF * ρ * g * Hwall * (z - Ac) ⊔ 0)) := by
  unfold calculate_FH2p_perpendicular_from_z2p
  simp only [check_bind, PyM.pure_def]
  pf_eval []

theorem zc_eval : ∃ z : ℝ, 0 < z ∧ calculate_wave_runup_height_zXp (fin H) (fin T)
    (fin gf * fin gb) (fin c) (fin c0) (fin c1) = fin z := by
  have := rfxi_pos hT hc h0 h1 hH
  refine ⟨rf c0 c1 (VdMProof.xi H T c) * (gf * gb) * H, by positivity, ?_⟩
  rw [mul_fin, zX_eval (gam := gf * gb) hT hc h0 h1 hH]

theorem FH_perp {z : ℝ} (hz : calculate_wave_runup_height_zXp (fin H) (fin T) (fin gf * fin gb)
      (fin c) (fin c0) (fin c1) = fin z) :
    (calculate_FH2p_perpendicular (fin H) (fin T) (fin c) (fin Ac) Rc (fin Hwall) (fin gb) (fin gf)
      (fin c0) (fin c1) (fin ρ) (fin g) (fin cF)).res =
      .ok (fin (cF * ρ * g * Hwall * (z - Ac) ⊔ 0)) := by
  unfold calculate_FH2p_perpendicular
  simp only [hz]
  rw [PyM.bind_res_of_ok (FHz_eval H T c Ac Hwall gb gf c0 c1 ρ g cF Rc hH hT hc hgb hgf h0 h1 hρ hg
    hcF hW z)]
  simp

theorem FH_obl {z : ℝ} (hz : calculate_wave_runup_height_zXp (fin H) (fin T) (fin gf * fin gb)
      (fin c) (fin c0) (fin c1) = fin z) :
    (calculate_FH2p_oblique (fin H) (fin T) (fin β) (fin c) (fin Ac) Rc (fin Hwall) (fin gb)
      (fin gf) (fin c0) (fin c1) (fin cF) (fin ρ) (fin g)).res =
      .ok (calculate_influence_oblique_waves_force_gamma_F_beta (fin z) (fin Ac) (fin β) (fin 1) *
        fin (cF * ρ * g * Hwall * (z - Ac) ⊔ 0)) := by
  unfold calculate_FH2p_oblique
  simp only [hz]
  rw [PyM.bind_res_of_ok (FHz_eval H T c Ac Hwall gb gf c0 c1 ρ g cF Rc hH hT hc hgb hgf h0 h1 hρ hg
    hcF hW z)]
  simp [calculate_influence_oblique_waves_horizontal_force_gamma_FH_beta, one_sci']

end CrestProof

/-- C38: the horizontal force is zero as long as the run-up does not exceed the armour crest, and
proportional to the excess above it -/
theorem C38_horizontal_perpendicular : ∃ z F : ℝ, 0 < z ∧ 0 ≤ F ∧
    calculate_wave_runup_height_zXp (fin H) (fin T) (fin gf * fin gb) (fin c) (fin c0) (fin c1) =
      fin z ∧
    (calculate_FH2p_perpendicular (fin H) (fin T) (fin c) (fin Ac) Rc (fin Hwall) (fin gb) (fin gf)
      (fin c0) (fin c1) (fin ρ) (fin g) (fin cF)).res = .ok (fin F) ∧
    (z ≤ Ac → F = 0) ∧ (Ac ≤ z → F = cF * (ρ * g) * Hwall * (z - Ac)) := by
  obtain ⟨z, hz0, hz⟩ := zc_eval H T c Hwall gb gf c0 c1 ρ g cF hH hT hc hgb hgf h0 h1 hρ hg hcF hW
  have hk : 0 < cF * ρ * g * Hwall := by positivity
  refine ⟨z, _, hz0, le_sup_right, hz, FH_perp H T c Ac Hwall gb gf c0 c1 ρ g cF Rc hH hT hc hgb hgf
    h0 h1 hρ hg hcF hW hz, fun h => sup_eq_right.mpr (mul_nonpos_of_nonneg_of_nonpos hk.le
    (by linarith)), fun h => ?_⟩
  rw [sup_eq_left.mpr (mul_nonneg hk.le (by linarith))]; ring

/-- C38 (missing: run-up exactly at the armour crest, and the lower bound zero for very oblique
waves, both refuted below): oblique waves never give a larger horizontal force, the angle zero gives
exactly the perpendicular force, and the force is non-negative as long as the reduced run-up level
reaches the armour crest -/
theorem C38_horizontal_oblique_partial (hz : calculate_wave_runup_height_zXp (fin H) (fin T)
      (fin gf * fin gb) (fin c) (fin c0) (fin c1) ≠ fin Ac) : ∃ z Fo Fp : ℝ,
    calculate_wave_runup_height_zXp (fin H) (fin T) (fin gf * fin gb) (fin c) (fin c0) (fin c1) =
      fin z ∧
    (calculate_FH2p_oblique (fin H) (fin T) (fin β) (fin c) (fin Ac) Rc (fin Hwall) (fin gb)
      (fin gf) (fin c0) (fin c1) (fin cF) (fin ρ) (fin g)).res = .ok (fin Fo) ∧
    (calculate_FH2p_perpendicular (fin H) (fin T) (fin c) (fin Ac) Rc (fin Hwall) (fin gb) (fin gf)
      (fin c0) (fin c1) (fin ρ) (fin g) (fin cF)).res = .ok (fin Fp) ∧
    Fo ≤ Fp ∧ (β = 0 → Fo = Fp) ∧
    (Ac ≤ (1 + Real.cos (β * (Real.pi / 180)) ^ 2) / 2 * z → 0 ≤ Fo) := by
  obtain ⟨z, hz0, hz'⟩ := zc_eval H T c Hwall gb gf c0 c1 ρ g cF hH hT hc hgb hgf h0 h1 hρ hg hcF hW
  have hne : z ≠ Ac := fun h => hz (by rw [hz', h])
  have hk : 0 < cF * ρ * g * Hwall := by positivity
  have ho := FH_obl H T β c Ac Hwall gb gf c0 c1 ρ g cF Rc hH hT hc hgb hgf h0 h1 hρ hg hcF hW hz'
  rw [gF_eval (by rw [one_mul]; exact sub_ne_zero.mpr hne), mul_fin, one_mul] at ho
  obtain ⟨b1, b2, -⟩ := oblique_le (β := β) _ hz0.le hne hk.le
  refine ⟨z, _, _, hz', ho, FH_perp H T c Ac Hwall gb gf c0 c1 ρ g cF Rc hH hT hc hgb hgf
    h0 h1 hρ hg hcF hW hz', b1, ?_, ?_⟩
  · rintro rfl
    rw [kb_zero, one_mul, div_self (sub_ne_zero.mpr hne), one_mul]
  · rw [← kb_eq]; exact b2

/-- C38 refuted: when the run-up exceeds the armour crest but the run-up reduced for obliqueness does
not, the oblique horizontal force is negative -/
theorem C38_horizontal_negative_refuted (z : ℝ) (hz : calculate_wave_runup_height_zXp (fin H) (fin T)
      (fin gf * fin gb) (fin c) (fin c0) (fin c1) = fin z) (hAz : Ac < z)
    (hβ : (1 + Real.cos (β * (Real.pi / 180)) ^ 2) / 2 * z < Ac) : ∃ Fo : ℝ, Fo < 0 ∧
    (calculate_FH2p_oblique (fin H) (fin T) (fin β) (fin c) (fin Ac) Rc (fin Hwall) (fin gb)
      (fin gf) (fin c0) (fin c1) (fin cF) (fin ρ) (fin g)).res = .ok (fin Fo) := by
  obtain ⟨z', hz0, hz'⟩ := zc_eval H T c Hwall gb gf c0 c1 ρ g cF hH hT hc hgb hgf h0 h1 hρ hg hcF hW
  have : z' = z := by rw [hz'] at hz; injection hz
  subst this
  have hk : 0 < cF * ρ * g * Hwall := by positivity
  have ho := FH_obl H T β c Ac Hwall gb gf c0 c1 ρ g cF Rc hH hT hc hgb hgf h0 h1 hρ hg hcF hW hz'
  rw [gF_eval (by rw [one_mul]; exact sub_ne_zero.mpr hAz.ne'), mul_fin, one_mul] at ho
  rw [← kb_eq] at hβ
  exact ⟨_, (oblique_le (β := β) _ hz0.le hAz.ne' hk.le).2.2 hk hAz hβ, ho⟩

/-- C38 refuted: with the run-up exactly at the armour crest the oblique force is NaN, while the
perpendicular one is zero -/
theorem C38_runup_at_crest_refuted (hz : calculate_wave_runup_height_zXp (fin H) (fin T)
      (fin gf * fin gb) (fin c) (fin c0) (fin c1) = fin Ac) :
    (calculate_FH2p_oblique (fin H) (fin T) (fin β) (fin c) (fin Ac) Rc (fin Hwall) (fin gb)
      (fin gf) (fin c0) (fin c1) (fin cF) (fin ρ) (fin g)).res = .ok nan ∧
    (calculate_FH2p_perpendicular (fin H) (fin T) (fin c) (fin Ac) Rc (fin Hwall) (fin gb) (fin gf)
      (fin c0) (fin c1) (fin ρ) (fin g) (fin cF)).res = .ok (fin 0) := by
  obtain ⟨z', hz0, hz'⟩ := zc_eval H T c Hwall gb gf c0 c1 ρ g cF hH hT hc hgb hgf h0 h1 hρ hg hcF hW
  have : z' = Ac := by rw [hz'] at hz; injection hz
  subst this
  rw [FH_obl H T β c z' Hwall gb gf c0 c1 ρ g cF Rc hH hT hc hgb hgf h0 h1 hρ hg hcF hW hz',
    FH_perp H T c z' Hwall gb gf c0 c1 ρ g cF Rc hH hT hc hgb hgf h0 h1 hρ hg hcF hW hz', sub_self,
    mul_zero, sup_idem, gF_sing (by ring) hz0.le]
  exact ⟨rfl, rfl⟩

end

/-! ## vertical force -/

section
variable (H T β c Ac Bwall Fb gb gf c0 c1 ρ g cF cFb : ℝ) (hH : 0 < H) (hT : 0 < T) (hc : 0 < c)
  (hgb : 0 < gb) (hgf : 0 < gf) (h0 : 0 < c0) (h1 : 0 < c1) (hρ : 0 < ρ) (hg : 0 < g)
  (hcF : 0 < cF) (hcFb : 0 < cFb) (hW : 0 < Bwall) (hA : 0 < Ac) (hFb : 0 ≤ Fb)
include hH hT hc hgb hgf h0 h1 hρ hg hcF hcFb hW hA hFb

namespace CrestProof

theorem FVz_eval (z : ℝ) : calculate_FV2p_perpendicular_from_z2p (fin z) (fin Ac) (fin Bwall)
    (fin Fb) (fin cF) (fin cFb) (fin ρ) (fin g) =
      fin (cF * ρ * g * Bwall * (z - 0.75 * Ac) * (1 - (Fb / Ac) ^ cFb) ⊔ 0) := by
  unfold calculate_FV2p_perpendicular_from_z2p
  have h : 0 ≤ Fb / Ac := by positivity
  have e : npow (fin Fb / fin Ac) (fin cFb) = fin ((Fb / Ac) ^ cFb) := by
    rw [div_fin hA.ne', npow_fin_nonneg h hcFb]
  rw [e]
  pf_eval []

theorem FV_perp {z : ℝ} (hz : calculate_wave_runup_height_zXp (fin H) (fin T) (fin gf * fin gb)
      (fin c) (fin c0) (fin c1) = fin z) :
    (calculate_FV2p_perpendicular (fin H) (fin T) (fin c) (fin Ac) (fin Bwall) (fin Fb) (fin gb)
      (fin gf) (fin c0) (fin c1) (fin cF) (fin cFb) (fin ρ) (fin g)).res =
      .ok (fin (cF * ρ * g * Bwall * (z - 0.75 * Ac) * (1 - (Fb / Ac) ^ cFb) ⊔ 0)) := by
  unfold calculate_FV2p_perpendicular
  simp only [hz, check_bind, PyM.pure_def]
  rw [FVz_eval H T c Ac Bwall Fb gb gf c0 c1 ρ g cF cFb hH hT hc hgb hgf h0 h1 hρ hg hcF hcFb hW hA
    hFb z]

theorem FV_obl {z : ℝ} (hz : calculate_wave_runup_height_zXp (fin H) (fin T) (fin gf * fin gb)
      (fin c) (fin c0) (fin c1) = fin z) :
    (calculate_FV2p_oblique (fin H) (fin T) (fin β) (fin c) (fin Ac) (fin Bwall) (fin Fb) (fin gb)
      (fin gf) (fin c0) (fin c1) (fin cF) (fin cFb) (fin ρ) (fin g)).res =
      .ok (calculate_influence_oblique_waves_force_gamma_F_beta (fin z) (fin Ac) (fin β) (fin 0.75) *
        fin (cF * ρ * g * Bwall * (z - 0.75 * Ac) * (1 - (Fb / Ac) ^ cFb) ⊔ 0)) := by
  unfold calculate_FV2p_oblique
  simp only [hz, check_bind, PyM.pure_def]
  rw [FVz_eval H T c Ac Bwall Fb gb gf c0 c1 ρ g cF cFb hH hT hc hgb hgf h0 h1 hρ hg hcF hcFb hW hA
    hFb z]
  rfl

end CrestProof

/-- C38: the vertical force is never negative; for a base not above the armour crest it is zero as
long as the run-up does not exceed three quarters of the armour crest level -/
theorem C38_vertical_perpendicular : ∃ z F : ℝ, 0 < z ∧ 0 ≤ F ∧
    calculate_wave_runup_height_zXp (fin H) (fin T) (fin gf * fin gb) (fin c) (fin c0) (fin c1) =
      fin z ∧
    (calculate_FV2p_perpendicular (fin H) (fin T) (fin c) (fin Ac) (fin Bwall) (fin Fb) (fin gb)
      (fin gf) (fin c0) (fin c1) (fin cF) (fin cFb) (fin ρ) (fin g)).res = .ok (fin F) ∧
    (Fb ≤ Ac → z ≤ 3 / 4 * Ac → F = 0) ∧ (Fb = Ac → F = 0) ∧
    (Fb < Ac → 3 / 4 * Ac < z → 0 < F) ∧
    (Fb ≤ Ac → 3 / 4 * Ac ≤ z →
      F = cF * (ρ * g) * Bwall * (z - 3 / 4 * Ac) * (1 - (Fb / Ac) ^ cFb)) := by
  obtain ⟨z, hz0, hz⟩ := zc_eval H T c Bwall gb gf c0 c1 ρ g cF hH hT hc hgb hgf h0 h1 hρ hg hcF hW
  have hk : 0 < cF * ρ * g * Bwall := by positivity
  have h34 : (0.75 : ℝ) = 3 / 4 := by norm_num
  have hb : Fb ≤ Ac → 0 ≤ 1 - (Fb / Ac) ^ cFb := fun h =>
    sub_nonneg.mpr (Real.rpow_le_one (by positivity) ((div_le_one hA).mpr h) hcFb.le)
  have hb' : Fb < Ac → 0 < 1 - (Fb / Ac) ^ cFb := fun h =>
    sub_pos.mpr (Real.rpow_lt_one (by positivity) ((div_lt_one hA).mpr h) hcFb)
  refine ⟨z, _, hz0, le_sup_right, hz, FV_perp H T c Ac Bwall Fb gb gf c0 c1 ρ g cF cFb hH hT hc hgb
    hgf h0 h1 hρ hg hcF hcFb hW hA hFb hz, fun h h2 => ?_, fun h => ?_, fun h h2 => ?_,
    fun h h2 => ?_⟩
  · apply sup_eq_right.mpr
    apply mul_nonpos_of_nonpos_of_nonneg _ (hb h)
    exact mul_nonpos_of_nonneg_of_nonpos hk.le (by rw [h34]; linarith)
  · rw [h, div_self hA.ne', Real.one_rpow, sub_self, mul_zero, sup_idem]
  · apply lt_of_lt_of_le _ le_sup_left
    have : 0 < z - 0.75 * Ac := by rw [h34]; linarith
    have := hb' h
    positivity
  · rw [h34]
    have h4 : 0 ≤ z - 3 / 4 * Ac := by linarith
    have := hb h
    rw [sup_eq_left.mpr (by positivity)]; ring

example := C38_vertical_perpendicular (H := 2) (T := 8) (c := 2) (Ac := 1) (Bwall := 3) (Fb := 0.5)
  (gb := 1) (gf := 0.5) (c0 := 1.5) (c1 := 1.5) (ρ := 1025) (g := 9.81) (cF := 1) (cFb := 1) (by norm_num)
  (by norm_num) (by norm_num) (by norm_num) (by norm_num) (by norm_num) (by norm_num) (by norm_num)
  (by norm_num) (by norm_num) (by norm_num) (by norm_num) (by norm_num) (by norm_num)

/-- C38 (missing: run-up exactly at three quarters of the armour crest, and the lower bound for very
oblique waves): oblique waves never give a larger vertical force, the angle zero gives exactly the
perpendicular force -/
theorem C38_vertical_oblique_partial (hFA : Fb ≤ Ac) (hz : calculate_wave_runup_height_zXp (fin H)
      (fin T) (fin gf * fin gb) (fin c) (fin c0) (fin c1) ≠ fin (3 / 4 * Ac)) : ∃ z Fo Fp : ℝ,
    calculate_wave_runup_height_zXp (fin H) (fin T) (fin gf * fin gb) (fin c) (fin c0) (fin c1) =
      fin z ∧
    (calculate_FV2p_oblique (fin H) (fin T) (fin β) (fin c) (fin Ac) (fin Bwall) (fin Fb) (fin gb)
      (fin gf) (fin c0) (fin c1) (fin cF) (fin cFb) (fin ρ) (fin g)).res = .ok (fin Fo) ∧
    (calculate_FV2p_perpendicular (fin H) (fin T) (fin c) (fin Ac) (fin Bwall) (fin Fb) (fin gb)
      (fin gf) (fin c0) (fin c1) (fin cF) (fin cFb) (fin ρ) (fin g)).res = .ok (fin Fp) ∧
    Fo ≤ Fp ∧ (β = 0 → Fo = Fp) ∧
    (3 / 4 * Ac ≤ (1 + Real.cos (β * (Real.pi / 180)) ^ 2) / 2 * z → 0 ≤ Fo) := by
  obtain ⟨z, hz0, hz'⟩ := zc_eval H T c Bwall gb gf c0 c1 ρ g cF hH hT hc hgb hgf h0 h1 hρ hg hcF hW
  have h34 : (0.75 : ℝ) = 3 / 4 := by norm_num
  have hne : z ≠ 3 / 4 * Ac := fun h => hz (by rw [hz', h])
  have hb : 0 ≤ 1 - (Fb / Ac) ^ cFb :=
    sub_nonneg.mpr (Real.rpow_le_one (by positivity) ((div_le_one hA).mpr hFA) hcFb.le)
  have ho := FV_obl H T β c Ac Bwall Fb gb gf c0 c1 ρ g cF cFb hH hT hc hgb hgf h0 h1 hρ hg hcF hcFb
    hW hA hFb hz'
  have hp := FV_perp H T c Ac Bwall Fb gb gf c0 c1 ρ g cF cFb hH hT hc hgb hgf h0 h1 hρ hg hcF hcFb
    hW hA hFb hz'
  rw [gF_eval (by rw [h34]; exact sub_ne_zero.mpr hne), mul_fin] at ho
  have e : cF * ρ * g * Bwall * (z - 0.75 * Ac) * (1 - (Fb / Ac) ^ cFb) =
      (cF * ρ * g * Bwall * (1 - (Fb / Ac) ^ cFb)) * (z - 3 / 4 * Ac) := by rw [h34]; ring
  rw [e] at ho hp
  rw [h34] at ho
  have hk : 0 ≤ cF * ρ * g * Bwall * (1 - (Fb / Ac) ^ cFb) := by positivity
  obtain ⟨b1, b2, -⟩ := oblique_le (β := β) _ hz0.le hne hk
  refine ⟨z, _, _, hz', ho, hp, b1, ?_, ?_⟩
  · rintro rfl
    rw [kb_zero, one_mul, div_self (sub_ne_zero.mpr hne), one_mul]
  · rw [← kb_eq]; exact b2

/-- C38: finding: with the base above the armour crest, a run-up that stays below three quarters of
the armour crest still gives a positive vertical force (product of two negative factors) -/
theorem C38_vertical_spurious (hFA : Ac < Fb) (z : ℝ) (hz : calculate_wave_runup_height_zXp (fin H)
      (fin T) (fin gf * fin gb) (fin c) (fin c0) (fin c1) = fin z) (hzA : z < 3 / 4 * Ac) :
    ∃ F : ℝ, 0 < F ∧
    (calculate_FV2p_perpendicular (fin H) (fin T) (fin c) (fin Ac) (fin Bwall) (fin Fb) (fin gb)
      (fin gf) (fin c0) (fin c1) (fin cF) (fin cFb) (fin ρ) (fin g)).res = .ok (fin F) := by
  refine ⟨_, ?_, FV_perp H T c Ac Bwall Fb gb gf c0 c1 ρ g cF cFb hH hT hc hgb hgf h0 h1 hρ hg hcF
    hcFb hW hA hFb hz⟩
  apply lt_of_lt_of_le _ le_sup_left
  have hk : 0 < cF * ρ * g * Bwall := by positivity
  have h34 : (0.75 : ℝ) = 3 / 4 := by norm_num
  apply mul_pos_of_neg_of_neg
  · exact mul_neg_of_pos_of_neg hk (by rw [h34]; linarith)
  · exact sub_neg.mpr (Real.one_lt_rpow ((one_lt_div hA).mpr hFA) hcFb)

end

/-- C38 with every default argument: oblique and perpendicular functions use the same coefficients -/
theorem C38_defaults (H T c Ac Hwall Bwall Fb : ℝ) (Rc : PF) (hH : 0 < H) (hT : 0 < T) (hc : 0 < c)
    (hW : 0 < Hwall) (hB : 0 < Bwall) (hA : 0 < Ac) (hFb : 0 ≤ Fb) (hFA : Fb ≤ Ac)
    (hz : ∀ a, calculate_wave_runup_height_zXp (fin H) (fin T) (0.45 * 1.0) (fin c) 1.45 5.0 = fin a →
      a ≠ Ac ∧ a ≠ 3 / 4 * Ac) :
    (calculate_FH2p_oblique (fin H) (fin T) (fin 0) (fin c) (fin Ac) Rc (fin Hwall)).res =
    (calculate_FH2p_perpendicular (fin H) (fin T) (fin c) (fin Ac) Rc (fin Hwall)).res ∧
    (calculate_FV2p_oblique (fin H) (fin T) (fin 0) (fin c) (fin Ac) (fin Bwall) (fin Fb)).res =
    (calculate_FV2p_perpendicular (fin H) (fin T) (fin c) (fin Ac) (fin Bwall) (fin Fb)).res := by
  obtain ⟨z, a, b, -, e1, e2, -, e3, -⟩ := C38_horizontal_oblique_partial H T 0 c Ac Hwall 1.0 0.45
    1.45 5.0 1025.0 9.81 1.0 Rc hH hT hc (by norm_num) (by norm_num) (by norm_num) (by norm_num)
    (by norm_num) (by norm_num) (by norm_num) hW (fun h => (hz _ h).1 rfl)
  obtain ⟨z', a', b', -, e1', e2', -, e3', -⟩ := C38_vertical_oblique_partial H T 0 c Ac Bwall Fb 1.0
    0.45 1.45 5.0 1025.0 9.81 0.4 0.5 hH hT hc (by norm_num) (by norm_num) (by norm_num)
    (by norm_num) (by norm_num) (by norm_num) (by norm_num) (by norm_num) hB hA hFb hFA
    (fun h => (hz _ h).2 rfl)
  simp only [← sci_eq] at e1 e2 e1' e2'
  rw [e1, e2, e1', e2', e3 rfl, e3' rfl]
  exact ⟨rfl, rfl⟩

/-- C38: the obliqueness reduction of the run-up lies between `c_beta` and one -/
theorem C38_gamma_beta (β cβ : ℝ) (h0 : 0 ≤ cβ) (h1 : cβ ≤ 1) : ∃ γ : ℝ, cβ ≤ γ ∧ γ ≤ 1 ∧
    (β = 0 → γ = 1) ∧ calculate_influence_oblique_waves_gamma_beta (fin β) (fin cβ) = fin γ := by
  unfold calculate_influence_oblique_waves_gamma_beta
  refine ⟨(1 - cβ) * Real.cos (β * (Real.pi / 180)) ^ 2 + cβ, ?_, ?_, ?_, by pf_eval []⟩
  · have : 0 ≤ (1 - cβ) * Real.cos (β * (Real.pi / 180)) ^ 2 :=
      mul_nonneg (by linarith) (sq_nonneg _)
    linarith
  · nlinarith [Real.cos_sq_le_one (β * (Real.pi / 180))]
  · rintro rfl; simp

example := C38_gamma_beta (β := 20) (cβ := 0.5) (by norm_num) (by norm_num)

/-- C72: the 0.1 % horizontal force is never below the 2 % force -/
theorem C72_horizontal (F : ℝ) (hF : 0 ≤ F) : ∃ F' : ℝ, F ≤ F' ∧
    calculate_FH01p_perpendicular (fin F) = fin F' := by
  unfold calculate_FH01p_perpendicular
  refine ⟨1.6 * F, by norm_num; linarith, by pf_eval []⟩

example := C72_horizontal (F := 1) (by norm_num)

/-- C72 (missing: steepness above 0.05875): the 0.1 % vertical force is not below the 2 % force
exactly for wave steepnesses up to 0.05875 -/
theorem C72_vertical_partial (F s : ℝ) (hF : 0 < F) : ∃ F' : ℝ,
    calculate_FV01p_perpendicular (fin F) (fin s) = fin F' ∧ (F ≤ F' ↔ s ≤ 0.05875) := by
  unfold calculate_FV01p_perpendicular
  refine ⟨(2.88 - 32 * s) * F, by pf_eval [], ?_⟩
  rw [le_mul_iff_one_le_left hF]
  constructor <;> intro h <;> norm_num at h ⊢ <;> linarith

example := C72_vertical_partial (F := 1) (s := 1) (by norm_num)

/-- C72 refuted for steep waves: beyond a steepness of 0.09 the 0.1 % force is even negative -/
theorem C72_vertical_refuted (F s : ℝ) (hF : 0 < F) (hs : 0.09 < s) : ∃ F' : ℝ, F' < 0 ∧
    calculate_FV01p_perpendicular (fin F) (fin s) = fin F' := by
  unfold calculate_FV01p_perpendicular
  refine ⟨(2.88 - 32 * s) * F, mul_neg_of_neg_of_pos ?_ hF, by pf_eval []⟩
  norm_num at hs ⊢; linarith

-- the hypotheses are met by ordinary input
example : ∃ z F : ℝ, 0 < z ∧ 0 ≤ F ∧ calculate_wave_runup_height_zXp (fin 3) (fin 9)
    (fin 0.45 * fin 1) (fin 2) (fin 1.45) (fin 5) = fin z ∧
    (calculate_FH2p_perpendicular (fin 3) (fin 9) (fin 2) (fin 4) 5 (fin 2) (fin 1) (fin 0.45)
      (fin 1.45) (fin 5) (fin 1025) (fin 9.81) (fin 1)).res = .ok (fin F) := by
  obtain ⟨z, F, a, b, c, d, -⟩ := C38_horizontal_perpendicular 3 9 2 4 2 1 0.45 1.45 5 1025 9.81 1 5
    (by norm_num) (by norm_num) (by norm_num) (by norm_num) (by norm_num) (by norm_num) (by norm_num)
    (by norm_num) (by norm_num) (by norm_num) (by norm_num)
  exact ⟨z, F, a, b, c, d⟩

/-- an armour crest between the reduced and the full run-up level exists for every strongly oblique
wave, so `C38_horizontal_negative_refuted` applies -/
example (H T : ℝ) (hH : 0 < H) (hT : 0 < T) : ∃ Ac Fo : ℝ, 0 < Ac ∧ Fo < 0 ∧
    (calculate_FH2p_oblique (fin H) (fin T) (fin 60) (fin 2) (fin Ac) 5 (fin 2) (fin 1) (fin 0.45)
      (fin 1.45) (fin 5) (fin 1) (fin 1025) (fin 9.81)).res = .ok (fin Fo) := by
  obtain ⟨z, hz0, hz⟩ := zc_eval H T 2 2 1 0.45 1.45 5 1025 9.81 1 hH hT
    (by norm_num) (by norm_num) (by norm_num) (by norm_num) (by norm_num) (by norm_num) (by norm_num)
    (by norm_num) (by norm_num)
  have h60 : Real.cos (60 * (Real.pi / 180)) = 1 / 2 := by
    rw [show 60 * (Real.pi / 180) = Real.pi / 3 by ring, Real.cos_pi_div_three]
  obtain ⟨Fo, h1, h2⟩ := C38_horizontal_negative_refuted H T 60 2 (0.9 * z) 2 1 0.45 1.45 5 1025 9.81
    1 5 hH hT (by norm_num) (by norm_num) (by norm_num) (by norm_num) (by norm_num)
    (by norm_num) (by norm_num) (by norm_num) (by norm_num) z hz (by norm_num; linarith)
    (by rw [h60]; norm_num; linarith)
  exact ⟨0.9 * z, Fo, by positivity, h1, h2⟩

end
