import Verif.Model.Overtopping
import Verif.Lemmas.Taw
import Verif.Spec

/-! # Proof support for the overtopping formulas -/

open Classical
open PF CorePhysics CoreUtility
noncomputable section

/-! exponential decay, its inverse, and the argument that the smaller of two invertible decreasing
formulas is inverted by the smaller of the two inverses -/
namespace TwoFormulas

def E (A k R : ℝ) : ℝ := A * Real.exp (-(k * R))
def L (A k y : ℝ) : ℝ := -Real.log (y / A) / k

theorem E_pos {A : ℝ} (hA : 0 < A) (k R : ℝ) : 0 < E A k R := mul_pos hA (Real.exp_pos _)

theorem L_E {A k : ℝ} (hA : 0 < A) (hk : 0 < k) (R : ℝ) : L A k (E A k R) = R := by
  unfold L E
  rw [mul_div_cancel_left₀ _ hA.ne', Real.log_exp]
  field_simp

theorem E_L {A k y : ℝ} (hA : 0 < A) (hk : 0 < k) (hy : 0 < y) : E A k (L A k y) = y := by
  unfold L E
  rw [mul_div_cancel₀ _ hk.ne', neg_neg, Real.exp_log (by positivity)]
  field_simp

theorem E_lt {A k R R' : ℝ} (hA : 0 < A) (hk : 0 < k) (h : R < R') : E A k R' < E A k R := by
  unfold E
  refine mul_lt_mul_of_pos_left (Real.exp_lt_exp.mpr ?_) hA
  nlinarith

theorem E_le {A k R R' : ℝ} (hA : 0 < A) (hk : 0 < k) (h : R ≤ R') : E A k R' ≤ E A k R := by
  rcases h.eq_or_lt with rfl | h
  · exact le_rfl
  · exact (E_lt hA hk h).le

theorem L_lt {A k y y' : ℝ} (hA : 0 < A) (hk : 0 < k) (hy : 0 < y) (h : y < y') :
    L A k y' < L A k y := by
  by_contra hc
  have := E_le hA hk (not_lt.mp hc)
  rw [E_L hA hk hy, E_L hA hk (hy.trans h)] at this
  linarith

theorem L_le {A k y y' : ℝ} (hA : 0 < A) (hk : 0 < k) (hy : 0 < y) (h : y ≤ y') :
    L A k y' ≤ L A k y := by
  rcases h.eq_or_lt with rfl | h
  · exact le_rfl
  · exact (L_lt hA hk hy h).le

theorem two {x y R : ℝ} {h1 h3 : ℝ → ℝ} (e1 : h1 x = R) (e3 : h3 y = R)
    (m1 : y ≤ x → R ≤ h1 y) (m3 : x < y → R < h3 x) :
    h1 (x ⊓ y) ⊓ h3 (x ⊓ y) = R ∧ (h3 (x ⊓ y) ≤ h1 (x ⊓ y) ↔ y ≤ x) := by
  rcases le_or_gt y x with h | h
  · rw [inf_eq_right.mpr h, e3]
    exact ⟨inf_eq_right.mpr (m1 h), by simp [h, m1 h]⟩
  · rw [inf_eq_left.mpr h.le, e1]
    have := m3 h
    exact ⟨inf_eq_left.mpr this.le, by simp only [not_le.mpr h, not_le.mpr this]⟩

/-- the exponential pair -/
theorem two_E {A B k l : ℝ} (hA : 0 < A) (hB : 0 < B) (hk : 0 < k) (hl : 0 < l) (R : ℝ) :
    L A k (E A k R ⊓ E B l R) ⊓ L B l (E A k R ⊓ E B l R) = R ∧
    (L B l (E A k R ⊓ E B l R) ≤ L A k (E A k R ⊓ E B l R) ↔ E B l R ≤ E A k R) := by
  refine two (L_E hA hk R) (L_E hB hl R) (fun h => ?_) (fun h => ?_)
  · have := L_le hA hk (E_pos hB l R) h
    rwa [L_E hA hk] at this
  · have := L_lt hB hl (E_pos hA k R) h
    rwa [L_E hB hl] at this

theorem two_L {A B k l y : ℝ} (hA : 0 < A) (hB : 0 < B) (hk : 0 < k) (hl : 0 < l) (hy : 0 < y) :
    E A k (L A k y ⊓ L B l y) ⊓ E B l (L A k y ⊓ L B l y) = y ∧
    (E B l (L A k y ⊓ L B l y) ≤ E A k (L A k y ⊓ L B l y) ↔ L B l y ≤ L A k y) := by
  refine two (E_L hA hk hy) (E_L hB hl hy) (fun h => ?_) (fun h => ?_)
  · have := E_le hA hk h
    rwa [E_L hA hk hy] at this
  · have := E_lt hB hl h
    rwa [E_L hB hl hy] at this

end TwoFormulas

namespace RunupTaw2002

/-- the factor of any angle that is given -/
theorem obl_any (beta : PF) (h : ¬ beta.isnan) {c : ℝ} (hc : 0 ≤ c) (hc1 : c ≤ 0.0063) : ∃ r : ℝ,
    calculate_influence_oblique_waves_gamma_beta beta (fin c) = fin r ∧ 0.4 < r ∧ r ≤ 1 := by
  have e80 : (80.0 : PF) = fin 80 := by rw [sci_eq]; norm_num
  have key : ∀ x : ℝ, 0 ≤ x → x ≤ 80 → 0.4 < 1 - c * x ∧ 1 - c * x ≤ 1 := by
    intro x h0 h1
    have : 0 ≤ c * x := by positivity
    have : c * x ≤ 0.0063 * 80 := mul_le_mul hc1 h1 h0 (by norm_num)
    norm_num at this ⊢
    constructor <;> linarith
  cases beta with
  | nan => simp at h
  | fin b =>
    have := key (|b| ⊓ 80) (le_inf (abs_nonneg b) (by norm_num)) inf_le_right
    exact ⟨_, obl_eval c b, this⟩
  | pinf =>
    refine ⟨1 - c * 80, ?_, key 80 (by norm_num) le_rfl⟩
    unfold calculate_influence_oblique_waves_gamma_beta
    dsimp only
    have h1 : whr (pinf < 0) (PF.abs pinf) pinf = pinf := whr_false (not_pinf_lt _) ..
    rw [e80, h1, whr_true (show pinf > fin 80 from trivial), mul_fin, one_eq, sub_fin]
  | ninf =>
    refine ⟨1 - c * 80, ?_, key 80 (by norm_num) le_rfl⟩
    unfold calculate_influence_oblique_waves_gamma_beta
    dsimp only
    have h1 : whr (ninf < 0) (PF.abs ninf) ninf = pinf :=
      whr_true (by rw [zero_eq]; exact trivial) ..
    rw [e80, h1, whr_true (show pinf > fin 80 from trivial), mul_fin, one_eq, sub_fin]

/-- the berm iteration gives NaN or a factor in [0.6, 1] -/
theorem gamma_b_cases {H T ca B L db gB c1 c2 c3 c4 gf v : PF} {bf : Bool}
    (h : (iteration_procedure_gamma_b H T ca B L db gB c1 c2 c3 c4 bf gf).res = .ok v) :
    v = nan ∨ ∃ r : ℝ, v = fin r ∧ 0.6 ≤ r ∧ r ≤ 1 := by
  unfold iteration_procedure_gamma_b iteration_procedure_gamma_b_rec at h
  split_ifs at h
  · right
    have : v = 1.0 := by simpa using h.symm
    exact ⟨1, by rw [this, sci_eq]; norm_num, by norm_num, le_rfl⟩
  · obtain ⟨z1, -, h, -⟩ := PyM.bind_inv h
    obtain ⟨z2, -, h, -⟩ := PyM.bind_inv h
    have h : calculate_influence_berm_gamma_b H z2.1 db B L = v := by simpa using h
    rw [← h]
    exact berm_cases ..

end RunupTaw2002

namespace OvertoppingTaw2002
open RunupTaw2002 (obl_any gamma_b_cases rough rough_eval rough_pos)
open TwoFormulas

theorem validity_res (a b c d e f g h i j : PF) :
    (check_validity_range a b c d e f g h i j).res = .ok () := by
  unfold check_validity_range
  simp

@[simp] theorem validity_bind_res {β} (a b c d e f g h i j : PF) (k : Unit → PyM β) :
    (check_validity_range a b c d e f g h i j >>= k).res = (k ()).res :=
  PyM.bind_res_of_ok (validity_res ..) k

/-- the common first part of the discharge and the freeboard function: obliqueness factor, slope,
berm factor -/
def pre (Hm0 Tmm10 cot_alpha cot_alpha_down cot_alpha_up beta B_berm db gamma_beta gamma_b
    gamma_f : PF) : PyM (PF × PF × PF) := do
  let calculate ← RunupTaw2002.check_calculate_gamma_beta beta gamma_beta
  let gamma_beta := if calculate then calculate_influence_oblique_waves_gamma_beta beta else gamma_beta
  let composite ← RunupTaw2002.check_composite_slope cot_alpha cot_alpha_down cot_alpha_up
  let cot_alpha ← (if composite then do
      let z2p_for_slope ← RunupTaw2002.iteration_procedure_z2p Hm0 Tmm10 cot_alpha_down cot_alpha_up
        B_berm db gamma_f gamma_beta
      pure (RunupTaw2002.determine_average_slope Hm0 z2p_for_slope cot_alpha_down cot_alpha_up
        B_berm db)
    else pure cot_alpha : PyM PF)
  let gamma_b ← (if gamma_b.isnan then do
      let L_berm ← RunupTaw2002.calculate_berm_length Hm0 B_berm cot_alpha cot_alpha_down
        cot_alpha_up
      RunupTaw2002.iteration_procedure_gamma_b Hm0 Tmm10 cot_alpha B_berm L_berm db gamma_beta
        (gamma_f := gamma_f)
    else pure gamma_b : PyM PF)
  pure (gamma_beta, cot_alpha, gamma_b)

def q24 (Hm0 Tmm10 Rc gamma_f gamma_v c1 : PF) (cor : PF) (p : PF × PF × PF) : PF :=
  (0.067 / PF.sqrt (1.0 / p.2.1)) * calculate_Iribarren_number_ksi Hm0 Tmm10 p.2.1 * p.2.2
    * PF.exp (-1.0 * (c1 + cor) * (Rc / Hm0)
        * (1.0 / (calculate_Iribarren_number_ksi Hm0 Tmm10 p.2.1 * p.2.2 *
          RunupTaw2002.calculate_adjusted_influence_roughness_gamma_f gamma_f p.2.2
            (calculate_Iribarren_number_ksi Hm0 Tmm10 p.2.1) * p.1 * gamma_v)))

def R24 (Hm0 Tmm10 q gamma_f gamma_v g c1 : PF) (cor : PF) (p : PF × PF × PF) : PF :=
  PF.log ((1.0 / 0.067) * PF.sqrt (1.0 / p.2.1) * (1.0 / p.2.2)
      * (1.0 / calculate_Iribarren_number_ksi Hm0 Tmm10 p.2.1) * q / PF.sqrt (g * npow Hm0 3))
    * (-1.0 / (c1 + cor)) * calculate_Iribarren_number_ksi Hm0 Tmm10 p.2.1 * p.2.2 *
      RunupTaw2002.calculate_adjusted_influence_roughness_gamma_f gamma_f p.2.2
            (calculate_Iribarren_number_ksi Hm0 Tmm10 p.2.1) * p.1 * gamma_v

theorem q_split (H T R cot cd cu beta B db gB gb gf gv s : PF) (bf : Bool) :
    (calculate_dimensionless_overtopping_discharge_q H T R cot cd cu beta B db gB gb gf gv s bf).res =
    (do
      let cor ← sigma_correction s bf
      let p ← pre H T cot cd cu beta B db gB gb gf
      let cor ← read_correction cor
      let a := q24 H T R gf gv (if bf then 4.75 else 4.3) cor.1 p
      let b := q_diml_max_equation H R p.1
        (RunupTaw2002.calculate_adjusted_influence_roughness_gamma_f gf p.2.2
            (calculate_Iribarren_number_ksi H T p.2.1)) (if bf then 2.6 else 2.3) (cor3 := cor.2)
      check_validity_range H T beta p.2.1 cd cu gf p.2.2 p.1 gv
      pure (PF.min a b, decide (PF.eqF (PF.min a b) b)) : PyM (PF × Bool)).res := by
  unfold calculate_dimensionless_overtopping_discharge_q pre q24
  simp only [bind_assoc, pure_bind]

theorem R_split (H T q cot cd cu beta B db gB gb gf gv s g : PF) (bf : Bool) :
    (calculate_dimensionless_crest_freeboard H T q cot cd cu beta B db gB gb gf gv s g bf).res =
    (do
      let cor ← sigma_correction s bf
      let p ← pre H T cot cd cu beta B db gB gb gf
      let cor ← read_correction cor
      let a := R24 H T q gf gv g (if bf then 4.75 else 4.3) cor.1 p
      let b := Rc_diml_max_equation H q p.1
        (RunupTaw2002.calculate_adjusted_influence_roughness_gamma_f gf p.2.2
            (calculate_Iribarren_number_ksi H T p.2.1)) (if bf then 2.6 else 2.3) (cor3 := cor.2)
      check_validity_range H T beta p.2.1 cd cu gf p.2.2 p.1 gv
      pure (PF.min a b, decide (PF.eqF (PF.min a b) b)) : PyM (PF × Bool)).res := by
  unfold calculate_dimensionless_crest_freeboard pre R24
  simp only [bind_assoc, pure_bind]

/-! ### the correction for a number of standard deviations -/

/-- the two coefficients in use -/
def k1 (s : ℝ) (bf : Bool) : ℝ := (if bf then 4.75 else 4.3) + (if s = 0 then 0 else 0.5 * s)
def k3 (s : ℝ) (bf : Bool) : ℝ := (if bf then 2.6 else 2.3) + (if s = 0 then 0 else 0.35 * s)

theorem sigma_inv {s : ℝ} {bf : Bool} {β} {k : Option (PF × PF) → PyM (PF × PF × PF)}
    {f : PF × PF → PF × PF × PF → PyM β} {v : β}
    (h : (do let cor ← sigma_correction (fin s) bf
             let p ← k cor
             let cor ← read_correction cor
             f cor p : PyM β).res = .ok v) : s = 0 ∨ bf = true := by
  by_contra hc
  push Not at hc
  unfold sigma_correction at h
  rw [zero_eq, eqF_fin, if_neg hc.1, if_neg hc.2] at h
  obtain ⟨c, hc, h, -⟩ := PyM.bind_inv h
  obtain ⟨p, -, h, -⟩ := PyM.bind_inv h
  obtain ⟨d, hd, h, -⟩ := PyM.bind_inv h
  have : c = none := by
    obtain ⟨_, -, h2, -⟩ := PyM.bind_inv hc
    simpa using h2.symm
  subst this
  simp [read_correction, PyM.raise] at hd

theorem sigma_ok {s : ℝ} {bf : Bool} (h : s = 0 ∨ bf = true) : ∃ a b : ℝ,
    sigma_correction (fin s) bf = pure (some (fin a, fin b)) ∧
    (if bf then 4.75 else 4.3 : PF) + fin a = fin (k1 s bf) ∧
    (if bf then 2.6 else 2.3 : PF) + fin b = fin (k3 s bf) := by
  unfold sigma_correction k1 k3
  by_cases hs : s = 0
  · refine ⟨0, 0, ?_, ?_, ?_⟩
    · rw [zero_eq, eqF_fin, if_pos hs]
    · cases bf <;> simp only [sci_eq, add_fin, if_pos hs, if_true, Bool.false_eq_true, if_false]
    · cases bf <;> simp only [sci_eq, add_fin, if_pos hs, if_true, Bool.false_eq_true, if_false]
  · obtain rfl := h.resolve_left hs
    refine ⟨0.5 * s, 0.35 * s, ?_, ?_, ?_⟩
    · rw [zero_eq, eqF_fin, if_neg hs, if_pos rfl]
      simp only [sci_eq, mul_fin]
    · simp only [sci_eq, add_fin, if_neg hs, if_true]
    · simp only [sci_eq, add_fin, if_neg hs, if_true]

theorem k1_pos {s : ℝ} {bf : Bool} (hs : -7 ≤ s) (h : s = 0 ∨ bf = true) : 0 < k1 s bf := by
  unfold k1
  cases bf <;> by_cases h0 : s = 0 <;> simp [h0] at h ⊢ <;> norm_num <;> linarith
theorem k3_pos {s : ℝ} {bf : Bool} (hs : -7 ≤ s) (h : s = 0 ∨ bf = true) : 0 < k3 s bf := by
  unfold k3
  cases bf <;> by_cases h0 : s = 0 <;> simp [h0] at h ⊢ <;> norm_num <;> linarith

/-! ### what the first part can return -/

theorem pre_inv {H T cot cd cu beta B db gB gb gf : PF} {p : PF × PF × PF}
    (hgB : OmittedOr (0 < ·) gB) (hgb : OmittedOr (fun r => 0 < r ∧ r ≤ 1) gb)
    (h : (pre H T cot cd cu beta B db gB gb gf).res = .ok p) :
    (∃ r : ℝ, p.1 = fin r ∧ 0 < r) ∧ (p.2.2 = nan ∨ ∃ r : ℝ, p.2.2 = fin r ∧ 0 < r ∧ r ≤ 1) := by
  unfold pre at h
  obtain ⟨calc', h1, h, -⟩ := PyM.bind_inv h
  dsimp only at h
  obtain ⟨comp, -, h, -⟩ := PyM.bind_inv h
  obtain ⟨ca, -, h, -⟩ := PyM.bind_inv h
  obtain ⟨gb', h2, h, -⟩ := PyM.bind_inv h
  have hp : ((if calc' then calculate_influence_oblique_waves_gamma_beta beta else gB), ca, gb') = p := by
    simpa using h
  subst hp
  dsimp only
  constructor
  · unfold RunupTaw2002.check_calculate_gamma_beta at h1
    split_ifs at h1 with g1 g2
    · simp [PyM.raise] at h1
    · have : calc' = true := by simpa using h1.symm
      subst this
      rw [if_pos rfl]
      have hb : ¬ beta.isnan := fun hb => g1 ⟨hb, g2⟩
      obtain ⟨r, hr, h0, -⟩ := obl_any beta hb (c := 0.0033) (by norm_num) (by norm_num)
      exact ⟨r, hr, by linarith⟩
    · have : calc' = false := by simpa using h1.symm
      subst this
      rw [if_neg (by simp)]
      rcases hgB with rfl | h
      · exact absurd trivial g2
      · exact h
  · by_cases g1 : gb.isnan
    · rw [if_pos g1] at h2
      obtain ⟨L, -, h2, -⟩ := PyM.bind_inv h2
      rcases gamma_b_cases h2 with h | ⟨r, h, h3, h4⟩
      · exact Or.inl h
      · exact Or.inr ⟨r, h, by linarith, h4⟩
    · rw [if_neg g1] at h2
      have : gb = gb' := by simpa using h2
      subst this
      rcases hgb with rfl | h
      · exact absurd trivial g1
      · exact Or.inr h

/-! ### the formulas as real functions -/

/-- amplitude and decay of the two formulas -/
def A1 (H T c gb : ℝ) : ℝ := 0.067 / √(1.0 / c) * VdMProof.xi H T c * gb
def d1 (H T c gb gf gB gv k : ℝ) : ℝ :=
  k / (H * (VdMProof.xi H T c * gb * rough gf gb (VdMProof.xi H T c) * gB * gv))
def d3 (H T c gb gf gB k : ℝ) : ℝ := k / (H * (rough gf gb (VdMProof.xi H T c) * gB))

theorem A1_pos {H T c gb : ℝ} (hH : 0 < H) (hT : 0 < T) (hc : 0 < c) (hb : 0 < gb) :
    0 < A1 H T c gb := by
  have := VdMProof.xi_pos hH hT hc
  unfold A1; positivity
theorem d1_pos {H T c gb gf gB gv k : ℝ} (hH : 0 < H) (hT : 0 < T) (hc : 0 < c) (hb : 0 < gb)
    (hb1 : gb ≤ 1) (hf : 0 < gf) (hf1 : gf ≤ 1) (hB : 0 < gB) (hv : 0 < gv) (hk : 0 < k) :
    0 < d1 H T c gb gf gB gv k := by
  have hx := VdMProof.xi_pos hH hT hc
  have := rough_pos (gb := gb) hf hf1 hb1 hx
  unfold d1; positivity
theorem d3_pos {H T c gb gf gB k : ℝ} (hH : 0 < H) (hT : 0 < T) (hc : 0 < c)
    (hb1 : gb ≤ 1) (hf : 0 < gf) (hf1 : gf ≤ 1) (hB : 0 < gB) (hk : 0 < k) :
    0 < d3 H T c gb gf gB k := by
  have hx := VdMProof.xi_pos hH hT hc
  have := rough_pos (gb := gb) hf hf1 hb1 hx
  unfold d3; positivity

theorem q24_eval {H T c gb gf gB gv k R : ℝ} {c1 cor : PF} (hH : 0 < H) (hT : 0 < T) (hc : 0 < c)
    (hb : 0 < gb) (hb1 : gb ≤ 1) (hf : 0 < gf) (hf1 : gf ≤ 1) (hB : 0 < gB) (hv : 0 < gv)
    (hk : c1 + cor = fin k) :
    q24 (fin H) (fin T) (fin R) (fin gf) (fin gv) c1 cor (fin gB, fin c, fin gb) =
      fin (E (A1 H T c gb) (d1 H T c gb gf gB gv k) R) := by
  have hx := VdMProof.xi_pos hH hT hc
  have hr := rough_pos (gb := gb) hf hf1 hb1 hx
  have e1 : (1.0 : PF) = fin 1 := by rw [sci_eq]; norm_num
  unfold q24 A1 d1 E
  dsimp only
  rw [hk, VdMProof.xi_eval hH hT hc, rough_eval, VdMProof.one_sci]
  generalize VdMProof.xi H T c = x at *
  generalize rough gf gb x = r at *
  rw [e1, sci_eq, div_fin hc.ne', sqrt_fin (by positivity), div_fin (by positivity)]
  simp only [mul_fin]
  rw [div_fin hH.ne', div_fin (by positivity), neg_fin]
  simp only [mul_fin, exp_fin]
  congr 3
  field_simp

theorem q3_eval {H T c gb gf gB k R : ℝ} {c3 cor : PF} (hH : 0 < H) (hT : 0 < T) (hc : 0 < c)
    (hb1 : gb ≤ 1) (hf : 0 < gf) (hf1 : gf ≤ 1) (hB : 0 < gB)
    (hk : c3 + cor = fin k) :
    q_diml_max_equation (fin H) (fin R) (fin gB) (fin (rough gf gb (VdMProof.xi H T c))) c3
      (cor3 := cor) = fin (E 0.2 (d3 H T c gb gf gB k) R) := by
  have hx := VdMProof.xi_pos hH hT hc
  have hr := rough_pos (gb := gb) hf hf1 hb1 hx
  have e1 : (1.0 : PF) = fin 1 := by rw [sci_eq]; norm_num
  unfold q_diml_max_equation d3 E
  rw [hk]
  generalize VdMProof.xi H T c = x at *
  generalize rough gf gb x = r at *
  rw [e1, sci_eq]
  simp only [mul_fin]
  rw [div_fin hH.ne', div_fin (by positivity), neg_fin]
  simp only [mul_fin, exp_fin]
  congr 3
  field_simp

/-- the scale of the discharge -/
def Sc (g H : ℝ) : ℝ := √(g * H ^ 3)
theorem Sc_pos {g H : ℝ} (hg : 0 < g) (hH : 0 < H) : 0 < Sc g H := by unfold Sc; positivity
theorem Sc_eval {g H : ℝ} (hg : 0 < g) (hH : 0 < H) :
    PF.sqrt (fin g * npow (fin H) 3) = fin (Sc g H) := by
  rw [ofNat_eq, npow_three, mul_fin, sqrt_fin (by positivity)]; rfl

theorem R24_eval {H T c gb gf gB gv k q g : ℝ} {c1 cor : PF} (hH : 0 < H) (hT : 0 < T) (hc : 0 < c)
    (hb : 0 < gb) (hb1 : gb ≤ 1) (hf : 0 < gf) (hf1 : gf ≤ 1) (hB : 0 < gB) (hv : 0 < gv)
    (hk : c1 + cor = fin k) (hk0 : 0 < k) (hg : 0 < g) (hq : 0 < q) :
    R24 (fin H) (fin T) (fin q) (fin gf) (fin gv) (fin g) c1 cor (fin gB, fin c, fin gb) =
      fin (L (A1 H T c gb) (d1 H T c gb gf gB gv k) (q / Sc g H) / H) := by
  have hx := VdMProof.xi_pos hH hT hc
  have hr := rough_pos (gb := gb) hf hf1 hb1 hx
  have hS := Sc_pos hg hH
  have e1 : (1.0 : PF) = fin 1 := by rw [sci_eq]; norm_num
  have e67 : ∃ a : ℝ, 0 < a ∧ (0.067 : ℝ) = a ∧ (0.067 : PF) = fin a := ⟨0.067, by norm_num, rfl, rfl⟩
  obtain ⟨a, ha, ea, ea'⟩ := e67
  unfold R24 A1 d1 L
  dsimp only
  rw [hk, VdMProof.xi_eval hH hT hc, rough_eval, VdMProof.one_sci, Sc_eval hg hH, ea, ea']
  generalize VdMProof.xi H T c = x at *
  generalize rough gf gb x = r at *
  generalize Sc g H = S at *
  rw [e1, div_fin hc.ne', sqrt_fin (by positivity), div_fin ha.ne', div_fin hb.ne', div_fin hx.ne',
    neg_fin, div_fin hk0.ne']
  simp only [mul_fin]
  have hs : 0 < √(1 / c) := by positivity
  generalize √(1 / c) = s at *
  rw [div_fin hS.ne', log_fin (by positivity)]
  simp only [mul_fin]
  have : 1 / a * s * (1 / gb) * (1 / x) * q / S = q / S / (a / s * x * gb) := by
    field_simp
  rw [this]
  congr 1
  field_simp

theorem R3_eval {H T c gb gf gB k q : ℝ} {c3 cor : PF} (hH : 0 < H) (hT : 0 < T) (hc : 0 < c)
    (hb1 : gb ≤ 1) (hf : 0 < gf) (hf1 : gf ≤ 1) (hB : 0 < gB)
    (hk : c3 + cor = fin k) (hk0 : 0 < k) (hq : 0 < q) :
    Rc_diml_max_equation (fin H) (fin q) (fin gB) (fin (rough gf gb (VdMProof.xi H T c))) c3
      (cor3 := cor) = fin (L 0.2 (d3 H T c gb gf gB k) (q / Sc 9.81 H) / H) := by
  have hx := VdMProof.xi_pos hH hT hc
  have hr := rough_pos (gb := gb) hf hf1 hb1 hx
  have hS := Sc_pos (g := 9.81) (by norm_num) hH
  have e1 : (1.0 : PF) = fin 1 := by rw [sci_eq]; norm_num
  have e67 : ∃ a : ℝ, 0 < a ∧ (0.2 : ℝ) = a ∧ (0.2 : PF) = fin a := ⟨0.2, by norm_num, rfl, rfl⟩
  obtain ⟨a, ha, ea, ea'⟩ := e67
  unfold Rc_diml_max_equation d3 L
  have eS : PF.sqrt (9.81 * npow (fin H) 3) = fin (Sc 9.81 H) := Sc_eval (by norm_num) hH
  rw [hk, eS, ea, ea']
  generalize VdMProof.xi H T c = x at *
  generalize rough gf gb x = r at *
  generalize Sc 9.81 H = S at *
  rw [e1, div_fin ha.ne', neg_fin, div_fin hk0.ne']
  simp only [mul_fin]
  rw [div_fin hS.ne', log_fin (by positivity)]
  simp only [mul_fin]
  have : 1 / a * q / S = q / S / a := by
    field_simp
  rw [this]
  congr 1
  field_simp

/-! ### a slope that is not a positive number gives NaN -/

theorem bad_slope {h t : ℝ} (h0 : 0 < h) (t0 : 0 < t) (ca : PF) :
    (∃ c : ℝ, ca = fin c ∧ 0 < c) ∨
    ((∀ a : ℝ, 0 < a → fin a / PF.sqrt (1.0 / ca) *
        calculate_Iribarren_number_ksi (fin h) (fin t) ca = nan) ∧
     (∀ a b : ℝ, 0 < a → 0 < b → fin a * PF.sqrt (1.0 / ca) * fin b *
        (1.0 / calculate_Iribarren_number_ksi (fin h) (fin t) ca) = nan) ∧
     (∀ x a b : ℝ, 0 < a → 0 < b → fin x * PF.sqrt (1.0 / ca) * fin a *
        (1.0 / (fin b * calculate_Iribarren_number_ksi (fin h) (fin t) ca)) = nan)) := by
  have e1 : (1.0 : PF) = fin 1 := by rw [sci_eq]; norm_num
  obtain ⟨s, hs, es⟩ : ∃ s : ℝ, 0 < s ∧
      PF.sqrt (calculate_wave_steepness_s (fin h) (fin t)) = fin s := by
    have := Real.pi_pos
    refine ⟨√(2 * Real.pi / 9.81 * h / t ^ 2), by positivity, ?_⟩
    unfold calculate_wave_steepness_s
    rw [ofNat_eq, npow_two, pi_eq, mul_fin, sci_eq, div_fin (by norm_num), mul_fin,
      div_fin (by positivity), sqrt_fin (by positivity)]
  unfold calculate_Iribarren_number_ksi
  dsimp only
  rw [es, e1]
  have m0 : mulInf 0 = nan := by simp [mulInf]
  have mp : ∀ x : ℝ, 0 < x → mulInf x = pinf := fun x hx => by simp [mulInf, hx]
  have fp : ∀ x : ℝ, fin x * pinf = mulInf x := fun x => rfl
  have pf : ∀ x : ℝ, pinf * fin x = mulInf x := fun x => rfl
  have bad0 : PF.sqrt (fin 0) = fin 0 := by rw [sqrt_fin le_rfl, Real.sqrt_zero]
  have zero : (∀ a : ℝ, 0 < a → fin a / PF.sqrt (fin 0) * (fin 0 / fin s) = nan) ∧
     (∀ a b : ℝ, 0 < a → 0 < b → fin a * PF.sqrt (fin 0) * fin b * (fin 1 / (fin 0 / fin s)) = nan) ∧
     (∀ x a b : ℝ, 0 < a → 0 < b → fin x * PF.sqrt (fin 0) * fin a *
        (fin 1 / (fin b * (fin 0 / fin s))) = nan) := by
    rw [bad0, div_fin hs.ne', zero_div, div_zero_fin, mp 1 one_pos]
    refine ⟨fun a ha => ?_, fun a b ha hb => ?_, fun x a b ha hb => ?_⟩
    · rw [div_zero_fin, mp a ha, pf, m0]
    · rw [mul_fin, mul_fin, mul_zero, zero_mul, fp, m0]
    · rw [mul_fin, mul_fin, mul_fin, mul_zero, mul_zero, zero_mul, div_zero_fin, mp 1 one_pos, fp, m0]
  cases ca with
  | nan =>
    right
    have : PF.sqrt (fin 1 / nan) = nan := rfl
    rw [this]
    simp only [nan_mul, mul_nan, div_nan, implies_true, and_self]
  | pinf => right; exact zero
  | ninf => right; exact zero
  | fin c =>
    rcases lt_trichotomy c 0 with hc | rfl | hc
    · right
      have hn : (1 : ℝ) / c < 0 := div_neg_of_pos_of_neg one_pos hc
      have : PF.sqrt (fin 1 / fin c) = nan := by
        rw [div_fin hc.ne]
        simp [PF.sqrt, hc]
      rw [this]
      simp only [nan_mul, mul_nan, div_nan, implies_true, and_self]
    · right
      rw [div_zero_fin, mp 1 one_pos]
      have e2 : pinf / fin s = pinf := by
        show (if s < 0 then ninf else pinf) = pinf
        rw [if_neg (not_lt.mpr hs.le)]
      have e3 : PF.sqrt pinf = pinf := rfl
      have e4 : ∀ a : ℝ, fin a / pinf = fin 0 := fun a => rfl
      rw [e2, e3, e4]
      refine ⟨fun a ha => ?_, fun a b ha hb => ?_, fun x a b ha hb => ?_⟩
      · rw [e4, fp, m0]
      · rw [fp, mp a ha, pf, mp b hb, pf, m0]
      · rw [fp, fp, mp b hb, e4]
        cases h : mulInf x * fin a with
        | nan => rfl
        | pinf => rw [pf, m0]
        | ninf => show neg (mulInf 0) = nan; rw [m0]; rfl
        | fin y =>
          exfalso
          unfold mulInf at h
          split_ifs at h
          · have : mulInf a = fin y := h
            rw [mp a ha] at this; cases this
          · have : neg (mulInf a) = fin y := h
            rw [mp a ha] at this; cases this
          · cases h
    · left; exact ⟨c, rfl, hc⟩

theorem min_fin_inv {x y : PF} {r : ℝ} (h : PF.min x y = fin r) : x ≠ nan ∧ y ≠ nan := by
  refine ⟨?_, ?_⟩
  · rintro rfl; simp [PF.min] at h
  · rintro rfl
    unfold PF.min at h
    split_ifs at h with h1 h2 <;> simp_all

theorem q24_inv {R gf gB gv cor c1 ca gb : PF} {h t : ℝ} (h0 : 0 < h)
    (t0 : 0 < t) (hb : gb = nan ∨ ∃ r : ℝ, gb = fin r ∧ 0 < r ∧ r ≤ 1)
    (hn : q24 (fin h) (fin t) R gf gv c1 cor (gB, ca, gb) ≠ nan) :
    (∃ c : ℝ, ca = fin c ∧ 0 < c) ∧ ∃ r : ℝ, gb = fin r ∧ 0 < r ∧ r ≤ 1 := by
  unfold q24 at hn
  dsimp only at hn
  have h2 := hb.resolve_left (by rintro rfl; simp [mul_nan, nan_mul] at hn)
  rcases bad_slope h0 t0 ca with h | ⟨h, -⟩
  · exact ⟨h, h2⟩
  · have := h 0.067 (by norm_num)
    rw [← sci_eq] at this
    rw [this] at hn
    simp [nan_mul] at hn

theorem R24_inv {q gf gB gv g cor c1 ca gb : PF} {h t : ℝ} (h0 : 0 < h)
    (t0 : 0 < t) (hb : gb = nan ∨ ∃ r : ℝ, gb = fin r ∧ 0 < r ∧ r ≤ 1)
    (hn : R24 (fin h) (fin t) q gf gv g c1 cor (gB, ca, gb) ≠ nan) :
    (∃ c : ℝ, ca = fin c ∧ 0 < c) ∧ ∃ r : ℝ, gb = fin r ∧ 0 < r ∧ r ≤ 1 := by
  have e1 : (1.0 : PF) = fin 1 := by rw [sci_eq]; norm_num
  have hl : PF.log nan = nan := rfl
  unfold R24 at hn
  dsimp only at hn
  obtain ⟨r, hr, r0, r1⟩ := hb.resolve_left (by rintro rfl; simp [mul_nan, nan_mul] at hn)
  subst hr
  rcases bad_slope h0 t0 ca with h | ⟨-, h, -⟩
  · exact ⟨h, r, rfl, r0, r1⟩
  · have := h (1 / 0.067) (1 / r) (by norm_num) (by positivity)
    rw [← div_fin (by norm_num), ← div_fin r0.ne', ← e1, ← sci_eq] at this
    rw [this] at hn
    simp [nan_mul, nan_div, hl] at hn

/-! ### whole calls -/

theorem q_res {h t R gf gv s gB c gb : ℝ} {cot cd cu beta B db gB' gb' : PF} {bf : Bool} (h0 : 0 < h)
    (t0 : 0 < t) (hs : s = 0 ∨ bf = true) (hf : 0 < gf) (hf1 : gf ≤ 1) (hv : 0 < gv)
    (hB : 0 < gB) (hc : 0 < c) (hb : 0 < gb) (hb1 : gb ≤ 1)
    (hp : (pre (fin h) (fin t) cot cd cu beta B db gB' gb' (fin gf)).res = .ok (fin gB, fin c, fin gb)) :
    (calculate_dimensionless_overtopping_discharge_q (fin h) (fin t) (fin R) cot cd cu beta B db gB' gb'
      (fin gf) (fin gv) (fin s) bf).res =
    .ok (fin (E (A1 h t c gb) (d1 h t c gb gf gB gv (k1 s bf)) R ⊓ E 0.2 (d3 h t c gb gf gB (k3 s bf)) R),
      decide (E 0.2 (d3 h t c gb gf gB (k3 s bf)) R ≤
        E (A1 h t c gb) (d1 h t c gb gf gB gv (k1 s bf)) R)) := by
  obtain ⟨a, b, h1, h2, h3⟩ := sigma_ok hs
  rw [q_split, h1, pure_bind, PyM.bind_res_of_ok hp]
  dsimp only
  unfold read_correction
  rw [pure_bind, validity_bind_res, q24_eval h0 t0 hc hb hb1 hf hf1 hB hv h2,
    VdMProof.xi_eval h0 t0 hc, rough_eval, q3_eval h0 t0 hc hb1 hf hf1 hB h3, min_fin, eqF_fin]
  simp only [inf_eq_right, PyM.pure_def]

theorem R_res {h t q gf gv s gB c gb g : ℝ} {cot cd cu beta B db gB' gb' : PF} {bf : Bool} (h0 : 0 < h)
    (t0 : 0 < t) (hs : s = 0 ∨ bf = true) (hs7 : -7 ≤ s) (hf : 0 < gf) (hf1 : gf ≤ 1) (hv : 0 < gv)
    (hB : 0 < gB) (hc : 0 < c) (hb : 0 < gb) (hb1 : gb ≤ 1) (hg : 0 < g) (hq : 0 < q)
    (hp : (pre (fin h) (fin t) cot cd cu beta B db gB' gb' (fin gf)).res = .ok (fin gB, fin c, fin gb)) :
    (calculate_crest_freeboard_Rc (fin h) (fin t) (fin q) cot cd cu beta B db gB' gb'
      (fin gf) (fin gv) (fin s) (fin g) bf).res =
    .ok (fin (L (A1 h t c gb) (d1 h t c gb gf gB gv (k1 s bf)) (q / Sc g h) ⊓
        L 0.2 (d3 h t c gb gf gB (k3 s bf)) (q / Sc 9.81 h)),
      decide (L 0.2 (d3 h t c gb gf gB (k3 s bf)) (q / Sc 9.81 h) ≤
        L (A1 h t c gb) (d1 h t c gb gf gB gv (k1 s bf)) (q / Sc g h))) := by
  obtain ⟨a, b, h1, h2, h3⟩ := sigma_ok hs
  have hk1 := k1_pos hs7 hs
  have hk3 := k3_pos hs7 hs
  have key : (calculate_dimensionless_crest_freeboard (fin h) (fin t) (fin q) cot cd cu beta B db gB' gb'
      (fin gf) (fin gv) (fin s) (fin g) bf).res =
    .ok (fin (L (A1 h t c gb) (d1 h t c gb gf gB gv (k1 s bf)) (q / Sc g h) / h ⊓
        L 0.2 (d3 h t c gb gf gB (k3 s bf)) (q / Sc 9.81 h) / h),
      decide (L 0.2 (d3 h t c gb gf gB (k3 s bf)) (q / Sc 9.81 h) ≤
        L (A1 h t c gb) (d1 h t c gb gf gB gv (k1 s bf)) (q / Sc g h))) := by
    rw [R_split, h1, pure_bind, PyM.bind_res_of_ok hp]
    dsimp only
    unfold read_correction
    rw [pure_bind, validity_bind_res, R24_eval h0 t0 hc hb hb1 hf hf1 hB hv h2 hk1 hg hq,
      VdMProof.xi_eval h0 t0 hc, rough_eval, R3_eval h0 t0 hc hb1 hf hf1 hB h3 hk3 hq, min_fin, eqF_fin]
    simp only [inf_eq_right, PyM.pure_def, div_le_div_iff_of_pos_right h0]
  unfold calculate_crest_freeboard_Rc
  rw [PyM.bind_res_of_ok key]
  dsimp only
  rw [mul_fin, min_mul_of_nonneg _ _ h0.le]
  simp only [div_mul_cancel₀ _ h0.ne', PyM.pure_def]

theorem q_inv {h t gf gv s g : ℝ} {R cot cd cu beta B db gB' gb' : PF} {bf : Bool} {v : ℝ} {m : Bool}
    (h0 : 0 < h) (t0 : 0 < t)
    (hgB : OmittedOr (0 < ·) gB') (hgb : OmittedOr (fun r => 0 < r ∧ r ≤ 1) gb')
    (hr : (calculate_overtopping_discharge_q (fin h) (fin t) R cot cd cu beta B db gB' gb'
      (fin gf) (fin gv) (fin s) (fin g) bf).res = .ok (fin v, m)) :
    (s = 0 ∨ bf = true) ∧ ∃ gB c gb : ℝ, 0 < gB ∧ 0 < c ∧ 0 < gb ∧ gb ≤ 1 ∧
      (pre (fin h) (fin t) cot cd cu beta B db gB' gb' (fin gf)).res = .ok (fin gB, fin c, fin gb) := by
  unfold calculate_overtopping_discharge_q at hr
  obtain ⟨⟨x, m'⟩, h1, hr, -⟩ := PyM.bind_inv hr
  have hx : x ≠ nan := by
    rintro rfl
    simp [nan_mul] at hr
  rw [q_split] at h1
  refine ⟨sigma_inv h1, ?_⟩
  obtain ⟨cor, -, h1, -⟩ := PyM.bind_inv h1
  obtain ⟨⟨p1, p2, p3⟩, hp, h1, -⟩ := PyM.bind_inv h1
  obtain ⟨cor', -, h1, -⟩ := PyM.bind_inv h1
  dsimp only at h1
  rw [validity_bind_res] at h1
  obtain ⟨⟨gB, e1, hB⟩, hb⟩ := pre_inv hgB hgb hp
  dsimp only at e1 hb
  have hq : q24 (fin h) (fin t) R (fin gf) (fin gv) (if bf then 4.75 else 4.3) cor'.1 (p1, p2, p3) ≠ nan := by
    intro hc
    rw [hc] at h1
    simp [PF.min] at h1
    exact hx h1.1.symm
  obtain ⟨⟨c, e2, hc⟩, gb, e3, hb0, hb1⟩ := q24_inv h0 t0 hb hq
  subst e1 e2 e3
  exact ⟨gB, c, gb, hB, hc, hb0, hb1, hp⟩

theorem R_inv {h t gf gv s g : ℝ} {q cot cd cu beta B db gB' gb' : PF} {bf : Bool} {v : ℝ} {m : Bool}
    (h0 : 0 < h) (t0 : 0 < t)
    (hgB : OmittedOr (0 < ·) gB') (hgb : OmittedOr (fun r => 0 < r ∧ r ≤ 1) gb')
    (hr : (calculate_crest_freeboard_Rc (fin h) (fin t) q cot cd cu beta B db gB' gb'
      (fin gf) (fin gv) (fin s) (fin g) bf).res = .ok (fin v, m)) :
    (s = 0 ∨ bf = true) ∧ ∃ gB c gb : ℝ, 0 < gB ∧ 0 < c ∧ 0 < gb ∧ gb ≤ 1 ∧
      (pre (fin h) (fin t) cot cd cu beta B db gB' gb' (fin gf)).res = .ok (fin gB, fin c, fin gb) := by
  unfold calculate_crest_freeboard_Rc at hr
  obtain ⟨⟨x, m'⟩, h1, hr, -⟩ := PyM.bind_inv hr
  have hx : x ≠ nan := by
    rintro rfl
    simp [nan_mul] at hr
  rw [R_split] at h1
  refine ⟨sigma_inv h1, ?_⟩
  obtain ⟨cor, -, h1, -⟩ := PyM.bind_inv h1
  obtain ⟨⟨p1, p2, p3⟩, hp, h1, -⟩ := PyM.bind_inv h1
  obtain ⟨cor', -, h1, -⟩ := PyM.bind_inv h1
  dsimp only at h1
  rw [validity_bind_res] at h1
  obtain ⟨⟨gB, e1, hB⟩, hb⟩ := pre_inv hgB hgb hp
  dsimp only at e1 hb
  have hq : R24 (fin h) (fin t) q (fin gf) (fin gv) (fin g) (if bf then 4.75 else 4.3) cor'.1 (p1, p2, p3) ≠ nan := by
    intro hc
    rw [hc] at h1
    simp [PF.min] at h1
    exact hx h1.1.symm
  obtain ⟨⟨c, e2, hc⟩, gb, e3, hb0, hb1⟩ := R24_inv h0 t0 hb hq
  subst e1 e2 e3
  exact ⟨gB, c, gb, hB, hc, hb0, hb1, hp⟩

/-! ### straight slopes -/

/-- the obliqueness factor is available when it or the angle is given -/
theorem oblique_ok {beta gB' : PF} (hgB : OmittedOr (0 < ·) gB')
    (hg : ¬ gB'.isnan ∨ ¬ beta.isnan) : ∃ (calculate : Bool) (gB : ℝ), 0 < gB ∧
    RunupTaw2002.check_calculate_gamma_beta beta gB' = pure calculate ∧
    (if calculate then calculate_influence_oblique_waves_gamma_beta beta else gB') = fin gB := by
  unfold RunupTaw2002.check_calculate_gamma_beta
  rcases hgB with rfl | ⟨r, rfl, hr⟩
  · have hb : ¬ beta.isnan := hg.resolve_left (by simp)
    obtain ⟨r, hr, h0, -⟩ := obl_any beta hb (c := 0.0033) (by norm_num) (by norm_num)
    exact ⟨true, r, by linarith, by simp [hb], hr⟩
  · exact ⟨false, r, hr, by simp, by simp⟩

theorem pre_straight {h t c gf B db : ℝ} {beta gB' gb' : PF} (h0 : 0 < h) (t0 : 0 < t) (hc : 0 < c)
    (hf : 0 < gf) (hf1 : gf ≤ 1) (hB : 0 ≤ B)
    (hgB : OmittedOr (0 < ·) gB') (hg : ¬ gB'.isnan ∨ ¬ beta.isnan)
    (hgb : OmittedOr (fun r => 0 < r ∧ r ≤ 1) gb') : ∃ gB gb : ℝ, 0 < gB ∧ 0 < gb ∧ gb ≤ 1 ∧
    (gb' = nan → B = 0 → gb = 1) ∧ (gb' ≠ nan → gb' = fin gb) ∧
    (pre (fin h) (fin t) (fin c) nan nan beta (fin B) (fin db) gB' gb' (fin gf)).res =
      .ok (fin gB, fin c, fin gb) ∧
    (0.15 < VdMProof.xi h t c →
      (pre (fin h) (fin t) nan (fin c) (fin c) beta (fin B) (fin db) gB' gb' (fin gf)).res =
        .ok (fin gB, fin c, fin gb)) := by
  obtain ⟨cl, gB, hB0, e1, e2⟩ := oblique_ok hgB hg
  have hs : RunupTaw2002.check_composite_slope (fin c) nan nan = pure false := by
    unfold RunupTaw2002.check_composite_slope; simp
  have hs2 : RunupTaw2002.check_composite_slope nan (fin c) (fin c) = pure true := by
    unfold RunupTaw2002.check_composite_slope; simp
  obtain ⟨L, hL0, hL⟩ : ∃ L : ℝ, 0 < L ∧
      (1.0 * fin h * fin c + fin B + 1.0 * fin h * fin c : PF) = fin L := by
    refine ⟨1.0 * h * c + B + 1.0 * h * c, by positivity, ?_⟩
    simp only [sci_eq, mul_fin, add_fin]
  have hl : RunupTaw2002.calculate_berm_length (fin h) (fin B) (fin c) nan nan = pure (fin L) := by
    unfold RunupTaw2002.calculate_berm_length
    rw [hs, pure_bind]
    simp [hL]
  have hl2 : RunupTaw2002.calculate_berm_length (fin h) (fin B) (fin c) (fin c) (fin c) =
      pure (fin L) := by
    rw [RunupTaw2002.berm_length_composite (by simp) (by simp), hL]
  have hit : 0.15 < VdMProof.xi h t c → ∃ z : ℝ, 0 < z ∧ (RunupTaw2002.iteration_procedure_z2p
      (fin h) (fin t) (fin c) (fin c) (fin B) (fin db) (fin gf) (fin gB)).res = .ok (fin z) := by
    intro hx
    have hsq : 0.38 < √(VdMProof.xi h t c) := by
      rw [Real.lt_sqrt (by norm_num)]; norm_num; norm_num at hx; linarith
    exact RunupTaw2002.iteration_equal db 1e-4 false 1000 h0 t0 hc hf hf1 hB0 hB (by norm_num)
      (by norm_num) (by rw [div_lt_iff₀ (by linarith)]; linarith) hx
  obtain ⟨gb, hb0, hb1, hz, hne, hgb'⟩ : ∃ gb : ℝ, 0 < gb ∧ gb ≤ 1 ∧ (gb' = nan → B = 0 → gb = 1) ∧
      (gb' ≠ nan → gb' = fin gb) ∧
      (if gb'.isnan then RunupTaw2002.iteration_procedure_gamma_b (fin h) (fin t) (fin c) (fin B)
          (fin L) (fin db) (fin gB) (gamma_f := fin gf)
        else pure gb' : PyM PF).res = .ok (fin gb) := by
    rcases hgb with rfl | ⟨r, rfl, r0, r1⟩
    · obtain ⟨gb, h1, h2, h3, h4⟩ := RunupTaw2002.gamma_b_real gf gB B db 1.75 4.3 1.6 1.0 false h0 t0 hc hL0
      refine ⟨gb, by linarith, h3, fun _ => h4, fun h => absurd rfl h, ?_⟩
      rw [if_pos (isnan_nan.mpr trivial)]
      exact h1
    · exact ⟨r, r0, r1, (fun hc => nomatch hc), fun _ => rfl, by simp⟩
  refine ⟨gB, gb, hB0, hb0, hb1, hz, hne, ?_, ?_⟩
  · unfold pre
    rw [e1, pure_bind]
    dsimp only
    rw [e2, hs, pure_bind]
    simp only [Bool.false_eq_true, if_false, pure_bind, hl]
    rw [PyM.bind_res_of_ok hgb']
    rfl
  · intro hx
    obtain ⟨z, z0, hz⟩ := hit hx
    unfold pre
    rw [e1, pure_bind]
    dsimp only
    rw [e2, hs2, pure_bind, if_pos rfl, bind_assoc, PyM.bind_res_of_ok hz, pure_bind,
      RunupTaw2002.average_equal B db hc.ne' (by positivity)]
    simp only [hl2, pure_bind]
    rw [PyM.bind_res_of_ok hgb']
    rfl

end OvertoppingTaw2002
end
