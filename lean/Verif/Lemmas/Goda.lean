import Verif.Model.Goda1985
import Verif.Py.Lemmas
import Verif.Lemmas.Check
import Mathlib.Analysis.SpecialFunctions.Integrals.Basic
import Mathlib.Analysis.SpecialFunctions.Trigonometric.DerivHyp

/-! # Goda (1985): real-valued evaluation of the model and its inequalities -/

open Classical
open PF
open CorePhysics CoreUtility
open Goda1985
noncomputable section
namespace GodaProof

/-- the angle after turning the wave 15 degrees towards the normal -/
def bu (β : ℝ) : ℝ := if 15 ≤ |β| then |β| - 15 else 0
def cb (β : ℝ) : ℝ := Real.cos (bu β * (Real.pi / 180))
def h5 (Hsi h cot : ℝ) : ℝ := h + Hsi * 5 / cot
def A1 (h L : ℝ) : ℝ := 0.6 + 0.5 * (4 * Real.pi * h / L / Real.sinh (4 * Real.pi * h / L)) ^ 2
def A2 (HD d f : ℝ) : ℝ := ((f - d) / (3 * f) * (HD / d) ^ 2) ⊓ (2 * d / HD)
def A3 (hacc h L : ℝ) : ℝ := 1 - hacc / h * (1 - 1 / Real.cosh (2 * Real.pi * h / L))
def eta (c HD : ℝ) : ℝ := 0.75 * (1 + c) * HD
def P1 (c a1 a2 ρ g HD : ℝ) : ℝ := 0.5 * (1 + c) * (a1 + a2 * c ^ 2) * ρ * g * HD
def P4 (p1 e Rc : ℝ) : ℝ := if Rc < e then p1 * (1 - Rc / e) else 0
def PU (c a1 a3 ρ g HD : ℝ) : ℝ := 0.5 * (1 + c) * a1 * a3 * ρ * g * HD
def FHr (p1 p3 p4 hacc hc : ℝ) : ℝ := 0.5 * (p1 + p3) * hacc + 0.5 * (p1 + p4) * hc
def MHr (p1 p3 p4 hacc hc : ℝ) : ℝ :=
  1 / 6 * (2 * p1 + p3) * hacc ^ 2 + 0.5 * (p1 + p4) * hacc * hc + 1 / 6 * (p1 + 2 * p4) * hc ^ 2

theorem cb_le (β : ℝ) : cb β ≤ 1 := Real.cos_le_one _
theorem cb_ge (β : ℝ) : -1 ≤ cb β := Real.neg_one_le_cos _

theorem imp_res (beta B1 L cot sop Rc Hsi d h : PF) :
    ∃ b, (check_impulsive_breaking beta B1 L cot sop Rc Hsi d h).res = .ok b := by
  unfold check_impulsive_breaking check_variable_validity_range check_variable_validity_range_list
    check_list check_list
  split
  · exact ⟨true, by split <;> simp⟩
  · split
    · exact ⟨true, by split <;> simp⟩
    · exact ⟨false, rfl⟩

theorem beta_eval (β : ℝ) : rotate_angle (fin |β|) = pure (fin (bu β)) := by
  have e15 : (15 : PF) = fin 15 := ofNat_eq 15
  unfold bu rotate_angle
  rw [e15]
  by_cases h : (15 : ℝ) ≤ |β|
  · rw [if_pos h, if_pos (by exact h), sub_fin]
  · rw [if_neg h, if_neg (by exact h), if_pos (by exact not_le.mp h), zero_eq]

section
variable {disper : PF → PF → PF → PF} {T : PF} {HD Hsi β h d cot ρ hacc Rc Bup g L : ℝ}
  (hHD : 0 < HD) (hHsi : 0 ≤ Hsi) (hh : 0 < h) (hd : 0 < d) (hcot : 0 < cot)
  (hRc : 0 ≤ Rc) (hL : 0 < L) (hw : calculate_local_wavelength disper T (fin h) (fin g) = fin L)
include hHD hHsi hh hd hcot hRc hL hw

theorem loads_eval (B1 sop : PF) : ∃ b : Bool,
    (calculate_pressures_and_forces disper (fin HD) (fin Hsi) T (fin β) (fin h) (fin d) B1 (fin cot)
      (fin ρ) (fin hacc) (fin Rc) (fin Bup) sop (fin g)).res = .ok
    (let c := cb β
     let f := h5 Hsi h cot
     let a1 := A1 h L
     let a2 := A2 HD d f
     let a3 := A3 hacc h L
     let e := eta c HD
     let p1 := P1 c a1 a2 ρ g HD
     let p3 := a3 * p1
     let p4 := P4 p1 e Rc
     let hc := e ⊓ Rc
     let pu := PU c a1 a3 ρ g HD
     { FH := fin (FHr p1 p3 p4 hacc hc), FU := fin (0.5 * pu * Bup),
       MH := fin (MHr p1 p3 p4 hacc hc), MU := fin (2 / 3 * (0.5 * pu * Bup) * Bup),
       p1 := fin p1, p2 := fin (p1 / Real.cosh (2 * Real.pi * h / L)), p3 := fin p3, p4 := fin p4,
       hstar_c := fin hc, pu := fin pu, h_5Hs := fin f, etastar := fin e, L := fin L,
       alpha_1 := fin a1, alpha_2 := fin a2, alpha_3 := fin a3, impulsive_breaking := b }) := by
  have hf : 0 < h + Hsi * 5 / cot := by positivity
  have hs : 0 < Real.sinh (4 * Real.pi * h / L) := Real.sinh_pos_iff.mpr (by positivity)
  have hc : 0 < Real.cosh (2 * Real.pi * h / L) := Real.cosh_pos _
  unfold calculate_pressures_and_forces
  simp only [abs_fin, beta_eval, pure_bind, hw]
  obtain ⟨b, hb⟩ := imp_res (fin |β|) B1 (fin L) (fin cot) sop (fin Rc) (fin Hsi) (fin d) (fin h)
  refine ⟨b, ?_⟩
  rw [PyM.bind_res_of_ok hb]
  simp only [PyM.pure_def]
  have heta : 0.75 * (1 + PF.cos (fin (bu β)).deg2rad) * fin HD = fin (eta (cb β) HD) := by
    unfold eta cb; pf_eval []
  rw [heta]
  have hp4 : ∀ p1 : ℝ, (if fin (eta (cb β) HD) > fin Rc then
      fin p1 * (1 - fin Rc / fin (eta (cb β) HD)) else 0) = fin (P4 p1 (eta (cb β) HD) Rc) := by
    intro p1
    unfold P4
    by_cases hlt : Rc < eta (cb β) HD
    · have : 0 < eta (cb β) HD := lt_of_le_of_lt hRc hlt
      rw [if_pos (by exact hlt), if_pos hlt]
      pf_eval []
    · rw [if_neg (by exact hlt), if_neg hlt, zero_eq]
  have h1 : (0.6 + 0.5 * npow ((4 * PF.pi * fin h / fin L) / PF.sinh (4 * PF.pi * fin h / fin L)) 2)
      = fin (A1 h L) := by
    unfold A1; pf_eval []
  have h2 : (fin h + fin Hsi * 5 / fin cot) = fin (h5 Hsi h cot) := by
    unfold h5; pf_eval []
  have hf' : 0 < h5 Hsi h cot := hf
  have h3 : PF.min ((fin (h5 Hsi h cot) - fin d) / (3 * fin (h5 Hsi h cot)) * npow (fin HD / fin d) 2)
      (2 * fin d / fin HD) = fin (A2 HD d (h5 Hsi h cot)) := by
    unfold A2; pf_eval []
  have h4 : (1 - (fin hacc / fin h) * (1 - (1 / PF.cosh (2 * PF.pi * fin h / fin L))))
      = fin (A3 hacc h L) := by
    unfold A3; pf_eval []
  rw [h1, h2, h3, h4]
  have h5' : 0.5 * (1 + PF.cos (fin (bu β)).deg2rad) * (fin (A1 h L) + fin (A2 HD d (h5 Hsi h cot)) *
      npow (PF.cos (fin (bu β)).deg2rad) 2) * fin ρ * fin g * fin HD =
      fin (P1 (cb β) (A1 h L) (A2 HD d (h5 Hsi h cot)) ρ g HD) := by
    unfold P1 cb; pf_eval []
  have h6 : 0.5 * (1 + PF.cos (fin (bu β)).deg2rad) * fin (A1 h L) * fin (A3 hacc h L) * fin ρ *
      fin g * fin HD = fin (PU (cb β) (A1 h L) (A3 hacc h L) ρ g HD) := by
    unfold PU cb; pf_eval []
  rw [h5', h6, hp4]
  unfold FHr MHr
  pf_eval []
end

/-! ### the factors -/

theorem self_le_sinh {x : ℝ} (hx : 0 ≤ x) : x ≤ Real.sinh x := Real.self_le_sinh_iff.mpr hx

theorem A1_bounds {h L : ℝ} (hh : 0 < h) (hL : 0 < L) : 0.6 < A1 h L ∧ A1 h L ≤ 1.1 := by
  unfold A1
  have hx : 0 < 4 * Real.pi * h / L := by positivity
  generalize 4 * Real.pi * h / L = x at hx ⊢
  have hs := self_le_sinh hx.le
  have hs0 : 0 < Real.sinh x := lt_of_lt_of_le hx hs
  have h1 : x / Real.sinh x ≤ 1 := (div_le_one hs0).mpr hs
  have h0 : 0 < x / Real.sinh x := div_pos hx hs0
  generalize x / Real.sinh x = q at h0 h1 ⊢
  constructor
  · have : 0 < q ^ 2 := by positivity
    linarith
  · have : q ^ 2 ≤ 1 := by nlinarith
    linarith

theorem A2_nonneg {HD d f : ℝ} (hHD : 0 < HD) (hd : 0 < d) (hf : d ≤ f) : 0 ≤ A2 HD d f := by
  unfold A2
  have h0 : 0 < f := lt_of_lt_of_le hd hf
  exact le_min (mul_nonneg (div_nonneg (sub_nonneg.mpr hf) (by positivity)) (by positivity))
    (by positivity)

theorem cosh_pos_one {x : ℝ} : 0 < 1 / Real.cosh x ∧ 1 / Real.cosh x ≤ 1 :=
  ⟨by have := Real.cosh_pos x; positivity,
   (div_le_one (Real.cosh_pos x)).mpr (Real.one_le_cosh x)⟩

theorem A3_bounds {hacc h L : ℝ} (hh : 0 < h) (h0 : 0 ≤ hacc) (h1 : hacc ≤ h) :
    1 / Real.cosh (2 * Real.pi * h / L) ≤ A3 hacc h L ∧ A3 hacc h L ≤ 1 := by
  unfold A3
  obtain ⟨hc0, hc1⟩ := cosh_pos_one (x := 2 * Real.pi * h / L)
  generalize 1 / Real.cosh (2 * Real.pi * h / L) = q at hc0 hc1 ⊢
  have hr : hacc / h ≤ 1 := (div_le_one hh).mpr h1
  have hr0 : 0 ≤ hacc / h := by positivity
  generalize hacc / h = r at hr hr0 ⊢
  constructor <;> nlinarith

theorem P4_bounds {p1 e Rc : ℝ} (hp : 0 ≤ p1) (hRc : 0 ≤ Rc) : 0 ≤ P4 p1 e Rc ∧ P4 p1 e Rc ≤ p1 := by
  unfold P4
  split
  next h =>
    have he : 0 < e := lt_of_le_of_lt hRc h
    have h1 : Rc / e ≤ 1 := (div_le_one he).mpr h.le
    have h0 : 0 ≤ Rc / e := by positivity
    constructor <;> nlinarith
  next => exact ⟨le_rfl, hp⟩

/-! ### integrals of linear pressure distributions -/

theorem int_lin (u v b : ℝ) : ∫ z in (0 : ℝ)..b, (u + v * z) = u * b + v * b ^ 2 / 2 := by
  rw [intervalIntegral.integral_add (by simp) (by
    apply Continuous.intervalIntegrable; fun_prop), intervalIntegral.integral_const_mul, integral_id]
  simp; ring

theorem int_mom (a u v b : ℝ) : ∫ z in (0 : ℝ)..b, (a + z) * (u + v * z) =
    a * (u * b + v * b ^ 2 / 2) + u * b ^ 2 / 2 + v * b ^ 3 / 3 := by
  have : (fun z : ℝ => (a + z) * (u + v * z)) =
      fun z => (a * u + (a * v + u) * z) + v * z ^ 2 := by ext z; ring
  rw [this, intervalIntegral.integral_add (by apply Continuous.intervalIntegrable; fun_prop) (by
    apply Continuous.intervalIntegrable; fun_prop), int_lin, intervalIntegral.integral_const_mul,
    integral_pow]
  norm_num; ring

/-- resultant and moment of a triangular load of length `l` on a base of width `B` -/
theorem int_tri {p l B : ℝ} (hp : 0 ≤ p) (hl : 0 < l) (hB : l ≤ B) :
    (∫ x in (0 : ℝ)..B, (0 : ℝ) ⊔ (p + (-(p / l)) * x)) = p * l / 2 ∧
    (∫ x in (0 : ℝ)..B, x * ((0 : ℝ) ⊔ (p + (-(p / l)) * x))) = p * l ^ 2 / 6 := by
  have hc : Continuous fun x : ℝ => (0 : ℝ) ⊔ (p + (-(p / l)) * x) := by fun_prop
  have hc2 : Continuous fun x : ℝ => x * ((0 : ℝ) ⊔ (p + (-(p / l)) * x)) := by fun_prop
  have e1 : ∀ x ∈ Set.uIcc 0 l, (0 : ℝ) ⊔ (p + (-(p / l)) * x) = p + (-(p / l)) * x := by
    intro x hx
    rw [Set.uIcc_of_le hl.le] at hx
    apply sup_eq_right.mpr
    have : p / l * x ≤ p / l * l := mul_le_mul_of_nonneg_left hx.2 (by positivity)
    rw [div_mul_cancel₀ _ hl.ne'] at this
    linarith
  have e2 : ∀ x ∈ Set.uIcc l B, (0 : ℝ) ⊔ (p + (-(p / l)) * x) = 0 := by
    intro x hx
    rw [Set.uIcc_of_le hB] at hx
    apply sup_eq_left.mpr
    have : p / l * l ≤ p / l * x := mul_le_mul_of_nonneg_left hx.1 (by positivity)
    rw [div_mul_cancel₀ _ hl.ne'] at this
    linarith
  constructor
  · rw [← intervalIntegral.integral_add_adjacent_intervals (hc.intervalIntegrable 0 l)
      (hc.intervalIntegrable l B), intervalIntegral.integral_congr e1,
      intervalIntegral.integral_congr e2, int_lin]
    simp only [intervalIntegral.integral_zero]
    field_simp; ring
  · rw [← intervalIntegral.integral_add_adjacent_intervals (hc2.intervalIntegrable 0 l)
      (hc2.intervalIntegrable l B),
      intervalIntegral.integral_congr (g := fun x => (0 + x) * (p + (-(p / l)) * x))
        (fun x hx => by simp only [e1 x hx, zero_add]),
      intervalIntegral.integral_congr (a := l) (b := B) (g := fun _ => (0 : ℝ))
        (fun x hx => by simp only [e2 x hx, mul_zero]), int_mom]
    simp only [intervalIntegral.integral_zero]
    field_simp; ring

/-- resultant and moment of a trapezoidal load -/
theorem int_trap {p q B : ℝ} (hp : 0 ≤ p) (hq : 0 ≤ q) (hB : 0 < B) :
    (∫ x in (0 : ℝ)..B, (0 : ℝ) ⊔ (p + ((q - p) / B) * x)) = (p + q) * B / 2 ∧
    (∫ x in (0 : ℝ)..B, x * ((0 : ℝ) ⊔ (p + ((q - p) / B) * x))) = (p + 2 * q) * B ^ 2 / 6 := by
  have e1 : ∀ x ∈ Set.uIcc 0 B, (0 : ℝ) ⊔ (p + ((q - p) / B) * x) = p + ((q - p) / B) * x := by
    intro x hx
    rw [Set.uIcc_of_le hB.le] at hx
    apply sup_eq_right.mpr
    have h1 : x / B ≤ 1 := (div_le_one hB).mpr hx.2
    have h0 : 0 ≤ x / B := div_nonneg hx.1 hB.le
    have : p + ((q - p) / B) * x = p * (1 - x / B) + q * (x / B) := by field_simp; ring
    rw [this]
    have : 0 ≤ 1 - x / B := by linarith
    positivity
  constructor
  · rw [intervalIntegral.integral_congr e1, int_lin]
    field_simp; ring
  · rw [intervalIntegral.integral_congr (g := fun x => (0 + x) * (p + ((q - p) / B) * x))
        (fun x hx => by simp only [e1 x hx, zero_add]), int_mom]
    field_simp; ring

/-! ### monotonicity -/

theorem P4_mono {p q e f Rc : ℝ} (hp : 0 ≤ p) (hpq : p ≤ q) (hef : e ≤ f) (hRc : 0 ≤ Rc) :
    P4 p e Rc ≤ P4 q f Rc := by
  have hq := P4_bounds (e := f) (hp.trans hpq) hRc
  unfold P4 at hq ⊢
  by_cases h : Rc < e
  · have he : 0 < e := lt_of_le_of_lt hRc h
    have hf : 0 < f := he.trans_le hef
    rw [if_pos h, if_pos (h.trans_le hef)]
    have h1 : Rc / f ≤ Rc / e := div_le_div_of_nonneg_left hRc he hef
    have h2 : Rc / e ≤ 1 := (div_le_one he).mpr h.le
    exact mul_le_mul hpq (by linarith) (by linarith) (hp.trans hpq)
  · rw [if_neg h]; exact hq.1

theorem FHr_mono {p1 p3 p4 q1 q3 q4 a c d : ℝ} (ha : 0 ≤ a) (hp1 : 0 ≤ p1)
    (hp4 : 0 ≤ p4) (hc : 0 ≤ c) (h1 : p1 ≤ q1) (h3 : p3 ≤ q3) (h4 : p4 ≤ q4) (hcd : c ≤ d) :
    FHr p1 p3 p4 a c ≤ FHr q1 q3 q4 a d := by
  unfold FHr
  have := mul_le_mul (add_le_add h1 h4) hcd hc (by linarith)
  have := mul_le_mul_of_nonneg_right (add_le_add h1 h3) ha
  linarith

theorem MHr_mono {p1 p3 p4 q1 q3 q4 a c d : ℝ} (ha : 0 ≤ a) (hp1 : 0 ≤ p1)
    (hp4 : 0 ≤ p4) (hc : 0 ≤ c) (h1 : p1 ≤ q1) (h3 : p3 ≤ q3) (h4 : p4 ≤ q4) (hcd : c ≤ d) :
    MHr p1 p3 p4 a c ≤ MHr q1 q3 q4 a d := by
  unfold MHr
  have e1 : (p1 + p4) * c ≤ (q1 + q4) * d := mul_le_mul (add_le_add h1 h4) hcd hc (by linarith)
  have e2 : c ^ 2 ≤ d ^ 2 := by nlinarith
  have e3 : (p1 + 2 * p4) * c ^ 2 ≤ (q1 + 2 * q4) * d ^ 2 :=
    mul_le_mul (by linarith) e2 (by positivity) (by linarith)
  have e4 := mul_le_mul_of_nonneg_right e1 ha
  have e5 := mul_le_mul_of_nonneg_right (show 2 * p1 + p3 ≤ 2 * q1 + q3 by linarith) (sq_nonneg a)
  nlinarith

end GodaProof
end
