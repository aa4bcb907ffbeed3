import Verif.Props.RearPozueta
import Mathlib.Analysis.SpecialFunctions.Log.Deriv
import Mathlib.Analysis.Calculus.Deriv.MeanValue
import Mathlib.Analysis.Complex.ExponentialBounds

/-! # The wave height solver of Van Gent & Pozueta (2004) (C66) -/

open Classical
open PF
open CorePhysics
noncomputable section

namespace RearProof
open VanGentPozueta2004 RunupProof VdMProof

theorem ten_y_bound (y : ℝ) : 10 * y ≤ 1.2 * Real.exp y + 12 := by
  rcases le_total y 1 with h | h
  · have := Real.exp_pos y; nlinarith
  · have e1 := Real.exp_one_gt_d9
    have e2 : (7.38 : ℝ) ≤ Real.exp 2 := by
      rw [show (2 : ℝ) = 1 + 1 by norm_num, Real.exp_add]; nlinarith
    have e3 : (20 : ℝ) ≤ Real.exp 3 := by
      rw [show (3 : ℝ) = 2 + 1 by norm_num, Real.exp_add]; nlinarith
    rcases le_total y 2.6 with h2 | h2
    · have h3 : Real.exp y = Real.exp 2 * Real.exp (y - 2) := by rw [← Real.exp_add]; congr 1; ring
      have h4 := Real.add_one_le_exp (y - 2)
      rw [h3]
      have h5 : 7.38 * (y - 1) ≤ Real.exp 2 * Real.exp (y - 2) :=
        mul_le_mul e2 (by linarith) (by linarith) (Real.exp_pos _).le
      linarith
    · have h3 : Real.exp y = Real.exp 3 * Real.exp (y - 3) := by rw [← Real.exp_add]; congr 1; ring
      have h4 := Real.add_one_le_exp (y - 3)
      rw [h3]
      have h5 : 20 * (y - 2) ≤ Real.exp 3 * Real.exp (y - 3) :=
        mul_le_mul e3 (by linarith) (by linarith) (Real.exp_pos _).le
      linarith

/-- the rear-freeboard factor is nearly flat in logarithms -/
theorem logX_bounds {r x y : ℝ} (hr : 0 ≤ r) (hx : 0 < x) (hxy : x ≤ y) :
    Real.log (1 + 10 * Real.exp (-r / x)) ≤ Real.log (1 + 10 * Real.exp (-r / y)) ∧
    Real.log (1 + 10 * Real.exp (-r / y)) - Real.log (1 + 10 * Real.exp (-r / x)) ≤
      1.2 * (Real.log y - Real.log x) := by
  have hy := lt_of_lt_of_le hx hxy
  constructor
  · apply Real.log_le_log (by positivity)
    gcongr 1 + 10 * Real.exp ?_
    rw [neg_div, neg_div, neg_le_neg_iff]
    gcongr
  · have hm : MonotoneOn (fun x => 1.2 * Real.log x - Real.log (1 + 10 * Real.exp (-r / x)))
        (Set.Ioi 0) := by
      have hd : ∀ x ∈ Set.Ioi (0 : ℝ), HasDerivAt
          (fun x => 1.2 * Real.log x - Real.log (1 + 10 * Real.exp (-r / x)))
          (1.2 * x⁻¹ - (10 * (Real.exp (-r / x) * (-r * -(x ^ 2)⁻¹))) /
            (1 + 10 * Real.exp (-r / x))) x := by
        intro x hx
        have hx : 0 < x := hx
        have h1 : HasDerivAt (fun x => -r / x) (-r * -(x ^ 2)⁻¹) x := by
          simp only [div_eq_mul_inv]
          exact (hasDerivAt_inv hx.ne').const_mul (-r)
        have h2 := ((h1.exp.const_mul 10).const_add 1).log (by positivity)
        exact ((Real.hasDerivAt_log hx.ne').const_mul 1.2).sub h2
      apply monotoneOn_of_deriv_nonneg (convex_Ioi 0)
      · exact fun x hx => (hd x hx).continuousAt.continuousWithinAt
      · rw [interior_Ioi]
        exact fun x hx => (hd x hx).differentiableAt.differentiableWithinAt
      · rw [interior_Ioi]
        intro x hx
        rw [(hd x hx).deriv]
        have hx : 0 < x := hx
        have hb := ten_y_bound (r / x)
        have he : Real.exp (-r / x) = (Real.exp (r / x))⁻¹ := by rw [← Real.exp_neg, neg_div]
        rw [he]
        have hp := Real.exp_pos (r / x)
        generalize Real.exp (r / x) = E at *
        rw [sub_nonneg, div_le_iff₀ (by positivity)]
        have h3 : 10 * (E⁻¹ * (-r * -(x ^ 2)⁻¹)) = (10 * (r / x)) * (E⁻¹ * x⁻¹) := by
          field_simp
        have h4 : 1.2 * x⁻¹ * (1 + 10 * E⁻¹) = (1.2 * E + 12) * (E⁻¹ * x⁻¹) := by
          have : (12 : ℝ) = 1.2 * 10 := by norm_num
          rw [this]
          generalize (1.2 : ℝ) = q
          field_simp
        rw [h3, h4]
        exact mul_le_mul_of_nonneg_right hb (by positivity)
    have := hm (Set.mem_Ioi.mpr hx) (Set.mem_Ioi.mpr hy) hxy
    simp only at this
    linarith

/-- the crest-width factor is flat in logarithms for wave heights that are not small -/
theorem logb_bounds {b m x y : ℝ} (hb : 0 ≤ b) (hm : 0 < m) (hbm : 0.705 * b ≤ 0.295 * m)
    (hx : m ≤ x) (hxy : x ≤ y) :
    Real.log (1 + b / y) ≤ Real.log (1 + b / x) ∧
    Real.log (1 + b / x) - Real.log (1 + b / y) ≤ 0.295 * (Real.log y - Real.log x) := by
  have hx0 := lt_of_lt_of_le hm hx
  have hy := lt_of_lt_of_le hx0 hxy
  constructor
  · apply Real.log_le_log (by positivity)
    gcongr
  · have hmo : MonotoneOn (fun x => 0.295 * Real.log x + Real.log (1 + b * x⁻¹)) (Set.Ici m) := by
      have hd : ∀ x ∈ Set.Ici m, HasDerivAt (fun x => 0.295 * Real.log x + Real.log (1 + b * x⁻¹))
          (0.295 * x⁻¹ + (b * -(x ^ 2)⁻¹) / (1 + b * x⁻¹)) x := by
        intro x hx
        have hx : 0 < x := lt_of_lt_of_le hm hx
        have h2 := (((hasDerivAt_inv hx.ne').const_mul b).const_add 1).log
          (by positivity : 1 + b * x⁻¹ ≠ 0)
        exact ((Real.hasDerivAt_log hx.ne').const_mul 0.295).add h2
      apply monotoneOn_of_deriv_nonneg (convex_Ici m)
      · exact fun x hx => (hd x hx).continuousAt.continuousWithinAt
      · exact fun x hx =>
          (hd x (interior_subset hx)).differentiableAt.differentiableWithinAt
      · intro x hx
        have hx := interior_subset hx
        rw [(hd x hx).deriv]
        have hxm : m ≤ x := hx
        have hx : 0 < x := lt_of_lt_of_le hm hx
        have h3 : 0.295 * x⁻¹ + (b * -(x ^ 2)⁻¹) / (1 + b * x⁻¹) =
            (0.295 * (x + b) - b) / (x * (x + b)) := by
          generalize (0.295 : ℝ) = q
          have : 0 < x + b := by positivity
          field_simp; ring
        rw [h3]
        apply div_nonneg _ (by positivity)
        linarith
    have := hmo (Set.mem_Ici.mpr hx) (Set.mem_Ici.mpr (hx.trans hxy)) hxy
    simp only [← div_eq_mul_inv] at this
    linarith

section
variable {ca cp gf gc T Rc Rr B N D S rr rw cs : ℝ}

/-- run-up above the crest needed at wave height `x` -/
def W04 (cs T d cp n D S Rr B gf gc x : ℝ) : ℝ :=
  (u04 cs T d cp (1 + 10 * Real.exp (-Rr / x)) n D S / √(9.81 * x) * (1 / (1.7 * √gc)) *
    (1 + 0.1 * B / x)) ^ 2 * x * gf

variable {d n : ℝ} (hcs : 0 < cs) (hT : 0 < T) (hd : 0 < d) (hcp : 0 < cp) (hn : 0 < n) (hD : 0 < D)
  (hS : 0 < S) (hgf : 0 < gf) (hgc : 0 < gc) (hB : 0 ≤ B)
include hcs hT hd hcp hn hD hS hgf hgc hB

theorem W04_eq : ∃ K : ℝ, 0 < K ∧ ∀ x : ℝ, 0 < x → W04 cs T d cp n D S Rr B gf gc x =
    K * ((1 + 10 * Real.exp (-Rr / x)) ^ (-(1 / 6) : ℝ) * (1 + 0.1 * B / x)) ^ 2 := by
  have hg := Real.sqrt_pos.mpr hgc
  refine ⟨((1.0 / cs * (S / n) * cp ^ (2.5 : ℝ)) ^ (1 / 6 : ℝ) * d * D / T * (1 / (1.7 * √gc))) ^ 2 /
    9.81 * gf, by positivity, fun x hx => ?_⟩
  unfold W04 u04
  have hX : 0 < 1 + 10 * Real.exp (-Rr / x) := by positivity
  have hs : √(9.81 * x) ^ 2 = 9.81 * x := Real.sq_sqrt (by positivity)
  have hs0 : 0 < √(9.81 * x) := Real.sqrt_pos.mpr (by positivity)
  have e6 : (1.0 / 6.0 : ℝ) = 1 / 6 := by norm_num
  rw [e6, Real.mul_rpow (by positivity) (by positivity)]
  have e7 : (1.0 / (1 + 10 * Real.exp (-Rr / x))) ^ (1 / 6 : ℝ) =
      (1 + 10 * Real.exp (-Rr / x)) ^ (-(1 / 6) : ℝ) := by
    rw [one_sci, one_div, Real.inv_rpow hX.le, Real.rpow_neg hX.le]
  rw [e7]
  generalize (1 + 10 * Real.exp (-Rr / x)) ^ (-(1 / 6) : ℝ) = X
  generalize (1.0 / cs * (S / n) * cp ^ (2.5 : ℝ)) ^ (1 / 6 : ℝ) = A
  generalize 1 + 0.1 * B / x = b
  generalize (1 / (1.7 * √gc)) = c
  have h9 : (0 : ℝ) < 9.81 := by norm_num
  generalize (9.81 : ℝ) = g at *
  generalize √(g * x) = s at *
  have : (A * X * d * D / T / s * c * b) ^ 2 * x * gf =
      (A * X * d * D / T * c * b) ^ 2 / s ^ 2 * x * gf := by field_simp
  rw [this, hs]
  field_simp

theorem W04_pos {x : ℝ} (hx : 0 < x) : 0 < W04 cs T d cp n D S Rr B gf gc x := by
  obtain ⟨K, hK, e⟩ := W04_eq (Rr := Rr) hcs hT hd hcp hn hD hS hgf hgc hB
  rw [e x hx]; positivity

theorem logW_bounds (hRr : 0 ≤ Rr) {m x y : ℝ} (hm : 0 < m)
    (hbm : 0.705 * (0.1 * B) ≤ 0.295 * m) (hx : m ≤ x) (hxy : x ≤ y) :
    Real.log (W04 cs T d cp n D S Rr B gf gc y) ≤ Real.log (W04 cs T d cp n D S Rr B gf gc x) ∧
    Real.log (W04 cs T d cp n D S Rr B gf gc x) - Real.log (W04 cs T d cp n D S Rr B gf gc y) ≤
      0.99 * (Real.log y - Real.log x) := by
  obtain ⟨K, hK, e⟩ := W04_eq (Rr := Rr) hcs hT hd hcp hn hD hS hgf hgc hB
  have hx0 := lt_of_lt_of_le hm hx
  have hy0 := lt_of_lt_of_le hx0 hxy
  have key : ∀ x, 0 < x → Real.log (W04 cs T d cp n D S Rr B gf gc x) =
      Real.log K + 2 * (-(1 / 6) * Real.log (1 + 10 * Real.exp (-Rr / x)) +
        Real.log (1 + 0.1 * B / x)) := by
    intro x hx
    rw [e x hx, Real.log_mul hK.ne' (by positivity), Real.log_pow,
      Real.log_mul (by positivity) (by positivity), Real.log_rpow (by positivity)]
    push_cast; ring
  rw [key x hx0, key y hy0]
  obtain ⟨a1, a2⟩ := logX_bounds hRr hx0 hxy
  obtain ⟨b1, b2⟩ := logb_bounds (by positivity) hm hbm hx hxy
  constructor
  · linarith
  · linarith

/-- adding a constant keeps the bound -/
theorem logZ_bounds (hRr : 0 ≤ Rr) (hRc : 0 ≤ Rc) {m x y : ℝ} (hm : 0 < m)
    (hbm : 0.705 * (0.1 * B) ≤ 0.295 * m) (hx : m ≤ x) (hxy : x ≤ y) :
    Real.log (W04 cs T d cp n D S Rr B gf gc y + Rc) ≤
      Real.log (W04 cs T d cp n D S Rr B gf gc x + Rc) ∧
    Real.log (W04 cs T d cp n D S Rr B gf gc x + Rc) -
      Real.log (W04 cs T d cp n D S Rr B gf gc y + Rc) ≤ 0.99 * (Real.log y - Real.log x) := by
  have hx0 := lt_of_lt_of_le hm hx
  have hy0 := lt_of_lt_of_le hx0 hxy
  obtain ⟨h1, h2⟩ := logW_bounds hcs hT hd hcp hn hD hS hgf hgc hB hRr hm hbm hx hxy
  have p1 := W04_pos (Rr := Rr) hcs hT hd hcp hn hD hS hgf hgc hB hx0
  have p2 := W04_pos (Rr := Rr) hcs hT hd hcp hn hD hS hgf hgc hB hy0
  have hl : Real.log x ≤ Real.log y := Real.log_le_log hx0 hxy
  generalize W04 cs T d cp n D S Rr B gf gc x = a at *
  generalize W04 cs T d cp n D S Rr B gf gc y = b at *
  have hba : b ≤ a := (Real.log_le_log_iff p2 p1).mp h1
  refine ⟨Real.log_le_log (by positivity) (by linarith), le_trans ?_ h2⟩
  rw [← Real.log_div (by positivity) (by positivity), ← Real.log_div p1.ne' p2.ne']
  apply Real.log_le_log (by positivity)
  rw [div_le_div_iff₀ (by positivity) p2]
  nlinarith

end

/-- one step of the solver on reals -/
def F04 (cs ca T d cp n D S Rc Rr B gf gc x : ℝ) : ℝ :=
  (W04 cs T d cp n D S Rr B gf gc x + Rc) / (rf 1.45 5.1 (xi x T ca) * gf)

section
variable {cs ca T d cp n D S Rc Rr B gf gc : ℝ} (hcs : 0 < cs) (hca : 0 < ca) (hT : 0 < T)
  (hd : 0 < d) (hcp : 0 < cp) (hn : 0 < n) (hD : 0 < D) (hS : 0 < S) (hRc : 0 < Rc) (hRr : 0 ≤ Rr)
  (hB : 0 ≤ B) (hgf : 0 < gf) (hgc : 0 < gc)
include hcs hca hT hd hcp hn hD hS hRc hB hgf hgc

theorem F04_pos (x : ℝ) (hx : 0 < x) : 0 < F04 cs ca T d cp n D S Rc Rr B gf gc x := by
  have h1 := W04_pos (Rr := Rr) hcs hT hd hcp hn hD hS hgf hgc hB hx
  have h2 := rfxi_pos hT hca (c0 := 1.45) (c1 := 5.1) (by norm_num) (by norm_num) hx
  unfold F04; positivity

theorem F04_ge {x : ℝ} (hx : 0 < x) : Rc / (5.1 * gf) ≤ F04 cs ca T d cp n D S Rc Rr B gf gc x := by
  have h1 := W04_pos (Rr := Rr) hcs hT hd hcp hn hD hS hgf hgc hB hx
  have h2 := rfxi_pos hT hca (c0 := 1.45) (c1 := 5.1) (by norm_num) (by norm_num) hx
  have h3 := rf_le (c0 := 1.45) (c1 := 5.1) (by norm_num) (by norm_num) (xi_pos hx hT hca)
  unfold F04
  apply div_le_div₀ (by positivity) (by linarith) (by positivity)
  gcongr

include hRr

theorem F04_lip (hBc : B * gf ≤ 0.75 * Rc) {x y : ℝ} (hx : Rc / (5.1 * gf) ≤ x)
    (hxy : x ≤ y) : |Real.log (F04 cs ca T d cp n D S Rc Rr B gf gc x) -
      Real.log (F04 cs ca T d cp n D S Rc Rr B gf gc y)| ≤ 0.99 * (Real.log y - Real.log x) := by
  have hm : 0 < Rc / (5.1 * gf) := by positivity
  have hx0 := lt_of_lt_of_le hm hx
  have hy0 := lt_of_lt_of_le hx0 hxy
  have hbm : 0.705 * (0.1 * B) ≤ 0.295 * (Rc / (5.1 * gf)) := by
    rw [mul_div_assoc', le_div_iff₀ (by positivity)]
    nlinarith
  obtain ⟨z1, z2⟩ := logZ_bounds (Rc := Rc) hcs hT hd hcp hn hD hS hgf hgc hB hRr hRc.le hm hbm hx hxy
  have p1 := rfxi_pos hT hca (c0 := 1.45) (c1 := 5.1) (by norm_num) (by norm_num) hx0
  have p2 := rfxi_pos hT hca (c0 := 1.45) (c1 := 5.1) (by norm_num) (by norm_num) hy0
  have a1 := Real.log_le_log p2 (rfxi_anti hT hca (c0 := 1.45) (c1 := 5.1) (by norm_num)
    (by norm_num) hx0 hxy)
  have s1 := Real.sqrt_pos.mpr hx0
  have s2 := Real.sqrt_pos.mpr hy0
  have a2 := Real.log_le_log (by positivity) (rfxi_sqrt hT hca (c0 := 1.45) (c1 := 5.1)
    (by norm_num) (by norm_num) hx0 hxy)
  rw [Real.log_mul p1.ne' s1.ne', Real.log_mul p2.ne' s2.ne', Real.log_sqrt hx0.le,
    Real.log_sqrt hy0.le] at a2
  have w1 := W04_pos (Rr := Rr) hcs hT hd hcp hn hD hS hgf hgc hB hx0
  have w2 := W04_pos (Rr := Rr) hcs hT hd hcp hn hD hS hgf hgc hB hy0
  have hl := Real.log_le_log hx0 hxy
  unfold F04
  rw [Real.log_div (by positivity) (by positivity), Real.log_div (by positivity) (by positivity),
    Real.log_mul p1.ne' hgf.ne', Real.log_mul p2.ne' hgf.ne', abs_le]
  constructor <;> linarith

/-- the step with wave heights cut off below is a contraction everywhere -/
theorem G04_lip (hBc : B * gf ≤ 0.75 * Rc) (x y : ℝ) (hx : 0 < x) (hy : 0 < y) :
    |Real.log (F04 cs ca T d cp n D S Rc Rr B gf gc (max x (Rc / (5.1 * gf)))) -
      Real.log (F04 cs ca T d cp n D S Rc Rr B gf gc (max y (Rc / (5.1 * gf))))| ≤
      0.99 * |Real.log x - Real.log y| := by
  have hm : 0 < Rc / (5.1 * gf) := by positivity
  have key : ∀ x y : ℝ, 0 < x → x ≤ y →
    |Real.log (F04 cs ca T d cp n D S Rc Rr B gf gc (max x (Rc / (5.1 * gf)))) -
      Real.log (F04 cs ca T d cp n D S Rc Rr B gf gc (max y (Rc / (5.1 * gf))))| ≤
      0.99 * |Real.log x - Real.log y| := by
    intro x y hx hxy
    have h := F04_lip hcs hca hT hd hcp hn hD hS hRc hRr hB hgf hgc hBc
      (le_max_right x (Rc / (5.1 * gf))) (max_le_max_right (Rc / (5.1 * gf)) hxy)
    refine h.trans ?_
    gcongr
    rw [abs_sub_comm, abs_of_nonneg (sub_nonneg.mpr (Real.log_le_log hx hxy))]
    generalize Rc / (5.1 * gf) = m at *
    have l1 := Real.log_le_log hx hxy
    rcases le_total x m with h1 | h1 <;> rcases le_total y m with h2 | h2
    · rw [max_eq_right h1, max_eq_right h2]; linarith
    · rw [max_eq_right h1, max_eq_left h2]
      have := Real.log_le_log hx h1
      linarith
    · have : x = m := le_antisymm (hxy.trans h2) h1
      rw [max_eq_left h1, max_eq_right h2]
      have := Real.log_le_log (hx.trans_le hxy) h2
      have : x = y := le_antisymm hxy (h2.trans h1)
      subst this
      have : x = m := le_antisymm h2 h1
      rw [this]
    · rw [max_eq_left h1, max_eq_left h2]
  rcases le_total x y with h | h
  · exact key x y hx h
  · rw [abs_sub_comm, abs_sub_comm (Real.log x)]; exact key y x hy h

end

section
variable {ca cp gf gc T Rc Rr B N D S rr rw cs : ℝ} (hca : 0 < ca) (hcp : 0 < cp) (hgf : 0 < gf)
  (hgc : 0 < gc) (hT : 0 < T) (hB : 0 ≤ B) (hN : 0 < N) (hw : 0 < rw) (hr : rw < rr) (hcs : 0 < cs)
  (hD : 0 < D) (hS : 0 < S)
include hca hcp hgf hgc hT hB hN hw hr hcs hD hS

theorem step04_eval (k : ℕ) (i0 : PF) (z : Option PF) (x : ℝ) (hx : 0 < x) :
    height_step (fin ca) (fin cp) (fin gf) (fin gc) (fin S) (fin T) (fin Rc) (fin Rr) (fin B) (fin N)
      (fin D) (fin ((rr - rw) / rw)) (fin cs) ⟨k, fin x, i0, z⟩ =
    ⟨k + 1, fin (F04 cs ca T √((rr - rw) / rw) cp √N D S Rc Rr B gf gc x), fin x,
      some (fin (W04 cs T √((rr - rw) / rw) cp √N D S Rr B gf gc x + Rc))⟩ := by
  have hDe := div_pos (sub_pos.mpr hr) hw
  unfold height_step
  dsimp only
  rw [u04_eval hcp hgf hgc hx hT hB hN hw hr hcs hD hS hDe]
  simp only [sci_eq]
  rw [z_eval hx hB hgf hgc (by norm_num) (by norm_num) (by norm_num),
    invH_eval hT hca (by norm_num) (by norm_num) hx hgf]
  rfl

/-- what the solver returns -/
theorem height04_eval {n : ℕ} {t x0 : ℝ} (M : PF) (hRc : 0 < Rc)
    (hx0 : x0 = (Rc + 0.5) / (2.552 * gf)) (hn : 1 ≤ n) : ∃ k < n,
    (calculate_maximum_significant_wave_height_Hs (fin ca) (fin cp) (fin gf) (fin gc) (fin S) (fin T)
      (fin Rc) (fin Rr) (fin B) (fin N) (fin D) M (fin rr) (fin rw) (fin cs) (fin t) n).res =
        .ok (fin ((F04 cs ca T √((rr - rw) / rw) cp √N D S Rc Rr B gf gc)^[k + 1] x0)) ∧
    (nonconv ∈ (calculate_maximum_significant_wave_height_Hs (fin ca) (fin cp) (fin gf) (fin gc)
      (fin S) (fin T) (fin Rc) (fin Rr) (fin B) (fin N) (fin D) M (fin rr) (fin rw) (fin cs) (fin t)
      n).warns ↔ k + 1 = n) ∧
    (k + 1 = n ∨ |(F04 cs ca T √((rr - rw) / rw) cp √N D S Rc Rr B gf gc)^[k + 1] x0 -
      (F04 cs ca T √((rr - rw) / rw) cp √N D S Rc Rr B gf gc)^[k] x0| ≤ t) ∧
    ∀ j < k, t < |(F04 cs ca T √((rr - rw) / rw) cp √N D S Rc Rr B gf gc)^[j + 1] x0 -
      (F04 cs ca T √((rr - rw) / rw) cp √N D S Rc Rr B gf gc)^[j] x0| := by
  have hd : 0 < √((rr - rw) / rw) := Real.sqrt_pos.mpr (div_pos (sub_pos.mpr hr) hw)
  have hsn := Real.sqrt_pos.mpr hN
  have hx : 0 < x0 := by rw [hx0]; positivity
  obtain ⟨k, hk, e, h1, h2⟩ := rear_loop (t := t) hx
    (F04_pos (Rr := Rr) hcs hca hT hd hcp hsn hD hS hRc hB hgf hgc)
    (step04_eval (Rr := Rr) (Rc := Rc) hca hcp hgf hgc hT hB hN hw hr hcs hD hS) hn
  obtain ⟨De, hDe, hDD, eD⟩ := Delta_eval hw hr
  have e0 : ((fin Rc + 0.5) / (2.552 * fin gf) : PF) = fin x0 := by
    rw [hx0]; pf_eval []
  refine ⟨k, hk, ?_, ?_, h1, h2⟩
  · unfold calculate_maximum_significant_wave_height_Hs
    dsimp only
    rw [use_Dn50, PyM.bind_ok, eD, hDD, e0]
    dsimp only
    rw [e]
    by_cases hw : k + 1 ≥ n
    · simp [hw]
    · simp [hw]
  · unfold calculate_maximum_significant_wave_height_Hs
    dsimp only
    rw [use_Dn50, PyM.bind_ok, eD, hDD, e0]
    dsimp only
    rw [e]
    by_cases hw : k + 1 ≥ n
    · have : k + 1 = n := by omega
      simp [hw, this, nonconv]
    · have h3 : ¬ (k + 1 = n) := by omega
      simp only [hw, if_false, h3, iff_false]
      rw [PyM.bind_warns_of_ok (check04_res ..)]
      simp only [PyM.pure_def, List.append_nil, List.nil_append]
      exact check04_no_text _ _ _ _ _ _ _ _ _ _ _ _ _

/-- the velocity that a run-up level of `w` above the crest gives -/
theorem uX_W {x : ℝ} (hx : 0 < x) {De : ℝ} (hDe : 0 < De) : uX x Rc B gf gc
    (W04 cs T √De cp √N D S Rr B gf gc x + Rc) =
    u04 cs T √De cp (1 + 10 * Real.exp (-Rr / x)) √N D S := by
  have hX : 0 < 1 + 10 * Real.exp (-Rr / x) := by positivity
  have hp := u04_pos hcs hT (Real.sqrt_pos.mpr hDe) hcp hX (Real.sqrt_pos.mpr hN) hD hS
  exact u_of_z hx hB hgf hgc (by norm_num) (by norm_num) (by norm_num) hp.le

theorem z1p_eval {x : ℝ} (hx : 0 < x) :
    VanGent2001.calculate_wave_runup_height_z1p (fin x) (fin T) (fin gf) (fin ca) =
      fin (rf 1.45 5.1 (xi x T ca) * gf * x) := by
  unfold VanGent2001.calculate_wave_runup_height_z1p
  simp only [sci_eq]
  exact zX_eval hT hca (by norm_num) (by norm_num) hx

/-- the crest velocity determines the run-up level -/
theorem uX_inj {x z z' : ℝ} (hx : 0 < x) (h1 : Rc ≤ z) (h2 : Rc ≤ z')
    (h : uX x Rc B gf gc z = uX x Rc B gf gc z') : z = z' := by
  have e1 := z_of_u (cu1 := 1.7) (cu2 := 0.1) (g := 9.81) hx hB hgf hgc (by norm_num) (by norm_num)
    (by norm_num) h1
  have e2 := z_of_u (cu1 := 1.7) (cu2 := 0.1) (g := 9.81) hx hB hgf hgc (by norm_num) (by norm_num)
    (by norm_num) h2
  unfold uX at h
  rw [h] at e1
  exact e1.symm.trans e2

theorem fixed04_iff {x : ℝ} (M : PF) (hRc : 0 < Rc) (hx : 0 < x) :
    F04 cs ca T √((rr - rw) / rw) cp √N D S Rc Rr B gf gc x = x ↔
    ∃ z : ℝ, Rc < z ∧
      VanGent2001.calculate_wave_runup_height_z1p (fin x) (fin T) (fin gf) (fin ca) = fin z ∧
      (calculate_damage_number_S (fin ca) (fin cp) (fin gf) (fin gc) (fin x) (fin T) (fin Rc)
      (fin Rr) (fin B) (fin N) (fin D) M (fin rr) (fin rw) (fin cs)).res = .ok (fin S) := by
  have hDe := div_pos (sub_pos.mpr hr) hw
  have hd := Real.sqrt_pos.mpr hDe
  have hsn := Real.sqrt_pos.mpr hN
  have hX : 0 < 1 + 10 * Real.exp (-Rr / x) := by positivity
  have hp := rfxi_pos hT hca (c0 := 1.45) (c1 := 5.1) (by norm_num) (by norm_num) hx
  have hz := z1p_eval hca hcp hgf hgc hT hB hN hw hr hcs hD hS hx
  have hW := W04_pos (Rr := Rr) hcs hT hd hcp hsn hD hS hgf hgc hB hx
  have hu := uX_W (Rr := Rr) (Rc := Rc) hca hcp hgf hgc hT hB hN hw hr hcs hD hS hx hDe
  have e : F04 cs ca T √((rr - rw) / rw) cp √N D S Rc Rr B gf gc x = x ↔
      W04 cs T √((rr - rw) / rw) cp √N D S Rr B gf gc x + Rc = rf 1.45 5.1 (xi x T ca) * gf * x := by
    unfold F04; rw [div_eq_iff (mul_pos hp hgf).ne', mul_comm x]
  rw [e]
  constructor
  · intro h
    have hzR : Rc < rf 1.45 5.1 (xi x T ca) * gf * x := by rw [← h]; linarith
    refine ⟨_, hzR, hz, ?_⟩
    rw [S04_eval M hcp hgf hgc hx hT hB hN hw hr hcs hD hz hzR, ← h, hu,
      S04_u04 hcs hT hd hcp hX hsn hD hS]
  · rintro ⟨z, hzR, hz2, hdm⟩
    rw [S04_eval M hcp hgf hgc hx hT hB hN hw hr hcs hD hz2 hzR, Except.ok.injEq, fin_inj] at hdm
    rw [hz, fin_inj] at hz2
    rw [hz2]
    apply uX_inj hca hcp hgf hgc hT hB hN hw hr hcs hD hS hx (by linarith) hzR.le
    rw [hu]
    have := u04_S04 hcs hT hd hcp hX hsn (uX_pos hgf hgc hx hB hzR) hD
    rw [hdm] at this
    exact this
end
end RearProof

section
open VanGentPozueta2004 RearProof
variable (ca cp gf gc T Rc Rr B N D S rr rw cs : ℝ) (M : PF) (hca : 0 < ca) (hcp : 0 < cp)
  (hgf : 0 < gf) (hgc : 0 < gc) (hT : 0 < T) (hRc : 0 < Rc) (hRr : 0 ≤ Rr) (hB : 0 ≤ B) (hN : 0 < N)
  (hw : 0 < rw) (hr : rw < rr) (hcs : 0 < cs) (hD : 0 < D) (hS : 0 < S)
  (hBc : B * gf ≤ 0.75 * Rc)
include hca hcp hgf hgc hT hRc hRr hB hN hw hr hcs hD hS hBc

/-- C66, for crests that are not too wide (`Bc * gamma_f ≤ 0.75 * Rc`; for wide crests the
iteration need not settle, see `C66_wide_crest_refuted`): there is exactly one wave height `p` with the requested damage
whose run-up passes the crest, and the solver returns a wave height that is

* within `99 * t / (H - t)` of it in logarithms, if it does not warn about convergence,
* within `0.99 ^ n` of the starting distance, if it does. -/
theorem C66_solves_partial : ∃ p : ℝ, 0 < p ∧
    (∀ H : ℝ, 0 < H → ((∃ z : ℝ, Rc < z ∧
      VanGent2001.calculate_wave_runup_height_z1p (fin H) (fin T) (fin gf) (fin ca) = fin z ∧
      (calculate_damage_number_S (fin ca) (fin cp) (fin gf) (fin gc) (fin H) (fin T) (fin Rc)
      (fin Rr) (fin B) (fin N) (fin D) M (fin rr) (fin rw) (fin cs)).res = .ok (fin S)) ↔ H = p)) ∧
    ∀ (t : ℝ) (n : ℕ), 0 ≤ t → 1 ≤ n → ∃ H : ℝ, 0 < H ∧
      (calculate_maximum_significant_wave_height_Hs (fin ca) (fin cp) (fin gf) (fin gc) (fin S)
        (fin T) (fin Rc) (fin Rr) (fin B) (fin N) (fin D) M (fin rr) (fin rw) (fin cs) (fin t)
        n).res = .ok (fin H) ∧
      (.text "Maximum number of iterations reached, convergence not achieved" ∉
        (calculate_maximum_significant_wave_height_Hs (fin ca) (fin cp) (fin gf) (fin gc) (fin S)
        (fin T) (fin Rc) (fin Rr) (fin B) (fin N) (fin D) M (fin rr) (fin rw) (fin cs) (fin t)
        n).warns → t < H → |Real.log H - Real.log p| ≤ 99 * (t / (H - t))) ∧
      (.text "Maximum number of iterations reached, convergence not achieved" ∈
        (calculate_maximum_significant_wave_height_Hs (fin ca) (fin cp) (fin gf) (fin gc) (fin S)
        (fin T) (fin Rc) (fin Rr) (fin B) (fin N) (fin D) M (fin rr) (fin rw) (fin cs) (fin t)
        n).warns → |Real.log H - Real.log p| ≤
          0.99 ^ n * |Real.log ((Rc + 0.5) / (2.552 * gf)) - Real.log p|) := by
  have hd : 0 < √((rr - rw) / rw) := Real.sqrt_pos.mpr (div_pos (sub_pos.mpr hr) hw)
  have hsn := Real.sqrt_pos.mpr hN
  have hm : 0 < Rc / (5.1 * gf) := by positivity
  have hpos := F04_pos (Rr := Rr) hcs hca hT hd hcp hsn hD hS hRc hB hgf hgc
  have hge := fun x hx => F04_ge (x := x) (Rr := Rr) hcs hca hT hd hcp hsn hD hS hRc hB hgf hgc hx
  have hlip := G04_lip hcs hca hT hd hcp hsn hD hS hRc hRr hB hgf hgc hBc
  have hfx := fun x hx =>
    fixed04_iff (x := x) (Rr := Rr) hca hcp hgf hgc hT hB hN hw hr hcs hD hS M hRc hx
  have hev := fun (n : ℕ) t hn => height04_eval (n := n) (t := t) (Rr := Rr) hca hcp hgf hgc hT hB hN
    hw hr hcs hD hS M hRc rfl hn
  generalize F04 cs ca T √((rr - rw) / rw) cp √N D S Rc Rr B gf gc = F at *
  generalize hmm : Rc / (5.1 * gf) = m at *
  have hx0m : m ≤ (Rc + 0.5) / (2.552 * gf) := by
    rw [← hmm]
    apply div_le_div₀ (by positivity) (by linarith) (by positivity)
    gcongr; norm_num
  generalize (Rc + 0.5) / (2.552 * gf) = x0 at *
  have hx0 := lt_of_lt_of_le hm hx0m
  obtain ⟨p, hp, hfix, huniq, hgeo⟩ := log_contraction (fun x => F (max x m)) 0.99 (by norm_num)
    (by norm_num) (fun x hx => hpos _ (lt_max_of_lt_left hx)) hlip
  have hpm : m ≤ p := by rw [← hfix]; exact hge _ (lt_max_of_lt_left hp)
  have hfix' : F p = p := by have := hfix; simp only [max_eq_left hpm] at this; exact this
  have hit : ∀ k, m ≤ F^[k] x0 ∧ F^[k] x0 = (fun x => F (max x m))^[k] x0 := by
    intro k
    induction k with
    | zero => exact ⟨hx0m, rfl⟩
    | succ k ih =>
      rw [Function.iterate_succ_apply', Function.iterate_succ_apply', ← ih.2, max_eq_left ih.1]
      exact ⟨hge _ (lt_of_lt_of_le hm ih.1), rfl⟩
  refine ⟨p, hp, fun H hH => ?_, fun t n ht hn => ?_⟩
  · rw [← hfx H hH]
    constructor
    · intro h
      apply huniq H hH
      have : m ≤ H := by rw [← h]; exact hge _ hH
      simp only [max_eq_left this]; exact h
    · rintro rfl; exact hfix'
  · obtain ⟨k, hk, h1, h2, h3, h4⟩ := hev n t hn
    have hHk := lt_of_lt_of_le hm (hit k).1
    have hH := lt_of_lt_of_le hm (hit (k + 1)).1
    refine ⟨_, hH, h1, fun hw htH => ?_, fun hw => ?_⟩
    · have h5 : |F^[k + 1] x0 - F^[k] x0| ≤ t := by
        rcases h3 with h3 | h3
        · exact absurd (h2.mpr h3) hw
        · exact h3
      have h6 := abs_log_sub_le ht htH hHk h5
      have h7 := log_a_posteriori (fun x => F (max x m)) 0.99 p (F^[k] x0) (by norm_num) hHk hp hfix
        hlip
      simp only [max_eq_left (hit k).1] at h7
      rw [← Function.iterate_succ_apply' F k] at h7
      refine h7.trans ?_
      rw [show (0.99 : ℝ) / (1 - 0.99) = 99 by norm_num]
      gcongr
    · have := (hgeo x0 hx0 (k + 1)).2
      rw [← (hit (k + 1)).2] at this
      rwa [h2.mp hw] at this ⊢

example := C66_solves_partial (ca := 3) (cp := 1) (gf := 0.5) (gc := 1) (T := 8) (Rc := 3) (Rr := 1)
  (B := 4) (N := 3000) (D := 1) (S := 2) (rr := 2650) (rw := 1025) (cs := 1) (M := .fin 5000) (by norm_num)
  (by norm_num) (by norm_num) (by norm_num) (by norm_num) (by norm_num) (by norm_num) (by norm_num)
  (by norm_num) (by norm_num) (by norm_num) (by norm_num) (by norm_num) (by norm_num) (by norm_num)

/-- C66: with a positive tolerance the convergence warning disappears once the iteration limit is
large enough, and the answer no longer depends on the limit (same restriction on the crest width) -/
theorem C66_terminates_partial (t : ℝ) (ht : 0 < t) : ∃ (n0 : ℕ) (H : ℝ), ∀ n ≥ n0,
      (calculate_maximum_significant_wave_height_Hs (fin ca) (fin cp) (fin gf) (fin gc) (fin S)
        (fin T) (fin Rc) (fin Rr) (fin B) (fin N) (fin D) M (fin rr) (fin rw) (fin cs) (fin t)
        n).res = .ok (fin H) ∧
      .text "Maximum number of iterations reached, convergence not achieved" ∉
        (calculate_maximum_significant_wave_height_Hs (fin ca) (fin cp) (fin gf) (fin gc) (fin S)
        (fin T) (fin Rc) (fin Rr) (fin B) (fin N) (fin D) M (fin rr) (fin rw) (fin cs) (fin t)
        n).warns := by
  have hd : 0 < √((rr - rw) / rw) := Real.sqrt_pos.mpr (div_pos (sub_pos.mpr hr) hw)
  have hsn := Real.sqrt_pos.mpr hN
  have hm : 0 < Rc / (5.1 * gf) := by positivity
  have hpos := F04_pos (Rr := Rr) hcs hca hT hd hcp hsn hD hS hRc hB hgf hgc
  have hge := fun x hx => F04_ge (x := x) (Rr := Rr) hcs hca hT hd hcp hsn hD hS hRc hB hgf hgc hx
  have hlip := G04_lip hcs hca hT hd hcp hsn hD hS hRc hRr hB hgf hgc hBc
  have hev := fun (n : ℕ) hn => height04_eval (n := n) (t := t) (Rr := Rr) hca hcp hgf hgc hT hB hN
    hw hr hcs hD hS M hRc rfl hn
  generalize F04 cs ca T √((rr - rw) / rw) cp √N D S Rc Rr B gf gc = F at *
  generalize hmm : Rc / (5.1 * gf) = m at *
  have hx0m : m ≤ (Rc + 0.5) / (2.552 * gf) := by
    rw [← hmm]
    apply div_le_div₀ (by positivity) (by linarith) (by positivity)
    gcongr; norm_num
  generalize (Rc + 0.5) / (2.552 * gf) = x0 at *
  have hx0 := lt_of_lt_of_le hm hx0m
  obtain ⟨p, hp, hfix, huniq, hgeo⟩ := log_contraction (fun x => F (max x m)) 0.99 (by norm_num)
    (by norm_num) (fun x hx => hpos _ (lt_max_of_lt_left hx)) hlip
  have hit : ∀ k, m ≤ F^[k] x0 ∧ F^[k] x0 = (fun x => F (max x m))^[k] x0 := by
    intro k
    induction k with
    | zero => exact ⟨hx0m, rfl⟩
    | succ k ih =>
      rw [Function.iterate_succ_apply', Function.iterate_succ_apply', ← ih.2, max_eq_left ih.1]
      exact ⟨hge _ (lt_of_lt_of_le hm ih.1), rfl⟩
  have htend := log_contraction_tendsto _ 0.99 p x0 (by norm_num) (by norm_num) hp (hgeo x0 hx0)
  have hex' := exists_close _ p x0 t ht htend
  have hex : ∃ n, |F^[n + 1] x0 - F^[n] x0| ≤ t := by
    obtain ⟨n, h⟩ := hex'
    exact ⟨n, by rw [(hit (n + 1)).2, (hit n).2]; exact h⟩
  refine ⟨Nat.find hex + 2, F^[Nat.find hex + 1] x0, fun n hn => ?_⟩
  obtain ⟨k, hk, h1, h2, h3, h4⟩ := hev n (by omega)
  have hle : k ≤ Nat.find hex := by
    by_contra h
    exact absurd (Nat.find_spec hex) (not_le.mpr (h4 _ (not_le.mp h)))
  have hne : k + 1 ≠ n := by omega
  have hge : Nat.find hex ≤ k := Nat.find_min' hex (h3.resolve_left hne)
  obtain rfl : k = Nat.find hex := le_antisymm hle hge
  exact ⟨h1, fun h => hne (h2.mp h)⟩

end

section
open VanGentPozueta2004 RearProof RunupProof VdMProof
variable (ca cp gf gc T Rc Rr B N D S rr rw cs : ℝ) (M : PF) (hca : 0 < ca) (hcp : 0 < cp)
  (hgf : 0 < gf) (hgc : 0 < gc) (hT : 0 < T) (hRc : 0 < Rc) (hB : 0 ≤ B) (hN : 0 < N)
  (hw : 0 < rw) (hr : rw < rr) (hcs : 0 < cs) (hD : 0 < D) (hS : 0 < S)
include hca hcp hgf hgc hT hRc hB hN hw hr hcs hD hS

/-- C66, for every crest width: a result returned without the convergence warning is within the
tolerance of a wave height `H0` whose damage `S0` is the requested one, up to the factor by which
the run-up above the crest would change if the run-up were scaled by `H / H0` -/
theorem C66_settled (t : ℝ) (n : ℕ) (hn : 1 ≤ n) : ∃ H : ℝ, 0 < H ∧
      (calculate_maximum_significant_wave_height_Hs (fin ca) (fin cp) (fin gf) (fin gc) (fin S)
        (fin T) (fin Rc) (fin Rr) (fin B) (fin N) (fin D) M (fin rr) (fin rw) (fin cs) (fin t)
        n).res = .ok (fin H) ∧
      (.text "Maximum number of iterations reached, convergence not achieved" ∉
        (calculate_maximum_significant_wave_height_Hs (fin ca) (fin cp) (fin gf) (fin gc) (fin S)
        (fin T) (fin Rc) (fin Rr) (fin B) (fin N) (fin D) M (fin rr) (fin rw) (fin cs) (fin t)
        n).warns → ∃ H0 z : ℝ, 0 < H0 ∧ |H - H0| ≤ t ∧
        VanGent2001.calculate_wave_runup_height_z1p (fin H0) (fin T) (fin gf) (fin ca) = fin z ∧
        (Rc < z → ∃ S0 : ℝ, (calculate_damage_number_S (fin ca) (fin cp) (fin gf) (fin gc) (fin H0)
          (fin T) (fin Rc) (fin Rr) (fin B) (fin N) (fin D) M (fin rr) (fin rw) (fin cs)).res =
            .ok (fin S0) ∧ S = S0 * ((z * (H / H0) - Rc) / (z - Rc)) ^ 3)) := by
  have hDe := div_pos (sub_pos.mpr hr) hw
  have hd := Real.sqrt_pos.mpr hDe
  have hsn := Real.sqrt_pos.mpr hN
  have hpos := F04_pos (Rr := Rr) hcs hca hT hd hcp hsn hD hS hRc hB hgf hgc
  obtain ⟨k, hk, h1, h2, h3, h4⟩ := height04_eval (n := n) (t := t) (Rr := Rr) hca hcp hgf hgc hT hB
    hN hw hr hcs hD hS M hRc rfl hn
  have hx0 : 0 < (Rc + 0.5) / (2.552 * gf) := by positivity
  have hHk := it_pos hx0 hpos k
  have hH := it_pos hx0 hpos (k + 1)
  refine ⟨_, hH, h1, fun hwn => ?_⟩
  have h5 := h3.resolve_left (fun h => hwn (h2.mpr h))
  rw [Function.iterate_succ_apply'] at h5 ⊢
  generalize (F04 cs ca T √((rr - rw) / rw) cp √N D S Rc Rr B gf gc)^[k]
    ((Rc + 0.5) / (2.552 * gf)) = x at *
  have hz := z1p_eval hca hcp hgf hgc hT hB hN hw hr hcs hD hS hHk
  have hp := rfxi_pos hT hca (c0 := 1.45) (c1 := 5.1) (by norm_num) (by norm_num) hHk
  refine ⟨x, _, hHk, h5, hz, fun hzR => ⟨_, S04_eval M hcp hgf hgc hHk hT hB hN hw hr hcs hD hz hzR,
    ?_⟩⟩
  have hX : 0 < 1 + 10 * Real.exp (-Rr / x) := by positivity
  have hW := W04_pos (Rr := Rr) hcs hT hd hcp hsn hD hS hgf hgc hB hHk
  have hu := uX_W (Rr := Rr) (Rc := Rc) hca hcp hgf hgc hT hB hN hw hr hcs hD hS hHk hDe
  have hS2 := S04_u04 hcs hT hd hcp hX hsn hD hS
  rw [← hu] at hS2
  have hZ : rf 1.45 5.1 (xi x T ca) * gf * x *
      (F04 cs ca T √((rr - rw) / rw) cp √N D S Rc Rr B gf gc x / x) - Rc =
      W04 cs T √((rr - rw) / rw) cp √N D S Rr B gf gc x := by
    unfold F04
    generalize rf 1.45 5.1 (xi x T ca) = A at *
    field_simp
    ring
  rw [hZ]
  generalize W04 cs T √((rr - rw) / rw) cp √N D S Rr B gf gc x = W at *
  generalize rf 1.45 5.1 (xi x T ca) * gf * x = z at *
  have hzz := sub_pos.mpr hzR
  have hrat : uX x Rc B gf gc (W + Rc) = uX x Rc B gf gc z * √(W / (z - Rc)) := by
    unfold uX
    rw [add_sub_cancel_right]
    have : √(W / (gf * x)) = √((z - Rc) / (gf * x)) * √(W / (z - Rc)) := by
      rw [← Real.sqrt_mul (by positivity)]
      congr 1
      field_simp
    rw [this]
    ring
  rw [← hS2, hrat]
  unfold S04
  have hup := uX_pos hgf hgc hHk hB hzR
  have hq : 0 < W / (z - Rc) := by positivity
  have h6 : (√(W / (z - Rc))) ^ (6.0 : ℝ) = (W / (z - Rc)) ^ 3 := by
    rw [Real.sqrt_eq_rpow, ← Real.rpow_mul hq.le, ← Real.rpow_natCast]
    norm_num
  rw [show uX x Rc B gf gc z * √(W / (z - Rc)) * T / (√((rr - rw) / rw) * D) =
    (uX x Rc B gf gc z * T / (√((rr - rw) / rw) * D)) * √(W / (z - Rc)) by ring,
    Real.mul_rpow (by positivity) (by positivity), h6]
  ring
end

-- an ordinary rear slope meets the hypotheses, crest width included
example : ∃ (n0 : ℕ) (H : ℝ), ∀ n ≥ n0,
      (VanGentPozueta2004.calculate_maximum_significant_wave_height_Hs (fin 2) (fin 2) (fin 0.5)
        (fin 0.6) (fin 5) (fin 8) (fin 3) (fin 3) (fin 4) (fin 2000) (fin 0.5) nan (fin 2650)
        (fin 1025) (fin 1e-12) (fin 0.001) n).res = .ok (fin H) ∧
      .text "Maximum number of iterations reached, convergence not achieved" ∉
        (VanGentPozueta2004.calculate_maximum_significant_wave_height_Hs (fin 2) (fin 2) (fin 0.5)
        (fin 0.6) (fin 5) (fin 8) (fin 3) (fin 3) (fin 4) (fin 2000) (fin 0.5) nan (fin 2650)
        (fin 1025) (fin 1e-12) (fin 0.001) n).warns :=
  C66_terminates_partial 2 2 0.5 0.6 8 3 3 4 2000 0.5 5 2650 1025 1e-12 nan (by norm_num)
    (by norm_num) (by norm_num) (by norm_num) (by norm_num) (by norm_num) (by norm_num)
    (by norm_num) (by norm_num) (by norm_num) (by norm_num) (by norm_num) (by norm_num)
    (by norm_num) (by norm_num) 0.001 (by norm_num)

end
