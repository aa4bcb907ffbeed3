import Verif.Lemmas.VdM
import Verif.Lemmas.Contraction
import Verif.Model.RearSlope

/-! # The Van Gent 2001 run-up factor: evaluation, monotonicity, Lipschitz bound -/

open Classical
open PF
open CorePhysics
noncomputable section

namespace RunupProof
open VdMProof

/-- run-up factor as a function of the surf similarity parameter -/
def rf (c0 c1 u : ℝ) : ℝ :=
  if u < 0.5 * c1 / c0 then c0 * u else c1 - 0.25 * c1 ^ 2 / c0 / u

section
variable {c0 c1 u v : ℝ} (h0 : 0 < c0) (h1 : 0 < c1)

/-- the same with the transition written out -/
theorem rf_eq : rf c0 c1 u = if u < c1 / (2 * c0) then c0 * u else c1 - c1 ^ 2 / (4 * c0 * u) := by
  unfold rf
  rw [show (0.5 * c1 / c0 : ℝ) = c1 / (2 * c0) by rw [div_eq_div_iff_comm]; norm_num; ring_nf]
  congr 2
  norm_num
  rw [div_div, div_eq_div_iff_comm]
  ring_nf

include h0 h1

theorem rf_pos (hu : 0 < u) : 0 < rf c0 c1 u := by
  rw [rf_eq]
  split_ifs with h
  · positivity
  · have h := not_lt.mp h
    rw [div_le_iff₀ (by positivity)] at h
    rw [sub_pos, div_lt_iff₀ (by positivity)]
    nlinarith

theorem rf_le (hu : 0 < u) : rf c0 c1 u ≤ c1 := by
  rw [rf_eq]
  split_ifs with h
  · rw [lt_div_iff₀ (by positivity)] at h; nlinarith
  · rw [sub_le_self_iff]; positivity

theorem rf_mono (hu : 0 < u) (huv : u ≤ v) : rf c0 c1 u ≤ rf c0 c1 v := by
  have hv : 0 < v := lt_of_lt_of_le hu huv
  rw [rf_eq, rf_eq]
  split_ifs with a b b
  · gcongr
  · have b := not_lt.mp b
    rw [div_le_iff₀ (by positivity)] at b
    rw [lt_div_iff₀ (by positivity)] at a
    have : c1 ^ 2 / (4 * c0 * v) ≤ c1 / 2 := by
      rw [div_le_div_iff₀ (by positivity) (by norm_num)]; nlinarith
    nlinarith
  · exact absurd (lt_of_le_of_lt huv b) a
  · gcongr

theorem rf_ratio (hu : 0 < u) (huv : u ≤ v) : rf c0 c1 v * u ≤ rf c0 c1 u * v := by
  have hv : 0 < v := lt_of_lt_of_le hu huv
  -- the plateau branch never exceeds the linear one
  have key : c1 - c1 ^ 2 / (4 * c0 * v) ≤ c0 * v := by
    rw [sub_le_iff_le_add, ← sub_le_iff_le_add', le_div_iff₀ (by positivity)]
    nlinarith [sq_nonneg (2 * c0 * v - c1)]
  rw [rf_eq, rf_eq]
  split_ifs with a b b
  · nlinarith
  · exact absurd (lt_of_le_of_lt huv a) b
  · nlinarith
  · have b := not_lt.mp b
    rw [div_le_iff₀ (by positivity)] at b
    have e : (c1 - c1 ^ 2 / (4 * c0 * u)) * v - (c1 - c1 ^ 2 / (4 * c0 * v)) * u =
        c1 * (v - u) * (4 * c0 * u * v - c1 * (u + v)) / (4 * c0 * u * v) := by
      field_simp; ring
    have : 0 ≤ c1 * (v - u) * (4 * c0 * u * v - c1 * (u + v)) / (4 * c0 * u * v) := by
      apply div_nonneg _ (by positivity)
      apply mul_nonneg (mul_nonneg h1.le (by linarith))
      nlinarith
    linarith

theorem rf_continuousOn : ContinuousOn (rf c0 c1) (Set.Ioi 0) := by
  have : rf c0 c1 = fun u => if u < c1 / (2 * c0) then c0 * u else c1 - c1 ^ 2 / (4 * c0 * u) := by
    funext u; exact rf_eq
  rw [this]
  apply ContinuousOn.if
  · rintro a ⟨ha, hb⟩
    have hb : a = c1 / (2 * c0) := by
      have := frontier_lt_subset_eq continuous_id continuous_const hb
      exact this
    subst hb
    field_simp; ring
  · exact (continuous_const.mul continuous_id).continuousOn
  · intro x hx
    have hx : x ≠ 0 := ne_of_gt hx.1
    apply ContinuousAt.continuousWithinAt
    apply ContinuousAt.sub continuousAt_const
    exact ContinuousAt.div continuousAt_const (continuousAt_const.mul continuousAt_id)
      (by positivity)

end

/-! ## dependence of the run-up factor on the wave height -/
section
variable {T c c0 c1 : ℝ} (hT : 0 < T) (hc : 0 < c) (h0 : 0 < c0) (h1 : 0 < c1)

theorem xi_sqrt {H : ℝ} (hH : 0 < H) : xi H T c * √H = xi 1 T c := by
  have := Real.pi_pos
  unfold xi
  rw [show 2 * Real.pi / 9.81 * H / T ^ 2 = (2 * Real.pi / 9.81 * 1 / T ^ 2) * H by ring,
    Real.sqrt_mul (by positivity)]
  have h2 : √(2 * Real.pi / 9.81 * 1 / T ^ 2) * √H ≠ 0 ∨ True := Or.inr trivial
  have h3 : √H ≠ 0 := (Real.sqrt_pos.mpr hH).ne'
  rw [div_mul_eq_mul_div, mul_div_mul_right _ _ h3]

include hT hc in
theorem xi_anti' {x y : ℝ} (hx : 0 < x) (hxy : x ≤ y) : xi y T c ≤ xi x T c := by
  have h1 := xi_sqrt (T := T) (c := c) hx
  have h2 := xi_sqrt (T := T) (c := c) (lt_of_lt_of_le hx hxy)
  have h3 := Real.sqrt_pos.mpr hx
  have h4 := Real.sqrt_le_sqrt hxy
  have h5 := xi_pos hx hT hc
  have h6 := xi_pos (lt_of_lt_of_le hx hxy) hT hc
  by_contra h; nlinarith

include hT hc h0 h1

theorem rfxi_anti {x y : ℝ} (hx : 0 < x) (hxy : x ≤ y) :
    rf c0 c1 (xi y T c) ≤ rf c0 c1 (xi x T c) :=
  rf_mono h0 h1 (xi_pos (lt_of_lt_of_le hx hxy) hT hc) (xi_anti' hT hc hx hxy)

theorem rfxi_sqrt {x y : ℝ} (hx : 0 < x) (hxy : x ≤ y) :
    rf c0 c1 (xi x T c) * √x ≤ rf c0 c1 (xi y T c) * √y := by
  have hy := lt_of_lt_of_le hx hxy
  have h := rf_ratio h0 h1 (xi_pos hy hT hc) (xi_anti' hT hc hx hxy)
  have e1 := xi_sqrt (T := T) (c := c) hx
  have e2 := xi_sqrt (T := T) (c := c) hy
  have p1 := Real.sqrt_pos.mpr hx
  have p2 := Real.sqrt_pos.mpr hy
  have p3 := xi_pos one_pos hT hc
  have e1' : xi x T c = xi 1 T c / √x := by rw [← e1]; field_simp
  have e2' : xi y T c = xi 1 T c / √y := by rw [← e2]; field_simp
  generalize rf c0 c1 (xi x T c) = A at *
  generalize rf c0 c1 (xi y T c) = B at *
  rw [e1', e2'] at h
  have h3 := mul_le_mul_of_nonneg_right h (by positivity : 0 ≤ √x * √y / xi 1 T c)
  have l1 : A * (xi 1 T c / √y) * (√x * √y / xi 1 T c) = A * √x := by field_simp
  have l2 : B * (xi 1 T c / √x) * (√x * √y / xi 1 T c) = B * √y := by field_simp
  rwa [l1, l2] at h3

theorem rfxi_pos {x : ℝ} (hx : 0 < x) : 0 < rf c0 c1 (xi x T c) := rf_pos h0 h1 (xi_pos hx hT hc)

/-- run-up height as a real function -/
theorem zX_eval {H gam : ℝ} (hH : 0 < H) :
    VanGent2001.calculate_wave_runup_height_zXp (fin H) (fin T) (fin gam) (fin c) (fin c0)
      (fin c1) = fin (rf c0 c1 (xi H T c) * gam * H) := by
  have hx := xi_pos hH hT hc
  unfold VanGent2001.calculate_wave_runup_height_zXp rf
  dsimp only
  rw [xi_eval hH hT hc]
  generalize xi H T c = x at *
  pf_eval []
  split_ifs <;> rfl

theorem invH_eval {H gam z : ℝ} (hH : 0 < H) (hg : 0 < gam) :
    VanGent2001._invert_for_Hs (fin H) (fin z) (fin T) (fin gam) (fin c) (fin c0) (fin c1) =
      fin (z / (rf c0 c1 (xi H T c) * gam)) := by
  have hx := xi_pos hH hT hc
  unfold VanGent2001._invert_for_Hs
  dsimp only
  rw [xi_eval hH hT hc]
  generalize xi H T c = x at *
  have hp := rf_pos h0 h1 hx
  unfold rf at *
  split_ifs at hp ⊢ with h
  · pf_eval [h]
    exact whr_true trivial _ _
  · pf_eval [h]
    exact if_neg not_false

theorem runup_strictMono {gam x y : ℝ} (hg : 0 < gam) (hx : 0 < x) (hxy : x < y) :
    rf c0 c1 (xi x T c) * gam * x < rf c0 c1 (xi y T c) * gam * y := by
  have h := rfxi_sqrt hT hc h0 h1 hx hxy.le
  have p1 := Real.sqrt_pos.mpr hx
  have p3 := Real.sqrt_lt_sqrt hx.le hxy
  have p4 := rfxi_pos hT hc h0 h1 hx
  have p5 := rfxi_pos hT hc h0 h1 (hx.trans hxy)
  have p2 := Real.sqrt_pos.mpr (hx.trans hxy)
  have e1 := Real.mul_self_sqrt hx.le
  have e2 := Real.mul_self_sqrt (hx.trans hxy).le
  generalize rf c0 c1 (xi x T c) = A at *
  generalize rf c0 c1 (xi y T c) = B at *
  have h3 : A * x < B * y := by
    rw [← e1, ← e2]
    have := mul_lt_mul' h p3 p1.le (by positivity)
    linarith
  nlinarith

theorem runup_continuousOn (gam : ℝ) :
    ContinuousOn (fun H => rf c0 c1 (xi H T c) * gam * H) (Set.Ioi 0) := by
  apply ContinuousOn.mul _ continuousOn_id
  apply ContinuousOn.mul _ continuousOn_const
  apply (rf_continuousOn h0 h1).comp (t := Set.Ioi 0)
  · intro x hx
    have hx : 0 < x := hx
    have := Real.pi_pos
    apply ContinuousAt.continuousWithinAt
    unfold xi
    apply ContinuousAt.div continuousAt_const
    · apply Real.continuous_sqrt.continuousAt.comp
      exact ((continuousAt_const.mul continuousAt_id).div_const _)
    · apply (Real.sqrt_pos.mpr _).ne'
      positivity
  · intro x hx; exact xi_pos hx hT hc

end

/-- a sufficient condition for contraction by one half in logarithms -/
theorem log_half_lipschitz {F : ℝ → ℝ} (hF : ∀ x, 0 < x → 0 < F x)
    (hl : ∀ x y, 0 < x → x ≤ y → F x * √x ≤ F y * √y)
    (hu : ∀ x y, 0 < x → x ≤ y → F y * √x ≤ F x * √y) (x y : ℝ) (hx : 0 < x) (hy : 0 < y) :
    |Real.log (F x) - Real.log (F y)| ≤ 1 / 2 * |Real.log x - Real.log y| := by
  have key : ∀ x y, 0 < x → x ≤ y →
      |Real.log (F x) - Real.log (F y)| ≤ 1 / 2 * |Real.log x - Real.log y| := by
    intro x y hx hxy
    have hy := lt_of_lt_of_le hx hxy
    have s1 := Real.sqrt_pos.mpr hx
    have s2 := Real.sqrt_pos.mpr hy
    have a := Real.log_le_log (by have := hF x hx; positivity) (hl x y hx hxy)
    have b := Real.log_le_log (by have := hF y hy; positivity) (hu x y hx hxy)
    have c := Real.log_le_log hx hxy
    rw [Real.log_mul (hF _ hx).ne' s1.ne', Real.log_mul (hF _ hy).ne' s2.ne', Real.log_sqrt hx.le,
      Real.log_sqrt hy.le] at a
    rw [Real.log_mul (hF _ hy).ne' s1.ne', Real.log_mul (hF _ hx).ne' s2.ne', Real.log_sqrt hx.le,
      Real.log_sqrt hy.le] at b
    rw [abs_sub_comm (Real.log x), abs_of_nonneg (sub_nonneg.mpr c), abs_le]
    constructor <;> linarith
  rcases le_total x y with h | h
  · exact key x y hx h
  · rw [abs_sub_comm, abs_sub_comm (Real.log x)]; exact key y x hy h

end RunupProof
end
