import Mathlib.Topology.MetricSpace.Contracting
import Mathlib.Analysis.SpecialFunctions.Log.Basic
import Mathlib.Analysis.SpecialFunctions.Pow.Real

/-! # Iterations that contract on a logarithmic scale -/

noncomputable section
open Filter Topology

/-- a map of the positive numbers that contracts logarithms has one fixed point, approached
geometrically from every start -/
theorem log_contraction (F : ℝ → ℝ) (q : ℝ) (hq0 : 0 ≤ q) (hq1 : q < 1) (hF : ∀ x, 0 < x → 0 < F x)
    (hL : ∀ x y, 0 < x → 0 < y →
      |Real.log (F x) - Real.log (F y)| ≤ q * |Real.log x - Real.log y|) :
    ∃ p, 0 < p ∧ F p = p ∧ (∀ x, 0 < x → F x = x → x = p) ∧
      ∀ x, 0 < x → ∀ n : ℕ, 0 < F^[n] x ∧
        |Real.log (F^[n] x) - Real.log p| ≤ q ^ n * |Real.log x - Real.log p| := by
  let g : ℝ → ℝ := fun u => Real.log (F (Real.exp u))
  have hg : ContractingWith ⟨q, hq0⟩ g := by
    refine ⟨hq1, LipschitzWith.of_dist_le_mul fun u v => ?_⟩
    have := hL _ _ (Real.exp_pos u) (Real.exp_pos v)
    rwa [Real.log_exp, Real.log_exp] at this
  have hfix : g (hg.fixedPoint g) = hg.fixedPoint g := hg.fixedPoint_isFixedPt
  set u := hg.fixedPoint g
  have hp : F (Real.exp u) = Real.exp u := by
    rw [← Real.exp_log (hF _ (Real.exp_pos u))]
    exact congrArg Real.exp hfix
  have main : ∀ x, 0 < x → ∀ n : ℕ, 0 < F^[n] x ∧
      |Real.log (F^[n] x) - Real.log (Real.exp u)| ≤
        q ^ n * |Real.log x - Real.log (Real.exp u)| := by
    intro x hx n
    induction n with
    | zero => simp [hx]
    | succ n ih =>
      rw [Function.iterate_succ_apply']
      refine ⟨hF _ ih.1, ?_⟩
      have h := hL _ _ ih.1 (Real.exp_pos u)
      rw [hp] at h
      calc _ ≤ _ := h
        _ ≤ q * (q ^ n * |Real.log x - Real.log (Real.exp u)|) := by gcongr; exact ih.2
        _ = _ := by ring
  refine ⟨Real.exp u, Real.exp_pos u, hp, ?_, main⟩
  intro x hx he
  have h := hL x (Real.exp u) hx (Real.exp_pos u)
  rw [he, hp] at h
  have h0 := abs_nonneg (Real.log x - Real.log (Real.exp u))
  have : |Real.log x - Real.log (Real.exp u)| = 0 := by nlinarith
  exact Real.log_injOn_pos hx (Real.exp_pos u) (sub_eq_zero.mp (abs_eq_zero.mp this))

/-- … in particular the iterates converge and consecutive ones get arbitrarily close -/
theorem log_contraction_tendsto (F : ℝ → ℝ) (q p x : ℝ) (hq0 : 0 ≤ q) (hq1 : q < 1) (hp : 0 < p)
    (h : ∀ n : ℕ, 0 < F^[n] x ∧
        |Real.log (F^[n] x) - Real.log p| ≤ q ^ n * |Real.log x - Real.log p|) :
    Tendsto (fun n => F^[n] x) atTop (𝓝 p) := by
  have h1 : Tendsto (fun n => Real.log (F^[n] x)) atTop (𝓝 (Real.log p)) := by
    rw [tendsto_iff_dist_tendsto_zero]
    refine squeeze_zero (fun n => dist_nonneg) (fun n => (h n).2) ?_
    have := (tendsto_pow_atTop_nhds_zero_of_lt_one hq0 hq1).mul_const |Real.log x - Real.log p|
    rwa [zero_mul] at this
  have h2 := (Real.continuous_exp.tendsto _).comp h1
  rw [Real.exp_log hp] at h2
  refine h2.congr fun n => ?_
  simp [Real.exp_log (h n).1]

theorem exists_close (F : ℝ → ℝ) (p x t : ℝ) (ht : 0 < t)
    (h : Tendsto (fun n => F^[n] x) atTop (𝓝 p)) : ∃ n, |F^[n + 1] x - F^[n] x| ≤ t := by
  have h1 : Tendsto (fun n => F^[n + 1] x - F^[n] x) atTop (𝓝 0) := by
    have := (h.comp (tendsto_add_atTop_nat 1)).sub h
    rwa [sub_self] at this
  obtain ⟨n, hn⟩ := (Metric.tendsto_atTop.mp h1 t ht)
  refine ⟨n, ?_⟩
  have := hn n le_rfl
  rw [dist_zero_right, Real.norm_eq_abs] at this
  exact this.le

/-- numbers that differ by at most `t` have close logarithms -/
theorem abs_log_sub_le {x y t : ℝ} (ht : 0 ≤ t) (hx : t < x) (hy : 0 < y) (h : |x - y| ≤ t) :
    |Real.log x - Real.log y| ≤ t / (x - t) := by
  have hx0 : 0 < x := lt_of_le_of_lt ht hx
  have h' := abs_le.mp h
  have hy2 : x - t ≤ y := by linarith
  rcases le_total x y with hxy | hxy
  · rw [abs_sub_comm, abs_of_nonneg (sub_nonneg.mpr (Real.log_le_log hx0 hxy)),
      ← Real.log_div hy.ne' hx0.ne']
    have h1 := Real.log_le_sub_one_of_pos (div_pos hy hx0)
    have h2 : y / x - 1 = (y - x) / x := by field_simp
    rw [h2] at h1
    calc _ ≤ _ := h1
      _ ≤ t / (x - t) := div_le_div₀ ht (by linarith) (by linarith) (by linarith)
  · rw [abs_of_nonneg (sub_nonneg.mpr (Real.log_le_log hy hxy)), ← Real.log_div hx0.ne' hy.ne']
    have h1 := Real.log_le_sub_one_of_pos (div_pos hx0 hy)
    have h2 : x / y - 1 = (x - y) / y := by field_simp
    rw [h2] at h1
    calc _ ≤ _ := h1
      _ ≤ t / (x - t) := div_le_div₀ ht (by linarith) (by linarith) (by linarith)

/-- `x ↦ A + B x^q` changes logarithms by at most a factor |q| -/
theorem log_affine_pow {A B q : ℝ} (hA : 0 ≤ A) (hB : 0 < B) {x y : ℝ} (hx : 0 < x) (hy : 0 < y) :
    |Real.log (A + B * x ^ q) - Real.log (A + B * y ^ q)| ≤ |q| * |Real.log x - Real.log y| := by
  have key : ∀ x y : ℝ, 0 < x → 0 < y → x ^ q ≤ y ^ q →
      |Real.log (A + B * x ^ q) - Real.log (A + B * y ^ q)| ≤ |q| * |Real.log x - Real.log y| := by
    intro x y hx hy hxy
    have hu : 0 < x ^ q := by positivity
    have hv : 0 < y ^ q := by positivity
    have h1 : A + B * x ^ q ≤ A + B * y ^ q := by gcongr
    rw [abs_sub_comm, abs_of_nonneg (sub_nonneg.mpr (Real.log_le_log (by positivity) h1)),
      ← Real.log_div (by positivity) (by positivity), ← abs_mul, mul_sub,
      ← Real.log_rpow hx, ← Real.log_rpow hy, abs_sub_comm,
      abs_of_nonneg (sub_nonneg.mpr (Real.log_le_log hu hxy)), ← Real.log_div hv.ne' hu.ne']
    apply Real.log_le_log (by positivity)
    rw [div_le_div_iff₀ (by positivity) hu]
    nlinarith [mul_le_mul_of_nonneg_left hxy hA]
  rcases le_total (x ^ q) (y ^ q) with h | h
  · exact key x y hx hy h
  · rw [abs_sub_comm, abs_sub_comm (Real.log x)]; exact key y x hy hx h

/-- distance to the fixed point from the last step -/
theorem log_a_posteriori (F : ℝ → ℝ) (q p x : ℝ) (hq1 : q < 1)
    (hx : 0 < x) (hp : 0 < p) (hfp : F p = p)
    (hL : ∀ x y, 0 < x → 0 < y →
      |Real.log (F x) - Real.log (F y)| ≤ q * |Real.log x - Real.log y|) :
    |Real.log (F x) - Real.log p| ≤ q / (1 - q) * |Real.log (F x) - Real.log x| := by
  have h := hL x p hx hp
  rw [hfp] at h
  have h2 := abs_sub_le (Real.log x) (Real.log (F x)) (Real.log p)
  rw [abs_sub_comm (Real.log x) (Real.log (F x))] at h2
  have h3 : 0 < 1 - q := by linarith
  rw [div_mul_eq_mul_div, le_div_iff₀ h3]
  have h4 := abs_nonneg (Real.log (F x) - Real.log p)
  have h5 := abs_nonneg (Real.log (F x) - Real.log x)
  have h6 := abs_nonneg (Real.log x - Real.log p)
  by_cases hq : 0 ≤ q
  · nlinarith
  · have : |Real.log x - Real.log p| = 0 := by nlinarith
    have h7 : |Real.log (F x) - Real.log p| = 0 := by rw [this] at h; nlinarith
    rw [h7]
    have : |Real.log (F x) - Real.log x| = 0 := by
      have a := sub_eq_zero.mp (abs_eq_zero.mp this)
      have b := sub_eq_zero.mp (abs_eq_zero.mp h7)
      rw [a, b]; simp
    rw [this]; simp

end
