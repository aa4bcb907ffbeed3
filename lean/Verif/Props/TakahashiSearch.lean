import Verif.Lemmas.ToeSearch
import Verif.Props.FormulasStructures
import Mathlib.Topology.Order.IntermediateValue

/-! # Property C61: how close the wave height found by the table search is to the solution -/

open Classical
open PF
open CorePhysics hiding calculate_stability_number_Ns
open Takahashi1990
noncomputable section

namespace TakahashiProof

/-! ### The stability number as a function of the wave height -/

theorem kappa_le_one (k h B b : ℝ) (hk : 0 < k) (hh : 0 < h) : Published.toeKappa k h B b ≤ 1 := by
  have h1 : 0 < 2 * k * h := by positivity
  have h2 : 0 < Real.sinh (2 * k * h) := Real.sinh_pos_iff.mpr h1
  have h3 : 2 * k * h / Real.sinh (2 * k * h) ≤ 1 := (div_le_one h2).mpr (Real.self_le_sinh_iff.mpr h1.le)
  have sq : ∀ x y : ℝ, Real.sin x ^ 2 * Real.cos y ^ 2 ≤ 1 := fun x y =>
    mul_le_one₀ (Real.sin_sq_le_one x) (sq_nonneg _) (Real.cos_sq_le_one y)
  unfold Published.toeKappa
  refine mul_le_one₀ h3 (le_max_of_le_right (by positivity)) (max_le ?_ ?_)
  · have := sq b (k * B * Real.cos b)
    have h0 : 0 ≤ Real.sin b ^ 2 * Real.cos (k * B * Real.cos b) ^ 2 := by positivity
    rw [mul_assoc]
    linarith
  · rw [mul_comm]; exact sq _ _

/-- slope of the first term of the stability number -/
def slope (κ : ℝ) : ℝ := 1.3 * ((1 - κ) / κ ^ ((1 : ℝ) / 3))

theorem slope_nonneg {κ : ℝ} (hκ : 0 < κ) (hκ1 : κ ≤ 1) : 0 ≤ slope κ := by
  have h3 : 0 < κ ^ ((1 : ℝ) / 3) := Real.rpow_pos_of_pos hκ _
  have h1 : 0 ≤ 1 - κ := sub_nonneg.mpr hκ1
  have : (0 : ℝ) < 1.3 := by norm_num
  unfold slope
  positivity

theorem stability_shape {κ : ℝ} (hκ : 0 < κ) (hκ1 : κ ≤ 1) : ∃ A C : ℝ, A = slope κ ∧ 0 ≤ A ∧ 0 ≤ C ∧
    ∀ r, Published.toeStability κ r = Max.max 1.8 (A * r + 1.8 * Real.exp (-(C * r))) := by
  have h3 : 0 < κ ^ ((1 : ℝ) / 3) := Real.rpow_pos_of_pos hκ _
  refine ⟨slope κ, 1.5 * ((1 - κ) ^ 2 / κ ^ ((1 : ℝ) / 3)), rfl, slope_nonneg hκ hκ1, ?_, fun r => ?_⟩
  · have : (0 : ℝ) < 1.5 := by norm_num
    positivity
  · unfold Published.toeStability slope
    rw [neg_mul, neg_mul]

theorem stability_mono {κ : ℝ} (hκ : 0 < κ) (hκ1 : κ ≤ 1) {r r' : ℝ} (h0 : 0 ≤ r) (hr : r ≤ r') :
    Published.toeStability κ r ≤ Published.toeStability κ r' := by
  obtain ⟨A, C, -, hA, hC, e⟩ := stability_shape hκ hκ1
  rw [e, e]
  refine max_le (le_max_left _ _) ?_
  by_cases hg : A * r + 1.8 * Real.exp (-(C * r)) ≤ 1.8
  · exact le_max_of_le_left hg
  · refine le_max_of_le_right ?_
    push Not at hg
    have hr0 : 0 < r' := by
      rcases h0.eq_or_lt with h | h
      · exfalso; rw [← h] at hg; simp at hg
      · linarith
    -- convexity of the exponential between 0 and r'
    have hc : Real.exp ((1 - r / r') • (0 : ℝ) + (r / r') • (-(C * r'))) ≤
        (1 - r / r') • Real.exp 0 + (r / r') • Real.exp (-(C * r')) :=
      convexOn_exp.2 (Set.mem_univ _) (Set.mem_univ _)
        (sub_nonneg.mpr ((div_le_one hr0).mpr hr)) (by positivity) (by ring)
    have ea : (1 - r / r') • (0 : ℝ) + (r / r') • (-(C * r')) = -(C * r) := by
      simp only [smul_eq_mul]; field_simp; ring
    rw [ea, Real.exp_zero] at hc
    simp only [smul_eq_mul, mul_one] at hc
    set t := r / r' with ht
    have et : r = t * r' := by rw [ht]; field_simp
    have ht0 : 0 ≤ t := by positivity
    have ht1 : 0 < t := by
      rcases ht0.eq_or_lt with h | h
      · exfalso; rw [et, ← h] at hg; simp at hg
      · exact h
    generalize Real.exp (-(C * r)) = X at *
    generalize Real.exp (-(C * r')) = Y at *
    have h1 : A * r + 1.8 * X ≤ (1 - t) * 1.8 + t * (A * r' + 1.8 * Y) := by
      rw [et]; linarith
    have h2 : (1 - t) * 1.8 ≤ (1 - t) * (A * r + 1.8 * X) :=
      mul_le_mul_of_nonneg_left hg.le (sub_nonneg.mpr ((div_le_one hr0).mpr hr))
    exact le_of_mul_le_mul_left (by linarith) ht1

theorem stability_lip {κ : ℝ} (hκ : 0 < κ) (hκ1 : κ ≤ 1) {r r' : ℝ} (hr : r ≤ r') :
    Published.toeStability κ r' - Published.toeStability κ r ≤ slope κ * (r' - r) := by
  obtain ⟨A, C, hAs, hA, hC, e⟩ := stability_shape hκ hκ1
  rw [e, e, ← hAs, sub_le_iff_le_add]
  have h1 : Real.exp (-(C * r')) ≤ Real.exp (-(C * r)) :=
    Real.exp_le_exp.mpr (neg_le_neg (mul_le_mul_of_nonneg_left hr hC))
  have h2 : 0 ≤ A * (r' - r) := mul_nonneg hA (sub_nonneg.mpr hr)
  refine max_le ?_ ?_
  · exact (le_max_left _ _).trans (le_add_of_nonneg_left h2)
  · have := le_max_right (1.8 : ℝ) (A * r + 1.8 * Real.exp (-(C * r)))
    linarith

theorem stability_floor (κ r : ℝ) : 1.8 ≤ Published.toeStability κ r := le_max_left _ _

theorem stability_cont (κ : ℝ) : Continuous (Published.toeStability κ) := by
  unfold Published.toeStability
  fun_prop

/-! ### Fixed points of a decreasing function -/

section
variable {S : ℝ → ℝ} {s H : ℝ}

theorem between (hS : ∀ x y, s ≤ x → x ≤ y → S y ≤ S x) (hs : s ≤ H) (e : H = S H) {x : ℝ} (hx : s ≤ x) :
    x ⊓ S x ≤ H ∧ H ≤ x ⊔ S x := by
  rcases le_total x H with h | h
  · exact ⟨inf_le_of_left_le h, le_sup_of_le_right (e.le.trans (hS _ _ hx h))⟩
  · exact ⟨inf_le_of_right_le ((hS _ _ hs h).trans e.ge), le_sup_of_le_left h⟩

theorem split (hS : ∀ x y, s ≤ x → x ≤ y → S y ≤ S x) (hs : s ≤ H) (e : H = S H) {x : ℝ} (hx : s ≤ x) :
    |x - S x| = |x - H| + |S x - H| := by
  rcases le_total x H with h | h
  · have := e.le.trans (hS _ _ hx h)
    rw [abs_of_nonpos (by linarith), abs_of_nonpos (by linarith), abs_of_nonneg (by linarith)]
    ring
  · have := (hS _ _ hs h).trans e.ge
    rw [abs_of_nonneg (by linarith), abs_of_nonneg (by linarith), abs_of_nonpos (by linarith)]
    ring

/-- a grid from `lo` with step `d` up to `hi` has a point within one step of every number in between -/
theorem grid_near {lo hi d : ℝ} (hd : 0 < d) (h1 : lo ≤ H) (h2 : H ≤ hi) (h3 : lo < hi) :
    ∃ k : ℕ, k < ⌈(hi - lo) / d⌉₊ ∧ |lo + k * d - H| ≤ d := by
  have hp : 0 < ⌈(hi - lo) / d⌉₊ := Nat.ceil_pos.mpr (div_pos (sub_pos.mpr h3) hd)
  refine ⟨⌈(H - lo) / d⌉₊ - 1, ?_, ?_⟩
  · have : ⌈(H - lo) / d⌉₊ ≤ ⌈(hi - lo) / d⌉₊ := Nat.ceil_mono (by gcongr)
    omega
  · have a1 := Nat.le_ceil ((H - lo) / d)
    have a2 := Nat.ceil_lt_add_one (div_nonneg (sub_nonneg.mpr h1) hd.le)
    rw [div_le_iff₀ hd] at a1
    have a3 : (⌈(H - lo) / d⌉₊ : ℝ) * d < H - lo + d := by
      have := mul_lt_mul_of_pos_right a2 hd
      rwa [add_mul, one_mul, div_mul_cancel₀ _ hd.ne'] at this
    rcases Nat.eq_zero_or_pos ⌈(H - lo) / d⌉₊ with h0 | h0
    · rw [h0] at a1 ⊢
      have : H = lo := by push_cast at a1; linarith
      rw [this]; simp [hd.le]
    · rw [Nat.cast_sub h0, abs_le]
      push_cast
      constructor <;> linarith
end


section
variable {disper : PF → PF → PF → PF} {D De h L B β g κ : ℝ} {T : PF}

/-- the stability number as a function of the wave height -/
def stab (κ h x : ℝ) : ℝ := Published.toeStability κ (h / x)

theorem stab_anti (hκ : 0 < κ) (hκ1 : κ ≤ 1) (hh : 0 < h) (hDD : 0 ≤ D * De) {s : ℝ} (hs : 0 < s) :
    ∀ x y, s ≤ x → x ≤ y → D * De * stab κ h y ≤ D * De * stab κ h x := fun x y hx hxy => by
  have hx0 : 0 < x := hs.trans_le hx
  have hy0 : 0 < y := hx0.trans_le hxy
  exact mul_le_mul_of_nonneg_left (stability_mono hκ hκ1 (by positivity) (by gcongr)) hDD

/-- how fast the stable wave height falls with the wave height, at most -/
theorem stab_lip (hκ : 0 < κ) (hκ1 : κ ≤ 1) (hh : 0 < h) (hDD : 0 < D * De) {s : ℝ} (hs : s = D * De * 1.8)
    {x y : ℝ} (hx : s ≤ x) (hy : s ≤ y) : |D * De * stab κ h x - D * De * stab κ h y| ≤
      slope κ * h / (3.24 * (D * De)) * |x - y| := by
  have hs0 : 0 < s := by rw [hs]; exact mul_pos hDD (by norm_num)
  have ha := slope_nonneg hκ hκ1
  have key : ∀ x y, s ≤ x → x ≤ y → |D * De * stab κ h x - D * De * stab κ h y| ≤
      slope κ * h / (3.24 * (D * De)) * |x - y| := by
    intro x y hx hxy
    have hx0 : 0 < x := hs0.trans_le hx
    have hy0 : 0 < y := hx0.trans_le hxy
    have h1 := stab_anti hκ hκ1 hh hDD.le hs0 x y hx hxy
    rw [abs_of_nonneg (sub_nonneg.mpr h1), abs_of_nonpos (by linarith), ← mul_sub]
    have h2 : stab κ h x - stab κ h y ≤ slope κ * (h / x - h / y) :=
      stability_lip hκ hκ1 (by gcongr)
    have h3 : h / x - h / y ≤ h * (y - x) / (s * s) := by
      have e : h / x - h / y = h * (y - x) / (x * y) := by field_simp
      rw [e]
      have : 0 ≤ y - x := sub_nonneg.mpr hxy
      have : s * s ≤ x * y := mul_le_mul hx (hx.trans hxy) hs0.le hx0.le
      gcongr
    calc D * De * (stab κ h x - stab κ h y) ≤ D * De * (slope κ * (h * (y - x) / (s * s))) := by gcongr; linarith [mul_le_mul_of_nonneg_left h3 ha]
      _ = slope κ * h / (3.24 * (D * De)) * (-(x - y)) := by
        rw [hs]
        have e : D * De * 1.8 * (D * De * 1.8) = (D * De) * ((3.24) * (D * De)) := by ring
        rw [e]
        generalize (3.24 : ℝ) = c at *
        field_simp
        ring
  rcases le_total x y with h | h
  · exact key x y hx h
  · rw [abs_sub_comm, abs_sub_comm x]; exact key y x hy h

theorem value_eq (hh : 0 < h) (hL : 0 < L) (hw : calculate_local_wavelength disper T (fin h) (fin g) = fin L)
    (hκ : 0 < κ) (eκ : κ = Published.toeKappa (2 * Real.pi / L) h B (β * (Real.pi / 180))) {x : ℝ} (hx : 0 < x) :
    ns_value disper (fin x) T (fin h) (fin B) (fin β) (fin g) = fin (stab κ h x) := by
  have := C78_takahashi disper x h B β g L T hx hh hL hw (eκ ▸ hκ)
  rw [Ns_res, Except.ok.injEq] at this
  rw [this, eκ]; rfl
end

end TakahashiProof
open TakahashiProof

section
variable (disper : PF → PF → PF → PF) (T : PF) (D h B ρr ρw β g L κ : ℝ) (hD : 0 < D) (hh : 0 < h)
  (hρ : 0 < ρw) (hρ' : ρw < ρr) (hL : 0 < L)
  (hw : calculate_local_wavelength disper T (fin h) (fin g) = fin L)
  (hκ : 0 < κ) (eκ : κ = Published.toeKappa (2 * Real.pi / L) h B (β * (Real.pi / 180)))
include hD hh hρ hρ' hL hκ eκ

/-- C61: there is exactly one wave height for which rock of the given size is just stable -/
theorem C61_one_solution :
    ∃! H : ℝ, 0 < H ∧ H / (Textbook.Delta ρr ρw * D) = Published.toeStability κ (h / H) := by
  have hDe : 0 < Textbook.Delta ρr ρw := div_pos (sub_pos.mpr hρ') hρ
  generalize Textbook.Delta ρr ρw = De at *
  have hDD : 0 < D * De := mul_pos hD hDe
  have hκ1 : κ ≤ 1 := eκ ▸ kappa_le_one _ _ _ _ (by positivity) hh
  have conv : ∀ H, H / (De * D) = Published.toeStability κ (h / H) ↔ H = D * De * stab κ h H := fun H => by
    rw [div_eq_iff (by positivity)]; unfold stab; constructor <;> intro e <;> nth_rw 1 [e] <;> ring
  simp only [conv]
  obtain ⟨s, hs⟩ : ∃ s, s = D * De * 1.8 := ⟨_, rfl⟩
  have hs0 : 0 < s := by rw [hs]; exact mul_pos hDD (by norm_num)
  have low : ∀ x, s ≤ D * De * stab κ h x := fun x => by
    rw [hs]; exact mul_le_mul_of_nonneg_left (stability_floor _ _) hDD.le
  have anti := stab_anti (D := D) (De := De) hκ hκ1 hh hDD.le hs0
  have hcont : ContinuousOn (fun x => x - D * De * stab κ h x) (Set.Icc s (D * De * stab κ h s)) := by
    refine continuousOn_id.sub (continuousOn_const.mul ((stability_cont κ).comp_continuousOn
      (continuousOn_const.div continuousOn_id fun x hx => (hs0.trans_le hx.1).ne')))
  have hz : (0 : ℝ) ∈ Set.Icc (s - D * De * stab κ h s)
      (D * De * stab κ h s - D * De * stab κ h (D * De * stab κ h s)) :=
    ⟨sub_nonpos.mpr (low s), sub_nonneg.mpr (anti _ _ le_rfl (low s))⟩
  obtain ⟨H, hH, e⟩ := intermediate_value_Icc (low s) hcont hz
  have e' : H = D * De * stab κ h H := by simpa [sub_eq_zero] using e
  refine ⟨H, ⟨hs0.trans_le hH.1, e'⟩, fun y ⟨hy0, ey⟩ => ?_⟩
  have hys : s ≤ y := by rw [ey]; exact low y
  rcases le_total y H with hle | hle
  · have := anti _ _ hys hle
    linarith
  · have := anti _ _ hH.1 hle
    linarith

include hw

/-- C61: a wave height that is returned is close to the wave height for which the rock is just stable, and
the precision warning appears only where 1 mm can be exceeded -/
theorem C61_near_solution (H : ℝ)
    (hsol : H / (Textbook.Delta ρr ρw * D) = Published.toeStability κ (h / H)) (v : PF)
    (hv : (calculate_significant_wave_height_Hs disper (fin D) T (fin h) (fin B) (fin ρr) (fin ρw) (fin β)
      (fin g)).res = .ok v) :
    ∃ x c : ℝ, v = fin x ∧
      c = 1.3 * (1 - κ) / κ ^ ((1 : ℝ) / 3) * h / (3.24 * Textbook.Delta ρr ρw * D) ∧
      |x - H| ≤ c * 0.0005 ∧
      (Warn.text "Hs precision is not better than" ∉ (calculate_significant_wave_height_Hs disper (fin D) T
        (fin h) (fin B) (fin ρr) (fin ρw) (fin β) (fin g)).warns → |x - H| < 0.001) ∧
      (c < 1 → Warn.text "Hs precision is not better than" ∉ (calculate_significant_wave_height_Hs disper
        (fin D) T (fin h) (fin B) (fin ρr) (fin ρw) (fin β) (fin g)).warns) := by
  have eD := RangeProof.Delta_eval' hρ hρ'
  have hDe : 0 < Textbook.Delta ρr ρw := div_pos (sub_pos.mpr hρ') hρ
  generalize Textbook.Delta ρr ρw = De at *
  have hDD : 0 < D * De := mul_pos hD hDe
  have hκ1 : κ ≤ 1 := eκ ▸ kappa_le_one _ _ _ _ (by positivity) hh
  have e : H = D * De * stab κ h H := by
    rw [div_eq_iff (by positivity)] at hsol; rw [mul_comm D, mul_comm]; exact hsol
  obtain ⟨s, hs⟩ : ∃ s, s = D * De * 1.8 := ⟨_, rfl⟩
  have hs0 : 0 < s := by rw [hs]; exact mul_pos hDD (by norm_num)
  have low : ∀ x, s ≤ D * De * stab κ h x := fun x => by
    rw [hs]; exact mul_le_mul_of_nonneg_left (stability_floor _ _) hDD.le
  have anti := stab_anti (D := D) (De := De) hκ hκ1 hh hDD.le hs0
  have hHs : s ≤ H := by rw [e]; exact low H
  have hN : ∀ x, s ≤ x → ns_value disper (fin x) T (fin h) (fin B) (fin β) (fin g) = fin (stab κ h x) :=
    fun x hx => value_eq hh hL hw hκ eκ (hs0.trans_le hx)
  have hlip : ∀ x, s ≤ x → |D * De * stab κ h x - H| ≤ slope κ * h / (3.24 * (D * De)) * |x - H| :=
    fun x hx => by nth_rw 1 [e]; exact stab_lip hκ hκ1 hh hDD hs hx hHs
  have hc0 : 0 ≤ slope κ * h / (3.24 * (D * De)) := by
    have := slope_nonneg hκ hκ1
    have : (0 : ℝ) < 3.24 := by norm_num
    positivity
  have ec : slope κ * h / (3.24 * (D * De)) = 1.3 * (1 - κ) / κ ^ ((1 : ℝ) / 3) * h / (3.24 * De * D) := by
    unfold TakahashiProof.slope; rw [mul_comm D De, mul_assoc (3.24 : ℝ), mul_div_assoc (1.3 : ℝ)]
  generalize slope κ * h / (3.24 * (D * De)) = c at *
  obtain ⟨n, hn⟩ : ∃ n, n = ⌈(D * De * stab κ h s - s) / (s / 20)⌉₊ := ⟨_, rfl⟩
  obtain ⟨X, hX'⟩ : ∃ X : ℕ → ℝ, ∀ k : ℕ, X k = s + k * (s / 20) := ⟨_, fun _ => rfl⟩
  rcases search_eqv (disper := disper) (T := T) (N := stab κ h) hD hDe eD (hs ▸ hN)
    (fun x _ => stability_floor _ _) s hs n hn X hX' with ⟨-, he⟩ | ⟨i, hi, hbest, ⟨-, he⟩ | ⟨hlt, heq⟩⟩
  · rw [he] at hv; cases hv
  · rw [he] at hv; cases hv
  have hX : ∀ k, s ≤ X k := fun k => by rw [hX']; exact le_add_of_nonneg_right (by positivity)
  have hlo : s ≤ X (before n i) ⊓ D * De * stab κ h (X (before n i)) := le_inf (hX _) (low _)
  have b1 := (between anti hHs e (hX (before n i))).1
  have b2 := (between anti hHs e (hX (i + 1))).2
  rw [heq.1] at hv
  rw [heq.2]
  generalize X (before n i) ⊓ D * De * stab κ h (X (before n i)) = lo at *
  generalize X (i + 1) ⊔ D * De * stab κ h (X (i + 1)) = hi at *
  rcases fine_eqv (D := D) (De := De) (hi := hi) hlo hN with ⟨-, he⟩ | ⟨hlt', j, hj, hbest', hr, hwarn⟩
  · rw [he] at hv; cases hv
  rw [hr, Except.ok.injEq] at hv
  rw [hwarn]
  obtain ⟨k, hk, hk'⟩ := grid_near (d := 0.0005) (by norm_num) b1 b2 hlt'
  have hy : ∀ k : ℕ, s ≤ lo + k * 0.0005 := fun k => hlo.trans (le_add_of_nonneg_right (by positivity))
  have a1 := hbest' k hk
  rw [split anti hHs e (hy j), split anti hHs e (hy k)] at a1
  rw [split anti hHs e (hy j)]
  have l1 := hlip _ (hy j)
  have l2 := hlip _ (hy k)
  generalize lo + (j : ℝ) * 0.0005 = y at *
  generalize lo + (k : ℝ) * 0.0005 = z at *
  refine ⟨_, c, hv.symm, ec, ?_, ?_, ?_⟩
  · by_contra hcon
    push Not at hcon
    have h1 : |z - H| + |D * De * stab κ h z - H| ≤ 0.0005 + c * 0.0005 :=
      add_le_add hk' (l2.trans (mul_le_mul_of_nonneg_left hk' hc0))
    have h2 : c * 0.0005 < c * |y - H| := hcon.trans_le l1
    have h3 : 0.0005 < |y - H| := lt_of_mul_lt_mul_left h2 hc0
    linarith
  · intro hlt
    have := abs_nonneg (y - H)
    linarith [not_le.mp hlt]
  · intro hc1
    have h1 : |z - H| + |D * De * stab κ h z - H| ≤ 0.0005 + c * 0.0005 :=
      add_le_add hk' (l2.trans (mul_le_mul_of_nonneg_left hk' hc0))
    rw [not_le]
    linarith

/-- C61: a wave height is returned whenever the stability number at the smallest height exceeds the one at
the solution by at least 0.18 -/
theorem C61_returns (H : ℝ)
    (hsol : H / (Textbook.Delta ρr ρw * D) = Published.toeStability κ (h / H))
    (hroom : H / (Textbook.Delta ρr ρw * D) + 0.18 ≤
      Published.toeStability κ (h / (1.8 * Textbook.Delta ρr ρw * D))) :
    ∃ v, (calculate_significant_wave_height_Hs disper (fin D) T (fin h) (fin B) (fin ρr) (fin ρw) (fin β)
      (fin g)).res = .ok v := by
  have eD := RangeProof.Delta_eval' hρ hρ'
  have hDe : 0 < Textbook.Delta ρr ρw := div_pos (sub_pos.mpr hρ') hρ
  generalize Textbook.Delta ρr ρw = De at *
  have hDD : 0 < D * De := mul_pos hD hDe
  have hκ1 : κ ≤ 1 := eκ ▸ kappa_le_one _ _ _ _ (by positivity) hh
  have e : H = D * De * stab κ h H := by
    rw [div_eq_iff (by positivity)] at hsol; rw [mul_comm D, mul_comm]; exact hsol
  obtain ⟨s, hs⟩ : ∃ s, s = D * De * 1.8 := ⟨_, rfl⟩
  have hs0 : 0 < s := by rw [hs]; exact mul_pos hDD (by norm_num)
  have low : ∀ x, s ≤ D * De * stab κ h x := fun x => by
    rw [hs]; exact mul_le_mul_of_nonneg_left (stability_floor _ _) hDD.le
  have anti := stab_anti (D := D) (De := De) hκ hκ1 hh hDD.le hs0
  have hHs : s ≤ H := by rw [e]; exact low H
  have hN : ∀ x, s ≤ x → ns_value disper (fin x) T (fin h) (fin B) (fin β) (fin g) = fin (stab κ h x) :=
    fun x hx => value_eq hh hL hw hκ eκ (hs0.trans_le hx)
  have hroom' : H + s / 10 ≤ D * De * stab κ h s := by
    rw [show 1.8 * De * D = s by rw [hs]; ring, div_add' _ _ _ (by positivity), div_le_iff₀ (by positivity)]
      at hroom
    have : D * De * stab κ h s = Published.toeStability κ (h / s) * (De * D) := by unfold stab; ring
    rw [this, hs]
    rw [hs] at hroom
    linarith
  -- the misfit grows with the distance from the solution
  have up : ∀ x y, H ≤ x → x < y → misfit D De (stab κ h) x < misfit D De (stab κ h) y := fun x y hx hxy => by
    have h1 := anti _ _ hHs hx
    have h2 := anti _ _ (hHs.trans hx) hxy.le
    unfold misfit
    rw [abs_of_nonneg (by linarith), abs_of_nonneg (by linarith)]
    linarith
  have down : ∀ x y, s ≤ x → x < y → y ≤ H → misfit D De (stab κ h) y < misfit D De (stab κ h) x :=
    fun x y hx hxy hy => by
    have h1 := anti _ _ (hx.trans hxy.le) hy
    have h2 := anti _ _ hx hxy.le
    unfold misfit
    rw [abs_of_nonpos (by linarith), abs_of_nonpos (by linarith)]
    linarith
  obtain ⟨n, hn⟩ : ∃ n, n = ⌈(D * De * stab κ h s - s) / (s / 20)⌉₊ := ⟨_, rfl⟩
  obtain ⟨X, hX⟩ : ∃ X : ℕ → ℝ, ∀ k : ℕ, X k = s + k * (s / 20) := ⟨_, fun _ => rfl⟩
  have hXs : ∀ k, s ≤ X k := fun k => by rw [hX]; exact le_add_of_nonneg_right (by positivity)
  have hXm : ∀ k l : ℕ, k < l → X k < X l := fun k l hkl => by
    rw [hX, hX]
    have : (k : ℝ) < l := by exact_mod_cast hkl
    have : (0 : ℝ) < s / 20 := by positivity
    gcongr
  have hnge : (D * De * stab κ h s - s) ≤ n * (s / 20) := by
    rw [← div_le_iff₀ (by positivity), hn]; exact Nat.le_ceil _
  have hn2 : 2 ≤ n := by
    have : (2 : ℝ) ≤ n := by
      by_contra hcon
      push Not at hcon
      have : (n : ℝ) * (s / 20) < 2 * (s / 20) := by gcongr
      linarith
    exact_mod_cast this
  have hX2 : H ≤ X (n - 2) := by
    rw [hX, Nat.cast_sub hn2]
    push_cast
    linarith
  rcases search_eqv (disper := disper) (T := T) (N := stab κ h) hD hDe eD (hs ▸ hN)
    (fun x _ => stability_floor _ _) s hs n hn X hX with ⟨h0, -⟩ | ⟨i, hi, hbest, ⟨hge, -⟩ | ⟨hlt, heq⟩⟩
  · omega
  · have h1 := hbest (n - 2) (by omega)
    have h2 := up _ _ hX2 (hXm (n - 2) i (by omega))
    linarith
  rw [heq.1]
  have hlo : s ≤ X (before n i) ⊓ D * De * stab κ h (X (before n i)) := le_inf (hXs _) (low _)
  rcases fine_eqv (D := D) (De := De) (hi := X (i + 1) ⊔ D * De * stab κ h (X (i + 1))) hlo hN with
    ⟨hle, -⟩ | ⟨-, j, -, -, hr, -⟩
  · exfalso
    have b1 := (between anti hHs e (hXs (before n i))).1
    have b2 := (between anti hHs e (hXs (i + 1))).2
    have c1 : X (i + 1) ≤ H := le_sup_left.trans (hle.trans b1)
    have c2 : H ≤ X (before n i) := (b2.trans hle).trans inf_le_left
    rcases Nat.eq_zero_or_pos i with h0 | h0
    · have h1 := hbest 1 (by omega)
      rw [h0] at h1 c1
      have h2 := down _ _ (hXs 0) (hXm 0 1 (by omega)) c1
      linarith
    · have : before n i = i - 1 := by unfold before; rw [if_neg (by omega)]
      rw [this] at c2
      have := hXm (i - 1) (i + 1) (by omega)
      linarith
  · exact ⟨_, hr⟩
end

namespace TakahashiProof
/-- a concrete toe: depth 10 m above rock of 0.1 m, wave number 0.05 /m, normally incident waves -/
theorem toe_example : ∃ κ H : ℝ, 0 < κ ∧
    κ = Published.toeKappa (2 * Real.pi / (2 * Real.pi / 0.05)) 10 (10 * Real.pi / 3) (0 * (Real.pi / 180)) ∧
    H / (Textbook.Delta 2000 1000 * 0.1) = Published.toeStability κ (10 / H) ∧
    H / (Textbook.Delta 2000 1000 * 0.1) + 0.18 ≤
      Published.toeStability κ (10 / (1.8 * Textbook.Delta 2000 1000 * 0.1)) := by
  have hpi := Real.pi_pos
  have hL : 2 * Real.pi / (2 * Real.pi / 0.05) = 1 / 20 := by field_simp; norm_num
  obtain ⟨κ, eκ⟩ : ∃ κ, κ = Published.toeKappa (2 * Real.pi / (2 * Real.pi / 0.05)) 10 (10 * Real.pi / 3)
    (0 * (Real.pi / 180)) := ⟨_, rfl⟩
  have ev : κ = 1 / Real.sinh 1 * (1 / 2) ^ 2 := by
    rw [eκ, hL]
    unfold Published.toeKappa
    rw [zero_mul, Real.sin_zero, Real.cos_zero,
      show (1 : ℝ) / 20 * (10 * Real.pi / 3) * 1 = Real.pi / 6 by ring, Real.sin_pi_div_six,
      show 2 * ((1 : ℝ) / 20) * 10 = 1 by norm_num]
    congr 1
    rw [max_eq_right (by norm_num)]
    norm_num
  have s1 : 1 < Real.sinh 1 := Real.self_lt_sinh_iff.mpr one_pos
  have s2 : Real.sinh 1 < 1.25 := by
    rw [Real.sinh_eq, Real.exp_neg]
    have h1 := Real.exp_one_lt_d9
    have h3 : (0.35 : ℝ) < (Real.exp 1)⁻¹ := by
      rw [lt_inv_comm₀ (by norm_num) (Real.exp_pos 1)]
      exact h1.trans (by norm_num)
    linarith
  have k1 : κ < 0.25 := by
    rw [ev]
    have : 1 / Real.sinh 1 < 1 := by rw [div_lt_one (by linarith)]; exact s1
    linarith
  have k2 : 0.2 < κ := by
    rw [ev]
    have : 0.8 < 1 / Real.sinh 1 := by rw [lt_div_iff₀ (by linarith)]; linarith
    linarith
  have k0 : 0 < κ := by linarith
  have hDel : Textbook.Delta 2000 1000 = 1 := by unfold Textbook.Delta; norm_num
  obtain ⟨H, ⟨hH, hsol⟩, -⟩ := C61_one_solution 0.1 10 (10 * Real.pi / 3) 2000 1000 0 (2 * Real.pi / 0.05) κ
    (by norm_num) (by norm_num) (by norm_num) (by norm_num) (by positivity) k0 eκ
  refine ⟨κ, H, k0, eκ, hsol, ?_⟩
  rw [hDel] at hsol ⊢
  have c1 : κ ^ ((1 : ℝ) / 3) ≤ 1 := Real.rpow_le_one k0.le (by linarith) (by norm_num)
  have c2 : 0.2 ≤ κ ^ ((1 : ℝ) / 3) := by
    have : κ ^ (1 : ℝ) ≤ κ ^ ((1 : ℝ) / 3) :=
      Real.rpow_le_rpow_of_exponent_ge k0 (by linarith) (by norm_num)
    rw [Real.rpow_one] at this
    linarith
  have a1 : 0.75 ≤ (1 - κ) / κ ^ ((1 : ℝ) / 3) := by
    rw [le_div_iff₀ (by linarith)]; linarith
  have a2 : (1 - κ) / κ ^ ((1 : ℝ) / 3) ≤ 4 := by
    rw [div_le_iff₀ (by linarith)]; linarith
  have big : 50 ≤ Published.toeStability κ (10 / (1.8 * 1 * 0.1)) := by
    refine le_max_of_le_right ?_
    have : 0 < Real.exp (-1.5 * ((1 - κ) ^ 2 / κ ^ ((1 : ℝ) / 3)) * (10 / (1.8 * 1 * 0.1))) := Real.exp_pos _
    norm_num at this ⊢
    linarith
  have small : H / (1 * 0.1) ≤ 49 := by
    by_contra hcon
    push Not at hcon
    rw [hsol] at hcon
    rw [← hsol] at hcon
    have hH' : 4.9 < H := by
      rw [lt_div_iff₀ (by norm_num)] at hcon; linarith
    have hr : 10 / H ≤ 2.1 := by rw [div_le_iff₀ hH]; linarith
    have hr0 : 0 < 10 / H := by positivity
    have : Published.toeStability κ (10 / H) ≤ 20 := by
      refine max_le (by norm_num) ?_
      have e1 : Real.exp (-1.5 * ((1 - κ) ^ 2 / κ ^ ((1 : ℝ) / 3)) * (10 / H)) ≤ 1 := by
        rw [Real.exp_le_one_iff]
        have : 0 ≤ (1 - κ) ^ 2 / κ ^ ((1 : ℝ) / 3) := by positivity
        have := mul_nonneg this hr0.le
        linarith
      have e2 : (1 - κ) / κ ^ ((1 : ℝ) / 3) * (10 / H) ≤ 4 * 2.1 :=
        mul_le_mul a2 hr hr0.le (by norm_num)
      have : 1.3 * ((1 - κ) / κ ^ ((1 : ℝ) / 3)) * (10 / H) ≤ 1.3 * (4 * 2.1) := by
        rw [mul_assoc]; exact mul_le_mul_of_nonneg_left e2 (by norm_num)
      linarith
    linarith
  linarith

theorem toe_wavelength (T : PF) : calculate_local_wavelength (fun _ _ _ => fin 0.05) T (fin 10) (fin 9.81) =
    fin (2 * Real.pi / 0.05) := by
  have hpi := Real.pi_pos
  unfold calculate_local_wavelength
  dsimp only
  rw [ofNat_eq, show PF.pi = fin Real.pi from rfl, mul_fin, div_fin (by norm_num)]
end TakahashiProof

/-- a concrete toe for which the wave height is found, close to the solution -/
example (T : PF) : ∃ (κ H x c : ℝ),
    H / (Textbook.Delta 2000 1000 * 0.1) = Published.toeStability κ (10 / H) ∧
    c = 1.3 * (1 - κ) / κ ^ ((1 : ℝ) / 3) * 10 / (3.24 * Textbook.Delta 2000 1000 * 0.1) ∧
    (calculate_significant_wave_height_Hs (fun _ _ _ => fin 0.05) (fin 0.1) T (fin 10)
      (fin (10 * Real.pi / 3)) (fin 2000) (fin 1000) (fin 0) (fin 9.81)).res = .ok (fin x) ∧
    |x - H| ≤ c * 0.0005 := by
  obtain ⟨κ, H, hκ, eκ, hsol, hroom⟩ := toe_example
  have hpi := Real.pi_pos
  have hw := toe_wavelength T
  obtain ⟨v, hv⟩ := C61_returns _ T 0.1 10 (10 * Real.pi / 3) 2000 1000 0 9.81 _ κ (by norm_num) (by norm_num)
    (by norm_num) (by norm_num) (by positivity) hw hκ eκ H hsol hroom
  obtain ⟨x, c, e, ec, h, -⟩ := C61_near_solution _ T 0.1 10 (10 * Real.pi / 3) 2000 1000 0 9.81 _ κ
    (by norm_num) (by norm_num) (by norm_num) (by norm_num) (by positivity) hw hκ eκ H hsol v hv
  exact ⟨κ, H, x, c, hsol, ec, e ▸ hv, h⟩
