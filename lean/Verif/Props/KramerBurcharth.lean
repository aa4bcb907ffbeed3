import Verif.Lemmas.Basic
import Verif.Lemmas.Check
import Verif.Model.RockArmourOther
import Verif.Spec

/-! # Property C25: low-crested structures (Kramer & Burcharth 2004) -/

open Classical
open PF
open CorePhysics KramerBurcharth
noncomputable section

namespace KBProof

@[simp] theorem check_res (a b : PF) : (check_validity_range a b).res = .ok () := by
  simp [check_validity_range]

theorem Delta_eval' {ra : ℝ} (hr : 1025 < ra) : ∃ De : ℝ, 0 < De ∧ De = (ra - 1025) / 1025 ∧
    calculate_buoyant_density_Delta (fin ra) 1025 = fin De := by
  obtain ⟨De, h, e, h2⟩ := Delta_eval (by norm_num : (0 : ℝ) < 1025) hr
  exact ⟨De, h, e, by rw [ofNat_eq]; exact h2⟩

theorem use_Dn50 (D : ℝ) (M rho : PF) :
    check_usage_Dn50_or_M50 (fin D) M rho = ⟨[], .ok (fin D)⟩ := C04_diameter_given _ _ _ (by simp)

/-- right-hand side of the size iteration -/
def stepR (h R D : ℝ) : ℝ := 1.0 / 1.36 * (h - R * (0.06 * (R / D) - 0.23))

theorem step_fin {H R De D : ℝ} (hDe : 0 < De) (hD : D ≠ 0) (d p : PF) :
    (size_step (fin H) (fin R) (fin De) ⟨d, p, fin D⟩) =
      ⟨PF.abs (fin (stepR (H / De) R D) - p), fin (stepR (H / De) R D), fin (stepR (H / De) R D)⟩ := by
  unfold size_step stepR
  pf_eval []

theorem step_zero {H R De : ℝ} (hDe : 0 < De) (d p : PF) (x : ℝ) :
    (size_step (fin H) (fin R) (fin De) ⟨d, p, fin 0⟩).cur ≠ fin x := by
  unfold size_step
  simp only [sci_eq, div_zero_fin, mulInf]
  have a1 : (1.0 / 1.36 : ℝ) > 0 := by norm_num
  have e1 : fin 1.0 / fin 1.36 = fin (1.0 / 1.36) := div_fin (by norm_num)
  have e2 : fin H / fin De = fin (H / De) := div_fin hDe.ne'
  rw [e1, e2]
  have b1 : fin 0.06 * pinf = pinf := by
    show mulInf 0.06 = _; unfold mulInf; rw [if_pos (by norm_num)]
  have b2 : fin 0.06 * ninf = ninf := by
    show neg (mulInf 0.06) = _; unfold mulInf; rw [if_pos (by norm_num)]; rfl
  have s1 : pinf - fin 0.23 = pinf := rfl
  have s2 : ninf - fin 0.23 = ninf := rfl
  have t1 : fin (H / De) - pinf = ninf := rfl
  have t2 : fin (H / De) - ninf = pinf := rfl
  have u1 : fin (1.0 / 1.36) * ninf = ninf := by
    show neg (mulInf _) = _; unfold mulInf; rw [if_pos a1]; rfl
  have u2 : fin (1.0 / 1.36) * pinf = pinf := by
    show (mulInf _) = _; unfold mulInf; rw [if_pos a1]
  split_ifs with h1 h2
  · have : fin R * pinf = pinf := by show mulInf R = _; unfold mulInf; rw [if_pos h1]
    rw [b1, s1, this, t1, u1]; simp
  · have : fin R * ninf = pinf := by
      show neg (mulInf R) = _; unfold mulInf; rw [if_neg h1, if_pos h2]; rfl
    rw [b2, s2, this, t1, u1]; simp
  · simp [mul_nan, nan_sub, sub_nan]

theorem step_nan {H R De : ℝ} (d p : PF) (x : ℝ) :
    (size_step (fin H) (fin R) (fin De) ⟨d, p, nan⟩).cur ≠ fin x := by
  unfold size_step
  simp [div_nan, mul_nan, nan_sub, sub_nan]

/-- the design equation in the form `Hs(D)` -/
def HsR (R De D : ℝ) : ℝ := (0.06 * (R / D) ^ 2 - 0.23 * R / D + 1.36) * De * D

theorem Hs_eval {R ra D De : ℝ} (M : PF) (hr : 1025 < ra) (he : De = (ra - 1025) / 1025) (hD : D ≠ 0) :
    (calculate_significant_wave_height_Hs (fin R) (fin ra) (fin D) M).res = .ok (fin (HsR R De D)) := by
  obtain ⟨De', hDe, hDD, e⟩ := Delta_eval' hr
  obtain rfl : De' = De := by rw [hDD, he]
  unfold calculate_significant_wave_height_Hs HsR
  rw [use_Dn50]
  simp only [PyM.bind_ok, e]
  rw [PyM.bind_res_of_ok (check_res ..)]
  pf_eval [PyM.pure_def]
  have : (2.0 : ℝ) = 2 := by norm_num
  rw [this, npow_two]
  pf_eval [PyM.pure_def]

/-- error of the wave height recomputed after one more pass -/
theorem residual {H R De D : ℝ} (hDe : 0 < De) (hD : D ≠ 0) (hD' : stepR (H / De) R D ≠ 0) :
    HsR R De (stepR (H / De) R D) - H =
      De * 0.06 * R ^ 2 * (D - stepR (H / De) R D) / (D * stepR (H / De) R D) := by
  have e : 1.36 * stepR (H / De) R D = H / De - 0.06 * R ^ 2 / D + 0.23 * R := by
    unfold stepR; norm_num; field_simp; ring
  generalize stepR (H / De) R D = E at *
  unfold HsR
  have e2 : (0.06 * (R / E) ^ 2 - 0.23 * R / E + 1.36) * De * E =
      De * (0.06 * R ^ 2 / E - 0.23 * R + 1.36 * E) := by field_simp
  rw [e2, e]
  generalize (0.06 : ℝ) = k
  field_simp
  ring

theorem iter_curs (H R De : PF) (s : LoopState) (k : ℕ) (hk : 0 < k) :
    ((size_step H R De)^[k] s).prev = ((size_step H R De)^[k] s).cur := by
  obtain ⟨j, rfl⟩ : ∃ j, k = j + 1 := ⟨k - 1, by omega⟩
  rw [Function.iterate_succ_apply']; rfl

theorem abs_le_of_not_gt {a t : ℝ} {p : PF} (hp : p ≠ nan) (h : ¬ (PF.abs (fin a - p) > fin t)) :
    ∃ b, p = fin b ∧ |a - b| ≤ t := by
  cases p with
  | nan => exact absurd rfl hp
  | pinf => exact absurd (fin_lt_pinf t) h
  | ninf => exact absurd (fin_lt_pinf t) h
  | fin b =>
    refine ⟨b, rfl, ?_⟩
    rw [sub_fin, abs_fin, gt_fin, not_lt] at h
    exact h

/-- closing argument: the last two sizes are close and the last is one pass from the one before -/
theorem bound {H R De D D' t : ℝ} (hDe : 0 < De) (hD : D ≠ 0) (e : stepR (H / De) R D = D')
    (h : |D' - D| ≤ t) (ht : t < |D'|) :
    |HsR R De D' - H| ≤ 0.06 * De * R ^ 2 * t / (|D'| * (|D'| - t)) := by
  have h0 : 0 ≤ t := (abs_nonneg _).trans h
  have hp : 0 < |D'| := lt_of_le_of_lt h0 ht
  have hD' : D' ≠ 0 := abs_pos.mp hp
  have r := residual hDe hD (by rw [e]; exact hD') (R := R) (H := H)
  rw [e] at r
  rw [r, abs_div, abs_mul (De * 0.06 * R ^ 2), abs_mul D]
  have hDD : |D'| - t ≤ |D| := by
    have := abs_sub_abs_le_abs_sub D' D; linarith
  have h1 : |De * 0.06 * R ^ 2| = 0.06 * De * R ^ 2 := by
    rw [abs_of_nonneg (by positivity)]; ring
  rw [h1, abs_sub_comm D D']
  have hq : 0 < |D'| - t := by linarith
  calc 0.06 * De * R ^ 2 * |D' - D| / (|D| * |D'|)
      ≤ 0.06 * De * R ^ 2 * t / ((|D'| - t) * |D'|) := by gcongr
    _ = _ := by rw [mul_comm (|D'| - t)]

end KBProof
open KBProof

/-- C25: if the returned size is settled, i.e. allowing one more iteration would not change it, the
wave height recomputed from it differs from the requested one by at most a bound proportional to the
tolerance. -/
theorem C25_settled_size (H R ra ns t D : ℝ) (M : PF) (n : ℕ) (hr : 1025 < ra)
    (h1 : (calculate_nominal_rock_diameter_Dn50 (fin H) (fin R) (fin ra) (fin ns) n (fin t)).res
      = .ok (fin D))
    (h2 : (calculate_nominal_rock_diameter_Dn50 (fin H) (fin R) (fin ra) (fin ns) (n + 1) (fin t)).res
      = .ok (fin D)) (ht : 0 ≤ t) (htD : t < |D|) :
    ∃ H' : ℝ, (calculate_significant_wave_height_Hs (fin R) (fin ra) (fin D) M).res = .ok (fin H') ∧
      |H' - H| ≤ 0.06 * ((ra - 1025) / 1025) * R ^ 2 * t / (|D| * (|D| - t)) := by
  obtain ⟨De, hDe, hDD, e⟩ := Delta_eval' hr
  have hD : D ≠ 0 := abs_pos.mp (lt_of_le_of_lt ht htD)
  rw [← hDD]
  refine ⟨_, Hs_eval M hr hDD hD, ?_⟩
  unfold calculate_nominal_rock_diameter_Dn50 at h1 h2
  simp only [e] at h1 h2
  rw [PyM.bind_res_of_ok (check_res ..)] at h1 h2
  simp only [PyM.pure_def, Except.ok.injEq] at h1 h2
  generalize hs0 : (⟨pinf, pinf, fin H / (fin De * fin ns)⟩ : LoopState) = s0 at h1 h2
  -- from two consecutive iterates
  have key : ∀ k, ((size_step (fin H) (fin R) (fin De))^[k + 1] s0).cur = fin D →
      (¬ ((size_step (fin H) (fin R) (fin De))^[k + 1] s0).diff > fin t ∨
        ((size_step (fin H) (fin R) (fin De))^[k] s0).cur = fin D) →
      |HsR R De D - H| ≤ 0.06 * De * R ^ 2 * t / (|D| * (|D| - t)) := by
    intro k hk hor
    rw [Function.iterate_succ_apply'] at hk hor
    have hpp : ¬ (size_step (fin H) (fin R) (fin De)
        ((size_step (fin H) (fin R) (fin De))^[k] s0)).diff > fin t → 0 < k := by
      intro hn
      rcases Nat.eq_zero_or_pos k with h0 | h0
      · subst h0
        exfalso
        apply hn
        have : (size_step (fin H) (fin R) (fin De) s0).diff =
          PF.abs ((size_step (fin H) (fin R) (fin De) s0).cur - s0.prev) := rfl
        rw [Function.iterate_zero, id] at hk ⊢
        rw [this, hk, ← hs0]
        exact fin_lt_pinf t
      · exact h0
    have hprev : 0 < k → ((size_step (fin H) (fin R) (fin De))^[k] s0).prev =
      ((size_step (fin H) (fin R) (fin De))^[k] s0).cur := iter_curs _ _ _ _ _
    generalize (size_step (fin H) (fin R) (fin De))^[k] s0 = s at *
    obtain ⟨d, p, c⟩ := s
    have hdiff : (size_step (fin H) (fin R) (fin De) ⟨d, p, c⟩).diff =
      PF.abs ((size_step (fin H) (fin R) (fin De) ⟨d, p, c⟩).cur - p) := rfl
    have hcn : c ≠ nan := by rintro rfl; exact step_nan d p _ hk
    obtain ⟨b, hb, hle⟩ : ∃ b, c = fin b ∧ |D - b| ≤ t := by
      rcases hor with hor | hor
      · have hpc : p = c := hprev (hpp hor)
        rw [hdiff, hk, hpc] at hor
        exact abs_le_of_not_gt hcn hor
      · exact ⟨D, hor, by simpa using ht⟩
    subst hb
    have hb0 : b ≠ 0 := by rintro rfl; exact step_zero hDe d p _ hk
    rw [step_fin hDe hb0] at hk
    exact bound hDe hb0 (by simpa using hk) hle htD
  obtain ⟨k, hkn, ek, hck, hstop⟩ := whileIter_spec (fun s : LoopState => s.diff > fin t)
    (size_step (fin H) (fin R) (fin De)) n s0
  by_cases hc : (fun s : LoopState => s.diff > fin t) ((size_step (fin H) (fin R) (fin De))^[k] s0)
  · -- limit reached: the extra pass returned the same size
    have hkn' : k = n := hstop.resolve_right (not_not.mpr hc)
    subst hkn'
    have e2 := whileIter_all (fun s : LoopState => s.diff > fin t)
      (size_step (fin H) (fin R) (fin De)) (k + 1) s0 (fun j hj => by
        rcases Nat.lt_succ_iff_lt_or_eq.mp hj with h | h
        · exact hck j h
        · rw [h]; exact hc)
    rw [e2] at h2
    rw [ek] at h1
    exact key k h2 (Or.inr h1)
  · have hk0 : 0 < k := by
      rcases Nat.eq_zero_or_pos k with h0 | h0
      · subst h0; rw [← hs0] at hc; exact absurd (fin_lt_pinf t) hc
      · exact h0
    obtain ⟨j, rfl⟩ : ∃ j, k = j + 1 := ⟨k - 1, by omega⟩
    rw [ek] at h1
    exact key j h1 (Or.inl hc)

/-- C25: at zero freeboard the size is exact after the first pass, and settled -/
theorem C25_zero_freeboard (H ra ns t : ℝ) (M : PF) (n : ℕ) (hH : 0 < H) (hr : 1025 < ra)
    (hns : 0 < ns) : ∃ D : ℝ, 0 < D ∧
      (calculate_nominal_rock_diameter_Dn50 (fin H) (fin 0) (fin ra) (fin ns) (n + 1) (fin t)).res
        = .ok (fin D) ∧
      (calculate_significant_wave_height_Hs (fin 0) (fin ra) (fin D) M).res = .ok (fin H) := by
  obtain ⟨De, hDe, hDD, e⟩ := Delta_eval' hr
  have hp : 0 < stepR (H / De) 0 1 := by unfold stepR; simp; positivity
  refine ⟨stepR (H / De) 0 1, hp, ?_, ?_⟩
  · unfold calculate_nominal_rock_diameter_Dn50
    simp only [e]
    rw [PyM.bind_res_of_ok (check_res ..)]
    simp only [PyM.pure_def, Except.ok.injEq]
    have hc0 : fin H / (fin De * fin ns) = fin (H / (De * ns)) := by pf_eval []
    rw [hc0]
    unfold whileIter
    rw [if_pos (show pinf > fin t from fin_lt_pinf t)]
    refine whileIter_inv (fun s : LoopState => s.diff > fin t) _
      (fun s => s.cur = fin (stepR (H / De) 0 1)) ?_ n ?_
    · rintro ⟨d, p, c⟩ hc
      obtain rfl : c = _ := hc
      rw [step_fin hDe hp.ne']
      simp [stepR]
    · rw [step_fin hDe (by positivity)]
      simp [stepR]
  · rw [Hs_eval M hr hDD hp.ne', Except.ok.injEq, fin_inj]
    unfold HsR stepR
    norm_num
    field_simp

/-- the hypotheses of C25_settled_size are met, e.g. at zero freeboard -/
example : ∃ (H R ra ns t D : ℝ) (n : ℕ), 1025 < ra ∧
    (calculate_nominal_rock_diameter_Dn50 (fin H) (fin R) (fin ra) (fin ns) n (fin t)).res
      = .ok (fin D) ∧
    (calculate_nominal_rock_diameter_Dn50 (fin H) (fin R) (fin ra) (fin ns) (n + 1) (fin t)).res
      = .ok (fin D) ∧ 0 ≤ t ∧ t < |D| := by
  obtain ⟨D, hD, h1, h2⟩ := C25_zero_freeboard 1 2650 2 0 nan 0 (by norm_num) (by norm_num)
    (by norm_num)
  obtain ⟨D', hD', h1', h2'⟩ := C25_zero_freeboard 1 2650 2 0 nan 1 (by norm_num) (by norm_num)
    (by norm_num)
  obtain ⟨De, hDe, hDD, e⟩ := Delta_eval' (by norm_num : (1025 : ℝ) < 2650)
  have : D = D' := by
    rw [Hs_eval nan (by norm_num) hDD hD.ne', Except.ok.injEq, fin_inj] at h2
    rw [Hs_eval nan (by norm_num) hDD hD'.ne', Except.ok.injEq, fin_inj] at h2'
    unfold HsR at h2 h2'
    norm_num at h2 h2'
    have := h2.trans h2'.symm
    have h3 : (34 : ℝ) / 25 * De ≠ 0 := by positivity
    exact mul_left_cancel₀ h3 this
  exact ⟨1, 0, 2650, 2, 0, D, 1, by norm_num, h1, this ▸ h1', le_rfl, abs_pos.mpr hD.ne'⟩


/-! ## sizes that do not exist -/

/-- C25: when the load is below this limit no rock size whatsoever gives the requested wave height -/
theorem C25_no_size (H R ra : ℝ) (M : PF) (hr : 1025 < ra)
    (hu : (H / ((ra - 1025) / 1025) + 0.23 * R) ^ 2 < 4 * 1.36 * 0.06 * R ^ 2) (D : ℝ) (hD : D ≠ 0) :
    (calculate_significant_wave_height_Hs (fin R) (fin ra) (fin D) M).res ≠ .ok (fin H) := by
  obtain ⟨De, hDe, hDD, e⟩ := Delta_eval' hr
  rw [← hDD] at hu
  rw [Hs_eval M hr hDD hD, ne_eq, Except.ok.injEq, fin_inj]
  intro h
  have e2 : HsR R De D = De * (0.06 * R ^ 2 / D - 0.23 * R + 1.36 * D) := by
    unfold HsR; field_simp
  have e3 : H / De + 0.23 * R = 0.06 * R ^ 2 / D + 1.36 * D := by
    rw [← h, e2]; field_simp; ring
  rw [e3] at hu
  have : (0.06 * R ^ 2 / D - 1.36 * D) ^ 2 =
      (0.06 * R ^ 2 / D + 1.36 * D) ^ 2 - 4 * 1.36 * 0.06 * R ^ 2 := by
    generalize (0.06 : ℝ) = k
    generalize (1.36 : ℝ) = l
    field_simp; ring
  nlinarith [sq_nonneg (0.06 * R ^ 2 / D - 1.36 * D)]

namespace KBProof
/-- witness: freeboard with period-3 iteration -/
def Rw : ℝ := √(1.36 / 0.06)
def Hw : ℝ := 1.36 - 0.23 * Rw
theorem Rw_sq : 0.06 * Rw ^ 2 = 1.36 := by
  unfold Rw; rw [Real.sq_sqrt (by norm_num)]; norm_num
theorem Rw_bounds : 4.76 < Rw ∧ Rw < 4.762 := by
  have h0 : 0 < Rw := by unfold Rw; positivity
  have := Rw_sq
  constructor
  · by_contra h; nlinarith [not_lt.mp h]
  · by_contra h; nlinarith [not_lt.mp h]
theorem stepW {D : ℝ} (hD : D ≠ 0) : stepR Hw Rw D = 1 - 1 / D := by
  have := Rw_sq
  unfold stepR Hw
  have : Rw * (0.06 * (Rw / D) - 0.23) = 1.36 / D - 0.23 * Rw := by
    rw [← this]; field_simp
  rw [this]; norm_num; field_simp
end KBProof

/-- C25 refuted: with default settings there is a wave height and freeboard for which the size
function returns a *negative* rock size, without any warning or exception: the iteration cycles with
period three and its last iterate is returned. No rock size reproduces that wave height. -/
theorem C25_silent_nonconvergence_refuted : ∃ H R ra D : ℝ, 0 < H ∧ 0 < R ∧ 1025 < ra ∧ D < 0 ∧
    calculate_nominal_rock_diameter_Dn50 (fin H) (fin R) (fin ra) = ⟨[], .ok (fin D)⟩ ∧
    ∀ D' : ℝ, D' ≠ 0 →
      (calculate_significant_wave_height_Hs (fin R) (fin ra) (fin D')).res ≠ .ok (fin H) := by
  obtain ⟨hb1, hb2⟩ := Rw_bounds
  have hH1 : 0.264 < Hw := by unfold Hw; linarith
  have hH2 : Hw < 0.266 := by unfold Hw; linarith
  set D0 : ℝ := Hw / 2 with hD0
  have d0 : D0 ≠ 0 := by positivity
  set D1 : ℝ := 1 - 1 / D0 with hD1
  have hD1a : D1 < -6.5 := by
    have h7 : 7.5 < 1 / D0 := by rw [lt_div_iff₀ (by positivity)]; rw [hD0]; linarith
    linarith
  have hD1b : -6.7 < D1 := by
    have h7 : 1 / D0 < 7.7 := by
      rw [div_lt_iff₀ (by positivity)]; rw [hD0]; linarith
    linarith
  have d1 : D1 ≠ 0 := by linarith
  set D2 : ℝ := 1 - 1 / D1 with hD2
  have hD2a : 1 < D2 ∧ D2 < 2 := by
    have h6 : -1 < 1 / D1 ∧ 1 / D1 < 0 := by
      constructor
      · rw [lt_div_iff_of_neg (by linarith)]; linarith
      · exact div_neg_of_pos_of_neg one_pos (by linarith)
    constructor <;> linarith
  have d2 : D2 ≠ 0 := by linarith
  have h3 : 1 - 1 / D2 = D0 := by
    have a : D2 = (D1 - 1) / D1 := by rw [hD2]; field_simp
    have b : D1 - 1 = - 1 / D0 := by rw [hD1]; ring
    rw [a, b]
    have c : D1 = (D0 - 1) / D0 := by rw [hD1]; field_simp
    rw [c]
    have : D0 - 1 ≠ 0 := by rw [hD0]; linarith
    field_simp
    ring
  obtain ⟨De, hDe, hDD, e⟩ := Delta_eval' (by norm_num : (1025 : ℝ) < 2050)
  obtain rfl : De = 1 := by rw [hDD]; norm_num
  refine ⟨Hw, Rw, 2050, D1, by linarith, by linarith, by norm_num, by linarith, ?_, ?_⟩
  · unfold calculate_nominal_rock_diameter_Dn50
    simp only [e]
    have hc0 : fin Hw / (fin 1 * (2.0 : PF)) = fin D0 := by
      rw [hD0]; pf_eval []; norm_num
    have hst : ∀ (d p : PF) (D : ℝ), D ≠ 0 → size_step (fin Hw) (fin Rw) (fin 1) ⟨d, p, fin D⟩ =
        ⟨PF.abs (fin (1 - 1 / D) - p), fin (1 - 1 / D), fin (1 - 1 / D)⟩ := by
      intro d p D hD
      rw [step_fin one_pos hD, div_one, stepW hD]
    rw [hc0]
    set s0 : LoopState := ⟨pinf, pinf, fin D0⟩
    set f := size_step (fin Hw) (fin Rw) (fin 1) with hf
    let P : ℝ → LoopState → Prop := fun D s =>
      s.cur = fin D ∧ (s.prev = pinf ∨ s.prev = fin D) ∧ s.diff > fin (1 / 2)
    have stp : ∀ D E s, D ≠ 0 → 1 - 1 / D = E → 1 / 2 < |E - D| → P D s → P E (f s) := by
      rintro D E ⟨d, p, c⟩ hD hE hgap ⟨hc, hp, _⟩
      obtain rfl : c = _ := hc
      rw [hst _ _ _ hD, hE]
      refine ⟨rfl, Or.inr rfl, ?_⟩
      rcases hp with hp | hp
      · obtain rfl : p = _ := hp
        exact fin_lt_pinf _
      · obtain rfl : p = _ := hp
        show PF.abs (fin E - fin D) > _
        rw [sub_fin, abs_fin, gt_fin]; exact hgap
    have hD0' : D0 < 0.133 := by rw [hD0]; linarith
    have hD0'' : 0 < D0 := by rw [hD0]; linarith
    have g1 : 1 / 2 < |D1 - D0| := by rw [lt_abs]; right; linarith
    have g2 : 1 / 2 < |D2 - D1| := by rw [lt_abs]; left; linarith [hD2a.1]
    have g3 : 1 / 2 < |D0 - D2| := by rw [lt_abs]; right; linarith [hD2a.1]
    have orb : ∀ m : ℕ, P D0 (f^[3 * m] s0) ∧ P D1 (f^[3 * m + 1] s0) ∧
        P D2 (f^[3 * m + 2] s0) := by
      have all : ∀ s, P D0 s → P D0 s ∧ P D1 (f s) ∧ P D2 (f (f s)) ∧ P D0 (f (f (f s))) := by
        intro s hs
        have a := stp D0 D1 s d0 rfl g1 hs
        have b := stp D1 D2 _ d1 rfl g2 a
        exact ⟨hs, a, b, stp D2 D0 _ d2 h3 g3 b⟩
      intro m
      induction m with
      | zero =>
        obtain ⟨a, b, c, _⟩ := all s0 ⟨rfl, Or.inl rfl, fin_lt_pinf _⟩
        exact ⟨a, b, c⟩
      | succ m ih =>
        have e3 : 3 * (m + 1) = 3 * m + 1 + 1 + 1 := by ring
        have h4 := (all _ ih.1).2.2.2
        obtain ⟨a, b, c, _⟩ := all _ h4
        rw [show 3 * (m + 1) + 2 = 3 * (m + 1) + 1 + 1 by ring, e3]
        simp only [Function.iterate_succ_apply']
        exact ⟨a, b, c⟩
    have hcond : ∀ k, (f^[k] s0).diff > fin (1 / 2) := by
      intro k
      have h := orb (k / 3)
      have hk : k = 3 * (k / 3) ∨ k = 3 * (k / 3) + 1 ∨ k = 3 * (k / 3) + 2 := by omega
      rcases hk with hk | hk | hk
      · rw [hk]; exact h.1.2.2
      · rw [hk]; exact h.2.1.2.2
      · rw [hk]; exact h.2.2.2.2
    have hlt : ∀ x : PF, x > fin (1 / 2) → x > (1e-5 : PF) := by
      intro x hx
      cases x with
      | fin x => rw [gt_fin] at hx; rw [sci_eq, gt_fin]; norm_num; linarith
      | pinf => exact fin_lt_pinf _
      | ninf => exact absurd hx (not_lt_ninf _)
      | nan => exact absurd hx (lt_nan _)
    rw [whileIter_all _ f 1000 s0 (fun j _ => hlt _ (hcond j))]
    have hcur : (f^[1000] s0).cur = fin D1 := (orb 333).2.1.1
    rw [hcur]
    have hw : (check_validity_range (fin Rw) (fin D1)) = ⟨[], .ok ()⟩ := by
      apply PyM.ext'
      · unfold check_validity_range
        rw [check_if_given_warns, if_neg]
        rintro ⟨_, h⟩
        unfold OutOfRange at h
        rw [div_fin d1, sci_eq, sci_eq, neg_fin, lt_fin, lt_fin] at h
        rcases h with h | h
        · rw [div_lt_iff_of_neg (by linarith)] at h; linarith
        · have : Rw / D1 < 0 := div_neg_of_pos_of_neg (by linarith) (by linarith)
          linarith
      · exact check_res _ _
    rw [hw]; rfl
  · intro D' hD'
    refine C25_no_size Hw Rw 2050 nan (by norm_num) ?_ D' hD'
    rw [← hDD, div_one]
    unfold Hw
    have := Rw_sq
    nlinarith


/-! ## convergence -/

namespace KBProof

/-- the larger root of the design equation -/
def root (A B : ℝ) : ℝ := (A + √(A ^ 2 - 4 * B)) / 2

theorem stepR_AB {h R D : ℝ} (hD : D ≠ 0) :
    stepR h R D = (h + 0.23 * R) / 1.36 - 0.06 * R ^ 2 / 1.36 / D := by
  unfold stepR; norm_num; field_simp; ring

theorem HsR_of_fixed {H R De D : ℝ} (hDe : 0 < De) (hD : D ≠ 0) (h : stepR (H / De) R D = D) :
    HsR R De D = H := by
  have := residual hDe hD (by rw [h]; exact hD) (R := R) (H := H)
  rw [h] at this
  simp at this
  linarith

/-- one pass towards the larger root `d` when `D` is above the smaller root -/
theorem contract {A B d D : ℝ} (hB : 0 ≤ B) (hd : 0 < d) (hfix : A - B / d = d) (hD : 0 < D) :
    (A - B / D) - d = B / (d * D) * (D - d) := by
  have : A = d + B / d := by linarith
  rw [this]; field_simp; ring

end KBProof

set_option maxHeartbeats 1000000 in
/-- C25: if the wave height is above the limit of `C25_no_size` and the starting size is not below
half of the sum of the two solutions (always so for submerged crests with the default start), the
iteration settles on the larger solution: there is a size `d` that reproduces the wave height exactly
and a constant `K` such that for every positive tolerance and every large enough iteration limit the
returned size is within `K * tolerance` of `d`. -/
theorem C25_converges (H R ra ns : ℝ) (M : PF) (hH : 0 < H) (hr : 1025 < ra) (hns : 0 < ns)
    (hA : 0 < H / ((ra - 1025) / 1025) + 0.23 * R)
    (hs : 4 * 1.36 * 0.06 * R ^ 2 < (H / ((ra - 1025) / 1025) + 0.23 * R) ^ 2)
    (hst : (H / ((ra - 1025) / 1025) + 0.23 * R) / (2 * 1.36) ≤ H / ((ra - 1025) / 1025 * ns)) :
    ∃ d K : ℝ, 0 < d ∧ 0 ≤ K ∧
      (calculate_significant_wave_height_Hs (fin R) (fin ra) (fin d) M).res = .ok (fin H) ∧
      ∀ t : ℝ, 0 < t → ∃ N : ℕ, ∀ n ≥ N, ∃ D : ℝ,
        (calculate_nominal_rock_diameter_Dn50 (fin H) (fin R) (fin ra) (fin ns) n (fin t)).res
          = .ok (fin D) ∧ |D - d| ≤ K * t := by
  obtain ⟨De, hDe, hDD, e⟩ := Delta_eval' hr
  rw [← hDD] at hA hs hst
  set h := H / De with hh
  set A := (h + 0.23 * R) / 1.36 with hAdef
  set B := 0.06 * R ^ 2 / 1.36 with hBdef
  have hB0 : 0 ≤ B := by positivity
  have hA0 : 0 < A := by positivity
  have hdisc : 4 * B < A ^ 2 := by
    rw [hAdef, hBdef, div_pow, lt_div_iff₀ (by norm_num)]
    calc 4 * (0.06 * R ^ 2 / 1.36) * 1.36 ^ 2 = 4 * 1.36 * 0.06 * R ^ 2 := by ring
      _ < _ := hs
  set q := √(A ^ 2 - 4 * B) with hq
  have hq0 : 0 < q := Real.sqrt_pos.mpr (by linarith)
  have hq2 : q ^ 2 = A ^ 2 - 4 * B := Real.sq_sqrt (by linarith)
  set d := (A + q) / 2 with hd
  have hd0 : 0 < d := by positivity
  have hB' : B = d * (A - d) := by
    have : (A + q) / 2 * (A - (A + q) / 2) = (A ^ 2 - q ^ 2) / 4 := by ring
    rw [hd, this, hq2]; ring
  have hAd : 0 ≤ A - d := by
    by_contra hn
    have := mul_neg_of_pos_of_neg hd0 (not_le.mp hn)
    linarith
  have hfix : A - B / d = d := by rw [hB']; field_simp; ring
  have hdA : A / 2 < d := by rw [hd]; linarith
  -- the smaller root is below A/2, hence the contraction factor
  set c := (A - d) / (A / 2) with hc
  have hc0 : 0 ≤ c := by positivity
  have hc1 : c < 1 := by
    rw [hc, div_lt_one (by positivity)]; linarith
  have hstep : ∀ D, A / 2 ≤ D → A / 2 ≤ stepR h R D ∧ |stepR h R D - d| ≤ c * |D - d| := by
    intro D hD
    have hDp : 0 < D := by linarith
    have e1 : stepR h R D = A - B / D := stepR_AB hDp.ne'
    have e2 := contract hB0 hd0 hfix hDp
    have e3 : B / (d * D) = (A - d) / D := by rw [hB']; field_simp
    constructor
    · rw [e1]
      have : B / D ≤ B / (A / 2) := by gcongr
      have h2 : B / (A / 2) ≤ A / 2 := by
        rw [div_le_iff₀ (by positivity)]
        have : A / 2 * (A / 2) = A ^ 2 / 4 := by ring
        linarith
      linarith
    · rw [e1, e2, e3, abs_mul, abs_of_nonneg (by positivity)]
      have : (A - d) / D ≤ c := by rw [hc]; gcongr
      gcongr
  set D0 := H / (De * ns) with hD0
  have hD0A : A / 2 ≤ D0 := by
    rw [hAdef, div_div, mul_comm (1.36 : ℝ)]; exact hst
  set f := size_step (fin H) (fin R) (fin De) with hf
  set s0 : LoopState := ⟨pinf, pinf, fin D0⟩ with hs0
  let x : ℕ → ℝ := fun k => (stepR h R)^[k] D0
  have hx : ∀ k, A / 2 ≤ x k ∧ |x k - d| ≤ c ^ k * |D0 - d| := by
    intro k
    induction k with
    | zero => simp [x, hD0A]
    | succ k ih =>
      have e1 : x (k + 1) = stepR h R (x k) := Function.iterate_succ_apply' ..
      obtain ⟨a, b⟩ := hstep (x k) ih.1
      rw [e1]
      refine ⟨a, b.trans ?_⟩
      calc c * |x k - d| ≤ c * (c ^ k * |D0 - d|) := by gcongr; exact ih.2
        _ = _ := by ring
  have hcur : ∀ k, (f^[k] s0).cur = fin (x k) := by
    intro k
    induction k with
    | zero => rfl
    | succ k ih =>
      rw [Function.iterate_succ_apply']
      generalize f^[k] s0 = s at ih ⊢
      obtain ⟨a, b, c'⟩ := s
      obtain rfl : c' = _ := ih
      rw [hf, step_fin hDe (by have := (hx k).1; linarith)]
      have e1 : x (k + 1) = stepR h R (x k) := Function.iterate_succ_apply' ..
      rw [e1]
  have hdiff : ∀ k, 0 < k → (f^[k + 1] s0).diff = fin |x (k + 1) - x k| := by
    intro k hk
    have a : (f^[k + 1] s0).diff = PF.abs ((f^[k + 1] s0).cur - (f^[k] s0).prev) := by
      rw [Function.iterate_succ_apply']; rfl
    rw [a, iter_curs _ _ _ _ _ hk, hcur, ← hf, hcur, sub_fin, abs_fin]
  refine ⟨d, c / (1 - c), hd0, div_nonneg hc0 (by linarith), ?_, ?_⟩
  · rw [Hs_eval M hr hDD hd0.ne', Except.ok.injEq, fin_inj]
    exact HsR_of_fixed hDe hd0.ne' (by rw [← hh, stepR_AB hd0.ne']; exact hfix)
  · intro t ht
    -- eventually the difference is below the tolerance
    obtain ⟨N, hN⟩ : ∃ N : ℕ, c ^ N * (2 * |D0 - d| + 1) < t := by
      have hpos : 0 < 2 * |D0 - d| + 1 := by positivity
      obtain ⟨N, hN⟩ := exists_pow_lt_of_lt_one (div_pos ht hpos) hc1
      exact ⟨N, by rwa [lt_div_iff₀ hpos] at hN⟩
    have hsmall : ¬ ((f^[N + 2] s0).diff > fin t) := by
      rw [hdiff (N + 1) (by omega), gt_fin, not_lt]
      have h1 := (hx (N + 1)).2
      have h2 := (hx (N + 1 + 1)).2
      have hc' : ∀ m, c ^ (N + m) ≤ c ^ N := fun m => pow_le_pow_of_le_one hc0 hc1.le (by omega)
      have h3 : c ^ (N + 1) * |D0 - d| ≤ c ^ N * |D0 - d| := mul_le_mul_of_nonneg_right (hc' 1) (abs_nonneg _)
      have h4 : c ^ (N + 1 + 1) * |D0 - d| ≤ c ^ N * |D0 - d| := mul_le_mul_of_nonneg_right (hc' 2) (abs_nonneg _)
      have h5 : |x (N + 1 + 1) - x (N + 1)| ≤ |x (N + 1 + 1) - d| + |x (N + 1) - d| := by
        rw [abs_sub_comm (x (N + 1)) d]; exact abs_sub_le _ _ _
      have h6 : 0 ≤ c ^ N := by positivity
      have h7 : c ^ N * (2 * |D0 - d| + 1) = 2 * (c ^ N * |D0 - d|) + c ^ N := by ring
      linarith
    refine ⟨N + 2, fun n hn => ?_⟩
    obtain ⟨k, hkn, ek, hck, hstop⟩ := whileIter_spec (fun s : LoopState => s.diff > fin t) f n s0
    have hkN : k ≤ N + 2 := by
      by_contra hlt
      exact hsmall (hck (N + 2) (by omega))
    have hnc : ¬ ((f^[k] s0).diff > fin t) := by
      rcases hstop with hk | hk
      · have : k = N + 2 := by omega
        rw [this]; exact hsmall
      · exact hk
    have hk2 : 2 ≤ k := by
      by_contra hlt
      have : k = 0 ∨ k = 1 := by omega
      rcases this with h0 | h0
      · subst h0; exact hnc (fin_lt_pinf t)
      · subst h0
        apply hnc
        have a : (f^[1] s0).diff = PF.abs ((f^[1] s0).cur - pinf) := rfl
        rw [a, hcur]; exact fin_lt_pinf t
    obtain ⟨j, rfl⟩ : ∃ j, k = j + 1 := ⟨k - 1, by omega⟩
    refine ⟨x (j + 1), ?_, ?_⟩
    · unfold calculate_nominal_rock_diameter_Dn50
      simp only [e]
      rw [PyM.bind_res_of_ok (check_res ..)]
      have hc0' : fin H / (fin De * fin ns) = fin D0 := by rw [hD0]; pf_eval []
      rw [hc0', ← hf, ← hs0, ek, hcur]
      rfl
    · rw [hdiff j (by omega), gt_fin, not_lt] at hnc
      have e1 : x (j + 1) = stepR h R (x j) := Function.iterate_succ_apply' ..
      have hb := (hstep (x j) (hx j).1).2
      rw [← e1] at hb
      have h5 : |x j - d| ≤ |x (j + 1) - x j| + |x (j + 1) - d| := by
        rw [abs_sub_comm (x (j + 1)) (x j)]; exact abs_sub_le _ _ _
      have h7 : c * |x j - d| ≤ c * (t + |x (j + 1) - d|) := by gcongr; linarith
      rw [div_mul_eq_mul_div, le_div_iff₀ (by linarith)]
      linarith

/-- the hypotheses of C25_converges hold for a submerged crest with default start -/
example : ∃ H R ra ns : ℝ, 0 < H ∧ R < 0 ∧ 1025 < ra ∧ ns = 2 ∧
    0 < H / ((ra - 1025) / 1025) + 0.23 * R ∧
    4 * 1.36 * 0.06 * R ^ 2 < (H / ((ra - 1025) / 1025) + 0.23 * R) ^ 2 ∧
    (H / ((ra - 1025) / 1025) + 0.23 * R) / (2 * 1.36) ≤ H / ((ra - 1025) / 1025 * ns) :=
  ⟨3, -1, 2050, 2, by norm_num⟩

/-! ## freeboard iteration -/

namespace KBProof

def rstepR (h D R : ℝ) : ℝ := (h - 1.36 * D) / (0.06 * (R / D) - 0.23)

theorem rstep_fin {H De D R : ℝ} (hDe : 0 < De) (hD : D ≠ 0) (hR : 0.06 * (R / D) - 0.23 ≠ 0)
    (d p : PF) : (freeboard_step (fin H) (fin D) (fin De) ⟨d, p, fin R⟩) =
      ⟨PF.abs (fin (rstepR (H / De) D R) - p), fin (rstepR (H / De) D R),
        fin (rstepR (H / De) D R)⟩ := by
  unfold freeboard_step rstepR
  pf_eval []

theorem rstep_zero {H De D R : ℝ} (hDe : 0 < De) (hD : D ≠ 0) (hR : 0.06 * (R / D) - 0.23 = 0)
    (d p : PF) (x : ℝ) : (freeboard_step (fin H) (fin D) (fin De) ⟨d, p, fin R⟩).cur ≠ fin x := by
  unfold freeboard_step
  simp only [sci_eq]
  simp only [div_fin hD, div_fin hDe.ne', mul_fin, sub_fin, hR, div_zero_fin]
  unfold mulInf
  split_ifs <;> simp

theorem rstep_nan {H De D : ℝ} (d p : PF) (x : ℝ) :
    (freeboard_step (fin H) (fin D) (fin De) ⟨d, p, nan⟩).cur ≠ fin x := by
  unfold freeboard_step
  simp [nan_div, mul_nan, nan_sub, div_nan]

theorem rresidual {H R De D : ℝ} (hDe : 0 < De) (hD : D ≠ 0) (hR : 0.06 * (R / D) - 0.23 ≠ 0) :
    HsR (rstepR (H / De) D R) De D - H =
      De * 0.06 * rstepR (H / De) D R * (rstepR (H / De) D R - R) / D := by
  have e : rstepR (H / De) D R * (0.06 * (R / D) - 0.23) = H / De - 1.36 * D := by
    unfold rstepR; rw [div_mul_cancel₀ _ hR]
  generalize rstepR (H / De) D R = E at *
  have e2 : HsR E De D = De * (0.06 * E ^ 2 / D - 0.23 * E + 1.36 * D) := by
    unfold HsR; field_simp
  have e3 : H = De * (E * (0.06 * (R / D) - 0.23) + 1.36 * D) := by
    rw [e]; field_simp; ring
  rw [e2]
  rw [e3]
  generalize (0.06 : ℝ) = k
  field_simp
  ring

theorem iter_rcurs (H D De : PF) (s : LoopState) (k : ℕ) (hk : 0 < k) :
    ((freeboard_step H D De)^[k] s).prev = ((freeboard_step H D De)^[k] s).cur := by
  obtain ⟨j, rfl⟩ : ∃ j, k = j + 1 := ⟨k - 1, by omega⟩
  rw [Function.iterate_succ_apply']; rfl

end KBProof

/-- C25, freeboard solver: a settled freeboard reproduces the wave height up to a bound proportional
to the tolerance. -/
theorem C25_settled_freeboard (H D ra i t R : ℝ) (M : PF) (n : ℕ) (hr : 1025 < ra) (hD : 0 < D)
    (h1 : (calculate_crest_freeboard_Rc (fin H) (fin ra) (fin D) M (fin i) n (fin t)).res
      = .ok (fin R))
    (h2 : (calculate_crest_freeboard_Rc (fin H) (fin ra) (fin D) M (fin i) (n + 1) (fin t)).res
      = .ok (fin R)) (ht : 0 ≤ t) :
    ∃ H' : ℝ, (calculate_significant_wave_height_Hs (fin R) (fin ra) (fin D) M).res = .ok (fin H') ∧
      |H' - H| ≤ 0.06 * ((ra - 1025) / 1025) * |R| * t / D := by
  obtain ⟨De, hDe, hDD, e⟩ := Delta_eval' hr
  rw [← hDD]
  refine ⟨_, Hs_eval M hr hDD hD.ne', ?_⟩
  unfold calculate_crest_freeboard_Rc at h1 h2
  rw [use_Dn50] at h1 h2
  simp only [e, PyM.bind_ok] at h1 h2
  rw [PyM.bind_res_of_ok (check_res ..)] at h1 h2
  simp only [PyM.pure_def, Except.ok.injEq] at h1 h2
  generalize hs0 : (⟨pinf, pinf, fin i * fin D⟩ : LoopState) = s0 at h1 h2
  have key : ∀ k, ((freeboard_step (fin H) (fin D) (fin De))^[k + 1] s0).cur = fin R →
      (¬ ((freeboard_step (fin H) (fin D) (fin De))^[k + 1] s0).diff > fin t ∨
        ((freeboard_step (fin H) (fin D) (fin De))^[k] s0).cur = fin R) →
      |HsR R De D - H| ≤ 0.06 * De * |R| * t / D := by
    intro k hk hor
    rw [Function.iterate_succ_apply'] at hk hor
    have hpp : ¬ (freeboard_step (fin H) (fin D) (fin De)
        ((freeboard_step (fin H) (fin D) (fin De))^[k] s0)).diff > fin t → 0 < k := by
      intro hn
      rcases Nat.eq_zero_or_pos k with h0 | h0
      · subst h0
        exfalso
        apply hn
        have : (freeboard_step (fin H) (fin D) (fin De) s0).diff =
          PF.abs ((freeboard_step (fin H) (fin D) (fin De) s0).cur - s0.prev) := rfl
        rw [Function.iterate_zero, id] at hk ⊢
        rw [this, hk, ← hs0]
        exact fin_lt_pinf t
      · exact h0
    have hprev : 0 < k → ((freeboard_step (fin H) (fin D) (fin De))^[k] s0).prev =
      ((freeboard_step (fin H) (fin D) (fin De))^[k] s0).cur := iter_rcurs _ _ _ _ _
    generalize (freeboard_step (fin H) (fin D) (fin De))^[k] s0 = s at *
    obtain ⟨d, p, c⟩ := s
    have hdiff : (freeboard_step (fin H) (fin D) (fin De) ⟨d, p, c⟩).diff =
      PF.abs ((freeboard_step (fin H) (fin D) (fin De) ⟨d, p, c⟩).cur - p) := rfl
    have hcn : c ≠ nan := by rintro rfl; exact rstep_nan d p _ hk
    obtain ⟨b, hb, hle⟩ : ∃ b, c = fin b ∧ |R - b| ≤ t := by
      rcases hor with hor | hor
      · have hpc : p = c := hprev (hpp hor)
        rw [hdiff, hk, hpc] at hor
        exact abs_le_of_not_gt hcn hor
      · exact ⟨R, hor, by simpa using ht⟩
    subst hb
    have hb0 : 0.06 * (b / D) - 0.23 ≠ 0 := by
      intro h0; exact rstep_zero hDe hD.ne' h0 d p _ hk
    rw [rstep_fin hDe hD.ne' hb0] at hk
    have er : rstepR (H / De) D b = R := by simpa using hk
    have r := rresidual hDe hD.ne' hb0 (H := H)
    rw [er] at r
    rw [r, abs_div, abs_mul, abs_mul (De * 0.06), abs_of_pos hD]
    have h1 : |De * 0.06| = 0.06 * De := by rw [abs_of_nonneg (by positivity)]; ring
    rw [h1]
    gcongr
  obtain ⟨k, hkn, ek, hck, hstop⟩ := whileIter_spec (fun s : LoopState => s.diff > fin t)
    (freeboard_step (fin H) (fin D) (fin De)) n s0
  by_cases hc : (fun s : LoopState => s.diff > fin t)
      ((freeboard_step (fin H) (fin D) (fin De))^[k] s0)
  · have hkn' : k = n := hstop.resolve_right (not_not.mpr hc)
    subst hkn'
    have e2 := whileIter_all (fun s : LoopState => s.diff > fin t)
      (freeboard_step (fin H) (fin D) (fin De)) (k + 1) s0 (fun j hj => by
        rcases Nat.lt_succ_iff_lt_or_eq.mp hj with h | h
        · exact hck j h
        · rw [h]; exact hc)
    rw [e2] at h2
    rw [ek] at h1
    exact key k h2 (Or.inr h1)
  · have hk0 : 0 < k := by
      rcases Nat.eq_zero_or_pos k with h0 | h0
      · subst h0; rw [← hs0] at hc; exact absurd (fin_lt_pinf t) hc
      · exact h0
    obtain ⟨j, rfl⟩ : ∃ j, k = j + 1 := ⟨k - 1, by omega⟩
    rw [ek] at h1
    exact key j h1 (Or.inl hc)


/-- the hypotheses of C25_settled_freeboard are met -/
example : ∃ (H D ra i t R : ℝ) (n : ℕ), 1025 < ra ∧ 0 < D ∧
    (calculate_crest_freeboard_Rc (fin H) (fin ra) (fin D) nan (fin i) n (fin t)).res
      = .ok (fin R) ∧
    (calculate_crest_freeboard_Rc (fin H) (fin ra) (fin D) nan (fin i) (n + 1) (fin t)).res
      = .ok (fin R) ∧ 0 ≤ t := by
  obtain ⟨De, hDe, hDD, e⟩ := Delta_eval' (by norm_num : (1025 : ℝ) < 2050)
  obtain rfl : De = 1 := by rw [hDD]; norm_num
  have h : ∀ n : ℕ, (calculate_crest_freeboard_Rc (fin 1.36) (fin 2050) (fin 1) nan (fin (-1))
      (n + 1) (fin 0)).res = .ok (fin 0) := by
    intro n
    unfold calculate_crest_freeboard_Rc
    rw [use_Dn50]
    simp only [e, PyM.bind_ok]
    rw [PyM.bind_res_of_ok (check_res ..)]
    simp only [PyM.pure_def, Except.ok.injEq]
    unfold whileIter
    rw [if_pos (show pinf > fin 0 from fin_lt_pinf _)]
    refine whileIter_inv (fun s : LoopState => s.diff > fin 0) _ (fun s => s.cur = fin 0) ?_ n ?_
    · rintro ⟨d, p, c⟩ hc
      obtain rfl : c = _ := hc
      rw [rstep_fin one_pos one_ne_zero (by norm_num)]
      simp [rstepR]
    · rw [mul_fin, rstep_fin one_pos one_ne_zero (by norm_num)]
      simp [rstepR]
  exact ⟨1.36, 1, 2050, -1, 0, 0, 1, by norm_num, by norm_num, h 0, h 1, le_rfl⟩

end
