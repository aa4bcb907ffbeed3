import Verif.Lemmas.Basic
import Verif.Lemmas.Check
import Verif.Model.VanDerMeer

/-! # Evaluation of the Van der Meer models on admissible inputs, and the regime-crossing argument -/

open Classical
open PF
open CorePhysics
noncomputable section

namespace VdMProof

theorem one_sci : (1.0 : ℝ) = 1 := by norm_num

/-- Iribarren number -/
def xi (H T c : ℝ) : ℝ := 1.0 / c / √(2 * Real.pi / 9.81 * H / T ^ 2)
/-- critical Iribarren number -/
def xmc (cpl cs P c : ℝ) : ℝ := (cpl / cs * P ^ (0.31 : ℝ) * √(1.0 / c)) ^ (1.0 / (P + 0.5))
/-- correction for the number of waves -/
def gam (N : ℝ) : ℝ :=
  if N > 5000 then √N / (√5000 * (1.3 * (1 - Real.exp (-0.00031 * N))))
  else if N < 1000 then √(1000 / N) else 1.0

theorem xi_pos {H T c : ℝ} (hH : 0 < H) (hT : 0 < T) (hc : 0 < c) : 0 < xi H T c := by
  have := Real.pi_pos
  unfold xi; positivity

theorem xmc_pos {cpl cs P c : ℝ} (h1 : 0 < cpl) (h2 : 0 < cs) (hP : 0 < P) (hc : 0 < c) :
    0 < xmc cpl cs P c := by unfold xmc; positivity

theorem xi_eval {H T c : ℝ} (hH : 0 < H) (hT : 0 < T) (hc : 0 < c) :
    calculate_Iribarren_number_ksi (fin H) (fin T) (fin c) = fin (xi H T c) := by
  have := Real.pi_pos
  unfold calculate_Iribarren_number_ksi calculate_wave_steepness_s xi
  pf_eval []

theorem xmc_eval {cpl cs P c : ℝ} (h1 : 0 < cpl) (h2 : 0 < cs) (hP : 0 < P) (hc : 0 < c) :
    calculate_critical_Iribarren_number_ksi_mc (fin cpl) (fin cs) (fin P) (fin c) =
      fin (xmc cpl cs P c) := by
  unfold calculate_critical_Iribarren_number_ksi_mc xmc
  pf_eval []

theorem one_sub_exp_pos {N : ℝ} (h : 0 < N) : 0 < 1 - Real.exp (-0.00031 * N) := by
  have : Real.exp (-0.00031 * N) < 1 := by
    rw [Real.exp_lt_one_iff]; linarith
  linarith

theorem gam_pos {N : ℝ} (h : 0 < N) : 0 < gam N := by
  have := one_sub_exp_pos h
  unfold gam
  split_ifs
  · positivity
  · positivity
  · norm_num

theorem gam_eval {N : ℝ} (h : 0 < N) :
    VdM1988.calculate_correction_term_gamma_N (fin N) = fin (gam N) := by
  have := one_sub_exp_pos h
  unfold VdM1988.calculate_correction_term_gamma_N gam
  pf_eval []

theorem Ns_eval {H D rr rw : ℝ} (hD : 0 < D) (hw : 0 < rw) (hr : rw < rr) :
    calculate_stability_number_Ns (fin H) (fin D) (fin rr) (fin rw) =
      fin (H / ((rr - rw) / rw * D)) := by
  obtain ⟨De, hDe, hDD, e⟩ := Delta_eval hw hr
  unfold calculate_stability_number_Ns
  rw [e, ← hDD]
  pf_eval []

@[simp] theorem check_res (a b c d e f g : PF) :
    (VdM1988.check_validity_range a b c d e f g).res = .ok () := by
  simp [VdM1988.check_validity_range]
@[simp] theorem check_res_m (a b c d e f g h i : PF) :
    (VdMModified.check_validity_range a b c d e f g h i).res = .ok () := by
  simp [VdMModified.check_validity_range]

theorem use_Dn50 (D : ℝ) (M rho : PF) :
    check_usage_Dn50_or_M50 (fin D) M rho = ⟨[], .ok (fin D)⟩ := C04_diameter_given _ _ _ (by simp)

/-- regime factors: damage is `(Ns · H2%/Hs · factor)^5 · weight` -/
def kpl (cpl P x : ℝ) : ℝ := (1 / cpl) * P ^ (-0.18 : ℝ) * x ^ (0.5 : ℝ)
def ksu (cs P c x : ℝ) : ℝ := (1 / cs) * P ^ (0.13 : ℝ) * (1 / √c) * x ^ (-P)
def kf (cpl cs P c x : ℝ) : ℝ :=
  if x < xmc cpl cs P c ∨ 4.0 ≤ c then kpl cpl P x else ksu cs P c x

theorem kpl_pos {cpl P x : ℝ} (h1 : 0 < cpl) (hP : 0 < P) (hx : 0 < x) : 0 < kpl cpl P x := by
  unfold kpl; positivity
theorem ksu_pos {cs P c x : ℝ} (h1 : 0 < cs) (hP : 0 < P) (hc : 0 < c) (hx : 0 < x) :
    0 < ksu cs P c x := by unfold ksu; positivity
theorem kf_pos {cpl cs P c x : ℝ} (h1 : 0 < cpl) (h2 : 0 < cs) (hP : 0 < P) (hc : 0 < c)
    (hx : 0 < x) : 0 < kf cpl cs P c x := by
  unfold kf; split_ifs
  · exact kpl_pos h1 hP hx
  · exact ksu_pos h2 hP hc hx

/-- damage, size and the two wave heights with weight `w` (√N/γ_N or √N) -/
def dmg (r H T c P cpl cs De D w : ℝ) : ℝ :=
  (H / (De * D) * r * kf cpl cs P c (xi H T c)) ^ 5 * w
def dia (r H T c P cpl cs De S w : ℝ) : ℝ :=
  H / De * r * kf cpl cs P c (xi H T c) * (S / w) ^ (-0.2 : ℝ)
def Hpl (r T c P cpl g A De D : ℝ) : ℝ :=
  (cpl * P ^ (0.18 : ℝ) * A ^ (0.2 : ℝ) * (1.0 / c) ^ (-0.5 : ℝ)
    * (2 * Real.pi / g * (1.0 / T ^ 2)) ^ (0.25 : ℝ) * De * D * (1 / r)) ^ ((1.0 : ℝ) / 0.75)
def Hsu (r T c P cs g A De D : ℝ) : ℝ :=
  (cs * P ^ (-0.13 : ℝ) * A ^ (0.2 : ℝ) * (1.0 / c) ^ P
    * (2 * Real.pi / g * (1.0 / T ^ 2)) ^ (-0.5 * P) * (1.0 / c) ^ (-0.5 : ℝ) * De * D * (1 / r))
    ^ (1.0 / (1.0 + 0.5 * P))
def Hsel (r T c P cpl cs g A De D : ℝ) : ℝ :=
  if (xi (Hpl r T c P cpl g A De D) T c < xmc cpl cs P c ∧
      xi (Hsu r T c P cs g A De D) T c < xmc cpl cs P c) ∨ 4.0 ≤ c
  then Hpl r T c P cpl g A De D else Hsu r T c P cs g A De D

theorem Hpl_pos {r T c P cpl g A De D : ℝ} (hr : 0 < r) (hT : 0 < T) (hc : 0 < c) (hP : 0 < P)
    (h1 : 0 < cpl) (hg : 0 < g) (hA : 0 < A) (hDe : 0 < De) (hD : 0 < D) :
    0 < Hpl r T c P cpl g A De D := by
  have := Real.pi_pos
  unfold Hpl; positivity
theorem Hsu_pos {r T c P cs g A De D : ℝ} (hr : 0 < r) (hT : 0 < T) (hc : 0 < c) (hP : 0 < P)
    (h1 : 0 < cs) (hg : 0 < g) (hA : 0 < A) (hDe : 0 < De) (hD : 0 < D) :
    0 < Hsu r T c P cs g A De D := by
  have := Real.pi_pos
  unfold Hsu; positivity
theorem Hsel_pos {r T c P cpl cs g A De D : ℝ} (hr : 0 < r) (hT : 0 < T) (hc : 0 < c) (hP : 0 < P)
    (h1 : 0 < cpl) (h2 : 0 < cs) (hg : 0 < g) (hA : 0 < A) (hDe : 0 < De) (hD : 0 < D) :
    0 < Hsel r T c P cpl cs g A De D := by
  unfold Hsel; split_ifs
  · exact Hpl_pos hr hT hc hP h1 hg hA hDe hD
  · exact Hsu_pos hr hT hc hP h2 hg hA hDe hD

/-! ## real-number facts -/

/-- the regime criterion compares the two factors -/
theorem k_lt {cpl cs P c x : ℝ} (h1 : 0 < cpl) (h2 : 0 < cs) (hP : 0 < P) (hc : 0 < c)
    (hx : 0 < x) : x < xmc cpl cs P c ↔ kpl cpl P x < ksu cs P c x := by
  have hm := xmc_pos h1 h2 hP hc
  have e : xmc cpl cs P c ^ (P + 0.5) = cpl / cs * P ^ (0.31 : ℝ) * √(1.0 / c) := by
    unfold xmc
    rw [← Real.rpow_mul (by positivity), one_sci, one_div_mul_cancel (by positivity), Real.rpow_one]
  rw [← Real.rpow_lt_rpow_iff (z := P + 0.5) hx.le hm.le (by positivity), e]
  have hk : kpl cpl P x = ksu cs P c x * (x ^ (P + 0.5) / (cpl / cs * P ^ (0.31 : ℝ) * √(1.0 / c))) := by
    unfold kpl ksu
    simp only [Real.rpow_def_of_pos hP]
    obtain ⟨a, rfl⟩ := exists_exp h1
    obtain ⟨b, rfl⟩ := exists_exp h2
    obtain ⟨d, rfl⟩ := exists_exp hc
    obtain ⟨y, rfl⟩ := exists_exp hx
    simp only [one_sci, one_div, ← Real.exp_neg]
    exp_norm
    ring
  rw [hk, mul_lt_iff_lt_one_right (ksu_pos h2 hP hc hx), div_lt_one (by positivity)]

theorem xi_anti {H H' T c : ℝ} (hH : 0 < H) (h : H < H') (hT : 0 < T) (hc : 0 < c) :
    xi H' T c < xi H T c := by
  have := Real.pi_pos
  unfold xi
  gcongr

/-- wave height times plunging factor is a power of the wave height -/
theorem Hkpl_lt {H H' T c P cpl : ℝ} (hH : 0 < H) (h : H < H') (hT : 0 < T) (hc : 0 < c)
    (hP : 0 < P) (h1 : 0 < cpl) : H * kpl cpl P (xi H T c) < H' * kpl cpl P (xi H' T c) := by
  have key : ∀ H, 0 < H → H * kpl cpl P (xi H T c) = kpl cpl P (xi 1 T c) * H ^ (0.75 : ℝ) := by
    intro H hH
    have hK : 0 < 2 * Real.pi / 9.81 := by have := Real.pi_pos; positivity
    unfold kpl xi
    simp only [Real.rpow_def_of_pos hP]
    obtain ⟨a, rfl⟩ := exists_exp h1
    obtain ⟨d, rfl⟩ := exists_exp hc
    obtain ⟨y, rfl⟩ := exists_exp hH
    obtain ⟨t, rfl⟩ := exists_exp hT
    obtain ⟨k, hk⟩ := exists_exp hK
    rw [hk]
    simp only [one_sci, one_div, ← Real.exp_neg, mul_one]
    exp_norm
    push_cast; ring
  rw [key H hH, key H' (hH.trans h)]
  have := kpl_pos h1 hP (xi_pos one_pos hT hc)
  gcongr

theorem Hksu_lt {H H' T c P cs : ℝ} (hH : 0 < H) (h : H < H') (hT : 0 < T) (hc : 0 < c)
    (hP : 0 < P) (h1 : 0 < cs) : H * ksu cs P c (xi H T c) < H' * ksu cs P c (xi H' T c) := by
  have h3 := Real.rpow_lt_rpow_of_neg (xi_pos (hH.trans h) hT hc) (xi_anti hH h hT hc)
    (neg_lt_zero.mpr hP)
  have := xi_pos hH hT hc
  unfold ksu
  gcongr

theorem kf_min {cpl cs P c x : ℝ} (h1 : 0 < cpl) (h2 : 0 < cs) (hP : 0 < P) (hc : 0 < c)
    (hx : 0 < x) : kf cpl cs P c x =
      if 4.0 ≤ c then kpl cpl P x else min (kpl cpl P x) (ksu cs P c x) := by
  unfold kf
  by_cases h4 : 4.0 ≤ c
  · simp [h4]
  · simp only [h4, or_false, if_false]
    have := k_lt h1 h2 hP hc hx
    split_ifs with h
    · rw [min_eq_left (this.mp h).le]
    · rw [min_eq_right (not_lt.mp (mt this.mpr h))]

/-- the loading side of the formula strictly increases with wave height across both regimes -/
theorem Hkf_lt {H H' T c P cpl cs : ℝ} (hH : 0 < H) (h : H < H') (hT : 0 < T) (hc : 0 < c)
    (hP : 0 < P) (h1 : 0 < cpl) (h2 : 0 < cs) :
    H * kf cpl cs P c (xi H T c) < H' * kf cpl cs P c (xi H' T c) := by
  have hH' := hH.trans h
  rw [kf_min h1 h2 hP hc (xi_pos hH hT hc), kf_min h1 h2 hP hc (xi_pos hH' hT hc)]
  have a := Hkpl_lt hH h hT hc hP h1
  have b := Hksu_lt hH h hT hc hP h2
  split_ifs
  · exact a
  · rw [mul_min_of_nonneg _ _ hH.le, mul_min_of_nonneg _ _ hH'.le]
    exact lt_min (min_lt_of_left_lt a) (min_lt_of_right_lt b)

theorem Hpl_spec {r T c P cpl A De D : ℝ} (hr : 0 < r) (hT : 0 < T) (hc : 0 < c) (hP : 0 < P)
    (h1 : 0 < cpl) (hA : 0 < A) (hDe : 0 < De) (hD : 0 < D) :
    Hpl r T c P cpl 9.81 A De D * kpl cpl P (xi (Hpl r T c P cpl 9.81 A De D) T c) =
      A ^ (0.2 : ℝ) * De * D / r := by
  have hK : 0 < 2 * Real.pi / 9.81 := by have := Real.pi_pos; positivity
  unfold kpl xi Hpl
  simp only [Real.rpow_def_of_pos hP]
  obtain ⟨a, rfl⟩ := exists_exp h1
  obtain ⟨d, rfl⟩ := exists_exp hc
  obtain ⟨y, rfl⟩ := exists_exp hA
  obtain ⟨t, rfl⟩ := exists_exp hT
  obtain ⟨r', rfl⟩ := exists_exp hr
  obtain ⟨e, rfl⟩ := exists_exp hDe
  obtain ⟨f, rfl⟩ := exists_exp hD
  obtain ⟨k, hk⟩ := exists_exp hK
  rw [hk]
  simp only [one_sci, one_div, ← Real.exp_neg]
  exp_norm
  push_cast; ring

theorem Hsu_spec {r T c P cs A De D : ℝ} (hr : 0 < r) (hT : 0 < T) (hc : 0 < c) (hP : 0 < P)
    (h1 : 0 < cs) (hA : 0 < A) (hDe : 0 < De) (hD : 0 < D) :
    Hsu r T c P cs 9.81 A De D * ksu cs P c (xi (Hsu r T c P cs 9.81 A De D) T c) =
      A ^ (0.2 : ℝ) * De * D / r := by
  have hK : 0 < 2 * Real.pi / 9.81 := by have := Real.pi_pos; positivity
  unfold ksu xi Hsu
  simp only [Real.rpow_def_of_pos hP]
  obtain ⟨a, rfl⟩ := exists_exp h1
  obtain ⟨d, rfl⟩ := exists_exp hc
  obtain ⟨y, rfl⟩ := exists_exp hA
  obtain ⟨t, rfl⟩ := exists_exp hT
  obtain ⟨r', rfl⟩ := exists_exp hr
  obtain ⟨e, rfl⟩ := exists_exp hDe
  obtain ⟨f, rfl⟩ := exists_exp hD
  obtain ⟨k, hk⟩ := exists_exp hK
  rw [hk]
  simp only [one_sci, one_div, ← Real.exp_neg]
  exp_norm
  push_cast
  have : 1 + 0.5 * P ≠ 0 := by positivity
  field_simp
  ring

/-- the selected wave height always lies in the regime whose formula produced it -/
theorem Hsel_spec {r T c P cpl cs A De D : ℝ} (hr : 0 < r) (hT : 0 < T) (hc : 0 < c) (hP : 0 < P)
    (h1 : 0 < cpl) (h2 : 0 < cs) (hA : 0 < A) (hDe : 0 < De) (hD : 0 < D) :
    Hsel r T c P cpl cs 9.81 A De D * kf cpl cs P c (xi (Hsel r T c P cpl cs 9.81 A De D) T c) =
      A ^ (0.2 : ℝ) * De * D / r := by
  have a := Hpl_spec hr hT hc hP h1 hA hDe hD
  have b := Hsu_spec hr hT hc hP h2 hA hDe hD
  have pa := Hpl_pos hr hT hc hP h1 (g := 9.81) (by norm_num) hA hDe hD
  have pb := Hsu_pos hr hT hc hP h2 (g := 9.81) (by norm_num) hA hDe hD
  unfold Hsel
  generalize Hpl r T c P cpl 9.81 A De D = X at *
  generalize Hsu r T c P cs 9.81 A De D = Y at *
  split_ifs with h
  · unfold kf
    rw [if_pos (h.imp And.left id), a]
  · unfold kf
    rw [if_neg, b]
    rintro (h' | h')
    · refine h (Or.inl ⟨?_, h'⟩)
      have := (k_lt h1 h2 hP hc (xi_pos pb hT hc)).mp h'
      have hYX : Y < X := by
        by_contra hn
        have h3 : X * kpl cpl P (xi X T c) ≤ Y * kpl cpl P (xi Y T c) := by
          rcases (not_lt.mp hn).lt_or_eq with h4 | h4
          · exact (Hkpl_lt pa h4 hT hc hP h1).le
          · rw [h4]
        have h4 : Y * kpl cpl P (xi Y T c) < Y * ksu cs P c (xi Y T c) := by gcongr
        linarith
      exact (xi_anti pb hYX hT hc).trans h'
    · exact h (Or.inr h')

theorem pow5_rpow {x : ℝ} (h : 0 < x) : (x ^ (0.2 : ℝ)) ^ 5 = x := by
  rw [← Real.rpow_natCast, ← Real.rpow_mul h.le]; norm_num
theorem rpow_pow5 {x : ℝ} (h : 0 < x) : (x ^ 5) ^ (0.2 : ℝ) = x := by
  rw [← Real.rpow_natCast, ← Real.rpow_mul h.le]; norm_num
theorem rpow_neg_fifth {x : ℝ} (h : 0 < x) : x ^ (-0.2 : ℝ) = (x ^ (0.2 : ℝ))⁻¹ :=
  Real.rpow_neg h.le _

section
variable {r H T c P cpl cs De D S w : ℝ} (hr : 0 < r) (hT : 0 < T) (hc : 0 < c) (hP : 0 < P)
    (h1 : 0 < cpl) (h2 : 0 < cs) (hDe : 0 < De) (hw : 0 < w)
include hr hT hc hP h1 h2 hDe hw

theorem dia_pos (hH : 0 < H) (hS : 0 < S) : 0 < dia r H T c P cpl cs De S w := by
  have := kf_pos h1 h2 hP hc (xi_pos hH hT hc)
  unfold dia; positivity
theorem dmg_pos (hH : 0 < H) (hD : 0 < D) : 0 < dmg r H T c P cpl cs De D w := by
  have := kf_pos h1 h2 hP hc (xi_pos hH hT hc)
  unfold dmg; positivity

theorem dmg_dia (hH : 0 < H) (hS : 0 < S) :
    dmg r H T c P cpl cs De (dia r H T c P cpl cs De S w) w = S := by
  have := kf_pos h1 h2 hP hc (xi_pos hH hT hc)
  unfold dmg dia
  generalize kf cpl cs P c (xi H T c) = k at *
  rw [rpow_neg_fifth (by positivity)]
  have e := pow5_rpow (x := S / w) (by positivity)
  have hp : 0 < (S / w) ^ (0.2 : ℝ) := by positivity
  generalize (S / w) ^ (0.2 : ℝ) = q at *
  have : H / (De * (H / De * r * k * q⁻¹)) * r * k = q := by field_simp
  rw [this, e]; field_simp

theorem dia_dmg (hH : 0 < H) (hD : 0 < D) :
    dia r H T c P cpl cs De (dmg r H T c P cpl cs De D w) w = D := by
  have := kf_pos h1 h2 hP hc (xi_pos hH hT hc)
  unfold dmg dia
  generalize kf cpl cs P c (xi H T c) = k at *
  rw [mul_div_assoc, div_self hw.ne', mul_one, rpow_neg_fifth (by positivity),
    rpow_pow5 (by positivity)]
  field_simp

theorem dmg_Hsel (hS : 0 < S) (hD : 0 < D) :
    dmg r (Hsel r T c P cpl cs 9.81 (S / w) De D) T c P cpl cs De D w = S := by
  have e := Hsel_spec hr hT hc hP h1 h2 (A := S / w) (by positivity) hDe hD
  unfold dmg
  have : ∀ a k : ℝ, a / (De * D) * r * k = (a * k) * r / (De * D) := by intro a k; ring
  rw [this, e]
  have e5 := pow5_rpow (x := S / w) (by positivity)
  generalize (S / w) ^ (0.2 : ℝ) = q at *
  have : q * De * D / r * r / (De * D) = q := by field_simp
  rw [this, e5]; field_simp

theorem dmg_lt_H {H' : ℝ} (hH : 0 < H) (h : H < H') (hD : 0 < D) :
    dmg r H T c P cpl cs De D w < dmg r H' T c P cpl cs De D w := by
  have e := Hkf_lt hH h hT hc hP h1 h2
  have hk := kf_pos h1 h2 hP hc (xi_pos hH hT hc)
  have : ∀ a k : ℝ, a / (De * D) * r * k = (a * k) * (r / (De * D)) := by intro a k; ring
  unfold dmg
  rw [this, this]
  gcongr

theorem dmg_lt_D {D' : ℝ} (hH : 0 < H) (hD : 0 < D) (h : D < D') :
    dmg r H T c P cpl cs De D' w < dmg r H T c P cpl cs De D w := by
  have hk := kf_pos h1 h2 hP hc (xi_pos hH hT hc)
  have := hD.trans h
  unfold dmg
  gcongr

theorem Hsel_dmg (hH : 0 < H) (hD : 0 < D) :
    Hsel r T c P cpl cs 9.81 (dmg r H T c P cpl cs De D w / w) De D = H := by
  have hp := dmg_pos hr hT hc hP h1 h2 hDe hw hH hD
  have hq := Hsel_pos hr hT hc hP h1 h2 (g := 9.81) (by norm_num)
    (A := dmg r H T c P cpl cs De D w / w) (by positivity) hDe hD
  have e := dmg_Hsel hr hT hc hP h1 h2 hDe hw hp hD
  rcases lt_trichotomy (Hsel r T c P cpl cs 9.81 (dmg r H T c P cpl cs De D w / w) De D) H with
    h | h | h
  · have := dmg_lt_H hr hT hc hP h1 h2 hDe hw hq h hD; linarith
  · exact h
  · have := dmg_lt_H hr hT hc hP h1 h2 hDe hw hH h hD; linarith

end

/-! ## evaluation of the models -/

theorem S1988_eval {H r T N c P ra rw D cpl cs : ℝ} (M : PF) (hH : 0 < H) (hr' : 0 < r)
    (hT : 0 < T) (hN : 0 < N) (hc : 0 < c) (hP : 0 < P) (hw : 0 < rw) (hr : rw < ra) (hD : 0 < D)
    (h1 : 0 < cpl) (h2 : 0 < cs) :
    (VdM1988.calculate_damage_number_S (fin H) (fin (r * H)) (fin T) (fin N) (fin c) (fin P)
      (fin ra) (fin D) M (fin cpl) (fin cs) (fin rw)).res =
      .ok (fin (dmg r H T c P cpl cs ((ra - rw) / rw) D (√N / gam N))) := by
  have hx := xi_pos hH hT hc
  have hg := gam_pos hN
  have hDel : 0 < (ra - rw) / rw := div_pos (sub_pos.mpr hr) hw
  unfold VdM1988.calculate_damage_number_S
  rw [use_Dn50]
  simp only [PyM.bind_ok, xi_eval hH hT hc, xmc_eval h1 h2 hP hc, gam_eval hN, Ns_eval hD hw hr]
  rw [PyM.bind_res_of_ok (check_res ..)]
  pf_eval [PyM.pure_def]
  unfold dmg kf
  rw [Except.ok.injEq, fin_inj]
  split_ifs
  · unfold kpl; field_simp
  · unfold ksu; field_simp

theorem Dn1988_eval {H r T N c P ra rw S cpl cs : ℝ} (hH : 0 < H) (hr' : 0 < r)
    (hT : 0 < T) (hN : 0 < N) (hc : 0 < c) (hP : 0 < P) (hw : 0 < rw) (hr : rw < ra) (hS : 0 < S)
    (h1 : 0 < cpl) (h2 : 0 < cs) :
    (VdM1988.calculate_nominal_rock_diameter_Dn50 (fin H) (fin (r * H)) (fin T) (fin N) (fin c)
      (fin P) (fin ra) (fin S) (fin cpl) (fin cs) (fin rw)).res =
      .ok (fin (dia r H T c P cpl cs ((ra - rw) / rw) S (√N / gam N))) := by
  have hx := xi_pos hH hT hc
  have hg := gam_pos hN
  obtain ⟨De, hDe, hDD, e⟩ := Delta_eval hw hr
  rw [← hDD]
  unfold VdM1988.calculate_nominal_rock_diameter_Dn50
  simp only [xi_eval hH hT hc, xmc_eval h1 h2 hP hc, gam_eval hN, e]
  rw [PyM.bind_res_of_ok (check_res ..)]
  pf_eval [PyM.pure_def]
  unfold dia kf
  rw [Except.ok.injEq, fin_inj]
  have : gam N * S / √N = S / (√N / gam N) := by field_simp
  rw [this]
  have : r * H / H = r := by field_simp
  rw [this]
  split_ifs
  · unfold kpl; ring
  · unfold ksu; ring

theorem H1988_eval {r T N c P ra rw S D cpl cs g : ℝ} (M : PF) (hr' : 0 < r)
    (hT : 0 < T) (hN : 0 < N) (hc : 0 < c) (hP : 0 < P) (hw : 0 < rw) (hr : rw < ra) (hS : 0 < S)
    (hD : 0 < D) (h1 : 0 < cpl) (h2 : 0 < cs) (hg : 0 < g) :
    (VdM1988.calculate_significant_wave_height_Hs (fin r) (fin T) (fin N) (fin c) (fin P)
      (fin ra) (fin S) (fin D) M (fin cpl) (fin cs) (fin g) (fin rw)).res =
      .ok (fin (Hsel r T c P cpl cs g (S / (√N / gam N)) ((ra - rw) / rw) D)) := by
  have hgN := gam_pos hN
  have hpi := Real.pi_pos
  obtain ⟨De, hDe, hDD, e⟩ := Delta_eval hw hr
  rw [← hDD]
  have hAe : S / (√N / gam N) = gam N * S / √N := by field_simp
  rw [hAe]
  have hA : 0 < gam N * S / √N := by positivity
  have p1 := Hpl_pos hr' hT hc hP h1 hg hA hDe hD
  have p2 := Hsu_pos hr' hT hc hP h2 hg hA hDe hD
  have e1 := xi_eval p1 hT hc
  have e2 := xi_eval p2 hT hc
  unfold VdM1988.calculate_significant_wave_height_Hs
  rw [use_Dn50]
  simp only [PyM.bind_ok, xmc_eval h1 h2 hP hc, gam_eval hN, e]
  unfold Hsel
  unfold Hpl Hsu at *
  rw [PyM.bind_res_of_ok (check_res ..)]
  pf_eval [PyM.pure_def]
  simp only [e1, e2]
  pf_eval []
  try congr!

theorem Smod_eval {H r T N c P ra rw D cpl cs : ℝ} (M : PF) (hH : 0 < H) (hr' : 0 < r)
    (hT : 0 < T) (hN : 0 < N) (hc : 0 < c) (hP : 0 < P) (hw : 0 < rw) (hr : rw < ra) (hD : 0 < D)
    (h1 : 0 < cpl) (h2 : 0 < cs) :
    (VdMModified.calculate_damage_number_S (fin H) (fin (r * H)) (fin T) (fin N) (fin c) (fin P)
      (fin ra) (fin D) M (fin cpl) (fin cs) (fin rw)).res =
      .ok (fin (dmg r H T c P cpl cs ((ra - rw) / rw) D (√N))) := by
  have hx := xi_pos hH hT hc
  have hDel : 0 < (ra - rw) / rw := div_pos (sub_pos.mpr hr) hw
  unfold VdMModified.calculate_damage_number_S
  rw [use_Dn50]
  simp only [PyM.bind_ok, xi_eval hH hT hc, xmc_eval h1 h2 hP hc, Ns_eval hD hw hr]
  rw [PyM.bind_res_of_ok (check_res_m ..)]
  pf_eval [PyM.pure_def]
  unfold dmg kf
  rw [Except.ok.injEq, fin_inj]
  have : r * H / H = r := by field_simp
  rw [this]
  split_ifs
  · unfold kpl; ring
  · unfold ksu; rw [Real.sqrt_div' _ hc.le, Real.sqrt_one]; ring

theorem Dnmod_eval {H r T N c P ra rw S cpl cs : ℝ} (hH : 0 < H) (hr' : 0 < r)
    (hT : 0 < T) (hN : 0 < N) (hc : 0 < c) (hP : 0 < P) (hw : 0 < rw) (hr : rw < ra) (hS : 0 < S)
    (h1 : 0 < cpl) (h2 : 0 < cs) :
    (VdMModified.calculate_nominal_rock_diameter_Dn50 (fin H) (fin (r * H)) (fin T) (fin N) (fin c)
      (fin P) (fin ra) (fin S) (fin cpl) (fin cs) (fin rw)).res =
      .ok (fin (dia r H T c P cpl cs ((ra - rw) / rw) S (√N))) := by
  have hx := xi_pos hH hT hc
  obtain ⟨De, hDe, hDD, e⟩ := Delta_eval hw hr
  rw [← hDD]
  unfold VdMModified.calculate_nominal_rock_diameter_Dn50
  simp only [xi_eval hH hT hc, xmc_eval h1 h2 hP hc, e]
  rw [PyM.bind_res_of_ok (check_res_m ..)]
  pf_eval [PyM.pure_def]
  unfold dia kf
  rw [Except.ok.injEq, fin_inj]
  have : r * H / H = r := by field_simp
  rw [this]
  split_ifs
  · unfold kpl; ring
  · unfold ksu; ring

theorem Hmod_eval {r T N c P ra rw S D cpl cs g : ℝ} (M : PF) (hr' : 0 < r)
    (hT : 0 < T) (hN : 0 < N) (hc : 0 < c) (hP : 0 < P) (hw : 0 < rw) (hr : rw < ra) (hS : 0 < S)
    (hD : 0 < D) (h1 : 0 < cpl) (h2 : 0 < cs) (hg : 0 < g) :
    (VdMModified.calculate_significant_wave_height_Hs (fin r) (fin T) (fin N) (fin c) (fin P)
      (fin ra) (fin S) (fin D) M (fin cpl) (fin cs) (fin g) (fin rw)).res =
      .ok (fin (Hsel r T c P cpl cs g (S / √N) ((ra - rw) / rw) D)) := by
  have hpi := Real.pi_pos
  obtain ⟨De, hDe, hDD, e⟩ := Delta_eval hw hr
  rw [← hDD]
  have hA : 0 < S / √N := by positivity
  have p1 := Hpl_pos hr' hT hc hP h1 hg hA hDe hD
  have p2 := Hsu_pos hr' hT hc hP h2 hg hA hDe hD
  have e1 := xi_eval p1 hT hc
  have e2 := xi_eval p2 hT hc
  unfold VdMModified.calculate_significant_wave_height_Hs
  rw [use_Dn50]
  simp only [PyM.bind_ok, xmc_eval h1 h2 hP hc, e]
  unfold Hsel
  unfold Hpl Hsu at *
  rw [PyM.bind_res_of_ok (check_res_m ..)]
  pf_eval [PyM.pure_def]
  simp only [e1, e2]
  pf_eval []
  try congr!

end VdMProof
end
