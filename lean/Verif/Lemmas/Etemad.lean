import Verif.Lemmas.VdM
import Verif.Model.Etemad2020
import Verif.Spec

/-! # Evaluation of the Etemad-Shahidi 2020 model on real inputs -/

open Classical
open PF
open CorePhysics
noncomputable section

namespace EtemadProof
open Etemad2020
open VdMProof (xi xi_eval xi_pos use_Dn50 Ns_eval)

@[simp] theorem check_res (a b c d e f g h i j : PF) :
    (check_validity_range a b c d e f g h i j).res = .ok () := by
  simp [check_validity_range]

/-- permeability coefficient -/
def cp (D Dc : ℝ) : ℝ := (1 + (Dc / D) ^ (3.0 / 10.0 : ℝ)) ^ (3.0 / 5.0 : ℝ)

theorem cp_base {D Dc : ℝ} (hD : 0 < D) (hDc : 0 ≤ Dc) : 0 < 1 + (Dc / D) ^ (3.0 / 10.0 : ℝ) := by
  positivity

theorem cp_pos {D Dc : ℝ} (hD : 0 < D) (hDc : 0 ≤ Dc) : 0 < cp D Dc := by
  unfold cp; positivity

theorem cp_eval {D Dc : ℝ} (hD : 0 < D) (hDc : 0 ≤ Dc) :
    calculate_permeability_coefficient_Cp (fin D) (fin Dc) = fin (cp D Dc) := by
  have := cp_base hD hDc
  unfold calculate_permeability_coefficient_Cp cp
  have h1 : npow (fin Dc / fin D) (3.0 / 10.0) = fin ((Dc / D) ^ (3.0 / 10.0 : ℝ)) := by
    have e : (3.0 / 10.0 : PF) = fin (3.0 / 10.0) := by pf_eval []
    rw [e, div_fin hD.ne', npow_fin_nonneg (by positivity) (by norm_num)]
  rw [h1]
  pf_eval []

/-- the depth factor is a positive number when the foreshore slope is absent or below 1/3 -/
theorem dep_eval {m : PF} {b : Bool} (h : b = true → ∃ x : ℝ, x < 1 / 3 ∧ m = fin x) :
    ∃ I : ℝ, 0 < I ∧ depth_limitation m b = ⟨[], .ok (fin I)⟩ := by
  unfold depth_limitation
  cases b
  · exact ⟨1, one_pos, by simp [PyM.pure_def, sci_eq]; norm_num⟩
  · obtain ⟨x, hx, rfl⟩ := h rfl
    refine ⟨1.0 - 3.0 * x, by norm_num; linarith, ?_⟩
    simp [PyM.pure_def]
    pf_eval []

/-- surging and plunging damage -/
def Ssu (H T N c De D C I : ℝ) : ℝ :=
  (1.0 / 3.9) ^ (6.0 : ℝ) * (H / (De * D)) ^ (6.0 : ℝ) * C ^ (-6.0 : ℝ) * N ^ (0.6 : ℝ)
    * xi H T c ^ (2.0 : ℝ) * I ^ (-6.0 : ℝ)
def Spl (H T N c De D C I : ℝ) : ℝ :=
  (1.0 / 4.5) ^ (6.0 : ℝ) * (H / (De * D)) ^ (6.0 : ℝ) * C ^ (-6.0 : ℝ) * N ^ (0.6 : ℝ)
    * xi H T c ^ (7.0 / 2.0 : ℝ) * I ^ (-6.0 : ℝ)
def Sd (H T N c De D C I : ℝ) : ℝ :=
  if 1.8 ≤ xi H T c then Ssu H T N c De D C I else Spl H T N c De D C I

def Hsu (T N c De D C I S : ℝ) : ℝ :=
  (S * (1.0 / 3.9) ^ (-6.0 : ℝ) * (2 * Real.pi / 9.81) * C ^ (6.0 : ℝ) * (De * D) ^ (6.0 : ℝ)
    * T ^ (-2.0 : ℝ) * c ^ (2.0 : ℝ) * N ^ (-0.6 : ℝ) * I ^ (6.0 : ℝ)) ^ (1.0 / 5.0 : ℝ)
def Hpl (T N c De D C I S : ℝ) : ℝ :=
  (S * (1.0 / 4.5) ^ (-6.0 : ℝ) * (2 * Real.pi / 9.81) ^ (7.0 / 4.0 : ℝ) * C ^ (6.0 : ℝ)
    * (De * D) ^ (6.0 : ℝ) * T ^ (-7.0 / 2.0 : ℝ) * c ^ (7.0 / 2.0 : ℝ) * N ^ (-0.6 : ℝ)
    * I ^ (6.0 : ℝ)) ^ (4.0 / 17.0 : ℝ)
def Hd (T N c De D C I S : ℝ) : ℝ :=
  if xi (Hpl T N c De D C I S) T c < 1.8 ∧ xi (Hsu T N c De D C I S) T c < 1.8 then
    Hpl T N c De D C I S else Hsu T N c De D C I S

section
variable {T N c ra rw D Dc I : ℝ} {m : PF} {b : Bool} (M Mc rc : PF) (hT : 0 < T) (hN : 0 < N)
  (hc : 0 < c) (hw : 0 < rw) (hr : rw < ra) (hD : 0 < D) (hDc : 0 ≤ Dc) (hI : 0 < I)
  (hm : depth_limitation m b = ⟨[], .ok (fin I)⟩)
include hT hN hc hr hD hDc hI hm

include hw in
theorem S_eval {H : ℝ} (hH : 0 < H) :
    (calculate_damage_number_S (fin H) (fin T) (fin N) (fin c) (fin ra) (fin D) M (fin Dc) Mc rc
      (fin rw) m b).res = .ok (fin (Sd H T N c ((ra - rw) / rw) D (cp D Dc) I)) := by
  have hx := xi_pos hH hT hc
  have hC := cp_pos hD hDc
  have hDel : 0 < (ra - rw) / rw := div_pos (sub_pos.mpr hr) hw
  unfold calculate_damage_number_S
  rw [hm, use_Dn50, use_Dn50]
  simp only [PyM.bind_ok, xi_eval hH hT hc, Ns_eval hD hw hr, cp_eval hD hDc]
  rw [PyM.bind_res_of_ok (check_res ..)]
  unfold Sd Ssu Spl
  pf_eval [PyM.pure_def]

end

section
variable {T N c ra D Dc I : ℝ} {m : PF} {b : Bool} (M Mc rc : PF) (hT : 0 < T) (hN : 0 < N)
  (hc : 0 < c) (hr : 1025 < ra) (hD : 0 < D) (hDc : 0 ≤ Dc) (hI : 0 < I)
  (hm : depth_limitation m b = ⟨[], .ok (fin I)⟩)
include hT hN hc hr hD hDc hI hm

theorem H_eval {S : ℝ} (hS : 0 < S) :
    (calculate_significant_wave_height_Hs (fin T) (fin N) (fin c) (fin ra) (fin S) (fin D) M
      (fin Dc) Mc rc m b).res =
      .ok (fin (Hd T N c ((ra - 1025) / 1025) D (cp D Dc) I S)) := by
  have hC := cp_pos hD hDc
  have hpi := Real.pi_pos
  obtain ⟨De, hDe, hDD, e⟩ := Delta_eval (by norm_num : (0 : ℝ) < 1025) hr
  rw [← hDD]
  have h1 : 0 < Hsu T N c De D (cp D Dc) I S := by unfold Hsu; positivity
  have h2 : 0 < Hpl T N c De D (cp D Dc) I S := by unfold Hpl; positivity
  have e1 : (1025 : PF) = fin 1025 := by rw [ofNat_eq]
  unfold calculate_significant_wave_height_Hs
  rw [hm, use_Dn50, use_Dn50]
  simp only [PyM.bind_ok, e1, e, cp_eval hD hDc]
  rw [PyM.bind_res_of_ok (check_res ..)]
  have e2 : npow (fin S * npow (1.0 / 3.9) (-6.0) * (2 * PF.pi / 9.81) * npow (fin (cp D Dc)) 6.0
    * npow (fin De * fin D) 6.0 * npow (fin T) (-2.0) * npow (fin c) 2.0 * npow (fin N) (-0.6)
    * npow (fin I) 6.0) (1.0 / 5.0) = fin (Hsu T N c De D (cp D Dc) I S) := by
    unfold Hsu
    pf_eval []
  have e3 : npow (fin S * npow (1.0 / 4.5) (-6.0) * npow (2 * PF.pi / 9.81) (7.0 / 4.0)
    * npow (fin (cp D Dc)) 6.0
    * npow (fin De * fin D) 6.0 * npow (fin T) (-7.0 / 2.0) * npow (fin c) (7.0 / 2.0)
    * npow (fin N) (-0.6) * npow (fin I) 6.0) (4.0 / 17.0)
      = fin (Hpl T N c De D (cp D Dc) I S) := by
    unfold Hpl
    pf_eval []
  rw [e2, e3, xi_eval h1 hT hc, xi_eval h2 hT hc]
  unfold Hd
  pf_eval [PyM.pure_def]
  split_ifs <;> rfl

end

/-! real algebra -/

/-- the ratio of the two damage expressions -/
theorem Spl_ratio {H T N c De D C I : ℝ} (hx : 0 < xi H T c) :
    Spl H T N c De D C I = (3.9 / 4.5) ^ (6.0 : ℝ) * xi H T c ^ (1.5 : ℝ) * Ssu H T N c De D C I := by
  unfold Spl Ssu
  have e : xi H T c ^ (7.0 / 2.0 : ℝ) = xi H T c ^ (1.5 : ℝ) * xi H T c ^ (2.0 : ℝ) := by
    rw [← Real.rpow_add hx]; norm_num
  have e2 : (1.0 / 4.5 : ℝ) ^ (6.0 : ℝ) = (3.9 / 4.5 : ℝ) ^ (6.0 : ℝ) * (1.0 / 3.9) ^ (6.0 : ℝ) := by
    rw [← Real.mul_rpow (by norm_num) (by norm_num)]; norm_num
  rw [e, e2]; ring

section
variable {T N c De D C I : ℝ} (hT : 0 < T) (hN : 0 < N) (hc : 0 < c) (hDe : 0 < De) (hD : 0 < D)
  (hC : 0 < C) (hI : 0 < I)
include hT hN hc hDe hD hC hI

theorem Ssu_Hsu {S : ℝ} (hS : 0 < S) :
    0 < Hsu T N c De D C I S ∧ Ssu (Hsu T N c De D C I S) T N c De D C I = S := by
  have hK : 0 < 2 * Real.pi / 9.81 := by have := Real.pi_pos; positivity
  refine ⟨by unfold Hsu; positivity, ?_⟩
  unfold Ssu Hsu xi
  obtain ⟨k, hk⟩ := exists_exp hK
  obtain ⟨l, hl⟩ := exists_exp (show (0 : ℝ) < 1.0 / 3.9 by norm_num)
  rw [hk, hl]
  obtain ⟨t, rfl⟩ := exists_exp hT
  obtain ⟨n, rfl⟩ := exists_exp hN
  obtain ⟨c', rfl⟩ := exists_exp hc
  obtain ⟨de, rfl⟩ := exists_exp hDe
  obtain ⟨d, rfl⟩ := exists_exp hD
  obtain ⟨C', rfl⟩ := exists_exp hC
  obtain ⟨i, rfl⟩ := exists_exp hI
  obtain ⟨s, rfl⟩ := exists_exp hS
  simp only [VdMProof.one_sci, one_div, ← Real.exp_neg]
  exp_ring

theorem Spl_Hpl {S : ℝ} (hS : 0 < S) :
    0 < Hpl T N c De D C I S ∧ Spl (Hpl T N c De D C I S) T N c De D C I = S := by
  have hK : 0 < 2 * Real.pi / 9.81 := by have := Real.pi_pos; positivity
  refine ⟨by unfold Hpl; positivity, ?_⟩
  unfold Spl Hpl xi
  obtain ⟨k, hk⟩ := exists_exp hK
  obtain ⟨l, hl⟩ := exists_exp (show (0 : ℝ) < 1.0 / 4.5 by norm_num)
  rw [hk, hl]
  obtain ⟨t, rfl⟩ := exists_exp hT
  obtain ⟨n, rfl⟩ := exists_exp hN
  obtain ⟨c', rfl⟩ := exists_exp hc
  obtain ⟨de, rfl⟩ := exists_exp hDe
  obtain ⟨d, rfl⟩ := exists_exp hD
  obtain ⟨C', rfl⟩ := exists_exp hC
  obtain ⟨i, rfl⟩ := exists_exp hI
  obtain ⟨s, rfl⟩ := exists_exp hS
  simp only [VdMProof.one_sci, one_div, ← Real.exp_neg]
  exp_ring

theorem Ssu_pow {H : ℝ} (hH : 0 < H) :
    Ssu H T N c De D C I = Ssu 1 T N c De D C I * H ^ (5 : ℝ) := by
  have hK : 0 < 2 * Real.pi / 9.81 := by have := Real.pi_pos; positivity
  unfold Ssu xi
  obtain ⟨k, hk⟩ := exists_exp hK
  obtain ⟨l, hl⟩ := exists_exp (show (0 : ℝ) < 1.0 / 3.9 by norm_num)
  rw [hk, hl, mul_one]
  obtain ⟨t, rfl⟩ := exists_exp hT
  obtain ⟨n, rfl⟩ := exists_exp hN
  obtain ⟨c', rfl⟩ := exists_exp hc
  obtain ⟨de, rfl⟩ := exists_exp hDe
  obtain ⟨d, rfl⟩ := exists_exp hD
  obtain ⟨C', rfl⟩ := exists_exp hC
  obtain ⟨i, rfl⟩ := exists_exp hI
  obtain ⟨s, rfl⟩ := exists_exp hH
  simp only [VdMProof.one_sci, one_div, ← Real.exp_neg]
  exp_ring

theorem Spl_pow {H : ℝ} (hH : 0 < H) :
    Spl H T N c De D C I = Spl 1 T N c De D C I * H ^ (17 / 4 : ℝ) := by
  have hK : 0 < 2 * Real.pi / 9.81 := by have := Real.pi_pos; positivity
  unfold Spl xi
  obtain ⟨k, hk⟩ := exists_exp hK
  obtain ⟨l, hl⟩ := exists_exp (show (0 : ℝ) < 1.0 / 4.5 by norm_num)
  rw [hk, hl, mul_one]
  obtain ⟨t, rfl⟩ := exists_exp hT
  obtain ⟨n, rfl⟩ := exists_exp hN
  obtain ⟨c', rfl⟩ := exists_exp hc
  obtain ⟨de, rfl⟩ := exists_exp hDe
  obtain ⟨d, rfl⟩ := exists_exp hD
  obtain ⟨C', rfl⟩ := exists_exp hC
  obtain ⟨i, rfl⟩ := exists_exp hI
  obtain ⟨s, rfl⟩ := exists_exp hH
  simp only [VdMProof.one_sci, one_div, ← Real.exp_neg]
  exp_ring

theorem Ssu_pos {H : ℝ} (hH : 0 < H) : 0 < Ssu H T N c De D C I := by
  have := xi_pos hH hT hc
  unfold Ssu; positivity

theorem Spl_pos {H : ℝ} (hH : 0 < H) : 0 < Spl H T N c De D C I := by
  have := xi_pos hH hT hc
  unfold Spl; positivity

theorem Ssu_lt {H H' : ℝ} (hH : 0 < H) (h : H < H') :
    Ssu H T N c De D C I < Ssu H' T N c De D C I := by
  rw [Ssu_pow hT hN hc hDe hD hC hI hH, Ssu_pow hT hN hc hDe hD hC hI (hH.trans h)]
  have := Ssu_pos hT hN hc hDe hD hC hI one_pos
  have := Real.rpow_lt_rpow hH.le h (by norm_num : (0 : ℝ) < 5)
  exact mul_lt_mul_of_pos_left this ‹_›

theorem Spl_lt {H H' : ℝ} (hH : 0 < H) (h : H < H') :
    Spl H T N c De D C I < Spl H' T N c De D C I := by
  rw [Spl_pow hT hN hc hDe hD hC hI hH, Spl_pow hT hN hc hDe hD hC hI (hH.trans h)]
  have := Spl_pos hT hN hc hDe hD hC hI one_pos
  have := Real.rpow_lt_rpow hH.le h (by norm_num : (0 : ℝ) < 17 / 4)
  exact mul_lt_mul_of_pos_left this ‹_›

/-- the wave height with Iribarren number 1.8 -/
theorem exists_crit : ∃ H : ℝ, 0 < H ∧ xi H T c = 1.8 := by
  have hK : 0 < 2 * Real.pi / 9.81 := by have := Real.pi_pos; positivity
  refine ⟨(1 / c / 1.8) ^ 2 * T ^ 2 / (2 * Real.pi / 9.81), by positivity, ?_⟩
  unfold xi
  generalize 2 * Real.pi / 9.81 = k at *
  have : k * ((1 / c / 1.8) ^ 2 * T ^ 2 / k) / T ^ 2 = (1 / c / 1.8) ^ 2 := by
    field_simp
  rw [this, Real.sqrt_sq (by positivity)]
  field_simp
  norm_num

end

/-- the jump at the regime boundary -/
theorem jump_bounds : 1 < (3.9 / 4.5 : ℝ) ^ (6.0 : ℝ) * 1.8 ^ (1.5 : ℝ) ∧
    (3.9 / 4.5 : ℝ) ^ (6.0 : ℝ) * 1.8 ^ (1.5 : ℝ) < 1.024 := by
  have e1 : (3.9 / 4.5 : ℝ) ^ (6.0 : ℝ) = (3.9 / 4.5 : ℝ) ^ (6 : ℕ) := by
    rw [← Real.rpow_natCast]; norm_num
  have e2 : (1.8 : ℝ) ^ (1.5 : ℝ) = 1.8 * √1.8 := by
    rw [Real.sqrt_eq_rpow]
    nth_rw 2 [← Real.rpow_one 1.8]
    rw [← Real.rpow_add (by norm_num)]; norm_num
  have h1 : 1.34164 < √1.8 := by rw [Real.lt_sqrt (by norm_num)]; norm_num
  have h2 : √1.8 < 1.34165 := by rw [Real.sqrt_lt' (by norm_num)]; norm_num
  rw [e1, e2]
  constructor <;> nlinarith

end EtemadProof
end
