import Verif.Lemmas.VdM
import Verif.Model.RockArmourOther
import Verif.Spec

/-! # Properties C23 and C24: Jumelet 2024 and Scaravaglione 2025 -/

open Classical
open PF
open CorePhysics
noncomputable section

namespace JumScaProof
open VdMProof (xi xi_eval xi_pos use_Dn50)

theorem rho_int : (1025 : PF) = fin 1025 := by rw [ofNat_eq]

@[simp] theorem check_res_j (a b c d : PF) :
    (Jumelet2024.check_validity_range a b c d).res = .ok () := by
  simp [Jumelet2024.check_validity_range]
@[simp] theorem check_res_s (a b c d e f g h i : PF) :
    (Scaravaglione2025.check_validity_range a b c d e f g h i).res = .ok () := by
  simp [Scaravaglione2025.check_validity_range]

/-- number of plunging waves as a real number -/
def Np (H T N c : ℝ) : ℝ :=
  (roundEven ((-1.7 * xi H T c ^ 2 + 3.2 * xi H T c - 0.5) * N) : ℝ)

theorem Np_eval {H T N c : ℝ} (hH : 0 < H) (hT : 0 < T) (hc : 0 < c) :
    PF.round (Jumelet2024.calculate_fraction_plunging_waves_Fp
      (calculate_Iribarren_number_ksi (fin H) (fin T) (fin c)) * fin N) = fin (Np H T N c) := by
  rw [xi_eval hH hT hc]
  unfold Jumelet2024.calculate_fraction_plunging_waves_Fp Np
  pf_eval []
  rfl

theorem Np_eval' {H T N c : ℝ} :
    PF.round (Jumelet2024.calculate_fraction_plunging_waves_Fp (fin (xi H T c)) * fin N)
      = fin (Np H T N c) := by
  unfold Jumelet2024.calculate_fraction_plunging_waves_Fp Np
  pf_eval []
  rfl

theorem jumS_eval {H T N c ra rw D cp : ℝ} (M : PF) (hH : 0 < H) (hT : 0 < T) (hc : 0 < c)
    (hw : 0 < rw) (hr : rw < ra) (hD : 0 < D) (hcp : 0 < cp) (hN : 0 < Np H T N c) :
    (Jumelet2024.calculate_damage_number_S (fin H) (fin T) (fin N) (fin c) (fin ra) (fin D) M
      (fin cp) (fin rw)).res = .ok (fin ((H / ((ra - rw) / rw * D) * xi H T c
        * Np H T N c ^ (0.1 : ℝ) * (1.0 / cp)) ^ (5.0 : ℝ))) := by
  have hx := xi_pos hH hT hc
  have hDel : 0 < (ra - rw) / rw := div_pos (sub_pos.mpr hr) hw
  unfold Jumelet2024.calculate_damage_number_S
  rw [use_Dn50]
  simp only [PyM.bind_ok, Np_eval', VdMProof.Ns_eval hD hw hr, xi_eval hH hT hc, Np_eval']
  rw [PyM.bind_res_of_ok (check_res_j ..)]
  pf_eval [PyM.pure_def]

theorem jumD_eval {H T N c ra S cp : ℝ} (hH : 0 < H) (hT : 0 < T) (hc : 0 < c)
    (hr : 1025 < ra) (hS : 0 < S) (hcp : 0 < cp) (hN : 0 < Np H T N c) :
    (Jumelet2024.calculate_nominal_rock_diameter_Dn50 (fin H) (fin T) (fin N) (fin c) (fin ra)
      (fin S) (fin cp)).res = .ok (fin (H / ((ra - 1025) / 1025) * xi H T c
        * Np H T N c ^ (0.1 : ℝ) * (1.0 / cp) * S ^ (-0.2 : ℝ))) := by
  have hx := xi_pos hH hT hc
  obtain ⟨De, hDe, hDD, e⟩ := Delta_eval (by norm_num : (0 : ℝ) < 1025) hr
  rw [← hDD]
  unfold Jumelet2024.calculate_nominal_rock_diameter_Dn50
  simp only [rho_int, e, xi_eval hH hT hc, Np_eval']
  rw [PyM.bind_res_of_ok (check_res_j ..)]
  pf_eval [PyM.pure_def]

end JumScaProof
open JumScaProof

/-- at least half a wave out of `N` is plunging, i.e. the rounded number of plunging waves is not 0:
with Iribarren number `ξ` the fraction of plunging waves is −1.7 ξ² + 3.2 ξ − 0.5 -/
def SomePlungingWaves (H T N c : ℝ) : Prop :=
  ∃ ξ : ℝ, calculate_Iribarren_number_ksi (fin H) (fin T) (fin c) = fin ξ ∧
    1 / 2 < (-1.7 * ξ ^ 2 + 3.2 * ξ - 0.5) * N

theorem JumScaProof.np_pos {H T N c : ℝ} (hH : 0 < H) (hT : 0 < T) (hc : 0 < c)
    (h : SomePlungingWaves H T N c) : 0 < Np H T N c := by
  obtain ⟨x, e, h⟩ := h
  rw [VdMProof.xi_eval hH hT hc, fin_inj] at e
  subst e
  unfold Np
  generalize (-1.7 * VdMProof.xi H T c ^ 2 + 3.2 * VdMProof.xi H T c - 0.5) * N = x at h
  have h0 : 0 ≤ ⌊x⌋ := Int.floor_nonneg.mpr (by linarith)
  have : 0 < roundEven x := by
    unfold roundEven
    split_ifs with h1 h2 h3
    · have : 0 < (⌊x⌋ : ℝ) := by linarith
      exact_mod_cast this
    · omega
    · have : 0 < (⌊x⌋ : ℝ) := by linarith
      exact_mod_cast this
    · omega
  exact_mod_cast this

/-- C23: in water of density 1025 kg/m³ damage and rock size are inverse, for every condition with
at least one plunging wave -/
theorem C23_damage_size_inverse (H T N c ra cp : ℝ) (M : PF) (hH : 0 < H) (hT : 0 < T)
    (hc : 0 < c) (hr : 1025 < ra) (hcp : 0 < cp) (hN : SomePlungingWaves H T N c) : MutuallyInverse
    (fun S => Jumelet2024.calculate_nominal_rock_diameter_Dn50 (fin H) (fin T) (fin N) (fin c)
      (fin ra) S (fin cp))
    (fun D => Jumelet2024.calculate_damage_number_S (fin H) (fin T) (fin N) (fin c) (fin ra) D M
      (fin cp) (fin 1025)) := by
  have hn := np_pos hH hT hc hN
  have hx := VdMProof.xi_pos hH hT hc
  have hDe : 0 < (ra - 1025) / 1025 := div_pos (sub_pos.mpr hr) (by norm_num)
  have fix : (5.0 : ℝ) = ((5 : ℕ) : ℝ) := by norm_num
  constructor
  · intro S hS
    have hp : 0 < H / ((ra - 1025) / 1025) * VdMProof.xi H T c
        * Np H T N c ^ (0.1 : ℝ) * (1.0 / cp) * S ^ (-0.2 : ℝ) := by positivity
    refine ⟨_, hp, jumD_eval hH hT hc hr hS hcp hn, ?_⟩
    rw [jumS_eval M hH hT hc (by norm_num) hr hp hcp hn, Except.ok.injEq, fin_inj, fix,
      Real.rpow_natCast]
    rw [VdMProof.rpow_neg_fifth hS]
    have e := VdMProof.pow5_rpow hS
    have hp : 0 < S ^ (0.2 : ℝ) := by positivity
    have hp2 : 0 < Np H T N c ^ (0.1 : ℝ) := by positivity
    generalize S ^ (0.2 : ℝ) = q at *
    generalize Np H T N c ^ (0.1 : ℝ) = m at *
    generalize VdMProof.xi H T c = x at *
    generalize (ra - 1025) / 1025 = De at *
    have : H / (De * (H / De * x * m * (1.0 / cp) * q⁻¹)) * x * m * (1.0 / cp) = q := by
      field_simp
    rw [this, e]
  · intro D hD
    have hp : 0 < (H / ((ra - 1025) / 1025 * D) * VdMProof.xi H T c
        * Np H T N c ^ (0.1 : ℝ) * (1.0 / cp)) ^ (5.0 : ℝ) := by positivity
    refine ⟨_, hp, jumS_eval M hH hT hc (by norm_num) hr hD hcp hn, ?_⟩
    rw [jumD_eval hH hT hc hr hp hcp hn, Except.ok.injEq, fin_inj, fix, Real.rpow_natCast,
      VdMProof.rpow_neg_fifth (by positivity), VdMProof.rpow_pow5 (by positivity)]
    have hp2 : 0 < Np H T N c ^ (0.1 : ℝ) := by positivity
    generalize (ra - 1025) / 1025 = De at *
    field_simp

/-- a case with plunging waves -/
example : ∃ H T N c : ℝ, 0 < H ∧ 0 < T ∧ 0 < c ∧ SomePlungingWaves H T N c := by
  -- choose the period so that the Iribarren number is exactly 1
  have hpi := Real.pi_pos
  refine ⟨1, √(2 * Real.pi / 9.81), 1000, 1, by norm_num, by positivity, by norm_num, 1, ?_,
    by norm_num⟩
  rw [VdMProof.xi_eval one_pos (by positivity) one_pos, fin_inj]
  unfold VdMProof.xi
  rw [Real.sq_sqrt (by positivity), mul_one, div_self (by positivity)]
  norm_num

/-- C23 limit: the size function has no water-density argument (1025 is fixed inside), so in water
of another density the damage of the designed size is never the requested one. -/
theorem C23_water_density_refuted (H T N c ra rw S cp : ℝ) (M : PF) (hH : 0 < H) (hT : 0 < T)
    (hc : 0 < c) (hr : 1025 < ra) (hw : 0 < rw) (hr' : rw < ra) (hne : rw ≠ 1025) (hS : 0 < S)
    (hcp : 0 < cp) (hN : SomePlungingWaves H T N c) : ∃ D S' : ℝ, 0 < D ∧
    (Jumelet2024.calculate_nominal_rock_diameter_Dn50 (fin H) (fin T) (fin N) (fin c)
      (fin ra) (fin S) (fin cp)).res = .ok (fin D) ∧
    (Jumelet2024.calculate_damage_number_S (fin H) (fin T) (fin N) (fin c) (fin ra) (fin D) M
      (fin cp) (fin rw)).res = .ok (fin S') ∧ S' ≠ S := by
  have hn := np_pos hH hT hc hN
  have hx := VdMProof.xi_pos hH hT hc
  have hDe : 0 < (ra - 1025) / 1025 := div_pos (sub_pos.mpr hr) (by norm_num)
  have hDe' : 0 < (ra - rw) / rw := div_pos (sub_pos.mpr hr') hw
  have hp : 0 < H / ((ra - 1025) / 1025) * VdMProof.xi H T c
      * Np H T N c ^ (0.1 : ℝ) * (1.0 / cp) * S ^ (-0.2 : ℝ) := by positivity
  refine ⟨_, _, hp, jumD_eval hH hT hc hr hS hcp hn, jumS_eval M hH hT hc hw hr' hp hcp hn, ?_⟩
  intro h
  have fix : (5.0 : ℝ) = ((5 : ℕ) : ℝ) := by norm_num
  rw [fix, Real.rpow_natCast, VdMProof.rpow_neg_fifth hS] at h
  have e := VdMProof.pow5_rpow hS
  have hp : 0 < S ^ (0.2 : ℝ) := by positivity
  have hp2 : 0 < Np H T N c ^ (0.1 : ℝ) := by positivity
  have hdd : (ra - rw) / rw ≠ (ra - 1025) / 1025 := by
    intro h2
    rw [div_eq_div_iff hw.ne' (by norm_num)] at h2
    have : ra * (1025 - rw) = 0 := by linarith
    rcases mul_eq_zero.mp this with h3 | h3
    · linarith
    · exact hne (by linarith)
  generalize S ^ (0.2 : ℝ) = q at *
  generalize Np H T N c ^ (0.1 : ℝ) = m at *
  generalize VdMProof.xi H T c = x at *
  generalize (ra - 1025) / 1025 = De at *
  generalize (ra - rw) / rw = De' at *
  have e2 : H / (De' * (H / De * x * m * (1.0 / cp) * q⁻¹)) * x * m * (1.0 / cp) = De / De' * q := by
    field_simp
  rw [e2, ← e] at h
  have hq : 0 < q := by assumption
  have h := (pow_left_inj₀ (by positivity) hq.le (by norm_num)).mp h
  have h1 : De / De' = 1 := by
    have : (De / De' - 1) * q = 0 := by linarith
    rcases mul_eq_zero.mp this with h2 | h2 <;> linarith
  exact hdd ((div_eq_one_iff_eq hDe'.ne').mp h1).symm

namespace JumScaProof
open VdMProof (use_Dn50)

def st (H T : ℝ) : ℝ := 2 * Real.pi / 9.81 * H / T ^ 2

theorem st_pos {H T : ℝ} (hH : 0 < H) (hT : 0 < T) : 0 < st H T := by
  have := Real.pi_pos; unfold st; positivity

theorem st_eval {H T : ℝ} (hT : 0 < T) :
    calculate_wave_steepness_s (fin H) (fin T) = fin (st H T) := by
  unfold calculate_wave_steepness_s st; pf_eval []

/-- size of armour plus core -/
def X (H T N c De S cv : ℝ) : ℝ :=
  H / De * (1 / cv) * (S / √N) ^ (-0.2 : ℝ) * (1 / √c) * st H T ^ (-0.1 : ℝ)

def Sc (H T N c De D Dc cv : ℝ) : ℝ :=
  (1 / cv * st H T ^ (-0.1 : ℝ) * (1 / √c) * H / (De * (D + Dc))) ^ 5 * √N

section
variable {T N c ra rw cv : ℝ} (rc M Mc : PF) (hT : 0 < T) (hN : 0 < N) (hc : 0 < c) (hw : 0 < rw)
  (hr : rw < ra) (hcv : 0 < cv)
include hT hN hc hw hr hcv

theorem scS_eval {H D Dc : ℝ} (hH : 0 < H) (hD : 0 < D) (hDc : 0 ≤ Dc) :
    (Scaravaglione2025.calculate_damage_number_S (fin H) (fin T) (fin N) (fin c) (fin ra) rc
      (fin D) (fin Dc) M Mc (fin cv) (fin rw)).res =
      .ok (fin (Sc H T N c ((ra - rw) / rw) D Dc cv)) := by
  have hs := st_pos hH hT
  have hDel : 0 < (ra - rw) / rw := div_pos (sub_pos.mpr hr) hw
  unfold Scaravaglione2025.calculate_damage_number_S
  rw [use_Dn50, use_Dn50]
  simp only [PyM.bind_ok, st_eval hT, VdMProof.Ns_eval hD hw hr]
  rw [PyM.bind_res_of_ok (check_res_s ..)]
  pf_eval [PyM.pure_def]
  rw [Except.ok.injEq, fin_inj]
  unfold Sc
  rw [Real.sqrt_div' _ hc.le, Real.sqrt_one]
  have : (1.0 : ℝ) = 1 := by norm_num
  rw [this]
  field_simp

theorem scD_eval {H S Dc : ℝ} (hH : 0 < H) (hS : 0 < S) :
    (Scaravaglione2025.calculate_nominal_rock_diameter_Dn50 (fin H) (fin T) (fin N) (fin c) (fin ra)
      rc (fin S) (fin Dc) Mc (fin cv) (fin rw)).res =
      .ok (fin (X H T N c ((ra - rw) / rw) S cv - Dc)) := by
  have hs := st_pos hH hT
  obtain ⟨De, hDe, hDD, e⟩ := Delta_eval hw hr
  rw [← hDD]
  unfold Scaravaglione2025.calculate_nominal_rock_diameter_Dn50 X
  rw [use_Dn50]
  simp only [PyM.bind_ok, st_eval hT, e]
  rw [PyM.bind_res_of_ok (check_res_s ..)]
  pf_eval [PyM.pure_def]

def Hx (T N c De D Dc S cv g : ℝ) : ℝ :=
  (De * D * cv * √c * (1 + Dc / D) * (2 * Real.pi / (g * T ^ 2)) ^ (0.1 : ℝ)
    * (S / √N) ^ (0.2 : ℝ)) ^ (1.0 / 0.9 : ℝ)

theorem scH_eval {D S Dc g : ℝ} (hD : 0 < D) (hDc : 0 ≤ Dc) (hS : 0 < S) (hg : 0 < g) :
    (Scaravaglione2025.calculate_significant_wave_height_Hm0 (fin T) (fin N) (fin c) (fin ra)
      rc (fin S) (fin D) (fin Dc) M Mc (fin cv) (fin g) (fin rw)).res =
      .ok (fin (Hx T N c ((ra - rw) / rw) D Dc S cv g)) := by
  have hpi := Real.pi_pos
  obtain ⟨De, hDe, hDD, e⟩ := Delta_eval hw hr
  rw [← hDD]
  unfold Scaravaglione2025.calculate_significant_wave_height_Hm0 Hx
  rw [use_Dn50, use_Dn50]
  simp only [PyM.bind_ok, e]
  rw [PyM.bind_res_of_ok (check_res_s ..)]
  pf_eval [PyM.pure_def]

end

theorem X_Sc {H T N c De D Dc cv : ℝ} (hH : 0 < H) (hT : 0 < T) (hN : 0 < N) (hc : 0 < c)
    (hDe : 0 < De) (hcv : 0 < cv) (hD : 0 < D + Dc) :
    X H T N c De (Sc H T N c De D Dc cv) cv = D + Dc := by
  have hs := st_pos hH hT
  have hs1 : 0 < st H T ^ (-0.1 : ℝ) := by positivity
  have hN' : 0 < √N := Real.sqrt_pos.mpr hN
  unfold X Sc
  generalize st H T ^ (-0.1 : ℝ) = s at *
  rw [mul_div_assoc, div_self hN'.ne', mul_one, VdMProof.rpow_neg_fifth (by positivity),
    VdMProof.rpow_pow5 (by positivity)]
  field_simp

theorem Sc_X {H T N c De Dc cv S : ℝ} (hH : 0 < H) (hT : 0 < T) (hN : 0 < N) (hc : 0 < c)
    (hDe : 0 < De) (hcv : 0 < cv) (hS : 0 < S) :
    Sc H T N c De (X H T N c De S cv - Dc) Dc cv = S := by
  have hs := st_pos hH hT
  have hs1 : 0 < st H T ^ (-0.1 : ℝ) := by positivity
  have hN' : 0 < √N := Real.sqrt_pos.mpr hN
  unfold X Sc
  rw [sub_add_cancel, VdMProof.rpow_neg_fifth (by positivity)]
  generalize st H T ^ (-0.1 : ℝ) = s at *
  have e := VdMProof.pow5_rpow (x := S / √N) (by positivity)
  have hp : 0 < (S / √N) ^ (0.2 : ℝ) := by positivity
  generalize (S / √N) ^ (0.2 : ℝ) = q at *
  have : 1 / cv * s * (1 / √c) * H / (De * (H / De * (1 / cv) * q⁻¹ * (1 / √c) * s)) = q := by
    field_simp
  rw [this, e]; field_simp

theorem Sc_mono {H H' T N c De D Dc cv : ℝ} (hH : 0 < H) (h : H < H') (hT : 0 < T) (hN : 0 < N)
    (hc : 0 < c) (hDe : 0 < De) (hcv : 0 < cv) (hD : 0 < D + Dc) :
    Sc H T N c De D Dc cv < Sc H' T N c De D Dc cv := by
  have key : ∀ H, 0 < H → st H T ^ (-0.1 : ℝ) * H = st 1 T ^ (-0.1 : ℝ) * H ^ (0.9 : ℝ) := by
    intro H hH
    have hK : 0 < 2 * Real.pi / 9.81 := by have := Real.pi_pos; positivity
    unfold st
    obtain ⟨y, rfl⟩ := exists_exp hH
    obtain ⟨t, rfl⟩ := exists_exp hT
    obtain ⟨k, hk⟩ := exists_exp hK
    rw [hk, mul_one]
    exp_norm
    push_cast; ring
  have e : ∀ H, 0 < H → Sc H T N c De D Dc cv =
      (1 / cv * (1 / √c) * st 1 T ^ (-0.1 : ℝ) * H ^ (0.9 : ℝ) / (De * (D + Dc))) ^ 5 * √N := by
    intro H hH
    unfold Sc
    have : 1 / cv * st H T ^ (-0.1 : ℝ) * (1 / √c) * H = 1 / cv * (1 / √c) *
      (st H T ^ (-0.1 : ℝ) * H) := by ring
    rw [this, key H hH]; ring
  have hs1 := st_pos one_pos hT
  have hs : 0 < st 1 T ^ (-0.1 : ℝ) := by positivity
  rw [e H hH, e H' (hH.trans h)]
  gcongr

theorem Sc_Hx {T N c De D Dc cv S : ℝ} (hT : 0 < T) (hN : 0 < N) (hc : 0 < c)
    (hDe : 0 < De) (hcv : 0 < cv) (hS : 0 < S) (hD : 0 < D) (hDc : 0 ≤ Dc) :
    0 < Hx T N c De D Dc S cv 9.81 ∧ Sc (Hx T N c De D Dc S cv 9.81) T N c De D Dc cv = S := by
  have hK : 0 < 2 * Real.pi / 9.81 := by have := Real.pi_pos; positivity
  have hpi := Real.pi_pos
  refine ⟨by unfold Hx; positivity, ?_⟩
  unfold Sc Hx st
  have e0 : 2 * Real.pi / (9.81 * T ^ 2) = 2 * Real.pi / 9.81 / T ^ 2 := by rw [div_div]
  have e1 : De * D * cv * √c * (1 + Dc / D) = De * (D + Dc) * cv * √c := by field_simp
  rw [e0, e1]
  have hDD : 0 < D + Dc := by positivity
  obtain ⟨d, hd⟩ := exists_exp hDD
  rw [hd]
  obtain ⟨y, rfl⟩ := exists_exp hS
  obtain ⟨t, rfl⟩ := exists_exp hT
  obtain ⟨k, hk⟩ := exists_exp hK
  obtain ⟨n, rfl⟩ := exists_exp hN
  obtain ⟨c', rfl⟩ := exists_exp hc
  obtain ⟨cv', rfl⟩ := exists_exp hcv
  obtain ⟨de, rfl⟩ := exists_exp hDe
  rw [hk]
  simp only [VdMProof.one_sci, one_div, ← Real.exp_neg]
  exp_norm
  push_cast; ring

end JumScaProof

section
variable (T N c ra rw cv : ℝ) (rc M Mc : PF) (hT : 0 < T) (hN : 0 < N) (hc : 0 < c) (hw : 0 < rw)
  (hr : rw < ra) (hcv : 0 < cv)
include hT hN hc hw hr hcv

/-- C24: the size designed for the damage of a given size is that size -/
theorem C24_size_of_damage (H D Dc : ℝ) (hH : 0 < H) (hD : 0 < D) (hDc : 0 ≤ Dc) : ∃ S : ℝ, 0 < S ∧
    (Scaravaglione2025.calculate_damage_number_S (fin H) (fin T) (fin N) (fin c) (fin ra) rc
      (fin D) (fin Dc) M Mc (fin cv) (fin rw)).res = .ok (fin S) ∧
    (Scaravaglione2025.calculate_nominal_rock_diameter_Dn50 (fin H) (fin T) (fin N) (fin c) (fin ra)
      rc (fin S) (fin Dc) Mc (fin cv) (fin rw)).res = .ok (fin D) := by
  have hDe : 0 < (ra - rw) / rw := div_pos (sub_pos.mpr hr) hw
  have hs := st_pos hH hT
  have hp : 0 < Sc H T N c ((ra - rw) / rw) D Dc cv := by unfold Sc; positivity
  refine ⟨_, hp, scS_eval rc M Mc hT hN hc hw hr hcv hH hD hDc, ?_⟩
  rw [scD_eval rc Mc hT hN hc hw hr hcv hH hp, X_Sc hH hT hN hc hDe hcv (by positivity),
    add_sub_cancel_right]

example := C24_size_of_damage (T := 8) (N := 3000) (c := 2) (ra := 2650) (rw := 1025) (cv := 1)
  (rc := .fin 2650) (M := .fin 5000) (Mc := .fin 10) (H := 2) (D := 1) (Dc := 0.3) (by norm_num)
  (by norm_num) (by norm_num) (by norm_num) (by norm_num) (by norm_num) (by norm_num) (by norm_num)
  (by norm_num)

/-- C24: for every damage level the size function returns a number, and if that is positive (the
level is attainable with this core) the damage predicted for it is the level -/
theorem C24_damage_of_size (H S Dc : ℝ) (hH : 0 < H) (hS : 0 < S) (hDc : 0 ≤ Dc) : ∃ D : ℝ,
    (Scaravaglione2025.calculate_nominal_rock_diameter_Dn50 (fin H) (fin T) (fin N) (fin c) (fin ra)
      rc (fin S) (fin Dc) Mc (fin cv) (fin rw)).res = .ok (fin D) ∧
    (0 < D → (Scaravaglione2025.calculate_damage_number_S (fin H) (fin T) (fin N) (fin c) (fin ra)
      rc (fin D) (fin Dc) M Mc (fin cv) (fin rw)).res = .ok (fin S)) := by
  have hDe : 0 < (ra - rw) / rw := div_pos (sub_pos.mpr hr) hw
  refine ⟨_, scD_eval rc Mc hT hN hc hw hr hcv hH hS, fun h => ?_⟩
  rw [scS_eval rc M Mc hT hN hc hw hr hcv hH h hDc, Sc_X hH hT hN hc hDe hcv hS]

example := C24_damage_of_size (T := 8) (N := 3000) (c := 2) (ra := 2650) (rw := 1025) (cv := 1)
  (rc := .fin 2650) (M := .fin 5000) (Mc := .fin 10) (H := 2) (S := 2) (Dc := 0.3) (by norm_num)
  (by norm_num) (by norm_num) (by norm_num) (by norm_num) (by norm_num) (by norm_num) (by norm_num)
  (by norm_num)

/-- C24: an unattainable damage level (non-positive size, permeable core) is never silent: the call
warns about the core/armour ratio -/
theorem C24_unattainable_is_reported (H S Dc D : ℝ) (hDc : 0 < Dc)
    (h : (Scaravaglione2025.calculate_nominal_rock_diameter_Dn50 (fin H) (fin T) (fin N) (fin c)
      (fin ra) rc (fin S) (fin Dc) Mc (fin cv) (fin rw)).res = .ok (fin D)) (hD : D ≤ 0) :
    ∃ v, Warn.range "Ratio core to armour Dn50_core / Dn50" "Scaravaglione et al. (2025)" v 0.21 0.71
      ∈ (Scaravaglione2025.calculate_nominal_rock_diameter_Dn50 (fin H) (fin T) (fin N) (fin c)
      (fin ra) rc (fin S) (fin Dc) Mc (fin cv) (fin rw)).warns := by
  unfold Scaravaglione2025.calculate_nominal_rock_diameter_Dn50 at h ⊢
  rw [VdMProof.use_Dn50] at h ⊢
  simp only [PyM.bind_ok] at h ⊢
  rw [PyM.bind_res_of_ok (check_res_s ..)] at h
  simp only [PyM.pure_def, Except.ok.injEq] at h
  rw [PyM.bind_warns_of_ok (check_res_s ..), h]
  refine ⟨fin Dc / fin D, ?_⟩
  simp only [Scaravaglione2025.check_validity_range, check_bind_warns, check_if_given_warns,
    List.nil_append, List.append_nil, PyM.pure_def, List.mem_append]
  right
  right; right; right; right; right
  rw [if_pos]
  · simp
  · refine ⟨by simp, ?_⟩
    unfold OutOfRange
    rcases hD.lt_or_eq with hD | hD
    · left
      rw [div_fin hD.ne, sci_eq, lt_fin]
      have := div_neg_of_pos_of_neg hDc hD
      linarith
    · right
      subst hD
      rw [div_zero_fin, mulInf, if_pos hDc]
      exact fin_lt_pinf _

/-- C24: wave height and damage are inverse (default gravity) -/
theorem C24_damage_height_inverse (D Dc : ℝ) (hD : 0 < D) (hDc : 0 ≤ Dc) : MutuallyInverse
    (fun S => Scaravaglione2025.calculate_significant_wave_height_Hm0 (fin T) (fin N) (fin c) (fin ra)
      rc S (fin D) (fin Dc) M Mc (fin cv) (fin 9.81) (fin rw))
    (fun H => Scaravaglione2025.calculate_damage_number_S H (fin T) (fin N) (fin c) (fin ra) rc
      (fin D) (fin Dc) M Mc (fin cv) (fin rw)) := by
  have hDe : 0 < (ra - rw) / rw := div_pos (sub_pos.mpr hr) hw
  have hDD : 0 < D + Dc := by positivity
  constructor
  · intro S hS
    obtain ⟨a, b⟩ := Sc_Hx hT hN hc hDe hcv hS hD hDc
    refine ⟨_, a, scH_eval rc M Mc hT hN hc hw hr hcv hD hDc hS (by norm_num), ?_⟩
    rw [scS_eval rc M Mc hT hN hc hw hr hcv a hD hDc, b]
  · intro H hH
    have hs := st_pos hH hT
    have hp : 0 < Sc H T N c ((ra - rw) / rw) D Dc cv := by unfold Sc; positivity
    refine ⟨_, hp, scS_eval rc M Mc hT hN hc hw hr hcv hH hD hDc, ?_⟩
    rw [scH_eval rc M Mc hT hN hc hw hr hcv hD hDc hp (by norm_num), Except.ok.injEq, fin_inj]
    obtain ⟨a, b⟩ := Sc_Hx hT hN hc hDe hcv hp hD hDc
    rcases lt_trichotomy (Hx T N c ((ra - rw) / rw) D Dc (Sc H T N c ((ra - rw) / rw) D Dc cv) cv
      9.81) H with h | h | h
    · have := Sc_mono a h hT hN hc hDe hcv hDD; linarith
    · exact h
    · have := Sc_mono hH h hT hN hc hDe hcv hDD; linarith

end

/-- the hypotheses of C24 are satisfiable -/
example : ∃ T N c ra rw cv D Dc H S : ℝ, 0 < T ∧ 0 < N ∧ 0 < c ∧ 0 < rw ∧ rw < ra ∧ 0 < cv ∧
    0 < D ∧ 0 < Dc ∧ 0 < H ∧ 0 < S := ⟨6, 3000, 2, 2650, 1025, 3.3, 1, 0.4, 2, 2, by norm_num⟩

end
