import Verif.SpecDesign
import Verif.Props.Toe
import Verif.Props.ToeEtemad
import Verif.SpecRange

/-! # Property C96: design values are limits: toes -/

open Classical
open PF
open CorePhysics
noncomputable section

namespace DesignProof
theorem pow_le_iff {a N p : ℝ} (ha : 0 < a) (hN : 0 < N) (hp : 0 < p) :
    a ^ (1 / p) ≤ N ↔ a ≤ N ^ p := by
  constructor
  · intro h
    have := Real.rpow_le_rpow (Real.rpow_nonneg ha.le _) h hp.le
    rwa [← Real.rpow_mul ha.le, one_div_mul_cancel hp.ne', Real.rpow_one] at this
  · intro h
    have := Real.rpow_le_rpow ha.le h (one_div_pos.mpr hp).le
    rwa [← Real.rpow_mul hN.le, mul_one_div_cancel hp.ne', Real.rpow_one] at this
end DesignProof

section
open Gerding1993 GerdingProof
variable (ra rw : ℝ) (h : PF) (hw : 0 < rw) (hr : rw < ra)
include hw hr

/-- C96, Gerding (1993): the damage stays within the limit exactly up to the returned wave height -/
theorem C96_gerding_height (ht D N : ℝ) (hD : 0 < D) (hK : 0 < 1.6 * D + 0.24 * ht) (hN : 0 < N) : SafeUpTo
    (fun H => calculate_damage_Nod H (fin ht) h (fin D) (fin ra) (fin rw)) N
    (calculate_wave_height_Hs (fin D) (fin ht) h (fin N) (fin ra) (fin rw)) := by
  have hDe : 0 < (ra - rw) / rw := div_pos (sub_pos.mpr hr) hw
  have hK' : 0 < K D ht := hK
  refine DesignProof.upto_inverse (C27_height_damage_inverse ra rw h hw hr ht D hD hK) (fun x y hx hxy =>
    ⟨_, _, Nod_eval h hw hr hx hD hK, Nod_eval h hw hr (hx.trans hxy) hD hK, ?_⟩) hN
  exact Real.rpow_lt_rpow (by positivity) (by gcongr) (by norm_num)

example := C96_gerding_height (ra := 2650) (rw := 1025) (h := .fin 8) (ht := 5) (D := 1) (N := 0.5)
  (by norm_num) (by norm_num) (by norm_num) (by norm_num) (by norm_num)

/-- C96, Gerding (1993): … exactly from the returned rock size (a size of zero or less: every size will do) -/
theorem C96_gerding_size (H ht N : ℝ) (hH : 0 < H) (hN : 0 < N) (hht : 0 ≤ ht) : SafeFrom
    (fun D => calculate_damage_Nod (fin H) (fin ht) h D (fin ra) (fin rw)) N
    (calculate_nominal_diameter_Dn50 (fin H) (fin ht) h (fin N) (fin ra) (fin rw)) := by
  have hDe : 0 < (ra - rw) / rw := div_pos (sub_pos.mpr hr) hw
  refine DesignProof.from_formula _ (Dn_eval h hw hr hN)
    (fun x hx => Nod_eval h hw hr hH hx (by unfold K; positivity)) fun x hx => ?_
  have hK : 0 < K x ht := by unfold K; positivity
  have hp : 0 < N ^ (0.15 : ℝ) := by positivity
  rw [DesignProof.pow_le_iff (by positivity) hN (by norm_num)]
  generalize (ra - rw) / rw = De at *
  generalize N ^ (0.15 : ℝ) = n at *
  rw [div_le_iff₀ (by positivity), div_le_iff₀ (by positivity), sub_le_iff_le_add, div_le_iff₀ hDe]
  unfold K
  constructor <;> intro h' <;> linarith

example := C96_gerding_size (ra := 2650) (rw := 1025) (h := .fin 8) (H := 2) (ht := 5) (N := 0.5)
  (by norm_num) (by norm_num) (by norm_num) (by norm_num) (by norm_num)

/-- C96, Gerding (1993): … exactly from the returned depth above the toe -/
theorem C96_gerding_depth (H D N : ℝ) (hH : 0 < H) (hD : 0 < D) (hN : 0 < N) : SafeFrom
    (fun ht => calculate_damage_Nod (fin H) ht h (fin D) (fin ra) (fin rw)) N
    (calculate_depth_above_toe_ht (fin H) (fin D) h (fin N) (fin ra) (fin rw)) := by
  have hDe : 0 < (ra - rw) / rw := div_pos (sub_pos.mpr hr) hw
  refine DesignProof.from_formula _ (ht_eval h hw hr hD hN)
    (fun x hx => Nod_eval h hw hr hH hD (by unfold K; positivity)) fun x hx => ?_
  have hK : 0 < K D x := by unfold K; positivity
  have hp : 0 < N ^ (0.15 : ℝ) := by positivity
  rw [DesignProof.pow_le_iff (by positivity) hN (by norm_num)]
  generalize (ra - rw) / rw = De at *
  generalize N ^ (0.15 : ℝ) = n at *
  have e : D * (H / (De * D * n) - 1.6) = H / (De * n) - 1.6 * D := by
    generalize (1.6 : ℝ) = k
    field_simp
  rw [div_le_iff₀ (by positivity), div_le_iff₀ (by norm_num), e, sub_le_iff_le_add, div_le_iff₀ (by positivity)]
  unfold K
  constructor <;> intro h' <;> linarith

example := C96_gerding_depth (ra := 2650) (rw := 1025) (h := .fin 8) (H := 2) (D := 0.5) (N := 0.5)
  (by norm_num) (by norm_num) (by norm_num) (by norm_num) (by norm_num)
end

section
open VanDerMeer1998 VdM98Proof
variable (ra rw h : ℝ) (hw : 0 < rw) (hr : rw < ra) (hh : 0 < h)
include hw hr hh

/-- C96, Van der Meer (1998): wave height -/
theorem C96_vdm1998_height (ht D N : ℝ) (hD : 0 < D) (hht : 0 < ht) (hN : 0 < N) : SafeUpTo
    (fun H => calculate_damage_Nod H (fin ht) (fin h) (fin D) (fin ra) (fin rw)) N
    (calculate_wave_height_Hs (fin D) (fin ht) (fin h) (fin N) (fin ra) (fin rw)) := by
  have hDe : 0 < (ra - rw) / rw := div_pos (sub_pos.mpr hr) hw
  have hq := q_pos hh hht
  refine DesignProof.upto_inverse (C28_height_damage_inverse ra rw ht h hw hr hh D hD hht) (fun x y hx hxy =>
    ⟨_, _, Nod_eval hw hr hx hD hh hht, Nod_eval hw hr (hx.trans hxy) hD hh hht, ?_⟩) hN
  exact Real.rpow_lt_rpow (by positivity) (by gcongr) (by norm_num)

example := C96_vdm1998_height (ra := 2650) (rw := 1025) (h := 8) (ht := 5) (D := 1) (N := 0.5)
  (by norm_num) (by norm_num) (by norm_num) (by norm_num) (by norm_num) (by norm_num)

/-- C96, Van der Meer (1998): rock size -/
theorem C96_vdm1998_toe_size (H ht N : ℝ) (hH : 0 < H) (hht : 0 < ht) (hN : 0 < N) : SafeFrom
    (fun D => calculate_damage_Nod (fin H) (fin ht) (fin h) D (fin ra) (fin rw)) N
    (calculate_nominal_diameter_Dn50 (fin H) (fin ht) (fin h) (fin N) (fin ra) (fin rw)) := by
  have hDe : 0 < (ra - rw) / rw := div_pos (sub_pos.mpr hr) hw
  have hq := q_pos hh hht
  refine DesignProof.from_inverse (C28_size_damage_inverse ra rw ht h hw hr hh H hH hht) (fun x y hx hxy =>
    ⟨_, _, Nod_eval hw hr hH hx hh hht, Nod_eval hw hr hH (hx.trans hxy) hh hht, ?_⟩) hN
  have hy := hx.trans hxy
  exact Real.rpow_lt_rpow (by positivity) (by gcongr) (by norm_num)

example := C96_vdm1998_toe_size (ra := 2650) (rw := 1025) (h := 8) (H := 2) (ht := 5) (N := 0.5)
  (by norm_num) (by norm_num) (by norm_num) (by norm_num) (by norm_num) (by norm_num)

/-- the damage falls with the depth above the toe -/
theorem DesignProof.vdm1998_depth_falls (H D : ℝ) (hH : 0 < H) (hD : 0 < D) : StrictlyDecreasing
    (fun ht => calculate_damage_Nod (fin H) ht (fin h) (fin D) (fin ra) (fin rw)) := by
  have hDe : 0 < (ra - rw) / rw := div_pos (sub_pos.mpr hr) hw
  intro x y hx hxy
  have hy := hx.trans hxy
  have hq := q_pos hh hx
  have hq' : q x h < q y h := by unfold q; gcongr
  refine ⟨_, _, Nod_eval hw hr hH hD hh hx, Nod_eval hw hr hH hD hh hy, ?_⟩
  exact Real.rpow_lt_rpow (by have := q_pos hh hy; positivity) (by gcongr) (by norm_num)

/-- C96, Van der Meer (1998): depth above the toe, where not every depth will do -/
theorem C96_vdm1998_depth_partial (H D N : ℝ) (hH : 0 < H) (hD : 0 < D) (hN : 0 < N)
    (hs : 2 * N ^ (0.15 : ℝ) < Textbook.Ns H D ra rw) : SafeFrom
    (fun ht => calculate_damage_Nod (fin H) ht (fin h) (fin D) (fin ra) (fin rw)) N
    (calculate_depth_above_toe_ht (fin H) (fin D) (fin h) (fin N) (fin ra) (fin rw)) := by
  rcases C28_damage_of_depth ra rw h hw hr hh H D N hH hD hN with ⟨h1, -⟩ | ⟨-, ht, hht, e, e'⟩
  · exact absurd hs (not_lt.mpr h1)
  · exact DesignProof.from_root hht e e' (DesignProof.vdm1998_depth_falls ra rw h hw hr hh H D hH hD)

omit hw hr hh in
example : (2 : ℝ) * 1 ^ (0.15 : ℝ) < Textbook.Ns 3 0.5 2650 1025 := by
  unfold Textbook.Ns Textbook.Delta; rw [Real.one_rpow]; norm_num

/-- C96 refuted for the depth of Van der Meer (1998): where every depth meets the limit the function
returns NaN -/
theorem C96_vdm1998_depth_refuted (H D N : ℝ) (hH : 0 < H) (hD : 0 < D) (hN : 0 < N)
    (hs : Textbook.Ns H D ra rw ≤ 2 * N ^ (0.15 : ℝ)) :
    (∀ ht : ℝ, 0 < ht → ∃ v : ℝ, (calculate_damage_Nod (fin H) (fin ht) (fin h) (fin D) (fin ra) (fin rw)).res
      = .ok (fin v) ∧ v ≤ N) ∧
    (calculate_depth_above_toe_ht (fin H) (fin D) (fin h) (fin N) (fin ra) (fin rw)).res = .ok nan := by
  have hDe : 0 < (ra - rw) / rw := div_pos (sub_pos.mpr hr) hw
  constructor
  · intro ht hht
    have hq := q_pos hh hht
    refine ⟨_, Nod_eval hw hr hH hD hh hht, ?_⟩
    have hs' : H / ((ra - rw) / rw * D) ≤ 2 * N ^ (0.15 : ℝ) := hs
    have hp : 0 < N ^ (0.15 : ℝ) := by positivity
    rw [DesignProof.pow_le_iff (by positivity) hN (by norm_num), div_le_iff₀ hq]
    refine hs'.trans ?_
    have : (2 : ℝ) ≤ q ht h := by unfold q; linarith [show 0 ≤ 6.2 * (ht / h) ^ (2.7 : ℝ) by positivity]
    nlinarith
  · rcases C28_damage_of_depth ra rw h hw hr hh H D N hH hD hN with ⟨-, e⟩ | ⟨h1, -⟩
    · exact e
    · exact absurd h1 (not_lt.mpr hs)

omit hw hr hh in
example : Textbook.Ns 1 0.5 2650 1025 ≤ (2 : ℝ) * 1 ^ (0.15 : ℝ) := by
  unfold Textbook.Ns Textbook.Delta; rw [Real.one_rpow]; norm_num
end

section
open VanGentVanDerWerf2014 VGWProof
variable (H T ht g Bt tt ra rw : ℝ) (cot : PF) (hH : 0 < H) (hT : 0 < T) (hht : 0 < ht) (hg : 0 < g)
  (hB : 0 < Bt) (htt : 0 < tt) (hw : 0 < rw) (hr : rw < ra)
include hH hT hht hg hB htt hw hr

/-- C96, Van Gent & Van der Werf (2014): the returned size is safe; the smallest size with at most the asked
damage is 0.8 % smaller (factor 0.9765625^(1/3)) -/
theorem C96_vgw2014_size_partial (N : ℝ) (hN : 0 < N) : ∃ d : ℝ, 0 < d ∧
    (calculate_nominal_diameter_Dn50 (fin H) (fin T) (fin ht) (fin Bt) (fin tt) (fin N) (fin ra)
      (fin rw) cot (g := fin g)).res = .ok (fin d) ∧
    ∀ x : ℝ, 0 < x → ∃ v : ℝ, (calculate_damage_Nod (fin H) (fin T) (fin ht) (fin Bt) (fin tt) (fin x) (fin ra)
      (fin rw) cot (g := fin g)).res = .ok (fin v) ∧ (v ≤ N ↔ 0.9765625 ^ (1 / 3 : ℝ) * d ≤ x) := by
  have hDe : 0 < (ra - rw) / rw := div_pos (sub_pos.mpr hr) hw
  have hU := U_pos hH hT hht hg
  obtain ⟨d, hd, e1, e2⟩ := C29_roundtrip_scales_partial H T ht g Bt tt ra rw cot hH hT hht
    hg hB htt hw hr 0.032 N hN
  refine ⟨d, hd, e1, fun x hx => ⟨_, Nod_eval hH hT hht hg hw hr cot hB htt hx, ?_⟩⟩
  rw [Nod_eval hH hT hht hg hw hr cot hB htt hd, Except.ok.injEq, fin_inj] at e2
  have e3 : (0.032 / 0.32 ^ 3 : ℝ) = 0.9765625 := by norm_num
  rw [e3, pow10, pow10, pow30] at e2
  rw [pow10, pow10, pow30]
  have e4 := rpow_third_cube (x := (0.9765625 : ℝ)) (by norm_num)
  have p0 : 0 < (0.9765625 : ℝ) ^ (1 / 3 : ℝ) := by positivity
  have p3 : 0 < (Bt / H) ^ (0.3 : ℝ) := by positivity
  have p4 : (0 : ℝ) < 0.032 := by norm_num
  rw [← e4] at e2
  generalize (0.9765625 : ℝ) ^ (1 / 3 : ℝ) = r at *
  generalize (0.032 : ℝ) = k at *
  generalize U H T ht g = u at *
  generalize (Bt / H) ^ (0.3 : ℝ) = b at *
  generalize (ra - rw) / rw = De at *
  have e5 : k * b * (tt / H) * (H / (De * x)) ^ 3 * u = N * ((r * d) / x) ^ 3 := by
    have : k * b * (tt / H) * (H / (De * x)) ^ 3 * u = k * b * (tt / H) * (H / (De * d)) ^ 3 * u * (d / x) ^ 3 := by
      field_simp
    rw [this, e2, mul_div_assoc, mul_pow]; ring
  rw [e5, ← le_div_iff₀' hN, div_self hN.ne', ← div_le_one hx]
  exact ⟨fun h' => by_contra fun hc => absurd h' (not_le.mpr (one_lt_pow₀ (not_le.mp hc) (by norm_num))),
    fun h' => pow_le_one₀ (by positivity) h'⟩

example := C96_vgw2014_size_partial (H := 2) (T := 8) (ht := 5) (g := 9.81) (Bt := 6) (tt := 1)
  (ra := 2650) (rw := 1025) (cot := .fin 1.5) (N := 0.5) (by norm_num) (by norm_num) (by norm_num) (by norm_num)
  (by norm_num) (by norm_num) (by norm_num) (by norm_num) (by norm_num)

/-- C96 refuted for Van Gent & Van der Werf (2014): there are smaller sizes with at most the asked damage -/
theorem C96_vgw2014_size_refuted (N : ℝ) (hN : 0 < N) : ¬ SafeFrom
    (fun D => calculate_damage_Nod (fin H) (fin T) (fin ht) (fin Bt) (fin tt) D (fin ra) (fin rw) cot (g := fin g)) N
    (calculate_nominal_diameter_Dn50 (fin H) (fin T) (fin ht) (fin Bt) (fin tt) (fin N) (fin ra)
      (fin rw) cot (g := fin g)) := by
  rintro ⟨d', e', h'⟩
  obtain ⟨d, hd, e, h⟩ := C96_vgw2014_size_partial H T ht g Bt tt ra rw cot hH hT hht hg hB htt hw hr N hN
  rw [e, Except.ok.injEq, fin_inj] at e'
  subst e'
  have p0 : 0 < (0.9765625 : ℝ) ^ (1 / 3 : ℝ) := by positivity
  have p1 : (0.9765625 : ℝ) ^ (1 / 3 : ℝ) < 1 := Real.rpow_lt_one (by norm_num) (by norm_num) (by norm_num)
  obtain ⟨v, ev, hv⟩ := h (0.9765625 ^ (1 / 3 : ℝ) * d) (by positivity)
  obtain ⟨w, ew, hw'⟩ := h' (0.9765625 ^ (1 / 3 : ℝ) * d) (by positivity)
  simp only [] at ew
  rw [ev] at ew
  cases ew
  have := hw'.mp (hv.mpr le_rfl)
  nlinarith

example := C96_vgw2014_size_refuted (H := 2) (T := 8) (ht := 5) (g := 9.81) (Bt := 6) (tt := 1)
  (ra := 2650) (rw := 1025) (cot := .fin 1.5) (N := 0.5) (by norm_num) (by norm_num) (by norm_num) (by norm_num)
  (by norm_num) (by norm_num) (by norm_num) (by norm_num) (by norm_num)
end

section
open EtemadShahidi2021 Et21Proof
variable (H T h ht Bt m ra rw g c1 c2 c3 c4 c5 c6 c7 : ℝ)
  (hH : 0 < H) (hT : 0 < T) (hh : 0 < h) (hht : 0 < ht) (hB : 0 < Bt) (hg : 0 < g)
  (hw : 0 < rw) (hr : rw < ra) (hc2 : 0 < c2) (hm : 0 < 1 - c7 * m)
include hH hT hh hht hB hg hw hr hc2 hm

/-- C96, Etemad-Shahidi et al. (2021): among the sizes that are damaged at all, the damage meets the limit
exactly from the returned size (for all coefficients) -/
theorem C96_etemad2021_size_partial (N : ℝ) (hN : 0 < N) (hc1 : 0 ≤ c1) (hc5 : 0 < c5) : ∃ d : ℝ, 0 < d ∧
    (calculate_nominal_diameter_Dn50 (fin H) (fin T) (fin h) (fin ht) (fin Bt) (fin N) (fin m)
      (fin ra) (fin rw) (fin g) (fin c1) (fin c2) (fin c3) (fin c4) (fin c5) (fin c6) (fin c7)).res
      = .ok (fin d) ∧ c1 < Textbook.Ns H d ra rw ∧
    ∀ x : ℝ, 0 < x → c1 < Textbook.Ns H x ra rw → ∃ v : ℝ,
      (calculate_damage_Nod (fin H) (fin T) (fin h) (fin ht) (fin Bt) (fin m) (fin x) (fin ra)
      (fin rw) (fin g) (fin c1) (fin c2) (fin c3) (fin c4) (fin c5) (fin c6) (fin c7)).res
      = .ok (fin v) ∧ (v ≤ N ↔ d ≤ x) := by
  have hDe : 0 < (ra - rw) / rw := div_pos (sub_pos.mpr hr) hw
  have hs := s_pos hH hT hg
  have hS : 0 < S c2 c3 c4 c7 ht h (2 * Real.pi * H / (g * T ^ 2)) m := by unfold S; positivity
  have hb : 0 < (Bt / H) ^ c6 := by positivity
  have hn : 0 < N ^ c5 := by positivity
  refine ⟨_, ?_, Dn_eval hH hT hh hht hB hg hw hr hc2 hc5.ne' hm hN (by positivity), ?_, fun x hx hxc => ?_⟩
  · positivity
  · unfold Textbook.Ns Textbook.Delta
    generalize (ra - rw) / rw = De at *
    generalize S c2 c3 c4 c7 ht h (2 * Real.pi * H / (g * T ^ 2)) m = s at *
    generalize (Bt / H) ^ c6 = b at *
    generalize N ^ c5 = n at *
    have : H / (De * (H / De / (c1 + s * b * n))) = c1 + s * b * n := by field_simp
    rw [this]
    have : 0 < s * b * n := by positivity
    linarith
  · have hxc' : c1 < H / ((ra - rw) / rw * x) := hxc
    have hX : 0 < (H / ((ra - rw) / rw * x) - c1) /
      (S c2 c3 c4 c7 ht h (2 * Real.pi * H / (g * T ^ 2)) m * (Bt / H) ^ c6) :=
      div_pos (sub_pos.mpr hxc') (by positivity)
    refine ⟨_, by rw [Nod_eval hH hT hh hht hB hg hw hr hc2 hc5.ne' hm hx, npow_fin hX], ?_⟩
    rw [DesignProof.pow_le_iff hX hN hc5]
    generalize (ra - rw) / rw = De at *
    generalize S c2 c3 c4 c7 ht h (2 * Real.pi * H / (g * T ^ 2)) m = s at *
    generalize (Bt / H) ^ c6 = b at *
    generalize N ^ c5 = n at *
    rw [div_le_iff₀ (by positivity), sub_le_iff_le_add, div_le_iff₀ (by positivity),
      div_le_iff₀ (by positivity), div_le_iff₀ hDe]
    constructor <;> intro h' <;> linarith

example := C96_etemad2021_size_partial (H := 2) (T := 8) (h := 8) (ht := 5) (Bt := 6) (m := 0.02) (ra := 2650)
  (rw := 1025) (g := 9.81) (c1 := 1.5) (c2 := 0.2) (c3 := 0.3) (c4 := 0.3) (c5 := 1) (c6 := 0.7) (c7 := 0.6)
  (N := 0.5) (by norm_num) (by norm_num) (by norm_num) (by norm_num) (by norm_num) (by norm_num)
  (by norm_num) (by norm_num) (by norm_num) (by norm_num) (by norm_num) (by norm_num) (by norm_num)

/-- C96 refuted for Etemad-Shahidi et al. (2021): with the default exponent sizes well above the returned one
give NaN, not a damage within the limit -/
theorem C96_etemad2021_size_refuted (N : ℝ) (hc1 : 0 < c1) : ¬ SafeFrom
    (fun D => calculate_damage_Nod (fin H) (fin T) (fin h) (fin ht) (fin Bt) (fin m) D (fin ra)
      (fin rw) (fin g) (fin c1) (fin c2) (fin c3) (fin c4) (c6 := fin c6) (c7 := fin c7)) N
    (calculate_nominal_diameter_Dn50 (fin H) (fin T) (fin h) (fin ht) (fin Bt) (fin N) (fin m)
      (fin ra) (fin rw) (fin g) (fin c1) (fin c2) (fin c3) (fin c4) (c6 := fin c6) (c7 := fin c7)) := by
  have hDe : 0 < (ra - rw) / rw := div_pos (sub_pos.mpr hr) hw
  rintro ⟨d, -, h'⟩
  obtain ⟨v, ev, -⟩ := h' (2 * (H / ((ra - rw) / rw * c1))) (by positivity)
  simp only [] at ev
  rw [C30_undamaged_is_nan H T h ht Bt m ra rw g c1 c2 c3 c4 c6 c7 hH hT hh hht hB hg hw hr hc2 hm _
    (by positivity) ?_] at ev
  · cases ev
  · generalize (ra - rw) / rw = De at *
    have : H / (De * (2 * (H / (De * c1)))) = c1 / 2 := by field_simp
    rw [this]; linarith

example := C96_etemad2021_size_refuted (H := 2) (T := 8) (h := 8) (ht := 5) (Bt := 6) (m := 0.02) (ra := 2650)
  (rw := 1025) (g := 9.81) (c1 := 1.2) (c2 := 11.2) (c3 := 0.3) (c4 := 0.3) (c6 := 0.7) (c7 := 3.7)
  (N := 0.5) (by norm_num) (by norm_num) (by norm_num) (by norm_num) (by norm_num) (by norm_num)
  (by norm_num) (by norm_num) (by norm_num) (by norm_num) (by norm_num)
end
end
