import Mathlib.Analysis.SpecialFunctions.Trigonometric.DerivHyp
import Verif.Lemmas.VdM
import Verif.Lemmas.Contraction
import Verif.Model.Toe
import Verif.Spec

/-! # Properties C27–C29: toe berms -/

open Classical
open PF
open CorePhysics
noncomputable section

/-! ## C27 Gerding 1993 -/
section C27
open Gerding1993

namespace GerdingProof

@[simp] theorem check_res (a b c : PF) : (check_validity a b c).res = .ok () := by
  simp [check_validity]

def K (D ht : ℝ) : ℝ := 1.6 * D + 0.24 * ht

variable {ht ra rw : ℝ} (h : PF) (hw : 0 < rw) (hr : rw < ra)
include hw hr

theorem Nod_eval {H D : ℝ} (hH : 0 < H) (hD : 0 < D) (hK : 0 < K D ht) :
    (calculate_damage_Nod (fin H) (fin ht) h (fin D) (fin ra) (fin rw)).res =
      .ok (fin ((H / ((ra - rw) / rw * K D ht)) ^ (1 / 0.15 : ℝ))) := by
  obtain ⟨De, hDe, hDD, e⟩ := Delta_eval hw hr
  have h1 : 0 < 1.6 + 0.24 * (ht / D) := by
    have : 1.6 + 0.24 * (ht / D) = K D ht / D := by unfold K; field_simp
    rw [this]; positivity
  rw [← hDD]
  unfold calculate_damage_Nod
  simp only [e]
  rw [PyM.bind_res_of_ok (check_res ..)]
  pf_eval [PyM.pure_def]
  rw [Except.ok.injEq, fin_inj]
  congr 1
  have : 1.6 + 0.24 * (ht / D) = K D ht / D := by unfold K; field_simp
  rw [this]
  field_simp

theorem Dn_eval {H N : ℝ} (hN : 0 < N) :
    (calculate_nominal_diameter_Dn50 (fin H) (fin ht) h (fin N) (fin ra) (fin rw)).res =
      .ok (fin ((H / ((ra - rw) / rw) - N ^ (0.15 : ℝ) * 0.24 * ht) / (N ^ (0.15 : ℝ) * 1.6))) := by
  obtain ⟨De, hDe, hDD, e⟩ := Delta_eval hw hr
  rw [← hDD]
  unfold calculate_nominal_diameter_Dn50
  simp only [e]
  rw [PyM.bind_res_of_ok (check_res ..)]
  pf_eval [PyM.pure_def]

theorem Hs_eval {D N : ℝ} (hD : 0 < D) (hN : 0 < N) :
    (calculate_wave_height_Hs (fin D) (fin ht) h (fin N) (fin ra) (fin rw)).res =
      .ok (fin (N ^ (0.15 : ℝ) * ((ra - rw) / rw) * K D ht)) := by
  obtain ⟨De, hDe, hDD, e⟩ := Delta_eval hw hr
  rw [← hDD]
  unfold calculate_wave_height_Hs
  simp only [e]
  rw [PyM.bind_res_of_ok (check_res ..)]
  pf_eval [PyM.pure_def]
  rw [Except.ok.injEq, fin_inj]
  unfold K
  field_simp

theorem ht_eval {H D N : ℝ} (hD : 0 < D) (hN : 0 < N) :
    (calculate_depth_above_toe_ht (fin H) (fin D) h (fin N) (fin ra) (fin rw)).res =
      .ok (fin (D * (H / ((ra - rw) / rw * D * N ^ (0.15 : ℝ)) - 1.6) / 0.24)) := by
  obtain ⟨De, hDe, hDD, e⟩ := Delta_eval hw hr
  rw [← hDD]
  unfold calculate_depth_above_toe_ht
  simp only [e]
  rw [PyM.bind_res_of_ok (check_res ..)]
  pf_eval [PyM.pure_def]

omit hw hr
theorem pw1 {x : ℝ} (h : 0 < x) : (x ^ (1 / 0.15 : ℝ)) ^ (0.15 : ℝ) = x := by
  rw [← Real.rpow_mul h.le]; norm_num
theorem pw2 {x : ℝ} (h : 0 < x) : (x ^ (0.15 : ℝ)) ^ (1 / 0.15 : ℝ) = x := by
  rw [← Real.rpow_mul h.le]; norm_num

end GerdingProof
open GerdingProof

variable (ra rw : ℝ) (h : PF) (hw : 0 < rw) (hr : rw < ra)
include hw hr

/-- C27: wave height and damage are inverse for every rock size and toe depth with positive
strength 1.6 Dn50 + 0.24 ht -/
theorem C27_height_damage_inverse (ht D : ℝ) (hD : 0 < D) (hK : 0 < 1.6 * D + 0.24 * ht) :
    MutuallyInverse
      (fun N => calculate_wave_height_Hs (fin D) (fin ht) h N (fin ra) (fin rw))
      (fun H => calculate_damage_Nod H (fin ht) h (fin D) (fin ra) (fin rw)) := by
  have hDe : 0 < (ra - rw) / rw := div_pos (sub_pos.mpr hr) hw
  have hK' : 0 < K D ht := hK
  refine .of_real _ _ (fun N hN => Hs_eval h hw hr hD hN) (fun H hH => Nod_eval h hw hr hH hD hK)
    (fun N hN => by positivity) (fun H hH => by positivity) (fun N hN => ?_) (fun H hH => ?_)
  · have : N ^ (0.15 : ℝ) * ((ra - rw) / rw) * K D ht / ((ra - rw) / rw * K D ht) = N ^ (0.15 : ℝ) := by
      generalize (ra - rw) / rw = De at *
      field_simp
    simp only [this, pw2 hN]
  · rw [pw1 (by positivity)]
    generalize (ra - rw) / rw = De at *
    field_simp

example := C27_height_damage_inverse (ra := 2650) (rw := 1025) (h := .fin 8) (ht := 5) (D := 1)
  (by norm_num) (by norm_num) (by norm_num) (by norm_num)

/-- C27: the size designed for the damage of a given size is that size -/
theorem C27_size_of_damage (H ht D : ℝ) (hH : 0 < H) (hD : 0 < D) (hK : 0 < 1.6 * D + 0.24 * ht) :
    ∃ N : ℝ, 0 < N ∧
      (calculate_damage_Nod (fin H) (fin ht) h (fin D) (fin ra) (fin rw)).res = .ok (fin N) ∧
      (calculate_nominal_diameter_Dn50 (fin H) (fin ht) h (fin N) (fin ra) (fin rw)).res
        = .ok (fin D) := by
  have hDe : 0 < (ra - rw) / rw := div_pos (sub_pos.mpr hr) hw
  have hK' : 0 < K D ht := hK
  refine ⟨_, by positivity, Nod_eval h hw hr hH hD hK, ?_⟩
  rw [Dn_eval h hw hr (by positivity), pw1 (by positivity), Except.ok.injEq, fin_inj]
  generalize (ra - rw) / rw = De at *
  have e : 1.6 * D = K D ht - 0.24 * ht := by unfold K; ring
  rw [div_eq_iff (by positivity)]
  have : H / De - H / (De * K D ht) * 0.24 * ht = H / (De * K D ht) * (K D ht - 0.24 * ht) := by
    field_simp
  rw [this, ← e]; ring

example := C27_size_of_damage (ra := 2650) (rw := 1025) (h := .fin 8) (H := 2) (ht := 5) (D := 1)
  (by norm_num) (by norm_num) (by norm_num) (by norm_num) (by norm_num)

/-- C27: a designed size that is positive has the requested damage -/
theorem C27_damage_of_size (H ht N : ℝ) (hH : 0 < H) (hN : 0 < N) (hht : 0 ≤ ht) :
    ∃ D : ℝ,
      (calculate_nominal_diameter_Dn50 (fin H) (fin ht) h (fin N) (fin ra) (fin rw)).res
        = .ok (fin D) ∧
      (0 < D → (calculate_damage_Nod (fin H) (fin ht) h (fin D) (fin ra) (fin rw)).res
        = .ok (fin N)) := by
  have hDe : 0 < (ra - rw) / rw := div_pos (sub_pos.mpr hr) hw
  refine ⟨_, Dn_eval h hw hr hN, fun hD => ?_⟩
  rw [Nod_eval h hw hr hH hD (by unfold K; positivity), Except.ok.injEq, fin_inj]
  generalize (ra - rw) / rw = De at *
  have hp : 0 < N ^ (0.15 : ℝ) := by positivity
  have : H / (De * K ((H / De - N ^ (0.15 : ℝ) * 0.24 * ht) / (N ^ (0.15 : ℝ) * 1.6)) ht)
      = N ^ (0.15 : ℝ) := by
    have e : K ((H / De - N ^ (0.15 : ℝ) * 0.24 * ht) / (N ^ (0.15 : ℝ) * 1.6)) ht
        = H / De / N ^ (0.15 : ℝ) := by
      unfold K
      generalize N ^ (0.15 : ℝ) = n at *
      generalize (0.24 : ℝ) = k
      field_simp
      ring
    rw [e]; field_simp
  rw [this, pw2 hN]

example := C27_damage_of_size (ra := 2650) (rw := 1025) (h := .fin 8) (H := 2) (ht := 5) (N := 0.5)
  (by norm_num) (by norm_num) (by norm_num) (by norm_num) (by norm_num)

/-- C27: an unattainable damage level (non-positive size) is reported: the toe depth over the size
is outside 3–25 -/
theorem C27_unattainable_is_reported (H ht N D : ℝ) (hht : 0 < ht)
    (hres : (calculate_nominal_diameter_Dn50 (fin H) (fin ht) h (fin N) (fin ra) (fin rw)).res
        = .ok (fin D)) (hD : D ≤ 0) :
    ∃ v, Warn.range "Relative toe height (Dn50)" "Gerding (1993)" v 3 25 ∈
      (calculate_nominal_diameter_Dn50 (fin H) (fin ht) h (fin N) (fin ra) (fin rw)).warns := by
  unfold calculate_nominal_diameter_Dn50 at hres ⊢
  rw [PyM.bind_res_of_ok (check_res ..)] at hres
  simp only [PyM.pure_def, Except.ok.injEq] at hres
  simp only [] at hres ⊢
  rw [PyM.bind_warns_of_ok (check_res ..), hres]
  refine ⟨fin ht / fin D, ?_⟩
  simp only [check_validity, check_bind_warns, check_if_given_warns,
    List.append_nil, PyM.pure_def, List.mem_append]
  right
  rw [if_pos]
  · simp
  · refine ⟨by simp, ?_⟩
    unfold OutOfRange
    rcases hD.lt_or_eq with hD | hD
    · left
      rw [div_fin hD.ne, ofNat_eq, lt_fin]
      have := div_neg_of_pos_of_neg hht hD
      linarith [show ((OfNat.ofNat 3 : ℝ)) = 3 from rfl]
    · right
      subst hD
      rw [div_zero_fin, mulInf, if_pos hht]
      exact fin_lt_pinf _

/-- C27: toe depth and damage undo each other -/
theorem C27_depth_damage_inverse (H D : ℝ) (hH : 0 < H) (hD : 0 < D) :
    (∀ N : ℝ, 0 < N → ∃ ht : ℝ,
      (calculate_depth_above_toe_ht (fin H) (fin D) h (fin N) (fin ra) (fin rw)).res
        = .ok (fin ht) ∧
      (calculate_damage_Nod (fin H) (fin ht) h (fin D) (fin ra) (fin rw)).res = .ok (fin N)) ∧
    (∀ ht : ℝ, 0 < 1.6 * D + 0.24 * ht → ∃ N : ℝ, 0 < N ∧
      (calculate_damage_Nod (fin H) (fin ht) h (fin D) (fin ra) (fin rw)).res = .ok (fin N) ∧
      (calculate_depth_above_toe_ht (fin H) (fin D) h (fin N) (fin ra) (fin rw)).res
        = .ok (fin ht)) := by
  have hDe : 0 < (ra - rw) / rw := div_pos (sub_pos.mpr hr) hw
  constructor
  · intro N hN
    have hp : 0 < N ^ (0.15 : ℝ) := by positivity
    have e : K D (D * (H / ((ra - rw) / rw * D * N ^ (0.15 : ℝ)) - 1.6) / 0.24)
        = H / ((ra - rw) / rw) / N ^ (0.15 : ℝ) := by
      unfold K
      generalize N ^ (0.15 : ℝ) = n at *
      generalize (ra - rw) / rw = De at *
      rw [mul_div_cancel₀ _ (by norm_num)]
      field_simp
      ring
    refine ⟨_, ht_eval h hw hr hD hN, ?_⟩
    rw [Nod_eval h hw hr hH hD (by rw [e]; positivity), e, Except.ok.injEq, fin_inj]
    generalize (ra - rw) / rw = De at *
    have : H / (De * (H / De / N ^ (0.15 : ℝ))) = N ^ (0.15 : ℝ) := by field_simp
    rw [this, pw2 hN]
  · intro ht hK
    have hK' : 0 < K D ht := hK
    refine ⟨_, by positivity, Nod_eval h hw hr hH hD hK, ?_⟩
    rw [ht_eval h hw hr hD (by positivity), pw1 (by positivity), Except.ok.injEq, fin_inj]
    generalize (ra - rw) / rw = De at *
    rw [div_eq_iff (by norm_num)]
    have e : K D ht = 1.6 * D + 0.24 * ht := rfl
    have : D * (H / (De * D * (H / (De * K D ht))) - 1.6) = K D ht - 1.6 * D := by
      field_simp
    rw [this, e]; ring

omit hw hr in
/-- the hypotheses of C27 are met -/
example : (0 : ℝ) < 1025 ∧ (1025 : ℝ) < 2650 ∧ (0 : ℝ) < 1.6 * 0.5 + 0.24 * 4 := by norm_num

end C27

/-! ## C28 Van der Meer 1998 -/
section C28
open VanDerMeer1998

namespace VdM98Proof
open GerdingProof (pw1 pw2)

@[simp] theorem check_res (a b c d e f : PF) : (check_validity a b c d e f).res = .ok () := by
  simp [check_validity]

/-- strength -/
def q (ht h : ℝ) : ℝ := 2 + 6.2 * (ht / h) ^ (2.7 : ℝ)
theorem q_pos {ht h : ℝ} (hh : 0 < h) (hht : 0 < ht) : 0 < q ht h := by unfold q; positivity

variable {ra rw : ℝ} (hw : 0 < rw) (hr : rw < ra)
include hw hr

theorem Nod_eval {H ht h D : ℝ} (hH : 0 < H) (hD : 0 < D) (hh : 0 < h) (hht : 0 < ht) :
    (calculate_damage_Nod (fin H) (fin ht) (fin h) (fin D) (fin ra) (fin rw)).res =
      .ok (fin ((H / ((ra - rw) / rw * D) / q ht h) ^ (1 / 0.15 : ℝ))) := by
  obtain ⟨De, hDe, hDD, e⟩ := Delta_eval hw hr
  rw [← hDD]
  unfold calculate_damage_Nod q
  simp only [e]
  rw [PyM.bind_res_of_ok (check_res ..)]
  pf_eval [PyM.pure_def]

theorem Dn_eval {H ht h N : ℝ} (hN : 0 < N) (hh : 0 < h) (hht : 0 < ht) :
    (calculate_nominal_diameter_Dn50 (fin H) (fin ht) (fin h) (fin N) (fin ra) (fin rw)).res =
      .ok (fin (H / (q ht h * N ^ (0.15 : ℝ) * ((ra - rw) / rw)))) := by
  obtain ⟨De, hDe, hDD, e⟩ := Delta_eval hw hr
  rw [← hDD]
  unfold calculate_nominal_diameter_Dn50 q
  simp only [e]
  rw [PyM.bind_res_of_ok (check_res ..)]
  pf_eval [PyM.pure_def]

theorem Hs_eval {D ht h N : ℝ} (hN : 0 < N) (hh : 0 < h) (hht : 0 < ht) :
    (calculate_wave_height_Hs (fin D) (fin ht) (fin h) (fin N) (fin ra) (fin rw)).res =
      .ok (fin (q ht h * ((ra - rw) / rw) * D * N ^ (0.15 : ℝ))) := by
  obtain ⟨De, hDe, hDD, e⟩ := Delta_eval hw hr
  rw [← hDD]
  unfold calculate_wave_height_Hs q
  simp only [e]
  rw [PyM.bind_res_of_ok (check_res ..)]
  pf_eval [PyM.pure_def]
  rw [Except.ok.injEq, fin_inj, Real.rpow_neg hN.le, div_inv_eq_mul]

/-- excess strength needed -/
def xs (H De D N : ℝ) : ℝ := (H * N ^ (-0.15 : ℝ) / (De * D) - 2) / 6.2

theorem ht_eval {H D h N : ℝ} (hD : 0 < D) (hN : 0 < N) (hh : 0 < h) :
    (calculate_depth_above_toe_ht (fin H) (fin D) (fin h) (fin N) (fin ra) (fin rw)).res =
      .ok (if 0 < xs H ((ra - rw) / rw) D N then
        fin (xs H ((ra - rw) / rw) D N ^ (1 / 2.7 : ℝ) * h) else nan) := by
  obtain ⟨De, hDe, hDD, e⟩ := Delta_eval hw hr
  rw [← hDD]
  unfold calculate_depth_above_toe_ht
  simp only [e]
  rw [PyM.bind_res_of_ok (check_res ..)]
  have e1 : ((fin H * npow (fin N) (-0.15)) / (fin De * fin D) - 2) / 6.2 = fin (xs H De D N) := by
    unfold xs; pf_eval []
  rw [e1]
  simp only [PyM.pure_def, zero_eq, gt_fin, gt_iff_lt, Except.ok.injEq]
  by_cases h0 : 0 < xs H De D N
  · rw [if_pos h0, if_pos h0]
    pf_eval []
  · rw [if_neg h0, if_neg h0]

end VdM98Proof
open VdM98Proof
open GerdingProof (pw1 pw2)

variable (ra rw ht h : ℝ) (hw : 0 < rw) (hr : rw < ra) (hh : 0 < h)
include hw hr hh

/-- C28: wave height and damage -/
theorem C28_height_damage_inverse (D : ℝ) (hD : 0 < D) (hht : 0 < ht) : MutuallyInverse
    (fun N => calculate_wave_height_Hs (fin D) (fin ht) (fin h) N (fin ra) (fin rw))
    (fun H => calculate_damage_Nod H (fin ht) (fin h) (fin D) (fin ra) (fin rw)) := by
  have hDe : 0 < (ra - rw) / rw := div_pos (sub_pos.mpr hr) hw
  have hq := q_pos hh hht
  refine .of_real _ _ (fun N hN => Hs_eval hw hr hN hh hht)
    (fun H hH => Nod_eval hw hr hH hD hh hht)
    (fun N hN => by positivity) (fun H hH => by positivity) (fun N hN => ?_) (fun H hH => ?_)
  · generalize (ra - rw) / rw = De at *
    have : q ht h * De * D * N ^ (0.15 : ℝ) / (De * D) / q ht h = N ^ (0.15 : ℝ) := by field_simp
    simp only [this, pw2 hN]
  · rw [pw1 (by positivity)]
    generalize (ra - rw) / rw = De at *
    field_simp

example := C28_height_damage_inverse (ra := 2650) (rw := 1025) (ht := 5) (h := 8) (D := 1) (by norm_num)
  (by norm_num) (by norm_num) (by norm_num) (by norm_num)

/-- C28: rock size and damage -/
theorem C28_size_damage_inverse (H : ℝ) (hH : 0 < H) (hht : 0 < ht) : MutuallyInverse
    (fun N => calculate_nominal_diameter_Dn50 (fin H) (fin ht) (fin h) N (fin ra) (fin rw))
    (fun D => calculate_damage_Nod (fin H) (fin ht) (fin h) D (fin ra) (fin rw)) := by
  have hDe : 0 < (ra - rw) / rw := div_pos (sub_pos.mpr hr) hw
  have hq := q_pos hh hht
  refine .of_real _ _ (fun N hN => Dn_eval hw hr hN hh hht)
    (fun D hD => Nod_eval hw hr hH hD hh hht)
    (fun N hN => by positivity) (fun D hD => by positivity) (fun N hN => ?_) (fun D hD => ?_)
  · generalize (ra - rw) / rw = De at *
    have hp : 0 < N ^ (0.15 : ℝ) := by positivity
    have : H / (De * (H / (q ht h * N ^ (0.15 : ℝ) * De))) / q ht h = N ^ (0.15 : ℝ) := by
      field_simp
    simp only [this, pw2 hN]
  · rw [pw1 (by positivity)]
    generalize (ra - rw) / rw = De at *
    field_simp

example := C28_size_damage_inverse (ra := 2650) (rw := 1025) (ht := 5) (h := 8) (H := 2) (by norm_num)
  (by norm_num) (by norm_num) (by norm_num) (by norm_num)

/-- C28: the toe depth for the damage at a toe depth is that depth -/
theorem C28_depth_of_damage (H D : ℝ) (hH : 0 < H) (hD : 0 < D) (hht : 0 < ht) : ∃ N : ℝ, 0 < N ∧
    (calculate_damage_Nod (fin H) (fin ht) (fin h) (fin D) (fin ra) (fin rw)).res = .ok (fin N) ∧
    (calculate_depth_above_toe_ht (fin H) (fin D) (fin h) (fin N) (fin ra) (fin rw)).res
      = .ok (fin ht) := by
  have hDe : 0 < (ra - rw) / rw := div_pos (sub_pos.mpr hr) hw
  have hq := q_pos hh hht
  refine ⟨_, by positivity, Nod_eval hw hr hH hD hh hht, ?_⟩
  have e : xs H ((ra - rw) / rw) D ((H / ((ra - rw) / rw * D) / q ht h) ^ (1 / 0.15 : ℝ))
      = (ht / h) ^ (2.7 : ℝ) := by
    generalize (ra - rw) / rw = De at *
    unfold xs
    rw [Real.rpow_neg (by positivity), pw1 (by positivity)]
    have : H * (H / (De * D) / q ht h)⁻¹ / (De * D) = q ht h := by field_simp
    rw [this]; unfold q
    rw [add_sub_cancel_left, mul_div_cancel_left₀ _ (by norm_num)]
  have hp : 0 < (ht / h) ^ (2.7 : ℝ) := by positivity
  rw [ht_eval hw hr hD (by positivity) hh, e, if_pos hp, ← Real.rpow_mul (by positivity)]
  norm_num
  field_simp

example := C28_depth_of_damage (ra := 2650) (rw := 1025) (ht := 5) (h := 8) (H := 2) (D := 1) (by norm_num)
  (by norm_num) (by norm_num) (by norm_num) (by norm_num) (by norm_num)

/-- C28: the toe depth solver either returns NaN — exactly when even a toe at the surface is too
strong, Ns ≤ 2 Nod^0.15 — or a depth with the requested damage -/
theorem C28_damage_of_depth (H D N : ℝ) (hH : 0 < H) (hD : 0 < D) (hN : 0 < N) :
    (H / ((ra - rw) / rw * D) ≤ 2 * N ^ (0.15 : ℝ) ∧
      (calculate_depth_above_toe_ht (fin H) (fin D) (fin h) (fin N) (fin ra) (fin rw)).res
        = .ok nan) ∨
    (2 * N ^ (0.15 : ℝ) < H / ((ra - rw) / rw * D) ∧ ∃ ht : ℝ, 0 < ht ∧
      (calculate_depth_above_toe_ht (fin H) (fin D) (fin h) (fin N) (fin ra) (fin rw)).res
        = .ok (fin ht) ∧
      (calculate_damage_Nod (fin H) (fin ht) (fin h) (fin D) (fin ra) (fin rw)).res
        = .ok (fin N)) := by
  have hDe : 0 < (ra - rw) / rw := div_pos (sub_pos.mpr hr) hw
  have hp : 0 < N ^ (0.15 : ℝ) := by positivity
  have e : xs H ((ra - rw) / rw) D N = (H / ((ra - rw) / rw * D) / N ^ (0.15 : ℝ) - 2) / 6.2 := by
    unfold xs; rw [Real.rpow_neg hN.le]; ring
  have iff : 0 < xs H ((ra - rw) / rw) D N ↔ 2 * N ^ (0.15 : ℝ) < H / ((ra - rw) / rw * D) := by
    rw [e, ← lt_div_iff₀ hp]
    constructor
    · intro h0
      have := (div_pos_iff_of_pos_right (by norm_num : (0 : ℝ) < 6.2)).mp h0
      linarith
    · intro h0; exact div_pos (by linarith) (by norm_num)
  rw [ht_eval hw hr hD hN hh]
  by_cases h0 : 2 * N ^ (0.15 : ℝ) < H / ((ra - rw) / rw * D)
  · right
    have hx := iff.mpr h0
    refine ⟨h0, _, ?_, by rw [if_pos hx], ?_⟩
    · positivity
    · rw [Nod_eval hw hr hH hD hh (by positivity), Except.ok.injEq, fin_inj]
      have eq : q (xs H ((ra - rw) / rw) D N ^ (1 / 2.7 : ℝ) * h) h =
          H / ((ra - rw) / rw * D) / N ^ (0.15 : ℝ) := by
        unfold q
        rw [mul_div_assoc, div_self hh.ne', mul_one, ← Real.rpow_mul hx.le]
        have : (1 / 2.7 * 2.7 : ℝ) = 1 := by norm_num
        rw [this, Real.rpow_one, e, mul_div_cancel₀ _ (by norm_num)]; ring
      rw [eq, div_div_cancel₀ (by positivity), pw2 hN]
  · left
    exact ⟨not_lt.mp h0, by rw [if_neg (mt iff.mp h0)]⟩

omit hw hr hh in
/-- the hypotheses of C28 are met -/
example : (0 : ℝ) < 1025 ∧ (1025 : ℝ) < 2650 ∧ (0 : ℝ) < 8 ∧ (0 : ℝ) < 5 := by norm_num

end C28

/-! ## C29 Van Gent & Van der Werf 2014 -/
section C29
open VanGentVanDerWerf2014

namespace VGWProof

@[simp] theorem check_res (a b c d : PF) : (check_validity a b c d).res = .ok () := by
  simp [check_validity]

/-- relative velocity -/
def U (H T ht g : ℝ) : ℝ :=
  Real.pi * H / T * (1 / Real.sinh (2 * Real.pi / (g / (2 * Real.pi) * T ^ 2) * ht))
    / Real.sqrt (g * H)

variable {H T ht g : ℝ} (hH : 0 < H) (hT : 0 < T) (hht : 0 < ht) (hg : 0 < g)
include hH hT hht hg

theorem U_pos : 0 < U H T ht g := by
  have hp := Real.pi_pos
  have : 0 < Real.sinh (2 * Real.pi / (g / (2 * Real.pi) * T ^ 2) * ht) :=
    Real.sinh_pos_iff.mpr (by positivity)
  unfold U; positivity

theorem U_eval : calculate_velocity_u_delta (fin H) (fin T) (fin ht) (fin g)
    / PF.sqrt (fin g * fin H) = fin (U H T ht g) := by
  have hp := Real.pi_pos
  have : 0 < Real.sinh (2 * Real.pi / (g / (2 * Real.pi) * T ^ 2) * ht) :=
    Real.sinh_pos_iff.mpr (by positivity)
  have h2 : 0 < g * H := by positivity
  unfold calculate_velocity_u_delta U
  pf_eval []

variable {ra rw : ℝ} (hw : 0 < rw) (hr : rw < ra)
include hw hr

theorem Nod_eval (cot : PF) {Bt tt D c1 : ℝ} (hB : 0 < Bt) (ht' : 0 < tt) (hD : 0 < D) :
    (calculate_damage_Nod (fin H) (fin T) (fin ht) (fin Bt) (fin tt) (fin D) (fin ra) (fin rw) cot
      (g := fin g) (c1 := fin c1)).res =
      .ok (fin (c1 * (Bt / H) ^ (0.3 : ℝ) * (tt / H) ^ (1.0 : ℝ)
        * (H / ((ra - rw) / rw * D)) ^ (3.0 : ℝ) * U H T ht g ^ (1.0 : ℝ))) := by
  obtain ⟨De, hDe, hDD, e⟩ := Delta_eval hw hr
  have hU := U_pos hH hT hht hg
  rw [← hDD]
  unfold calculate_damage_Nod
  simp only [e, U_eval hH hT hht hg]
  rw [PyM.bind_res_of_ok (check_res ..)]
  pf_eval [PyM.pure_def]

theorem Dn_eval (cot : PF) {Bt tt N : ℝ} (hB : 0 < Bt) (ht' : 0 < tt) (hN : 0 < N) :
    (calculate_nominal_diameter_Dn50 (fin H) (fin T) (fin ht) (fin Bt) (fin tt) (fin N) (fin ra)
      (fin rw) cot (g := fin g)).res =
      .ok (fin (0.32 * (H / ((ra - rw) / rw * N ^ (1 / 3 : ℝ))) * (Bt / H) ^ (0.1 : ℝ)
        * (tt / H) ^ (1 / 3 : ℝ) * U H T ht g ^ (1 / 3 : ℝ))) := by
  obtain ⟨De, hDe, hDD, e⟩ := Delta_eval hw hr
  have hU := U_pos hH hT hht hg
  rw [← hDD]
  unfold calculate_nominal_diameter_Dn50
  simp only [e, U_eval hH hT hht hg]
  rw [PyM.bind_res_of_ok (check_res ..)]
  pf_eval [PyM.pure_def]

omit hH hT hht hg hw hr
theorem pow03 {x : ℝ} (h : 0 < x) : x ^ (0.3 : ℝ) = (x ^ (0.1 : ℝ)) ^ 3 := by
  rw [← Real.rpow_natCast, ← Real.rpow_mul h.le]; norm_num
theorem pow10 (x : ℝ) : x ^ (1.0 : ℝ) = x := by norm_num
theorem pow30 (x : ℝ) : x ^ (3.0 : ℝ) = x ^ 3 := by
  rw [← Real.rpow_natCast]; norm_num

end VGWProof
open VGWProof

variable (H T ht g Bt tt ra rw : ℝ) (cot : PF) (hH : 0 < H) (hT : 0 < T) (hht : 0 < ht) (hg : 0 < g)
  (hB : 0 < Bt) (htt : 0 < tt) (hw : 0 < rw) (hr : rw < ra)
include hH hT hht hg hB htt hw hr

/-- C29: what holds: damage and size are exactly inverse when the damage coefficient is 0.32³ -/
theorem C29_consistent_coefficient_partial : MutuallyInverse
    (fun N => calculate_nominal_diameter_Dn50 (fin H) (fin T) (fin ht) (fin Bt) (fin tt) N (fin ra)
      (fin rw) cot (g := fin g))
    (fun D => calculate_damage_Nod (fin H) (fin T) (fin ht) (fin Bt) (fin tt) D (fin ra) (fin rw)
      cot (g := fin g) (c1 := fin (0.32 ^ 3))) := by
  have hDe : 0 < (ra - rw) / rw := div_pos (sub_pos.mpr hr) hw
  have hU := U_pos hH hT hht hg
  refine .of_real _ _ (fun N hN => Dn_eval hH hT hht hg hw hr cot hB htt hN)
    (fun D hD => Nod_eval hH hT hht hg hw hr cot hB htt hD) (fun N hN => by positivity)
    (fun D hD => by positivity) (fun N hN => ?_) (fun D hD => ?_)
  · rw [pow03 (by positivity), pow10, pow10, pow30]
    generalize (ra - rw) / rw = De at *
    generalize U H T ht g = u at *
    have hn : 0 < N ^ (1 / 3 : ℝ) := by positivity
    have e1 := rpow_third_cube (x := N) hN.le
    have e2 := rpow_third_cube (x := tt / H) (by positivity)
    have e3 := rpow_third_cube (x := u) hU.le
    have p1 : 0 < (tt / H) ^ (1 / 3 : ℝ) := by positivity
    have p2 : 0 < u ^ (1 / 3 : ℝ) := by positivity
    have p3 : 0 < (Bt / H) ^ (0.1 : ℝ) := by positivity
    have p4 : (0 : ℝ) < 0.32 := by norm_num
    nth_rewrite 1 [← e2]
    nth_rewrite 2 [← e3]
    generalize N ^ (1 / 3 : ℝ) = n at *
    generalize (tt / H) ^ (1 / 3 : ℝ) = b at *
    generalize u ^ (1 / 3 : ℝ) = v at *
    generalize (Bt / H) ^ (0.1 : ℝ) = a at *
    generalize (0.32 : ℝ) = k at *
    rw [← e1]
    field_simp
  · rw [pow03 (by positivity), pow10, pow10, pow30]
    generalize (ra - rw) / rw = De at *
    generalize U H T ht g = u at *
    have e1 : (0.32 ^ 3 * ((Bt / H) ^ (0.1 : ℝ)) ^ 3 * (tt / H) * (H / (De * D)) ^ 3 * u) ^ (1 / 3 : ℝ)
        = 0.32 * (Bt / H) ^ (0.1 : ℝ) * (H / (De * D)) * (tt / H) ^ (1 / 3 : ℝ) * u ^ (1 / 3 : ℝ) := by
      have : 0.32 ^ 3 * ((Bt / H) ^ (0.1 : ℝ)) ^ 3 * (tt / H) * (H / (De * D)) ^ 3 * u
        = (0.32 * (Bt / H) ^ (0.1 : ℝ) * (H / (De * D))) ^ 3 * (tt / H) * u := by
          generalize (0.32 : ℝ) = k; ring
      rw [this, Real.mul_rpow (by positivity) hU.le, Real.mul_rpow (by positivity) (by positivity),
        cube_rpow_third (by positivity)]
    rw [e1]
    have p1 : 0 < (tt / H) ^ (1 / 3 : ℝ) := by positivity
    have p2 : 0 < u ^ (1 / 3 : ℝ) := by positivity
    have p3 : 0 < (Bt / H) ^ (0.1 : ℝ) := by positivity
    have p4 : (0 : ℝ) < 0.32 := by norm_num
    generalize (tt / H) ^ (1 / 3 : ℝ) = b at *
    generalize u ^ (1 / 3 : ℝ) = v at *
    generalize (Bt / H) ^ (0.1 : ℝ) = a at *
    generalize (0.32 : ℝ) = k at *
    field_simp

example := C29_consistent_coefficient_partial (H := 2) (T := 8) (ht := 5) (g := 9.81) (Bt := 6) (tt := 1)
  (ra := 2650) (rw := 1025) (cot := .fin 1.5) (by norm_num) (by norm_num) (by norm_num) (by norm_num)
  (by norm_num) (by norm_num) (by norm_num) (by norm_num)

/-- C29: with any damage coefficient c1 the round trip through the size (which ignores c1) scales
the damage by c1/0.32³ -/
theorem C29_roundtrip_scales_partial (c1 N : ℝ) (hN : 0 < N) : ∃ D : ℝ, 0 < D ∧
    (calculate_nominal_diameter_Dn50 (fin H) (fin T) (fin ht) (fin Bt) (fin tt) (fin N) (fin ra)
      (fin rw) cot (g := fin g)).res = .ok (fin D) ∧
    (calculate_damage_Nod (fin H) (fin T) (fin ht) (fin Bt) (fin tt) (fin D) (fin ra) (fin rw)
      cot (g := fin g) (c1 := fin c1)).res = .ok (fin (c1 / 0.32 ^ 3 * N)) := by
  obtain ⟨D, hD, e1, e2⟩ := (C29_consistent_coefficient_partial H T ht g Bt tt ra rw cot hH hT hht
    hg hB htt hw hr).1 N hN
  refine ⟨D, hD, e1, ?_⟩
  simp only [] at e2
  rw [Nod_eval hH hT hht hg hw hr cot hB htt hD, Except.ok.injEq, fin_inj] at e2 ⊢
  have : (0.32 : ℝ) ≠ 0 := by norm_num
  rw [← e2]
  generalize (0.32 : ℝ) = k at *
  field_simp

example := C29_roundtrip_scales_partial (H := 2) (T := 8) (ht := 5) (g := 9.81) (Bt := 6) (tt := 1)
  (ra := 2650) (rw := 1025) (cot := .fin 1.5) (c1 := 1.5) (N := 0.5) (by norm_num) (by norm_num)
  (by norm_num) (by norm_num) (by norm_num) (by norm_num) (by norm_num) (by norm_num) (by norm_num)

/-- C29 refuted: with the default coefficients the damage of the size designed for Nod is
0.9765625 Nod, never Nod -/
theorem C29_inverse_refuted (N : ℝ) (hN : 0 < N) : ∃ D N' : ℝ,
    (calculate_nominal_diameter_Dn50 (fin H) (fin T) (fin ht) (fin Bt) (fin tt) (fin N) (fin ra)
      (fin rw) cot (g := fin g)).res = .ok (fin D) ∧
    (calculate_damage_Nod (fin H) (fin T) (fin ht) (fin Bt) (fin tt) (fin D) (fin ra) (fin rw)
      cot (g := fin g)).res = .ok (fin N') ∧ N' = 0.9765625 * N ∧ N' ≠ N := by
  obtain ⟨D, hD, e1, e2⟩ := C29_roundtrip_scales_partial H T ht g Bt tt ra rw cot hH hT hht
    hg hB htt hw hr 0.032 N hN
  refine ⟨D, _, e1, e2, ?_, ?_⟩
  · norm_num
  · intro h
    have : (0.032 / 0.32 ^ 3 : ℝ) = 0.9765625 := by norm_num
    rw [this] at h
    norm_num at h
    linarith

omit hH hT hht hg hB htt hw hr in
example : (0 : ℝ) < 1025 ∧ (1025 : ℝ) < 2650 ∧ (0 : ℝ) < 9.81 := by norm_num

end C29

end
