import Verif.Lemmas.VdM
import Verif.Model.Toe
import Verif.Spec
import Mathlib.Analysis.SpecialFunctions.Trigonometric.DerivHyp

/-! # Properties C32, C61, C62: caisson toes, Takahashi 1990 -/

open Classical
open PF
open CorePhysics hiding calculate_stability_number_Ns
open Takahashi1990
noncomputable section

namespace TakahashiProof

@[simp] theorem check_res (a b : PF) : (check_validity a b).res = .ok () := by
  simp [check_validity]

theorem Ns_res (disper) (H T h B b g : PF) :
    (calculate_stability_number_Ns disper H T h B b g).res = .ok (ns_value disper H T h B b g) := by
  unfold calculate_stability_number_Ns
  rw [PyM.bind_res_of_ok (check_res ..)]; rfl

/-- a maximum with a number is NaN or at least that number -/
theorem max_cases (a : ℝ) (x : PF) :
    PF.max (fin a) x = nan ∨ PF.max (fin a) x = pinf ∨ ∃ v, a ≤ v ∧ PF.max (fin a) x = fin v := by
  cases x with
  | nan => left; simp [PF.max]
  | ninf => right; right; exact ⟨a, le_rfl, by simp [PF.max, show ninf ≤ fin a from trivial]⟩
  | pinf => right; left; simp [PF.max, show ¬ (pinf ≤ fin a) from id]
  | fin y => right; right; exact ⟨a ⊔ y, le_sup_left, max_fin a y⟩

theorem ns_cases (disper) (H T h B b g : PF) :
    ns_value disper H T h B b g = nan ∨ ns_value disper H T h B b g = pinf ∨
      ∃ v : ℝ, 1.8 ≤ v ∧ ns_value disper H T h B b g = fin v := by
  unfold ns_value
  exact max_cases 1.8 _

end TakahashiProof
open TakahashiProof

/-- C32: the stability number is NaN (undefined) or at least 1.8, and computing it never fails -/
theorem C32_floor (disper : PF → PF → PF → PF) (Hs Tp hacc Bt beta g : PF) : ∃ v : PF,
    (calculate_stability_number_Ns disper Hs Tp hacc Bt beta g).res = .ok v ∧
    (¬ v.isnan → (1.8 : PF) ≤ v) := by
  refine ⟨_, Ns_res .., fun h => ?_⟩
  rcases ns_cases disper Hs Tp hacc Bt beta g with h1 | h1 | ⟨v, hv, h1⟩ <;> rw [h1] at h ⊢
  · exact absurd trivial h
  · exact trivial
  · exact hv

/-- C32: the designed size is NaN or between 0 and Hs/(1.8 Delta) -/
theorem C32_size_bound (disper : PF → PF → PF → PF) (Tp hacc Bt beta g : PF) (H ra rw : ℝ)
    (hH : 0 < H) (hw : 0 < rw) (hr : rw < ra) : ∃ v : PF,
    (calculate_nominal_diameter_Dn50 disper (fin H) Tp hacc Bt (fin ra) (fin rw) beta g).res
      = .ok v ∧
    (v = nan ∨ ∃ D : ℝ, v = fin D ∧ 0 ≤ D ∧ D ≤ H / (1.8 * ((ra - rw) / rw))) := by
  obtain ⟨De, hDe, hDD, e⟩ := Delta_eval hw hr
  have hup : 0 < H / (1.8 * De) := div_pos hH (mul_pos (by norm_num) hDe)
  rw [← hDD]
  unfold calculate_nominal_diameter_Dn50
  rw [PyM.bind_res_of_ok (Ns_res ..), e]
  simp only [stab_Dn, PyM.bind_ok, PyM.pure_def]
  refine ⟨_, rfl, ?_⟩
  rcases ns_cases disper (fin H) Tp hacc Bt beta g with h1 | h1 | ⟨v, hv, h1⟩ <;> rw [h1]
  · left; simp [div_nan, nan_div]
  · right
    refine ⟨0, ?_, le_rfl, hup.le⟩
    have : fin H / pinf = fin 0 := rfl
    rw [this, div_fin hDe.ne', zero_div]
  · right
    have hv0 : (0 : ℝ) < 1.8 := by norm_num
    have hvp : 0 < v := hv0.trans_le hv
    rw [div_fin hvp.ne', div_fin hDe.ne']
    refine ⟨_, rfl, by positivity, ?_⟩
    rw [div_div]
    exact div_le_div_of_nonneg_left hH.le (mul_pos hv0 hDe) (by gcongr)

example := C32_size_bound (disper := fun _ _ _ => .fin 0.1) (Tp := .fin 9) (hacc := .fin 6) (Bt := .fin 6)
  (beta := .fin 20) (g := .fin 9.81) (H := 2) (ra := 2650) (rw := 1025) (by norm_num) (by norm_num)
  (by norm_num)

/-! ## C61: the wave height solver -/

namespace TakahashiProof

theorem entry_res (disper) (D T h B De b g x : PF) :
    (table_entry disper D T h B De b g x).res = .ok (D * De * ns_value disper x T h B b g) := by
  unfold table_entry
  rw [PyM.bind_res_of_ok (Ns_res ..)]
  simp only [stab_Hs]
  rfl

theorem table_res (disper) (D T h B De b g : PF) (xs : List PF) :
    (table_out disper D T h B De b g xs).res =
      .ok (xs.map fun x => D * De * ns_value disper x T h B b g) := by
  induction xs with
  | nil => rfl
  | cons x xs ih =>
    unfold table_out
    rw [PyM.bind_res_of_ok (entry_res ..), PyM.bind_res_of_ok ih]
    rfl

theorem pyGet_inv {l : List PF} {i : ℕ} {x : PF} (h : (PF.pyGet l i).res = .ok x) :
    l[i]? = some x := by
  unfold PF.pyGet at h
  rw [if_pos (by omega)] at h
  simp only [Int.toNat_natCast] at h
  cases hl : l[i]? with
  | none => rw [hl] at h; cases h
  | some y => rw [hl] at h; cases h; rfl

end TakahashiProof

/-- C61: a wave height returned without the precision warning is the stable height Ns(H) Delta Dn50 for
a wave height H less than 1 mm away -/
theorem C61_result_is_close (disper : PF → PF → PF → PF) (Dn50 Tp hacc Bt rho_rock rho_water beta g Hs : PF)
    (hres : (calculate_significant_wave_height_Hs disper Dn50 Tp hacc Bt rho_rock rho_water beta g).res
      = .ok Hs)
    (hwarn : Warn.text "Hs precision is not better than" ∉
      (calculate_significant_wave_height_Hs disper Dn50 Tp hacc Bt rho_rock rho_water beta g).warns) :
    ∃ H Ns : PF, (calculate_stability_number_Ns disper H Tp hacc Bt beta g).res = .ok Ns ∧
      Hs = Dn50 * calculate_buoyant_density_Delta rho_rock rho_water * Ns ∧
      PF.abs (H - Hs) < 0.001 := by
  unfold calculate_significant_wave_height_Hs at hres hwarn
  obtain ⟨_, -, hres, w⟩ := PyM.bind_inv hres; rw [w, List.mem_append, not_or] at hwarn; replace hwarn := hwarn.2; clear w
  obtain ⟨_, -, hres, w⟩ := PyM.bind_inv hres; rw [w, List.mem_append, not_or] at hwarn; replace hwarn := hwarn.2; clear w
  obtain ⟨_, -, hres, w⟩ := PyM.bind_inv hres; rw [w, List.mem_append, not_or] at hwarn; replace hwarn := hwarn.2; clear w
  obtain ⟨_, -, hres, w⟩ := PyM.bind_inv hres; rw [w, List.mem_append, not_or] at hwarn; replace hwarn := hwarn.2; clear w
  obtain ⟨_, -, hres, w⟩ := PyM.bind_inv hres; rw [w, List.mem_append, not_or] at hwarn; replace hwarn := hwarn.2; clear w
  obtain ⟨_, -, hres, w⟩ := PyM.bind_inv hres; rw [w, List.mem_append, not_or] at hwarn; replace hwarn := hwarn.2; clear w
  obtain ⟨_, -, hres, w⟩ := PyM.bind_inv hres; rw [w, List.mem_append, not_or] at hwarn; replace hwarn := hwarn.2; clear w
  obtain ⟨_, -, hres, w⟩ := PyM.bind_inv hres; rw [w, List.mem_append, not_or] at hwarn; replace hwarn := hwarn.2; clear w
  obtain ⟨_, -, hres, w⟩ := PyM.bind_inv hres; rw [w, List.mem_append, not_or] at hwarn; replace hwarn := hwarn.2; clear w
  obtain ⟨_, -, hres, w⟩ := PyM.bind_inv hres; rw [w, List.mem_append, not_or] at hwarn; replace hwarn := hwarn.2; clear w
  obtain ⟨tin, -, hres, w⟩ := PyM.bind_inv hres; rw [w, List.mem_append, not_or] at hwarn; replace hwarn := hwarn.2; clear w
  obtain ⟨tout, htab, hres, w⟩ := PyM.bind_inv hres; rw [w, List.mem_append, not_or] at hwarn; replace hwarn := hwarn.2; clear w
  obtain ⟨i, -, hres, w⟩ := PyM.bind_inv hres; rw [w, List.mem_append, not_or] at hwarn; replace hwarn := hwarn.2; clear w
  obtain ⟨a, ha, hres, w⟩ := PyM.bind_inv hres; rw [w, List.mem_append, not_or] at hwarn; replace hwarn := hwarn.2; clear w
  obtain ⟨b, hb, hres, w⟩ := PyM.bind_inv hres; rw [w, List.mem_append, not_or] at hwarn; replace hwarn := hwarn.2; clear w
  rw [table_res, Except.ok.injEq] at htab
  have ha' := pyGet_inv ha
  have hb' := pyGet_inv hb
  simp only [] at hres hwarn
  by_cases hlt : PF.abs (a - b) < 0.001
  · rw [if_neg (not_not.mpr hlt)] at hres
    rw [hb, Except.ok.injEq] at hres
    subst hres
    rw [← htab, List.getElem?_map, ha', Option.map_some, Option.some.injEq] at hb'
    exact ⟨a, _, Ns_res .., hb'.symm, hlt⟩
  · rw [if_pos hlt] at hwarn
    exact absurd (List.mem_append_left _ (List.mem_singleton.mpr rfl)) hwarn

/-- C61: where the 1.8 floor governs at the starting height 1.8 Delta Dn50, the solver fails with a
ValueError instead of returning that height -/
theorem C61_fails_at_floor (disper : PF → PF → PF → PF) (Tp hacc Bt beta g : PF) (D ra rw : ℝ)
    (hD : 0 < D) (hw : 0 < rw) (hr : rw < ra)
    (hfloor : (calculate_stability_number_Ns disper (fin (D * ((ra - rw) / rw) * 1.8)) Tp hacc Bt beta
      g).res = .ok 1.8) :
    (calculate_significant_wave_height_Hs disper (fin D) Tp hacc Bt (fin ra) (fin rw) beta g).res
      = .error .valueError := by
  obtain ⟨De, hDe, hDD, e⟩ := Delta_eval hw hr
  rw [← hDD] at hfloor
  have hs : 0 < D * De * 1.8 := mul_pos (mul_pos hD hDe) (by norm_num)
  have e1 : fin D * fin De * 1.8 = fin (D * De * 1.8) := by pf_eval []
  unfold calculate_significant_wave_height_Hs
  simp only [e, stab_Hs, PyM.bind_ok, PyM.pure_def, e1]
  rw [PyM.bind_res_of_ok hfloor]
  have e2 : fin (D * De * 1.8) / 20 = fin (D * De * 1.8 / 20) := by pf_eval []
  simp only [e1, min_fin, max_fin, inf_idem, sup_idem, e2]
  have e3 : PF.arange (fin (D * De * 1.8)) (fin (D * De * 1.8)) (fin (D * De * 1.8 / 20))
      = ⟨[], .ok []⟩ := by
    unfold PF.arange
    have : D * De * 1.8 / 20 ≠ 0 := (div_pos hs (by norm_num)).ne'
    simp [this, PyM.pure_def]
  rw [e3]
  rfl

namespace TakahashiProof

def kap (k h B : ℝ) : ℝ := 2 * k * h / Real.sinh (2 * k * h) * Real.sin (k * B) ^ 2

theorem kap_bounds {k h B : ℝ} (hk : 0 < k) (hh : 0 < h) (hs : 0 < Real.sin (k * B) ^ 2) :
    0 < kap k h B ∧ kap k h B ≤ Real.sin (k * B) ^ 2 := by
  have h1 : 0 < 2 * k * h := by positivity
  have h2 : 0 < Real.sinh (2 * k * h) := Real.sinh_pos_iff.mpr h1
  have h3 : 2 * k * h ≤ Real.sinh (2 * k * h) := Real.self_le_sinh_iff.mpr h1.le
  unfold kap
  refine ⟨by positivity, ?_⟩
  have : 2 * k * h / Real.sinh (2 * k * h) ≤ 1 := (div_le_one h2).mpr h3
  nlinarith

/-- the stability number for normally incident waves -/
theorem ns_eval {disper : PF → PF → PF → PF} {k h B H : ℝ} (T g : PF)
    (hdis : disper (2 * PF.pi / T) (fin h) g = fin k) (hk : 0 < k) (hh : 0 < h) (hH : 0 < H)
    (hs : 0 < Real.sin (k * B) ^ 2) :
    ns_value disper (fin H) T (fin h) (fin B) (fin 0) g =
      fin (1.8 ⊔ (1.3 * ((1 - kap k h B) / kap k h B ^ (1 / 3 : ℝ)) * h / H
        + 1.8 * Real.exp (-1.5 * ((1 - kap k h B) ^ 2 / kap k h B ^ (1 / 3 : ℝ)) * (h / H)))) := by
  have hpi := Real.pi_pos
  have hkp := (kap_bounds (B := B) hk hh hs).1
  have h1 : 0 < 2 * k * h := by positivity
  have h2 : 0 < Real.sinh (2 * k * h) := Real.sinh_pos_iff.mpr h1
  have hL : 2 * PF.pi / calculate_local_wavelength disper T (fin h) g = fin k := by
    unfold calculate_local_wavelength
    simp only [hdis]
    pf_eval []
    field_simp
  have hb : PF.deg2rad (fin 0) = fin 0 := by rw [deg2rad_fin, zero_mul]
  have hkap : 2 * fin k * fin h / PF.sinh (2 * fin k * fin h) *
      PF.max (0.45 * npow (PF.sin (fin 0)) 2 * npow (PF.cos (fin k * fin B * PF.cos (fin 0))) 2)
        (npow (PF.cos (fin 0)) 2 * npow (PF.sin (fin k * fin B * PF.cos (fin 0))) 2)
      = fin (kap k h B) := by
    unfold kap
    pf_eval [max_fin]
    rw [Real.sin_zero, Real.cos_zero]
    simp
    left
    exact sq_nonneg _
  unfold ns_value
  simp only [hL, hb, hkap]
  generalize kap k h B = K at *
  have hK3 : 0 < K ^ (1 / 3 : ℝ) := by positivity
  pf_eval [max_fin]

end TakahashiProof

/-- C61 refuted: for normally incident waves over a toe with 0 < sin²(k Bt) ≤ 1/4 the solver fails
for all rock above some size -/
theorem C61_always_returns_refuted (disper : PF → PF → PF → PF) (Tp g : PF) (k h B ra rw : ℝ)
    (hdis : disper (2 * PF.pi / Tp) (fin h) g = fin k) (hk : 0 < k) (hh : 0 < h)
    (hs : 0 < Real.sin (k * B) ^ 2) (hs2 : Real.sin (k * B) ^ 2 ≤ 1 / 4)
    (hw : 0 < rw) (hr : rw < ra) :
    ∃ R : ℝ, ∀ D : ℝ, 0 < D → R ≤ D →
      (calculate_significant_wave_height_Hs disper (fin D) Tp (fin h) (fin B) (fin ra) (fin rw) (fin 0)
        g).res = .error .valueError := by
  have hDe : 0 < (ra - rw) / rw := div_pos (sub_pos.mpr hr) hw
  have hkb := kap_bounds (B := B) hk hh hs
  set K := kap k h B with hKd
  set c := K ^ (1 / 3 : ℝ) with hc
  have hcp : 0 < c := Real.rpow_pos_of_pos hkb.1 _
  refine ⟨3 * h / (1.8 * c * ((ra - rw) / rw)), fun D hD hRD => ?_⟩
  apply C61_fails_at_floor disper Tp (fin h) (fin B) (fin 0) g D ra rw hD hw hr
  have h18 : (0 : ℝ) < 1.8 := by norm_num
  have hH : 0 < D * ((ra - rw) / rw) * 1.8 := by positivity
  rw [Ns_res, ns_eval Tp g hdis hk hh hH hs, ← hKd, ← hc]
  rw [div_le_iff₀ (by positivity)] at hRD
  generalize hHd : D * ((ra - rw) / rw) * 1.8 = H at *
  have hRH : 3 * h ≤ c * H := by
    have : D * (1.8 * c * ((ra - rw) / rw)) = c * H := by rw [← hHd]; ring
    linarith
  rw [sci_eq, Except.ok.injEq, fin_inj]
  apply sup_eq_left.mpr
  have hr0 : 0 < h / H := by positivity
  have hK1 : K ≤ 1 / 4 := hkb.2.trans hs2
  set r := h / H with hrd
  have hrc : 3 * r ≤ c := by rw [hrd]; rw [← mul_div_assoc, div_le_iff₀ hH]; exact hRH
  set y := 1.5 * ((1 - K) ^ 2 / c) * r with hy
  have hy0 : 0 ≤ y := by rw [hy]; have : (0:ℝ) ≤ 1.5 := by norm_num
                         positivity
  have hy1 : y ≤ 1 / 2 := by
    have : (1 - K) ^ 2 ≤ 1 := by nlinarith [hkb.1]
    have h1 : (1 - K) ^ 2 / c ≤ 1 / c := by gcongr
    have h2 : (1 - K) ^ 2 / c * r ≤ 1 / c * r := by gcongr
    have h3 : 1 / c * r ≤ 1 / 3 := by rw [one_div, inv_mul_le_iff₀ hcp]; linarith
    rw [hy]; norm_num; linarith
  have hexp : Real.exp (-1.5 * ((1 - K) ^ 2 / c) * r) ≤ 1 / (1 + y) := by
    have e1 : -1.5 * ((1 - K) ^ 2 / c) * r = -y := by rw [hy]; ring
    rw [e1, Real.exp_neg, one_div]
    apply inv_anti₀ (by positivity)
    linarith [Real.add_one_le_exp y]
  have e2 : 1.3 * ((1 - K) / c) * h / H = 1.3 * ((1 - K) / c * r) := by rw [hrd]; ring
  have e3 : y = 3 / 2 * ((1 - K) * ((1 - K) / c * r)) := by rw [hy]; norm_num; ring
  rw [e2]
  set u := (1 - K) / c * r with hu
  have hu0 : 0 ≤ u := by rw [hu]; have : 0 ≤ 1 - K := by linarith
                         positivity
  have hyu : 9 / 8 * u ≤ y := by rw [e3]; nlinarith
  have h4 : 1.3 * u + 1.8 * (1 / (1 + y)) ≤ 1.8 := by
    have : 1.8 - 1.8 * (1 / (1 + y)) = 1.8 * (y / (1 + y)) := by
      have : 0 < 1 + y := by linarith
      field_simp; ring
    have h5 : 2 / 3 * y ≤ y / (1 + y) := by
      rw [le_div_iff₀ (by linarith)]; nlinarith
    have h6 : 1.3 * u ≤ 1.8 * (2 / 3 * y) := by norm_num; linarith
    have h7 : 1.8 * (2 / 3 * y) ≤ 1.8 * (y / (1 + y)) := by gcongr
    linarith
  have h8 : 1.8 * Real.exp (-1.5 * ((1 - K) ^ 2 / c) * r) ≤ 1.8 * (1 / (1 + y)) := by gcongr
  linarith

/-- the hypotheses of C61 are met: k = 1 rad/m, Bt = pi/6 m -/
example : 0 < Real.sin (1 * (Real.pi / 6)) ^ 2 ∧ Real.sin (1 * (Real.pi / 6)) ^ 2 ≤ 1 / 4 := by
  rw [one_mul, Real.sin_pi_div_six]; norm_num

/-! ## C62: the depth solver -/

namespace TakahashiProof

theorem search_inv {disper : PF → PF → PF → PF} {Hs Tp Bt beta g Ns dht h0 : PF} {s : DepthState}
    (h : depth_search disper Hs Tp Bt beta g Ns dht h0 = some s) :
    ∃ h' : PF, s.hacc_in = h' + dht ∧
      ¬ (Ns < ns_value disper Hs Tp h' Bt beta g ↔ Ns < ns_value disper Hs Tp s.hacc_in Bt beta g) := by
  unfold depth_search at h
  obtain ⟨k, hs, hn, hall⟩ := whileUnb_some.mp h
  have inv : ∀ j, ((depth_step disper Hs Tp Bt beta g dht)^[j]
      { hacc_in := h0, Ns_out := ns_value disper Hs Tp h0 Bt beta g,
        warns := (calculate_stability_number_Ns disper Hs Tp h0 Bt beta g).warns }).Ns_out =
      ns_value disper Hs Tp ((depth_step disper Hs Tp Bt beta g dht)^[j]
      { hacc_in := h0, Ns_out := ns_value disper Hs Tp h0 Bt beta g,
        warns := (calculate_stability_number_Ns disper Hs Tp h0 Bt beta g).warns }).hacc_in Bt beta g := by
    intro j
    cases j with
    | zero => rfl
    | succ j => rw [Function.iterate_succ_apply']; rfl
  cases k with
  | zero => rw [hs] at hn; exact absurd Iff.rfl hn
  | succ k =>
    have h1 := hall k (by omega)
    rw [inv k] at h1
    have h2 := inv (k + 1)
    rw [← hs] at h2
    rw [h2] at hn
    refine ⟨((depth_step disper Hs Tp Bt beta g dht)^[k]
      { hacc_in := h0, Ns_out := ns_value disper Hs Tp h0 Bt beta g,
        warns := (calculate_stability_number_Ns disper Hs Tp h0 Bt beta g).warns }).hacc_in, ?_, ?_⟩
    · rw [hs, Function.iterate_succ_apply']; rfl
    · rw [← h1]; exact hn

end TakahashiProof

/-- C62: a returned depth is one step (1 mm, or Hs/20 when that is smaller) beyond a depth where the
comparison of Hs/(Delta Dn50) with the stability number comes out differently -/
theorem C62_brackets (disper : PF → PF → PF → PF) (Dn50 Tp Hs Bt rho_rock rho_water beta g : PF)
    (r : PyM PF) (hacc : PF)
    (h : calculate_significant_depth_above_toe_hacc disper Dn50 Tp Hs Bt rho_rock rho_water beta g
      = some r) (hr : r.res = .ok hacc) :
    ∃ h' Ns Ns' : PF, (hacc = h' + (if Hs / 20 > 0.001 then 0.001 else Hs / 20)) ∧
      (calculate_stability_number_Ns disper Hs Tp hacc Bt beta g).res = .ok Ns ∧
      (calculate_stability_number_Ns disper Hs Tp h' Bt beta g).res = .ok Ns' ∧
      ¬ (Hs / (calculate_buoyant_density_Delta rho_rock rho_water * Dn50) < Ns' ↔
        Hs / (calculate_buoyant_density_Delta rho_rock rho_water * Dn50) < Ns) := by
  unfold calculate_significant_depth_above_toe_hacc at h
  simp only [] at h
  split at h
  · cases h
  · next s hs =>
    split_ifs at h with hc
    · split at h
      · cases h
      · next s' hs' =>
        rw [Option.some.injEq] at h
        subst h
        rw [Except.ok.injEq] at hr
        subst hr
        obtain ⟨h', h1, h2⟩ := search_inv hs'
        exact ⟨h', _, _, by rw [if_pos hc]; exact h1, Ns_res .., Ns_res .., h2⟩
    · rw [Option.some.injEq] at h
      subst h
      rw [Except.ok.injEq] at hr
      subst hr
      obtain ⟨h', h1, h2⟩ := search_inv hs
      exact ⟨h', _, _, by rw [if_neg hc]; exact h1, Ns_res .., Ns_res .., h2⟩

namespace TakahashiProof

/-- the search from a depth in steps: it stops at the first depth where the comparison differs from the
one at the start -/
theorem search_first {disper : PF → PF → PF → PF} {Hs Tp Bt beta g Ns : PF} {d h0 : ℝ} {s : DepthState}
    (h : depth_search disper Hs Tp Bt beta g Ns (fin d) (fin h0) = some s) :
    ∃ n : ℕ, s.hacc_in = fin (h0 + (n + 1) * d) ∧
      (∀ j : ℕ, j ≤ n → (Ns < ns_value disper Hs Tp (fin h0) Bt beta g ↔
        Ns < ns_value disper Hs Tp (fin (h0 + j * d)) Bt beta g)) ∧
      ¬ (Ns < ns_value disper Hs Tp (fin h0) Bt beta g ↔
        Ns < ns_value disper Hs Tp (fin (h0 + (n + 1) * d)) Bt beta g) := by
  unfold depth_search at h
  obtain ⟨k, hs, hn, hall⟩ := whileUnb_some.mp h
  have inv : ∀ j : ℕ, ∃ w, ((depth_step disper Hs Tp Bt beta g (fin d))^[j]
      { hacc_in := fin h0, Ns_out := ns_value disper Hs Tp (fin h0) Bt beta g,
        warns := (calculate_stability_number_Ns disper Hs Tp (fin h0) Bt beta g).warns }) =
      { hacc_in := fin (h0 + j * d), Ns_out := ns_value disper Hs Tp (fin (h0 + j * d)) Bt beta g,
        warns := w } := by
    intro j
    induction j with
    | zero =>
      exact ⟨(calculate_stability_number_Ns disper Hs Tp (fin h0) Bt beta g).warns, by simp⟩
    | succ j ih =>
      obtain ⟨w, hw⟩ := ih
      rw [Function.iterate_succ_apply', hw]
      unfold depth_step
      have : fin (h0 + j * d) + fin d = fin (h0 + ((j + 1 : ℕ) : ℝ) * d) := by
        rw [add_fin, fin_inj]; push_cast; ring
      simp only [this]
      exact ⟨_, rfl⟩
  cases k with
  | zero => rw [hs] at hn; exact absurd Iff.rfl hn
  | succ k =>
    obtain ⟨w, hw⟩ := inv (k + 1)
    rw [hw] at hs
    subst hs
    refine ⟨k, by push_cast; rfl, fun j hj => ?_, by simpa using hn⟩
    obtain ⟨w', hw'⟩ := inv j
    have := hall j (by omega)
    rwa [hw'] at this

end TakahashiProof

/-- C62: the depths Hs/20, 2 Hs/20, … are tried until the comparison of Hs/(Delta Dn50) with the stability
number differs from the one at Hs/20.  If Hs/20 is at most 1 mm that depth is returned.  Otherwise the
search restarts at the last depth before it, in steps of 1 mm, and the first depth is returned where
the comparison differs. -/
theorem C62_first_crossing (disper : PF → PF → PF → PF) (Dn50 Tp Bt rho_rock rho_water beta g : PF)
    (H : ℝ) (r : PyM PF) (hacc : PF)
    (h : calculate_significant_depth_above_toe_hacc disper Dn50 Tp (fin H) Bt rho_rock rho_water beta g
      = some r) (hr : r.res = .ok hacc) :
    ∃ below : ℝ → Prop,
      (∀ x, ∃ Ns, (calculate_stability_number_Ns disper (fin H) Tp (fin x) Bt beta g).res = .ok Ns ∧
        (below x ↔ fin H / (calculate_buoyant_density_Delta rho_rock rho_water * Dn50) < Ns)) ∧
      ∃ n : ℕ, (∀ j : ℕ, j ≤ n → (below (H / 20) ↔ below ((j + 1) * (H / 20)))) ∧
        ¬ (below (H / 20) ↔ below ((n + 2) * (H / 20))) ∧
        (H / 20 ≤ 0.001 → hacc = fin ((n + 2) * (H / 20))) ∧
        (0.001 < H / 20 → ∃ m : ℕ, hacc = fin ((n + 1) * (H / 20) + (m + 1) * 0.001) ∧
          (∀ j : ℕ, j ≤ m → (below (H / 20) ↔ below ((n + 1) * (H / 20) + j * 0.001))) ∧
          ¬ (below (H / 20) ↔ below ((n + 1) * (H / 20) + (m + 1) * 0.001))) := by
  refine ⟨fun x => fin H / (calculate_buoyant_density_Delta rho_rock rho_water * Dn50) <
    ns_value disper (fin H) Tp (fin x) Bt beta g, fun x => ⟨_, Ns_res .., Iff.rfl⟩, ?_⟩
  have e2 : fin H / 20 = fin (H / 20) := by pf_eval []
  have e3 : (0.001 : PF) = fin 0.001 := rfl
  unfold calculate_significant_depth_above_toe_hacc at h
  simp only [e2] at h
  split at h
  · cases h
  · next s hs =>
    obtain ⟨n, h1, h2, h3⟩ := search_first hs
    have e4 : ∀ j : ℕ, H / 20 + j * (H / 20) = (j + 1) * (H / 20) := fun j => by ring
    have e5 : H / 20 + (n + 1) * (H / 20) = (n + 2) * (H / 20) := by ring
    refine ⟨n, fun j hj => ?_, ?_, ?_⟩
    · rw [← e4]; exact h2 j hj
    · rw [← e5]; exact h3
    rw [h1, e5] at h
    have e6 : fin ((n + 2) * (H / 20)) - fin (H / 20) = fin ((n + 1) * (H / 20)) := by
      rw [sub_fin, fin_inj]; ring
    simp only [e6, e3] at h
    split_ifs at h with hc
    · split at h
      · cases h
      · next s' hs' =>
        rw [Option.some.injEq] at h
        subst h
        rw [Except.ok.injEq] at hr
        subst hr
        have hc' : (0.001 : ℝ) < H / 20 := hc
        refine ⟨fun h0 => absurd hc' (not_lt.mpr h0), fun _ => ?_⟩
        obtain ⟨m, g1, g2, g3⟩ := search_first hs'
        have hn := h2 n le_rfl
        rw [e4] at hn
        refine ⟨m, g1, fun j hj => hn.trans (g2 j hj), fun hx => g3 (hn.symm.trans hx)⟩
    · rw [Option.some.injEq] at h
      subst h
      rw [Except.ok.injEq] at hr
      subst hr
      exact ⟨fun _ => rfl, fun hx => absurd hx hc⟩

namespace TakahashiProof

theorem two_mul_le_sinh {t : ℝ} (ht : 6 ≤ t) : 2 * t ≤ Real.sinh t := by
  have h1 := Real.quadratic_le_exp_of_nonneg (by linarith : 0 ≤ t)
  have h2 : Real.exp (-t) ≤ 1 := Real.exp_le_one_iff.mpr (by linarith)
  rw [Real.sinh_eq]
  nlinarith

/-- the stability number in water deep compared with the wave length, waves of any direction -/
theorem ns_deep {disper : PF → PF → PF → PF} {k h B b H : ℝ} (T g : PF)
    (hdis : disper (2 * PF.pi / T) (fin h) g = fin k) (hh : 0 < h) (hH : 0 < H)
    (hd : 6 ≤ 2 * k * h) :
    ns_value disper (fin H) T (fin h) (fin B) (fin b) g = pinf ∨
      ∃ v, ns_value disper (fin H) T (fin h) (fin B) (fin b) g = fin v ∧ 0.65 * (h / H) ≤ v := by
  have hpi := Real.pi_pos
  have hk : 0 < k := by
    by_contra hk
    push Not at hk
    nlinarith
  have h2 : 0 < Real.sinh (2 * k * h) := Real.sinh_pos_iff.mpr (by linarith)
  have hL : 2 * PF.pi / calculate_local_wavelength disper T (fin h) g = fin k := by
    unfold calculate_local_wavelength
    simp only [hdis]
    pf_eval []
    field_simp
  obtain ⟨K, hK0, hK1, hkap⟩ : ∃ K : ℝ, 0 ≤ K ∧ K ≤ 1 / 2 ∧
      2 * fin k * fin h / PF.sinh (2 * fin k * fin h) *
      PF.max (0.45 * npow (PF.sin (PF.deg2rad (fin b))) 2 *
          npow (PF.cos (fin k * fin B * PF.cos (PF.deg2rad (fin b)))) 2)
        (npow (PF.cos (PF.deg2rad (fin b))) 2 *
          npow (PF.sin (fin k * fin B * PF.cos (PF.deg2rad (fin b)))) 2) = fin K := by
    rw [deg2rad_fin]
    generalize b * (Real.pi / 180) = t
    generalize hm : k * B * Real.cos t = u
    have e : (fin k * fin B * PF.cos (fin t)) = fin u := by rw [← hm]; rfl
    rw [e]
    refine ⟨2 * k * h / Real.sinh (2 * k * h) *
      ((0.45 * Real.sin t ^ 2 * Real.cos u ^ 2) ⊔ (Real.cos t ^ 2 * Real.sin u ^ 2)), ?_, ?_, ?_⟩
    · refine mul_nonneg (div_nonneg (by linarith) h2.le) ?_
      exact le_sup_of_le_right (by positivity)
    · have q1 : 2 * k * h / Real.sinh (2 * k * h) ≤ 1 / 2 := by
        rw [div_le_iff₀ h2]; linarith [two_mul_le_sinh hd]
      have q2 : (0.45 * Real.sin t ^ 2 * Real.cos u ^ 2) ⊔ (Real.cos t ^ 2 * Real.sin u ^ 2) ≤ 1 := by
        have a1 := Real.sin_sq_le_one t
        have a2 := Real.cos_sq_le_one u
        have a3 := Real.cos_sq_le_one t
        have a4 := Real.sin_sq_le_one u
        refine sup_le ?_ (mul_le_one₀ a3 (sq_nonneg _) a4)
        refine mul_le_one₀ ?_ (sq_nonneg _) a2
        norm_num
        linarith [sq_nonneg (Real.sin t)]
      have q3 : 0 ≤ 2 * k * h / Real.sinh (2 * k * h) := div_nonneg (by linarith) h2.le
      nlinarith
    · pf_eval [max_fin]
  unfold ns_value
  simp only [hL, hkap]
  rcases hK0.eq_or_lt with h0 | h0
  · left
    subst h0
    have a1 : npow (fin 0) (1 / 3) = fin 0 := by
      have : (1 / 3 : PF) = fin (1 / 3) := by pf_eval []
      rw [this, npow_fin_nonneg le_rfl (by norm_num)]
      rw [Real.zero_rpow (by norm_num)]
    have a2 : (1 : PF) - fin 0 = fin 1 := by rw [one_eq, sub_fin, sub_zero]
    have a3 : npow (fin 1) 2 = fin 1 := by
      rw [ofNat_eq]; exact (npow_two _).trans (by rw [one_pow])
    have a4 : (fin 1 : PF) / fin 0 = pinf := by
      show PF.div (fin 1) (fin 0) = pinf
      simp [PF.div, PF.mulInf]
    have a0 : fin h / fin H = fin (h / H) := by pf_eval []
    have a5 : (1.3 : PF) * pinf * fin h / fin H = pinf := by
      have c1 : (1.3 : PF) * pinf = pinf := by
        show PF.mulInf 1.3 = pinf
        rw [PF.mulInf, if_pos (by norm_num)]
      have c2 : pinf * fin h = pinf := by
        show PF.mulInf h = pinf
        rw [PF.mulInf, if_pos hh]
      rw [c1, c2]
      show (if H < 0 then ninf else pinf) = pinf
      rw [if_neg (by linarith)]
    have a6 : (-1.5 : PF) * pinf * (fin h / fin H) = ninf := by
      have c0 : (-1.5 : PF) = fin (-1.5) := by rw [sci_eq, neg_fin]
      have c1 : (-1.5 : PF) * pinf = ninf := by
        rw [c0]
        show PF.mulInf (-1.5) = ninf
        rw [PF.mulInf, if_neg (by norm_num), if_pos (by norm_num)]
      rw [c1, a0]
      show PF.neg (PF.mulInf (h / H)) = ninf
      rw [PF.mulInf, if_pos (by positivity)]
      rfl
    rw [a1, a2, a3, a4, a5, a6]
    have a7 : (1.8 : PF) * PF.exp ninf = fin 0 := by
      show fin (1.8 * 0) = fin 0
      rw [mul_zero]
    rw [a7]
    show PF.max (fin 1.8) pinf = pinf
    simp [PF.max, show ¬ (pinf ≤ fin 1.8) from id]
  · right
    have hK3 : 0 < K ^ (1 / 3 : ℝ) := by positivity
    have hK4 : K ^ (1 / 3 : ℝ) ≤ 1 := Real.rpow_le_one hK0 (by linarith) (by norm_num)
    have e : PF.max 1.8 (1.3 * ((1 - fin K) / npow (fin K) (1 / 3)) * fin h / fin H
        + 1.8 * PF.exp (-1.5 * (npow (1 - fin K) 2 / npow (fin K) (1 / 3)) * (fin h / fin H)))
        = fin (1.8 ⊔ (1.3 * ((1 - K) / K ^ (1 / 3 : ℝ)) * h / H
          + 1.8 * Real.exp (-1.5 * ((1 - K) ^ 2 / K ^ (1 / 3 : ℝ)) * (h / H)))) := by
      pf_eval [max_fin]
    refine ⟨_, e, le_sup_of_le_right ?_⟩
    have q1 : 1 / 2 ≤ (1 - K) / K ^ (1 / 3 : ℝ) := by
      rw [le_div_iff₀ hK3]; linarith
    have q2 : 0 ≤ 1.8 * Real.exp (-1.5 * ((1 - K) ^ 2 / K ^ (1 / 3 : ℝ)) * (h / H)) :=
      mul_nonneg (by norm_num) (Real.exp_pos _).le
    have q3 : 0 < h / H := by positivity
    have q4 : 1.3 * ((1 - K) / K ^ (1 / 3 : ℝ)) * h / H = 1.3 * ((1 - K) / K ^ (1 / 3 : ℝ)) * (h / H) := by
      ring
    rw [q4]
    have q5 : (0.65 : ℝ) ≤ 1.3 * ((1 - K) / K ^ (1 / 3 : ℝ)) := by
      norm_num; linarith
    nlinarith

/-- a search that starts where the stability number is not above `N` ends, if it is above `N` at all
large depths -/
theorem search_ends {disper : PF → PF → PF → PF} {Hs Tp Bt beta g N : PF} {d h0 X : ℝ} (hd : 0 < d)
    (hdeep : ∀ x, X ≤ x → N < ns_value disper Hs Tp (fin x) Bt beta g)
    (h0' : ¬ N < ns_value disper Hs Tp (fin h0) Bt beta g) :
    ∃ s, depth_search disper Hs Tp Bt beta g N (fin d) (fin h0) = some s := by
  cases hs : depth_search disper Hs Tp Bt beta g N (fin d) (fin h0) with
  | some s => exact ⟨s, rfl⟩
  | none =>
    exfalso
    unfold depth_search at hs
    have hall := whileUnb_none.mp hs
    obtain ⟨n, hn⟩ := exists_nat_ge ((X - h0) / d)
    have inv : ∀ j : ℕ, ∃ w, ((depth_step disper Hs Tp Bt beta g (fin d))^[j]
        { hacc_in := fin h0, Ns_out := ns_value disper Hs Tp (fin h0) Bt beta g,
          warns := (calculate_stability_number_Ns disper Hs Tp (fin h0) Bt beta g).warns }) =
        { hacc_in := fin (h0 + j * d), Ns_out := ns_value disper Hs Tp (fin (h0 + j * d)) Bt beta g,
          warns := w } := by
      intro j
      induction j with
      | zero =>
        exact ⟨(calculate_stability_number_Ns disper Hs Tp (fin h0) Bt beta g).warns, by simp⟩
      | succ j ih =>
        obtain ⟨w, hw⟩ := ih
        rw [Function.iterate_succ_apply', hw]
        unfold depth_step
        have : fin (h0 + j * d) + fin d = fin (h0 + ((j + 1 : ℕ) : ℝ) * d) := by
          rw [add_fin, fin_inj]; push_cast; ring
        simp only [this]
        exact ⟨_, rfl⟩
    have h1 := hall n
    obtain ⟨w, hw⟩ := inv n
    simp only [hw] at h1
    refine h0' (h1.mpr (hdeep _ ?_))
    rw [div_le_iff₀ hd] at hn
    linarith

end TakahashiProof

/-- C62: the search ends, with a number, whenever the stability number at the first depth tried (Hs/20) is
not above Hs/(Delta Dn50), for waves of any direction and any dispersion solver whose wave numbers do not
tend to zero with depth -/
theorem C62_terminates_partial (disper : PF → PF → PF → PF) (Tp g : PF) (k : ℝ → ℝ) (k0 B b : ℝ)
    (H D ra rw : ℝ) (hk0 : 0 < k0)
    (hdis : ∀ h, 0 < h → disper (2 * PF.pi / Tp) (fin h) g = fin (k h) ∧ k0 ≤ k h)
    (hH : 0 < H) (hD : 0 < D) (hw : 0 < rw) (hr : rw < ra) (N0 : PF)
    (hN0 : (calculate_stability_number_Ns disper (fin H) Tp (fin (H / 20)) (fin B) (fin b) g).res = .ok N0)
    (hle : N0 ≤ fin (H / ((ra - rw) / rw * D))) :
    ∃ (r : PyM PF) (x : ℝ), calculate_significant_depth_above_toe_hacc disper (fin D) Tp (fin H) (fin B)
      (fin ra) (fin rw) (fin b) g = some r ∧ r.res = .ok (fin x) ∧ 0 < x := by
  obtain ⟨De, hDe, hDD, e⟩ := Delta_eval hw hr
  rw [← hDD] at hle
  have e1 : fin H / (fin De * fin D) = fin (H / (De * D)) := by pf_eval []
  have e2 : fin H / 20 = fin (H / 20) := by pf_eval []
  have e3 : (0.001 : PF) = fin 0.001 := rfl
  rw [Ns_res, Except.ok.injEq] at hN0
  subst hN0
  have hd : 0 < H / 20 := by positivity
  have hno : ¬ fin (H / (De * D)) < ns_value disper (fin H) Tp (fin (H / 20)) (fin B) (fin b) g := by
    rcases ns_cases disper (fin H) Tp (fin (H / 20)) (fin B) (fin b) g with h2 | h2 | ⟨v, hv, h2⟩
    · rw [h2]; exact id
    · rw [h2] at hle; exact absurd hle id
    · rw [h2] at hle ⊢
      rw [le_fin] at hle
      rw [lt_fin]
      exact not_lt.mpr hle
  have hN : 0 < H / (De * D) := by positivity
  have hdeep : ∀ x, (3 / k0) ⊔ (2 * (H / (De * D)) * H) ≤ x →
      fin (H / (De * D)) < ns_value disper (fin H) Tp (fin x) (fin B) (fin b) g := by
    intro x hx
    have hx1 := (le_sup_left.trans hx)
    have hx2 := (le_sup_right.trans hx)
    have hx0 : 0 < x := lt_of_lt_of_le (by positivity) hx1
    obtain ⟨hk1, hk2⟩ := hdis x hx0
    rw [div_le_iff₀ hk0] at hx1
    rcases ns_deep (B := B) (b := b) Tp g hk1 hx0 hH (by nlinarith) with h2 | ⟨v, h2, hv⟩
    · rw [h2]; exact fin_lt_pinf _
    · rw [h2, lt_fin]
      refine lt_of_lt_of_le ?_ hv
      have : 2 * (H / (De * D)) ≤ x / H := by rw [le_div_iff₀ hH]; exact hx2
      norm_num
      linarith
  obtain ⟨s, hs⟩ := search_ends hd hdeep hno
  obtain ⟨n, h1, h2, h3⟩ := search_first hs
  have hn := h2 n le_rfl
  have e6 : s.hacc_in - fin (H / 20) = fin (H / 20 + n * (H / 20)) := by
    rw [h1, sub_fin, fin_inj]; ring
  obtain ⟨s', hs'⟩ := search_ends (d := 0.001) (by norm_num) hdeep (fun hx => hno (hn.mpr hx))
  obtain ⟨m, g1, -, -⟩ := search_first hs'
  unfold calculate_significant_depth_above_toe_hacc
  simp only [e, e1, e2, hs, e6, e3, hs']
  split_ifs
  · exact ⟨_, _, rfl, by rw [g1], by positivity⟩
  · exact ⟨_, _, rfl, by rw [h1], by positivity⟩

/-- rock of 0.4 m in waves of 2 m: the hypotheses of `C62_terminates_partial` are met, and so are those of
`C62_brackets` and `C62_first_crossing` (a depth is returned) -/
example (disper : PF → PF → PF → PF) (hdis : ∀ w h g, disper w h g = fin 1) :
    ∃ (r : PyM PF) (x : ℝ), calculate_significant_depth_above_toe_hacc disper (fin 0.4) (fin 8) (fin 2)
      (fin (Real.pi / 6)) (fin 2650) (fin 1025) (fin 0) (fin 9.81) = some r ∧ r.res = .ok (fin x) ∧
      0 < x := by
  have hs : 0 < Real.sin (1 * (Real.pi / 6)) ^ 2 := by rw [one_mul, Real.sin_pi_div_six]; norm_num
  have hN := ns_eval (disper := disper) (k := 1) (h := 2 / 20) (B := Real.pi / 6) (H := 2) (fin 8)
    (fin 9.81) (hdis _ _ _) one_pos (by norm_num) (by norm_num) hs
  refine C62_terminates_partial disper (fin 8) (fin 9.81) (fun _ => 1) 1 _ _ 2 0.4 2650 1025 one_pos
    (fun h _ => ⟨hdis _ _ _, le_rfl⟩) (by norm_num) (by norm_num) (by norm_num) (by norm_num) _
    (Ns_res ..) ?_
  rw [hN, le_fin]
  have hb := kap_bounds (k := 1) (h := 2 / 20) (B := Real.pi / 6) one_pos (by norm_num) hs
  have hK : 1 / 5 ≤ kap 1 (2 / 20) (Real.pi / 6) := by
    unfold kap
    rw [one_mul, Real.sin_pi_div_six]
    have e : (2 * 1 * (2 / 20) : ℝ) = 1 / 5 := by norm_num
    rw [e]
    have h1 : 0 < Real.sinh (1 / 5) := Real.sinh_pos_iff.mpr (by norm_num)
    have h2 : Real.exp (1 / 5) ≤ 5 / 4 := by
      have h3 := Real.add_one_le_exp (-(1 / 5) : ℝ)
      rw [Real.exp_neg] at h3
      have h4 := Real.exp_pos (1 / 5)
      have h5 : (4 / 5) * Real.exp (1 / 5) ≤ 1 := by
        have := mul_le_mul_of_nonneg_right h3 h4.le
        rw [inv_mul_cancel₀ h4.ne'] at this
        linarith
      linarith
    have h3 := Real.add_one_le_exp (-(1 / 5) : ℝ)
    have h4 : Real.sinh (1 / 5) ≤ 1 / 4 := by rw [Real.sinh_eq]; linarith
    have h5 : (4 : ℝ) / 5 ≤ 1 / 5 / Real.sinh (1 / 5) := by rw [le_div_iff₀ h1]; linarith
    nlinarith
  rw [one_mul, Real.sin_pi_div_six] at hb
  obtain ⟨hb1, hb2⟩ := hb
  generalize kap 1 (2 / 20) (Real.pi / 6) = K at *
  have hK1 : K ≤ 1 := by linarith
  have hc : K ≤ K ^ (1 / 3 : ℝ) := by
    conv_lhs => rw [← Real.rpow_one K]
    exact Real.rpow_le_rpow_of_exponent_ge hb1 hK1 (by norm_num)
  have hc0 : 0 < K ^ (1 / 3 : ℝ) := by positivity
  have hq : (1 - K) / K ^ (1 / 3 : ℝ) ≤ 5 := by rw [div_le_iff₀ hc0]; linarith
  have hq0 : 0 ≤ (1 - K) ^ 2 / K ^ (1 / 3 : ℝ) := by positivity
  have hx : Real.exp (-1.5 * ((1 - K) ^ 2 / K ^ (1 / 3 : ℝ)) * (2 / 20 / 2)) ≤ 1 := by
    rw [Real.exp_le_one_iff]
    norm_num
    linarith
  refine sup_le (by norm_num) ?_
  generalize Real.exp (-1.5 * ((1 - K) ^ 2 / K ^ (1 / 3 : ℝ)) * (2 / 20 / 2)) = E at *
  norm_num
  linarith

/-- C62 refuted: for rock so large that Hs/(Delta Dn50) < 1.8 the search never ends (unless the
stability number is NaN at one of the depths tried) -/
theorem C62_terminates_refuted (disper : PF → PF → PF → PF) (Tp Bt beta g : PF) (H D ra rw : ℝ)
    (hH : 0 < H) (hD : 0 < D) (hw : 0 < rw) (hr : rw < ra) (hlow : H / ((ra - rw) / rw * D) < 1.8)
    (hnan : ∀ n : ℕ, (calculate_stability_number_Ns disper (fin H) Tp (fin ((n + 1) * (H / 20))) Bt beta
      g).res ≠ .ok nan) :
    calculate_significant_depth_above_toe_hacc disper (fin D) Tp (fin H) Bt (fin ra) (fin rw) beta g
      = none := by
  obtain ⟨De, hDe, hDD, e⟩ := Delta_eval hw hr
  rw [← hDD] at hlow
  have e1 : fin H / (fin De * fin D) = fin (H / (De * D)) := by pf_eval []
  have e2 : fin H / 20 = fin (H / 20) := by pf_eval []
  have hlt : ∀ n : ℕ, fin (H / (De * D)) <
      ns_value disper (fin H) Tp (fin ((n + 1) * (H / 20))) Bt beta g := by
    intro n
    have h1 := hnan n
    rw [Ns_res] at h1
    rcases ns_cases disper (fin H) Tp (fin ((n + 1) * (H / 20))) Bt beta g with h2 | h2 | ⟨v, hv, h2⟩
    · rw [h2] at h1; exact absurd rfl h1
    · rw [h2]; exact fin_lt_pinf _
    · rw [h2, lt_fin]; linarith
  have hsearch : depth_search disper (fin H) Tp Bt beta g (fin (H / (De * D))) (fin (H / 20))
      (fin (H / 20)) = none := by
    unfold depth_search
    rw [whileUnb_none]
    have h0 : fin (H / 20) = fin (((0 : ℕ) + 1) * (H / 20)) := by simp
    have inv : ∀ k : ℕ, ∃ w, (depth_step disper (fin H) Tp Bt beta g (fin (H / 20)))^[k]
        { hacc_in := fin (H / 20), Ns_out := ns_value disper (fin H) Tp (fin (H / 20)) Bt beta g,
          warns := (calculate_stability_number_Ns disper (fin H) Tp (fin (H / 20)) Bt beta g).warns } =
        { hacc_in := fin ((k + 1) * (H / 20)),
          Ns_out := ns_value disper (fin H) Tp (fin ((k + 1) * (H / 20))) Bt beta g, warns := w } := by
      intro k
      induction k with
      | zero =>
        exact ⟨(calculate_stability_number_Ns disper (fin H) Tp (fin (H / 20)) Bt beta g).warns,
          by simp⟩
      | succ k ih =>
        obtain ⟨w, hwk⟩ := ih
        rw [Function.iterate_succ_apply', hwk]
        unfold depth_step
        have : fin ((k + 1) * (H / 20)) + fin (H / 20) = fin (((k + 1 : ℕ) + 1) * (H / 20)) := by
          rw [add_fin, fin_inj]; push_cast; ring
        simp only [this]
        exact ⟨_, rfl⟩
    intro k
    obtain ⟨w, hwk⟩ := inv k
    simp only [hwk]
    have h1 := hlt 0
    rw [← h0] at h1
    exact iff_of_true h1 (hlt k)
  unfold calculate_significant_depth_above_toe_hacc
  simp only [e, e1, e2, hsearch]

/-- the hypotheses of C62 are met: the rock is large, and the stability number is a number for normally
incident waves -/
example (disper : PF → PF → PF → PF) (hdis : ∀ w h g, disper w h g = fin 1) (n : ℕ) :
    (2 : ℝ) / ((2650 - 1025) / 1025 * 1) < 1.8 ∧
    (calculate_stability_number_Ns disper (fin 2) (fin 8) (fin ((n + 1) * (2 / 20)))
      (fin (Real.pi / 6)) (fin 0) (fin 9.81)).res ≠ .ok nan := by
  refine ⟨by norm_num, ?_⟩
  rw [Ns_res, ns_eval _ _ (hdis _ _ _) one_pos (by positivity) (by norm_num)
    (by rw [one_mul, Real.sin_pi_div_six]; norm_num)]
  simp
end
