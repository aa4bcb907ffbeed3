import Verif.Py.Lemmas
import Verif.Model.CoreUtility
import Verif.Model.CorePhysics

/-! # Properties C01–C06: core utilities and core physics -/

open Classical
open PF
noncomputable section

/-! ## C01 -/
section C01
open CoreUtility

/-- Specification: a value is out of range when it is strictly below or strictly above. -/
def OutOfRange (lo hi v : PF) : Prop := v < lo ∨ hi < v

/-- C01: verdicts are per value, in order, False exactly for out-of-range values; warnings are exactly
one per out-of-range value, in order, carrying name, formula, value and bounds; nothing is raised. -/
theorem C01_check_variable_validity_range (name formula : String) (values : List PF) (lo hi : PF) :
    check_variable_validity_range_list name formula values lo hi =
      { warns := (values.filter fun v => decide (OutOfRange lo hi v)).map
          fun v => Warn.range name formula v lo hi
        res := .ok (values.map fun v => decide (¬ OutOfRange lo hi v)) } := by
  unfold check_variable_validity_range_list
  induction values with
  | nil => rfl
  | cons v vs ih =>
    rw [check_list, ih]
    by_cases h : v < lo ∨ v > hi
    · have h' : OutOfRange lo hi v := h
      simp [h, h']
    · have h' : ¬ OutOfRange lo hi v := h
      simp [h, h']

/-- C01: values on a bound, in between, and NaN are accepted silently. -/
theorem C01_accepts (name formula : String) (lo hi x : ℝ) (h1 : lo ≤ x) (h2 : x ≤ hi) :
    check_variable_validity_range name formula (fin x) (fin lo) (fin hi) = ⟨[], .ok [true]⟩ ∧
    (∀ l h : PF, check_variable_validity_range name formula nan l h = ⟨[], .ok [true]⟩) := by
  unfold check_variable_validity_range
  constructor
  · rw [C01_check_variable_validity_range]
    have : ¬ OutOfRange (fin lo) (fin hi) (fin x) := by
      rintro (h | h)
      · exact absurd h1 (not_le.mpr h)
      · exact absurd h2 (not_le.mpr h)
    simp [this]
  · intro l h
    rw [C01_check_variable_validity_range]
    have : ¬ OutOfRange l h nan := by
      rintro (h | h)
      · exact nan_lt _ h
      · exact lt_nan _ h
    simp [this]

/-- C01, scalar form used by all formulas. -/
theorem C01_scalar (name formula : String) (v lo hi : PF) :
    check_variable_validity_range name formula v lo hi =
      if OutOfRange lo hi v then ⟨[.range name formula v lo hi], .ok [false]⟩
      else ⟨[], .ok [true]⟩ := by
  unfold check_variable_validity_range
  rw [C01_check_variable_validity_range]
  by_cases h : OutOfRange lo hi v <;> simp [h]

example : check_variable_validity_range "P" "f" (fin 0.7) (fin 0.1) (fin 0.6) =
    ⟨[.range "P" "f" (fin 0.7) (fin 0.1) (fin 0.6)], .ok [false]⟩ := by
  rw [C01_scalar, if_pos]
  right; show (0.6 : ℝ) < 0.7; norm_num
end C01

/-! ## C02 -/
section C02
open CorePhysics

theorem C02_Dn50_of_M50_of_Dn50 (D rho : ℝ) (hD : 0 < D) (hr : 0 < rho) :
    ∃ M : ℝ, 0 < M ∧ calculate_M50_from_Dn50 (fin D) (fin rho) = fin M ∧
      calculate_Dn50_from_M50 (fin M) (fin rho) = fin D := by
  refine ⟨rho * D ^ 3, by positivity, ?_, ?_⟩
  · unfold calculate_M50_from_Dn50; pf_eval []
  · unfold calculate_Dn50_from_M50; pf_eval []
    rw [mul_div_cancel_left₀ _ hr.ne', ← Real.rpow_natCast D 3, ← Real.rpow_mul hD.le]
    norm_num

example := C02_Dn50_of_M50_of_Dn50 (D := 1) (rho := 2650) (by norm_num) (by norm_num)

theorem C02_M50_of_Dn50_of_M50 (M rho : ℝ) (hM : 0 < M) (hr : 0 < rho) :
    ∃ D : ℝ, 0 < D ∧ calculate_Dn50_from_M50 (fin M) (fin rho) = fin D ∧
      calculate_M50_from_Dn50 (fin D) (fin rho) = fin M := by
  refine ⟨(M / rho) ^ ((1 : ℝ) / 3), by positivity, ?_, ?_⟩
  · unfold calculate_Dn50_from_M50; pf_eval []
  · unfold calculate_M50_from_Dn50; pf_eval []
    rw [← Real.rpow_natCast, ← Real.rpow_mul (by positivity)]
    norm_num
    field_simp

example : ∃ D rho : ℝ, 0 < D ∧ 0 < rho := ⟨1.2, 2650, by norm_num, by norm_num⟩
end C02

/-! ## C03 -/
section C03
open CorePhysics

theorem C03_roundtrip (S Nod G nv : ℝ) (hG : G ≠ 0) (hn : nv ≠ 1) :
    (∃ N, calculate_Nod_from_S (fin S) (fin G) (fin nv) = fin N ∧
      calculate_S_from_Nod (fin N) (fin G) (fin nv) = fin S) ∧
    (∃ s, calculate_S_from_Nod (fin Nod) (fin G) (fin nv) = fin s ∧
      calculate_Nod_from_S (fin s) (fin G) (fin nv) = fin Nod) := by
  have h1 : 1 - nv ≠ 0 := sub_ne_zero.mpr hn.symm
  have h2 : G * (1 - nv) ≠ 0 := mul_ne_zero hG h1
  refine ⟨⟨S * (G * (1 - nv)), ?_, ?_⟩, ⟨Nod / (G * (1 - nv)), ?_, ?_⟩⟩
  · unfold calculate_Nod_from_S; pf_eval []
  · unfold calculate_S_from_Nod; pf_eval []; field_simp
  · unfold calculate_S_from_Nod; pf_eval []
  · unfold calculate_Nod_from_S; pf_eval []; field_simp

example : ∃ G nv : ℝ, G ≠ 0 ∧ nv ≠ 1 := ⟨1, 0.4, by norm_num, by norm_num⟩
end C03

/-! ## C04 -/
section C04
open CorePhysics

/-- A given diameter is used as is: no warning, mass and density ignored. -/
theorem C04_diameter_given (Dn50 M50 rho : PF) (h : ¬ Dn50.isnan) :
    check_usage_Dn50_or_M50 Dn50 M50 rho = ⟨[], .ok Dn50⟩ := by
  simp [check_usage_Dn50_or_M50, h]

example := C04_diameter_given (Dn50 := .fin 1) (M50 := .fin 1) (rho := .fin 2650) (by norm_num)

/-- Only a mass and a density: the diameter of the cube of that mass and density, no warning. -/
theorem C04_mass_given (M rho : ℝ) (hM : 0 < M) (hr : 0 < rho) :
    ∃ D : ℝ, 0 < D ∧ rho * D ^ 3 = M ∧
      check_usage_Dn50_or_M50 nan (fin M) (fin rho) = ⟨[], .ok (fin D)⟩ := by
  obtain ⟨D, hD, h1, h2⟩ := C02_M50_of_Dn50_of_M50 M rho hM hr
  refine ⟨D, hD, ?_, ?_⟩
  · unfold calculate_M50_from_Dn50 at h2; revert h2; pf_eval []; exact id
  · simp [check_usage_Dn50_or_M50, h1]

example := C04_mass_given (M := 5000) (rho := 2650) (by norm_num) (by norm_num)

/-- Only a mass: 2650 kg/m3 is used and a warning is issued. -/
theorem C04_mass_without_density (M : ℝ) (hM : 0 < M) :
    ∃ D : ℝ, 0 < D ∧ 2650 * D ^ 3 = M ∧
      ∃ msg, check_usage_Dn50_or_M50 nan (fin M) nan = ⟨[.text msg], .ok (fin D)⟩ := by
  obtain ⟨D, hD, h1, h2⟩ := C02_M50_of_Dn50_of_M50 M 2650 hM (by norm_num)
  refine ⟨D, hD, ?_, ?_⟩
  · unfold calculate_M50_from_Dn50 at h2; revert h2; pf_eval []; exact id
  · refine ⟨"rho_armour is not provided, the default value of 2650 kg/m3 is used.", ?_⟩
    simp [check_usage_Dn50_or_M50, ← h1, ofNat_eq]

example := C04_mass_without_density (M := 5000) (by norm_num)

/-- An exception is raised exactly when neither is given, and it is a ValueError. -/
theorem C04_error_iff (Dn50 M50 rho : PF) (e : PyErr) :
    (check_usage_Dn50_or_M50 Dn50 M50 rho).res = .error e ↔
      Dn50 = nan ∧ M50 = nan ∧ e = .valueError := by
  have hn : ∀ x : PF, x.isnan ↔ x = nan := by intro x; cases x <;> simp
  unfold check_usage_Dn50_or_M50
  by_cases h1 : Dn50 = nan <;> by_cases h2 : M50 = nan <;> by_cases h3 : rho = nan <;>
    simp [hn, h1, h2, h3, eq_comm]

/-- Giving the mass is the same as giving the equivalent diameter. -/
theorem C04_mass_equals_diameter (D rho : ℝ) (hD : 0 < D) (hr : 0 < rho) :
    ∃ M, calculate_M50_from_Dn50 (fin D) (fin rho) = fin M ∧
      (check_usage_Dn50_or_M50 nan (fin M) (fin rho)) =
        (check_usage_Dn50_or_M50 (fin D) nan (fin rho)) := by
  obtain ⟨M, hM, h1, h2⟩ := C02_Dn50_of_M50_of_Dn50 D rho hD hr
  exact ⟨M, h1, by simp [check_usage_Dn50_or_M50, h2]⟩

example : check_usage_Dn50_or_M50 nan nan (fin 2650) = ⟨[], .error .valueError⟩ := by
  simp [check_usage_Dn50_or_M50]
end C04

/-! ## C05 -/
section C05
open CorePhysics

/-- how many of the four quantities are missing -/
def missing : List (Option PF) → ℕ
  | [] => 0
  | none :: r => missing r + 1
  | some _ :: r => missing r

/-- ValueError unless exactly one quantity is missing; no other exception is possible. -/
theorem C05_error_iff (Hs Dn Delta Ns : Option PF) (e : PyErr) :
    (check_usage_stabilitynumber Hs Dn Delta Ns).res = .error e ↔
      missing [Hs, Dn, Delta, Ns] ≠ 1 ∧ e = .valueError := by
  cases Hs <;> cases Dn <;> cases Delta <;> cases Ns <;>
    simp [check_usage_stabilitynumber, missing, eq_comm]

/-- With one quantity missing, the helper returns its name and the value making
`Hs = Ns * Delta * Dn` true. -/
theorem C05_solves (Hs Dn Delta Ns : ℝ) (hHs : Hs ≠ 0) (hDn : Dn ≠ 0) (hDe : Delta ≠ 0)
    (hNs : Ns ≠ 0) :
    (∃ x, check_usage_stabilitynumber none (some (fin Dn)) (some (fin Delta)) (some (fin Ns)) =
        ⟨[], .ok (fin x, "Hs")⟩ ∧ x = Ns * Delta * Dn) ∧
    (∃ x, check_usage_stabilitynumber (some (fin Hs)) none (some (fin Delta)) (some (fin Ns)) =
        ⟨[], .ok (fin x, "Dn")⟩ ∧ Hs = Ns * Delta * x) ∧
    (∃ x, check_usage_stabilitynumber (some (fin Hs)) (some (fin Dn)) none (some (fin Ns)) =
        ⟨[], .ok (fin x, "Delta")⟩ ∧ Hs = Ns * x * Dn) ∧
    (∃ x, check_usage_stabilitynumber (some (fin Hs)) (some (fin Dn)) (some (fin Delta)) none =
        ⟨[], .ok (fin x, "Ns")⟩ ∧ Hs = x * Delta * Dn) := by
  refine ⟨⟨Dn * Delta * Ns, ?_, by ring⟩, ⟨Hs / Ns / Delta, ?_, by field_simp⟩,
    ⟨Hs / Ns / Dn, ?_, by field_simp⟩, ⟨Hs / (Delta * Dn), ?_, by field_simp⟩⟩ <;>
    simp [check_usage_stabilitynumber, mul_fin, div_fin, *]

example : check_usage_stabilitynumber (Hs := some (fin 2)) (Dn := some (fin 1)) =
    ⟨[], .error .valueError⟩ := by simp [check_usage_stabilitynumber]
end C05

/-! ## C06 -/
section C06
open CorePhysics

theorem C06_steepness (H H' T T' g : ℝ) (hH : 0 < H) (hT : 0 < T) (hg : 0 < g)
    (hHH : H < H') (hTT : T < T') :
    ∃ s sH sT : ℝ, 0 < s ∧ calculate_wave_steepness_s (fin H) (fin T) (fin g) = fin s ∧
      calculate_wave_steepness_s (fin H') (fin T) (fin g) = fin sH ∧
      calculate_wave_steepness_s (fin H) (fin T') (fin g) = fin sT ∧
      s * (g * T ^ 2) = 2 * Real.pi * H ∧ s < sH ∧ sT < s := by
  have hpi := Real.pi_pos
  have hH' : 0 < H' := hH.trans hHH
  have hT' : 0 < T' := hT.trans hTT
  refine ⟨2 * Real.pi / g * H / T ^ 2, 2 * Real.pi / g * H' / T ^ 2, 2 * Real.pi / g * H / T' ^ 2,
    by positivity, ?_, ?_, ?_, by field_simp, ?_, ?_⟩
  · unfold calculate_wave_steepness_s; pf_eval []
  · unfold calculate_wave_steepness_s; pf_eval []
  · unfold calculate_wave_steepness_s; pf_eval []
  · gcongr
  · gcongr

example := C06_steepness (H := 2) (H' := 3) (T := 8) (T' := 9) (g := 9.81) (by norm_num) (by norm_num)
  (by norm_num) (by norm_num) (by norm_num)

theorem C06_Iribarren (H H' T T' c c' : ℝ) (hH : 0 < H) (hT : 0 < T) (hc : 0 < c)
    (hHH : H < H') (hTT : T < T') (hcc : c < c') :
    ∃ s k kH kT kc : ℝ, 0 < k ∧ calculate_wave_steepness_s (fin H) (fin T) = fin s ∧
      calculate_Iribarren_number_ksi (fin H) (fin T) (fin c) = fin k ∧
      calculate_Iribarren_number_ksi (fin H') (fin T) (fin c) = fin kH ∧
      calculate_Iribarren_number_ksi (fin H) (fin T') (fin c) = fin kT ∧
      calculate_Iribarren_number_ksi (fin H) (fin T) (fin c') = fin kc ∧
      k ^ 2 * s * c ^ 2 = 1 ∧ kH < k ∧ k < kT ∧ kc < k := by
  have hpi := Real.pi_pos
  have hH' : 0 < H' := hH.trans hHH
  have hT' : 0 < T' := hT.trans hTT
  have hc' : 0 < c' := hc.trans hcc
  refine ⟨2 * Real.pi / 9.81 * H / T ^ 2, 1.0 / c / √(2 * Real.pi / 9.81 * H / T ^ 2),
    1.0 / c / √(2 * Real.pi / 9.81 * H' / T ^ 2), 1.0 / c / √(2 * Real.pi / 9.81 * H / T' ^ 2),
    1.0 / c' / √(2 * Real.pi / 9.81 * H / T ^ 2), by positivity, ?_, ?_, ?_, ?_, ?_, ?_, ?_, ?_, ?_⟩
  · unfold calculate_wave_steepness_s; pf_eval []
  all_goals try (unfold calculate_Iribarren_number_ksi calculate_wave_steepness_s; pf_eval []; done)
  · rw [div_pow, Real.sq_sqrt (by positivity)]; field_simp; norm_num
  · gcongr
  · gcongr
  · gcongr

example : ∃ H H' T T' g : ℝ, 0 < H ∧ 0 < T ∧ 0 < g ∧ H < H' ∧ T < T' :=
  ⟨1, 2, 5, 6, 9.81, by norm_num, by norm_num, by norm_num, by norm_num, by norm_num⟩
end C06
end
