import Verif.Lemmas.Basic
import Verif.Model.Hudson1959

/-! # Properties C07–C09: Hudson -/

open Classical
open PF
open CorePhysics Hudson1959
noncomputable section

namespace HudsonProof

/-- value of the no-damage mass on admissible inputs -/
theorem M50_eval {Hs rw ra KD c a : ℝ} (hH : 0 < Hs) (hw : 0 < rw) (hr : rw < ra) (hK : 0 < KD)
    (hc : 0 < c) (ha : 0 < a) :
    calculate_median_rock_mass_M50_no_damage (fin Hs) (fin rw) (fin ra) (fin KD) (fin c) (fin a) =
      fin (ra * (Hs * a) ^ 3 / (KD * ((ra - rw) / rw) ^ 3 * c)) := by
  obtain ⟨D, hD, rfl, hDe⟩ := Delta_eval hw hr
  unfold calculate_median_rock_mass_M50_no_damage
  rw [hDe]
  pf_eval []

theorem Hs_eval {M rw ra KD c a : ℝ} (hM : 0 < M) (hw : 0 < rw) (hr : rw < ra) (hK : 0 < KD)
    (hc : 0 < c) (ha : 0 < a) :
    calculate_significant_wave_height_Hs_no_damage (fin M) (fin rw) (fin ra) (fin KD) (fin c) (fin a)
      = fin (((ra - rw) / rw) / a * (M * KD * c / ra) ^ ((1 : ℝ) / 3)) := by
  obtain ⟨D, hD, rfl, hDe⟩ := Delta_eval hw hr
  have hra := hw.trans hr
  unfold calculate_significant_wave_height_Hs_no_damage
  rw [hDe]
  pf_eval []

end HudsonProof
open HudsonProof

/-- C07: Hs → M50 → Hs -/
theorem C07_Hs_of_M50_of_Hs (Hs rw ra KD c a : ℝ) (hH : 0 < Hs) (hw : 0 < rw) (hr : rw < ra)
    (hK : 0 < KD) (hc : 0 < c) (ha : 0 < a) :
    ∃ M : ℝ, 0 < M ∧
      calculate_median_rock_mass_M50_no_damage (fin Hs) (fin rw) (fin ra) (fin KD) (fin c) (fin a)
        = fin M ∧
      calculate_significant_wave_height_Hs_no_damage (fin M) (fin rw) (fin ra) (fin KD) (fin c)
        (fin a) = fin Hs := by
  have hD : 0 < (ra - rw) / rw := div_pos (sub_pos.mpr hr) hw
  have hra := hw.trans hr
  refine ⟨_, ?_, M50_eval hH hw hr hK hc ha, ?_⟩
  · positivity
  · rw [Hs_eval (by positivity) hw hr hK hc ha, fin_inj]
    generalize (ra - rw) / rw = D at hD ⊢
    have : ra * (Hs * a) ^ 3 / (KD * D ^ 3 * c) * KD * c / ra = (Hs * a / D) ^ 3 := by field_simp
    rw [this, cube_rpow_third (by positivity)]
    field_simp

example := C07_Hs_of_M50_of_Hs (Hs := 2) (rw := 1025) (ra := 2650) (KD := 8) (c := 2) (a := 1) (by norm_num)
  (by norm_num) (by norm_num) (by norm_num) (by norm_num) (by norm_num)

/-- C07: M50 → Hs → M50 -/
theorem C07_M50_of_Hs_of_M50 (M rw ra KD c a : ℝ) (hM : 0 < M) (hw : 0 < rw) (hr : rw < ra)
    (hK : 0 < KD) (hc : 0 < c) (ha : 0 < a) :
    ∃ H : ℝ, 0 < H ∧
      calculate_significant_wave_height_Hs_no_damage (fin M) (fin rw) (fin ra) (fin KD) (fin c)
        (fin a) = fin H ∧
      calculate_median_rock_mass_M50_no_damage (fin H) (fin rw) (fin ra) (fin KD) (fin c) (fin a)
        = fin M := by
  have hD : 0 < (ra - rw) / rw := div_pos (sub_pos.mpr hr) hw
  have hra := hw.trans hr
  refine ⟨_, ?_, Hs_eval hM hw hr hK hc ha, ?_⟩
  · positivity
  · rw [M50_eval (by positivity) hw hr hK hc ha, fin_inj]
    generalize (ra - rw) / rw = D at hD ⊢
    have e := rpow_third_cube (x := M * KD * c / ra) (by positivity)
    generalize (M * KD * c / ra) ^ ((1 : ℝ) / 3) = t at e ⊢
    have : (D / a * t * a) ^ 3 = D ^ 3 * t ^ 3 := by field_simp
    rw [this, e]
    field_simp

example : ∃ Hs rw ra KD c a : ℝ, 0 < Hs ∧ 0 < rw ∧ rw < ra ∧ 0 < KD ∧ 0 < c ∧ 0 < a :=
  ⟨2, 1025, 2650, 4, 3, 1.27, by norm_num, by norm_num, by norm_num, by norm_num, by norm_num,
    by norm_num⟩

namespace HudsonProof

/-- published factors for rough rock by damage class -/
def roughR (d : ℝ) : ℝ :=
  if d < 5 then 1.0 else if d < 10 then 1.08 else if d < 15 then 1.14 else if d < 20 then 1.20
  else if d < 30 then 1.29 else if d < 40 then 1.41 else 1.54
/-- published factors for smooth rock by damage class -/
def smoothR (d : ℝ) : ℝ :=
  if d < 5 then 1.0 else if d < 10 then 1.08 else if d < 15 then 1.19 else if d < 20 then 1.27
  else if d < 30 then 1.37 else if d < 40 then 1.47 else 1.56

theorem searchsorted_eval (d : ℝ) :
    searchsorted_right percentages (fin d) =
      if d < 0 then 0 else if d < 5 then 1 else if d < 10 then 2 else if d < 15 then 3
      else if d < 20 then 4 else if d < 30 then 5 else if d < 40 then 6 else if d < 50 then 7
      else if d < 100 then 8 else 9 := by
  simp only [searchsorted_right, percentages, isnan_fin, if_false, ofNat_eq, zero_eq, le_fin,
    List.takeWhile_cons, List.takeWhile_nil, decide_eq_true_eq, ← not_lt, ite_not,
    apply_ite List.length, List.length_nil, List.length_cons]
  norm_num
  split_ifs <;> rfl

theorem rough_eval {d : ℝ} {rt : String} (hd : d < 100) (hrt : norm rt = "rough") :
    lookup_table_damage_factors (fin d) rt = ⟨[], .ok (fin (roughR d))⟩ := by
  unfold lookup_table_damage_factors
  rw [searchsorted_eval, if_pos hrt]
  unfold roughR
  split_ifs <;> first | rfl | (exfalso; linarith)

theorem smooth_eval {d : ℝ} {rt : String} (hd : d < 100) (hrt : norm rt = "smooth") :
    lookup_table_damage_factors (fin d) rt = ⟨[], .ok (fin (smoothR d))⟩ := by
  have h2 : norm rt ≠ "rough" := by rw [hrt]; decide
  unfold lookup_table_damage_factors
  rw [searchsorted_eval, if_neg h2, if_pos hrt]
  unfold smoothR
  split_ifs <;> first | rfl | (exfalso; linarith)

theorem rough_mono {d d' : ℝ} (h : d ≤ d') : 1 ≤ roughR d ∧ roughR d ≤ roughR d' := by
  unfold roughR
  split_ifs <;> first | (exfalso; linarith) | norm_num
theorem smooth_mono {d d' : ℝ} (h : d ≤ d') : 1 ≤ smoothR d ∧ smoothR d ≤ smoothR d' := by
  unfold smoothR
  split_ifs <;> first | (exfalso; linarith) | norm_num

end HudsonProof

/-- The two rock types the code knows, up to case and surrounding white space. -/
def KnownRockType (rt : String) : Prop := norm rt = "rough" ∨ norm rt = "smooth"

/-- C09 (table): below 100 % both rock types have a factor; it is at least 1, non-decreasing in the
damage percentage, and exactly 1 below 5 %. -/
theorem C09_factor (rt : String) (hrt : KnownRockType rt) (d d' : ℝ) (hdd : d ≤ d') (hd' : d' < 100) :
    ∃ f f' : ℝ, lookup_table_damage_factors (fin d) rt = ⟨[], .ok (fin f)⟩ ∧
      lookup_table_damage_factors (fin d') rt = ⟨[], .ok (fin f')⟩ ∧ 1 ≤ f ∧ f ≤ f' ∧
      (d < 5 → f = 1) := by
  rcases hrt with h | h
  · exact ⟨_, _, rough_eval (by linarith) h, rough_eval hd' h, (rough_mono hdd).1,
      (rough_mono hdd).2, fun h5 => by simp [roughR, h5]; norm_num⟩
  · exact ⟨_, _, smooth_eval (by linarith) h, smooth_eval hd' h, (smooth_mono hdd).1,
      (smooth_mono hdd).2, fun h5 => by simp [smoothR, h5]; norm_num⟩

/-- C08: Hs → M50 → Hs at the same damage percentage and rock type (percentages below 100). -/
theorem C08_Hs_of_M50_of_Hs_partial (Hs rw ra KD c a d : ℝ) (rt : String) (hrt : KnownRockType rt)
    (hd : d < 100) (hH : 0 < Hs) (hw : 0 < rw) (hr : rw < ra) (hK : 0 < KD) (hc : 0 < c)
    (ha : 0 < a) :
    ∃ M : ℝ, 0 < M ∧
      calculate_median_rock_mass_M50 (fin Hs) (fin rw) (fin ra) (fin KD) (fin c) (fin d) rt (fin a)
        = ⟨[], .ok (fin M)⟩ ∧
      calculate_significant_wave_height_Hs (fin M) (fin rw) (fin ra) (fin KD) (fin c) (fin d) rt
        (fin a) = ⟨[], .ok (fin Hs)⟩ := by
  obtain ⟨f, _, hf, _, h1, _, _⟩ := C09_factor rt hrt d d le_rfl hd
  have hf0 : 0 < f := by linarith
  have hD : 0 < (ra - rw) / rw := div_pos (sub_pos.mpr hr) hw
  have hra := hw.trans hr
  refine ⟨ra * (Hs * a) ^ 3 / (KD * ((ra - rw) / rw) ^ 3 * c) / f ^ 3, by positivity, ?_, ?_⟩
  · unfold calculate_median_rock_mass_M50
    rw [hf, M50_eval hH hw hr hK hc ha]
    simp only [PyM.bind_ok, PyM.pure_def, List.nil_append]
    pf_eval []
  · unfold calculate_significant_wave_height_Hs
    rw [hf, Hs_eval (by positivity) hw hr hK hc ha]
    simp only [PyM.bind_ok, PyM.pure_def, List.nil_append, mul_fin]
    generalize (ra - rw) / rw = D at hD ⊢
    have : ra * (Hs * a) ^ 3 / (KD * D ^ 3 * c) / f ^ 3 * KD * c / ra = (Hs * a / D / f) ^ 3 := by
      field_simp
    rw [this, cube_rpow_third (by positivity)]
    field_simp

/-- C08: M50 → Hs → M50 at the same damage percentage and rock type (percentages below 100). -/
theorem C08_M50_of_Hs_of_M50_partial (M rw ra KD c a d : ℝ) (rt : String) (hrt : KnownRockType rt)
    (hd : d < 100) (hM : 0 < M) (hw : 0 < rw) (hr : rw < ra) (hK : 0 < KD) (hc : 0 < c)
    (ha : 0 < a) :
    ∃ H : ℝ, 0 < H ∧
      calculate_significant_wave_height_Hs (fin M) (fin rw) (fin ra) (fin KD) (fin c) (fin d) rt
        (fin a) = ⟨[], .ok (fin H)⟩ ∧
      calculate_median_rock_mass_M50 (fin H) (fin rw) (fin ra) (fin KD) (fin c) (fin d) rt (fin a)
        = ⟨[], .ok (fin M)⟩ := by
  obtain ⟨f, _, hf, _, h1, _, _⟩ := C09_factor rt hrt d d le_rfl hd
  have hf0 : 0 < f := by linarith
  have hD : 0 < (ra - rw) / rw := div_pos (sub_pos.mpr hr) hw
  have hra := hw.trans hr
  refine ⟨((ra - rw) / rw) / a * (M * KD * c / ra) ^ ((1 : ℝ) / 3) * f, by positivity, ?_, ?_⟩
  · unfold calculate_significant_wave_height_Hs
    rw [hf, Hs_eval hM hw hr hK hc ha]
    simp only [PyM.bind_ok, PyM.pure_def, List.nil_append, mul_fin]
  · unfold calculate_median_rock_mass_M50
    rw [hf, M50_eval (by positivity) hw hr hK hc ha]
    simp only [PyM.bind_ok, PyM.pure_def, List.nil_append]
    generalize (ra - rw) / rw = D at hD ⊢
    have e := rpow_third_cube (x := M * KD * c / ra) (by positivity)
    generalize (M * KD * c / ra) ^ ((1 : ℝ) / 3) = t at e ⊢
    have e2 : (D / a * t * f * a) ^ 3 = D ^ 3 * t ^ 3 * f ^ 3 := by field_simp
    rw [e2, e]
    pf_eval []
    congr 3
    field_simp

/-- C08: an unknown rock type is a ValueError, whatever the damage. -/
theorem C08_unknown_rock_type (Hs M rw ra KD c a d : PF) (rt : String) (h : ¬ KnownRockType rt) :
    calculate_median_rock_mass_M50 Hs rw ra KD c d rt a = ⟨[], .error .valueError⟩ ∧
    calculate_significant_wave_height_Hs M rw ra KD c d rt a = ⟨[], .error .valueError⟩ := by
  have h1 : norm rt ≠ "rough" := fun e => h (.inl e)
  have h2 : norm rt ≠ "smooth" := fun e => h (.inr e)
  simp [calculate_median_rock_mass_M50, calculate_significant_wave_height_Hs,
    lookup_table_damage_factors, h1, h2]

/-- C08 fails at its upper end: a damage of 100 % — the last entry of the table — and anything above
raises IndexError for both rock types, for all other inputs. -/
theorem C08_hundred_percent_refuted (Hs M rw ra KD c a : PF) (d : ℝ) (rt : String)
    (h : KnownRockType rt) (hd : 100 ≤ d) :
    calculate_median_rock_mass_M50 Hs rw ra KD c (fin d) rt a = ⟨[], .error .indexError⟩ ∧
    calculate_significant_wave_height_Hs M rw ra KD c (fin d) rt a = ⟨[], .error .indexError⟩ := by
  have hs : searchsorted_right percentages (fin d) = 9 := by
    rw [searchsorted_eval]; split_ifs <;> first | rfl | (exfalso; linarith)
  have hl : lookup_table_damage_factors (fin d) rt = ⟨[], .error .indexError⟩ := by
    unfold lookup_table_damage_factors
    rw [hs]
    rcases h with h | h
    · rw [if_pos h]; rfl
    · have h2 : norm rt ≠ "rough" := by rw [h]; decide
      rw [if_neg h2, if_pos h]; rfl
  simp [calculate_median_rock_mass_M50, calculate_significant_wave_height_Hs, hl]

/-- C09: the required mass does not increase and the allowed wave height does not decrease with the
accepted damage; below 5 % the mass is the no-damage mass, and it never exceeds it. -/
theorem C09_monotone (Hs M rw ra KD c a d d' : ℝ) (rt : String) (hrt : KnownRockType rt)
    (hdd : d ≤ d') (hd' : d' < 100) (hH : 0 < Hs) (hM : 0 < M) (hw : 0 < rw) (hr : rw < ra)
    (hK : 0 < KD) (hc : 0 < c) (ha : 0 < a) :
    ∃ m0 m m' h h' : ℝ,
      calculate_median_rock_mass_M50_no_damage (fin Hs) (fin rw) (fin ra) (fin KD) (fin c) (fin a)
        = fin m0 ∧
      calculate_median_rock_mass_M50 (fin Hs) (fin rw) (fin ra) (fin KD) (fin c) (fin d) rt (fin a)
        = ⟨[], .ok (fin m)⟩ ∧
      calculate_median_rock_mass_M50 (fin Hs) (fin rw) (fin ra) (fin KD) (fin c) (fin d') rt (fin a)
        = ⟨[], .ok (fin m')⟩ ∧
      calculate_significant_wave_height_Hs (fin M) (fin rw) (fin ra) (fin KD) (fin c) (fin d) rt
        (fin a) = ⟨[], .ok (fin h)⟩ ∧
      calculate_significant_wave_height_Hs (fin M) (fin rw) (fin ra) (fin KD) (fin c) (fin d') rt
        (fin a) = ⟨[], .ok (fin h')⟩ ∧
      m' ≤ m ∧ m ≤ m0 ∧ (d < 5 → m = m0) ∧ h ≤ h' := by
  obtain ⟨f, f', hf, hf', h1, h2, h3⟩ := C09_factor rt hrt d d' hdd hd'
  have hf0 : 0 < f := by linarith
  have hf0' : 0 < f' := by linarith
  have hD : 0 < (ra - rw) / rw := div_pos (sub_pos.mpr hr) hw
  have hra := hw.trans hr
  have hm0 : 0 < ra * (Hs * a) ^ 3 / (KD * ((ra - rw) / rw) ^ 3 * c) := by positivity
  have em := M50_eval hH hw hr hK hc ha
  have eh := Hs_eval hM hw hr hK hc ha
  have hh0 : 0 < ((ra - rw) / rw) / a * (M * KD * c / ra) ^ ((1 : ℝ) / 3) := by positivity
  generalize ra * (Hs * a) ^ 3 / (KD * ((ra - rw) / rw) ^ 3 * c) = m0 at em hm0
  generalize ((ra - rw) / rw) / a * (M * KD * c / ra) ^ ((1 : ℝ) / 3) = h0 at eh hh0
  refine ⟨m0, m0 / f ^ 3, m0 / f' ^ 3, h0 * f, h0 * f', em, ?_, ?_, ?_, ?_, ?_, ?_, ?_, ?_⟩
  · unfold calculate_median_rock_mass_M50
    rw [hf, em]
    simp only [PyM.bind_ok, PyM.pure_def, List.nil_append]
    pf_eval []
  · unfold calculate_median_rock_mass_M50
    rw [hf', em]
    simp only [PyM.bind_ok, PyM.pure_def, List.nil_append]
    pf_eval []
  · unfold calculate_significant_wave_height_Hs
    rw [hf, eh]
    simp only [PyM.bind_ok, PyM.pure_def, List.nil_append, mul_fin]
  · unfold calculate_significant_wave_height_Hs
    rw [hf', eh]
    simp only [PyM.bind_ok, PyM.pure_def, List.nil_append, mul_fin]
  · gcongr
  · exact div_le_self hm0.le (one_le_pow₀ h1)
  · intro h5; rw [h3 h5]; simp
  · gcongr

example : KnownRockType " Rough" ∧ KnownRockType "smooth" ∧ ¬ KnownRockType "angular" := by
  refine ⟨.inl ?_, .inr ?_, ?_⟩
  · decide
  · decide
  · rintro (h | h) <;> revert h <;> decide
end
