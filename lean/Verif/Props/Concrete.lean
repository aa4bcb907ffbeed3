import Verif.Spec
import Verif.Lemmas.Check
import Verif.Lemmas.Basic
import Verif.Props.Hudson
import Verif.Model.ConcreteHudson
import Verif.Model.Xbloc
import Verif.Model.Cubes

/-! # Properties C10–C16: concrete armour units -/

open Classical
open PF
open CorePhysics
noncomputable section

/-! ## C10 -/

section C10
variable (rw ra KD c a : ℝ) (hw : 0 < rw) (hr : rw < ra) (hK : 0 < KD) (hc : 0 < c) (ha : 0 < a)
include hw hr hK hc ha

theorem C10_accropode : MutuallyInverse
    (fun H => Accropode.calculate_unit_mass_M H (fin rw) (fin ra) (fin KD) (fin c) (fin a))
    (fun M => Accropode.calculate_significant_wave_height_Hs M (fin rw) (fin ra) (fin KD) (fin c)
      (fin a)) := by
  constructor
  · intro H hH
    obtain ⟨M, hM, h1, h2⟩ := C07_Hs_of_M50_of_Hs H rw ra KD c a hH hw hr hK hc ha
    exact ⟨M, hM, by simp [Accropode.calculate_unit_mass_M, Accropode.check_validity_range, h1,
        bind_assoc],
      by simp [Accropode.calculate_significant_wave_height_Hs, Accropode.check_validity_range, h2,
        bind_assoc]⟩
  · intro M hM
    obtain ⟨H, hH, h1, h2⟩ := C07_M50_of_Hs_of_M50 M rw ra KD c a hM hw hr hK hc ha
    exact ⟨H, hH, by simp [Accropode.calculate_significant_wave_height_Hs,
        Accropode.check_validity_range, h1, bind_assoc],
      by simp [Accropode.calculate_unit_mass_M, Accropode.check_validity_range, h2, bind_assoc]⟩

example := C10_accropode (rw := 1025) (ra := 2650) (KD := 8) (c := 2) (a := 1) (by norm_num) (by norm_num)
  (by norm_num) (by norm_num) (by norm_num)

theorem C10_accropode2 : MutuallyInverse
    (fun H => Accropode2.calculate_unit_mass_M H (fin rw) (fin ra) (fin KD) (fin c) (fin a))
    (fun M => Accropode2.calculate_significant_wave_height_Hs M (fin rw) (fin ra) (fin KD) (fin c)
      (fin a)) := by
  constructor
  · intro H hH
    obtain ⟨M, hM, h1, h2⟩ := C07_Hs_of_M50_of_Hs H rw ra KD c a hH hw hr hK hc ha
    exact ⟨M, hM, by simp [Accropode2.calculate_unit_mass_M, Accropode2.check_validity_range, h1,
        bind_assoc],
      by simp [Accropode2.calculate_significant_wave_height_Hs, Accropode2.check_validity_range, h2,
        bind_assoc]⟩
  · intro M hM
    obtain ⟨H, hH, h1, h2⟩ := C07_M50_of_Hs_of_M50 M rw ra KD c a hM hw hr hK hc ha
    exact ⟨H, hH, by simp [Accropode2.calculate_significant_wave_height_Hs,
        Accropode2.check_validity_range, h1, bind_assoc],
      by simp [Accropode2.calculate_unit_mass_M, Accropode2.check_validity_range, h2, bind_assoc]⟩

example := C10_accropode2 (rw := 1025) (ra := 2650) (KD := 8) (c := 2) (a := 1) (by norm_num) (by norm_num)
  (by norm_num) (by norm_num) (by norm_num)

theorem C10_plain_wrappers :
    MutuallyInverse
      (plain fun H => CoreLoc.calculate_unit_mass_M H (fin rw) (fin ra) (fin KD) (fin c) (fin a))
      (plain fun M => CoreLoc.calculate_significant_wave_height_Hs M (fin rw) (fin ra) (fin KD)
        (fin c) (fin a)) ∧
    MutuallyInverse
      (plain fun H => CubesHudson.calculate_unit_mass_M H (fin rw) (fin ra) (fin KD) (fin c) (fin a))
      (plain fun M => CubesHudson.calculate_significant_wave_height_Hs M (fin rw) (fin ra) (fin KD)
        (fin c) (fin a)) ∧
    MutuallyInverse
      (plain fun H => Cubipod.calculate_unit_mass_M H (fin rw) (fin ra) (fin KD) (fin c) (fin a))
      (plain fun M => Cubipod.calculate_significant_wave_height_Hs M (fin rw) (fin ra) (fin KD)
        (fin c) (fin a)) ∧
    MutuallyInverse
      (plain fun H => Tetrapod.calculate_unit_mass_M H (fin rw) (fin ra) (fin KD) (fin c) (fin a))
      (plain fun M => Tetrapod.calculate_significant_wave_height_Hs M (fin rw) (fin ra) (fin KD)
        (fin c) (fin a)) := by
  have key : MutuallyInverse
      (plain fun H => Hudson1959.calculate_median_rock_mass_M50_no_damage H (fin rw) (fin ra)
        (fin KD) (fin c) (fin a))
      (plain fun M => Hudson1959.calculate_significant_wave_height_Hs_no_damage M (fin rw) (fin ra)
        (fin KD) (fin c) (fin a)) := by
    constructor
    · intro H hH
      obtain ⟨M, hM, h1, h2⟩ := C07_Hs_of_M50_of_Hs H rw ra KD c a hH hw hr hK hc ha
      exact ⟨M, hM, by simp [plain, h1], by simp [plain, h2]⟩
    · intro M hM
      obtain ⟨H, hH, h1, h2⟩ := C07_M50_of_Hs_of_M50 M rw ra KD c a hM hw hr hK hc ha
      exact ⟨H, hH, by simp [plain, h1], by simp [plain, h2]⟩
  exact ⟨key, key, key, key⟩
end C10

/-- The defaults of the wrappers (slope 1:1.33, alpha_Hs = 1) meet the hypotheses. -/
example : ∃ rw ra KD c a : ℝ, 0 < rw ∧ rw < ra ∧ 0 < KD ∧ 0 < c ∧ 0 < a :=
  ⟨1025, 2400, 15, 1.33, 1, by norm_num, by norm_num, by norm_num, by norm_num, by norm_num⟩

/-! ## C11 -/

/-- Published Accropode design table: 15 up to 1 %, linear to 9.7 at 5 %, linear to 8 at 10 %, constant
beyond. -/
def accropodeTable (x : ℝ) : ℝ :=
  if x ≤ 1 then 15 else if x ≤ 5 then 15 - 5.3 * (x - 1) / 4
  else if x ≤ 10 then 9.7 - 1.7 * (x - 5) / 5 else 8

/-- Published Accropode II / Core-Loc design table: 16 up to 1 %, 10.66 at 5 %, 9 at 10 %. -/
def accropode2Table (x : ℝ) : ℝ :=
  if x ≤ 1 then 16 else if x ≤ 5 then 16 - 5.34 * (x - 1) / 4
  else if x ≤ 10 then 10.66 - 1.66 * (x - 5) / 5 else 9

/-- `kd` is a conservative reading of `table`: rounded down to a multiple of 0.1, by less than 0.1,
non-increasing, within `[lo, hi]`. -/
def ConservativeReading (kd : PF → PyM PF) (table : ℝ → ℝ) (lo hi : ℝ) : Prop :=
  ∃ r : ℝ → ℝ, (∀ x, (kd (fin x)).res = .ok (fin (r x))) ∧
    (∀ x, r x ≤ table x ∧ table x < r x + 0.1) ∧ (∀ x, ∃ k : ℤ, r x = k * 0.1) ∧
    (∀ x y, x ≤ y → r y ≤ r x) ∧ (∀ x, lo ≤ r x ∧ r x ≤ hi)

namespace ConcreteProof

theorem interp_acc (x : ℝ) :
    interpR x [(0, 15), (1, 15), (5, 9.7), (10, 8)] = accropodeTable x := by
  simp only [interpR, accropodeTable]
  split_ifs <;> first | (exfalso; linarith) | (norm_num; done) | (norm_num; linarith)
theorem interp_acc2 (x : ℝ) :
    interpR x [(0, 16), (1, 16), (5, 10.66), (10, 9)] = accropode2Table x := by
  simp only [interpR, accropode2Table]
  split_ifs <;> first | (exfalso; linarith) | (norm_num; done) | (norm_num; linarith)

theorem acc_anti {x y : ℝ} (h : x ≤ y) : accropodeTable y ≤ accropodeTable x := by
  unfold accropodeTable
  split_ifs <;> linarith
theorem acc_bounds (x : ℝ) : 8 ≤ accropodeTable x ∧ accropodeTable x ≤ 15 := by
  unfold accropodeTable
  split_ifs <;> constructor <;> linarith
theorem acc2_anti {x y : ℝ} (h : x ≤ y) : accropode2Table y ≤ accropode2Table x := by
  unfold accropode2Table
  split_ifs <;> linarith
theorem acc2_bounds (x : ℝ) : 9 ≤ accropode2Table x ∧ accropode2Table x ≤ 16 := by
  unfold accropode2Table
  split_ifs <;> constructor <;> linarith

theorem reading_of_floor {kd : PF → PyM PF} {table : ℝ → ℝ} {lo hi : ℝ} (klo : ℤ)
    (hkd : ∀ x, (kd (fin x)).res = .ok (fin (⌊table x / 0.1⌋ * 0.1)))
    (hanti : ∀ x y, x ≤ y → table y ≤ table x) (hb : ∀ x, lo ≤ table x ∧ table x ≤ hi)
    (hlo : lo = klo * 0.1) :
    ConservativeReading kd table lo hi := by
  have fl : ∀ t : ℝ, (⌊t / 0.1⌋ : ℝ) * 0.1 ≤ t ∧ t < (⌊t / 0.1⌋ : ℝ) * 0.1 + 0.1 := by
    intro t
    have h1 := Int.floor_le (t / 0.1)
    have h2 := Int.lt_floor_add_one (t / 0.1)
    rw [le_div_iff₀ (by norm_num)] at h1
    rw [div_lt_iff₀ (by norm_num)] at h2
    constructor <;> linarith
  refine ⟨fun x => ⌊table x / 0.1⌋ * 0.1, hkd, fun x => fl _, fun x => ⟨_, rfl⟩, ?_, ?_⟩
  · intro x y h
    have : table y / 0.1 ≤ table x / 0.1 := by
      have := hanti x y h; gcongr
    have : (⌊table y / 0.1⌋ : ℝ) ≤ ⌊table x / 0.1⌋ := by exact_mod_cast Int.floor_mono this
    simp only; linarith
  · intro x
    refine ⟨?_, (fl _).1.trans (hb x).2⟩
    have : klo ≤ ⌊table x / 0.1⌋ := by
      rw [Int.le_floor, le_div_iff₀ (by norm_num), ← hlo]; exact (hb x).1
    have : (klo : ℝ) ≤ ⌊table x / 0.1⌋ := by exact_mod_cast this
    rw [hlo]; simp only; linarith

end ConcreteProof
open ConcreteProof

theorem C11_accropode : ConservativeReading
    Accropode.calculate_KD_breaking_trunk_from_seabed_slope accropodeTable 8 15 := by
  refine reading_of_floor 80 ?_ (fun x y => acc_anti) acc_bounds (by norm_num)
  intro x
  simp [Accropode.calculate_KD_breaking_trunk_from_seabed_slope, Accropode.check_validity_range,
    bind_assoc, np_interp, interp_acc]
  pf_eval []

theorem C11_accropode2 : ConservativeReading
    Accropode2.calculate_KD_breaking_trunk_from_seabed_slope accropode2Table 9 16 := by
  refine reading_of_floor 90 ?_ (fun x y => acc2_anti) acc2_bounds (by norm_num)
  intro x
  simp [Accropode2.calculate_KD_breaking_trunk_from_seabed_slope, Accropode2.check_validity_range,
    bind_assoc, np_interp, interp_acc2]
  pf_eval []

theorem C11_coreloc : ConservativeReading
    CoreLoc.calculate_KD_breaking_trunk_from_seabed_slope accropode2Table 9 16 := by
  refine reading_of_floor 90 ?_ (fun x y => acc2_anti) acc2_bounds (by norm_num)
  intro x
  simp [CoreLoc.calculate_KD_breaking_trunk_from_seabed_slope, CoreLoc.check_validity_range,
    bind_assoc, np_interp, interp_acc2]
  pf_eval []

/-- Non-breaking waves: the table's maximum, i.e. never below the breaking value. -/
theorem C11_nonbreaking (x : ℝ) :
    (∃ k, (Accropode.calculate_KD_breaking_trunk_from_seabed_slope (fin x)).res = .ok (fin k) ∧
      fin k ≤ Accropode.calculate_KD_nonbreaking_trunk_from_seabed_slope) ∧
    (∃ k, (Accropode2.calculate_KD_breaking_trunk_from_seabed_slope (fin x)).res = .ok (fin k) ∧
      fin k ≤ Accropode2.calculate_KD_nonbreaking_trunk_from_seabed_slope) ∧
    (∃ k, (CoreLoc.calculate_KD_breaking_trunk_from_seabed_slope (fin x)).res = .ok (fin k) ∧
      fin k ≤ CoreLoc.calculate_KD_nonbreaking_trunk_from_seabed_slope) := by
  obtain ⟨r1, h1, -, -, -, b1⟩ := C11_accropode
  obtain ⟨r2, h2, -, -, -, b2⟩ := C11_accropode2
  obtain ⟨r3, h3, -, -, -, b3⟩ := C11_coreloc
  refine ⟨⟨_, h1 x, ?_⟩, ⟨_, h2 x, ?_⟩, ⟨_, h3 x, ?_⟩⟩
  · show r1 x ≤ 15.0; have := (b1 x).2; norm_num; exact this
  · show r2 x ≤ 16.0; have := (b2 x).2; norm_num; exact this
  · show r3 x ≤ 16.0; have := (b3 x).2; norm_num; exact this

example : accropodeTable 3 = 12.35 := by norm_num [accropodeTable]

/-! ## C12 -/
/-- scaling the volume by the density keeps a pair inverse -/
theorem ConcreteProof.scale_inverse {f g : PF → PF} {ra : ℝ} (hra : 0 < ra)
    (h : MutuallyInverse (plain f) (plain g)) :
    MutuallyInverse (plain fun H => f H * fin ra) (plain fun M => g (M / fin ra)) := by
  obtain ⟨h1, h2⟩ := h
  simp only [plain, PyM.pure_def, Except.ok.injEq] at h1 h2
  constructor
  · intro H hH
    obtain ⟨V, hV, e1, e2⟩ := h1 H hH
    refine ⟨V * ra, by positivity, ?_, ?_⟩
    · simp only [plain, PyM.pure_def, e1, mul_fin]
    · simp only [plain, PyM.pure_def, div_fin hra.ne', mul_div_cancel_right₀ _ hra.ne', e2]
  · intro M hM
    obtain ⟨H, hH, e1, e2⟩ := h2 (M / ra) (by positivity)
    refine ⟨H, hH, ?_, ?_⟩
    · simp only [plain, PyM.pure_def, div_fin hra.ne', e1]
    · simp only [plain, PyM.pure_def, e2, mul_fin, div_mul_cancel₀ _ hra.ne']

section C12
variable (rw ra cf : ℝ) (hw : 0 < rw) (hr : rw < ra) (hcf : 0 < cf)
include hw hr hcf

theorem C12_xbloc_volume : MutuallyInverse
    (plain fun H => Xbloc.calculate_unit_volume_V H (fin rw) (fin ra) (fin cf))
    (plain fun V => Xbloc.calculate_wave_height_Hs_from_V V (fin rw) (fin ra) (fin cf)) := by
  obtain ⟨D, hD, -, hDe⟩ := Delta_eval hw hr
  constructor
  · intro H hH
    refine ⟨cf * (H / (2.77 * D)) ^ 3, by positivity, ?_, ?_⟩
    · simp only [plain, PyM.pure_def, Xbloc.calculate_unit_volume_V, hDe]; pf_eval []
    · simp only [plain, PyM.pure_def, Xbloc.calculate_wave_height_Hs_from_V, hDe]; pf_eval []
      rw [mul_div_cancel_left₀ _ hcf.ne', cube_rpow_third (by positivity)]
      congr 2; field_simp
  · intro V hV
    refine ⟨(V / cf) ^ ((1 : ℝ) / 3) * 2.77 * D, by positivity, ?_, ?_⟩
    · simp only [plain, PyM.pure_def, Xbloc.calculate_wave_height_Hs_from_V, hDe]; pf_eval []
    · simp only [plain, PyM.pure_def, Xbloc.calculate_unit_volume_V, hDe]; pf_eval []
      have e : (V / cf) ^ ((1 : ℝ) / 3) * 2.77 * D / (2.77 * D) = (V / cf) ^ ((1 : ℝ) / 3) := by
        field_simp
      rw [e, rpow_third_cube (by positivity)]
      congr 2; field_simp

example := C12_xbloc_volume (rw := 1025) (ra := 2650) (cf := 1) (by norm_num) (by norm_num) (by norm_num)

theorem C12_xblocplus_volume : MutuallyInverse
    (plain fun H => XblocPlus.calculate_unit_volume_V H (fin rw) (fin ra) (fin cf))
    (plain fun V => XblocPlus.calculate_wave_height_Hs_from_V V (fin rw) (fin ra) (fin cf)) := by
  obtain ⟨D, hD, -, hDe⟩ := Delta_eval hw hr
  constructor
  · intro H hH
    refine ⟨cf * (H / (2.5 * D)) ^ 3, by positivity, ?_, ?_⟩
    · simp only [plain, PyM.pure_def, XblocPlus.calculate_unit_volume_V, hDe]; pf_eval []
    · simp only [plain, PyM.pure_def, XblocPlus.calculate_wave_height_Hs_from_V, hDe]; pf_eval []
      rw [mul_div_cancel_left₀ _ hcf.ne', cube_rpow_third (by positivity)]
      congr 2; field_simp
  · intro V hV
    refine ⟨(V / cf) ^ ((1 : ℝ) / 3) * 2.5 * D, by positivity, ?_, ?_⟩
    · simp only [plain, PyM.pure_def, XblocPlus.calculate_wave_height_Hs_from_V, hDe]; pf_eval []
    · simp only [plain, PyM.pure_def, XblocPlus.calculate_unit_volume_V, hDe]; pf_eval []
      have e : (V / cf) ^ ((1 : ℝ) / 3) * 2.5 * D / (2.5 * D) = (V / cf) ^ ((1 : ℝ) / 3) := by
        field_simp
      rw [e, rpow_third_cube (by positivity)]
      congr 2; field_simp

example := C12_xblocplus_volume (rw := 1025) (ra := 2650) (cf := 1) (by norm_num) (by norm_num)
  (by norm_num)

theorem C12_mass :
    MutuallyInverse
      (plain fun H => Xbloc.calculate_unit_mass_M H (fin rw) (fin ra) (fin cf))
      (plain fun M => Xbloc.calculate_wave_height_Hs_from_M M (fin rw) (fin ra) (fin cf)) ∧
    MutuallyInverse
      (plain fun H => XblocPlus.calculate_unit_mass_M H (fin rw) (fin ra) (fin cf))
      (plain fun M => XblocPlus.calculate_wave_height_Hs_from_M M (fin rw) (fin ra) (fin cf)) :=
  ⟨ConcreteProof.scale_inverse (hw.trans hr) (C12_xbloc_volume rw ra cf hw hr hcf),
   ConcreteProof.scale_inverse (hw.trans hr) (C12_xblocplus_volume rw ra cf hw hr hcf)⟩

example := C12_mass (rw := 1025) (ra := 2650) (cf := 1) (by norm_num) (by norm_num) (by norm_num)
end C12

/-! ## C13 -/

/-- the factor functions as real functions of a finite argument -/
def FactorFn (f : PF → PF) (r : ℝ → ℝ) : Prop := ∀ x, f (fin x) = fin (r x)

/-- Freeboard: at least 1, larger freeboard never needs a larger unit. -/
theorem C13_relative_freeboard :
    (∃ r, FactorFn Xbloc.calculate_correctionfactor_unit_mass_M_by_relative_freeboard r ∧
      (∀ x, 1 ≤ r x) ∧ (∀ x y, x ≤ y → r y ≤ r x) ∧ (∀ x, 1 ≤ x → r x = 1)) ∧
    (∃ r, FactorFn XblocPlus.calculate_correctionfactor_unit_mass_M_by_relative_freeboard r ∧
      (∀ x, 1 ≤ r x) ∧ (∀ x y, x ≤ y → r y ≤ r x) ∧ (∀ x, 1 ≤ x → r x = 1)) := by
  refine ⟨⟨fun x => if x < 0.5 then 2 else if x < 1 then 1.5 else 1, ?_, ?_, ?_, ?_⟩,
    ⟨fun x => if x < 0.5 then 1.5 else if x < 1 then 1.25 else 1, ?_, ?_, ?_, ?_⟩⟩
  · intro x
    simp only [Xbloc.calculate_correctionfactor_unit_mass_M_by_relative_freeboard, sci_eq, lt_fin]
    norm_num; split_ifs <;> simp
  · intro x; simp only; split_ifs <;> norm_num
  · intro x y h; simp only; split_ifs <;> first | (exfalso; linarith) | norm_num
  · intro x h; simp only; split_ifs <;> first | (exfalso; linarith) | norm_num
  · intro x
    simp only [XblocPlus.calculate_correctionfactor_unit_mass_M_by_relative_freeboard, sci_eq, lt_fin]
    norm_num; split_ifs <;> simp
  · intro x; simp only; split_ifs <;> norm_num
  · intro x y h; simp only; split_ifs <;> first | (exfalso; linarith) | norm_num
  · intro x h; simp only; split_ifs <;> first | (exfalso; linarith) | norm_num

/-- Seabed slope by cotangent: at least 1, gentler seabed never needs a larger unit, 1 beyond 1:30. -/
theorem C13_cotalpha_seabed :
    (∃ r, FactorFn Xbloc.calculate_correctionfactor_unit_mass_M_by_cotalpha_seabed r ∧
      (∀ x, 1 ≤ r x) ∧ (∀ x y, x ≤ y → r y ≤ r x) ∧ (∀ x, 30 < x → r x = 1)) ∧
    (∃ r, FactorFn XblocPlus.calculate_correctionfactor_unit_mass_M_by_cotalpha_seabed r ∧
      (∀ x, 1 ≤ r x) ∧ (∀ x y, x ≤ y → r y ≤ r x) ∧ (∀ x, 30 < x → r x = 1)) := by
  have key : ∀ x : ℝ, (if fin x ≤ 30 ∧ fin x > 20 then (1.1 : PF)
      else if fin x ≤ 20 ∧ fin x > 15 then 1.25 else if fin x ≤ 15 ∧ fin x > 10 then 1.5
      else if fin x ≤ 10 then 2.0 else 1.0) =
      fin (if x ≤ 10 then 2 else if x ≤ 15 then 1.5 else if x ≤ 20 then 1.25 else if x ≤ 30 then 1.1
        else 1) := by
    intro x
    simp only [ofNat_eq, sci_eq, le_fin, gt_fin]
    split_ifs <;> first | rfl | (norm_num; done) | (exfalso; simp_all; done) | (exfalso; simp_all; linarith)
  have k2 : (∀ x : ℝ, 1 ≤ (fun x : ℝ => if x ≤ 10 then 2 else if x ≤ 15 then 1.5 else
      if x ≤ 20 then 1.25 else if x ≤ 30 then 1.1 else (1 : ℝ)) x) ∧
      (∀ x y : ℝ, x ≤ y → (fun x : ℝ => if x ≤ 10 then 2 else if x ≤ 15 then 1.5 else
      if x ≤ 20 then 1.25 else if x ≤ 30 then 1.1 else (1 : ℝ)) y ≤
      (fun x : ℝ => if x ≤ 10 then 2 else if x ≤ 15 then 1.5 else
      if x ≤ 20 then 1.25 else if x ≤ 30 then 1.1 else (1 : ℝ)) x) ∧
      (∀ x : ℝ, 30 < x → (fun x : ℝ => if x ≤ 10 then 2 else if x ≤ 15 then 1.5 else
      if x ≤ 20 then 1.25 else if x ≤ 30 then 1.1 else (1 : ℝ)) x = 1) := by
    refine ⟨?_, ?_, ?_⟩
    · intro x; simp only; split_ifs <;> norm_num
    · intro x y h; simp only; split_ifs <;> first | (exfalso; linarith) | norm_num
    · intro x h; simp only; split_ifs <;> first | (exfalso; linarith) | norm_num
  exact ⟨⟨_, key, k2⟩, ⟨_, key, k2⟩⟩

/-- Seabed slope in per cent is the same as the cotangent 100 / slope. -/
theorem C13_percslope_seabed (p : ℝ) (hp : p ≠ 0) :
    Xbloc.calculate_correctionfactor_unit_mass_M_by_percslope_seabed (fin p) =
      Xbloc.calculate_correctionfactor_unit_mass_M_by_cotalpha_seabed (fin (100 / p)) ∧
    XblocPlus.calculate_correctionfactor_unit_mass_M_by_percslope_seabed (fin p) =
      XblocPlus.calculate_correctionfactor_unit_mass_M_by_cotalpha_seabed (fin (100 / p)) := by
  simp [Xbloc.calculate_correctionfactor_unit_mass_M_by_percslope_seabed,
    XblocPlus.calculate_correctionfactor_unit_mass_M_by_percslope_seabed, ofNat_eq, div_fin hp]

example := C13_percslope_seabed (p := 0.5) (by norm_num)

/-- Water depth: at least 1, deeper water never needs a smaller unit, 1 up to 2.5. -/
theorem C13_rel_depth :
    ∃ r, FactorFn Xbloc.calculate_correctionfactor_unit_mass_M_by_rel_depth r ∧
      (∀ x, 1 ≤ r x) ∧ (∀ x y, x ≤ y → r x ≤ r y) ∧ (∀ x, x ≤ 2.5 → r x = 1) ∧
      (∀ x, 3.5 < x → r x = 2) := by
  refine ⟨fun x => if 3.5 < x then 2 else if 2.5 < x then 1.5 else 1, ?_, ?_, ?_, ?_, ?_⟩
  · intro x
    simp only [Xbloc.calculate_correctionfactor_unit_mass_M_by_rel_depth, sci_eq, gt_fin]
    split_ifs <;> first | rfl | norm_num
  · intro x; simp only; split_ifs <;> norm_num
  · intro x y h; simp only; split_ifs <;> first | (exfalso; linarith) | norm_num
  · intro x h; simp only; split_ifs <;> first | (exfalso; linarith) | norm_num
  · intro x h; simp only; split_ifs <;> norm_num

/-- The switches never reduce the unit, and an impermeable core is never treated milder than a
low-permeability core. -/
theorem C13_switches (b lo : Bool) :
    (1 : PF) ≤ Xbloc.switch_correction_factor_unit_mass_M_near_design_event_frequency b ∧
    (1 : PF) ≤ Xbloc.switch_correctionfactor_unit_mass_M_by_core_permeability lo b ∧
    (1 : PF) ≤ XblocPlus.switch_correctionfactor_unit_mass_M_by_core_permeability lo b ∧
    Xbloc.switch_correctionfactor_unit_mass_M_by_core_permeability lo b ≤
      Xbloc.switch_correctionfactor_unit_mass_M_by_core_permeability lo true ∧
    XblocPlus.switch_correctionfactor_unit_mass_M_by_core_permeability lo b ≤
      XblocPlus.switch_correctionfactor_unit_mass_M_by_core_permeability lo true ∧
    Xbloc.switch_correctionfactor_unit_mass_M_by_core_permeability lo b ≤
      Xbloc.switch_correctionfactor_unit_mass_M_by_core_permeability true b ∧
    XblocPlus.switch_correctionfactor_unit_mass_M_by_core_permeability lo b ≤
      XblocPlus.switch_correctionfactor_unit_mass_M_by_core_permeability true b ∧
    Xbloc.switch_correctionfactor_unit_mass_M_by_core_permeability lo true =
      Xbloc.switch_correctionfactor_unit_mass_M_by_core_permeability false true ∧
    XblocPlus.switch_correctionfactor_unit_mass_M_by_core_permeability lo true =
      XblocPlus.switch_correctionfactor_unit_mass_M_by_core_permeability false true := by
  cases b <;> cases lo <;>
    simp [Xbloc.switch_correction_factor_unit_mass_M_near_design_event_frequency,
      Xbloc.switch_correctionfactor_unit_mass_M_by_core_permeability,
      XblocPlus.switch_correctionfactor_unit_mass_M_by_core_permeability, one_eq, sci_eq, le_fin] <;>
    norm_num

example : Xbloc.calculate_correctionfactor_unit_mass_M_by_rel_depth (fin 3) = fin 1.5 := by
  simp only [Xbloc.calculate_correctionfactor_unit_mass_M_by_rel_depth, sci_eq, gt_fin]
  norm_num

/-! ## C14 -/

/-- What the docstring promises: no correction at the standard slope (cot 4/3) or steeper, and milder
slopes are never corrected less than steeper ones. -/
def StructureSlopeFactorSound (f : PF → PF) : Prop :=
  ∃ r : ℝ → ℝ, FactorFn f r ∧ (∀ x, 0 < x → x ≤ 4 / 3 → r x = 1) ∧
    (∀ x y, 0 < x → x ≤ y → r x ≤ r y)

/-- The code violates it: the standard slope 1:1.33 gets 1.25, and cot 0.6 gets more than cot 2. -/
theorem C14_structure_slope_refuted :
    ¬ StructureSlopeFactorSound Xbloc.calculate_correctionfactor_unit_mass_M_by_structure_slope ∧
    Xbloc.calculate_correctionfactor_unit_mass_M_by_structure_slope (fin (4 / 3)) = fin 1.25 ∧
    Xbloc.calculate_correctionfactor_unit_mass_M_by_structure_slope (fin 0.6) = fin 1.5 ∧
    Xbloc.calculate_correctionfactor_unit_mass_M_by_structure_slope (fin 2) = fin 1.25 := by
  have e1 : Xbloc.calculate_correctionfactor_unit_mass_M_by_structure_slope (fin (4 / 3)) = fin 1.25 := by
    unfold Xbloc.calculate_correctionfactor_unit_mass_M_by_structure_slope
    pf_eval []; rw [if_pos (by norm_num)]
  have e2 : Xbloc.calculate_correctionfactor_unit_mass_M_by_structure_slope (fin 0.6) = fin 1.5 := by
    unfold Xbloc.calculate_correctionfactor_unit_mass_M_by_structure_slope
    pf_eval []; rw [if_neg (by norm_num), if_pos (by norm_num)]
  have e3 : Xbloc.calculate_correctionfactor_unit_mass_M_by_structure_slope (fin 2) = fin 1.25 := by
    unfold Xbloc.calculate_correctionfactor_unit_mass_M_by_structure_slope
    pf_eval []; rw [if_pos (by norm_num)]
  refine ⟨?_, e1, e2, e3⟩
  rintro ⟨r, hr, h1, -⟩
  have := h1 (4 / 3) (by norm_num) le_rfl
  rw [hr, fin_inj, this] at e1
  norm_num at e1

/-- What does hold: the factor is always one of 1, 1.25, 1.5, hence at least 1. -/
theorem C14_structure_slope_partial (x : ℝ) :
    ∃ r : ℝ, Xbloc.calculate_correctionfactor_unit_mass_M_by_structure_slope (fin x) = fin r ∧
      1 ≤ r ∧ r ≤ 1.5 := by
  unfold Xbloc.calculate_correctionfactor_unit_mass_M_by_structure_slope
  pf_eval []
  split_ifs
  · exact ⟨_, rfl, by norm_num, by norm_num⟩
  · exact ⟨_, rfl, by norm_num, by norm_num⟩
  · exact ⟨_, rfl, by norm_num, by norm_num⟩

/-! ## C15 -/
section C15
open CubesVdM

namespace ConcreteProof

@[simp] theorem cubes_check_res (a b c d e : PF) : (check_validity_range a b c d e).res = .ok () := by
  simp [check_validity_range]

end ConcreteProof
open ConcreteProof

variable (rw ra N Hs Tm Nod cot : ℝ) (hw : 0 < rw) (hr : rw < ra) (hN : 0 < N) (hH : 0 < Hs)
  (hT : 0 < Tm) (hNod : 0 < Nod)
include hw hr hN hH hT hNod

/-- C15: the cube size designed for a damage level, tested at the same wave height and steepness,
gives that damage level; and the wave height allowed for that size and level is the design height. -/
theorem C15_from_Nod :
    ∃ s Dn : ℝ, 0 < s ∧ 0 < Dn ∧
      calculate_wave_steepness_s (fin Hs) (fin Tm) = fin s ∧
      (calculate_nominal_diameter_Dn_vanDerMeer1988 (fin Hs) (fin Tm) (fin rw) (fin ra) (fin N)
        (fin cot) (fin Nod)).res = .ok (fin Dn) ∧
      (calculate_damage_Nod_vanDerMeer1988 (fin Hs) (fin Dn) (fin s) (fin rw) (fin ra) (fin N)
        (fin cot)).res = .ok (fin Nod) ∧
      (calculate_wave_height_Hs_vanDerMeer1988 (fin Dn) (fin s) (fin rw) (fin ra) (fin N)
        (fin cot) (fin Nod)).res = .ok (fin Hs) := by
  obtain ⟨D, hD, -, hDe⟩ := Delta_eval hw hr
  have hpi := Real.pi_pos
  obtain ⟨s, hs, hse⟩ : ∃ s : ℝ, 0 < s ∧ calculate_wave_steepness_s (fin Hs) (fin Tm) = fin s := by
    refine ⟨2 * Real.pi / 9.81 * Hs / Tm ^ 2, by positivity, ?_⟩
    unfold calculate_wave_steepness_s; pf_eval []
  have hq : 0 < s ^ (-0.1 : ℝ) := by positivity
  have hu : 0 < 6.7 * (Nod ^ (0.4 : ℝ) / N ^ (0.3 : ℝ)) + 1.0 := by positivity
  refine ⟨s, Hs / ((6.7 * (Nod ^ (0.4 : ℝ) / N ^ (0.3 : ℝ)) + 1.0) * s ^ (-0.1 : ℝ)) / D, hs,
    by positivity, hse, ?_, ?_, ?_⟩
  · unfold calculate_nominal_diameter_Dn_vanDerMeer1988
    rw [PyM.bind_res_of_ok (cubes_check_res ..)]
    simp only [hDe, hse]
    pf_eval []
    simp [check_usage_stabilitynumber]
    pf_eval []
  · unfold calculate_damage_Nod_vanDerMeer1988
    simp only [hDe, check_usage_stabilitynumber]
    simp
    rw [PyM.bind_res_of_ok (cubes_check_res ..)]
    have e : Hs / (D * (Hs / ((6.7 * (Nod ^ (0.4 : ℝ) / N ^ (0.3 : ℝ)) + 1.0) * s ^ (-0.1 : ℝ)) / D))
        / s ^ (-0.1 : ℝ) = 6.7 * (Nod ^ (0.4 : ℝ) / N ^ (0.3 : ℝ)) + 1.0 := by
      generalize 6.7 * (Nod ^ (0.4 : ℝ) / N ^ (0.3 : ℝ)) + 1.0 = u at hu
      generalize s ^ (-0.1 : ℝ) = q at hq
      field_simp
    have e2 : (6.7 * (Nod ^ (0.4 : ℝ) / N ^ (0.3 : ℝ)) + 1.0 - 1) / 6.7 * N ^ (0.3 : ℝ)
        = Nod ^ (0.4 : ℝ) := by
      have : 0 < N ^ (0.3 : ℝ) := by positivity
      field_simp; norm_num
    have h4 : 0 < Nod ^ (0.4 : ℝ) := by positivity
    pf_eval []
    rw [e, e2, npow_fin h4, ← Real.rpow_mul hNod.le]
    norm_num
  · unfold calculate_wave_height_Hs_vanDerMeer1988
    simp only [hDe, check_usage_stabilitynumber]
    simp
    rw [PyM.bind_res_of_ok (cubes_check_res ..)]
    pf_eval []
    congr 2
    field_simp

example := C15_from_Nod (rw := 1025) (ra := 2650) (N := 3000) (Hs := 2) (Tm := 8) (Nod := 0.5) (cot := 1.5)
  (by norm_num) (by norm_num) (by norm_num) (by norm_num) (by norm_num) (by norm_num)
end C15

/-- C15, other direction: a size and wave height with damage above zero; the size designed for the
computed damage (at the period belonging to the steepness) is the given size. -/
theorem C15_from_Dn (rw ra N Hs Dn s cot : ℝ) (hw : 0 < rw) (hr : rw < ra) (hN : 0 < N)
    (hH : 0 < Hs) (hDn : 0 < Dn) (hs : 0 < s)
    (hdam : 1 < Hs / ((ra - rw) / rw * Dn) * s ^ (0.1 : ℝ)) :
    ∃ Nod Tm : ℝ, 0 < Nod ∧ 0 < Tm ∧
      calculate_wave_steepness_s (fin Hs) (fin Tm) = fin s ∧
      (CubesVdM.calculate_damage_Nod_vanDerMeer1988 (fin Hs) (fin Dn) (fin s) (fin rw) (fin ra)
        (fin N) (fin cot)).res = .ok (fin Nod) ∧
      (CubesVdM.calculate_nominal_diameter_Dn_vanDerMeer1988 (fin Hs) (fin Tm) (fin rw) (fin ra)
        (fin N) (fin cot) (fin Nod)).res = .ok (fin Dn) := by
  obtain ⟨D, hD, hDD, hDe⟩ := Delta_eval hw hr
  rw [← hDD] at hdam
  have hpi := Real.pi_pos
  have hq : 0 < s ^ (-0.1 : ℝ) := by positivity
  have hdam' : 0 < Hs / (D * Dn) / s ^ (-0.1 : ℝ) - 1 := by
    rw [Real.rpow_neg hs.le, div_inv_eq_mul]; linarith
  have hse : calculate_wave_steepness_s (fin Hs) (fin (√(2 * Real.pi * Hs / (9.81 * s)))) = fin s := by
    have : 0 < √(2 * Real.pi * Hs / (9.81 * s)) := by positivity
    unfold calculate_wave_steepness_s; pf_eval []
    rw [Real.sq_sqrt (by positivity)]; field_simp
  have hv : 0 < (Hs / (D * Dn) / s ^ (-0.1 : ℝ) - 1) / 6.7 * N ^ (0.3 : ℝ) := by positivity
  refine ⟨((Hs / (D * Dn) / s ^ (-0.1 : ℝ) - 1) / 6.7 * N ^ (0.3 : ℝ)) ^ ((1 : ℝ) / 0.4),
    √(2 * Real.pi * Hs / (9.81 * s)), by positivity, by positivity, hse, ?_, ?_⟩
  · unfold CubesVdM.calculate_damage_Nod_vanDerMeer1988
    simp only [hDe, stab_Ns, PyM.bind_ok]
    rw [PyM.bind_res_of_ok (ConcreteProof.cubes_check_res ..)]
    pf_eval [PyM.pure_def]
  · unfold CubesVdM.calculate_nominal_diameter_Dn_vanDerMeer1988
    rw [PyM.bind_res_of_ok (ConcreteProof.cubes_check_res ..)]
    simp only [hDe, hse, stab_Dn, PyM.bind_ok, PyM.pure_def]
    pf_eval []
    rw [← Real.rpow_mul hv.le]
    have e1 : (1 : ℝ) / 0.4 * 0.4 = 1 := by norm_num
    have hN3 : 0 < N ^ (0.3 : ℝ) := by positivity
    have e2 : 6.7 * ((Hs / (D * Dn) / s ^ (-0.1 : ℝ) - 1) / 6.7 * N ^ (0.3 : ℝ) / N ^ (0.3 : ℝ)) + 1.0
        = Hs / (D * Dn) / s ^ (-0.1 : ℝ) := by
      rw [mul_div_cancel_right₀ _ hN3.ne', mul_div_cancel₀ _ (by norm_num : (6.7 : ℝ) ≠ 0)]
      norm_num
    rw [e1, Real.rpow_one, e2]
    congr 2
    generalize s ^ (-0.1 : ℝ) = q at hq
    field_simp

example : ∃ rw ra N Hs Dn s : ℝ, 0 < rw ∧ rw < ra ∧ 0 < N ∧ 0 < Hs ∧ 0 < Dn ∧ 0 < s ∧
    1 < Hs / ((ra - rw) / rw * Dn) * s ^ (0.1 : ℝ) :=
  ⟨1000, 2000, 1000, 4, 1, 1, by norm_num, by norm_num, by norm_num, by norm_num, by norm_num,
    by norm_num, by norm_num⟩

/-- The damage function leaves the reals exactly where the formula predicts no displacement: for
stability numbers below the start of damage the result is NaN, not 0. -/
theorem C15_below_start_of_damage (rw ra N Hs Dn s cot : ℝ) (hw : 0 < rw) (hr : rw < ra) (hN : 0 < N)
    (hH : 0 < Hs) (hDn : 0 < Dn) (hs : 0 < s)
    (hdam : Hs / ((ra - rw) / rw * Dn) * s ^ (0.1 : ℝ) < 1) :
    (CubesVdM.calculate_damage_Nod_vanDerMeer1988 (fin Hs) (fin Dn) (fin s) (fin rw) (fin ra)
        (fin N) (fin cot)).res = .ok nan := by
  obtain ⟨D, hD, hDD, hDe⟩ := Delta_eval hw hr
  rw [← hDD] at hdam
  have hpi := Real.pi_pos
  have hdam' : Hs / (D * Dn) / s ^ (-0.1 : ℝ) - 1 < 0 := by
    rw [Real.rpow_neg hs.le, div_inv_eq_mul]; linarith
  have hN3 : 0 < N ^ (0.3 : ℝ) := by positivity
  unfold CubesVdM.calculate_damage_Nod_vanDerMeer1988
  simp only [hDe, stab_Ns, PyM.bind_ok]
  rw [PyM.bind_res_of_ok (ConcreteProof.cubes_check_res ..)]
  pf_eval [PyM.pure_def]
  rw [npow_neg_base]
  · exact mul_neg_of_neg_of_pos (div_neg_of_neg_of_pos hdam' (by norm_num)) hN3
  · intro n hn
    have h2 : (n : ℝ) = 5 / 2 := by rw [hn]; norm_num
    have h3 : ((2 * n : ℤ) : ℝ) = ((5 : ℤ) : ℝ) := by push_cast; linarith
    have h4 : 2 * n = 5 := by exact_mod_cast h3
    omega

/-! ## C16 -/

theorem C16_single_layer (rw ra Ns : ℝ) (hw : 0 < rw) (hr : rw < ra) (hN : 0 < Ns) :
    MutuallyInverse
      (fun H => CubesSingle.calculate_unit_mass_M_start_of_damage H (fin rw) (fin ra) (fin Ns))
      (fun M => CubesSingle.calculate_significant_wave_height_Hs_start_of_damage M (fin rw) (fin ra)
        (fin Ns)) ∧
    MutuallyInverse
      (fun H => CubesSingle.calculate_unit_mass_M_failure H (fin rw) (fin ra) (fin Ns))
      (fun M => CubesSingle.calculate_significant_wave_height_Hs_failure M (fin rw) (fin ra)
        (fin Ns)) := by
  obtain ⟨D, hD, hDD, hDe⟩ := Delta_eval hw hr
  have hra := hw.trans hr
  have key : MutuallyInverse
      (fun H => CubesSingle.calculate_unit_mass_M_start_of_damage H (fin rw) (fin ra) (fin Ns))
      (fun M => CubesSingle.calculate_significant_wave_height_Hs_start_of_damage M (fin rw) (fin ra)
        (fin Ns)) := by
    simp only [MutuallyInverse, CubesSingle.calculate_unit_mass_M_start_of_damage,
      CubesSingle.calculate_significant_wave_height_Hs_start_of_damage, hDe, stab_Dn, stab_Hs,
      PyM.bind_ok, PyM.pure_def, Except.ok.injEq, calculate_M50_from_Dn50, calculate_Dn50_from_M50]
    constructor
    · intro H hH
      refine ⟨ra * (H / Ns / D) ^ 3, by positivity, by pf_eval [], ?_⟩
      pf_eval []
      rw [mul_div_cancel_left₀ _ hra.ne', cube_rpow_third (by positivity)]
      field_simp
    · intro M hM
      refine ⟨(M / ra) ^ ((1 : ℝ) / 3) * D * Ns, by positivity, by pf_eval [], ?_⟩
      pf_eval []
      have e : (M / ra) ^ ((1 : ℝ) / 3) * D * Ns / Ns / D = (M / ra) ^ ((1 : ℝ) / 3) := by field_simp
      rw [e, rpow_third_cube (by positivity)]
      field_simp
  exact ⟨key, key⟩

example : ∃ rw ra Ns : ℝ, 0 < rw ∧ rw < ra ∧ 0 < Ns :=
  ⟨1025, 2400, 2.9, by norm_num, by norm_num, by norm_num⟩
end
