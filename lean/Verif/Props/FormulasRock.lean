import Verif.Props.FormulasArmour
import Verif.Props.Etemad2020
import Verif.Props.JumeletScaravaglione
import Verif.Props.KramerBurcharth

/-! # Property C78, continued: further armour formulas -/

open Classical
open PF
open CorePhysics RangeProof FormulaProof
noncomputable section

/-! ## Xbloc and XblocPlus -/

section
variable (rw ra f : ℝ) (hw : 0 < rw) (hr : rw < ra) (hf : 0 < f)
include hw hr hf

namespace FormulaProof

theorem unit_V {k H : ℝ} (hk : 0 < k) (hH : 0 < H) :
    Published.UnitDesign k H (f * (H / (k * ((ra - rw) / rw))) ^ 3) f ra rw := by
  have hD : 0 < (ra - rw) / rw := Delta_pos hw hr
  unfold Published.UnitDesign Textbook.Ns Textbook.Delta
  generalize (ra - rw) / rw = De at *
  rw [mul_div_cancel_left₀ _ hf.ne', cube_rpow_third (by positivity)]
  field_simp

theorem unit_H {k V : ℝ} (hk : 0 < k) (hV : 0 < V) :
    Published.UnitDesign k ((V / f) ^ ((1 : ℝ) / 3) * k * ((ra - rw) / rw)) V f ra rw := by
  have hD : 0 < (ra - rw) / rw := Delta_pos hw hr
  unfold Published.UnitDesign Textbook.Ns Textbook.Delta
  generalize (ra - rw) / rw = De at *
  have : 0 < (V / f) ^ ((1 : ℝ) / 3) := by positivity
  field_simp

end FormulaProof

/-- C78: volume and mass of Xbloc and XblocPlus units -/
theorem C78_xbloc_size (H : ℝ) (hH : 0 < H) :
    Returns (pure (Xbloc.calculate_unit_volume_V (fin H) (fin rw) (fin ra) (fin f)))
      (fun V => Published.UnitDesign 2.77 H V f ra rw) ∧
    Returns (pure (Xbloc.calculate_unit_mass_M (fin H) (fin rw) (fin ra) (fin f)))
      (fun M => Published.UnitDesign 2.77 H (M / ra) f ra rw) ∧
    Returns (pure (XblocPlus.calculate_unit_volume_V (fin H) (fin rw) (fin ra) (fin f)))
      (fun V => Published.UnitDesign 2.5 H V f ra rw) ∧
    Returns (pure (XblocPlus.calculate_unit_mass_M (fin H) (fin rw) (fin ra) (fin f)))
      (fun M => Published.UnitDesign 2.5 H (M / ra) f ra rw) := by
  have hra := hw.trans hr
  have hD : 0 < (ra - rw) / rw := Delta_pos hw hr
  have e1 : Xbloc.calculate_unit_volume_V (fin H) (fin rw) (fin ra) (fin f) =
      fin (f * (H / (2.77 * ((ra - rw) / rw))) ^ 3) := by
    unfold Xbloc.calculate_unit_volume_V
    simp only [Delta_eval' hw hr, Textbook.Delta]
    pf_eval []
  have e2 : XblocPlus.calculate_unit_volume_V (fin H) (fin rw) (fin ra) (fin f) =
      fin (f * (H / (2.5 * ((ra - rw) / rw))) ^ 3) := by
    unfold XblocPlus.calculate_unit_volume_V
    simp only [Delta_eval' hw hr, Textbook.Delta]
    pf_eval []
  refine ⟨⟨_, ?_, congrArg Except.ok e1, unit_V rw ra f hw hr hf (by norm_num) hH⟩,
    ⟨f * (H / (2.77 * ((ra - rw) / rw))) ^ 3 * ra, ?_, congrArg Except.ok ?_, ?_⟩,
    ⟨_, ?_, congrArg Except.ok e2, unit_V rw ra f hw hr hf (by norm_num) hH⟩,
    ⟨f * (H / (2.5 * ((ra - rw) / rw))) ^ 3 * ra, ?_, congrArg Except.ok ?_, ?_⟩⟩
  · positivity
  · positivity
  · simp only [Xbloc.calculate_unit_mass_M, e1]; pf_eval []
  · beta_reduce; rw [mul_div_cancel_right₀ _ hra.ne']; exact unit_V rw ra f hw hr hf (by norm_num) hH
  · positivity
  · positivity
  · simp only [XblocPlus.calculate_unit_mass_M, e2]; pf_eval []
  · beta_reduce; rw [mul_div_cancel_right₀ _ hra.ne']; exact unit_V rw ra f hw hr hf (by norm_num) hH

example := C78_xbloc_size (rw := 1025) (ra := 2650) (f := 1) (H := 2) (by norm_num) (by norm_num)
  (by norm_num) (by norm_num)

/-- C78: design wave height of Xbloc and XblocPlus units -/
theorem C78_xbloc_height (V : ℝ) (hV : 0 < V) :
    Returns (pure (Xbloc.calculate_wave_height_Hs_from_V (fin V) (fin rw) (fin ra) (fin f)))
      (fun H => Published.UnitDesign 2.77 H V f ra rw) ∧
    Returns (pure (Xbloc.calculate_wave_height_Hs_from_M (fin V) (fin rw) (fin ra) (fin f)))
      (fun H => Published.UnitDesign 2.77 H (V / ra) f ra rw) ∧
    Returns (pure (XblocPlus.calculate_wave_height_Hs_from_V (fin V) (fin rw) (fin ra) (fin f)))
      (fun H => Published.UnitDesign 2.5 H V f ra rw) ∧
    Returns (pure (XblocPlus.calculate_wave_height_Hs_from_M (fin V) (fin rw) (fin ra) (fin f)))
      (fun H => Published.UnitDesign 2.5 H (V / ra) f ra rw) := by
  have hra := hw.trans hr
  have hD : 0 < (ra - rw) / rw := Delta_pos hw hr
  have e1 : ∀ V : ℝ, 0 < V → Xbloc.calculate_wave_height_Hs_from_V (fin V) (fin rw) (fin ra) (fin f) =
      fin ((V / f) ^ ((1 : ℝ) / 3) * 2.77 * ((ra - rw) / rw)) := by
    intro V hV
    unfold Xbloc.calculate_wave_height_Hs_from_V
    simp only [Delta_eval' hw hr, Textbook.Delta]
    pf_eval []
  have e2 : ∀ V : ℝ, 0 < V → XblocPlus.calculate_wave_height_Hs_from_V (fin V) (fin rw) (fin ra) (fin f) =
      fin ((V / f) ^ ((1 : ℝ) / 3) * 2.5 * ((ra - rw) / rw)) := by
    intro V hV
    unfold XblocPlus.calculate_wave_height_Hs_from_V
    simp only [Delta_eval' hw hr, Textbook.Delta]
    pf_eval []
  have hV' : 0 < V / ra := by positivity
  refine ⟨⟨_, ?_, congrArg Except.ok (e1 V hV), unit_H rw ra f hw hr hf (by norm_num) hV⟩,
    ⟨_, ?_, congrArg Except.ok ?_, unit_H rw ra f hw hr hf (by norm_num) hV'⟩,
    ⟨_, ?_, congrArg Except.ok (e2 V hV), unit_H rw ra f hw hr hf (by norm_num) hV⟩,
    ⟨_, ?_, congrArg Except.ok ?_, unit_H rw ra f hw hr hf (by norm_num) hV'⟩⟩
  · positivity
  · positivity
  · simp only [Xbloc.calculate_wave_height_Hs_from_M, div_fin hra.ne', e1 _ hV']
  · positivity
  · positivity
  · simp only [XblocPlus.calculate_wave_height_Hs_from_M, div_fin hra.ne', e2 _ hV']

example := C78_xbloc_height (rw := 1025) (ra := 2650) (f := 1) (V := 1) (by norm_num) (by norm_num)
  (by norm_num) (by norm_num)

end

/-- C78: a unit without correction factor has the published design stability number -/
theorem C78_xbloc_default (H rw ra : ℝ) (hH : 0 < H) (hw : 0 < rw) (hr : rw < ra) :
    Returns (pure (Xbloc.calculate_unit_mass_M (fin H) (fin rw) (fin ra)))
      (fun M => Textbook.Ns H (Published.Dn M ra) ra rw = 2.77) ∧
    Returns (pure (XblocPlus.calculate_unit_mass_M (fin H) (fin rw) (fin ra)))
      (fun M => Textbook.Ns H (Published.Dn M ra) ra rw = 2.5) := by
  have h := C78_xbloc_size rw ra 1 hw hr one_pos H hH
  have o : (1.0 : PF) = fin 1 := by rw [sci_eq]; norm_num
  simp only [Published.UnitDesign, div_one] at h
  rw [o]
  exact ⟨h.2.1, h.2.2.2⟩

example := C78_xbloc_default (H := 2) (rw := 1025) (ra := 2650) (by norm_num) (by norm_num) (by norm_num)

/-! ## Cubes -/

section
variable (rw ra N c s : ℝ) (hw : 0 < rw) (hr : rw < ra) (hN : 0 < N) (hs : 0 < s)
include hw hr hN

/-- C78: size of cubes in a double layer by Van der Meer (1988) -/
theorem C78_cubes_double_size (H T Nod : ℝ) (hH : 0 < H) (hT : 0 < T) (hNod : 0 < Nod) :
    Returns (CubesVdM.calculate_nominal_diameter_Dn_vanDerMeer1988 (fin H) (fin T) (fin rw) (fin ra)
      (fin N) (fin c) (fin Nod))
      fun D => Published.CubesDouble (Textbook.Ns H D ra rw) Nod N (Textbook.steepness H T) := by
  have hD : 0 < (ra - rw) / rw := Delta_pos hw hr
  have hs : 0 < Textbook.steepness H T := by
    have := Real.pi_pos; unfold Textbook.steepness; positivity
  refine ⟨H / ((6.7 * (Nod ^ (0.4 : ℝ) / N ^ (0.3 : ℝ)) + 1.0) * Textbook.steepness H T ^ (-0.1 : ℝ)) /
    ((ra - rw) / rw), by positivity, ?_, ?_⟩
  · unfold CubesVdM.calculate_nominal_diameter_Dn_vanDerMeer1988
    rw [PyM.bind_res_of_ok (ConcreteProof.cubes_check_res ..)]
    simp only [Delta_eval' hw hr, Textbook.Delta, steep_eval hT]
    pf_eval []
    simp [check_usage_stabilitynumber]
    pf_eval []
  · unfold Published.CubesDouble Textbook.Ns Textbook.Delta
    generalize (ra - rw) / rw = De at *
    have h1 : 0 < 6.7 * (Nod ^ (0.4 : ℝ) / N ^ (0.3 : ℝ)) + 1.0 := by positivity
    have h2 : 0 < Textbook.steepness H T ^ (-0.1 : ℝ) := by positivity
    rw [mul_div_assoc, ← VdMProof.one_sci]
    generalize 6.7 * (Nod ^ (0.4 : ℝ) / N ^ (0.3 : ℝ)) + 1.0 = a at *
    generalize Textbook.steepness H T ^ (-0.1 : ℝ) = b at *
    field_simp

example := C78_cubes_double_size (rw := 1025) (ra := 2650) (N := 3000) (c := 2) (H := 2) (T := 8)
  (Nod := 0.5) (by norm_num) (by norm_num) (by norm_num) (by norm_num) (by norm_num) (by norm_num)

include hs

/-- C78: wave height for cubes in a double layer -/
theorem C78_cubes_double_height (D Nod : ℝ) (hD : 0 < D) (hNod : 0 < Nod) :
    Returns (CubesVdM.calculate_wave_height_Hs_vanDerMeer1988 (fin D) (fin s) (fin rw) (fin ra)
      (fin N) (fin c) (fin Nod))
      fun H => Published.CubesDouble (Textbook.Ns H D ra rw) Nod N s := by
  have hDe : 0 < (ra - rw) / rw := Delta_pos hw hr
  have hpi := Real.pi_pos
  refine ⟨(6.7 * (Nod ^ (0.4 : ℝ) / N ^ (0.3 : ℝ)) + 1.0) * s ^ (-0.1 : ℝ) * ((ra - rw) / rw) * D,
    by positivity, ?_, ?_⟩
  · unfold CubesVdM.calculate_wave_height_Hs_vanDerMeer1988
    simp only [Delta_eval' hw hr, Textbook.Delta, check_usage_stabilitynumber]
    simp
    rw [PyM.bind_res_of_ok (ConcreteProof.cubes_check_res ..)]
    pf_eval []
    rw [Except.ok.injEq, fin_inj]
    generalize (6.7 * (Nod ^ (0.4 : ℝ) / N ^ (0.3 : ℝ)) + 1.0) * s ^ (-0.1 : ℝ) = a
    generalize (ra - rw) / rw = De
    ring
  · unfold Published.CubesDouble Textbook.Ns Textbook.Delta
    beta_reduce
    generalize (ra - rw) / rw = De at *
    rw [mul_div_assoc 6.7, ← VdMProof.one_sci]
    generalize 6.7 * (Nod ^ (0.4 : ℝ) / N ^ (0.3 : ℝ)) + 1.0 = a at *
    generalize s ^ (-0.1 : ℝ) = b at *
    field_simp

example := C78_cubes_double_height (rw := 1025) (ra := 2650) (N := 3000) (c := 2) (s := 1) (D := 1)
  (Nod := 0.5) (by norm_num) (by norm_num) (by norm_num) (by norm_num) (by norm_num) (by norm_num)

/-- C78: damage to cubes in a double layer, above the stability number without damage -/
theorem C78_cubes_double_damage (H D : ℝ) (hH : 0 < H) (hD : 0 < D)
    (hd : s ^ (-0.1 : ℝ) < Textbook.Ns H D ra rw) :
    Returns (CubesVdM.calculate_damage_Nod_vanDerMeer1988 (fin H) (fin D) (fin s) (fin rw) (fin ra)
      (fin N) (fin c))
      fun Nod => Published.CubesDouble (Textbook.Ns H D ra rw) Nod N s := by
  have hDe : 0 < (ra - rw) / rw := Delta_pos hw hr
  have hq : 0 < s ^ (-0.1 : ℝ) := by positivity
  have hpi := Real.pi_pos
  have hN3 : 0 < N ^ (0.3 : ℝ) := by positivity
  have h1 : 0 < H / ((ra - rw) / rw * D) / s ^ (-0.1 : ℝ) - 1 := by
    rw [sub_pos, lt_div_iff₀ hq, one_mul]; exact hd
  have hb : 0 < (H / ((ra - rw) / rw * D) / s ^ (-0.1 : ℝ) - 1) / 6.7 * N ^ (0.3 : ℝ) := by positivity
  refine ⟨((H / ((ra - rw) / rw * D) / s ^ (-0.1 : ℝ) - 1) / 6.7 * N ^ (0.3 : ℝ)) ^ (1 / 0.4 : ℝ),
    by positivity, ?_, ?_⟩
  · unfold CubesVdM.calculate_damage_Nod_vanDerMeer1988
    simp only [Delta_eval' hw hr, Textbook.Delta, check_usage_stabilitynumber]
    simp
    rw [PyM.bind_res_of_ok (ConcreteProof.cubes_check_res ..)]
    pf_eval []
    norm_num
  · unfold Published.CubesDouble Textbook.Ns Textbook.Delta
    beta_reduce
    rw [← Real.rpow_mul hb.le]
    norm_num
    generalize (ra - rw) / rw = De at *
    norm_num at hq hN3
    field_simp
    ring

end

/-- C78: cubes in a single layer (Van Gent et al. 2002): start of damage at a stability number of 2.9,
failure at 3.5, unless the user gives another one -/
theorem C78_cubes_single (H rw ra M : ℝ) (hH : 0 < H) (hw : 0 < rw) (hr : rw < ra) (hM : 0 < M) :
    (∀ Ns : ℝ, 0 < Ns → ∀ f ∈ [CubesSingle.calculate_unit_mass_M_start_of_damage
          (fin H) (fin rw) (fin ra) (fin Ns),
        CubesSingle.calculate_unit_mass_M_failure (fin H) (fin rw) (fin ra) (fin Ns)],
      Returns f
        fun M => Textbook.Ns H (Published.Dn M ra) ra rw = Ns) ∧
    (∀ Ns : ℝ, 0 < Ns → ∀ f ∈ [CubesSingle.calculate_significant_wave_height_Hs_start_of_damage
          (fin M) (fin rw) (fin ra) (fin Ns),
        CubesSingle.calculate_significant_wave_height_Hs_failure (fin M) (fin rw) (fin ra) (fin Ns)],
      Returns f
        fun H => Textbook.Ns H (Published.Dn M ra) ra rw = Ns) ∧
    Returns (CubesSingle.calculate_unit_mass_M_start_of_damage (fin H) (fin rw) (fin ra))
      (fun M => Textbook.Ns H (Published.Dn M ra) ra rw = 2.9) ∧
    Returns (CubesSingle.calculate_unit_mass_M_failure (fin H) (fin rw) (fin ra))
      (fun M => Textbook.Ns H (Published.Dn M ra) ra rw = 3.5) ∧
    Returns (CubesSingle.calculate_significant_wave_height_Hs_start_of_damage (fin M) (fin rw) (fin ra))
      (fun H => Textbook.Ns H (Published.Dn M ra) ra rw = 2.9) ∧
    Returns (CubesSingle.calculate_significant_wave_height_Hs_failure (fin M) (fin rw) (fin ra))
      (fun H => Textbook.Ns H (Published.Dn M ra) ra rw = 3.5) := by
  have hra := hw.trans hr
  have hD : 0 < (ra - rw) / rw := Delta_pos hw hr
  have k1 : ∀ Ns : ℝ, 0 < Ns → Returns (CubesSingle.calculate_unit_mass_M_start_of_damage (fin H) (fin rw)
      (fin ra) (fin Ns)) fun M => Textbook.Ns H (Published.Dn M ra) ra rw = Ns := by
    intro Ns hN
    refine ⟨ra * (H / Ns / ((ra - rw) / rw)) ^ 3, by positivity, ?_, ?_⟩
    · simp only [CubesSingle.calculate_unit_mass_M_start_of_damage, Delta_eval' hw hr, Textbook.Delta,
        stab_Dn, PyM.bind_ok, PyM.pure_def, calculate_M50_from_Dn50]
      pf_eval []
    · unfold Textbook.Ns Textbook.Delta Published.Dn
      generalize (ra - rw) / rw = De at *
      rw [mul_div_cancel_left₀ _ hra.ne', cube_rpow_third (by positivity)]
      field_simp
  have k2 : ∀ Ns : ℝ, 0 < Ns → Returns (CubesSingle.calculate_significant_wave_height_Hs_start_of_damage
      (fin M) (fin rw) (fin ra) (fin Ns)) fun H => Textbook.Ns H (Published.Dn M ra) ra rw = Ns := by
    intro Ns hN
    refine ⟨(M / ra) ^ ((1 : ℝ) / 3) * ((ra - rw) / rw) * Ns, by positivity, ?_, ?_⟩
    · simp only [CubesSingle.calculate_significant_wave_height_Hs_start_of_damage, Delta_eval' hw hr,
        Textbook.Delta, stab_Hs, PyM.bind_ok, PyM.pure_def, calculate_Dn50_from_M50]
      pf_eval []
    · unfold Textbook.Ns Textbook.Delta Published.Dn
      generalize (ra - rw) / rw = De at *
      have : 0 < (M / ra) ^ ((1 : ℝ) / 3) := by positivity
      field_simp
  refine ⟨?_, ?_, k1 2.9 (by norm_num), k1 3.5 (by norm_num), k2 2.9 (by norm_num),
    k2 3.5 (by norm_num)⟩
  · intro Ns hN f hf
    simp only [List.mem_cons, List.not_mem_nil, or_false] at hf
    rcases hf with rfl | rfl <;> exact k1 Ns hN
  · intro Ns hN f hf
    simp only [List.mem_cons, List.not_mem_nil, or_false] at hf
    rcases hf with rfl | rfl <;> exact k2 Ns hN

/-- the hypotheses are satisfiable, with damage -/
example : ∃ H D M T rw ra N s Nod : ℝ, 0 < H ∧ 0 < D ∧ 0 < M ∧ 0 < T ∧ 0 < rw ∧ rw < ra ∧ 0 < N ∧
    0 < s ∧ 0 < Nod ∧ s ^ (-0.1 : ℝ) < Textbook.Ns H D ra rw := by
  refine ⟨5, 1, 2500, 8, 1000, 2000, 1000, 1, 1, by norm_num, by norm_num, by norm_num, by norm_num,
    by norm_num, by norm_num, by norm_num, by norm_num, by norm_num, ?_⟩
  unfold Textbook.Ns Textbook.Delta
  rw [Real.one_rpow]; norm_num

/-! ## Etemad-Shahidi et al. 2020 -/

section
variable (T N c ra D Dc x : ℝ) (m M Mc rc : PF) (b : Bool) (hT : 0 < T) (hN : 0 < N) (hc : 0 < c)
  (hD : 0 < D) (hDc : 0 ≤ Dc) (hm : b = true → x < 1 / 3 ∧ m = fin x)
include hT hN hc hD hDc hm

namespace FormulaProof
open EtemadProof

omit hT hN hc hD hDc in
theorem dep : 0 < Published.depthLimitation x b ∧
    Etemad2020.depth_limitation m b = ⟨[], .ok (fin (Published.depthLimitation x b))⟩ := by
  unfold Published.depthLimitation Etemad2020.depth_limitation
  cases b
  · exact ⟨by norm_num, by simp [PyM.pure_def, sci_eq]; norm_num⟩
  · obtain ⟨hx, rfl⟩ := hm rfl
    refine ⟨by simp; linarith, ?_⟩
    simp [PyM.pure_def]
    pf_eval []
    norm_num

omit hT hN hc hD hDc hm in
theorem core_eq : cp D Dc = Published.corePermeability D Dc := by
  unfold cp Published.corePermeability; norm_num

omit hT hN hc hD hDc hm in
theorem et_su {H C I De : ℝ} (hT : 0 < T) (hN : 0 < N) (hc : 0 < c) (hD : 0 < D) (hH : 0 < H)
    (hC : 0 < C) (hI : 0 < I) (hDe : 0 < De) :
    Published.EtemadSurging (H / (De * D)) C N (Ssu H T N c De D C I) (Textbook.iribarren H T c) I := by
  have hx := VdMProof.xi_pos hH hT hc
  have hn : 0 < H / (De * D) := by positivity
  rw [irib_eq]
  unfold Published.EtemadSurging Ssu
  generalize VdMProof.xi H T c = x at *
  generalize H / (De * D) = n at *
  obtain ⟨x, rfl⟩ := exists_exp hx
  obtain ⟨n, rfl⟩ := exists_exp hn
  obtain ⟨C, rfl⟩ := exists_exp hC
  obtain ⟨I, rfl⟩ := exists_exp hI
  obtain ⟨N, rfl⟩ := exists_exp hN
  obtain ⟨k, hk⟩ := exists_exp (by norm_num : (0 : ℝ) < 3.9)
  have hk' : (1.0 / 3.9 : ℝ) = Real.exp (-k) := by
    rw [Real.exp_neg, ← hk]; norm_num
  rw [hk', hk]
  exp_norm
  congr 1
  norm_num
  ring

omit hT hN hc hD hDc hm in
theorem et_pl {H C I De : ℝ} (hT : 0 < T) (hN : 0 < N) (hc : 0 < c) (hD : 0 < D) (hH : 0 < H)
    (hC : 0 < C) (hI : 0 < I) (hDe : 0 < De) :
    Published.EtemadPlunging (H / (De * D)) C N (Spl H T N c De D C I) (Textbook.iribarren H T c) I := by
  have hx := VdMProof.xi_pos hH hT hc
  have hn : 0 < H / (De * D) := by positivity
  rw [irib_eq]
  unfold Published.EtemadPlunging Spl
  generalize VdMProof.xi H T c = x at *
  generalize H / (De * D) = n at *
  obtain ⟨x, rfl⟩ := exists_exp hx
  obtain ⟨n, rfl⟩ := exists_exp hn
  obtain ⟨C, rfl⟩ := exists_exp hC
  obtain ⟨I, rfl⟩ := exists_exp hI
  obtain ⟨N, rfl⟩ := exists_exp hN
  obtain ⟨k, hk⟩ := exists_exp (by norm_num : (0 : ℝ) < 4.5)
  have hk' : (1.0 / 4.5 : ℝ) = Real.exp (-k) := by
    rw [Real.exp_neg, ← hk]; norm_num
  rw [hk', hk]
  exp_norm
  congr 1
  norm_num
  ring

end FormulaProof

/-- C78: damage by Etemad-Shahidi et al. (2020) -/
theorem C78_etemad2020_damage (H rw : ℝ) (hH : 0 < H) (hw : 0 < rw) (hr : rw < ra) :
    Returns (Etemad2020.calculate_damage_number_S (fin H) (fin T) (fin N) (fin c) (fin ra) (fin D) M
      (fin Dc) Mc rc (fin rw) m b)
      fun S =>
        (1.8 ≤ Textbook.iribarren H T c → Published.EtemadSurging (Textbook.Ns H D ra rw)
          (Published.corePermeability D Dc) N S (Textbook.iribarren H T c)
          (Published.depthLimitation x b)) ∧
        (Textbook.iribarren H T c < 1.8 → Published.EtemadPlunging (Textbook.Ns H D ra rw)
          (Published.corePermeability D Dc) N S (Textbook.iribarren H T c)
          (Published.depthLimitation x b)) := by
  obtain ⟨hI, e⟩ := dep x m b hm
  have hDe : 0 < (ra - rw) / rw := Delta_pos hw hr
  have hC := EtemadProof.cp_pos hD hDc
  refine ⟨_, EtemadProof.Sd_pos hT hN hc hDe hD hC hI hH,
    EtemadProof.S_eval M Mc rc hT hN hc hw hr hD hDc hI e hH, ?_⟩
  rw [← core_eq]
  unfold EtemadProof.Sd
  constructor
  · intro h
    rw [if_pos (by rw [← irib_eq]; exact h)]
    exact et_su T N c D hT hN hc hD hH hC hI hDe
  · intro h
    rw [if_neg (by rw [← irib_eq]; linarith)]
    exact et_pl T N c D hT hN hc hD hH hC hI hDe

/-- C78: wave height by Etemad-Shahidi et al. (2020): either plunging waves on the plunging curve, or a
point of the surging curve. Missing: that the waves on the surging curve are surging (the two curves do
not meet at ξ = 1.8, and for some damage levels neither is at its own side of it, see C21) -/
theorem C78_etemad2020_height_partial (S : ℝ) (hS : 0 < S) (hr : 1025 < ra) :
    Returns (Etemad2020.calculate_significant_wave_height_Hs (fin T) (fin N) (fin c) (fin ra) (fin S)
      (fin D) M (fin Dc) Mc rc m b)
      fun H =>
        (Textbook.iribarren H T c < 1.8 ∧ Published.EtemadPlunging (Textbook.Ns H D ra 1025)
          (Published.corePermeability D Dc) N S (Textbook.iribarren H T c)
          (Published.depthLimitation x b)) ∨
        Published.EtemadSurging (Textbook.Ns H D ra 1025)
          (Published.corePermeability D Dc) N S (Textbook.iribarren H T c)
          (Published.depthLimitation x b) := by
  obtain ⟨hI, e⟩ := dep x m b hm
  have hDe : 0 < (ra - 1025) / 1025 := Delta_pos (by norm_num) hr
  have hC := EtemadProof.cp_pos hD hDc
  refine ⟨_, (EtemadProof.Sd_Hd hT hN hc hDe hD hC hI hS).1,
    EtemadProof.H_eval M Mc rc hT hN hc hr hD hDc hI e hS, ?_⟩
  rw [← core_eq]
  obtain ⟨p1, e1⟩ := EtemadProof.Ssu_Hsu hT hN hc hDe hD hC hI hS
  obtain ⟨p2, e2⟩ := EtemadProof.Spl_Hpl hT hN hc hDe hD hC hI hS
  unfold EtemadProof.Hd
  split_ifs with h
  · left
    refine ⟨by rw [irib_eq]; exact h.1, ?_⟩
    have := et_pl T N c D hT hN hc hD p2 hC hI hDe
    rw [e2] at this
    exact this
  · right
    have := et_su T N c D hT hN hc hD p1 hC hI hDe
    rw [e1] at this
    exact this

end

/-- the hypotheses are satisfiable, with and without depth limitation -/
example : ∃ T N c ra rw D Dc x H S : ℝ, 0 < T ∧ 0 < N ∧ 0 < c ∧ 0 < D ∧ 0 ≤ Dc ∧ x < 1 / 3 ∧ 0 < H ∧
    0 < rw ∧ rw < ra ∧ 0 < S ∧ 1025 < ra :=
  ⟨8, 3000, 2, 2650, 1025, 1, 0.3, 0.02, 2, 2, by norm_num⟩

/-! ## Jumelet et al. 2024 and Scaravaglione et al. 2025 -/

namespace FormulaProof

theorem roundEven_near (x : ℝ) : |(roundEven x : ℝ) - x| ≤ 1 / 2 := by
  have h1 := Int.floor_le x
  have h2 := Int.lt_floor_add_one x
  unfold roundEven
  split_ifs <;> push_cast <;> rw [abs_le] <;> constructor <;> linarith

end FormulaProof

/-- C78: damage by Jumelet et al. (2024), where the number of plunging waves is rounded to an integer -/
theorem C78_jumelet_damage (H T N c ra rw D cp : ℝ) (M : PF) (hH : 0 < H) (hT : 0 < T) (hc : 0 < c)
    (hw : 0 < rw) (hr : rw < ra) (hD : 0 < D) (hcp : 0 < cp)
    (hN : 1 / 2 < Published.plungingPart (Textbook.iribarren H T c) * N) : ∃ n : ℕ, 0 < n ∧
    |n - Published.plungingPart (Textbook.iribarren H T c) * N| ≤ 1 / 2 ∧
    Returns (Jumelet2024.calculate_damage_number_S (fin H) (fin T) (fin N) (fin c) (fin ra) (fin D) M
      (fin cp) (fin rw))
      fun S => Published.Jumelet (Textbook.Ns H D ra rw) cp S n (Textbook.iribarren H T c) := by
  have hx := VdMProof.xi_pos hH hT hc
  have hDe : 0 < (ra - rw) / rw := Delta_pos hw hr
  have hp : 0 < JumScaProof.Np H T N c :=
    JumScaProof.np_pos hH hT hc ⟨_, VdMProof.xi_eval hH hT hc, by rw [irib_eq] at hN; exact hN⟩
  obtain ⟨n, hn⟩ : ∃ n : ℕ, (n : ℝ) = JumScaProof.Np H T N c := by
    unfold JumScaProof.Np at hp ⊢
    have h0 := Int.cast_pos.mp hp
    lift roundEven ((-1.7 * VdMProof.xi H T c ^ 2 + 3.2 * VdMProof.xi H T c - 0.5) * N) to ℕ using h0.le
      with k hk
    exact ⟨k, by simp⟩
  have hn0 : (0 : ℝ) < n := by rw [hn]; exact hp
  refine ⟨n, by exact_mod_cast hn0, ?_, _, ?_,
    JumScaProof.jumS_eval M hH hT hc hw hr hD hcp hp, ?_⟩
  · rw [hn, irib_eq]; exact roundEven_near _
  · positivity
  · rw [irib_eq, ← hn]
    unfold Published.Jumelet Textbook.Ns Textbook.Delta
    rw [Real.sqrt_eq_rpow]
    have hq : 0 < H / ((ra - rw) / rw * D) := by positivity
    generalize VdMProof.xi H T c = x at *
    generalize H / ((ra - rw) / rw * D) = q at *
    generalize (n : ℝ) = n at *
    obtain ⟨x, rfl⟩ := exists_exp hx
    obtain ⟨n, rfl⟩ := exists_exp hn0
    obtain ⟨q, rfl⟩ := exists_exp hq
    obtain ⟨k, rfl⟩ := exists_exp hcp
    have hk' : (1.0 / Real.exp k : ℝ) = Real.exp (-k) := by
      rw [Real.exp_neg, VdMProof.one_sci, one_div]
    rw [hk']
    exp_norm
    congr 1
    norm_num
    ring

/-- C78: rock size by Jumelet et al. (2024), in water of 1025 kg/m³ -/
theorem C78_jumelet_size (H T N c ra S cp : ℝ) (hH : 0 < H) (hT : 0 < T) (hc : 0 < c)
    (hr : 1025 < ra) (hS : 0 < S) (hcp : 0 < cp)
    (hN : 1 / 2 < Published.plungingPart (Textbook.iribarren H T c) * N) : ∃ n : ℕ, 0 < n ∧
    |n - Published.plungingPart (Textbook.iribarren H T c) * N| ≤ 1 / 2 ∧
    Returns (Jumelet2024.calculate_nominal_rock_diameter_Dn50 (fin H) (fin T) (fin N) (fin c) (fin ra)
      (fin S) (fin cp))
      fun D => Published.Jumelet (Textbook.Ns H D ra 1025) cp S n (Textbook.iribarren H T c) := by
  obtain ⟨D, hD, e1, e2⟩ := (C23_damage_size_inverse H T N c ra cp nan hH hT hc hr hcp
    ⟨_, VdMProof.xi_eval hH hT hc, by rw [irib_eq] at hN; exact hN⟩).1 S hS
  obtain ⟨n, h1, h2, S', -, e3, h⟩ := C78_jumelet_damage H T N c ra 1025 D cp nan hH hT hc (by norm_num)
    hr hD hcp hN
  obtain rfl : S = S' := by rw [e2] at e3; simpa using e3
  exact ⟨n, h1, h2, D, hD, e1, h⟩

/-- the hypotheses are satisfiable: a slope of 1:3 with an Iribarren number of 0.8 -/
example : ∃ H T N c ra rw D S cp : ℝ, 0 < H ∧ 0 < T ∧ 0 < c ∧ 0 < rw ∧ rw < ra ∧ 1025 < ra ∧ 0 < D ∧
    0 < S ∧ 0 < cp ∧ 1 / 2 < Published.plungingPart (Textbook.iribarren H T c) * N := by
  have hpi := Real.pi_pos
  refine ⟨9.81 / (2 * Real.pi), 1, 1000, 1, 2650, 1025, 1, 2, 4, by positivity, by norm_num, by norm_num,
    by norm_num, by norm_num, by norm_num, by norm_num, by norm_num, by norm_num, ?_⟩
  have : Textbook.iribarren (9.81 / (2 * Real.pi)) 1 1 = 1 := by
    unfold Textbook.iribarren Textbook.steepness
    have : 9.81 / (2 * Real.pi) / (9.81 * 1 ^ 2 / (2 * Real.pi)) = 1 := by field_simp
    rw [this]; norm_num
  rw [this]
  unfold Published.plungingPart; norm_num

section
variable (T N c ra rw cv : ℝ) (rc M Mc : PF) (hT : 0 < T) (hN : 0 < N) (hc : 0 < c) (hw : 0 < rw)
  (hr : rw < ra) (hcv : 0 < cv)
include hT hN hc hw hr hcv

/-- C78: damage by Scaravaglione et al. (2025) -/
theorem C78_scaravaglione_damage (H D Dc : ℝ) (hH : 0 < H) (hD : 0 < D) (hDc : 0 ≤ Dc) :
    Returns (Scaravaglione2025.calculate_damage_number_S (fin H) (fin T) (fin N) (fin c) (fin ra) rc
      (fin D) (fin Dc) M Mc (fin cv) (fin rw))
      fun S => Published.Scaravaglione (Textbook.Ns H D ra rw) cv S N c D Dc (Textbook.steepness H T) := by
  have hs := JumScaProof.st_pos hH hT
  have hDe : 0 < (ra - rw) / rw := Delta_pos hw hr
  have es : JumScaProof.st H T = Textbook.steepness H T := by
    have := (JumScaProof.st_eval (H := H) hT).symm.trans (steep_eval hT)
    simpa using this
  refine ⟨_, ?_, JumScaProof.scS_eval rc M Mc hT hN hc hw hr hcv hH hD hDc, ?_⟩
  · unfold JumScaProof.Sc; positivity
  · rw [← es]
    unfold Published.Scaravaglione JumScaProof.Sc Textbook.Ns Textbook.Delta
    have hq : 0 < 1 + Dc / D := by positivity
    have e1 : (ra - rw) / rw * (D + Dc) = (ra - rw) / rw * D * (1 + Dc / D) := by field_simp
    beta_reduce
    rw [e1, mul_div_cancel_right₀ _ (Real.sqrt_pos.mpr hN).ne', ← Real.rpow_natCast,
      ← Real.rpow_mul (by positivity)]
    norm_num
    generalize (ra - rw) / rw = De at *
    generalize JumScaProof.st H T = s at *
    rw [Real.rpow_neg hs.le]
    have h1 : 0 < s ^ ((1 : ℝ) / 10) := by positivity
    have h2 : 0 < √c := Real.sqrt_pos.mpr hc
    field_simp

example := C78_scaravaglione_damage (T := 8) (N := 3000) (c := 2) (ra := 2650) (rw := 1025) (cv := 1)
  (rc := .fin 2650) (M := .fin 5000) (Mc := .fin 10) (H := 2) (D := 1) (Dc := 0.3) (by norm_num)
  (by norm_num) (by norm_num) (by norm_num) (by norm_num) (by norm_num) (by norm_num) (by norm_num)
  (by norm_num)

/-- C78: size by Scaravaglione et al. (2025), when a size exists at all -/
theorem C78_scaravaglione_size (H S Dc : ℝ) (hH : 0 < H) (hS : 0 < S) (hDc : 0 ≤ Dc) : ∃ D : ℝ,
    (Scaravaglione2025.calculate_nominal_rock_diameter_Dn50 (fin H) (fin T) (fin N) (fin c) (fin ra)
      rc (fin S) (fin Dc) Mc (fin cv) (fin rw)).res = .ok (fin D) ∧
    (0 < D → Published.Scaravaglione (Textbook.Ns H D ra rw) cv S N c D Dc
      (Textbook.steepness H T)) := by
  obtain ⟨D, e1, e2⟩ := C24_damage_of_size T N c ra rw cv rc nan Mc hT hN hc hw hr hcv H S Dc hH hS hDc
  refine ⟨D, e1, fun hD => ?_⟩
  obtain ⟨S', -, e3, h⟩ := C78_scaravaglione_damage T N c ra rw cv rc nan Mc hT hN hc hw hr hcv H D Dc hH
    hD hDc
  obtain rfl : S = S' := by rw [e2 hD] at e3; simpa using e3
  exact h

example := C78_scaravaglione_size (T := 8) (N := 3000) (c := 2) (ra := 2650) (rw := 1025) (cv := 1)
  (rc := .fin 2650) (Mc := .fin 10) (H := 2) (S := 2) (Dc := 0.3) (by norm_num) (by norm_num) (by norm_num)
  (by norm_num) (by norm_num) (by norm_num) (by norm_num) (by norm_num) (by norm_num)

/-- C78: wave height by Scaravaglione et al. (2025) -/
theorem C78_scaravaglione_height (D Dc S : ℝ) (hD : 0 < D) (hDc : 0 ≤ Dc) (hS : 0 < S) :
    Returns (Scaravaglione2025.calculate_significant_wave_height_Hm0 (fin T) (fin N) (fin c) (fin ra)
      rc (fin S) (fin D) (fin Dc) M Mc (fin cv) (fin 9.81) (fin rw))
      fun H => Published.Scaravaglione (Textbook.Ns H D ra rw) cv S N c D Dc
        (Textbook.steepness H T) := by
  obtain ⟨H, hH, e1, e2⟩ := (C24_damage_height_inverse T N c ra rw cv rc M Mc hT hN hc hw hr hcv D Dc hD
    hDc).1 S hS
  obtain ⟨S', -, e3, h⟩ := C78_scaravaglione_damage T N c ra rw cv rc M Mc hT hN hc hw hr hcv H D Dc hH
    hD hDc
  obtain rfl : S = S' := by rw [e2] at e3; simpa using e3
  exact ⟨H, hH, e1, h⟩

end

/-- the hypotheses are satisfiable -/
example : ∃ T N c ra rw cv H D Dc S : ℝ, 0 < T ∧ 0 < N ∧ 0 < c ∧ 0 < rw ∧ rw < ra ∧ 0 < cv ∧ 0 < H ∧
    0 < D ∧ 0 ≤ Dc ∧ 0 < S := ⟨8, 3000, 2, 2650, 1025, 4.3, 2, 1, 0.3, 2, by norm_num⟩

/-- C78: wave height by Kramer & Burcharth (2003), for freeboards of either sign -/
theorem C78_kramer_height (R ra D : ℝ) (M : PF) (hr : 1025 < ra) (hD : 0 < D) :
    Returns (KramerBurcharth.calculate_significant_wave_height_Hs (fin R) (fin ra) (fin D) M)
      fun H => Published.KramerBurcharth (Textbook.Ns H D ra 1025) R D := by
  have hDe : 0 < (ra - 1025) / 1025 := Delta_pos (by norm_num) hr
  refine ⟨_, ?_, KBProof.Hs_eval M hr rfl hD.ne', ?_⟩
  · unfold KBProof.HsR
    have : 0 < 0.06 * (R / D) ^ 2 - 0.23 * R / D + 1.36 := by
      rw [mul_div_assoc]; nlinarith [sq_nonneg (R / D - 23 / 12)]
    positivity
  · unfold Published.KramerBurcharth KBProof.HsR Textbook.Ns Textbook.Delta
    generalize (ra - 1025) / 1025 = De at *
    field_simp
    ring

/-- the hypotheses are satisfiable -/
example : ∃ ra D : ℝ, 1025 < ra ∧ 0 < D := ⟨2650, 1, by norm_num⟩

end
