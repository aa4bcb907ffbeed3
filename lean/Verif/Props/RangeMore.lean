import Verif.Props.RangeChecks
import Verif.Props.RangeArmour
import Verif.Props.RangeStructures

/-! # Validity warnings of armour and toe formulas, continued (C60) -/

open Classical
open PF
open CorePhysics CoreUtility RangeProof Textbook
noncomputable section

namespace RangeMore

/-! ### Van der Meer (2021): the wave height

Two rounds of checks, those of the modified formula and those of Van der Meer (1988); `r` is the result. -/

theorem C60_vandermeer2021_height {T N c P rr D r : ℝ} (S M cpl cs k1 k2 g : PF)
    (hT : 0 < T) (hc : 0 < c) (hD : 0 < D) (hr : 1025 < rr) (hpos : 0 < r)
    (hres : (VdM2021.calculate_significant_wave_height_Hs (fin T) (fin N) (fin c) (fin P) (fin rr) S (fin D) M
      cpl cs k1 k2 g).res = .ok (fin r)) (w : Warn) :
    w ∈ (VdM2021.calculate_significant_wave_height_Hs (fin T) (fin N) (fin c) (fin P) (fin rr) S (fin D) M
      cpl cs k1 k2 g).warns ↔
    (∃ l ∈ ([⟨"Notional permeability P", fin P, 0.1, 0.6⟩,
       ⟨"Stability number Ns", fin (Ns r D rr 1025), 0.5, 4.5⟩,
       ⟨"Iribarren number ksi_m-1,0", fin (iribarren r T c), 1.3, 15.0⟩,
       ⟨"Cotangent of outer structure slope cot_alpha", fin c, 2.0, 4.0⟩,
       ⟨"Number of waves N_waves", fin N, 0, 3000⟩] : List Limit),
      l.Violated ∧ w = .range l.name "Modified Van der Meer (Van Gent et al., 2003)" l.value l.lo l.hi) ∨
    ∃ l ∈ ([⟨"Notional permeability P", fin P, 0.1, 0.6⟩,
       ⟨"Cotangent of outer structure slope cot_alpha", fin c, 1.1, 7.0⟩,
       ⟨"Number of waves N_waves", fin N, 0, 7500⟩,
       ⟨"Density of armour layer rock rho_armour", fin rr, 2000, 3100⟩] : List Limit),
      l.Violated ∧ w = .range l.name "Van der Meer (1988)" l.value l.lo l.hi := by
  have h88 : ∀ x, WarnsExactly (VdM1988.check_validity_range (P := fin P) (Hs := x) (cot_alpha := fin c)
      (rho_armour := fin rr) (N_waves := fin N)) "Van der Meer (1988)"
      [⟨"Notional permeability P", fin P, 0.1, 0.6⟩,
       ⟨"Cotangent of outer structure slope cot_alpha", fin c, 1.1, 7.0⟩,
       ⟨"Number of waves N_waves", fin N, 0, 7500⟩,
       ⟨"Density of armour layer rock rho_armour", fin rr, 2000, 3100⟩] := by
    intro x
    unfold VdM1988.check_validity_range
    dsimp only
    exact check (by simp) rfl <| check (by simp) rfl <| skip (by simp) <| check (by simp) rfl <|
      skip (by simp) <| last (by simp) rfl
  unfold VdM2021.calculate_significant_wave_height_Hs at hres ⊢
  cases hm : (VdMModified.calculate_significant_wave_height_Hs (ratio_H2p_Hs := 1.0) (Tmm10 := fin T)
    (N_waves := fin N) (cot_alpha := fin c) (P := fin P) (rho_armour := fin rr) (S := S)
    (Dn50 := fin D) (M50 := M) (c_pl := cpl * k1) (c_s := cs * k2) (g := g)).res with
  | error e => rw [PyM.bind_res_of_error hm] at hres; cases hres
  | ok x =>
    rw [PyM.bind_res_of_ok hm] at hres
    have hx : x = fin r := by
      obtain ⟨u, hu⟩ := (h88 x).1
      rw [PyM.bind_res_of_ok hu] at hres
      exact Except.ok.inj hres
    subst hx
    have h1 := RangeArmour.C60_modified_height_partial 1.0 S M (cpl * k1) (cs * k2) g 1025.0 hT hc hD hr hpos hm
    rw [PyM.bind_warns_of_ok hm, List.mem_append, h1.2]
    exact or_congr Iff.rfl ((ret _ (h88 _)).2 w)

/-! ### Toe berms: Van der Meer (1998)

Missing: as `C79_toe_vandermeer1998_partial`. -/

theorem C60_toe_vandermeer1998_size_partial {H ht h N rr rw r : ℝ} (hh : 0 < h) (hN : 0 < N) (hw : 0 < rw)
    (hr : rw < rr) (hpos : 0 < r)
    (hres : (VanDerMeer1998.calculate_nominal_diameter_Dn50 (fin H) (fin ht) (fin h) (fin N) (fin rr)
      (fin rw)).res = .ok (fin r)) :
    WarnsExactly (VanDerMeer1998.calculate_nominal_diameter_Dn50 (fin H) (fin ht) (fin h) (fin N) (fin rr)
        (fin rw)) "van der Meer (1998)"
      [⟨"Relative toe height (h)", fin H, 0.01, 20⟩,
       ⟨"Relative toe height (Dn50)", fin (ht / h), 0.4, 0.9⟩,
       ⟨"Relative toe height (Dn50)", fin (ht / r), 3, 25⟩,
       ⟨"Nod vs Ns", fin (N ^ (-0.15 : ℝ) * (H / Delta rr rw * r)), 2, pinf⟩] := by
  obtain ⟨De, hDe, hDD, eD⟩ := Delta_eval hw hr
  unfold VanDerMeer1998.calculate_nominal_diameter_Dn50 at hres ⊢
  dsimp only at hres ⊢
  rw [eD] at hres ⊢
  rw [show Delta rr rw = De from hDD.symm]
  exact with_result (m := fun x => VanDerMeer1998.check_validity (fin H) (fin ht) (fin h) x (fin N) (fin De))
    (by simp [VanDerMeer1998.check_validity])
    (RangeChecks.C79_toe_vandermeer1998_partial hh hpos hDe hN) hres

/-- a toe just below the water in 8 m depth: 0.24 m stones, and a warning that the toe is too high -/
example : Warn.range "Relative toe height (Dn50)" "van der Meer (1998)" (fin (8 / 8)) 0.4 0.9 ∈
    (VanDerMeer1998.calculate_nominal_diameter_Dn50 (fin 2) (fin 8) (fin 8) (fin 1) (fin 2050)
      (fin 1025)).warns := by
  refine ((C60_toe_vandermeer1998_size_partial (r := 2 / 8.2) (by norm_num) (by norm_num) (by norm_num)
    (by norm_num) (by norm_num) ?_).2 _).2 ⟨_, List.mem_cons_of_mem _ List.mem_cons_self, Or.inr ?_, rfl⟩
  · unfold VanDerMeer1998.calculate_nominal_diameter_Dn50
    dsimp only
    rw [PyM.bind_res_of_ok (show (VanDerMeer1998.check_validity _ _ _ _ _ _).res = .ok () by
      simp [VanDerMeer1998.check_validity])]
    refine congrArg Except.ok (?_ : _ = fin (2 / 8.2))
    have e : calculate_buoyant_density_Delta (fin 2050) (fin 1025) = fin 1 := by
      unfold calculate_buoyant_density_Delta
      pf_eval []
      norm_num
    rw [e]
    have e1 : npow (fin 1) 0.15 = fin 1 := by rw [sci_eq, npow_fin (by norm_num), Real.one_rpow]
    have e2 : npow (fin 8 / fin 8) 2.7 = fin 1 := by
      rw [div_fin (by norm_num), div_self (by norm_num), sci_eq, npow_fin (by norm_num), Real.one_rpow]
    rw [e1, e2]
    pf_eval []
    norm_num
  · simp only [sci_eq, lt_fin]; norm_num

theorem C60_toe_vandermeer1998_height_partial {D ht h N rr rw r : ℝ} (hh : 0 < h) (hN : 0 < N) (hw : 0 < rw)
    (hr : rw < rr) (hD : 0 < D)
    (hres : (VanDerMeer1998.calculate_wave_height_Hs (fin D) (fin ht) (fin h) (fin N) (fin rr)
      (fin rw)).res = .ok (fin r)) :
    WarnsExactly (VanDerMeer1998.calculate_wave_height_Hs (fin D) (fin ht) (fin h) (fin N) (fin rr)
        (fin rw)) "van der Meer (1998)"
      [⟨"Relative toe height (h)", fin r, 0.01, 20⟩,
       ⟨"Relative toe height (Dn50)", fin (ht / h), 0.4, 0.9⟩,
       ⟨"Relative toe height (Dn50)", fin (ht / D), 3, 25⟩,
       ⟨"Nod vs Ns", fin (N ^ (-0.15 : ℝ) * (r / Delta rr rw * D)), 2, pinf⟩] := by
  obtain ⟨De, hDe, hDD, eD⟩ := Delta_eval hw hr
  unfold VanDerMeer1998.calculate_wave_height_Hs at hres ⊢
  dsimp only at hres ⊢
  rw [eD] at hres ⊢
  rw [show Delta rr rw = De from hDD.symm]
  exact with_result (m := fun x => VanDerMeer1998.check_validity x (fin ht) (fin h) (fin D) (fin N) (fin De))
    (by simp [VanDerMeer1998.check_validity])
    (RangeChecks.C79_toe_vandermeer1998_partial hh hD hDe hN) hres

theorem C60_toe_vandermeer1998_depth_partial {H D h N rr rw r : ℝ} (hh : 0 < h) (hN : 0 < N) (hw : 0 < rw)
    (hr : rw < rr) (hD : 0 < D)
    (hres : (VanDerMeer1998.calculate_depth_above_toe_ht (fin H) (fin D) (fin h) (fin N) (fin rr)
      (fin rw)).res = .ok (fin r)) :
    WarnsExactly (VanDerMeer1998.calculate_depth_above_toe_ht (fin H) (fin D) (fin h) (fin N) (fin rr)
        (fin rw)) "van der Meer (1998)"
      [⟨"Relative toe height (h)", fin H, 0.01, 20⟩,
       ⟨"Relative toe height (Dn50)", fin (r / h), 0.4, 0.9⟩,
       ⟨"Relative toe height (Dn50)", fin (r / D), 3, 25⟩,
       ⟨"Nod vs Ns", fin (N ^ (-0.15 : ℝ) * (H / Delta rr rw * D)), 2, pinf⟩] := by
  obtain ⟨De, hDe, hDD, eD⟩ := Delta_eval hw hr
  unfold VanDerMeer1998.calculate_depth_above_toe_ht at hres ⊢
  dsimp only at hres ⊢
  rw [eD] at hres ⊢
  rw [show Delta rr rw = De from hDD.symm]
  exact with_result (m := fun x => VanDerMeer1998.check_validity (fin H) x (fin h) (fin D) (fin N) (fin De))
    (by simp [VanDerMeer1998.check_validity])
    (RangeChecks.C79_toe_vandermeer1998_partial hh hD hDe hN) hres

/-- the damage number -/
theorem C60_toe_vandermeer1998_damage_partial {H D ht h rr rw r : ℝ} (hh : 0 < h) (hw : 0 < rw)
    (hr : rw < rr) (hD : 0 < D) (hpos : 0 < r)
    (hres : (VanDerMeer1998.calculate_damage_Nod (fin H) (fin ht) (fin h) (fin D) (fin rr)
      (fin rw)).res = .ok (fin r)) :
    WarnsExactly (VanDerMeer1998.calculate_damage_Nod (fin H) (fin ht) (fin h) (fin D) (fin rr)
        (fin rw)) "van der Meer (1998)"
      [⟨"Relative toe height (h)", fin H, 0.01, 20⟩,
       ⟨"Relative toe height (Dn50)", fin (ht / h), 0.4, 0.9⟩,
       ⟨"Relative toe height (Dn50)", fin (ht / D), 3, 25⟩,
       ⟨"Nod vs Ns", fin (r ^ (-0.15 : ℝ) * (H / Delta rr rw * D)), 2, pinf⟩] := by
  obtain ⟨De, hDe, hDD, eD⟩ := Delta_eval hw hr
  unfold VanDerMeer1998.calculate_damage_Nod at hres ⊢
  dsimp only at hres ⊢
  rw [eD] at hres ⊢
  rw [show Delta rr rw = De from hDD.symm]
  exact with_result (m := fun x => VanDerMeer1998.check_validity (fin H) (fin ht) (fin h) (fin D) x (fin De))
    (by simp [VanDerMeer1998.check_validity])
    (RangeChecks.C79_toe_vandermeer1998_partial hh hD hDe hpos) hres

/-! ### Toe berms: Etemad-Shahidi et al. (2021), the wave height

The function has no check at all. -/

theorem C60_toe_etemad_height_refuted (T h ht B N m D rr rw g c1 c2 c3 c4 c5 c6 c7 s0 : PF) (n : ℕ)
    (r : PyM PF)
    (hr : EtemadShahidi2021.calculate_significant_wave_height_Hs T h ht B N m D rr rw g c1 c2 c3 c4 c5 c6 c7 s0
      n = some r) : r.warns = [] := by
  unfold EtemadShahidi2021.calculate_significant_wave_height_Hs at hr
  obtain ⟨s, -, rfl⟩ := Option.map_eq_some_iff.mp hr
  rfl

/-! ### Toe berms: Takahashi et al. (1990), the stone size -/

theorem C60_takahashi_size (disper : PF → PF → PF → PF) (H T h B rr rw b g : PF) :
    (Takahashi1990.calculate_nominal_diameter_Dn50 disper H T h B rr rw b g).warns =
      (Takahashi1990.calculate_stability_number_Ns disper H T h B b g).warns := by
  unfold Takahashi1990.calculate_nominal_diameter_Dn50
  dsimp only
  have hr : ∃ x, (Takahashi1990.calculate_stability_number_Ns disper H T h B b g).res = .ok x := by
    unfold Takahashi1990.calculate_stability_number_Ns
    rw [PyM.bind_res_of_ok (show (Takahashi1990.check_validity _ _).res = .ok () by
      simp [Takahashi1990.check_validity])]
    exact ⟨_, rfl⟩
  obtain ⟨x, hx⟩ := hr
  rw [PyM.bind_warns_of_ok hx]
  simp [check_usage_stabilitynumber, PyM.pure_def]

end RangeMore
