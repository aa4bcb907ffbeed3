import Verif.Props.WorseTakahashi
import Verif.Props.DesignEtemad
import Verif.Props.WorseKramer
import Verif.SpecOneAnswer

/-! # C98: the questions answered by iterations have one answer -/

open Classical
open PF
noncomputable section

/-- C98: every stone size belongs to exactly one wave height in a caisson toe (Takahashi et al. 1990) -/
theorem C98_takahashi_height (disper : PF → PF → PF → PF) (T : PF) {h B ρr ρw β g L : ℝ} (hh : 0 < h) (hL : 0 < L)
    (hw : CorePhysics.calculate_local_wavelength disper T (fin h) (fin g) = fin L)
    (hk : 0 < Published.toeKappa (2 * Real.pi / L) h B (β * (Real.pi / 180))) (hr0 : 0 < ρw) (hr : ρw < ρr) :
    ∀ D : ℝ, 0 < D → ∃! H : ℝ, 0 < H ∧ (Takahashi1990.calculate_nominal_diameter_Dn50 disper (fin H) T (fin h) (fin B)
      (fin ρr) (fin ρw) (fin β) (fin g)).res = .ok (fin D) := by
  intro D hD
  obtain ⟨H, ⟨hH, e⟩, hu⟩ := C61_one_solution D h B ρr ρw β L _ hD hh hr0 hr hL hk rfl
  refine ⟨H, ⟨hH, (TakahashiProof.size_iff disper T hh hL hw hk hr0 hr hD hH).mpr e⟩, fun y ⟨hy, ey⟩ => ?_⟩
  exact hu y ⟨hy, (TakahashiProof.size_iff disper T hh hL hw hk hr0 hr hD hy).mp ey⟩

/-- C98: every damage belongs to exactly one rock size (Etemad-Shahidi et al. 2020), across the transition between
plunging and surging waves too -/
theorem C98_etemad2020_size {H T N c ra Dc : ℝ} (m M Mc rc : PF) (b : Bool) (hH : 0 < H) (hT : 0 < T)
    (hN : 0 < N) (hc : 0 < c) (hr : 1025 < ra) (hDc : 0 ≤ Dc)
    (hm : b = true → ∃ x : ℝ, x < 1 / 3 ∧ m = fin x) :
    ∀ S : ℝ, 0 < S → ∃! D : ℝ, 0 < D ∧ (Etemad2020.calculate_damage_number_S (fin H) (fin T) (fin N) (fin c) (fin ra)
      (fin D) M (fin Dc) Mc rc (fin 1025) m b).res = .ok (fin S) := by
  intro S hS
  obtain ⟨n0, D, p, hD, hp, -, e, -⟩ := EtemadProof.size_near m M Mc rc b hH hT hN hc hr hS hDc hm 1 1 one_pos one_pos
  obtain ⟨z, hz⟩ : ∃ z : ℝ, b = true → z < 1 / 3 ∧ m = fin z := by
    cases b with
    | false => exact ⟨0, by simp⟩
    | true => obtain ⟨z, hz⟩ := hm rfl; exact ⟨z, fun _ => hz⟩
  refine ⟨p, ⟨hp, e⟩, fun y ⟨hy, ey⟩ => le_antisymm ?_ ?_⟩
  · exact (C92_etemad2020_required_size m m M M Mc Mc rc rc b b hT hc hH le_rfl hN le_rfl hDc le_rfl hr le_rfl hz hz
      le_rfl hp le_rfl ey e).1
  · exact (C92_etemad2020_required_size m m M M Mc Mc rc rc b b hT hc hH le_rfl hN le_rfl hDc le_rfl hr le_rfl hz hz
      le_rfl hy le_rfl e ey).1

/-- C98 refuted: on a low-crested structure with the crest not at the water level, stones of almost every size withstand
the same wave height as stones of one other size (Kramer & Burcharth 2003) -/
theorem C98_kramer_size_refuted (R ra D : ℝ) (M : PF) (hR : R ≠ 0) (hr : 1025 < ra) (hD : 0 < D)
    (hne : D ^ 2 ≠ 0.06 * R ^ 2 / 1.36) : ∃ H D' : ℝ, 0 < D' ∧ D' ≠ D ∧
    (KramerBurcharth.calculate_significant_wave_height_Hs (fin R) (fin ra) (fin D) M).res = .ok (fin H) ∧
    (KramerBurcharth.calculate_significant_wave_height_Hs (fin R) (fin ra) (fin D') M).res = .ok (fin H) := by
  have h2 : 0 < R ^ 2 := by positivity
  have hk : 0 < 0.06 * R ^ 2 / 1.36 := by positivity
  refine ⟨_, 0.06 * R ^ 2 / 1.36 / D, by positivity, fun h => hne ?_, KBProof.Hs_eval M hr rfl hD.ne', ?_⟩
  · rw [div_eq_iff hD.ne'] at h; rw [h]; ring
  · rw [KBProof.Hs_eval M hr rfl (by positivity), Except.ok.injEq, fin_inj]
    unfold KBProof.HsR
    field_simp
    ring

/-- C98: in the range where the formula is monotone every wave height belongs to at most one size and to at most one
crest level -/
theorem C98_kramer_unique_partial (R R' ra D D' H : ℝ) (M : PF) (hr : 1025 < ra) (hD : 0 < D) (hD' : 0 < D')
    (hlo : -4.7 * D ≤ R) (hhi : R ≤ 1.9 * D) (hlo' : -4.7 * D' ≤ R') (hhi' : R' ≤ 1.9 * D')
    (e : (KramerBurcharth.calculate_significant_wave_height_Hs (fin R) (fin ra) (fin D) M).res = .ok (fin H))
    (e' : (KramerBurcharth.calculate_significant_wave_height_Hs (fin R') (fin ra) (fin D') M).res = .ok (fin H)) :
    R = R' ↔ D = D' := by
  constructor
  · rintro rfl
    exact le_antisymm
      (C92_kramer_required_size_partial R R ra ra D D' M M hr le_rfl hD' le_rfl le_rfl hlo' hhi' e e').1
      (C92_kramer_required_size_partial R R ra ra D' D M M hr le_rfl hD le_rfl le_rfl hlo hhi e' e).1
  · rintro rfl
    exact le_antisymm
      (C92_kramer_allowed_crest_partial R' R ra ra D D M M hr le_rfl hD le_rfl le_rfl hlo hhi e' e).1
      (C92_kramer_allowed_crest_partial R R' ra ra D D M M hr le_rfl hD le_rfl le_rfl hlo' hhi' e e').1

example := C98_etemad2020_size (H := 2) (T := 8) (N := 3000) (c := 2) (ra := 2650) (Dc := 0.3)
  (fin 0.02) nan nan nan true (by norm_num) (by norm_num) (by norm_num) (by norm_num) (by norm_num)
  (by norm_num) (fun _ => ⟨0.02, by norm_num, rfl⟩)
example := C98_kramer_size_refuted (-1) 2650 1 nan (by norm_num) (by norm_num) (by norm_num) (by norm_num)
/-- a submerged crest, stones of 1 m -/
example := C98_kramer_unique_partial (-1) (-1) 2650 1 1 _ nan (by norm_num) (by norm_num) (by norm_num) (by norm_num)
  (by norm_num) (by norm_num) (by norm_num) (KBProof.Hs_eval nan (by norm_num) rfl (by norm_num))
  (KBProof.Hs_eval nan (by norm_num) rfl (by norm_num))
/-- a toe of 10 m depth, wave number 0.05 /m, normally incident waves -/
example (T : PF) : ∀ D : ℝ, 0 < D → ∃! H : ℝ, 0 < H ∧ (Takahashi1990.calculate_nominal_diameter_Dn50
    (fun _ _ _ => fin 0.05) (fin H) T (fin 10) (fin (10 * Real.pi / 3)) (fin 2000) (fin 1000) (fin 0)
    (fin 9.81)).res = .ok (fin D) := by
  obtain ⟨κ, H, hκ, eκ, -, -⟩ := TakahashiProof.toe_example
  have hpi := Real.pi_pos
  exact C98_takahashi_height _ T (by norm_num) (by positivity) (TakahashiProof.toe_wavelength T) (eκ ▸ hκ)
    (by norm_num) (by norm_num)
end
