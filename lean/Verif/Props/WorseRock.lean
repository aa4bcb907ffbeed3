import Verif.Lemmas.WorseStructural
import Verif.Props.FormulasRock

/-! # C92: worse conditions never make rock armour look safer (other than Van der Meer's formula, C26) -/

open Classical
open PF WorseStrProof
noncomputable section

namespace WorseStrProof

/-! ## Etemad-Shahidi et al. 2020 -/

theorem xi_sq_mul {H T c : ℝ} (hH : 0 < H) (hT : 0 < T) (hc : 0 < c) :
    H = 9.81 * T ^ 2 / (2 * Real.pi * c ^ 2) * VdMProof.xi H T c ^ (-2 : ℝ) := by
  have hpi := Real.pi_pos
  have hx := VdMProof.xi_pos hH hT hc
  rw [Real.rpow_neg hx.le, Real.rpow_two]
  unfold VdMProof.xi
  rw [div_pow, Real.sq_sqrt (by positivity)]
  have : (1.0 : ℝ) = 1 := by norm_num
  rw [this]
  field_simp

/-- load as a function of the Iribarren number -/
def load (x : ℝ) : ℝ :=
  if 1.8 ≤ x then x ^ (-5 / 3 : ℝ) / 3.9 else x ^ (-17 / 12 : ℝ) / 4.5

theorem load_pos {x : ℝ} (hx : 0 < x) : 0 < load x := by
  unfold load; split_ifs <;> positivity

theorem jump : (4.5 : ℝ) < 3.9 * 1.8 ^ (1 / 4 : ℝ) := by
  have h : (1.1539 : ℝ) < 1.8 ^ (1 / 4 : ℝ) := by
    rw [Real.lt_rpow_iff_log_lt (by norm_num) (by norm_num)]
    have : Real.log ((1.1539 : ℝ) ^ (4 : ℕ)) < Real.log 1.8 := Real.log_lt_log (by norm_num) (by norm_num)
    rw [Real.log_pow] at this
    push_cast at this
    linarith
  linarith

theorem load_lt {x y : ℝ} (hx : 0 < x) (hxy : x < y) : load y < load x := by
  have hy := hx.trans hxy
  unfold load
  split_ifs with h1 h2 h2
  · have := Real.rpow_lt_rpow_of_neg hx hxy (by norm_num : (-5 / 3 : ℝ) < 0)
    gcongr
  · push Not at h2
    have e1 : y ^ (-5 / 3 : ℝ) ≤ 1.8 ^ (-5 / 3 : ℝ) :=
      Real.rpow_le_rpow_of_nonpos (by norm_num) h1 (by norm_num)
    have e2 : (1.8 : ℝ) ^ (-17 / 12 : ℝ) ≤ x ^ (-17 / 12 : ℝ) :=
      Real.rpow_le_rpow_of_nonpos hx h2.le (by norm_num)
    have e3 : (1.8 : ℝ) ^ (-17 / 12 : ℝ) = 1.8 ^ (-5 / 3 : ℝ) * 1.8 ^ (1 / 4 : ℝ) := by
      rw [← Real.rpow_add (by norm_num)]; norm_num
    have e4 : (0 : ℝ) < 1.8 ^ (-5 / 3 : ℝ) := by positivity
    have := jump
    calc _ ≤ (1.8 : ℝ) ^ (-5 / 3 : ℝ) / 3.9 := by gcongr
      _ < 1.8 ^ (-5 / 3 : ℝ) * 1.8 ^ (1 / 4 : ℝ) / 4.5 := by
        rw [div_lt_div_iff₀ (by norm_num) (by norm_num)]; nlinarith
      _ ≤ _ := by rw [← e3]; gcongr
  · exfalso; linarith
  · have := Real.rpow_lt_rpow_of_neg hx hxy (by norm_num : (-17 / 12 : ℝ) < 0)
    gcongr

/-- size of the armour times the influence of the core -/
def armourCore (D Dc : ℝ) : ℝ := D ^ (0.82 : ℝ) * (D ^ (0.3 : ℝ) + Dc ^ (0.3 : ℝ)) ^ (0.6 : ℝ)

theorem armourCore_eq {D Dc : ℝ} (hD : 0 < D) (hDc : 0 ≤ Dc) :
    D * Published.corePermeability D Dc = armourCore D Dc := by
  unfold Published.corePermeability armourCore
  have h1 : D ^ (0.3 : ℝ) + Dc ^ (0.3 : ℝ) = D ^ (0.3 : ℝ) * (1 + (Dc / D) ^ ((3 : ℝ) / 10)) := by
    rw [Real.div_rpow hDc hD.le]
    have : (3 : ℝ) / 10 = 0.3 := by norm_num
    rw [this]
    have : 0 < D ^ (0.3 : ℝ) := by positivity
    field_simp
  rw [h1, Real.mul_rpow (by positivity) (by positivity), ← mul_assoc, ← Real.rpow_mul hD.le,
    ← Real.rpow_add hD]
  norm_num

theorem armourCore_le {D D' Dc Dc' : ℝ} (hD : 0 < D') (hDD : D' ≤ D) (hDc : 0 ≤ Dc') (hcc : Dc' ≤ Dc) :
    0 < armourCore D' Dc' ∧ armourCore D' Dc' ≤ armourCore D Dc ∧
      (D' < D ∨ Dc' < Dc → armourCore D' Dc' < armourCore D Dc) := by
  have hD0 := hD.trans_le hDD
  have hc0 := hDc.trans hcc
  unfold armourCore
  refine ⟨by positivity, by gcongr, ?_⟩
  rintro (h | h)
  · calc _ < D ^ (0.82 : ℝ) * (D' ^ (0.3 : ℝ) + Dc' ^ (0.3 : ℝ)) ^ (0.6 : ℝ) := by gcongr
      _ ≤ _ := by gcongr
  · calc _ ≤ D ^ (0.82 : ℝ) * (D' ^ (0.3 : ℝ) + Dc' ^ (0.3 : ℝ)) ^ (0.6 : ℝ) := by gcongr
      _ < D ^ (0.82 : ℝ) * (D' ^ (0.3 : ℝ) + Dc ^ (0.3 : ℝ)) ^ (0.6 : ℝ) := by gcongr
      _ ≤ _ := by gcongr

/-- the two published curves as one relation -/
theorem etemad_rel {H T N c D Dc De S f : ℝ} (hH : 0 < H) (hT : 0 < T) (hc : 0 < c) (hD : 0 < D)
    (hDc : 0 ≤ Dc) (hDe : 0 < De)
    (h1 : 1.8 ≤ Textbook.iribarren H T c → Published.EtemadSurging (H / (De * D))
      (Published.corePermeability D Dc) N S (Textbook.iribarren H T c) f)
    (h2 : Textbook.iribarren H T c < 1.8 → Published.EtemadPlunging (H / (De * D))
      (Published.corePermeability D Dc) N S (Textbook.iribarren H T c) f) :
    armourCore D Dc * N ^ (-(1 : ℝ) / 10) * f * S ^ ((1 : ℝ) / 6) =
      9.81 * T ^ 2 / (2 * Real.pi * c ^ 2) * load (Textbook.iribarren H T c) / De := by
  have hx := VdMProof.xi_pos hH hT hc
  have e := xi_sq_mul hH hT hc
  have hC : 0 < Published.corePermeability D Dc := by
    unfold Published.corePermeability; positivity
  rw [← RangeProof.irib_eq] at e hx
  rw [← armourCore_eq hD hDc]
  unfold load
  generalize Published.corePermeability D Dc = C at *
  generalize Textbook.iribarren H T c = x at *
  generalize 9.81 * T ^ 2 / (2 * Real.pi * c ^ 2) = K at *
  split_ifs with h
  · have := h1 h
    unfold Published.EtemadSurging at this
    have e2 : x ^ (-5 / 3 : ℝ) = x ^ (-2 : ℝ) / x ^ (-(1 : ℝ) / 3) := by
      rw [← Real.rpow_sub hx]; norm_num
    have h3 : 0 < x ^ (-(1 : ℝ) / 3) := by positivity
    rw [e2]
    field_simp at this ⊢
    rw [← e]
    linarith
  · have := h2 (not_le.mp h)
    unfold Published.EtemadPlunging at this
    have e2 : x ^ (-17 / 12 : ℝ) = x ^ (-2 : ℝ) / x ^ (-(7 : ℝ) / 12) := by
      rw [← Real.rpow_sub hx]; norm_num
    have h3 : 0 < x ^ (-(7 : ℝ) / 12) := by positivity
    rw [e2]
    field_simp at this ⊢
    rw [← e]
    linarith

end WorseStrProof

/-- C92: with the wave period and the slope unchanged, a higher wave, a longer storm, smaller or lighter armour, a
finer core, heavier water and a stronger reduction by the foreshore never give less damage (Etemad-Shahidi et al.
2020), across the transition between plunging and surging waves too -/
theorem C92_etemad2020_damage {T c H H' N N' D D' Dc Dc' ra ra' rw rw' x x' : ℝ} (m m' M M' Mc Mc' rc rc' : PF)
    (b b' : Bool) (hT : 0 < T) (hc : 0 < c) (hH : 0 < H) (hHH : H ≤ H') (hN : 0 < N) (hNN : N ≤ N') (hD : 0 < D')
    (hDD : D' ≤ D) (hDc : 0 ≤ Dc') (hcc : Dc' ≤ Dc) (hw : 0 < rw) (hww : rw ≤ rw') (hr' : rw' < ra')
    (hrr : ra' ≤ ra) (hm : b = true → x < 1 / 3 ∧ m = fin x) (hm' : b' = true → x' < 1 / 3 ∧ m' = fin x')
    (hbb : (if b' then 1 - 3 * x' else 1) ≤ (if b then 1 - 3 * x else 1)) :
    NotLess (Etemad2020.calculate_damage_number_S (fin H) (fin T) (fin N) (fin c) (fin ra) (fin D) M (fin Dc) Mc rc
        (fin rw) m b)
      (Etemad2020.calculate_damage_number_S (fin H') (fin T) (fin N') (fin c) (fin ra') (fin D') M' (fin Dc') Mc' rc'
        (fin rw') m' b')
      (H < H' ∨ N < N' ∨ D' < D ∨ Dc' < Dc ∨ (if b' then 1 - 3 * x' else 1) < (if b then 1 - 3 * x else 1)) := by
  have hw' := hw.trans_le hww
  have hr : rw < ra := by linarith
  have hDe' := delta_pos hw' hr'
  have hDe := delta_le hw hww hr' hrr
  have hD0 := hD.trans_le hDD
  have hc0 := hDc.trans hcc
  have hH0 := hH.trans_le hHH
  have hN0 := hN.trans_le hNN
  obtain ⟨hf, -⟩ := FormulaProof.dep x m b hm
  obtain ⟨hf', -⟩ := FormulaProof.dep x' m' b' hm'
  change Published.depthLimitation x' b' ≤ Published.depthLimitation x b at hbb
  refine ofReturns (C78_etemad2020_damage T N c ra D Dc x m M Mc rc b hT hN hc hD0 hc0 hm H rw hH hw hr)
    (C78_etemad2020_damage T N' c ra' D' Dc' x' m' M' Mc' rc' b' hT hN0 hc hD hDc hm' H' rw' hH0 hw' hr') ?_
  intro S S' hS hS' e e'
  have hDe0 := hDe'.trans_le hDe
  have k := etemad_rel hH hT hc hD0 hc0 hDe0 e.1 e.2
  have k' := etemad_rel hH0 hT hc hD hDc hDe' e'.1 e'.2
  obtain ⟨p1, p2, p3⟩ := armourCore_le hD hDD hDc hcc
  change S ≤ S' ∧ (H < H' ∨ N < N' ∨ D' < D ∨ Dc' < Dc ∨ Published.depthLimitation x' b' <
    Published.depthLimitation x b → S < S')
  generalize Published.depthLimitation x b = f at *
  generalize Published.depthLimitation x' b' = f' at *
  generalize armourCore D Dc = P at *
  generalize armourCore D' Dc' = P' at *
  have hP := p1.trans_le p2
  have q1 : N' ^ (-(1 : ℝ) / 10) ≤ N ^ (-(1 : ℝ) / 10) := Real.rpow_le_rpow_of_nonpos hN hNN (by norm_num)
  have q2 : N < N' → N' ^ (-(1 : ℝ) / 10) < N ^ (-(1 : ℝ) / 10) :=
    fun h => Real.rpow_lt_rpow_of_neg hN h (by norm_num)
  have q0 : 0 < N' ^ (-(1 : ℝ) / 10) := by positivity
  have q3 : 0 < N ^ (-(1 : ℝ) / 10) := by positivity
  generalize N ^ (-(1 : ℝ) / 10) = Q at *
  generalize N' ^ (-(1 : ℝ) / 10) = Q' at *
  have hpi := Real.pi_pos
  have hK : 0 < 9.81 * T ^ 2 / (2 * Real.pi * c ^ 2) := by positivity
  generalize 9.81 * T ^ 2 / (2 * Real.pi * c ^ 2) = K at *
  have hx' := VdMProof.xi_pos hH0 hT hc
  have l2 : H < H' → load (Textbook.iribarren H T c) < load (Textbook.iribarren H' T c) := by
    intro h
    rw [RangeProof.irib_eq, RangeProof.irib_eq]
    exact load_lt hx' (VdMProof.xi_anti hH h hT hc)
  have l1 : load (Textbook.iribarren H T c) ≤ load (Textbook.iribarren H' T c) := by
    rcases hHH.lt_or_eq with h | h
    · exact (l2 h).le
    · rw [h]
  have l0 : 0 < load (Textbook.iribarren H T c) := by
    rw [RangeProof.irib_eq]; exact load_pos (VdMProof.xi_pos hH hT hc)
  generalize load (Textbook.iribarren H T c) = L at *
  generalize load (Textbook.iribarren H' T c) = L' at *
  have l3 := l0.trans_le l1
  obtain ⟨r1, r2⟩ := solve (by norm_num) (by positivity) (by gcongr : P' * Q' * f' ≤ P * Q * f)
    (by gcongr : K * L / Textbook.Delta ra rw ≤ K * L' / Textbook.Delta ra' rw') hS hS' k k'
  refine ⟨r1, fun hs => r2 ?_⟩
  have strictP : P' < P → P' * Q' * f' < P * Q * f := fun h =>
    calc _ < P * Q' * f' := by gcongr
      _ ≤ _ := by gcongr
  rcases hs with hs | hs | hs | hs | hs
  · right
    have := l2 hs
    calc _ < K * L' / Textbook.Delta ra rw := by gcongr
      _ ≤ _ := by gcongr
  · left
    have := q2 hs
    calc _ < P' * Q * f' := by gcongr
      _ ≤ _ := by gcongr
  · left; exact strictP (p3 (Or.inl hs))
  · left; exact strictP (p3 (Or.inr hs))
  · left
    calc _ < P' * Q' * f := by gcongr
      _ ≤ _ := by gcongr

example := C92_etemad2020_damage (T := 8) (c := 2) (H := 2) (H' := 3) (N := 2000) (N' := 3000) (D := 1.2) (D' := 1)
  (Dc := 0.4) (Dc' := 0.3) (ra := 2700) (ra' := 2650) (rw := 1000) (rw' := 1025) (x := 0.01) (x' := 0.02) (fin 0.01)
  (fin 0.02) nan nan nan nan nan nan true true (by norm_num) (by norm_num) (by norm_num) (by norm_num) (by norm_num)
  (by norm_num) (by norm_num) (by norm_num) (by norm_num) (by norm_num) (by norm_num) (by norm_num) (by norm_num)
  (by norm_num) (by norm_num) (by norm_num) (by norm_num)

/-- C92 is false for the wave period: at the transition from plunging to surging waves (ξ = 1.8) the two curves do not
meet, and for every structure and wave height there is a longer period with less damage -/
theorem C92_etemad2020_period_refuted (c H N D Dc ra rw x : ℝ) (m M Mc rc : PF) (b : Bool) (hc : 0 < c) (hH : 0 < H)
    (hN : 0 < N) (hD : 0 < D) (hDc : 0 ≤ Dc) (hw : 0 < rw) (hr : rw < ra) (hm : b = true → x < 1 / 3 ∧ m = fin x) :
    ∃ T T' S S' : ℝ, 0 < T ∧ T < T' ∧ S' < S ∧
      (Etemad2020.calculate_damage_number_S (fin H) (fin T) (fin N) (fin c) (fin ra) (fin D) M (fin Dc) Mc rc
        (fin rw) m b).res = .ok (fin S) ∧
      (Etemad2020.calculate_damage_number_S (fin H) (fin T') (fin N) (fin c) (fin ra) (fin D) M (fin Dc) Mc rc
        (fin rw) m b).res = .ok (fin S') := by
  have hpi := Real.pi_pos
  have hq : 0 < √(2 * Real.pi / 9.81 * H) := Real.sqrt_pos.mpr (by positivity)
  have hxi : ∀ y : ℝ, 0 < y → Textbook.iribarren H (y * c * √(2 * Real.pi / 9.81 * H)) c = y := by
    intro y hy
    rw [RangeProof.irib_eq]
    unfold VdMProof.xi
    rw [Real.sqrt_div (by positivity), Real.sqrt_sq (by positivity)]
    have : (1.0 : ℝ) = 1 := by norm_num
    rw [this]
    field_simp
  set q := √(2 * Real.pi / 9.81 * H) with hqd
  have hT : 0 < 1.7982 * c * q := by positivity
  have hT' : 0 < 1.8 * c * q := by positivity
  obtain ⟨S, hS, e, p⟩ := C78_etemad2020_damage (1.7982 * c * q) N c ra D Dc x m M Mc rc b hT hN hc hD hDc hm H rw hH
    hw hr
  obtain ⟨S', hS', e', p'⟩ := C78_etemad2020_damage (1.8 * c * q) N c ra D Dc x m M Mc rc b hT' hN hc hD hDc hm H rw
    hH hw hr
  refine ⟨_, _, S, S', hT, by gcongr; norm_num, ?_, e, e'⟩
  have hDe := delta_pos hw hr
  have k := etemad_rel hH hT hc hD hDc hDe p.1 p.2
  have k' := etemad_rel hH hT' hc hD hDc hDe p'.1 p'.2
  rw [hxi _ (by norm_num)] at k k'
  obtain ⟨hf, -⟩ := FormulaProof.dep x m b hm
  obtain ⟨p1, -, -⟩ := armourCore_le hD le_rfl hDc le_rfl
  refine (solve (by norm_num : (0 : ℝ) < 1 / 6) (by positivity) le_rfl ?_ hS' hS k' k).2 (Or.inr ?_) <;>
    [apply le_of_lt; skip] <;>
  · have h1 : load 1.7982 = 1.7982 ^ (-17 / 12 : ℝ) / 4.5 := by unfold load; rw [if_neg (by norm_num)]
    have h2 : load 1.8 = 1.8 ^ (-5 / 3 : ℝ) / 3.9 := by unfold load; rw [if_pos (by norm_num)]
    have h3 : (1.158 : ℝ) < 1.8 ^ (1 / 4 : ℝ) := by
      rw [Real.lt_rpow_iff_log_lt (by norm_num) (by norm_num)]
      have : Real.log ((1.158 : ℝ) ^ (4 : ℕ)) < Real.log 1.8 := Real.log_lt_log (by norm_num) (by norm_num)
      rw [Real.log_pow] at this
      push_cast at this
      linarith
    have e3 : (1.8 : ℝ) ^ (-17 / 12 : ℝ) = 1.8 ^ (-5 / 3 : ℝ) * 1.8 ^ (1 / 4 : ℝ) := by
      rw [← Real.rpow_add (by norm_num)]; norm_num
    have e2 : (1.8 : ℝ) ^ (-17 / 12 : ℝ) ≤ 1.7982 ^ (-17 / 12 : ℝ) :=
      Real.rpow_le_rpow_of_nonpos (by norm_num) (by norm_num) (by norm_num)
    have e4 : (0 : ℝ) < 1.8 ^ (-5 / 3 : ℝ) := by positivity
    have key : (1.8 : ℝ) ^ 2 * load 1.8 < 1.7982 ^ 2 * load 1.7982 := by
      rw [h1, h2]
      rw [e3] at e2
      generalize (1.8 : ℝ) ^ (-5 / 3 : ℝ) = u at *
      generalize (1.8 : ℝ) ^ (1 / 4 : ℝ) = v at *
      generalize (1.7982 : ℝ) ^ (-17 / 12 : ℝ) = w at *
      have : u * 1.158 < w := (mul_lt_mul_of_pos_left h3 e4).trans_le e2
      norm_num at this ⊢
      linarith
    have hz : 0 < 9.81 * (c * q) ^ 2 / (2 * Real.pi * c ^ 2) / Textbook.Delta ra rw := by positivity
    have := mul_lt_mul_of_pos_left key hz
    calc _ = 9.81 * (c * q) ^ 2 / (2 * Real.pi * c ^ 2) / Textbook.Delta ra rw * (1.8 ^ 2 * load 1.8) := by
          generalize load 1.8 = L; ring
      _ < _ := this
      _ = _ := by generalize load 1.7982 = L; ring

example := C92_etemad2020_period_refuted (c := 2) (H := 2) (N := 2000) (D := 1.2) (Dc := 0.4) (ra := 2650)
  (rw := 1025) (x := 0) nan nan nan nan false (by norm_num) (by norm_num) (by norm_num) (by norm_num) (by norm_num)
  (by norm_num) (by norm_num) (by simp)

end
