import Verif.Props.FormulasRock
import Verif.Lemmas.IterLimit

/-! # Property C78, continued: the wave height by Jumelet et al. (2024) -/

open Classical
open PF
open CorePhysics RangeProof FormulaProof
noncomputable section

namespace JumHeightProof
open Jumelet2024

/-- a wave height that is not negative, or none -/
def NonNeg (x : PF) : Prop := x = nan ∨ x = pinf ∨ ∃ r : ℝ, 0 ≤ r ∧ x = fin r

section
variable {T N c S D cp De : ℝ} (hT : 0 < T) (hN : 0 < N) (hc : 0 < c) (hS : 0 < S) (hD : 0 < D)
  (hcp : 0 < cp) (hDe : 0 < De)
include hT hN hc hS hD hcp hDe

/-- the estimate in one pass for `n` plunging waves -/
def est (T c S D cp De n : ℝ) : ℝ :=
  (cp * S ^ (0.2 : ℝ) * n ^ (-0.1 : ℝ) * c * √(2 * Real.pi / 9.81 * T ^ (-2 : ℝ)) * De * D) ^ (2.0 : ℝ)

theorem factor_pos : 0 < cp * S ^ (0.2 : ℝ) ∧ 0 < √(2 * Real.pi / 9.81 * T ^ (-2 : ℝ)) := by
  have := Real.pi_pos
  constructor <;> positivity

theorem round_est (n : ℤ) : ∃ v, NonNeg v ∧ (∀ H : ℝ, v = fin H → 0 < n ∧ H = est T c S D cp De n) ∧
    npow (fin cp * npow (fin S) 0.2 * npow (fin n) (-0.1) * fin c
      * PF.sqrt ((2 * PF.pi / 9.81) * npow (fin T) (-2)) * fin De * fin D) 2.0 = v := by
  have hpi := Real.pi_pos
  have hx : 0 < √(2 * Real.pi / 9.81 * T ^ (-2 : ℝ)) := by positivity
  have e1 : PF.sqrt ((2 * PF.pi / 9.81) * npow (fin T) (-2)) = fin √(2 * Real.pi / 9.81 * T ^ (-2 : ℝ)) := by
    pf_eval []
  have e2 : fin cp * npow (fin S) 0.2 = fin (cp * S ^ (0.2 : ℝ)) := by pf_eval []
  have h2 : 0 < cp * S ^ (0.2 : ℝ) := by positivity
  have e3 : (-0.1 : PF) = fin (-0.1) := by rw [sci_eq, neg_fin]
  have e4 : (2.0 : PF) = fin 2.0 := sci_eq ..
  rw [e1, e2, e3, e4]
  unfold est
  generalize √(2 * Real.pi / 9.81 * T ^ (-2 : ℝ)) = r at *
  generalize cp * S ^ (0.2 : ℝ) = k at *
  rcases lt_trichotomy n 0 with h | h | h
  · refine ⟨nan, Or.inl rfl, fun _ h => (by cases h), ?_⟩
    have hn : (n : ℝ) < 0 := by exact_mod_cast h
    have : npow (fin n) (fin (-0.1)) = nan := by
      show powFin _ _ = _
      unfold powFin
      rw [if_neg (by linarith), if_neg hn.ne, if_neg]
      rintro ⟨z, hz⟩
      have h1 : (10 * z : ℝ) = -1 := by rw [hz]; norm_num
      have h2 : (10 * z : ℤ) = -1 := by exact_mod_cast h1
      omega
    rw [this]
    simp (disch := norm_num) only [PF.nan_mul, PF.mul_nan, PF.npow_nan_fin]
  · subst h
    refine ⟨pinf, Or.inr (Or.inl rfl), fun _ h => (by cases h), ?_⟩
    have : npow (fin ((0 : ℤ) : ℝ)) (fin (-0.1)) = pinf := by
      show powFin _ _ = _
      unfold powFin
      rw [Int.cast_zero, if_neg (lt_irrefl _), if_pos rfl, if_neg (by norm_num), if_neg (by norm_num)]
    rw [this]
    have m1 : ∀ x : ℝ, 0 < x → fin x * pinf = pinf := fun x hx => if_pos hx
    have m2 : ∀ x : ℝ, 0 < x → pinf * fin x = pinf := fun x hx => if_pos hx
    rw [m1 _ h2, m2 _ hc, m2 _ hx, m2 _ hDe, m2 _ hD]
    show (if (0 : ℝ) < 2.0 then pinf else _) = _
    rw [if_pos (by norm_num)]
  · have hn : (0 : ℝ) < n := by exact_mod_cast h
    have hp : 0 < k * (n : ℝ) ^ (-0.1 : ℝ) * c * r * De * D := by positivity
    have : npow (fin n) (fin (-0.1)) = fin ((n : ℝ) ^ (-0.1 : ℝ)) := if_pos hn
    refine ⟨fin ((k * (n : ℝ) ^ (-0.1 : ℝ) * c * r * De * D) ^ (2.0 : ℝ)), Or.inr (Or.inr ⟨_, by positivity, rfl⟩),
      fun H e => ⟨h, (PF.fin.inj e).symm⟩, ?_⟩
    rw [this]
    simp only [mul_fin]
    exact if_pos hp

theorem step_spec (P : PF) (hP : NonNeg P) : ∃ v, NonNeg v ∧ (∀ H : ℝ, v = fin H → ∃ P' : ℝ, 0 < P' ∧ P = fin P' ∧
      0 < JumScaProof.Np P' T N c ∧ H = est T c S D cp De (JumScaProof.Np P' T N c)) ∧
    ∀ d o, height_step (fin T) (fin N) (fin c) (fin S) (fin D) (fin cp) 9.81 (fin De)
      ⟨d, P, calculate_Iribarren_number_ksi P (fin T) (fin c), o⟩ =
      ⟨PF.abs (v - P), v, calculate_Iribarren_number_ksi v (fin T) (fin c), some v⟩ := by
  have hpi := Real.pi_pos
  have key : ∀ v, npow (fin cp * npow (fin S) 0.2 * npow (PF.round (calculate_fraction_plunging_waves_Fp
      (calculate_Iribarren_number_ksi P (fin T) (fin c)) * fin N)) (-0.1) * fin c
      * PF.sqrt ((2 * PF.pi / 9.81) * npow (fin T) (-2)) * fin De * fin D) 2.0 = v → ∀ d o,
      height_step (fin T) (fin N) (fin c) (fin S) (fin D) (fin cp) 9.81 (fin De)
        ⟨d, P, calculate_Iribarren_number_ksi P (fin T) (fin c), o⟩ =
        ⟨PF.abs (v - P), v, calculate_Iribarren_number_ksi v (fin T) (fin c), some v⟩ := by
    rintro v rfl d o; rfl
  have knan : PF.round (calculate_fraction_plunging_waves_Fp
      (calculate_Iribarren_number_ksi P (fin T) (fin c)) * fin N) = nan → ∀ d o,
      height_step (fin T) (fin N) (fin c) (fin S) (fin D) (fin cp) 9.81 (fin De)
        ⟨d, P, calculate_Iribarren_number_ksi P (fin T) (fin c), o⟩ =
        ⟨PF.abs (nan - P), nan, calculate_Iribarren_number_ksi nan (fin T) (fin c), some nan⟩ := by
    intro h
    refine key _ ?_
    rw [h]
    simp (disch := norm_num) only [PF.nan_mul, PF.mul_nan, PF.sci_eq, PF.neg_fin, PF.npow_nan_fin, PF.npow_nan_two]
  rcases hP with rfl | rfl | ⟨r, hr, rfl⟩
  · refine ⟨nan, Or.inl rfl, fun _ h => (by cases h), knan ?_⟩
    have sq : PF.sqrt .nan = .nan := rfl
    have dv : ∀ x : PF, .nan / x = .nan := fun x => by cases x <;> rfl
    have vd : ∀ x : PF, x / .nan = .nan := fun x => by cases x <;> rfl
    have ad : ∀ x : PF, .nan + x = .nan := fun x => by cases x <;> rfl
    have sb : ∀ x : PF, .nan - x = .nan := fun x => by cases x <;> rfl
    have rd : PF.round .nan = .nan := rfl
    unfold calculate_fraction_plunging_waves_Fp calculate_Iribarren_number_ksi calculate_wave_steepness_s
    simp (disch := norm_num) only [PF.nan_mul, PF.mul_nan, sq, dv, vd, ad, sb, rd, PF.sci_eq, PF.neg_fin, PF.npow_nan_fin, PF.npow_nan_two]
  · have hk : calculate_Iribarren_number_ksi pinf (fin T) (fin c) = fin 0 := by
      have h2 : (2 * PF.pi / 9.81 : PF) = fin (2 * Real.pi / 9.81) := by pf_eval []
      have h3 : npow (fin T) 2 = fin (T ^ 2) := by pf_eval []
      have h4 : fin (2 * Real.pi / 9.81) * pinf = pinf := if_pos (by positivity)
      have h5 : pinf / fin (T ^ 2) = pinf := by
        have : ¬ T ^ 2 < 0 := not_lt.mpr (by positivity)
        exact if_neg this
      unfold calculate_Iribarren_number_ksi calculate_wave_steepness_s
      rw [h2, h3, h4, h5]
      have h6 : (1.0 / fin c : PF) = fin (1.0 / c) := by pf_eval []
      rw [h6]; rfl
    obtain ⟨v, h1, h2, h3⟩ := round_est hT hN hc hS hD hcp hDe (roundEven (-0.5 * N))
    refine ⟨v, h1, fun H e => ?_, key v ?_⟩
    · exfalso
      have := (h2 H e).1
      have h5 := (abs_le.mp (roundEven_near (-0.5 * N))).2
      have h6 : (1 : ℝ) ≤ roundEven (-0.5 * N) := by exact_mod_cast this
      norm_num at h5 h6
      linarith
    · rw [hk]
      have : PF.round (calculate_fraction_plunging_waves_Fp (fin 0) * fin N) =
          fin (roundEven (-0.5 * N) : ℝ) := by
        unfold calculate_fraction_plunging_waves_Fp
        pf_eval []
        show fin (roundEven _ : ℝ) = _
        norm_num
      rw [this]
      exact h3
  · rcases hr.eq_or_lt with rfl | hr
    · have hk : calculate_Iribarren_number_ksi (fin 0) (fin T) (fin c) = pinf := by
        have h2 : calculate_wave_steepness_s (fin 0) (fin T) = fin 0 := by
          unfold calculate_wave_steepness_s
          pf_eval []
          simp
        unfold calculate_Iribarren_number_ksi
        dsimp only
        rw [h2]
        have h6 : (1.0 / fin c : PF) = fin (1.0 / c) := by pf_eval []
        have h7 : PF.sqrt (fin 0) = fin 0 := by pf_eval [Real.sqrt_zero]
        rw [h6, h7, div_zero_fin]
        exact if_pos (by positivity)
      refine ⟨nan, Or.inl rfl, fun _ h => (by cases h), knan ?_⟩
      rw [hk]
      unfold calculate_fraction_plunging_waves_Fp
      have h2 : npow pinf 2 = pinf := by
        rw [ofNat_eq]
        exact if_pos (by norm_num)
      have h3 : (-1.7 : PF) * pinf = ninf := by
        rw [sci_eq, neg_fin]
        show mulInf _ = _
        unfold mulInf
        rw [if_neg (by norm_num), if_pos (by norm_num)]
      have h4 : (3.2 : PF) * pinf = pinf := by
        rw [sci_eq]
        exact if_pos (by norm_num)
      rw [h2, h3, h4]
      have h5 : ninf + pinf = nan := rfl
      have sb : ∀ x : PF, .nan - x = .nan := fun x => by cases x <;> rfl
      rw [h5, sb, PF.nan_mul]
      rfl
    · obtain ⟨v, h1, h2, h3⟩ := round_est hT hN hc hS hD hcp hDe
        (roundEven ((-1.7 * VdMProof.xi r T c ^ 2 + 3.2 * VdMProof.xi r T c - 0.5) * N))
      refine ⟨v, h1, fun H e => ⟨r, hr, rfl, ?_, (h2 H e).2⟩, key v ?_⟩
      · unfold JumScaProof.Np; exact_mod_cast (h2 H e).1
      · rw [JumScaProof.Np_eval hr hT hc]; exact h3
end
end JumHeightProof

/-- C78: wave height by Jumelet et al. (2024), in water of 1025 kg/m³ and at gravity 9.81.  The number of
plunging waves is that of the wave height `P` before the last pass, which differs by at most the tolerance
unless all allowed passes are used up. -/
theorem C78_jumelet_height (T N c ra S D cp si t H : ℝ) (M : PF) (m : ℕ) (hT : 0 < T) (hN : 0 < N) (hc : 0 < c)
    (hr : 1025 < ra) (hS : 0 < S) (hD : 0 < D) (hcp : 0 < cp) (hsi : 0 < si)
    (hres : (Jumelet2024.calculate_significant_wave_height_Hs (fin T) (fin N) (fin c) (fin ra) (fin S) (fin D) M
      (fin cp) 9.81 (fin si) m (fin t)).res = .ok (fin H)) :
    ∃ (P : ℝ) (n : ℕ), 0 < P ∧ 0 < n ∧
      |n - Published.plungingPart (Textbook.iribarren P T c) * N| ≤ 1 / 2 ∧
      Published.Jumelet (Textbook.Ns H D ra 1025) cp S n (Textbook.iribarren H T c) ∧
      (|H - P| ≤ t ∨ (Jumelet2024.calculate_significant_wave_height_Hs (fin T) (fin N) (fin c) (fin ra) (fin S)
        (fin D) M (fin cp) 9.81 (fin si) m (-1.0)).res = .ok (fin H)) := by
  obtain ⟨De, hDe, hDD, eD⟩ := Delta_eval (by norm_num : (0 : ℝ) < 1025) hr
  have hpi := Real.pi_pos
  have eI : fin si * npow (fin T) 2 * 9.81 / (2 * PF.pi) = fin (si * T ^ 2 * 9.81 / (2 * Real.pi)) := by
    pf_eval []
  have hI : 0 < si * T ^ 2 * 9.81 / (2 * Real.pi) := by positivity
  unfold Jumelet2024.calculate_significant_wave_height_Hs at hres ⊢
  rw [VdMProof.use_Dn50] at hres ⊢
  simp only [PyM.bind_ok, JumScaProof.rho_int, eD, eI] at hres ⊢
  generalize si * T ^ 2 * 9.81 / (2 * Real.pi) = I at *
  set body := Jumelet2024.height_step (fin T) (fin N) (fin c) (fin S) (fin D) (fin cp) 9.81 (fin De) with hbody
  set s0 : Jumelet2024.LoopState := ⟨pinf, fin I, calculate_Iribarren_number_ksi (fin I) (fin T) (fin c), none⟩
    with hs0
  have inv : ∀ k, ∃ d P o, JumHeightProof.NonNeg P ∧
      body^[k] s0 = ⟨d, P, calculate_Iribarren_number_ksi P (fin T) (fin c), o⟩ := by
    intro k
    induction k with
    | zero => exact ⟨_, _, _, Or.inr (Or.inr ⟨_, hI.le, rfl⟩), rfl⟩
    | succ k ih =>
      obtain ⟨d, P, o, hP, e⟩ := ih
      obtain ⟨v, hv, -, hst⟩ := JumHeightProof.step_spec hT hN hc hS hD hcp hDe P hP
      exact ⟨_, _, _, hv, by rw [Function.iterate_succ_apply', e]; exact hst d o⟩
  obtain ⟨K, hK, e, hcond, hend⟩ := whileIter_spec (fun s : Jumelet2024.LoopState => s.diff > fin t) body m s0
  rw [e] at hres
  cases K with
  | zero => cases hres
  | succ K =>
    obtain ⟨d, P, o, hP, eK⟩ := inv K
    obtain ⟨v, hv, hval, hst⟩ := JumHeightProof.step_spec hT hN hc hS hD hcp hDe P hP
    have e1 : body^[K + 1] s0 =
        ⟨PF.abs (v - P), v, calculate_Iribarren_number_ksi v (fin T) (fin c), some v⟩ := by
      rw [Function.iterate_succ_apply', eK]; exact hst d o
    have hv' : v = fin H := by
      rw [e1] at hres
      dsimp only at hres
      rw [PyM.bind_res_of_ok (JumScaProof.check_res_j ..)] at hres
      exact Except.ok.inj hres
    obtain ⟨P', hP', rfl, hn, hH⟩ := hval H hv'
    subst hv'
    obtain ⟨n, hnn⟩ : ∃ n : ℕ, (n : ℝ) = JumScaProof.Np P' T N c := by
      unfold JumScaProof.Np at hn ⊢
      have h0 := Int.cast_pos.mp hn
      lift roundEven ((-1.7 * VdMProof.xi P' T c ^ 2 + 3.2 * VdMProof.xi P' T c - 0.5) * N) to ℕ using h0.le
        with k hk
      exact ⟨k, by simp⟩
    have hn0 : (0 : ℝ) < n := by rw [hnn]; exact hn
    refine ⟨P', n, hP', by exact_mod_cast hn0, ?_, ?_, ?_⟩
    · rw [hnn, irib_eq]; exact roundEven_near _
    · rw [← hnn] at hH
      unfold Published.Jumelet Textbook.Ns Textbook.Delta
      rw [← hDD, irib_eq]
      unfold JumHeightProof.est at hH
      unfold VdMProof.xi
      have hr0 : 0 < 2 * Real.pi / 9.81 := by positivity
      generalize 2 * Real.pi / 9.81 = w at *
      have hnn' : (0 : ℝ) < n := hn0
      generalize (n : ℝ) = n at *
      have e1 : √(w * T ^ (-2 : ℝ)) = √w / T := by
        rw [Real.rpow_neg hT.le, ← div_eq_mul_inv, Real.rpow_ofNat, Real.sqrt_div hr0.le, Real.sqrt_sq hT.le]
      have e2 : (S / √n) ^ (0.2 : ℝ) = S ^ (0.2 : ℝ) * n ^ (-0.1 : ℝ) := by
        rw [Real.div_rpow hS.le (Real.sqrt_nonneg _), Real.sqrt_eq_rpow, ← Real.rpow_mul hn0.le,
          div_eq_mul_inv, ← Real.rpow_neg hn0.le]
        norm_num
      rw [e1] at hH
      have hX : 0 < cp * S ^ (0.2 : ℝ) * n ^ (-0.1 : ℝ) * c * (√w / T) * De * D := by positivity
      have e3 : √(w * H / T ^ 2) = √w / T * (cp * S ^ (0.2 : ℝ) * n ^ (-0.1 : ℝ) * c * (√w / T) * De * D) := by
        have e20 : (2.0 : ℝ) = 2 := by norm_num
        rw [hH, e20, Real.rpow_ofNat, Real.sqrt_div (by positivity), Real.sqrt_sq hT.le, Real.sqrt_mul hr0.le,
          Real.sqrt_sq hX.le]
        ring
      have e20 : (2.0 : ℝ) = 2 := by norm_num
      have e10 : (1.0 : ℝ) = 1 := by norm_num
      rw [e3, e2, hH, e20, e10, Real.rpow_ofNat, Real.rpow_neg_one]
      have hsw : 0 < √w := Real.sqrt_pos.mpr hr0
      generalize √w = q at *
      have hA : 0 < S ^ (0.2 : ℝ) := by positivity
      have hB : 0 < n ^ (-0.1 : ℝ) := by positivity
      generalize S ^ (0.2 : ℝ) = A at *
      generalize n ^ (-0.1 : ℝ) = B at *
      field_simp
    · rcases hend with hend | hend
      · right
        have hall : whileIter m (fun s : Jumelet2024.LoopState => s.diff > -1.0) body s0 = body^[K + 1] s0 := by
          rw [← hend]
          refine whileIter_all _ _ _ _ fun j hj => ?_
          have hj' := IterProof.gt_not_nan (hcond j hj)
          cases j with
          | zero =>
            rw [IterProof.neg_one]; trivial
          | succ j =>
            rw [Function.iterate_succ_apply'] at hj' ⊢
            exact ArrProof.abs_gt_neg _ hj'
        rw [hall, e1]
        dsimp only
        rw [PyM.bind_res_of_ok (JumScaProof.check_res_j ..)]
        rfl
      · left
        rw [e1] at hend
        dsimp only at hend
        rw [sub_fin, abs_fin] at hend
        exact not_lt.mp hend

/-- the hypotheses are satisfiable: a single pass from an Iribarren number of 1, where all waves are
plunging -/
theorem JumHeightProof.case_met : ∃ H : ℝ, (Jumelet2024.calculate_significant_wave_height_Hs (fin 1)
    (fin 1000) (fin 1) (fin 2050) (fin 2) (fin 1) nan (fin 4) 9.81 (fin 1) 1 (fin 0.001)).res = .ok (fin H) := by
  have hpi := Real.pi_pos
  have eI : fin 1 * npow (fin 1) 2 * 9.81 / (2 * PF.pi) = fin (9.81 / (2 * Real.pi)) := by
    pf_eval []
    norm_num
  have hI : 0 < 9.81 / (2 * Real.pi) := by positivity
  have eD : calculate_buoyant_density_Delta (fin 2050) (fin 1025) = fin 1 := by
    unfold calculate_buoyant_density_Delta
    pf_eval []
    norm_num
  have hx : VdMProof.xi (9.81 / (2 * Real.pi)) 1 1 = 1 := by
    unfold VdMProof.xi
    have : 2 * Real.pi / 9.81 * (9.81 / (2 * Real.pi)) / 1 ^ 2 = 1 := by field_simp
    rw [this]; norm_num
  have hn : JumScaProof.Np (9.81 / (2 * Real.pi)) 1 1000 1 = 1000 := by
    unfold JumScaProof.Np
    rw [hx]
    have : ((-1.7 : ℝ) * 1 ^ 2 + 3.2 * 1 - 0.5) * 1000 = ((1000 : ℤ) : ℝ) := by norm_num
    rw [this]
    unfold roundEven
    rw [Int.floor_intCast, sub_self, if_pos (by norm_num)]
    norm_num
  unfold Jumelet2024.calculate_significant_wave_height_Hs
  rw [VdMProof.use_Dn50]
  simp only [PyM.bind_ok, JumScaProof.rho_int, eD, eI]
  rw [whileIter, if_pos (show pinf > fin 0.001 from trivial)]
  unfold whileIter Jumelet2024.height_step
  dsimp only
  rw [JumScaProof.Np_eval hI (by norm_num) (by norm_num), hn,
    PyM.bind_res_of_ok (JumScaProof.check_res_j ..)]
  have hp : 0 < (4 : ℝ) * 2 ^ (0.2 : ℝ) * 1000 ^ (-0.1 : ℝ) * 1 * √(2 * Real.pi / 9.81 * 1 ^ (-2 : ℝ)) * 1 * 1 := by
    positivity
  refine ⟨((4 : ℝ) * 2 ^ (0.2 : ℝ) * 1000 ^ (-0.1 : ℝ) * 1 * √(2 * Real.pi / 9.81 * 1 ^ (-2 : ℝ)) * 1 * 1) ^
    (2.0 : ℝ), congrArg Except.ok ?_⟩
  have e1 : PF.sqrt ((2 * PF.pi / 9.81) * npow (fin 1) (-2)) = fin √(2 * Real.pi / 9.81 * 1 ^ (-2 : ℝ)) := by
    pf_eval []
  rw [e1]
  pf_eval []
