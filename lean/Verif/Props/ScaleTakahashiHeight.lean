import Verif.Props.ScaleTakahashiDepth
import Verif.Props.WorseTakahashi

/-! # C82: the wave height found by the search of Takahashi et al. (1990) -/

open Classical
open PF Takahashi1990 CorePhysics TakahashiProof
noncomputable section

namespace TakahashiProof
theorem kappa_scale {lam : ℝ} (hl : 0 < lam) (L h B b : ℝ) :
    Published.toeKappa (2 * Real.pi / (lam * L)) (lam * h) (lam * B) b = Published.toeKappa (2 * Real.pi / L) h B b := by
  have e : ∀ x, 2 * Real.pi / (lam * L) * (lam * x) = 2 * Real.pi / L * x := fun x => by
    rcases eq_or_ne L 0 with rfl | hL
    · simp
    · field_simp
  unfold Published.toeKappa
  rw [e, mul_assoc 2 (2 * Real.pi / (lam * L)), e, mul_assoc 2 (2 * Real.pi / L)]
end TakahashiProof

section
variable {lam : ℝ} (hl : 0 < lam) {disper : PF → PF → PF → PF} (hd : Scale.Dispersion disper) (T D h B ρr ρw β g L κ : ℝ)
  (hD : 0 < D) (hh : 0 < h) (hρ : 0 < ρw) (hρ' : ρw < ρr) (hL : 0 < L)
  (hw : calculate_local_wavelength disper (fin T) (fin h) (fin g) = fin L)
  (hκ : 0 < κ) (eκ : κ = Published.toeKappa (2 * Real.pi / L) h B (β * (Real.pi / 180)))
include hl hd hD hh hρ hρ' hL hw hκ eκ

/-- C82, wave height at a caisson toe by Takahashi et al. (1990): a wave height returned in a scale model and one
returned in the prototype follow the scale up to what the search step of half a millimetre leaves at either, and up to
1 mm at either where there is no precision warning.  Both return a wave height where the stability number at the smallest
height exceeds the one of the stable wave height `H` by 0.18 (second part).
Missing: equality, which the fixed step rules out, and that one returns whenever the other does in shallow water. -/
theorem C82_takahashi_height_partial :
    let full := calculate_significant_wave_height_Hs disper (fin D) (fin T) (fin h) (fin B) (fin ρr) (fin ρw) (fin β)
      (fin g)
    let model := calculate_significant_wave_height_Hs disper (Scale.len lam (fin D)) (Scale.time lam (fin T))
      (Scale.len lam (fin h)) (Scale.len lam (fin B)) (fin ρr) (fin ρw) (fin β) (fin g)
    (∀ v v' : PF, full.res = .ok v → model.res = .ok v' → ∃ x x' : ℝ, v = fin x ∧ v' = fin x' ∧
      |x' - lam * x| ≤ 1.3 * (1 - κ) / κ ^ ((1 : ℝ) / 3) * h / (3.24 * Textbook.Delta ρr ρw * D) * 0.0005 * (1 + lam) ∧
      (Warn.text "Hs precision is not better than" ∉ full.warns →
       Warn.text "Hs precision is not better than" ∉ model.warns → |x' - lam * x| < 0.001 * (1 + lam))) ∧
    ∀ H : ℝ, H / (Textbook.Delta ρr ρw * D) = Published.toeStability κ (h / H) →
      H / (Textbook.Delta ρr ρw * D) + 0.18 ≤ Published.toeStability κ (h / (1.8 * Textbook.Delta ρr ρw * D)) →
      ∃ v v', full.res = .ok v ∧ model.res = .ok v' := by
  have hs := Real.sqrt_pos.mpr hl
  have el : ∀ x : ℝ, Scale.len lam (fin x) = fin (lam * x) := fun x => by
    unfold Scale.len Scale.times; rw [mul_fin]
  have et : ∀ x : ℝ, Scale.time lam (fin x) = fin (√lam * x) := fun x => by
    unfold Scale.time Scale.times; rw [mul_fin]
  have hlD : 0 < lam * D := mul_pos hl hD
  have hlh : 0 < lam * h := mul_pos hl hh
  have hlL : 0 < lam * L := mul_pos hl hL
  have hDe : 0 < Textbook.Delta ρr ρw := div_pos (sub_pos.mpr hρ') hρ
  have hw' : calculate_local_wavelength disper (fin (√lam * T)) (fin (lam * h)) (fin g) = fin (lam * L) := by
    have k := ScaleProof.wavelength (l := ⟨lam, hl⟩) (ScaleProof.hdw hl hd) (fin T) (fin h) (fin g)
    rw [← ScaleProof.len_eq hl, ← ScaleProof.time_eq hl, hw, el, el, et] at k
    exact k
  have eκ' : κ = Published.toeKappa (2 * Real.pi / (lam * L)) (lam * h) (lam * B) (β * (Real.pi / 180)) := by
    rw [kappa_scale hl]; exact eκ
  have r1 : ∀ H : ℝ, lam * H / (Textbook.Delta ρr ρw * (lam * D)) = H / (Textbook.Delta ρr ρw * D) := fun H => by
    rw [mul_left_comm, mul_div_mul_left _ _ hl.ne']
  have r2 : ∀ H : ℝ, lam * h / (lam * H) = h / H := fun H => mul_div_mul_left _ _ hl.ne'
  have r3 : lam * h / (1.8 * Textbook.Delta ρr ρw * (lam * D)) = h / (1.8 * Textbook.Delta ρr ρw * D) := by
    rw [mul_left_comm, mul_div_mul_left _ _ hl.ne']
  have r4 : 1.3 * (1 - κ) / κ ^ ((1 : ℝ) / 3) * (lam * h) / (3.24 * Textbook.Delta ρr ρw * (lam * D)) =
      1.3 * (1 - κ) / κ ^ ((1 : ℝ) / 3) * h / (3.24 * Textbook.Delta ρr ρw * D) := by
    rw [mul_left_comm, mul_left_comm (3.24 * Textbook.Delta ρr ρw), mul_div_mul_left _ _ hl.ne']
  simp only [el, et]
  refine ⟨fun v v' hv hv' => ?_, fun H hsol hroom => ?_⟩
  · obtain ⟨H, ⟨hH, hsol⟩, -⟩ := C61_one_solution D h B ρr ρw β L κ hD hh hρ hρ' hL hκ eκ
    obtain ⟨x, c, ex, ec, a, b, -⟩ := C61_near_solution disper (fin T) D h B ρr ρw β g L κ hD hh hρ hρ' hL hw hκ eκ H
      hsol v hv
    obtain ⟨x', c', ex', ec', a', b', -⟩ := C61_near_solution disper (fin (√lam * T)) (lam * D) (lam * h) (lam * B) ρr ρw
      β g (lam * L) κ hlD hlh hρ hρ' hlL hw' hκ eκ' (lam * H) (by rw [r1, r2]; exact hsol) v' hv'
    rw [r4, ← ec] at ec'
    rw [ec'] at a'
    rw [← ec]
    have tri : |x' - lam * x| ≤ |x' - lam * H| + lam * |x - H| := by
      rw [show x' - lam * x = (x' - lam * H) - lam * (x - H) by ring]
      refine (abs_sub _ _).trans ?_
      rw [abs_mul, abs_of_pos hl]
    refine ⟨x, x', ex, ex', ?_, fun w w' => ?_⟩
    · have := mul_le_mul_of_nonneg_left a hl.le
      linarith
    · have := mul_lt_mul_of_pos_left (b w) hl
      linarith [b' w']
  · obtain ⟨v, hv⟩ := C61_returns disper (fin T) D h B ρr ρw β g L κ hD hh hρ hρ' hL hw hκ eκ H hsol hroom
    obtain ⟨v', hv'⟩ := C61_returns disper (fin (√lam * T)) (lam * D) (lam * h) (lam * B) ρr ρw β g (lam * L) κ hlD hlh hρ
      hρ' hlL hw' hκ eκ' (lam * H) (by rw [r1, r2]; exact hsol) (by rw [r1, r3]; exact hroom)
    exact ⟨v, v', hv, hv'⟩
end

/-- a concrete toe, at twice the size: both searches return a wave height -/
example : ∃ x x' : ℝ,
    (calculate_significant_wave_height_Hs scaleSolver (fin 0.1) (fin (8 / √0.05)) (fin 10)
      (fin (10 * Real.pi / 3)) (fin 2000) (fin 1000) (fin 0) (fin 9.81)).res = .ok (fin x) ∧
    (calculate_significant_wave_height_Hs scaleSolver (Scale.len 2 (fin 0.1)) (Scale.time 2 (fin (8 / √0.05)))
      (Scale.len 2 (fin 10)) (Scale.len 2 (fin (10 * Real.pi / 3))) (fin 2000) (fin 1000) (fin 0) (fin 9.81)).res
      = .ok (fin x') := by
  obtain ⟨κ, H, hκ, eκ, hsol, hroom⟩ := toe_example
  have hpi := Real.pi_pos
  have hq : 0 < √(0.05 : ℝ) := Real.sqrt_pos.mpr (by norm_num)
  have hw : calculate_local_wavelength scaleSolver (fin (8 / √0.05)) (fin 10) (fin 9.81) = fin (2 * Real.pi / 0.05) := by
    unfold calculate_local_wavelength
    dsimp only
    rw [ofNat_eq, show PF.pi = fin Real.pi from rfl, mul_fin, div_fin (by positivity)]
    have e : (2 * Real.pi / (8 / √0.05)) ^ 2 = (2 * Real.pi / 8) ^ 2 * 0.05 := by
      rw [show 2 * Real.pi / (8 / √0.05) = (2 * Real.pi / 8) * √0.05 by field_simp, mul_pow,
        Real.sq_sqrt (by norm_num)]
    have k : scaleSolver (fin (2 * Real.pi / (8 / √0.05))) (fin 10) (fin 9.81) = fin 0.05 := by
      unfold scaleSolver
      dsimp only
      rw [e, if_neg, mul_div_cancel_left₀ _ (by positivity)]
      intro k
      rw [mul_assoc] at k
      have := mul_left_cancel₀ (by positivity) k
      norm_num at this
    rw [k, div_fin (by norm_num)]
  obtain ⟨a, b⟩ := C82_takahashi_height_partial (lam := 2) (by norm_num) scaleSolver_scales (8 / √0.05) 0.1 10
    (10 * Real.pi / 3) 2000 1000 0 9.81 _ κ (by norm_num) (by norm_num) (by norm_num) (by norm_num) (by positivity) hw hκ
    eκ
  obtain ⟨v, v', hv, hv'⟩ := b H hsol hroom
  obtain ⟨x, x', e, e', -⟩ := a v v' hv hv'
  exact ⟨x, x', e ▸ hv, e' ▸ hv'⟩
end
