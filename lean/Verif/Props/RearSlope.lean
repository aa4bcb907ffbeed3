import Verif.Lemmas.Rear
import Verif.Spec

/-! # Rear-slope stability: Van Gent (2007), Van Gent & Pozueta (2004) (C33, C34, C63) -/

open Classical
open PF
open CorePhysics
noncomputable section

namespace RearProof
open VanGent2007Rear RunupProof VdMProof

/-- damage, rock size and run-up level formulas on reals; `w` is the run-up above the crest -/
def S07 (k a w R E G n D : ℝ) : ℝ :=
  k * a ^ (1.25 : ℝ) * (w / D) ^ 2 * (R / D) ^ (0.5 : ℝ) * E * G ^ (-1 : ℝ) * n
def D07 (k a w R E G n S : ℝ) : ℝ :=
  k * a ^ (0.5 : ℝ) * w ^ (0.8 : ℝ) * R ^ (0.2 : ℝ) * E ^ (0.4 : ℝ) * G ^ (-0.4 : ℝ) *
    (S / n) ^ (-0.4 : ℝ)
def w07 (k a R E G n D S : ℝ) : ℝ :=
  D * (S / n * (1.0 / k) * a ^ (-1.25 : ℝ) * (R / D) ^ (-0.5 : ℝ) * E ^ (-1.0 : ℝ) * G) ^ (0.5 : ℝ)

section
variable {k k' a w R E G n D S : ℝ} (hk : 0 < k) (hk' : 0 < k') (ha : 0 < a) (hw : 0 < w)
  (hR : 0 < R) (hE : 0 < E) (hG : 0 < G) (hn : 0 < n) (hD : 0 < D) (hS : 0 < S)

include hk ha hw hR hE hG hn hD in
theorem S07_pos : 0 < S07 k a w R E G n D := by unfold S07; positivity
include hk ha hw hR hE hG hn hS in
theorem D07_pos : 0 < D07 k a w R E G n S := by unfold D07; positivity
include hk ha hR hE hG hn hD hS in
theorem w07_pos : 0 < w07 k a R E G n D S := by unfold w07; positivity

include hk hk' ha hw hR hE hG hn hS in
theorem S07_D07 : S07 k a w R E G n (D07 k' a w R E G n S) = k * k' ^ (-2.5 : ℝ) * S := by
  unfold S07 D07
  obtain ⟨k, rfl⟩ := exists_exp hk
  obtain ⟨k', rfl⟩ := exists_exp hk'
  obtain ⟨a, rfl⟩ := exists_exp ha
  obtain ⟨w, rfl⟩ := exists_exp hw
  obtain ⟨R, rfl⟩ := exists_exp hR
  obtain ⟨E, rfl⟩ := exists_exp hE
  obtain ⟨G, rfl⟩ := exists_exp hG
  obtain ⟨n, rfl⟩ := exists_exp hn
  obtain ⟨S, rfl⟩ := exists_exp hS
  exp_ring

include hk hk' ha hw hR hE hG hn hD in
theorem D07_S07 : D07 k' a w R E G n (S07 k a w R E G n D) =
    (k * k' ^ (-2.5 : ℝ)) ^ (-0.4 : ℝ) * D := by
  unfold S07 D07
  obtain ⟨k, rfl⟩ := exists_exp hk
  obtain ⟨k', rfl⟩ := exists_exp hk'
  obtain ⟨a, rfl⟩ := exists_exp ha
  obtain ⟨w, rfl⟩ := exists_exp hw
  obtain ⟨R, rfl⟩ := exists_exp hR
  obtain ⟨E, rfl⟩ := exists_exp hE
  obtain ⟨G, rfl⟩ := exists_exp hG
  obtain ⟨n, rfl⟩ := exists_exp hn
  obtain ⟨D, rfl⟩ := exists_exp hD
  exp_ring

include hk ha hw hR hE hG hn hD in
theorem w07_S07 : w07 k a R E G n D (S07 k a w R E G n D) = w := by
  unfold S07 w07
  rw [one_sci]
  obtain ⟨k, rfl⟩ := exists_exp hk
  obtain ⟨a, rfl⟩ := exists_exp ha
  obtain ⟨w, rfl⟩ := exists_exp hw
  obtain ⟨R, rfl⟩ := exists_exp hR
  obtain ⟨E, rfl⟩ := exists_exp hE
  obtain ⟨G, rfl⟩ := exists_exp hG
  obtain ⟨n, rfl⟩ := exists_exp hn
  obtain ⟨D, rfl⟩ := exists_exp hD
  exp_ring

include hk ha hR hE hG hn hD hS in
theorem S07_w07 : S07 k a (w07 k a R E G n D S) R E G n D = S := by
  unfold S07 w07
  rw [one_sci]
  obtain ⟨k, rfl⟩ := exists_exp hk
  obtain ⟨a, rfl⟩ := exists_exp ha
  obtain ⟨R, rfl⟩ := exists_exp hR
  obtain ⟨E, rfl⟩ := exists_exp hE
  obtain ⟨G, rfl⟩ := exists_exp hG
  obtain ⟨n, rfl⟩ := exists_exp hn
  obtain ⟨D, rfl⟩ := exists_exp hD
  obtain ⟨S, rfl⟩ := exists_exp hS
  exp_ring
end

/-- the two published constants do not match -/
theorem k07_bounds : (1.016 : ℝ) < 0.00025 * 0.036 ^ (-2.5 : ℝ) ∧
    (0.00025 : ℝ) * 0.036 ^ (-2.5 : ℝ) < 1.017 := by
  have h : ((0.036 : ℝ) ^ (-2.5 : ℝ)) ^ 2 = ((0.036 : ℝ) ^ 5)⁻¹ := by
    rw [← Real.rpow_natCast, ← Real.rpow_mul (by norm_num), ← Real.rpow_natCast (0.036 : ℝ) 5,
      ← Real.rpow_neg (by norm_num)]
    norm_num
  have hp : 0 < (0.036 : ℝ) ^ (-2.5 : ℝ) := by positivity
  generalize (0.036 : ℝ) ^ (-2.5 : ℝ) = x at *
  norm_num at h
  constructor
  · by_contra h2
    have : x ≤ 1.016 / 0.00025 := by rw [le_div_iff₀ (by norm_num)]; linarith
    have := mul_self_le_mul_self hp.le this
    norm_num at this
    nlinarith
  · by_contra h2
    have : 1.017 / 0.00025 ≤ x := by rw [div_le_iff₀ (by norm_num)]; linarith
    have := mul_self_le_mul_self (by norm_num) this
    norm_num at this
    nlinarith

section
variable {ca cp gm H T Rc Rf Rr N D S z : ℝ} (M rho : PF) (hcp : 0 < cp) (hH : 0 < H)
  (hRc : 0 < Rc) (hRf : 0 ≤ Rf) (hRr : 0 ≤ Rr) (hR : Rr < Rc) (hN : 0 < N) (hD : 0 < D) (hS : 0 < S)
  (hz : VanGent2001.calculate_wave_runup_height_z1p (fin H) (fin T) (fin gm) (fin ca) = fin z)
include hRr hR hRc
theorem E_pos : 0 < 1 + 5 * Rr / (Rc - Rr) := by
  have := sub_pos.mpr hR
  positivity

include hcp hH hRf hN

include hD hz in
theorem S07_eval :
    (calculate_damage_number_S (fin ca) (fin cp) (fin gm) (fin H) (fin T) (fin Rc) (fin Rf) (fin Rr)
      (fin N) (fin D) M rho).res = .ok (fin (S07 0.00025 cp (z - Rc) Rc (1 + 5 * Rr / (Rc - Rr))
        (1 + Rf / H) √N D)) := by
  have hE := E_pos hRc hRr hR
  have h3 := sub_pos.mpr hR
  unfold calculate_damage_number_S
  rw [hz, use_Dn50, PyM.bind_ok]
  dsimp only
  rw [PyM.bind_res_of_ok (check07_res ..)]
  simp only [PyM.pure_def]
  unfold S07
  pf_eval [Except.ok.injEq]

include hS hz in
theorem D07_eval (hzR : Rc < z) :
    (calculate_nominal_rock_diameter_Dn50 (fin ca) (fin cp) (fin gm) (fin S) (fin H) (fin T)
      (fin Rc) (fin Rf) (fin Rr) (fin N)).res = .ok (fin (D07 0.036 cp (z - Rc) Rc
        (1 + 5 * Rr / (Rc - Rr)) (1 + Rf / H) √N S)) := by
  have hE := E_pos hRc hRr hR
  have h3 := sub_pos.mpr hR
  have h4 := sub_pos.mpr hzR
  unfold calculate_nominal_rock_diameter_Dn50
  rw [hz]
  dsimp only
  rw [PyM.bind_res_of_ok (check07_res ..)]
  simp only [PyM.pure_def]
  unfold D07
  pf_eval [Except.ok.injEq]

include hD hS in
theorem w07_eval :
    _invert_for_z1p (fin cp) (fin S) (fin D) (fin H) (fin Rc) (fin Rf) (fin Rr) (fin N) =
      fin (w07 0.00025 cp Rc (1 + 5 * Rr / (Rc - Rr)) (1 + Rf / H) √N D S + Rc) := by
  have hE := E_pos hRc hRr hR
  have h3 := sub_pos.mpr hR
  unfold _invert_for_z1p w07
  pf_eval []

end
end RearProof

section
open VanGent2007Rear RearProof
variable (ca cp gm H T Rc Rf Rr N z : ℝ) (M rho : PF) (hcp : 0 < cp) (hH : 0 < H)
  (hRc : 0 < Rc) (hRf : 0 ≤ Rf) (hRr : 0 ≤ Rr) (hR : Rr < Rc) (hN : 0 < N)
  (hz : VanGent2001.calculate_wave_runup_height_z1p (fin H) (fin T) (fin gm) (fin ca) = fin z)
  (hzR : Rc < z)
include hcp hH hRc hRf hRr hR hN hz hzR

/-- C33, when the run-up exceeds the crest. The full claim would be `k = 1`: because the constants
0.00025 and 0.036 do not match, going from a damage level to a size and back multiplies the damage
by a fixed `k` of about 1.0167, and going from a size to a damage and back divides the size by
`k ^ 0.4`. -/
theorem C33_size_damage_partial : ∃ k : ℝ, 1.016 < k ∧ k < 1.017 ∧
    (∀ S : ℝ, 0 < S → ∃ D : ℝ, 0 < D ∧
      (calculate_nominal_rock_diameter_Dn50 (fin ca) (fin cp) (fin gm) (fin S) (fin H) (fin T)
        (fin Rc) (fin Rf) (fin Rr) (fin N)).res = .ok (fin D) ∧
      (calculate_damage_number_S (fin ca) (fin cp) (fin gm) (fin H) (fin T) (fin Rc) (fin Rf)
        (fin Rr) (fin N) (fin D) M rho).res = .ok (fin (k * S))) ∧
    (∀ D : ℝ, 0 < D → ∃ S : ℝ, 0 < S ∧
      (calculate_damage_number_S (fin ca) (fin cp) (fin gm) (fin H) (fin T) (fin Rc) (fin Rf)
        (fin Rr) (fin N) (fin D) M rho).res = .ok (fin S) ∧
      (calculate_nominal_rock_diameter_Dn50 (fin ca) (fin cp) (fin gm) (fin S) (fin H) (fin T)
        (fin Rc) (fin Rf) (fin Rr) (fin N)).res = .ok (fin (k ^ (-0.4 : ℝ) * D))) := by
  have hE := E_pos hRc hRr hR
  have hG : 0 < 1 + Rf / H := by positivity
  have hn := Real.sqrt_pos.mpr hN
  have hw := sub_pos.mpr hzR
  refine ⟨_, k07_bounds.1, k07_bounds.2, fun S hS => ?_, fun D hD => ?_⟩
  · have hp := D07_pos (k := 0.036) (by norm_num) hcp hw hRc hE hG hn hS
    refine ⟨_, hp, D07_eval hcp hH hRc hRf hRr hR hN hS hz hzR, ?_⟩
    rw [S07_eval M rho hcp hH hRc hRf hRr hR hN hp hz,
      S07_D07 (by norm_num) (by norm_num) hcp hw hRc hE hG hn hS]
  · have hp := S07_pos (k := 0.00025) (by norm_num) hcp hw hRc hE hG hn hD
    refine ⟨_, hp, S07_eval M rho hcp hH hRc hRf hRr hR hN hD hz, ?_⟩
    rw [D07_eval hcp hH hRc hRf hRr hR hN hp hz hzR,
      D07_S07 (by norm_num) (by norm_num) hcp hw hRc hE hG hn hD]

/-- C33 refuted for the size: the damage at the size returned for `S` is never `S` -/
theorem C33_size_damage_refuted (S : ℝ) (hS : 0 < S) : ∃ D S' : ℝ, 0 < D ∧
      (calculate_nominal_rock_diameter_Dn50 (fin ca) (fin cp) (fin gm) (fin S) (fin H) (fin T)
        (fin Rc) (fin Rf) (fin Rr) (fin N)).res = .ok (fin D) ∧
      (calculate_damage_number_S (fin ca) (fin cp) (fin gm) (fin H) (fin T) (fin Rc) (fin Rf)
        (fin Rr) (fin N) (fin D) M rho).res = .ok (fin S') ∧ S < S' := by
  obtain ⟨k, hk, -, h, -⟩ := C33_size_damage_partial ca cp gm H T Rc Rf Rr N z M rho hcp hH hRc hRf
    hRr hR hN hz hzR
  obtain ⟨D, hD, h1, h2⟩ := h S hS
  refine ⟨D, _, hD, h1, h2, ?_⟩
  norm_num at hk
  nlinarith

/-- C33: the run-up level recovered from the damage is the run-up level -/
theorem C33_level_of_damage (D : ℝ) (hD : 0 < D) : ∃ S : ℝ, 0 < S ∧
    (calculate_damage_number_S (fin ca) (fin cp) (fin gm) (fin H) (fin T) (fin Rc) (fin Rf)
        (fin Rr) (fin N) (fin D) M rho).res = .ok (fin S) ∧
    _invert_for_z1p (fin cp) (fin S) (fin D) (fin H) (fin Rc) (fin Rf) (fin Rr) (fin N) =
      fin z := by
  have hE := E_pos hRc hRr hR
  have hG : 0 < 1 + Rf / H := by positivity
  have hn := Real.sqrt_pos.mpr hN
  have hw := sub_pos.mpr hzR
  have hp := S07_pos (k := 0.00025) (by norm_num) hcp hw hRc hE hG hn hD
  refine ⟨_, hp, S07_eval M rho hcp hH hRc hRf hRr hR hN hD hz, ?_⟩
  rw [w07_eval hcp hH hRc hRf hRr hR hN hD hp, w07_S07 (by norm_num) hcp hw hRc hE hG hn hD,
    sub_add_cancel]

/-- C33: the damage is `S` exactly when the run-up level is the one recovered from `S` -/
theorem C33_damage_of_level (D S : ℝ) (hD : 0 < D) (hS : 0 < S) :
    (calculate_damage_number_S (fin ca) (fin cp) (fin gm) (fin H) (fin T) (fin Rc) (fin Rf)
        (fin Rr) (fin N) (fin D) M rho).res = .ok (fin S) ↔
    _invert_for_z1p (fin cp) (fin S) (fin D) (fin H) (fin Rc) (fin Rf) (fin Rr) (fin N) =
      fin z := by
  have hE := E_pos hRc hRr hR
  have hG : 0 < 1 + Rf / H := by positivity
  have hn := Real.sqrt_pos.mpr hN
  have hw := sub_pos.mpr hzR
  rw [S07_eval M rho hcp hH hRc hRf hRr hR hN hD hz, w07_eval hcp hH hRc hRf hRr hR hN hD hS,
    Except.ok.injEq, fin_inj, fin_inj]
  constructor
  · rintro rfl
    rw [w07_S07 (by norm_num) hcp hw hRc hE hG hn hD, sub_add_cancel]
  · intro h
    rw [← h, add_sub_cancel_right, S07_w07 (by norm_num) hcp hRc hE hG hn hD hS]
end

/-- C65 refuted: a rear slope that the run-up does not reach still gets damage, and the lower the
run-up the more -/
theorem C65_unreached_slope_damaged_refuted (ca cp gm H T Rc Rf Rr N z D : ℝ) (M rho : PF)
    (hcp : 0 < cp) (hH : 0 < H) (hRc : 0 < Rc) (hRf : 0 ≤ Rf) (hRr : 0 ≤ Rr) (hR : Rr < Rc)
    (hN : 0 < N) (hD : 0 < D)
    (hz : VanGent2001.calculate_wave_runup_height_z1p (fin H) (fin T) (fin gm) (fin ca) = fin z)
    (hzR : z < Rc) : ∃ S : ℝ, 0 < S ∧
    (VanGent2007Rear.calculate_damage_number_S (fin ca) (fin cp) (fin gm) (fin H) (fin T) (fin Rc)
      (fin Rf) (fin Rr) (fin N) (fin D) M rho).res = .ok (fin S) := by
  have hE := RearProof.E_pos hRc hRr hR
  have hG : 0 < 1 + Rf / H := by positivity
  have hn := Real.sqrt_pos.mpr hN
  refine ⟨_, ?_, RearProof.S07_eval M rho hcp hH hRc hRf hRr hR hN hD hz⟩
  have : z - Rc ≠ 0 := (sub_neg.mpr hzR).ne
  have h2 : 0 < ((z - Rc) / D) ^ 2 := by positivity
  unfold RearProof.S07
  positivity

-- a slope overtopped by the run-up, and one that is not
example : ∃ k : ℝ, 1.016 < k ∧ k < 1.017 ∧ ∀ S : ℝ, 0 < S → ∃ D : ℝ, 0 < D ∧
    (VanGent2007Rear.calculate_nominal_rock_diameter_Dn50 (fin 2) (fin 2) (fin 0.5) (fin S) (fin 4)
      (fin 10) (fin 2) (fin 0.5) (fin 0.5) (fin 3000)).res = .ok (fin D) ∧
    (VanGent2007Rear.calculate_damage_number_S (fin 2) (fin 2) (fin 0.5) (fin 4) (fin 10) (fin 2)
      (fin 0.5) (fin 0.5) (fin 3000) (fin D)).res = .ok (fin (k * S)) := by
  obtain ⟨z, hz, e⟩ := RearProof.sample_runup
  obtain ⟨k, h1, h2, h3, -⟩ := C33_size_damage_partial 2 2 0.5 4 10 2 0.5 0.5 3000 z nan nan
    (by norm_num) (by norm_num) (by norm_num) (by norm_num) (by norm_num) (by norm_num)
    (by norm_num) e hz
  exact ⟨k, h1, h2, h3⟩
example : ∃ z : ℝ, z < z + 1 ∧
    VanGent2001.calculate_wave_runup_height_z1p (fin 4) (fin 10) (fin 0.5) (fin 2) = fin z := by
  obtain ⟨z, -, e⟩ := RearProof.sample_runup
  exact ⟨z, by linarith, e⟩

end
