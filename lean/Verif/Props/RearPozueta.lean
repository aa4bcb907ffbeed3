import Verif.Lemmas.Rear
import Verif.Props.Runup

/-! # Rear-slope stability: Van Gent & Pozueta (2004) (C34, C66) -/

open Classical
open PF
open CorePhysics
noncomputable section

namespace RearProof
open VanGentPozueta2004 RunupProof VdMProof

/-- damage, size and velocity formulas on reals -/
def S04 (cs T d cp X n u D : ℝ) : ℝ :=
  cs * (u * T / (d * D)) ^ (6.0 : ℝ) * cp ^ (-2.5 : ℝ) * X * n
def D04 (cs T d cp X n u S : ℝ) : ℝ :=
  cs ^ (1.0 / 6.0 : ℝ) * (S / n) ^ (-(1.0 / 6.0) : ℝ) * (u * T / d) * cp ^ (-(2.5 / 6.0) : ℝ) *
    X ^ (1.0 / 6.0 : ℝ)
def u04 (cs T d cp X n D S : ℝ) : ℝ :=
  (1.0 / cs * (S / n) * cp ^ (2.5 : ℝ) * (1.0 / X)) ^ (1.0 / 6.0 : ℝ) * d * D / T
/-- crest velocity -/
def uX (H R B gf gc z : ℝ) : ℝ :=
  √(9.81 * H) * 1.7 * √gc * √((z - R) / (gf * H)) / (1 + 0.1 * B / H)

section
variable {cs T d cp X n u D S : ℝ} (hcs : 0 < cs) (hT : 0 < T) (hd : 0 < d) (hcp : 0 < cp)
  (hX : 0 < X) (hn : 0 < n) (hu : 0 < u) (hD : 0 < D) (hS : 0 < S)
include hcs hT hd hcp hX hn

include hu hD in
theorem S04_pos : 0 < S04 cs T d cp X n u D := by unfold S04; positivity
include hu hS in
theorem D04_pos : 0 < D04 cs T d cp X n u S := by unfold D04; positivity
include hD hS in
theorem u04_pos : 0 < u04 cs T d cp X n D S := by unfold u04; positivity

include hu hS in
theorem S04_D04 : S04 cs T d cp X n u (D04 cs T d cp X n u S) = S := by
  unfold S04 D04
  rw [one_sci]
  obtain ⟨cs, rfl⟩ := exists_exp hcs
  obtain ⟨T, rfl⟩ := exists_exp hT
  obtain ⟨d, rfl⟩ := exists_exp hd
  obtain ⟨cp, rfl⟩ := exists_exp hcp
  obtain ⟨X, rfl⟩ := exists_exp hX
  obtain ⟨n, rfl⟩ := exists_exp hn
  obtain ⟨u, rfl⟩ := exists_exp hu
  obtain ⟨S, rfl⟩ := exists_exp hS
  exp_ring

include hu hD in
theorem D04_S04 : D04 cs T d cp X n u (S04 cs T d cp X n u D) = D := by
  unfold S04 D04
  rw [one_sci]
  obtain ⟨cs, rfl⟩ := exists_exp hcs
  obtain ⟨T, rfl⟩ := exists_exp hT
  obtain ⟨d, rfl⟩ := exists_exp hd
  obtain ⟨cp, rfl⟩ := exists_exp hcp
  obtain ⟨X, rfl⟩ := exists_exp hX
  obtain ⟨n, rfl⟩ := exists_exp hn
  obtain ⟨u, rfl⟩ := exists_exp hu
  obtain ⟨D, rfl⟩ := exists_exp hD
  exp_ring

include hD hS in
theorem S04_u04 : S04 cs T d cp X n (u04 cs T d cp X n D S) D = S := by
  unfold S04 u04
  rw [one_sci]
  obtain ⟨cs, rfl⟩ := exists_exp hcs
  obtain ⟨T, rfl⟩ := exists_exp hT
  obtain ⟨d, rfl⟩ := exists_exp hd
  obtain ⟨cp, rfl⟩ := exists_exp hcp
  obtain ⟨X, rfl⟩ := exists_exp hX
  obtain ⟨n, rfl⟩ := exists_exp hn
  obtain ⟨D, rfl⟩ := exists_exp hD
  obtain ⟨S, rfl⟩ := exists_exp hS
  exp_ring

include hu hD in
theorem u04_S04 : u04 cs T d cp X n D (S04 cs T d cp X n u D) = u := by
  unfold S04 u04
  rw [one_sci]
  obtain ⟨cs, rfl⟩ := exists_exp hcs
  obtain ⟨T, rfl⟩ := exists_exp hT
  obtain ⟨d, rfl⟩ := exists_exp hd
  obtain ⟨cp, rfl⟩ := exists_exp hcp
  obtain ⟨X, rfl⟩ := exists_exp hX
  obtain ⟨n, rfl⟩ := exists_exp hn
  obtain ⟨u, rfl⟩ := exists_exp hu
  obtain ⟨D, rfl⟩ := exists_exp hD
  exp_ring
end

section
variable {ca cp gf gc H T Rc Rr B N D S z rr rw cs : ℝ} (M : PF) (hcp : 0 < cp) (hgf : 0 < gf)
  (hgc : 0 < gc) (hH : 0 < H) (hT : 0 < T) (hB : 0 ≤ B) (hN : 0 < N) (hw : 0 < rw) (hr : rw < rr)
  (hcs : 0 < cs) (hD : 0 < D) (hS : 0 < S)
  (hz : VanGent2001.calculate_wave_runup_height_z1p (fin H) (fin T) (fin gf) (fin ca) = fin z)

include hgf hgc hH hB in
theorem uX_eval (hzR : Rc ≤ z) :
    VanGent2002Velocity.calculate_maximum_wave_overtopping_velocity_uXp (fin H) (fin z) (fin Rc)
      (fin B) (fin gf) (fin gc) = fin (uX H Rc B gf gc z) := by
  simp only [sci_eq]
  exact u_eval hH hB hgf hgc (by norm_num) (by norm_num) (by norm_num) hzR

include hgf hgc hH hB in
theorem uX_pos (hzR : Rc < z) : 0 < uX H Rc B gf gc z := by
  have := sub_pos.mpr hzR
  unfold uX; positivity

include hcp hgf hgc hH hT hB hN hw hr hcs

include hz hD in
theorem S04_eval (hzR : Rc < z) :
    (calculate_damage_number_S (fin ca) (fin cp) (fin gf) (fin gc) (fin H) (fin T) (fin Rc) (fin Rr)
      (fin B) (fin N) (fin D) M (fin rr) (fin rw) (fin cs)).res =
    .ok (fin (S04 cs T √((rr - rw) / rw) cp (1 + 10 * Real.exp (-Rr / H)) √N
      (uX H Rc B gf gc z) D)) := by
  obtain ⟨De, hDe, hDD, e⟩ := Delta_eval hw hr
  have hu := uX_pos hgf hgc hH hB hzR
  unfold calculate_damage_number_S
  dsimp only
  rw [hz, uX_eval hgf hgc hH hB hzR.le, e, use_Dn50, PyM.bind_ok, ← hDD]
  rw [check04_bind]
  simp only [PyM.pure_def]
  unfold S04
  pf_eval [Except.ok.injEq]

include hz hS in
theorem D04_eval (hzR : Rc < z) :
    (calculate_nominal_rock_diameter_Dn50 (fin ca) (fin cp) (fin gf) (fin gc) (fin S) (fin H) (fin T)
      (fin Rc) (fin Rr) (fin B) (fin rr) (fin N) (fin rw) (fin cs)).res =
    .ok (fin (D04 cs T √((rr - rw) / rw) cp (1 + 10 * Real.exp (-Rr / H)) √N
      (uX H Rc B gf gc z) S)) := by
  obtain ⟨De, hDe, hDD, e⟩ := Delta_eval hw hr
  have hu := uX_pos hgf hgc hH hB hzR
  unfold calculate_nominal_rock_diameter_Dn50
  dsimp only
  rw [hz, uX_eval hgf hgc hH hB hzR.le, e, ← hDD]
  rw [check04_bind]
  simp only [PyM.pure_def]
  unfold D04
  pf_eval [Except.ok.injEq]

include hD hS in
theorem u04_eval {De : ℝ} (hDe : 0 < De) :
    _invert_for_u1p (fin cp) (fin S) (fin H) (fin T) (fin Rr) (fin N) (fin D) (fin De) (fin cs) =
    fin (u04 cs T √De cp (1 + 10 * Real.exp (-Rr / H)) √N D S) := by
  unfold _invert_for_u1p u04
  pf_eval []
end
end RearProof

section
open VanGentPozueta2004 RearProof
variable (ca cp gf gc H T Rc Rr B N z rr rw cs : ℝ) (M : PF) (hcp : 0 < cp) (hgf : 0 < gf)
  (hgc : 0 < gc) (hH : 0 < H) (hT : 0 < T) (hB : 0 ≤ B) (hN : 0 < N) (hw : 0 < rw) (hr : rw < rr)
  (hcs : 0 < cs)
  (hz : VanGent2001.calculate_wave_runup_height_z1p (fin H) (fin T) (fin gf) (fin ca) = fin z)
  (hzR : Rc < z)
include hcp hgf hgc hH hT hB hN hw hr hcs hz hzR

/-- C34: damage and rock size are inverse when the run-up exceeds the crest, for every damage
coefficient and both densities -/
theorem C34_damage_size_inverse : MutuallyInverse
    (fun D => calculate_damage_number_S (fin ca) (fin cp) (fin gf) (fin gc) (fin H) (fin T) (fin Rc)
      (fin Rr) (fin B) (fin N) D M (fin rr) (fin rw) (fin cs))
    (fun S => calculate_nominal_rock_diameter_Dn50 (fin ca) (fin cp) (fin gf) (fin gc) S (fin H)
      (fin T) (fin Rc) (fin Rr) (fin B) (fin rr) (fin N) (fin rw) (fin cs)) := by
  have hX : 0 < 1 + 10 * Real.exp (-Rr / H) := by positivity
  have hn := Real.sqrt_pos.mpr hN
  have hu := uX_pos hgf hgc hH hB hzR
  have hd : 0 < √((rr - rw) / rw) := Real.sqrt_pos.mpr (div_pos (sub_pos.mpr hr) hw)
  exact MutuallyInverse.of_real _ _
    (fun D hD => S04_eval M hcp hgf hgc hH hT hB hN hw hr hcs hD hz hzR)
    (fun S hS => D04_eval hcp hgf hgc hH hT hB hN hw hr hcs hS hz hzR)
    (fun D hD => S04_pos hcs hT hd hcp hX hn hu hD)
    (fun S hS => D04_pos hcs hT hd hcp hX hn hu hS)
    (fun D hD => D04_S04 hcs hT hd hcp hX hn hu hD)
    (fun S hS => S04_D04 hcs hT hd hcp hX hn hu hS)

/-- C34: the crest velocity recovered from the damage is the crest velocity -/
theorem C34_velocity_of_damage (D : ℝ) (hD : 0 < D) : ∃ S u : ℝ, 0 < S ∧
    (calculate_damage_number_S (fin ca) (fin cp) (fin gf) (fin gc) (fin H) (fin T) (fin Rc)
      (fin Rr) (fin B) (fin N) (fin D) M (fin rr) (fin rw) (fin cs)).res = .ok (fin S) ∧
    VanGent2002Velocity.calculate_maximum_wave_overtopping_velocity_uXp (fin H) (fin z) (fin Rc)
      (fin B) (fin gf) (fin gc) = fin u ∧
    _invert_for_u1p (fin cp) (fin S) (fin H) (fin T) (fin Rr) (fin N) (fin D)
      (calculate_buoyant_density_Delta (fin rr) (fin rw)) (fin cs) = fin u := by
  have hX : 0 < 1 + 10 * Real.exp (-Rr / H) := by positivity
  have hn := Real.sqrt_pos.mpr hN
  have hu := uX_pos hgf hgc hH hB hzR
  have hDe := div_pos (sub_pos.mpr hr) hw
  have hd : 0 < √((rr - rw) / rw) := Real.sqrt_pos.mpr hDe
  obtain ⟨De, hDe, hDD, e⟩ := Delta_eval hw hr
  have hS := S04_pos hcs hT hd hcp hX hn hu hD
  refine ⟨_, _, hS, S04_eval M hcp hgf hgc hH hT hB hN hw hr hcs hD hz hzR,
    uX_eval hgf hgc hH hB hzR.le, ?_⟩
  rw [e, hDD, u04_eval hcp hgf hgc hH hT hB hN hw hr hcs hD hS (hDD ▸ hDe),
    u04_S04 hcs hT hd hcp hX hn hu hD]

/-- C34: the damage is `S` exactly when the crest velocity is the one recovered from `S` -/
theorem C34_damage_of_velocity (D S : ℝ) (hD : 0 < D) (hS : 0 < S) :
    (calculate_damage_number_S (fin ca) (fin cp) (fin gf) (fin gc) (fin H) (fin T) (fin Rc)
      (fin Rr) (fin B) (fin N) (fin D) M (fin rr) (fin rw) (fin cs)).res = .ok (fin S) ↔
    VanGent2002Velocity.calculate_maximum_wave_overtopping_velocity_uXp (fin H) (fin z) (fin Rc)
      (fin B) (fin gf) (fin gc) =
    _invert_for_u1p (fin cp) (fin S) (fin H) (fin T) (fin Rr) (fin N) (fin D)
      (calculate_buoyant_density_Delta (fin rr) (fin rw)) (fin cs) := by
  have hX : 0 < 1 + 10 * Real.exp (-Rr / H) := by positivity
  have hn := Real.sqrt_pos.mpr hN
  have hu := uX_pos hgf hgc hH hB hzR
  have hd : 0 < √((rr - rw) / rw) := Real.sqrt_pos.mpr (div_pos (sub_pos.mpr hr) hw)
  obtain ⟨De, hDe, hDD, e⟩ := Delta_eval hw hr
  rw [S04_eval M hcp hgf hgc hH hT hB hN hw hr hcs hD hz hzR, uX_eval hgf hgc hH hB hzR.le, e, hDD,
    u04_eval hcp hgf hgc hH hT hB hN hw hr hcs hD hS (hDD ▸ hDe), Except.ok.injEq, fin_inj, fin_inj]
  constructor
  · rintro rfl
    rw [u04_S04 hcs hT hd hcp hX hn hu hD]
  · intro h
    rw [h, S04_u04 hcs hT hd hcp hX hn hD hS]
end

/-- C34 with the default water density and damage coefficient, which agree between the functions -/
theorem C34_defaults (ca cp gf gc H T Rc Rr B N z rr D : ℝ) (hcp : 0 < cp) (hgf : 0 < gf)
    (hgc : 0 < gc) (hH : 0 < H) (hT : 0 < T) (hB : 0 ≤ B) (hN : 0 < N) (hr : 1025 < rr)
    (hz : VanGent2001.calculate_wave_runup_height_z1p (fin H) (fin T) (fin gf) (fin ca) = fin z)
    (hzR : Rc < z) (hD : 0 < D) : ∃ S : ℝ, 0 < S ∧
    (VanGentPozueta2004.calculate_damage_number_S (fin ca) (fin cp) (fin gf) (fin gc) (fin H) (fin T)
      (fin Rc) (fin Rr) (fin B) (fin N) (Dn50 := fin D) (rho_rock := fin rr)).res = .ok (fin S) ∧
    (VanGentPozueta2004.calculate_nominal_rock_diameter_Dn50 (fin ca) (fin cp) (fin gf) (fin gc)
      (fin S) (fin H) (fin T) (fin Rc) (fin Rr) (fin B) (fin rr) (fin N)).res = .ok (fin D) := by
  have e : npow (0.008 : PF) 6.0 = fin ((0.008 : ℝ) ^ (6.0 : ℝ)) := by pf_eval []
  have e2 : (1025.0 : PF) = fin 1025 := by rw [sci_eq]; norm_num
  obtain ⟨S, hS, h1, h2⟩ := (C34_damage_size_inverse ca cp gf gc H T Rc Rr B N z rr 1025 _ nan hcp hgf
    hgc hH hT hB hN (by norm_num) hr (by positivity : 0 < (0.008 : ℝ) ^ (6.0 : ℝ)) hz hzR).1 D hD
  rw [e, e2]
  exact ⟨S, hS, h1, h2⟩

-- an overtopped slope
example : ∃ S : ℝ, 0 < S ∧
    (VanGentPozueta2004.calculate_damage_number_S (fin 2) (fin 2) (fin 0.5) (fin 0.6) (fin 4) (fin 10)
      (fin 2) (fin 3) (fin 4) (fin 2000) (Dn50 := fin 0.7) (rho_rock := fin 2650)).res =
        .ok (fin S) ∧
    (VanGentPozueta2004.calculate_nominal_rock_diameter_Dn50 (fin 2) (fin 2) (fin 0.5) (fin 0.6)
      (fin S) (fin 4) (fin 10) (fin 2) (fin 3) (fin 4) (fin 2650) (fin 2000)).res =
        .ok (fin 0.7) := by
  obtain ⟨z, hz, e⟩ := RearProof.sample_runup
  exact C34_defaults 2 2 0.5 0.6 4 10 2 3 4 2000 z 2650 0.7 (by norm_num) (by norm_num)
    (by norm_num) (by norm_num) (by norm_num) (by norm_num) (by norm_num) (by norm_num) e hz
    (by norm_num)

end
