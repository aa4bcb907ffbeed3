import Verif.Props.SensitivityRock
import Verif.Props.Toe
import Verif.Props.RearSlope
import Verif.Props.RearPozueta

/-! # Property C97: how errors of the input are passed on: toes, run-up, rear slopes -/

open Classical
open PF
open CorePhysics Sens
noncomputable section

namespace Sens

variable {F G : ℝ → ℝ} {a b c : ℝ}

/-- a formula of something that goes with a fixed power -/
theorem El.comp_pos (e : El F a b) (g : El G c c) (hc : 0 ≤ c) : El (fun x => F (G x)) (c * a) (c * b) where
  pos x hx := e.pos _ (g.pos x hx)
  lo x k hx hk := by
    rw [← le_antisymm (g.lo x k hx hk) (g.hi x k hx hk), Real.rpow_mul (by linarith)]
    exact e.lo _ _ (g.pos x hx) (Real.one_le_rpow hk hc)
  hi x k hx hk := by
    rw [← le_antisymm (g.lo x k hx hk) (g.hi x k hx hk), Real.rpow_mul (by linarith)]
    exact e.hi _ _ (g.pos x hx) (Real.one_le_rpow hk hc)

theorem El.comp_neg (e : El F a b) (g : El G c c) (hc : c ≤ 0) : El (fun x => F (G x)) (c * b) (c * a) := by
  have h : ∀ x k, 0 < x → 1 ≤ k → G x = k ^ (-c) * G (k * x) := by
    intro x k hx hk
    have hk0 : 0 < k := by linarith
    rw [← le_antisymm (g.lo x k hx hk) (g.hi x k hx hk), ← mul_assoc, ← Real.rpow_add hk0]
    simp
  refine ⟨fun x hx => e.pos _ (g.pos x hx), fun x k hx hk => ?_, fun x k hx hk => ?_⟩
  · have hk0 : 0 < k := by linarith
    have hp := g.pos _ (mul_pos hk0 hx)
    have := e.hi (G (k * x)) (k ^ (-c)) hp (Real.one_le_rpow hk (by linarith))
    rw [← h x k hx hk, ← Real.rpow_mul hk0.le] at this
    calc k ^ (c * b) * F (G x) ≤ k ^ (c * b) * (k ^ (-c * b) * F (G (k * x))) := by gcongr
      _ = F (G (k * x)) := by rw [← mul_assoc, ← Real.rpow_add hk0]; simp
  · have hk0 : 0 < k := by linarith
    have hp := g.pos _ (mul_pos hk0 hx)
    have := e.lo (G (k * x)) (k ^ (-c)) hp (Real.one_le_rpow hk (by linarith))
    rw [← h x k hx hk, ← Real.rpow_mul hk0.le] at this
    calc F (G (k * x)) = k ^ (c * a) * (k ^ (-c * a) * F (G (k * x))) := by
          rw [← mul_assoc, ← Real.rpow_add hk0]; simp
      _ ≤ k ^ (c * a) * F (G x) := by gcongr

theorem rf_el {c0 c1 : ℝ} (h0 : 0 < c0) (h1 : 0 < c1) : El (RunupProof.rf c0 c1) 0 1 where
  pos x hx := RunupProof.rf_pos h0 h1 hx
  lo x k hx hk := by
    rw [Real.rpow_zero, one_mul]
    exact RunupProof.rf_mono h0 h1 hx (by nlinarith)
  hi x k hx hk := by
    have := RunupProof.rf_ratio h0 h1 hx (show x ≤ k * x by nlinarith)
    rw [Real.rpow_one]
    refine le_of_mul_le_mul_right (a := x) ?_ hx
    linarith

end Sens

/-! ## run-up -/
section
open VanGent2001
variable (c c0 c1 : ℝ) (hc : 0 < c) (h0 : 0 < c0) (h1 : 0 < c1)
include hc h0 h1

/-- C97: the run-up by Van Gent (2001) goes with a power between 0.5 and 1 of the wave height, between 0 and 1 of the
wave period, and is proportional to the roughness factor -/
theorem C97_vangent_runup (H T f : ℝ) (hH : 0 < H) (hT : 0 < T) (hf : 0 < f) :
    ChangesBetween (fun H => pure (calculate_wave_runup_height_zXp H (fin T) (fin f) (fin c) (fin c0) (fin c1))) 0.5 1 ∧
    ChangesBetween (fun T => pure (calculate_wave_runup_height_zXp (fin H) T (fin f) (fin c) (fin c0) (fin c1))) 0 1 ∧
    ChangesAs (fun f => pure (calculate_wave_runup_height_zXp (fin H) (fin T) f (fin c) (fin c0) (fin c1))) 1 := by
  have e := rf_el h0 h1
  have hp := RunupProof.rf_pos h0 h1 (VdMProof.xi_pos hH hT hc)
  refine ⟨between (fun x hx => congrArg Except.ok (RunupProof.zX_eval hT hc h0 h1 hx)) ?_,
    between (fun x hx => congrArg Except.ok (RunupProof.zX_eval hx hc h0 h1 hH)) ?_,
    as (fun x hx => congrArg Except.ok (RunupProof.zX_eval hT hc h0 h1 hH)) ?_⟩
  · refine (((e.comp_neg (xi_H hT hc) (by norm_num)).mulc hf).mul El.id).of_eq ?_ ?_ <;> norm_num
  · refine (((e.comp_pos (xi_T hH hc) (by norm_num)).mulc hf).mulc hH).of_eq ?_ ?_ <;> norm_num
  · exact (El.id.cmul hp).mulc hH

example := C97_vangent_runup (c := 2) (c0 := 1.45) (c1 := 5.1) (by norm_num) (by norm_num) (by norm_num) (H := 2)
  (T := 8) (f := 0.45) (by norm_num) (by norm_num) (by norm_num)
end

/-! ## toes -/
section
variable (ra rw : ℝ) (hw : 0 < rw) (hr : rw < ra)
include hw hr

/-- C97, toe by Gerding (1993): the damage goes with the power 1/0.15 of the wave height, i.e. 10 % more wave height is
89 % more damage, and with a power between -1/0.15 and 0 of the size of the stones; the wave height goes with a
power between 0 and 1 of the size -/
theorem C97_gerding (h : PF) (H ht D N : ℝ) (hH : 0 < H) (hht : 0 < ht) (hD : 0 < D) (hN : 0 < N) :
    ChangesAs (fun H => Gerding1993.calculate_damage_Nod H (fin ht) h (fin D) (fin ra) (fin rw)) (1 / 0.15) ∧
    ChangesBetween (fun D => Gerding1993.calculate_damage_Nod (fin H) (fin ht) h D (fin ra) (fin rw)) (-(1 / 0.15)) 0 ∧
    ChangesBetween (fun D => Gerding1993.calculate_wave_height_Hs D (fin ht) h (fin N) (fin ra) (fin rw)) 0 1 ∧
    ChangesAs (fun N => Gerding1993.calculate_wave_height_Hs (fin D) (fin ht) h N (fin ra) (fin rw)) 0.15 := by
  have hDe : 0 < (ra - rw) / rw := div_pos (sub_pos.mpr hr) hw
  have hK : ∀ D : ℝ, 0 < D → 0 < GerdingProof.K D ht := by intro D hD; unfold GerdingProof.K; positivity
  have eK : El (fun D => GerdingProof.K D ht) 0 1 := by
    unfold GerdingProof.K
    exact ((El.id.cmul (v := 1.6) (by norm_num)).weaken (by norm_num) le_rfl).add
      ((El.const (v := 0.24 * ht) (by positivity)).weaken le_rfl (by norm_num))
  refine ⟨as (fun x hx => GerdingProof.Nod_eval h hw hr hx hD (hK D hD)) ?_,
    between (fun x hx => GerdingProof.Nod_eval h hw hr hH hx (hK x hx)) ?_,
    between (fun x hx => GerdingProof.Hs_eval h hw hr hx hN) ?_,
    as (fun x hx => GerdingProof.Hs_eval h hw hr hD hx) ?_⟩
  · refine ((El.id.divc (mul_pos hDe (hK D hD))).rpow (p := 1 / 0.15) (by norm_num)).of_eq ?_ ?_ <;> norm_num
  · refine (((eK.cmul hDe).cdiv hH).rpow (p := 1 / 0.15) (by norm_num)).of_eq ?_ ?_ <;> norm_num
  · exact eK.cmul (by positivity)
  · refine (((El.id.rpow (p := 0.15) (by norm_num)).mulc hDe).mulc (hK D hD)).of_eq ?_ ?_ <;> norm_num

example := C97_gerding (ra := 2650) (rw := 1025) (by norm_num) (by norm_num) nan (H := 2) (ht := 5) (D := 1) (N := 1)
  (by norm_num) (by norm_num) (by norm_num) (by norm_num)

/-- C97, toe by Van der Meer (1998): the damage goes with the power 1/0.15 of the wave height and -1/0.15 of the size,
the size is proportional to the wave height and goes with the power -0.15 of the damage -/
theorem C97_vdm1998 (H ht h D N : ℝ) (hH : 0 < H) (hht : 0 < ht) (hh : 0 < h) (hD : 0 < D) (hN : 0 < N) :
    ChangesAs (fun H => VanDerMeer1998.calculate_damage_Nod H (fin ht) (fin h) (fin D) (fin ra) (fin rw)) (1 / 0.15) ∧
    ChangesAs (fun D => VanDerMeer1998.calculate_damage_Nod (fin H) (fin ht) (fin h) D (fin ra) (fin rw))
      (-(1 / 0.15)) ∧
    ChangesAs (fun H => VanDerMeer1998.calculate_nominal_diameter_Dn50 H (fin ht) (fin h) (fin N) (fin ra) (fin rw))
      1 ∧
    ChangesAs (fun N => VanDerMeer1998.calculate_nominal_diameter_Dn50 (fin H) (fin ht) (fin h) N (fin ra) (fin rw))
      (-0.15) ∧
    ChangesAs (fun D => VanDerMeer1998.calculate_wave_height_Hs D (fin ht) (fin h) (fin N) (fin ra) (fin rw)) 1 := by
  have hDe : 0 < (ra - rw) / rw := div_pos (sub_pos.mpr hr) hw
  have hq := VdM98Proof.q_pos hh hht
  refine ⟨as (fun x hx => VdM98Proof.Nod_eval hw hr hx hD hh hht) ?_,
    as (fun x hx => VdM98Proof.Nod_eval hw hr hH hx hh hht) ?_,
    as (fun x hx => VdM98Proof.Dn_eval hw hr hN hh hht) ?_, as (fun x hx => VdM98Proof.Dn_eval hw hr hx hh hht) ?_,
    as (fun x hx => VdM98Proof.Hs_eval hw hr hN hh hht) ?_⟩
  · refine (((El.id.divc (by positivity)).divc hq).rpow (p := 1 / 0.15) (by norm_num)).of_eq ?_ ?_ <;> norm_num
  · refine ((((El.id.cmul hDe).cdiv hH).divc hq).rpow (p := 1 / 0.15) (by norm_num)).of_eq ?_ ?_ <;> norm_num
  · exact El.id.divc (by positivity)
  · refine ((((El.id.rpow (p := 0.15) (by norm_num)).cmul hq).mulc hDe).cdiv hH).of_eq ?_ ?_ <;> norm_num
  · exact (El.id.cmul (by positivity)).mulc (by positivity)

example := C97_vdm1998 (ra := 2650) (rw := 1025) (by norm_num) (by norm_num) (H := 2) (ht := 5) (h := 8) (D := 1)
  (N := 1) (by norm_num) (by norm_num) (by norm_num) (by norm_num) (by norm_num)

/-- C97, toe by Van Gent & Van der Werf (2014): the damage goes with the power 2.2 of the wave height, -3 of the size,
0.3 of the width and 1 of the thickness of the toe; the size with 11/15, and -1/3 of the damage -/
theorem C97_vangent_toe (cot : PF) (H T ht g B t D N c1 : ℝ) (hH : 0 < H) (hT : 0 < T) (hht : 0 < ht) (hg : 0 < g)
    (hB : 0 < B) (htt : 0 < t) (hD : 0 < D) (hN : 0 < N) (hc1 : 0 < c1) :
    ChangesAs (fun H => VanGentVanDerWerf2014.calculate_damage_Nod H (fin T) (fin ht) (fin B) (fin t) (fin D) (fin ra)
      (fin rw) cot (g := fin g) (c1 := fin c1)) 2.2 ∧
    ChangesAs (fun D => VanGentVanDerWerf2014.calculate_damage_Nod (fin H) (fin T) (fin ht) (fin B) (fin t) D (fin ra)
      (fin rw) cot (g := fin g) (c1 := fin c1)) (-3) ∧
    ChangesAs (fun B => VanGentVanDerWerf2014.calculate_damage_Nod (fin H) (fin T) (fin ht) B (fin t) (fin D) (fin ra)
      (fin rw) cot (g := fin g) (c1 := fin c1)) 0.3 ∧
    ChangesAs (fun t => VanGentVanDerWerf2014.calculate_damage_Nod (fin H) (fin T) (fin ht) (fin B) t (fin D) (fin ra)
      (fin rw) cot (g := fin g) (c1 := fin c1)) 1 ∧
    ChangesAs (fun H => VanGentVanDerWerf2014.calculate_nominal_diameter_Dn50 H (fin T) (fin ht) (fin B) (fin t)
      (fin N) (fin ra) (fin rw) cot (g := fin g)) (11 / 15) ∧
    ChangesAs (fun N => VanGentVanDerWerf2014.calculate_nominal_diameter_Dn50 (fin H) (fin T) (fin ht) (fin B) (fin t)
      N (fin ra) (fin rw) cot (g := fin g)) (-(1 / 3)) := by
  have hDe : 0 < (ra - rw) / rw := div_pos (sub_pos.mpr hr) hw
  have hU := VGWProof.U_pos hH hT hht hg
  have hpi := Real.pi_pos
  have hsh : 0 < 1 / Real.sinh (2 * Real.pi / (g / (2 * Real.pi) * T ^ 2) * ht) :=
    one_div_pos.mpr (Real.sinh_pos_iff.mpr (by positivity))
  have eU : El (fun H => VGWProof.U H T ht g) 0.5 0.5 := by
    unfold VGWProof.U
    refine ((((El.id.cmul hpi).divc hT).mulc hsh).div ((El.id.cmul hg).sqrt)).of_eq ?_ ?_ <;> norm_num
  refine ⟨as (fun x hx => VGWProof.Nod_eval hx hT hht hg hw hr cot hB htt hD) ?_,
    as (fun x hx => VGWProof.Nod_eval hH hT hht hg hw hr cot hB htt hx) ?_,
    as (fun x hx => VGWProof.Nod_eval hH hT hht hg hw hr cot hx htt hD) ?_,
    as (fun x hx => VGWProof.Nod_eval hH hT hht hg hw hr cot hB hx hD) ?_,
    as (fun x hx => VGWProof.Dn_eval hx hT hht hg hw hr cot hB htt hN) ?_,
    as (fun x hx => VGWProof.Dn_eval hH hT hht hg hw hr cot hB htt hx) ?_⟩
  · refine (((((El.id.cdiv hB).rpow (p := 0.3) (by norm_num)).cmul hc1).mul
      ((El.id.cdiv htt).rpow (p := 1.0) (by norm_num))).mul ((El.id.divc (v := (ra - rw) / rw * D)
        (by positivity)).rpow (p := 3.0) (by norm_num)) |>.mul (eU.rpow (p := 1.0) (by norm_num))).of_eq ?_ ?_
      <;> norm_num
  · refine ((((El.id.cmul hDe).cdiv hH).rpow (p := 3.0) (by norm_num)).cmul
      (v := c1 * (B / H) ^ (0.3 : ℝ) * (t / H) ^ (1.0 : ℝ)) (by positivity) |>.mulc (by positivity)).of_eq ?_ ?_
      <;> norm_num
  · refine (((El.id.divc hH).rpow (p := 0.3) (by norm_num)).cmul hc1 |>.mulc (v := (t / H) ^ (1.0 : ℝ))
      (by positivity) |>.mulc (by positivity) |>.mulc (by positivity)).of_eq ?_ ?_ <;> norm_num
  · refine (((El.id.divc hH).rpow (p := 1.0) (by norm_num)).cmul (v := c1 * (B / H) ^ (0.3 : ℝ)) (by positivity)
      |>.mulc (by positivity) |>.mulc (by positivity)).of_eq ?_ ?_ <;> norm_num
  · refine (((El.id.divc (v := (ra - rw) / rw * N ^ (1 / 3 : ℝ)) (by positivity)).cmul (v := 0.32)
      (by norm_num)).mul ((El.id.cdiv hB).rpow (p := 0.1) (by norm_num)) |>.mul
      ((El.id.cdiv htt).rpow (p := 1 / 3) (by norm_num)) |>.mul (eU.rpow (p := 1 / 3) (by norm_num))).of_eq ?_ ?_
      <;> norm_num
  · refine ((((El.id.rpow (p := 1 / 3) (by norm_num)).cmul hDe).cdiv hH).cmul (v := 0.32) (by norm_num)
      |>.mulc (by positivity) |>.mulc (by positivity) |>.mulc (by positivity)).of_eq ?_ ?_ <;> norm_num

example := C97_vangent_toe (ra := 2650) (rw := 1025) (by norm_num) (by norm_num) nan (H := 2) (T := 8) (ht := 5)
  (g := 9.81) (B := 4) (t := 1.5) (D := 1) (N := 1) (c1 := 0.032) (by norm_num) (by norm_num) (by norm_num)
  (by norm_num) (by norm_num) (by norm_num) (by norm_num) (by norm_num) (by norm_num)
end

/-! ## rear slopes -/
section
variable (M rho : PF) (ca cp f H T Rc Rf Rr N : ℝ) (hcp : 0 < cp) (hH : 0 < H) (hT : 0 < T)
  (hRc : 0 < Rc) (hRf : 0 ≤ Rf) (hRr : 0 ≤ Rr) (hR : Rr < Rc)
  (hz : ∃ z : ℝ, Rc < z ∧ VanGent2001.calculate_wave_runup_height_z1p (fin H) (fin T) (fin f) (fin ca) = fin z)
include hcp hH hT hRc hRf hRr hR hz

omit hT in
/-- C97, rear slope by Van Gent (2007), for run-up above the crest: the damage goes with the power -2.5 of the size and
0.5 of the number of waves, the size with -0.4 of the damage and 0.2 of the number of waves -/
theorem C97_rear2007 (D S : ℝ) (hN : 0 < N) (hD : 0 < D) (hS : 0 < S) :
    ChangesAs (fun D => VanGent2007Rear.calculate_damage_number_S (fin ca) (fin cp) (fin f) (fin H) (fin T) (fin Rc)
      (fin Rf) (fin Rr) (fin N) D M rho) (-2.5) ∧
    ChangesAs (fun N => VanGent2007Rear.calculate_damage_number_S (fin ca) (fin cp) (fin f) (fin H) (fin T) (fin Rc)
      (fin Rf) (fin Rr) N (fin D) M rho) 0.5 ∧
    ChangesAs (fun S => VanGent2007Rear.calculate_nominal_rock_diameter_Dn50 (fin ca) (fin cp) (fin f) S (fin H)
      (fin T) (fin Rc) (fin Rf) (fin Rr) (fin N)) (-0.4) ∧
    ChangesAs (fun N => VanGent2007Rear.calculate_nominal_rock_diameter_Dn50 (fin ca) (fin cp) (fin f) (fin S) (fin H)
      (fin T) (fin Rc) (fin Rf) (fin Rr) N) 0.2 := by
  obtain ⟨z, hzR, hz⟩ := hz
  have hw := sub_pos.mpr hzR
  have hE : 0 < 1 + 5 * Rr / (Rc - Rr) := by have := sub_pos.mpr hR; positivity
  have hG : 0 < 1 + Rf / H := by positivity
  refine ⟨as (fun x hx => RearProof.S07_eval M rho hcp hH hRc hRf hRr hR hN hx hz) ?_,
    as (fun x hx => RearProof.S07_eval M rho hcp hH hRc hRf hRr hR hx hD hz) ?_,
    as (fun x hx => RearProof.D07_eval hcp hH hRc hRf hRr hR hN hx hz hzR) ?_,
    as (fun x hx => RearProof.D07_eval hcp hH hRc hRf hRr hR hx hS hz hzR) ?_⟩
  · unfold RearProof.S07
    refine ((((El.id.cdiv hw).pow 2).cmul (v := 0.00025 * cp ^ (1.25 : ℝ)) (by positivity)).mul
      ((El.id.cdiv hRc).rpow (p := 0.5) (by norm_num)) |>.mulc hE |>.mulc (by positivity)
      |>.mulc (by positivity)).of_eq ?_ ?_ <;> norm_num
  · unfold RearProof.S07
    refine (El.id.sqrt.cmul (by positivity)).of_eq ?_ ?_ <;> norm_num
  · unfold RearProof.D07
    refine (((El.id.divc (v := √N) (by positivity)).rpow_neg (p := -0.4) (by norm_num)).cmul
      (by positivity)).of_eq ?_ ?_ <;> norm_num
  · unfold RearProof.D07
    refine (((El.id.sqrt.cdiv hS).rpow_neg (p := -0.4) (by norm_num)).cmul (by positivity)).of_eq ?_ ?_ <;> norm_num

omit hRc hRf hRr hR in
/-- C97, rear slope by Van Gent & Pozueta (2004), for run-up above the crest: the damage goes with the power -6 of the
size and 0.5 of the number of waves, the size with -1/6 of the damage -/
theorem C97_pozueta (gc B rr rw cs D : ℝ) (hf : 0 < f) (hgc : 0 < gc) (hB : 0 ≤ B) (hw : 0 < rw) (hr : rw < rr)
    (hcs : 0 < cs) (hN : 0 < N) (hD : 0 < D) :
    ChangesAs (fun D => VanGentPozueta2004.calculate_damage_number_S (fin ca) (fin cp) (fin f) (fin gc) (fin H) (fin T)
      (fin Rc) (fin Rr) (fin B) (fin N) D M (fin rr) (fin rw) (fin cs)) (-6) ∧
    ChangesAs (fun N => VanGentPozueta2004.calculate_damage_number_S (fin ca) (fin cp) (fin f) (fin gc) (fin H) (fin T)
      (fin Rc) (fin Rr) (fin B) N (fin D) M (fin rr) (fin rw) (fin cs)) 0.5 ∧
    ChangesAs (fun S => VanGentPozueta2004.calculate_nominal_rock_diameter_Dn50 (fin ca) (fin cp) (fin f) (fin gc) S
      (fin H) (fin T) (fin Rc) (fin Rr) (fin B) (fin rr) (fin N) (fin rw) (fin cs)) (-(1 / 6)) := by
  obtain ⟨z, hzR, hz⟩ := hz
  have hDe : 0 < √((rr - rw) / rw) := Real.sqrt_pos.mpr (div_pos (sub_pos.mpr hr) hw)
  have hu := RearProof.uX_pos hf hgc hH hB hzR
  refine ⟨as (fun x hx => RearProof.S04_eval M hcp hf hgc hH hT hB hN hw hr hcs hx hz hzR) ?_,
    as (fun x hx => RearProof.S04_eval M hcp hf hgc hH hT hB hx hw hr hcs hD hz hzR) ?_,
    as (fun x hx => RearProof.D04_eval hcp hf hgc hH hT hB hN hw hr hcs hx hz hzR) ?_⟩
  · unfold RearProof.S04
    refine ((((El.id.cmul hDe).cdiv (mul_pos hu hT)).rpow (p := 6.0) (by norm_num)).cmul hcs |>.mulc (by positivity)
      |>.mulc (by positivity) |>.mulc (by positivity)).of_eq ?_ ?_ <;> norm_num
  · unfold RearProof.S04
    refine (El.id.sqrt.cmul (by positivity)).of_eq ?_ ?_ <;> norm_num
  · unfold RearProof.D04
    refine (((El.id.divc (v := √N) (by positivity)).rpow_neg (p := -(1.0 / 6.0)) (by norm_num)).cmul (by positivity)
      |>.mulc (by positivity) |>.mulc (by positivity) |>.mulc (by positivity)).of_eq ?_ ?_ <;> norm_num
end

/-- a rear slope with run-up above the crest -/
example : ∃ ca H T f Rc z : ℝ, 0 < ca ∧ 0 < H ∧ 0 < T ∧ 0 < f ∧ 0 < Rc ∧ Rc < z ∧
    VanGent2001.calculate_wave_runup_height_z1p (fin H) (fin T) (fin f) (fin ca) = fin z := by
  refine ⟨2, 2, 8, 1, RunupProof.rf 1.45 5.1 (VdMProof.xi 2 8 2) * 1 * 2 / 2,
    RunupProof.rf 1.45 5.1 (VdMProof.xi 2 8 2) * 1 * 2, by norm_num, by norm_num, by norm_num, by norm_num, ?_, ?_, ?_⟩
  rotate_left 2
  · unfold VanGent2001.calculate_wave_runup_height_z1p
    simp only [sci_eq]
    exact RunupProof.zX_eval (by norm_num) (by norm_num) (by norm_num) (by norm_num) (by norm_num)
  all_goals
    have := RunupProof.rf_pos (c0 := 1.45) (c1 := 5.1) (by norm_num) (by norm_num)
      (VdMProof.xi_pos (H := 2) (T := 8) (c := 2) (by norm_num) (by norm_num) (by norm_num))
  · positivity
  · linarith
end
