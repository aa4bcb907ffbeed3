import Verif.SpecSensitivity
import Verif.Props.VanDerMeer
import Verif.Props.JumeletScaravaglione

/-! # Property C97: how errors of the input are passed on: rock armour -/

open Classical
open PF
open CorePhysics VdMProof Sens
noncomputable section

namespace Sens

theorem xi_H {T c : ℝ} (hT : 0 < T) (hc : 0 < c) : El (fun H => xi H T c) (-(1 / 2)) (-(1 / 2)) := by
  have := Real.pi_pos
  unfold xi
  refine ((((El.id.cmul (v := 2 * Real.pi / 9.81) (by positivity)).divc (v := T ^ 2) (by positivity)).sqrt).cdiv
    (v := 1.0 / c) (by positivity)).of_eq ?_ ?_ <;> norm_num

theorem xi_T {H c : ℝ} (hH : 0 < H) (hc : 0 < c) : El (fun T => xi H T c) 1 1 := by
  have := Real.pi_pos
  unfold xi
  refine (((El.id.pow 2).cdiv (v := 2 * Real.pi / 9.81 * H) (by positivity)).sqrt.cdiv
    (v := 1.0 / c) (by positivity)).of_eq ?_ ?_ <;> norm_num

theorem kpl_el {F : ℝ → ℝ} {a b cpl P : ℝ} (e : El F a b) (h1 : 0 < cpl) (hP : 0 < P) :
    El (fun x => kpl cpl P (F x)) (a * 0.5) (b * 0.5) := by
  unfold kpl
  exact (e.rpow (by norm_num)).cmul (v := 1 / cpl * P ^ (-0.18 : ℝ)) (by positivity)

theorem ksu_el {F : ℝ → ℝ} {a b cs P c : ℝ} (e : El F a b) (h1 : 0 < cs) (hP : 0 < P) (hc : 0 < c) :
    El (fun x => ksu cs P c (F x)) (b * (-P)) (a * (-P)) := by
  unfold ksu
  exact (e.rpow_neg (by linarith)).cmul (v := 1 / cs * P ^ (0.13 : ℝ) * (1 / √c)) (by positivity)

variable {T c P cpl cs : ℝ} (hc : 0 < c) (hP : 0 < P) (h1 : 0 < cpl) (h2 : 0 < cs)
include hc hP h1 h2

theorem kf_H (hT : 0 < T) : El (fun H => kf cpl cs P c (xi H T c)) (-(1 / 4)) (P / 2) := by
  refine congr (F := fun H => if 4.0 ≤ c then kpl cpl P (xi H T c)
    else kpl cpl P (xi H T c) ⊓ ksu cs P c (xi H T c)) ?_ fun H hH => kf_min h1 h2 hP hc (xi_pos hH hT hc)
  have e1 : El (fun H => kpl cpl P (xi H T c)) (-(1 / 4)) (P / 2) :=
    (kpl_el (xi_H hT hc) h1 hP).weaken (by norm_num) (by linarith)
  have e2 : El (fun H => ksu cs P c (xi H T c)) (-(1 / 4)) (P / 2) :=
    (ksu_el (xi_H hT hc) h2 hP hc).weaken (by linarith) (by linarith)
  exact e1.ite (e1.min e2)

theorem kf_T {H : ℝ} (hH : 0 < H) : El (fun T => kf cpl cs P c (xi H T c)) (-P) (1 / 2) := by
  refine congr (F := fun T => if 4.0 ≤ c then kpl cpl P (xi H T c)
    else kpl cpl P (xi H T c) ⊓ ksu cs P c (xi H T c)) ?_ fun T hT => kf_min h1 h2 hP hc (xi_pos hH hT hc)
  have e1 : El (fun T => kpl cpl P (xi H T c)) (-P) (1 / 2) :=
    (kpl_el (xi_T hH hc) h1 hP).weaken (by linarith) (by norm_num)
  have e2 : El (fun T => ksu cs P c (xi H T c)) (-P) (1 / 2) :=
    (ksu_el (xi_T hH hc) h2 hP hc).weaken (by linarith) (by linarith)
  exact e1.ite (e1.min e2)

variable {r De D S w : ℝ} (hr : 0 < r) (hDe : 0 < De) (hw : 0 < w)
include hr hDe hw

theorem dmg_H (hT : 0 < T) (hD : 0 < D) : El (fun H => dmg r H T c P cpl cs De D w) 3.75 (5 + 2.5 * P) := by
  unfold dmg
  refine ((((El.id.divc (v := De * D) (by positivity)).mulc hr).mul (kf_H hc hP h1 h2 hT)).pow 5
    |>.mulc hw).of_eq ?_ ?_
  · norm_num
  · push_cast; ring

theorem dmg_T {H : ℝ} (hH : 0 < H) (hD : 0 < D) : El (fun T => dmg r H T c P cpl cs De D w) (-5 * P) 2.5 := by
  unfold dmg
  refine ((kf_T hc hP h1 h2 hH).cmul (v := H / (De * D) * r) (by positivity) |>.pow 5
    |>.mulc hw).of_eq ?_ ?_
  · push_cast; ring
  · norm_num

theorem dmg_D {H : ℝ} (hT : 0 < T) (hH : 0 < H) : El (fun D => dmg r H T c P cpl cs De D w) (-5) (-5) := by
  unfold dmg
  have hk := kf_pos h1 h2 hP hc (xi_pos hH hT hc)
  refine ((El.id.cmul hDe).cdiv hH |>.mulc hr |>.mulc hk |>.pow 5 |>.mulc hw).of_eq ?_ ?_ <;> norm_num

theorem dia_H (hT : 0 < T) (hS : 0 < S) : El (fun H => dia r H T c P cpl cs De S w) 0.75 (1 + P / 2) := by
  unfold dia
  refine (((El.id.divc hDe).mulc hr).mul (kf_H hc hP h1 h2 hT) |>.mulc (by positivity)).of_eq ?_ rfl
  norm_num

theorem dia_T {H : ℝ} (hH : 0 < H) (hS : 0 < S) : El (fun T => dia r H T c P cpl cs De S w) (-P) 0.5 := by
  unfold dia
  refine ((kf_T hc hP h1 h2 hH).cmul (v := H / De * r) (by positivity) |>.mulc (by positivity)).of_eq rfl ?_
  norm_num

theorem dia_S {H : ℝ} (hT : 0 < T) (hH : 0 < H) : El (fun S => dia r H T c P cpl cs De S w) (-0.2) (-0.2) := by
  unfold dia
  have hk := kf_pos h1 h2 hP hc (xi_pos hH hT hc)
  refine (((El.id.divc hw).rpow_neg (p := -0.2) (by norm_num)).cmul (v := H / De * r * kf cpl cs P c (xi H T c))
    (by positivity)).of_eq ?_ ?_ <;> norm_num

end Sens

section
variable (N c P ra rw cpl cs : ℝ) (M : PF) (hN : 0 < N) (hc : 0 < c) (hP : 0 < P)
  (hw : 0 < rw) (hr : rw < ra) (h1 : 0 < cpl) (h2 : 0 < cs)
include hN hc hP hw hr h1 h2

/-- C97, Van der Meer (1988): a wave height that is too high by a factor `k` (with the same ratio of the two wave
heights) gives a rock size too large by between `k ^ 0.75` and `k ^ (1 + P / 2)` and a damage too large by between
`k ^ 3.75` and `k ^ (5 + 2.5 P)`; a wave period that is too long by `k` changes the size by between `k ^ -P` and
`k ^ 0.5` and the damage by between `k ^ (-5 P)` and `k ^ 2.5`; the damage goes with the fifth power of the size and
the size with the power -0.2 of the damage -/
theorem C97_vdm1988 (H T r D S : ℝ) (hH : 0 < H) (hT : 0 < T) (hr' : 0 < r) (hD : 0 < D) (hS : 0 < S) :
    ChangesBetween (fun H => VdM1988.calculate_nominal_rock_diameter_Dn50 H (fin r * H) (fin T) (fin N) (fin c)
      (fin P) (fin ra) (fin S) (fin cpl) (fin cs) (fin rw)) 0.75 (1 + P / 2) ∧
    ChangesBetween (fun H => VdM1988.calculate_damage_number_S H (fin r * H) (fin T) (fin N) (fin c) (fin P)
      (fin ra) (fin D) M (fin cpl) (fin cs) (fin rw)) 3.75 (5 + 2.5 * P) ∧
    ChangesBetween (fun T => VdM1988.calculate_nominal_rock_diameter_Dn50 (fin H) (fin (r * H)) T (fin N) (fin c)
      (fin P) (fin ra) (fin S) (fin cpl) (fin cs) (fin rw)) (-P) 0.5 ∧
    ChangesBetween (fun T => VdM1988.calculate_damage_number_S (fin H) (fin (r * H)) T (fin N) (fin c) (fin P)
      (fin ra) (fin D) M (fin cpl) (fin cs) (fin rw)) (-5 * P) 2.5 ∧
    ChangesAs (fun S => VdM1988.calculate_nominal_rock_diameter_Dn50 (fin H) (fin (r * H)) (fin T) (fin N) (fin c)
      (fin P) (fin ra) S (fin cpl) (fin cs) (fin rw)) (-0.2) ∧
    ChangesAs (fun D => VdM1988.calculate_damage_number_S (fin H) (fin (r * H)) (fin T) (fin N) (fin c) (fin P)
      (fin ra) D M (fin cpl) (fin cs) (fin rw)) (-5) := by
  have hDe : 0 < (ra - rw) / rw := div_pos (sub_pos.mpr hr) hw
  have hwt : 0 < √N / gam N := div_pos (Real.sqrt_pos.mpr hN) (gam_pos hN)
  exact ⟨between (fun x hx => Dn1988_eval hx hr' hT hN hc hP hw hr hS h1 h2) (dia_H hc hP h1 h2 hr' hDe hwt hT hS),
    between (fun x hx => S1988_eval M hx hr' hT hN hc hP hw hr hD h1 h2) (dmg_H hc hP h1 h2 hr' hDe hwt hT hD),
    between (fun x hx => Dn1988_eval hH hr' hx hN hc hP hw hr hS h1 h2) (dia_T hc hP h1 h2 hr' hDe hwt hH hS),
    between (fun x hx => S1988_eval M hH hr' hx hN hc hP hw hr hD h1 h2) (dmg_T hc hP h1 h2 hr' hDe hwt hH hD),
    as (fun x hx => Dn1988_eval hH hr' hT hN hc hP hw hr hx h1 h2) (dia_S hc hP h1 h2 hr' hDe hwt hT hH),
    as (fun x hx => S1988_eval M hH hr' hT hN hc hP hw hr hx h1 h2) (dmg_D hc hP h1 h2 hr' hDe hwt hT hH)⟩

example := C97_vdm1988 (N := 3000) (c := 2) (P := 0.4) (ra := 2650) (rw := 1025) (cpl := 6.2)
  (cs := 1) (M := .fin 5000) (H := 2) (T := 8) (r := 1.4) (D := 1) (S := 2) (by norm_num) (by norm_num) (by norm_num)
  (by norm_num) (by norm_num) (by norm_num) (by norm_num) (by norm_num) (by norm_num) (by norm_num) (by norm_num)
  (by norm_num)

/-- C97, modified Van der Meer: the same, and the damage goes with the square root of the number of waves -/
theorem C97_modified (H T r D S : ℝ) (hH : 0 < H) (hT : 0 < T) (hr' : 0 < r) (hD : 0 < D) (hS : 0 < S) :
    ChangesBetween (fun H => VdMModified.calculate_nominal_rock_diameter_Dn50 H (fin r * H) (fin T) (fin N) (fin c)
      (fin P) (fin ra) (fin S) (fin cpl) (fin cs) (fin rw)) 0.75 (1 + P / 2) ∧
    ChangesBetween (fun H => VdMModified.calculate_damage_number_S H (fin r * H) (fin T) (fin N) (fin c) (fin P)
      (fin ra) (fin D) M (fin cpl) (fin cs) (fin rw)) 3.75 (5 + 2.5 * P) ∧
    ChangesBetween (fun T => VdMModified.calculate_nominal_rock_diameter_Dn50 (fin H) (fin (r * H)) T (fin N) (fin c)
      (fin P) (fin ra) (fin S) (fin cpl) (fin cs) (fin rw)) (-P) 0.5 ∧
    ChangesBetween (fun T => VdMModified.calculate_damage_number_S (fin H) (fin (r * H)) T (fin N) (fin c) (fin P)
      (fin ra) (fin D) M (fin cpl) (fin cs) (fin rw)) (-5 * P) 2.5 ∧
    ChangesAs (fun S => VdMModified.calculate_nominal_rock_diameter_Dn50 (fin H) (fin (r * H)) (fin T) (fin N) (fin c)
      (fin P) (fin ra) S (fin cpl) (fin cs) (fin rw)) (-0.2) ∧
    ChangesAs (fun D => VdMModified.calculate_damage_number_S (fin H) (fin (r * H)) (fin T) (fin N) (fin c) (fin P)
      (fin ra) D M (fin cpl) (fin cs) (fin rw)) (-5) ∧
    ChangesAs (fun N => VdMModified.calculate_nominal_rock_diameter_Dn50 (fin H) (fin (r * H)) (fin T) N (fin c)
      (fin P) (fin ra) (fin S) (fin cpl) (fin cs) (fin rw)) 0.1 ∧
    ChangesAs (fun N => VdMModified.calculate_damage_number_S (fin H) (fin (r * H)) (fin T) N (fin c) (fin P)
      (fin ra) (fin D) M (fin cpl) (fin cs) (fin rw)) 0.5 := by
  have hDe : 0 < (ra - rw) / rw := div_pos (sub_pos.mpr hr) hw
  have hwt : 0 < √N := Real.sqrt_pos.mpr hN
  have hk := kf_pos h1 h2 hP hc (xi_pos hH hT hc)
  refine ⟨between (fun x hx => Dnmod_eval hx hr' hT hN hc hP hw hr hS h1 h2) (dia_H hc hP h1 h2 hr' hDe hwt hT hS),
    between (fun x hx => Smod_eval M hx hr' hT hN hc hP hw hr hD h1 h2) (dmg_H hc hP h1 h2 hr' hDe hwt hT hD),
    between (fun x hx => Dnmod_eval hH hr' hx hN hc hP hw hr hS h1 h2) (dia_T hc hP h1 h2 hr' hDe hwt hH hS),
    between (fun x hx => Smod_eval M hH hr' hx hN hc hP hw hr hD h1 h2) (dmg_T hc hP h1 h2 hr' hDe hwt hH hD),
    as (fun x hx => Dnmod_eval hH hr' hT hN hc hP hw hr hx h1 h2) (dia_S hc hP h1 h2 hr' hDe hwt hT hH),
    as (fun x hx => Smod_eval M hH hr' hT hN hc hP hw hr hx h1 h2) (dmg_D hc hP h1 h2 hr' hDe hwt hT hH),
    as (fun x hx => Dnmod_eval hH hr' hT hx hc hP hw hr hS h1 h2) ?_,
    as (fun x hx => Smod_eval M hH hr' hT hx hc hP hw hr hD h1 h2) ?_⟩
  · unfold dia
    refine (((El.id.sqrt.cdiv hS).rpow_neg (p := -0.2) (by norm_num)).cmul
      (v := H / ((ra - rw) / rw) * r * kf cpl cs P c (xi H T c)) (by positivity)).of_eq ?_ ?_ <;> norm_num
  · unfold dmg
    refine (El.id.sqrt.cmul (v := (H / ((ra - rw) / rw * D) * r * kf cpl cs P c (xi H T c)) ^ 5)
      (by positivity)).of_eq ?_ ?_ <;> norm_num

example := C97_modified (N := 3000) (c := 2) (P := 0.4) (ra := 2650) (rw := 1025) (cpl := 6.2)
  (cs := 1) (M := .fin 5000) (H := 2) (T := 8) (r := 1.4) (D := 1) (S := 2) (by norm_num) (by norm_num) (by norm_num)
  (by norm_num) (by norm_num) (by norm_num) (by norm_num) (by norm_num) (by norm_num) (by norm_num) (by norm_num)
  (by norm_num)
end

section
variable (N c P ra cpl cs ml ms : ℝ) (M : PF) (hN : 0 < N) (hc : 0 < c) (hP : 0 < P)
  (hr : 1025 < ra) (h1 : 0 < cpl) (h2 : 0 < cs) (h3 : 0 < ml) (h4 : 0 < ms)
include hN hc hP hr h1 h2 h3 h4

/-- C97, Van der Meer (2021) -/
theorem C97_vdm2021 (H T D S : ℝ) (hH : 0 < H) (hT : 0 < T) (hD : 0 < D) (hS : 0 < S) :
    ChangesBetween (fun H => VdM2021.calculate_nominal_rock_diameter_Dn50 H (fin T) (fin N) (fin c)
      (fin P) (fin ra) (fin S) (fin cpl) (fin cs) (fin ml) (fin ms)) 0.75 (1 + P / 2) ∧
    ChangesBetween (fun H => VdM2021.calculate_damage_number_S H (fin T) (fin N) (fin c) (fin P)
      (fin ra) (fin D) M (fin cpl) (fin cs) (fin ml) (fin ms)) 3.75 (5 + 2.5 * P) ∧
    ChangesBetween (fun T => VdM2021.calculate_nominal_rock_diameter_Dn50 (fin H) T (fin N) (fin c)
      (fin P) (fin ra) (fin S) (fin cpl) (fin cs) (fin ml) (fin ms)) (-P) 0.5 ∧
    ChangesBetween (fun T => VdM2021.calculate_damage_number_S (fin H) T (fin N) (fin c) (fin P)
      (fin ra) (fin D) M (fin cpl) (fin cs) (fin ml) (fin ms)) (-5 * P) 2.5 ∧
    ChangesAs (fun S => VdM2021.calculate_nominal_rock_diameter_Dn50 (fin H) (fin T) (fin N) (fin c)
      (fin P) (fin ra) S (fin cpl) (fin cs) (fin ml) (fin ms)) (-0.2) ∧
    ChangesAs (fun D => VdM2021.calculate_damage_number_S (fin H) (fin T) (fin N) (fin c) (fin P)
      (fin ra) D M (fin cpl) (fin cs) (fin ml) (fin ms)) (-5) := by
  have hDe : 0 < (ra - 1025) / 1025 := div_pos (sub_pos.mpr hr) (by norm_num)
  have hwt : 0 < √N := Real.sqrt_pos.mpr hN
  have p1 := mul_pos h1 h3
  have p2 := mul_pos h2 h4
  exact ⟨between (fun x hx => D2021_eval T N c P ra cpl cs ml ms hT hN hc hP hr h1 h2 h3 h4 hx hS)
      (dia_H hc hP p1 p2 one_pos hDe hwt hT hS),
    between (fun x hx => S2021_eval T N c P ra cpl cs ml ms M hT hN hc hP hr h1 h2 h3 h4 hx hD)
      (dmg_H hc hP p1 p2 one_pos hDe hwt hT hD),
    between (fun x hx => D2021_eval x N c P ra cpl cs ml ms hx hN hc hP hr h1 h2 h3 h4 hH hS)
      (dia_T hc hP p1 p2 one_pos hDe hwt hH hS),
    between (fun x hx => S2021_eval x N c P ra cpl cs ml ms M hx hN hc hP hr h1 h2 h3 h4 hH hD)
      (dmg_T hc hP p1 p2 one_pos hDe hwt hH hD),
    as (fun x hx => D2021_eval T N c P ra cpl cs ml ms hT hN hc hP hr h1 h2 h3 h4 hH hx)
      (dia_S hc hP p1 p2 one_pos hDe hwt hT hH),
    as (fun x hx => S2021_eval T N c P ra cpl cs ml ms M hT hN hc hP hr h1 h2 h3 h4 hH hx)
      (dmg_D hc hP p1 p2 one_pos hDe hwt hT hH)⟩

example := C97_vdm2021 (N := 3000) (c := 2) (P := 0.4) (ra := 2650) (cpl := 6.49)
  (cs := 0.97) (ml := 1) (ms := 1) (M := nan) (H := 2) (T := 6) (D := 1) (S := 3)
  (by norm_num) (by norm_num) (by norm_num) (by norm_num) (by norm_num) (by norm_num) (by norm_num)
  (by norm_num) (by norm_num) (by norm_num) (by norm_num) (by norm_num)
end

section
open JumScaProof
variable (N c ra rw cv : ℝ) (rc M Mc : PF) (hN : 0 < N) (hc : 0 < c) (hw : 0 < rw)
  (hr : rw < ra) (hcv : 0 < cv)
include hN hc hw hr hcv

/-- C97, Scaravaglione et al. (2025): the size of armour and core together goes with the power 0.9 of the wave height
and the power 0.2 of the wave period, the damage with the powers 4.5 and 1 -/
theorem C97_scaravaglione (H T D S Dc : ℝ) (hH : 0 < H) (hT : 0 < T) (hD : 0 < D) (hS : 0 < S) (hDc : 0 ≤ Dc) :
    ChangesAs (fun H => do
      let D ← Scaravaglione2025.calculate_nominal_rock_diameter_Dn50 H (fin T) (fin N) (fin c) (fin ra)
        rc (fin S) (fin Dc) Mc (fin cv) (fin rw)
      pure (D + fin Dc)) 0.9 ∧
    ChangesAs (fun T => do
      let D ← Scaravaglione2025.calculate_nominal_rock_diameter_Dn50 (fin H) T (fin N) (fin c) (fin ra)
        rc (fin S) (fin Dc) Mc (fin cv) (fin rw)
      pure (D + fin Dc)) 0.2 ∧
    ChangesAs (fun H => Scaravaglione2025.calculate_damage_number_S H (fin T) (fin N) (fin c) (fin ra) rc
      (fin D) (fin Dc) M Mc (fin cv) (fin rw)) 4.5 ∧
    ChangesAs (fun T => Scaravaglione2025.calculate_damage_number_S (fin H) T (fin N) (fin c) (fin ra) rc
      (fin D) (fin Dc) M Mc (fin cv) (fin rw)) 1 := by
  have hDe : 0 < (ra - rw) / rw := div_pos (sub_pos.mpr hr) hw
  have hpi := Real.pi_pos
  have sH : El (fun H => st H T) 1 1 := by
    unfold st
    exact (El.id.cmul (by positivity)).divc (by positivity)
  have sT : El (fun T => st H T) (-2) (-2) := by
    unfold st
    refine ((El.id.pow 2).cdiv (v := 2 * Real.pi / 9.81 * H) (by positivity)).of_eq ?_ ?_ <;> norm_num
  refine ⟨as (F := fun H => X H T N c ((ra - rw) / rw) S cv) (fun x hx => ?_) ?_,
    as (F := fun T => X H T N c ((ra - rw) / rw) S cv) (fun x hx => ?_) ?_,
    as (fun x hx => scS_eval rc M Mc hT hN hc hw hr hcv hx hD hDc) ?_,
    as (fun x hx => scS_eval rc M Mc hx hN hc hw hr hcv hH hD hDc) ?_⟩
  · rw [PyM.bind_res_of_ok (scD_eval rc Mc hT hN hc hw hr hcv hx hS)]
    simp [PyM.pure_def, add_fin]
  · unfold X
    refine ((((El.id.divc hDe).mulc (v := 1 / cv) (by positivity)).mulc (v := (S / √N) ^ (-0.2 : ℝ))
      (by positivity)).mulc (v := 1 / √c) (by positivity) |>.mul (sH.rpow_neg (p := -0.1) (by norm_num))).of_eq ?_ ?_
      <;> norm_num
  · rw [PyM.bind_res_of_ok (scD_eval rc Mc hx hN hc hw hr hcv hH hS)]
    simp [PyM.pure_def, add_fin]
  · unfold X
    refine ((sT.rpow_neg (p := -0.1) (by norm_num)).cmul
      (v := H / ((ra - rw) / rw) * (1 / cv) * (S / √N) ^ (-0.2 : ℝ) * (1 / √c)) (by positivity)).of_eq ?_ ?_
      <;> norm_num
  · unfold Sc
    have e : El (fun H => 1 / cv * st H T ^ (-0.1 : ℝ) * (1 / √c) * H / ((ra - rw) / rw * (D + Dc))) 0.9 0.9 := by
      refine ((((sH.rpow_neg (p := -0.1) (by norm_num)).cmul (v := 1 / cv) (by positivity)).mulc (v := 1 / √c)
        (by positivity)).mul El.id |>.divc (by positivity)).of_eq ?_ ?_ <;> norm_num
    refine ((e.pow 5).mulc (v := √N) (by positivity)).of_eq ?_ ?_ <;> norm_num
  · unfold Sc
    have e : El (fun T => 1 / cv * st H T ^ (-0.1 : ℝ) * (1 / √c) * H / ((ra - rw) / rw * (D + Dc))) 0.2 0.2 := by
      refine ((((sT.rpow_neg (p := -0.1) (by norm_num)).cmul (v := 1 / cv) (by positivity)).mulc (v := 1 / √c)
        (by positivity)).mulc hH |>.divc (by positivity)).of_eq ?_ ?_ <;> norm_num
    refine ((e.pow 5).mulc (v := √N) (by positivity)).of_eq ?_ ?_ <;> norm_num

example := C97_scaravaglione (N := 3000) (c := 2) (ra := 2650) (rw := 1025) (cv := 4.3) (rc := nan) (M := nan)
  (Mc := nan) (H := 2) (T := 6) (D := 1) (S := 3) (Dc := 0.3)
  (by norm_num) (by norm_num) (by norm_num) (by norm_num) (by norm_num) (by norm_num) (by norm_num)
  (by norm_num) (by norm_num) (by norm_num)
end
end
