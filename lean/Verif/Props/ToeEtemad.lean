import Mathlib.Analysis.Real.Pi.Bounds
import Verif.Lemmas.VdM
import Verif.Lemmas.Contraction
import Verif.Model.Toe
import Verif.Spec

/-! # Properties C30, C31: toe berms, Etemad-Shahidi 2021 -/

open Classical
open PF
open CorePhysics
noncomputable section

/-! ## C30 Etemad-Shahidi 2021: damage and size -/
section C30
open EtemadShahidi2021

namespace Et21Proof

/-- the check made by the solvers only gets `Hs` and `ht`, so it does not reach the TypeError -/
@[simp] theorem check_res (a b : PF) : (check_validity (Hs := a) (ht := b)).res = .ok () := by
  unfold check_validity
  simp [isnan]

/-- everything multiplying Nod^c5 Hs^(-c6) -/
def S (c2 c3 c4 c7 ht h s m : ℝ) : ℝ := c2 * (ht / h) ^ c3 * s ^ c4 * (1 - c7 * m)

theorem s_pos {H T g : ℝ} (hH : 0 < H) (hT : 0 < T) (hg : 0 < g) :
    0 < 2 * Real.pi * H / (g * T ^ 2) := by have := Real.pi_pos; positivity

variable {H T h ht Bt m ra rw g c1 c2 c3 c4 c5 c6 c7 : ℝ}
  (hH : 0 < H) (hT : 0 < T) (hh : 0 < h) (hht : 0 < ht) (hB : 0 < Bt) (hg : 0 < g)
  (hw : 0 < rw) (hr : rw < ra) (hc2 : 0 < c2) (hc5 : c5 ≠ 0) (hm : 0 < 1 - c7 * m)
include hT hg in
theorem s_eval (H : ℝ) : calculate_wave_steepness_s (fin H) (fin T) (fin g) =
    fin (2 * Real.pi * H / (g * T ^ 2)) := by
  unfold calculate_wave_steepness_s
  pf_eval []
  field_simp

include hH hT hh hht hB hg hw hr hc2 hc5 hm

theorem Nod_eval {D : ℝ} (hD : 0 < D) :
    (calculate_damage_Nod (fin H) (fin T) (fin h) (fin ht) (fin Bt) (fin m) (fin D) (fin ra)
      (fin rw) (fin g) (fin c1) (fin c2) (fin c3) (fin c4) (fin c5) (fin c6) (fin c7)).res =
    .ok (npow (fin ((H / ((ra - rw) / rw * D) - c1) /
      (S c2 c3 c4 c7 ht h (2 * Real.pi * H / (g * T ^ 2)) m * (Bt / H) ^ c6))) (fin (1 / c5))) := by
  obtain ⟨De, hDe, hDD, e⟩ := Delta_eval hw hr
  have hs := s_pos hH hT hg
  unfold calculate_damage_Nod
  simp only [VdMProof.Ns_eval hD hw hr, s_eval hT hg]
  rw [PyM.bind_res_of_ok (check_res ..)]
  generalize 2 * Real.pi * H / (g * T ^ 2) = s at *
  have hm' : 0 < 1.0 - c7 * m := by rw [VdMProof.one_sci]; exact hm
  pf_eval [PyM.pure_def]
  congr 3 <;> try rw [VdMProof.one_sci]
  unfold S
  simp only [VdMProof.one_sci, Real.rpow_neg (div_pos hht hh).le, Real.rpow_neg hs.le,
    Real.rpow_neg (div_pos hB hH).le]
  field_simp

theorem Dn_eval {N : ℝ} (hN : 0 < N)
    (hpos : 0 < c1 + S c2 c3 c4 c7 ht h (2 * Real.pi * H / (g * T ^ 2)) m * (Bt / H) ^ c6 * N ^ c5) :
    (calculate_nominal_diameter_Dn50 (fin H) (fin T) (fin h) (fin ht) (fin Bt) (fin N) (fin m)
      (fin ra) (fin rw) (fin g) (fin c1) (fin c2) (fin c3) (fin c4) (fin c5) (fin c6) (fin c7)).res =
    .ok (fin (H / ((ra - rw) / rw) / (c1 + S c2 c3 c4 c7 ht h (2 * Real.pi * H / (g * T ^ 2)) m
      * (Bt / H) ^ c6 * N ^ c5))) := by
  obtain ⟨De, hDe, hDD, e⟩ := Delta_eval hw hr
  have hs := s_pos hH hT hg
  rw [← hDD]
  unfold calculate_nominal_diameter_Dn50
  simp only [e, s_eval hT hg]
  rw [PyM.bind_res_of_ok (check_res ..)]
  generalize 2 * Real.pi * H / (g * T ^ 2) = s at *
  have eqn : c1 + c2 * (ht / h) ^ c3 * s ^ c4 * N ^ c5 * (Bt / H) ^ c6 * (1.0 - c7 * m) =
      c1 + S c2 c3 c4 c7 ht h s m * (Bt / H) ^ c6 * N ^ c5 := by
    unfold S; rw [VdMProof.one_sci]; ring
  have : fin c1 + fin c2 * npow (fin ht / fin h) (fin c3) * npow (fin s) (fin c4) *
      npow (fin N) (fin c5) * npow (fin Bt / fin H) (fin c6) * (1.0 - fin c7 * fin m)
      = fin (c1 + S c2 c3 c4 c7 ht h s m * (Bt / H) ^ c6 * N ^ c5) := by
    rw [← eqn]; pf_eval []
  rw [this]
  generalize c1 + S c2 c3 c4 c7 ht h s m * (Bt / H) ^ c6 * N ^ c5 = Y at *
  pf_eval [PyM.pure_def]
  rw [VdMProof.one_sci, Real.rpow_neg_one]
  rfl

end Et21Proof
open Et21Proof

variable (H T h ht Bt m ra rw g c1 c2 c3 c4 c5 c6 c7 : ℝ)
  (hH : 0 < H) (hT : 0 < T) (hh : 0 < h) (hht : 0 < ht) (hB : 0 < Bt) (hg : 0 < g)
  (hw : 0 < rw) (hr : rw < ra) (hc2 : 0 < c2) (hc5 : c5 ≠ 0) (hm : 0 < 1 - c7 * m)
include hH hT hh hht hB hg hw hr hc2 hc5 hm

/-- C30: the size designed for a damage level has that damage, for all coefficients -/
theorem C30_damage_of_size (N : ℝ) (hN : 0 < N) (hc1 : 0 ≤ c1) : ∃ D : ℝ, 0 < D ∧
    (calculate_nominal_diameter_Dn50 (fin H) (fin T) (fin h) (fin ht) (fin Bt) (fin N) (fin m)
      (fin ra) (fin rw) (fin g) (fin c1) (fin c2) (fin c3) (fin c4) (fin c5) (fin c6) (fin c7)).res
      = .ok (fin D) ∧
    (calculate_damage_Nod (fin H) (fin T) (fin h) (fin ht) (fin Bt) (fin m) (fin D) (fin ra)
      (fin rw) (fin g) (fin c1) (fin c2) (fin c3) (fin c4) (fin c5) (fin c6) (fin c7)).res
      = .ok (fin N) := by
  have hDe : 0 < (ra - rw) / rw := div_pos (sub_pos.mpr hr) hw
  have hs := s_pos hH hT hg
  have hS : 0 < S c2 c3 c4 c7 ht h (2 * Real.pi * H / (g * T ^ 2)) m := by unfold S; positivity
  have hb : 0 < (Bt / H) ^ c6 := by positivity
  have hn : 0 < N ^ c5 := by positivity
  refine ⟨_, ?_, Dn_eval hH hT hh hht hB hg hw hr hc2 hc5 hm hN (by positivity), ?_⟩
  · positivity
  rw [Nod_eval hH hT hh hht hB hg hw hr hc2 hc5 hm (by positivity)]
  have e : (H / ((ra - rw) / rw * (H / ((ra - rw) / rw) / (c1 + S c2 c3 c4 c7 ht h
      (2 * Real.pi * H / (g * T ^ 2)) m * (Bt / H) ^ c6 * N ^ c5))) - c1) /
      (S c2 c3 c4 c7 ht h (2 * Real.pi * H / (g * T ^ 2)) m * (Bt / H) ^ c6) = N ^ c5 := by
    generalize (ra - rw) / rw = De at *
    generalize S c2 c3 c4 c7 ht h (2 * Real.pi * H / (g * T ^ 2)) m = s at *
    generalize (Bt / H) ^ c6 = b at *
    generalize N ^ c5 = n at *
    field_simp
    ring
  rw [e, npow_fin hn, ← Real.rpow_mul hN.le, mul_one_div_cancel hc5, Real.rpow_one]

example := C30_damage_of_size (H := 2) (T := 8) (h := 8) (ht := 5) (Bt := 6) (m := 0.02) (ra := 2650)
  (rw := 1025) (g := 9.81) (c1 := 1.5) (c2 := 0.2) (c3 := 0.3) (c4 := 0.3) (c5 := 1) (c6 := 0.7) (c7 := 0.6)
  (N := 0.5) (by norm_num) (by norm_num) (by norm_num) (by norm_num) (by norm_num) (by norm_num)
  (by norm_num) (by norm_num) (by norm_num) (by norm_num) (by norm_num) (by norm_num) (by norm_num)

/-- C30: … and conversely, whenever the size is damaged at all (Ns above c1) -/
theorem C30_size_of_damage (D : ℝ) (hD : 0 < D) (hc1 : 0 ≤ c1)
    (hN : c1 < H / ((ra - rw) / rw * D)) : ∃ N : ℝ, 0 < N ∧
    (calculate_damage_Nod (fin H) (fin T) (fin h) (fin ht) (fin Bt) (fin m) (fin D) (fin ra)
      (fin rw) (fin g) (fin c1) (fin c2) (fin c3) (fin c4) (fin c5) (fin c6) (fin c7)).res
      = .ok (fin N) ∧
    (calculate_nominal_diameter_Dn50 (fin H) (fin T) (fin h) (fin ht) (fin Bt) (fin N) (fin m)
      (fin ra) (fin rw) (fin g) (fin c1) (fin c2) (fin c3) (fin c4) (fin c5) (fin c6) (fin c7)).res
      = .ok (fin D) := by
  have hDe : 0 < (ra - rw) / rw := div_pos (sub_pos.mpr hr) hw
  have hs := s_pos hH hT hg
  have hS : 0 < S c2 c3 c4 c7 ht h (2 * Real.pi * H / (g * T ^ 2)) m := by unfold S; positivity
  have hb : 0 < (Bt / H) ^ c6 := by positivity
  have hX : 0 < (H / ((ra - rw) / rw * D) - c1) /
      (S c2 c3 c4 c7 ht h (2 * Real.pi * H / (g * T ^ 2)) m * (Bt / H) ^ c6) :=
    div_pos (sub_pos.mpr hN) (by positivity)
  refine ⟨((H / ((ra - rw) / rw * D) - c1) /
      (S c2 c3 c4 c7 ht h (2 * Real.pi * H / (g * T ^ 2)) m * (Bt / H) ^ c6)) ^ (1 / c5),
      by positivity, ?_, ?_⟩
  · rw [Nod_eval hH hT hh hht hB hg hw hr hc2 hc5 hm hD, npow_fin hX]
  have e : (((H / ((ra - rw) / rw * D) - c1) /
      (S c2 c3 c4 c7 ht h (2 * Real.pi * H / (g * T ^ 2)) m * (Bt / H) ^ c6)) ^ (1 / c5)) ^ c5 =
      (H / ((ra - rw) / rw * D) - c1) /
      (S c2 c3 c4 c7 ht h (2 * Real.pi * H / (g * T ^ 2)) m * (Bt / H) ^ c6) := by
    rw [← Real.rpow_mul hX.le, one_div_mul_cancel hc5, Real.rpow_one]
  rw [Dn_eval hH hT hh hht hB hg hw hr hc2 hc5 hm (by positivity) (by positivity), e,
    Except.ok.injEq, fin_inj]
  generalize S c2 c3 c4 c7 ht h (2 * Real.pi * H / (g * T ^ 2)) m = s at *
  generalize (Bt / H) ^ c6 = b at *
  generalize (ra - rw) / rw = De at *
  rw [mul_div_cancel₀ _ (by positivity), add_sub_cancel]
  field_simp

omit hc5 in
/-- C30: with the default exponent a size that is not damaged at all gives NaN instead of 0 -/
theorem C30_undamaged_is_nan (D : ℝ) (hD : 0 < D) (hN : H / ((ra - rw) / rw * D) < c1) :
    (calculate_damage_Nod (fin H) (fin T) (fin h) (fin ht) (fin Bt) (fin m) (fin D) (fin ra)
      (fin rw) (fin g) (fin c1) (fin c2) (fin c3) (fin c4) (c6 := fin c6) (c7 := fin c7)).res
      = .ok nan := by
  have hs := s_pos hH hT hg
  have hS : 0 < S c2 c3 c4 c7 ht h (2 * Real.pi * H / (g * T ^ 2)) m := by unfold S; positivity
  have hb : 0 < (Bt / H) ^ c6 := by positivity
  have e : (2.0 / 5.0 : PF) = fin (2.0 / 5.0) := by pf_eval []
  rw [e, Nod_eval hH hT hh hht hB hg hw hr hc2 (by norm_num) hm hD, npow_neg_base]
  · exact div_neg_of_neg_of_pos (by linarith) (by positivity)
  · intro n hn
    have : ((2 * n : ℤ) : ℝ) = ((5 : ℤ) : ℝ) := by push_cast; rw [hn]; norm_num
    have := Int.cast_injective this
    omega

omit hH hT hh hht hB hg hw hr hc2 hc5 hm in
/-- the hypotheses of C30 are met by the default coefficients -/
example : (0 : ℝ) < 11.2 ∧ (2.0 / 5.0 : ℝ) ≠ 0 ∧ (0 : ℝ) < 1 - 3.7 * 0.05 ∧ (0 : ℝ) ≤ 1.2 := by norm_num

end C30

/-! ## C31 Etemad-Shahidi 2021: wave height iteration -/
section C31
open EtemadShahidi2021

namespace Et21Proof

/-- the iterated map -/
def G (De D T h ht Bt N m g c1 c2 c3 c4 c5 c6 c7 x : ℝ) : ℝ :=
  De * D * (c1 + S c2 c3 c4 c7 ht h (2 * Real.pi * x / (g * T ^ 2)) m * (Bt / x) ^ c6 * N ^ c5)

variable {De D T h ht Bt N m g c1 c2 c3 c4 c5 c6 c7 : ℝ}
  (hDe : 0 < De) (hD : 0 < D) (hT : 0 < T) (hh : 0 < h) (hht : 0 < ht) (hB : 0 < Bt) (hN : 0 < N)
  (hg : 0 < g) (hc1 : 0 ≤ c1) (hc2 : 0 < c2) (hm : 0 < 1 - c7 * m)
include hDe hD hT hh hht hB hN hg hc1 hc2 hm

theorem G_form {x : ℝ} (hx : 0 < x) : G De D T h ht Bt N m g c1 c2 c3 c4 c5 c6 c7 x =
    De * D * c1 + De * D * (c2 * (ht / h) ^ c3 * (2 * Real.pi / (g * T ^ 2)) ^ c4 * (1 - c7 * m)
      * Bt ^ c6 * N ^ c5) * x ^ (c4 - c6) := by
  have hp := Real.pi_pos
  unfold G S
  rw [mul_comm (2 * Real.pi) x, mul_div_assoc, Real.mul_rpow hx.le (by positivity),
    Real.div_rpow hB.le hx.le, Real.rpow_sub hx]
  field_simp

theorem G_pos {x : ℝ} (hx : 0 < x) : 0 < G De D T h ht Bt N m g c1 c2 c3 c4 c5 c6 c7 x := by
  have hp := Real.pi_pos
  rw [G_form hDe hD hT hh hht hB hN hg hc1 hc2 hm hx]; positivity

theorem G_lip {x y : ℝ} (hx : 0 < x) (hy : 0 < y) :
    |Real.log (G De D T h ht Bt N m g c1 c2 c3 c4 c5 c6 c7 x)
      - Real.log (G De D T h ht Bt N m g c1 c2 c3 c4 c5 c6 c7 y)|
      ≤ |c4 - c6| * |Real.log x - Real.log y| := by
  have hp := Real.pi_pos
  rw [G_form hDe hD hT hh hht hB hN hg hc1 hc2 hm hx, G_form hDe hD hT hh hht hB hN hg hc1 hc2 hm hy]
  exact log_affine_pow (by positivity) (by positivity) hx hy

omit hDe hD hc1 hc2 hm in
/-- one pass of the loop -/
theorem step_eval {x d : ℝ} (hx : 0 < x) (pr : PF) :
    height_step (fin De) (fin D) (fin T) (fin h) (fin ht) (fin Bt) (fin N) (fin m) (fin g) (fin c1)
      (fin c2) (fin c3) (fin c4) (fin c5) (fin c6) (fin c7)
      ⟨fin x, pr, fin d, fin (2 * Real.pi * x / (g * T ^ 2))⟩ =
    ⟨fin (G De D T h ht Bt N m g c1 c2 c3 c4 c5 c6 c7 x),
      fin |G De D T h ht Bt N m g c1 c2 c3 c4 c5 c6 c7 x - d|,
      fin (G De D T h ht Bt N m g c1 c2 c3 c4 c5 c6 c7 x),
      fin (2 * Real.pi * G De D T h ht Bt N m g c1 c2 c3 c4 c5 c6 c7 x / (g * T ^ 2))⟩ := by
  have hs := s_pos hx hT hg
  have : fin De * fin D * (fin c1 + fin c2 * npow (fin ht / fin h) (fin c3) *
      npow (fin (2 * Real.pi * x / (g * T ^ 2))) (fin c4) *
      npow (fin N) (fin c5) * npow (fin Bt / fin x) (fin c6) * (1.0 - fin c7 * fin m))
      = fin (G De D T h ht Bt N m g c1 c2 c3 c4 c5 c6 c7 x) := by
    unfold G S
    generalize 2 * Real.pi * x / (g * T ^ 2) = s at *
    pf_eval []
    rw [VdMProof.one_sci]; ring
  unfold height_step
  simp only [this, s_eval hT hg, sub_fin, abs_fin]

/-- the state after k + 1 passes -/
theorem state_eval {x : ℝ} (hx : 0 < x) (k : ℕ) :
    (height_step (fin De) (fin D) (fin T) (fin h) (fin ht) (fin Bt) (fin N) (fin m) (fin g) (fin c1)
      (fin c2) (fin c3) (fin c4) (fin c5) (fin c6) (fin c7))^[k + 1]
      ⟨fin x, pinf, fin x, fin (2 * Real.pi * x / (g * T ^ 2))⟩ =
    ⟨fin ((G De D T h ht Bt N m g c1 c2 c3 c4 c5 c6 c7)^[k + 1] x),
      fin |(G De D T h ht Bt N m g c1 c2 c3 c4 c5 c6 c7)^[k + 1] x
        - (G De D T h ht Bt N m g c1 c2 c3 c4 c5 c6 c7)^[k] x|,
      fin ((G De D T h ht Bt N m g c1 c2 c3 c4 c5 c6 c7)^[k + 1] x),
      fin (2 * Real.pi * (G De D T h ht Bt N m g c1 c2 c3 c4 c5 c6 c7)^[k + 1] x / (g * T ^ 2))⟩
      ∧ 0 < (G De D T h ht Bt N m g c1 c2 c3 c4 c5 c6 c7)^[k] x := by
  induction k with
  | zero => exact ⟨step_eval hT hh hht hB hN hg hx pinf, hx⟩
  | succ k ih =>
    have hp : 0 < (G De D T h ht Bt N m g c1 c2 c3 c4 c5 c6 c7)^[k + 1] x := by
      rw [Function.iterate_succ_apply']
      exact G_pos hDe hD hT hh hht hB hN hg hc1 hc2 hm ih.2
    refine ⟨?_, hp⟩
    rw [Function.iterate_succ_apply', ih.1, step_eval hT hh hht hB hN hg hp,
      Function.iterate_succ_apply' _ (k + 1) x]

end Et21Proof
open Et21Proof

variable (D T h ht Bt N m ra rw g c1 c2 c3 c4 c5 c6 c7 s0 : ℝ)
  (hD : 0 < D) (hT : 0 < T) (hh : 0 < h) (hht : 0 < ht) (hB : 0 < Bt) (hN : 0 < N)
  (hg : 0 < g) (hw : 0 < rw) (hr : rw < ra) (hc1 : 0 ≤ c1) (hc2 : 0 < c2) (hm : 0 < 1 - c7 * m)
  (hs0 : 0 < s0)
include hD hT hh hht hB hN hg hw hr hc1 hc2 hm hs0

/-- C31: the iteration ends for all inputs and all coefficients with |c4 - c6| < 1 (0.27 by default),
from every start and whatever the iteration limit; the damage equation at the given rock size has
exactly one wave height as solution, and the returned height is within the error
q/(1-q) t/(Hs - t) of it (relative, q = |c4 - c6|, t = 1 mm).
Missing from the claim: other coefficients, and the iteration limit, which is not observed. -/
theorem C31_terminates_partial (hq : |c4 - c6| < 1) (hc5 : c5 ≠ 0) (n : ℕ) (hn : 0 < n) :
    ∃ (r : PyM PF) (H p : ℝ),
      calculate_significant_wave_height_Hs (fin T) (fin h) (fin ht) (fin Bt) (fin N) (fin m) (fin D)
        (fin ra) (fin rw) (fin g) (fin c1) (fin c2) (fin c3) (fin c4) (fin c5) (fin c6) (fin c7)
        (fin s0) n = some r ∧
      r.res = .ok (fin H) ∧ 0 < H ∧ 0 < p ∧
      (∀ x : ℝ, 0 < x →
        ((calculate_damage_Nod (fin x) (fin T) (fin h) (fin ht) (fin Bt) (fin m) (fin D) (fin ra)
          (fin rw) (fin g) (fin c1) (fin c2) (fin c3) (fin c4) (fin c5) (fin c6) (fin c7)).res
          = .ok (fin N) ∧ c1 < x / ((ra - rw) / rw * D) ↔ x = p)) ∧
      (1e-3 < H → |Real.log H - Real.log p| ≤ |c4 - c6| / (1 - |c4 - c6|) * (1e-3 / (H - 1e-3))) := by
  obtain ⟨De, hDe, hDD, e⟩ := Delta_eval hw hr
  have hpi := Real.pi_pos
  rw [← hDD]
  set F := G De D T h ht Bt N m g c1 c2 c3 c4 c5 c6 c7 with hFdef
  have hFpos : ∀ x, 0 < x → 0 < F x := fun x hx => G_pos hDe hD hT hh hht hB hN hg hc1 hc2 hm hx
  have hFlip : ∀ x y, 0 < x → 0 < y →
      |Real.log (F x) - Real.log (F y)| ≤ |c4 - c6| * |Real.log x - Real.log y| :=
    fun x y hx hy => G_lip hDe hD hT hh hht hB hN hg hc1 hc2 hm hx hy
  obtain ⟨p, hp, hpF, hpu, hgeo⟩ := log_contraction F _ (abs_nonneg (c4 - c6)) hq hFpos hFlip
  set x0 := s0 * T ^ 2 * g / (2 * Real.pi) with hx0d
  have hx0 : 0 < x0 := by positivity
  have hlim := log_contraction_tendsto F _ p x0 (abs_nonneg (c4 - c6)) hq hp (hgeo x0 hx0)
  obtain ⟨k, hk⟩ := exists_close F p x0 1e-3 (by norm_num) hlim
  have hinit : fin s0 * npow (fin T) 2 * fin g / (2 * PF.pi) = fin x0 := by
    rw [hx0d]
    pf_eval []
  have hs : s0 = 2 * Real.pi * x0 / (g * T ^ 2) := by rw [hx0d]; field_simp
  have hst := state_eval (c3 := c3) (c4 := c4) (c5 := c5) (c6 := c6) hDe hD hT hh hht hB hN hg hc1 hc2 hm hx0
  -- the loop stops
  obtain ⟨s, hwl⟩ : ∃ s, whileUnb (fun s : LoopState => s.diff > 1e-3 ∧ 0 < n)
      (height_step (fin De) (fin D) (fin T) (fin h) (fin ht) (fin Bt) (fin N) (fin m) (fin g)
        (fin c1) (fin c2) (fin c3) (fin c4) (fin c5) (fin c6) (fin c7))
      ⟨fin x0, pinf, fin x0, fin s0⟩ = some s := by
    rcases hcase : whileUnb (fun s : LoopState => s.diff > 1e-3 ∧ 0 < n)
      (height_step (fin De) (fin D) (fin T) (fin h) (fin ht) (fin Bt) (fin N) (fin m) (fin g)
        (fin c1) (fin c2) (fin c3) (fin c4) (fin c5) (fin c6) (fin c7))
      ⟨fin x0, pinf, fin x0, fin s0⟩ with _ | s
    · exfalso
      have := (whileUnb_none.mp hcase (k + 1)).1
      rw [hs, (hst k).1] at this
      simp only [sci_eq, gt_fin] at this
      exact absurd hk (not_le.mpr this)
    · exact ⟨s, rfl⟩
  obtain ⟨j, hsj, hstop, -⟩ := whileUnb_some.mp hwl
  obtain ⟨j, rfl⟩ : ∃ i, j = i + 1 := by
    cases j with
    | zero =>
      exfalso
      apply hstop
      rw [hsj]
      exact ⟨by simp only [Function.iterate_zero, id, sci_eq]; exact fin_lt_pinf _, hn⟩
    | succ i => exact ⟨i, rfl⟩
  have hxj : 0 < F^[j] x0 := (hst j).2
  have hdiff : |F^[j + 1] x0 - F^[j] x0| ≤ 1e-3 := by
    rw [hsj, hs, (hst j).1] at hstop
    simp only [sci_eq, gt_fin, not_and, gt_iff_lt] at hstop
    by_contra hc
    exact hstop (not_le.mp hc) hn
  refine ⟨pure s.Hs, F^[j + 1] x0, p, ?_, ?_, ?_, hp, ?_, ?_⟩
  · unfold calculate_significant_wave_height_Hs
    simp only [e, hinit, hwl, Option.map_some]
  · rw [hsj, hs, (hst j).1]; rfl
  · rw [Function.iterate_succ_apply']; exact hFpos _ hxj
  · intro x hx
    have hsx := s_pos hx hT hg
    have hS : 0 < S c2 c3 c4 c7 ht h (2 * Real.pi * x / (g * T ^ 2)) m := by unfold S; positivity
    have hb : 0 < (Bt / x) ^ c6 := by positivity
    have hn' : 0 < N ^ c5 := by positivity
    rw [Nod_eval hx hT hh hht hB hg hw hr hc2 hc5 hm hD, ← hDD]
    have key : c1 < x / (De * D) ∧ (x / (De * D) - c1) / (S c2 c3 c4 c7 ht h
        (2 * Real.pi * x / (g * T ^ 2)) m * (Bt / x) ^ c6) = N ^ c5 ↔ F x = x := by
      rw [hFdef]; unfold G
      generalize S c2 c3 c4 c7 ht h (2 * Real.pi * x / (g * T ^ 2)) m = s at *
      generalize (Bt / x) ^ c6 = b at *
      generalize N ^ c5 = n at *
      constructor
      · rintro ⟨-, h2⟩
        rw [div_eq_iff (by positivity)] at h2
        have : x / (De * D) = c1 + s * b * n := by linarith
        rw [← this]; field_simp
      · intro h2
        have h3 : x / (De * D) = c1 + s * b * n := by
          rw [div_eq_iff (by positivity), ← h2]
          rw [h2, ← h2]; ring_nf
        rw [h3]
        refine ⟨by have : 0 < s * b * n := by positivity
                   linarith, ?_⟩
        field_simp
        ring
    constructor
    · rintro ⟨h1, h2⟩
      have hX : 0 < (x / (De * D) - c1) / (S c2 c3 c4 c7 ht h
        (2 * Real.pi * x / (g * T ^ 2)) m * (Bt / x) ^ c6) := div_pos (sub_pos.mpr h2) (by positivity)
      rw [npow_fin hX, Except.ok.injEq, fin_inj] at h1
      refine hpu x hx (key.mp ⟨h2, ?_⟩)
      rw [← h1, ← Real.rpow_mul hX.le, one_div_mul_cancel hc5, Real.rpow_one]
    · rintro rfl
      obtain ⟨h2, h3⟩ := key.mpr hpF
      refine ⟨?_, h2⟩
      rw [h3, npow_fin hn', ← Real.rpow_mul hN.le, mul_one_div_cancel hc5, Real.rpow_one]
  · intro hH
    rw [Function.iterate_succ_apply'] at hH hdiff ⊢
    have h1 := log_a_posteriori F _ p _ hq hxj hp hpF hFlip
    refine h1.trans ?_
    have h2 := abs_log_sub_le (by norm_num) hH hxj hdiff
    have h3 : 0 ≤ |c4 - c6| / (1 - |c4 - c6|) := div_nonneg (abs_nonneg _) (by linarith)
    exact mul_le_mul_of_nonneg_left h2 h3

example := C31_terminates_partial (D := 1) (T := 8) (h := 8) (ht := 5) (Bt := 6) (N := 0.5) (m := 0.02)
  (ra := 2650) (rw := 1025) (g := 9.81) (c1 := 1.5) (c2 := 0.2) (c3 := 0.3) (c4 := 0.3) (c5 := 1)
  (c6 := 0.7) (c7 := 0.6) (s0 := 1) (n := 10) (by norm_num) (by norm_num) (by norm_num) (by norm_num)
  (by norm_num) (by norm_num) (by norm_num) (by norm_num) (by norm_num) (by norm_num) (by norm_num)
  (by norm_num) (by norm_num) (by norm_num) (by norm_num) (by norm_num)

omit hD hT hh hht hB hN hg hw hr hc1 hc2 hm hs0 in
/-- C31 refuted: inputs and coefficients for which the solver never returns, although the
iteration limit is 1 -/
theorem C31_within_limit_refuted :
    calculate_significant_wave_height_Hs (Tmm10 := fin 1) (h := fin 1) (ht := fin 1) (Bt := fin 1)
      (Nod := fin 1) (m := fin 0) (Dn50 := fin 1) (rho_rock := fin 2050) (c1 := fin 0)
      (c2 := fin 1) (c4 := fin (-1)) (c6 := fin 0) (max_iter := 1) = none := by
  obtain ⟨De, hDe, hDD, e⟩ := Delta_eval (rr := 2050) (rw := 1025) (by norm_num) (by norm_num)
  have hD1 : De = 1 := by rw [hDD]; norm_num
  subst hD1
  have hpi := Real.pi_pos
  have hpi3 := Real.pi_gt_three
  set g : ℝ := 9.81 with hgd
  have hg : 0 < g := by rw [hgd]; norm_num
  have he : calculate_buoyant_density_Delta (fin 2050) 1025.0 = fin 1 := by
    have : (1025.0 : PF) = fin 1025 := by rw [sci_eq]; norm_num
    rw [this]; exact e
  set L := g / (2 * Real.pi) with hL
  have hLp : 0 < L := by positivity
  have hinit : (0.03 : PF) * npow (fin 1) 2 * 9.81 / (2 * PF.pi) = fin (0.03 * L) := by
    rw [hL, hgd]
    pf_eval []
    ring
  have h74 : (7.0 / 4.0 : PF) = fin (7.0 / 4.0) := by pf_eval []
  have h25 : (2.0 / 5.0 : PF) = fin (2.0 / 5.0) := by pf_eval []
  have h37 : (3.7 : PF) = fin 3.7 := by pf_eval []
  have h981 : (9.81 : PF) = fin g := by rw [hgd]; pf_eval []
  have h003 : (0.03 : PF) = fin (2 * Real.pi * (0.03 * L) / (g * 1 ^ 2)) := by
    rw [sci_eq, fin_inj, hL]; field_simp
  unfold calculate_significant_wave_height_Hs
  simp only [he, hinit]
  rw [h74, h25, h37, h003, h981, Option.map_eq_none_iff, whileUnb_none]
  set F := G 1 1 1 1 1 1 1 0 g 0 1 (7.0 / 4.0) (-1) (2.0 / 5.0) 0 3.7 with hF
  have hGx : ∀ x, 0 < x → F x = L / x := by
    intro x hx
    rw [hF]
    unfold G S
    simp [Real.rpow_neg_one]
    rw [hL, div_div]
  have h1 : 0 < 0.03 * L := by positivity
  have hst := state_eval (c3 := 7.0 / 4.0) (c4 := -1) (c5 := 2.0 / 5.0) (c6 := 0) (c1 := 0) (c2 := 1)
    (c7 := 3.7) (m := 0)
    one_pos one_pos one_pos one_pos one_pos one_pos one_pos hg le_rfl one_pos (by norm_num) h1
  have hL2 : L < 1.7 := by
    rw [hL, div_lt_iff₀ (by positivity), hgd]
    norm_num
    linarith
  have hL1 : 0.001 < L := by
    have := Real.pi_lt_four
    rw [hL, lt_div_iff₀ (by positivity), hgd]
    norm_num
    linarith
  have hval : ∀ k, |F^[k + 1] (0.03 * L) - F^[k] (0.03 * L)| = 1 / 0.03 - 0.03 * L := by
    have two : ∀ k, F^[2 * k] (0.03 * L) = 0.03 * L ∧ F^[2 * k + 1] (0.03 * L) = 1 / 0.03 := by
      have a1 : F (0.03 * L) = 1 / 0.03 := by rw [hGx _ h1]; field_simp
      have a2 : F (1 / 0.03) = 0.03 * L := by rw [hGx _ (by norm_num)]; field_simp
      intro k
      induction k with
      | zero => exact ⟨rfl, a1⟩
      | succ k ih =>
        have b : F^[2 * (k + 1)] (0.03 * L) = 0.03 * L := by
          rw [show 2 * (k + 1) = (2 * k + 1) + 1 from rfl, Function.iterate_succ_apply', ih.2, a2]
        exact ⟨b, by rw [Function.iterate_succ_apply', b, a1]⟩
    intro k
    have hpos : 0.03 * L ≤ 1 / 0.03 := by norm_num; linarith
    obtain ⟨i, hi | hi⟩ := Nat.even_or_odd' k
    · rw [hi, (two i).1, (two i).2, abs_of_nonneg (by linarith)]
    · rw [hi, show 2 * i + 1 + 1 = 2 * (i + 1) from by ring, (two (i + 1)).1, (two i).2, abs_sub_comm,
        abs_of_nonneg (by linarith)]
  intro k
  cases k with
  | zero => exact ⟨by simp only [Function.iterate_zero, id, sci_eq]; exact fin_lt_pinf _, one_pos⟩
  | succ k =>
    rw [(hst k).1]
    refine ⟨?_, one_pos⟩
    simp only [sci_eq, gt_fin, gt_iff_lt]
    rw [hval k]
    norm_num
    linarith

omit hD hT hh hht hB hN hg hw hr hc1 hc2 hm hs0 in
/-- C31: the value of the limit has no effect whatever -/
theorem C31_limit_has_no_effect (T h ht Bt N m D ra rw g c1 c2 c3 c4 c5 c6 c7 s0 : PF) (n k : ℕ)
    (hn : 0 < n) (hk : 0 < k) :
    calculate_significant_wave_height_Hs T h ht Bt N m D ra rw g c1 c2 c3 c4 c5 c6 c7 s0 n =
      calculate_significant_wave_height_Hs T h ht Bt N m D ra rw g c1 c2 c3 c4 c5 c6 c7 s0 k := by
  unfold calculate_significant_wave_height_Hs
  simp only [hn, hk]

omit hD hT hh hht hB hN hg hw hr hc1 hc2 hm hs0 in
/-- the hypotheses of C31 are met by the default coefficients -/
example : |(1.0 / 6.0 : ℝ) - -1.0 / 10.0| < 1 := by rw [abs_of_nonneg] <;> norm_num

end C31
end
