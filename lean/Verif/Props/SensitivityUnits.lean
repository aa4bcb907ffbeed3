import Verif.SpecSensitivity
import Verif.Props.WorseUnits
import Verif.Props.Concrete

/-! # Property C97: how errors of the input are passed on: Hudson and concrete units -/

open Classical
open PF WorseStrProof
noncomputable section

namespace Sens

theorem as_returns {f : PF → PyM PF} {R : ℝ → ℝ → Prop} {a : ℝ} (h : ∀ x, 0 < x → Returns (f (fin x)) (R x))
    (hR : ∀ x k v v', 0 < x → 1 ≤ k → 0 < v → 0 < v' → R x v → R (k * x) v' → v' = k ^ a * v) : ChangesAs f a := by
  intro x k hx hk
  have hk0 : 0 < k := by linarith
  obtain ⟨v, hv, e, r⟩ := h x hx
  obtain ⟨v', hv', e', r'⟩ := h (k * x) (mul_pos hk0 hx)
  exact ⟨v, hv, e, by rw [e', hR x k v v' hx hk hv hv' r r']⟩

theorem mass_pow {H M M' k q ra rw : ℝ} (hw : 0 < rw) (hr : rw < ra) (hH : 0 < H) (hk : 0 < k) (hM : 0 < M)
    (hM' : 0 < M') (hq : 0 < q) (e : Textbook.Ns H (Published.Dn M ra) ra rw = q)
    (e' : Textbook.Ns (k * H) (Published.Dn M' ra) ra rw = q) : M' = k ^ 3 * M := by
  unfold Published.Dn at e e'
  have hra := hw.trans hr
  rw [ns_cube hw hr hM hra hH hq] at e
  rw [ns_cube hw hr hM' hra (mul_pos hk hH) hq, mul_pow, ← e] at e'
  have hD := delta_pos hw hr
  have : Textbook.Delta ra rw ^ 3 / ra * q ^ 3 ≠ 0 := by positivity
  exact mul_left_cancel₀ this (by linarith)

theorem volume_pow {H V V' k q f ra rw : ℝ} (hw : 0 < rw) (hr : rw < ra) (hf : 0 < f) (hH : 0 < H) (hk : 0 < k)
    (hV : 0 < V) (hV' : 0 < V') (hq : 0 < q) (e : Published.UnitDesign q H V f ra rw)
    (e' : Published.UnitDesign q (k * H) V' f ra rw) : V' = k ^ 3 * V := by
  unfold Published.UnitDesign at e e'
  rw [ns_cube hw hr hV hf hH hq] at e
  rw [ns_cube hw hr hV' hf (mul_pos hk hH) hq, mul_pow, ← e] at e'
  have hD := delta_pos hw hr
  have : Textbook.Delta ra rw ^ 3 / f * q ^ 3 ≠ 0 := by positivity
  exact mul_left_cancel₀ this (by linarith)

theorem three {k : ℝ} : k ^ (3 : ℝ) = k ^ 3 := by
  rw [← Real.rpow_natCast]; norm_num

end Sens
open Sens

section
variable (rw ra : ℝ) (hw : 0 < rw) (hr : rw < ra)
include hw hr

/-- C97: the mass goes with the third power of the wave height (Hudson, and the concrete units designed with it):
10 % more wave height is 33 % more mass -/
theorem C97_hudson_mass (KD c a : ℝ) (hK : 0 < KD) (hc : 0 < c) (ha : 0 < a) :
    ∀ f ∈ [
      (fun H => pure (Hudson1959.calculate_median_rock_mass_M50_no_damage H (fin rw) (fin ra) (fin KD) (fin c) (fin a))),
      (fun H => Accropode.calculate_unit_mass_M H (fin rw) (fin ra) (fin KD) (fin c) (fin a)),
      (fun H => Accropode2.calculate_unit_mass_M H (fin rw) (fin ra) (fin KD) (fin c) (fin a)),
      (fun H => pure (CoreLoc.calculate_unit_mass_M H (fin rw) (fin ra) (fin KD) (fin c) (fin a))),
      (fun H => pure (CubesHudson.calculate_unit_mass_M H (fin rw) (fin ra) (fin KD) (fin c) (fin a))),
      (fun H => pure (Cubipod.calculate_unit_mass_M H (fin rw) (fin ra) (fin KD) (fin c) (fin a))),
      (fun H => pure (Tetrapod.calculate_unit_mass_M H (fin rw) (fin ra) (fin KD) (fin c) (fin a)))],
    ChangesAs f 3 := by
  have h0 := fun H hH => C78_hudson_mass rw ra KD c a hw hr hK hc ha H hH
  have h1 := fun H hH => C78_concrete_units_mass rw ra KD c a hw hr hK hc ha H hH
  simp only [List.mem_cons, List.not_mem_nil, or_false, forall_eq_or_imp, forall_eq] at h1 ⊢
  have key : ∀ x k v v' : ℝ, 0 < x → 1 ≤ k → 0 < v → 0 < v' →
      Published.Hudson (Textbook.Ns (a * x) (Published.Dn v ra) ra rw) 1 KD c →
      Published.Hudson (Textbook.Ns (a * (k * x)) (Published.Dn v' ra) ra rw) 1 KD c → v' = k ^ (3 : ℝ) * v := by
    intro x k v v' hx hk hv hv' e e'
    unfold Published.Hudson at e e'
    rw [show a * (k * x) = k * (a * x) by ring] at e'
    rw [three]
    exact mass_pow hw hr (by positivity) (by linarith) hv hv' (by positivity) e e'
  exact ⟨as_returns h0 key, as_returns (fun H hH => (h1 H hH).1) key, as_returns (fun H hH => (h1 H hH).2.1) key,
    as_returns (fun H hH => (h1 H hH).2.2.1) key, as_returns (fun H hH => (h1 H hH).2.2.2.1) key,
    as_returns (fun H hH => (h1 H hH).2.2.2.2.1) key, as_returns (fun H hH => (h1 H hH).2.2.2.2.2) key⟩

example := C97_hudson_mass (rw := 1025) (ra := 2650) (by norm_num) (by norm_num) (KD := 4) (c := 2) (a := 1)
  (by norm_num) (by norm_num) (by norm_num)

/-- C97: volume and mass of Xbloc and XblocPlus units go with the third power of the wave height -/
theorem C97_xbloc (f : ℝ) (hf : 0 < f) :
    ∀ g ∈ [
      (fun H => Xbloc.calculate_unit_volume_V H (fin rw) (fin ra) (fin f)),
      (fun H => Xbloc.calculate_unit_mass_M H (fin rw) (fin ra) (fin f)),
      (fun H => XblocPlus.calculate_unit_volume_V H (fin rw) (fin ra) (fin f)),
      (fun H => XblocPlus.calculate_unit_mass_M H (fin rw) (fin ra) (fin f))],
    ChangesAs (fun H => pure (g H)) 3 := by
  have hra := hw.trans hr
  have h := fun H hH => C78_xbloc_size rw ra f hw hr hf H hH
  have kV : ∀ q : ℝ, 0 < q → ∀ x k v v' : ℝ, 0 < x → 1 ≤ k → 0 < v → 0 < v' →
      Published.UnitDesign q x v f ra rw → Published.UnitDesign q (k * x) v' f ra rw → v' = k ^ (3 : ℝ) * v := by
    intro q hq x k v v' hx hk hv hv' e e'
    rw [three]
    exact volume_pow hw hr hf hx (by linarith) hv hv' hq e e'
  have kM : ∀ q : ℝ, 0 < q → ∀ x k v v' : ℝ, 0 < x → 1 ≤ k → 0 < v → 0 < v' →
      Published.UnitDesign q x (v / ra) f ra rw → Published.UnitDesign q (k * x) (v' / ra) f ra rw →
      v' = k ^ (3 : ℝ) * v := by
    intro q hq x k v v' hx hk hv hv' e e'
    have := volume_pow hw hr hf hx (by linarith) (div_pos hv hra) (div_pos hv' hra) hq e e'
    rw [three]
    field_simp at this
    linarith
  simp only [List.mem_cons, List.not_mem_nil, or_false, forall_eq_or_imp, forall_eq]
  exact ⟨as_returns (fun H hH => (h H hH).1) (kV _ (by norm_num)),
    as_returns (fun H hH => (h H hH).2.1) (kM _ (by norm_num)),
    as_returns (fun H hH => (h H hH).2.2.1) (kV _ (by norm_num)),
    as_returns (fun H hH => (h H hH).2.2.2) (kM _ (by norm_num))⟩

example := C97_xbloc (rw := 1025) (ra := 2400) (by norm_num) (by norm_num) (f := 1.25) (by norm_num)

/-- C97: the mass of cubes in a single layer goes with the third power of the wave height -/
theorem C97_cubes_single (Ns : ℝ) (hN : 0 < Ns) :
    ChangesAs (fun H => CubesSingle.calculate_unit_mass_M_start_of_damage H (fin rw) (fin ra) (fin Ns)) 3 ∧
    ChangesAs (fun H => CubesSingle.calculate_unit_mass_M_failure H (fin rw) (fin ra) (fin Ns)) 3 := by
  have h := fun H hH => (C78_cubes_single H rw ra 1 hH hw hr one_pos).1 Ns hN
  simp only [List.mem_cons, List.not_mem_nil, or_false, forall_eq_or_imp, forall_eq] at h
  have key : ∀ x k v v' : ℝ, 0 < x → 1 ≤ k → 0 < v → 0 < v' →
      Textbook.Ns x (Published.Dn v ra) ra rw = Ns → Textbook.Ns (k * x) (Published.Dn v' ra) ra rw = Ns →
      v' = k ^ (3 : ℝ) * v := by
    intro x k v v' hx hk hv hv' e e'
    rw [three]
    exact mass_pow hw hr hx (by linarith) hv hv' hN e e'
  exact ⟨as_returns (fun H hH => (h H hH).1) key, as_returns (fun H hH => (h H hH).2) key⟩

example := C97_cubes_single (rw := 1025) (ra := 2400) (by norm_num) (by norm_num) (Ns := 2.9) (by norm_num)

/-- C97: the size of cubes in a double layer goes with the power 1.1 of the wave height and the power -0.2 of the wave
period; it changes with the number of waves by less than the power 0.3 and with the accepted damage by less than the
power -0.4 -/
theorem C97_cubes_double (H T N c Nod : ℝ) (hH : 0 < H) (hT : 0 < T) (hN : 0 < N) (hd : 0 < Nod) :
    ChangesAs (fun H => CubesVdM.calculate_nominal_diameter_Dn_vanDerMeer1988 H (fin T) (fin rw) (fin ra) (fin N)
      (fin c) (fin Nod)) 1.1 ∧
    ChangesAs (fun T => CubesVdM.calculate_nominal_diameter_Dn_vanDerMeer1988 (fin H) T (fin rw) (fin ra) (fin N)
      (fin c) (fin Nod)) (-0.2) ∧
    ChangesBetween (fun N => CubesVdM.calculate_nominal_diameter_Dn_vanDerMeer1988 (fin H) (fin T) (fin rw) (fin ra) N
      (fin c) (fin Nod)) 0 0.3 ∧
    ChangesBetween (fun Nod => CubesVdM.calculate_nominal_diameter_Dn_vanDerMeer1988 (fin H) (fin T) (fin rw) (fin ra)
      (fin N) (fin c) Nod) (-0.4) 0 := by
  have hDe := delta_pos hw hr
  have hpi := Real.pi_pos
  -- the size solved from the published relation
  let F : ℝ → ℝ → ℝ → ℝ → ℝ := fun H T N Nod =>
    H / ((6.7 * Nod ^ (0.4 : ℝ) / N ^ (0.3 : ℝ) + 1) * Textbook.steepness H T ^ (-0.1 : ℝ)) / Textbook.Delta ra rw
  have ev : ∀ H T N Nod : ℝ, 0 < H → 0 < T → 0 < N → 0 < Nod →
      (CubesVdM.calculate_nominal_diameter_Dn_vanDerMeer1988 (fin H) (fin T) (fin rw) (fin ra) (fin N)
        (fin c) (fin Nod)).res = .ok (fin (F H T N Nod)) := by
    intro H T N Nod hH hT hN hd
    obtain ⟨D, hD, e, r⟩ := C78_cubes_double_size rw ra N c hw hr hN H T Nod hH hT hd
    have hs : 0 < Textbook.steepness H T := by unfold Textbook.steepness; positivity
    have h2 : 0 < Textbook.steepness H T ^ (-0.1 : ℝ) := by positivity
    have h1 : 0 < 6.7 * Nod ^ (0.4 : ℝ) / N ^ (0.3 : ℝ) + 1 := by positivity
    rw [e, Except.ok.injEq, fin_inj]
    unfold Published.CubesDouble Textbook.Ns at r
    change D = H / (_ * _) / _
    rw [← r]
    generalize Textbook.Delta ra rw = De at *
    field_simp
  have sH : Sens.El (fun H => Textbook.steepness H T) 1 1 := by
    unfold Textbook.steepness
    exact Sens.El.id.divc (by positivity)
  have sT : Sens.El (fun T => Textbook.steepness H T) (-2) (-2) := by
    unfold Textbook.steepness
    refine ((((Sens.El.id.pow 2).cmul (v := 9.81) (by norm_num)).divc (v := 2 * Real.pi) (by positivity)).cdiv
      hH).of_eq ?_ ?_ <;> norm_num
  have hs : 0 < Textbook.steepness H T := by unfold Textbook.steepness; positivity
  have h1 : 0 < 6.7 * Nod ^ (0.4 : ℝ) / N ^ (0.3 : ℝ) + 1 := by positivity
  refine ⟨Sens.as (F := fun H => F H T N Nod) (fun x hx => ev x T N Nod hx hT hN hd) ?_,
    Sens.as (F := fun T => F H T N Nod) (fun x hx => ev H x N Nod hH hx hN hd) ?_,
    Sens.between (F := fun N => F H T N Nod) (fun x hx => ev H T x Nod hH hT hx hd) ?_,
    Sens.between (F := fun Nod => F H T N Nod) (fun x hx => ev H T N x hH hT hN hx) ?_⟩
  · refine Sens.El.of_eq ((Sens.El.id.div ((sH.rpow_neg (p := -0.1) (by norm_num)).cmul h1)).divc hDe) ?_ ?_ <;> norm_num
  · refine Sens.El.of_eq ((((sT.rpow_neg (p := -0.1) (by norm_num)).cmul h1).cdiv hH).divc hDe) ?_ ?_ <;> norm_num
  · have e0 : Sens.El (fun N : ℝ => 6.7 * Nod ^ (0.4 : ℝ) / N ^ (0.3 : ℝ) + 1) (-0.3) 0 := by
      refine Sens.El.add ?_ ((Sens.El.const one_pos).weaken (by norm_num) le_rfl)
      refine ((Sens.El.id.rpow (p := 0.3) (by norm_num)).cdiv (v := 6.7 * Nod ^ (0.4 : ℝ)) (by positivity)).weaken ?_ ?_
        <;> norm_num
    refine Sens.El.of_eq (((e0.mulc (v := Textbook.steepness H T ^ (-0.1 : ℝ)) (by positivity)).cdiv hH).divc hDe) ?_ ?_ <;> norm_num
  · have e0 : Sens.El (fun Nod : ℝ => 6.7 * Nod ^ (0.4 : ℝ) / N ^ (0.3 : ℝ) + 1) 0 0.4 := by
      refine Sens.El.add ?_ ((Sens.El.const one_pos).weaken le_rfl (by norm_num))
      refine (((Sens.El.id.rpow (p := 0.4) (by norm_num)).cmul (v := 6.7) (by norm_num)).divc
        (v := N ^ (0.3 : ℝ)) (by positivity)).weaken ?_ ?_ <;> norm_num
    refine Sens.El.of_eq (((e0.mulc (v := Textbook.steepness H T ^ (-0.1 : ℝ)) (by positivity)).cdiv hH).divc hDe) ?_ ?_ <;> norm_num

example := C97_cubes_double (rw := 1025) (ra := 2400) (by norm_num) (by norm_num) (H := 3) (T := 8) (N := 2000)
  (c := 1.5) (Nod := 0.5) (by norm_num) (by norm_num) (by norm_num) (by norm_num)
end
end
