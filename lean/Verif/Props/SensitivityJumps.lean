import Verif.SpecSensitivity
import Verif.Props.ContinuousArmour
import Verif.Props.ContinuousRock

/-! # Property C97: formulas with jumps

Where a formula jumps (C95), a tiny error of the input makes an error of the result that no power bounds. -/

open Classical
open PF
noncomputable section

namespace Sens

/-- the results behind a bound with powers -/
theorem values {f : PF → PyM PF} {a b : ℝ} {G : Set.Ioi (0 : ℝ) → ℝ} (h : ChangesBetween f a b)
    (e : ∀ x : Set.Ioi (0 : ℝ), (f (fin x)).res = .ok (fin (G x))) : (∀ x, 0 < G x) ∧
    ∀ x y : Set.Ioi (0 : ℝ), (x : ℝ) ≤ y → (y / x : ℝ) ^ a * G x ≤ G y ∧ G y ≤ (y / x : ℝ) ^ b * G x := by
  have hpos : ∀ x, 0 < G x := by
    intro x
    obtain ⟨v, -, hv, h1, -⟩ := h x 1 x.2 le_rfl
    rw [e x, Except.ok.injEq, fin_inj] at h1
    rwa [h1]
  have key : ∀ x y : Set.Ioi (0 : ℝ), (x : ℝ) ≤ y → (y / x : ℝ) ^ a * G x ≤ G y ∧ G y ≤ (y / x : ℝ) ^ b * G x := by
    intro x y hxy
    have hx : (0 : ℝ) < x := x.2
    obtain ⟨v, v', hv, h1, h2, h3, h4⟩ := h x (y / x) hx (by rwa [one_le_div hx])
    rw [div_mul_cancel₀ _ hx.ne', e y, Except.ok.injEq, fin_inj] at h2
    rw [e x, Except.ok.injEq, fin_inj] at h1
    subst h1 h2
    exact ⟨h3, h4⟩
  exact ⟨hpos, key⟩

/-- what goes with bounded powers is continuous -/
theorem continuous_values {f : PF → PyM PF} {a b : ℝ} {G : Set.Ioi (0 : ℝ) → ℝ} (h : ChangesBetween f a b)
    (e : ∀ x : Set.Ioi (0 : ℝ), (f (fin x)).res = .ok (fin (G x))) : Continuous G := by
  obtain ⟨hpos, key⟩ := values h e
  refine continuous_iff_continuousAt.mpr fun x => ?_
  have hx : (0 : ℝ) < x := x.2
  have bounds : ∀ y : Set.Ioi (0 : ℝ), ((y / x : ℝ) ^ a ⊓ (y / x : ℝ) ^ b) * G x ≤ G y ∧
      G y ≤ ((y / x : ℝ) ^ a ⊔ (y / x : ℝ) ^ b) * G x := by
    intro y
    have hy : (0 : ℝ) < y := y.2
    have hg := (hpos x).le
    rcases le_total (x : ℝ) y with hxy | hxy
    · obtain ⟨h1, h2⟩ := key x y hxy
      exact ⟨(mul_le_mul_of_nonneg_right inf_le_left hg).trans h1,
        h2.trans (mul_le_mul_of_nonneg_right le_sup_right hg)⟩
    · obtain ⟨h1, h2⟩ := key y x hxy
      have inv : ∀ p : ℝ, (y / x : ℝ) ^ p * (x / y : ℝ) ^ p = 1 := by
        intro p
        rw [← Real.mul_rpow (by positivity) (by positivity)]
        have : (y / x * (x / y) : ℝ) = 1 := by field_simp
        rw [this, Real.one_rpow]
      have pa : 0 < (y / x : ℝ) ^ a := by positivity
      have pb : 0 < (y / x : ℝ) ^ b := by positivity
      constructor
      · refine (mul_le_mul_of_nonneg_right inf_le_right hg).trans ?_
        have := mul_le_mul_of_nonneg_left h2 pb.le
        rwa [← mul_assoc, inv, one_mul] at this
      · refine le_trans ?_ (mul_le_mul_of_nonneg_right le_sup_left hg)
        have := mul_le_mul_of_nonneg_left h1 pa.le
        rwa [← mul_assoc, inv, one_mul] at this
  have lim : ∀ p : ℝ, ContinuousAt (fun y : Set.Ioi (0 : ℝ) => (y / x : ℝ) ^ p) x := by
    intro p
    exact ((continuous_subtype_val.div_const _).continuousAt).rpow_const (.inl (div_pos hx hx).ne')
  have one : ∀ p : ℝ, (x / x : ℝ) ^ p = 1 := by intro p; rw [div_self hx.ne', Real.one_rpow]
  have l1 : Filter.Tendsto (fun y : Set.Ioi (0 : ℝ) => ((y / x : ℝ) ^ a ⊓ (y / x : ℝ) ^ b) * G x) (nhds x)
      (nhds (G x)) := by
    have := ((lim a).tendsto.inf_nhds (lim b).tendsto).mul_const (G x)
    simpa [one] using this
  have l2 : Filter.Tendsto (fun y : Set.Ioi (0 : ℝ) => ((y / x : ℝ) ^ a ⊔ (y / x : ℝ) ^ b) * G x) (nhds x)
      (nhds (G x)) := by
    have := ((lim a).tendsto.sup_nhds (lim b).tendsto).mul_const (G x)
    simpa [one] using this
  exact tendsto_of_tendsto_of_tendsto_of_le_of_le l1 l2 (fun y => (bounds y).1) fun y => (bounds y).2

/-- what goes with bounded powers does not jump -/
theorem not_jumps {f : PF → PyM PF} {a b : ℝ} (h : ChangesBetween f a b) :
    ¬ Jumps fun x : Set.Ioi (0 : ℝ) => f (fin x) := by
  rintro ⟨G, hG, e⟩
  exact hG (continuous_values h e)

end Sens

section
variable {H H2 T P ra rw cpl cs S D : ℝ} (M : PF) (hH : 0 < H) (hH2 : 0 < H2) (hT : 0 < T) (hP : 0 < P)
  (hw : 0 < rw) (hr : rw < ra) (h1 : 0 < cpl) (h2 : 0 < cs)
include hH hH2 hT hP hw hr h1 h2

/-- C97: no power bounds the effect of the number of waves by Van der Meer (1988), because of the jump at 5000
waves -/
theorem C97_vdm1988_waves_refuted (c : ℝ) (hc : 0 < c) (hD : 0 < D) (hS : 0 < S) (a b : ℝ) :
    ¬ ChangesBetween (fun N => VdM1988.calculate_damage_number_S (fin H) (fin H2) (fin T) N (fin c)
      (fin P) (fin ra) (fin D) M (fin cpl) (fin cs) (fin rw)) a b ∧
    ¬ ChangesBetween (fun N => VdM1988.calculate_nominal_rock_diameter_Dn50 (fin H) (fin H2) (fin T) N
      (fin c) (fin P) (fin ra) (fin S) (fin cpl) (fin cs) (fin rw)) a b :=
  ⟨fun h => Sens.not_jumps h (C95_vdm1988_damage_5000_refuted M hH hH2 hT hP hw hr h1 h2 c hc hD),
    fun h => Sens.not_jumps h (C95_vdm1988_size_5000_refuted hH hH2 hT hP hw hr h1 h2 c hc hS)⟩

example := C97_vdm1988_waves_refuted (H := 2) (H2 := 2.8) (T := 8) (P := 0.4) (ra := 2650) (rw := 1025)
  (cpl := 6.2) (cs := 1) (D := 1) (S := 2) nan (by norm_num) (by norm_num) (by norm_num) (by norm_num) (by norm_num)
  (by norm_num) (by norm_num) (by norm_num) 2 (by norm_num) (by norm_num) (by norm_num) (-10) 10
end

/-- C97: no power bounds the effect of the wave period by Etemad-Shahidi et al. (2020), because of the jump at the
Iribarren number 1.8 -/
theorem C97_etemad2020_refuted {H N c ra rw D Dc : ℝ} (M Mc rc : PF) (hH : 0 < H) (hN : 0 < N) (hc : 0 < c)
    (hw : 0 < rw) (hr : rw < ra) (hD : 0 < D) (hDc : 0 < Dc) (a b : ℝ) :
    ¬ ChangesBetween (fun T => Etemad2020.calculate_damage_number_S (fin H) T (fin N) (fin c) (fin ra)
      (fin D) M (fin Dc) Mc rc (fin rw)) a b :=
  fun h => Sens.not_jumps h (C95_etemad2020_damage_refuted M Mc rc hH hN hc hw hr hD hDc)

example := C97_etemad2020_refuted (H := 2) (N := 3000) (c := 2) (ra := 2650) (rw := 1025) (D := 1) (Dc := 0.3)
  nan nan nan (by norm_num) (by norm_num) (by norm_num) (by norm_num) (by norm_num) (by norm_num) (by norm_num) (-10) 10
end
