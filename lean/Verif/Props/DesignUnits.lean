import Verif.SpecDesign
import Verif.Props.WorseUnits
import Verif.Props.Concrete

/-! # Property C96: design values are limits: Hudson and concrete units -/

open Classical
open PF
open CorePhysics
noncomputable section

namespace DesignProof

theorem strict_of {f : PF → PyM PF} {s : ℝ → ℝ → Prop} (hs : ∀ x y, x < y → s x y)
    (h : ∀ x y : ℝ, 0 < x → x ≤ y → NotLess (f (fin x)) (f (fin y)) (s x y)) : StrictlyIncreasing f := by
  intro x y hx hxy
  obtain ⟨a, b, ha, hb, -, hab⟩ := h x y hx hxy.le
  exact ⟨a, b, ha, hb, hab (hs x y hxy)⟩

end DesignProof

section
variable (rw ra : ℝ) (hw : 0 < rw) (hr : rw < ra)
include hw hr

/-- C96: units of a mass are heavy enough for a wave height exactly if the wave height does not exceed the one
these units can stand (Hudson, and the concrete units designed with it) -/
theorem C96_hudson (KD c a : ℝ) (hK : 0 < KD) (hc : 0 < c) (ha : 0 < a) :
    ∀ p ∈ [
      ((plain fun H => Hudson1959.calculate_median_rock_mass_M50_no_damage H (fin rw) (fin ra) (fin KD) (fin c) (fin a)),
        plain fun M => Hudson1959.calculate_significant_wave_height_Hs_no_damage M (fin rw) (fin ra) (fin KD) (fin c)
          (fin a)),
      ((fun H => Accropode.calculate_unit_mass_M H (fin rw) (fin ra) (fin KD) (fin c) (fin a)),
        fun M => Accropode.calculate_significant_wave_height_Hs M (fin rw) (fin ra) (fin KD) (fin c) (fin a)),
      ((fun H => Accropode2.calculate_unit_mass_M H (fin rw) (fin ra) (fin KD) (fin c) (fin a)),
        fun M => Accropode2.calculate_significant_wave_height_Hs M (fin rw) (fin ra) (fin KD) (fin c) (fin a)),
      ((plain fun H => CoreLoc.calculate_unit_mass_M H (fin rw) (fin ra) (fin KD) (fin c) (fin a)),
        plain fun M => CoreLoc.calculate_significant_wave_height_Hs M (fin rw) (fin ra) (fin KD) (fin c) (fin a)),
      ((plain fun H => CubesHudson.calculate_unit_mass_M H (fin rw) (fin ra) (fin KD) (fin c) (fin a)),
        plain fun M => CubesHudson.calculate_significant_wave_height_Hs M (fin rw) (fin ra) (fin KD) (fin c) (fin a)),
      ((plain fun H => Cubipod.calculate_unit_mass_M H (fin rw) (fin ra) (fin KD) (fin c) (fin a)),
        plain fun M => Cubipod.calculate_significant_wave_height_Hs M (fin rw) (fin ra) (fin KD) (fin c) (fin a)),
      ((plain fun H => Tetrapod.calculate_unit_mass_M H (fin rw) (fin ra) (fin KD) (fin c) (fin a)),
        plain fun M => Tetrapod.calculate_significant_wave_height_Hs M (fin rw) (fin ra) (fin KD) (fin c) (fin a))],
    SameLimit p.1 p.2 := by
  obtain ⟨i1, i2, i3, i4⟩ := C10_plain_wrappers rw ra KD c a hw hr hK hc ha
  have i0 : MutuallyInverse
      (plain fun H => Hudson1959.calculate_median_rock_mass_M50_no_damage H (fin rw) (fin ra) (fin KD) (fin c) (fin a))
      (plain fun M => Hudson1959.calculate_significant_wave_height_Hs_no_damage M (fin rw) (fin ra) (fin KD) (fin c)
          (fin a)) := by
    constructor
    · intro H hH
      obtain ⟨M, hM, h1, h2⟩ := C07_Hs_of_M50_of_Hs H rw ra KD c a hH hw hr hK hc ha
      exact ⟨M, hM, by simp [plain, h1], by simp [plain, h2]⟩
    · intro M hM
      obtain ⟨H, hH, h1, h2⟩ := C07_M50_of_Hs_of_M50 M rw ra KD c a hM hw hr hK hc ha
      exact ⟨H, hH, by simp [plain, h1], by simp [plain, h2]⟩
  have m := C92_hudson_mass hw le_rfl hr le_rfl KD KD c c a a hK le_rfl hc le_rfl ha le_rfl
  simp only [List.mem_cons, List.not_mem_nil, or_false, forall_eq_or_imp, forall_eq] at m ⊢
  exact ⟨DesignProof.same_inverse i0 (DesignProof.strict_of (fun _ _ h => .inl h) fun x y hx hxy => (m x y hx hxy).1),
    DesignProof.same_inverse (C10_accropode rw ra KD c a hw hr hK hc ha)
      (DesignProof.strict_of (fun _ _ h => .inl h) fun x y hx hxy => (m x y hx hxy).2.1),
    DesignProof.same_inverse (C10_accropode2 rw ra KD c a hw hr hK hc ha)
      (DesignProof.strict_of (fun _ _ h => .inl h) fun x y hx hxy => (m x y hx hxy).2.2.1),
    DesignProof.same_inverse i1
      (DesignProof.strict_of (fun _ _ h => .inl h) fun x y hx hxy => (m x y hx hxy).2.2.2.1),
    DesignProof.same_inverse i2
      (DesignProof.strict_of (fun _ _ h => .inl h) fun x y hx hxy => (m x y hx hxy).2.2.2.2.1),
    DesignProof.same_inverse i3
      (DesignProof.strict_of (fun _ _ h => .inl h) fun x y hx hxy => (m x y hx hxy).2.2.2.2.2.1),
    DesignProof.same_inverse i4
      (DesignProof.strict_of (fun _ _ h => .inl h) fun x y hx hxy => (m x y hx hxy).2.2.2.2.2.2)⟩

/-- C96: Xbloc and XblocPlus, by volume and by mass -/
theorem C96_xbloc (f : ℝ) (hf : 0 < f) :
    ∀ p ∈ [
      ((plain fun H => Xbloc.calculate_unit_volume_V H (fin rw) (fin ra) (fin f)),
        plain fun V => Xbloc.calculate_wave_height_Hs_from_V V (fin rw) (fin ra) (fin f)),
      ((plain fun H => Xbloc.calculate_unit_mass_M H (fin rw) (fin ra) (fin f)),
        plain fun M => Xbloc.calculate_wave_height_Hs_from_M M (fin rw) (fin ra) (fin f)),
      ((plain fun H => XblocPlus.calculate_unit_volume_V H (fin rw) (fin ra) (fin f)),
        plain fun V => XblocPlus.calculate_wave_height_Hs_from_V V (fin rw) (fin ra) (fin f)),
      ((plain fun H => XblocPlus.calculate_unit_mass_M H (fin rw) (fin ra) (fin f)),
        plain fun M => XblocPlus.calculate_wave_height_Hs_from_M M (fin rw) (fin ra) (fin f))],
    SameLimit p.1 p.2 := by
  have m := fun x y hx hxy => C92_xbloc_size hw le_rfl hr le_rfl x y f f hx hxy hf le_rfl
  simp only [List.mem_cons, List.not_mem_nil, or_false, forall_eq_or_imp, forall_eq] at m ⊢
  exact ⟨DesignProof.same_inverse (C12_xbloc_volume rw ra f hw hr hf)
      (DesignProof.strict_of (fun _ _ h => .inl h) fun x y hx hxy => (m x y hx hxy).1),
    DesignProof.same_inverse (C12_mass rw ra f hw hr hf).1
      (DesignProof.strict_of (fun _ _ h => .inl h) fun x y hx hxy => (m x y hx hxy).2.1),
    DesignProof.same_inverse (C12_xblocplus_volume rw ra f hw hr hf)
      (DesignProof.strict_of (fun _ _ h => .inl h) fun x y hx hxy => (m x y hx hxy).2.2.1),
    DesignProof.same_inverse (C12_mass rw ra f hw hr hf).2
      (DesignProof.strict_of (fun _ _ h => .inl h) fun x y hx hxy => (m x y hx hxy).2.2.2)⟩

/-- C96: cubes in a single layer -/
theorem C96_cubes_single (Ns : ℝ) (hN : 0 < Ns) :
    SameLimit (fun H => CubesSingle.calculate_unit_mass_M_start_of_damage H (fin rw) (fin ra) (fin Ns))
      (fun M => CubesSingle.calculate_significant_wave_height_Hs_start_of_damage M (fin rw) (fin ra) (fin Ns)) ∧
    SameLimit (fun H => CubesSingle.calculate_unit_mass_M_failure H (fin rw) (fin ra) (fin Ns))
      (fun M => CubesSingle.calculate_significant_wave_height_Hs_failure M (fin rw) (fin ra) (fin Ns)) := by
  have m := fun x y hx hxy => (C92_cubes_single hw le_rfl hr le_rfl x y 1 1 Ns Ns hx hxy one_pos le_rfl hN le_rfl).1
  simp only [List.mem_cons, List.not_mem_nil, or_false, forall_eq_or_imp, forall_eq] at m
  obtain ⟨i1, i2⟩ := C16_single_layer rw ra Ns hw hr hN
  exact ⟨DesignProof.same_inverse i1
      (DesignProof.strict_of (fun _ _ h => .inl h) fun x y hx hxy => (m x y hx hxy).1),
    DesignProof.same_inverse i2
      (DesignProof.strict_of (fun _ _ h => .inl h) fun x y hx hxy => (m x y hx hxy).2)⟩

end

example := C96_hudson (rw := 1025) (ra := 2650) (by norm_num) (by norm_num) (KD := 4) (c := 2) (a := 1)
  (by norm_num) (by norm_num) (by norm_num)
example := C96_xbloc (rw := 1025) (ra := 2400) (by norm_num) (by norm_num) (f := 1.25) (by norm_num)
example := C96_cubes_single (rw := 1025) (ra := 2400) (by norm_num) (by norm_num) (Ns := 2.9) (by norm_num)
end
