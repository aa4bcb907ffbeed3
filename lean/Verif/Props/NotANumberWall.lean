import Verif.Props.NotANumberSilent
import Verif.Props.CrestWall

/-! # C103: forces on crest walls by Van Gent & Van der Werf (2019) -/

open Classical
open PF CoreUtility CorePhysics
noncomputable section

section
open CrestWall CrestProof RunupProof NumberProof VanGent2001

section
variable {H T β c gb gf c0 c1 ρ g cF : ℝ} (hH : 0 < H) (hT : 0 < T) (hc : 0 < c)
  (hgb : 0 < gb) (hgf : 0 < gf) (h0 : 0 < c0) (h1 : 0 < c1) (hρ : 0 < ρ) (hg : 0 < g)
  (hcF : 0 < cF)
include hH hT hc hgb hgf h0 h1 hρ hg hcF

/-- C103: the horizontal force of waves at right angles is a number for every crest, whatever the wall height -/
theorem C103_wall_horizontal (Ac W : ℝ) (Rc : PF) (hW : 0 < W) :
    NoNumberIsReported (calculate_FH2p_perpendicular (fin H) (fin T) (fin c) (fin Ac) Rc (fin W) (fin gb) (fin gf)
      (fin c0) (fin c1) (fin ρ) (fin g) (fin cF)) := by
  obtain ⟨z, -, hz⟩ := zc_eval H T c W gb gf c0 c1 ρ g cF hH hT hc hgb hgf h0 h1 hρ hg hcF hW
  exact always (FH_perp H T c Ac W gb gf c0 c1 ρ g cF Rc hH hT hc hgb hgf h0 h1 hρ hg hcF hW hz)

/-- C103: the vertical force of waves at right angles with the armour crest above the water. For a base under water the
force is NaN, and the level of the base is reported. -/
theorem C103_wall_vertical_partial {Ac B Fb cFb : ℝ} (hB : 0 < B) (hA : 0 < Ac) (hb : 0 < cFb) :
    NoNumberIsReported (calculate_FV2p_perpendicular (fin H) (fin T) (fin c) (fin Ac) (fin B) (fin Fb) (fin gb) (fin gf)
      (fin c0) (fin c1) (fin cF) (fin cFb) (fin ρ) (fin g)) := by
  refine of_silent fun hs => ?_
  have h := RangeStructures.C60_wall_vertical (H := H) (A := Ac) (F := Fb) (fin T) (fin c) (fin B) (fin gb) (fin gf)
    (fin c0) (fin c1) (fin cF) (fin cFb) (fin ρ) (fin g) hH
  simp only [sci_eq] at h
  have h1' := (inside h hs (n := "Fb/Hm0") (x := Fb / H) (lo := 0.0) (hi := 0.62) (by simp)).1
  have hF : 0 ≤ Fb := by
    rw [le_div_iff₀ hH] at h1'
    norm_num at h1'
    exact h1'
  obtain ⟨z, -, hz⟩ := zc_eval H T c B gb gf c0 c1 ρ g cF hH hT hc hgb hgf h0 h1 hρ hg hcF hB
  exact ⟨_, FV_perp H T c Ac B Fb gb gf c0 c1 ρ g cF cFb hH hT hc hgb hgf h0 h1 hρ hg hcF hb hB hA hF hz⟩

/-- C103: the vertical force of oblique waves with the armour crest above the water, unless the run-up reaches exactly
three quarters of the crest (see `C103_wall_vertical_oblique_refuted`) -/
theorem C103_wall_vertical_oblique_partial {Ac B Fb cFb : ℝ} (hB : 0 < B) (hA : 0 < Ac) (hb : 0 < cFb)
    (hz' : calculate_wave_runup_height_zXp (fin H) (fin T) (fin gf * fin gb) (fin c) (fin c0) (fin c1) ≠
      fin (3 / 4 * Ac)) :
    NoNumberIsReported (calculate_FV2p_oblique (fin H) (fin T) (fin β) (fin c) (fin Ac) (fin B) (fin Fb) (fin gb) (fin gf)
      (fin c0) (fin c1) (fin cF) (fin cFb) (fin ρ) (fin g)) := by
  refine of_silent fun hs => ?_
  have h := RangeStructures.C60_wall_vertical_oblique (H := H) (A := Ac) (F := Fb) (b := β) (fin T) (fin c) (fin B)
    (fin gb) (fin gf) (fin c0) (fin c1) (fin cF) (fin cFb) (fin ρ) (fin g) hH
  simp only [sci_eq] at h
  have h1' := (inside h hs (n := "Fb/Hm0") (x := Fb / H) (lo := 0.0) (hi := 0.62) (by simp)).1
  have hF : 0 ≤ Fb := by
    rw [le_div_iff₀ hH] at h1'
    norm_num at h1'
    exact h1'
  obtain ⟨z, -, hz⟩ := zc_eval H T c B gb gf c0 c1 ρ g cF hH hT hc hgb hgf h0 h1 hρ hg hcF hB
  have hne : z - 0.75 * Ac ≠ 0 := fun h => hz' (by rw [hz, show z = 3 / 4 * Ac by norm_num at h; linarith])
  rw [FV_obl H T β c Ac B Fb gb gf c0 c1 ρ g cF cFb hH hT hc hgb hgf h0 h1 hρ hg hcF hb hB hA hF hz, gF_eval hne, mul_fin]
  exact ⟨_, rfl⟩

/-- C103: the horizontal force of oblique waves, unless the run-up reaches exactly the armour crest (see
`C103_wall_horizontal_oblique_refuted`) -/
theorem C103_wall_horizontal_oblique_partial (Ac W : ℝ) (Rc : PF) (hW : 0 < W)
    (hz' : calculate_wave_runup_height_zXp (fin H) (fin T) (fin gf * fin gb) (fin c) (fin c0) (fin c1) ≠ fin Ac) :
    NoNumberIsReported (calculate_FH2p_oblique (fin H) (fin T) (fin β) (fin c) (fin Ac) Rc (fin W) (fin gb) (fin gf)
      (fin c0) (fin c1) (fin cF) (fin ρ) (fin g)) := by
  obtain ⟨z, -, hz⟩ := zc_eval H T c W gb gf c0 c1 ρ g cF hH hT hc hgb hgf h0 h1 hρ hg hcF hW
  have hne : z - 1 * Ac ≠ 0 := fun h => hz' (by rw [hz, show z = Ac by linarith])
  refine of_silent fun _ => ?_
  rw [FH_obl H T β c Ac W gb gf c0 c1 ρ g cF Rc hH hT hc hgb hgf h0 h1 hρ hg hcF hW hz, gF_eval hne, mul_fin]
  exact ⟨_, rfl⟩

/-- C103 refuted: oblique waves that run up exactly to the armour crest give the horizontal force NaN, with everything
inside the tested ranges -/
theorem C103_wall_horizontal_oblique_refuted {A R W : ℝ} (hA : 0 < A) (hW : 0 < W)
    (hz : calculate_wave_runup_height_zXp (fin H) (fin T) (fin gf * fin gb) (fin c) (fin c0) (fin c1) = fin A)
    (i1 : 0.26 ≤ (R - A) / H) (i1' : (R - A) / H ≤ 0.77) (i2 : 1.27 ≤ R / A) (i2' : R / A ≤ 1.55) (i3 : 0.79 ≤ R / H)
    (i3' : R / H ≤ 2.18) (i4 : 0 ≤ β) (i4' : β ≤ 75) :
    SilentlyNotANumber (calculate_FH2p_oblique (fin H) (fin T) (fin β) (fin c) (fin A) (fin R) (fin W) (fin gb) (fin gf)
      (fin c0) (fin c1) (fin cF) (fin ρ) (fin g)) := by
  refine eq_silent ?_ (C38_runup_at_crest_refuted H T β c A W gb gf c0 c1 ρ g cF (fin R) hH hT hc hgb hgf h0 h1 hρ hg hcF
    hW hz).1
  refine (RangeStructures.C60_wall_horizontal_oblique (fin T) (fin c) (fin W) (fin gb) (fin gf) (fin c0) (fin c1) (fin cF)
    (fin ρ) (fin g) hH hA).silent ?_
  simp only [sci_eq, List.forall_mem_cons, List.not_mem_nil, IsEmpty.forall_iff, implies_true, and_true]
  exact ⟨ok_limit i1 i1', ok_limit i2 i2', ok_limit i3 i3', ok_limit (by norm_num; exact i4) (by norm_num; exact i4')⟩

/-- C103 refuted: oblique waves that run up to exactly three quarters of the armour crest give the vertical force NaN -/
theorem C103_wall_vertical_oblique_refuted {A B F cFb : ℝ} (hA : 0 < A) (hB : 0 < B) (hb : 0 < cFb)
    (hz : calculate_wave_runup_height_zXp (fin H) (fin T) (fin gf * fin gb) (fin c) (fin c0) (fin c1) = fin (3 / 4 * A))
    (i1 : 0 ≤ F / H) (i1' : F / H ≤ 0.62) (i4 : 0 ≤ β) (i4' : β ≤ 75) :
    SilentlyNotANumber (calculate_FV2p_oblique (fin H) (fin T) (fin β) (fin c) (fin A) (fin B) (fin F) (fin gb) (fin gf)
      (fin c0) (fin c1) (fin cF) (fin cFb) (fin ρ) (fin g)) := by
  have hF : 0 ≤ F := by
    rw [le_div_iff₀ hH, zero_mul] at i1
    exact i1
  refine eq_silent ?_ ?_
  · refine (RangeStructures.C60_wall_vertical_oblique (fin T) (fin c) (fin B) (fin gb) (fin gf) (fin c0) (fin c1) (fin cF)
      (fin cFb) (fin ρ) (fin g) hH).silent ?_
    simp only [sci_eq, List.forall_mem_cons, List.not_mem_nil, IsEmpty.forall_iff, implies_true, and_true]
    exact ⟨ok_limit (by norm_num; exact i1) i1', ok_limit (by norm_num; exact i4) (by norm_num; exact i4')⟩
  · rw [FV_obl H T β c A B F gb gf c0 c1 ρ g cF cFb hH hT hc hgb hgf h0 h1 hρ hg hcF hb hB hA hF hz,
      show 3 / 4 * A - 0.75 * A = 0 by norm_num, mul_zero, zero_mul, sup_idem,
      gF_sing (by norm_num) (by positivity)]

/-- C103 refuted: a wall with its base at the water line and the armour crest there too has the vertical force NaN -/
theorem C103_wall_vertical_refuted {B cFb : ℝ} (hB : 0 < B) (hb : 0 < cFb) :
    SilentlyNotANumber (calculate_FV2p_perpendicular (fin H) (fin T) (fin c) (fin 0) (fin B) (fin 0) (fin gb) (fin gf)
      (fin c0) (fin c1) (fin cF) (fin cFb) (fin ρ) (fin g)) := by
  refine eq_silent ?_ ?_
  · refine (RangeStructures.C60_wall_vertical (fin T) (fin c) (fin B) (fin gb) (fin gf) (fin c0) (fin c1) (fin cF)
      (fin cFb) (fin ρ) (fin g) hH).silent ?_
    simp only [sci_eq, List.forall_mem_cons, List.not_mem_nil, IsEmpty.forall_iff, implies_true, and_true]
    exact ok_limit (by norm_num) (by norm_num)
  · obtain ⟨z, -, hz⟩ := zc_eval H T c B gb gf c0 c1 ρ g cF hH hT hc hgb hgf h0 h1 hρ hg hcF hB
    unfold calculate_FV2p_perpendicular
    simp only [hz, check_bind, PyM.pure_def]
    unfold calculate_FV2p_perpendicular_from_z2p
    rw [show fin 0 / fin 0 = nan by rw [div_zero_fin]; simp [mulInf], npow_nan_fin hb.ne']
    simp only [sub_nan, mul_nan]
    rw [show PF.max nan 0 = nan by simp [PF.max, isnan]]
end

example := C103_wall_horizontal (H := 2) (T := 8) (c := 2) (gb := 1) (gf := 0.45) (c0 := 1.45) (c1 := 5) (ρ := 1025)
  (g := 9.81) (cF := 1) (by norm_num) (by norm_num) (by norm_num) (by norm_num) (by norm_num) (by norm_num) (by norm_num)
  (by norm_num) (by norm_num) (by norm_num) (-1) 2 nan (by norm_num)

/-- a base 1 m under water -/
example := C103_wall_vertical_partial (H := 2) (T := 8) (c := 2) (gb := 1) (gf := 0.45) (c0 := 1.45) (c1 := 5) (ρ := 1025)
  (g := 9.81) (cF := 0.4) (by norm_num) (by norm_num) (by norm_num) (by norm_num) (by norm_num) (by norm_num) (by norm_num)
  (by norm_num) (by norm_num) (by norm_num) (Ac := 2) (B := 3) (Fb := -1) (cFb := 0.5) (by norm_num) (by norm_num)
  (by norm_num)

example := C103_wall_vertical_refuted (H := 2) (T := 8) (c := 2) (gb := 1) (gf := 0.45) (c0 := 1.45) (c1 := 5) (ρ := 1025)
  (g := 9.81) (cF := 0.4) (by norm_num) (by norm_num) (by norm_num) (by norm_num) (by norm_num) (by norm_num) (by norm_num)
  (by norm_num) (by norm_num) (by norm_num) (B := 3) (cFb := 0.5) (by norm_num) (by norm_num)

/-- waves of 2 m at 30° against an armour crest at 2 m -/
theorem NumberProof.some_rough {x : ℝ} (hx : 0 < x) : ∃ gf : ℝ, 0 < gf ∧
    calculate_wave_runup_height_zXp (fin 2) (fin 8) (fin gf * fin 1) (fin 2) (fin 1.45) (fin 5) = fin x := by
  have hp := rfxi_pos (T := 8) (c := 2) (by norm_num) (by norm_num) (c0 := 1.45) (c1 := 5) (by norm_num) (by norm_num)
    (x := 2) (by norm_num)
  refine ⟨x / (rf 1.45 5 (VdMProof.xi 2 8 2) * 2), by positivity, ?_⟩
  rw [mul_fin, zX_eval (by norm_num) (by norm_num) (by norm_num) (by norm_num) (by norm_num)]
  generalize rf 1.45 5 (VdMProof.xi 2 8 2) = y at *
  rw [PF.fin.injEq]
  field_simp

example : ∃ gf : ℝ, SilentlyNotANumber (calculate_FH2p_oblique (fin 2) (fin 8) (fin 30) (fin 2) (fin 2) (fin 2.7) (fin 2)
    (fin 1) (fin gf) (fin 1.45) (fin 5) (fin 1) (fin 1025) (fin 9.81)) := by
  obtain ⟨gf, h, hz⟩ := some_rough (x := 2) (by norm_num)
  refine ⟨gf, C103_wall_horizontal_oblique_refuted (by norm_num) (by norm_num) (by norm_num) (by norm_num) h (by norm_num)
    (by norm_num) (by norm_num) (by norm_num) (by norm_num) (by norm_num) (by norm_num) hz ?_ ?_ ?_ ?_ ?_ ?_ ?_ ?_⟩ <;>
    norm_num

example : ∃ gf : ℝ, SilentlyNotANumber (calculate_FV2p_oblique (fin 2) (fin 8) (fin 30) (fin 2) (fin 2) (fin 4) (fin 0.5)
    (fin 1) (fin gf) (fin 1.45) (fin 5) (fin 0.4) (fin 0.5) (fin 1025) (fin 9.81)) := by
  obtain ⟨gf, h, hz⟩ := some_rough (x := 3 / 4 * 2) (by norm_num)
  refine ⟨gf, C103_wall_vertical_oblique_refuted (by norm_num) (by norm_num) (by norm_num) (by norm_num) h (by norm_num)
    (by norm_num) (by norm_num) (by norm_num) (by norm_num) (by norm_num) (by norm_num) (by norm_num) hz ?_ ?_ ?_ ?_⟩ <;>
    norm_num

example : ∃ gf : ℝ, NoNumberIsReported (calculate_FH2p_oblique (fin 2) (fin 8) (fin 30) (fin 2) (fin 1) nan (fin 2)
    (fin 1) (fin gf) (fin 1.45) (fin 5) (fin 1) (fin 1025) (fin 9.81)) := by
  obtain ⟨gf, h, hz⟩ := some_rough (x := 2) (by norm_num)
  exact ⟨gf, C103_wall_horizontal_oblique_partial (by norm_num) (by norm_num) (by norm_num) (by norm_num) h (by norm_num)
    (by norm_num) (by norm_num) (by norm_num) (by norm_num) 1 2 nan (by norm_num) (by rw [hz]; simp)⟩

example : ∃ gf : ℝ, NoNumberIsReported (calculate_FV2p_oblique (fin 2) (fin 8) (fin 30) (fin 2) (fin 2) (fin 4) (fin (-1))
    (fin 1) (fin gf) (fin 1.45) (fin 5) (fin 0.4) (fin 0.5) (fin 1025) (fin 9.81)) := by
  obtain ⟨gf, h, hz⟩ := some_rough (x := 2) (by norm_num)
  exact ⟨gf, C103_wall_vertical_oblique_partial (by norm_num) (by norm_num) (by norm_num) (by norm_num) h (by norm_num)
    (by norm_num) (by norm_num) (by norm_num) (by norm_num) (by norm_num) (by norm_num) (by norm_num)
    (by rw [hz]; norm_num)⟩

end

end
