import Verif.SpecBreak
import Verif.Props.ContinuousStructures

/-! # C95: crest walls in oblique waves, small changes of the inputs -/

open Classical
open PF ContProof CrestProof
noncomputable section

namespace ContProof
theorem kb_cont {X : Type} [TopologicalSpace X] {b : X → ℝ} (h : Continuous b) : Continuous fun x => kb (b x) := by
  unfold kb
  fun_prop
end ContProof

section
variable {X : Type} [TopologicalSpace X] {H T b c Ac W Fb gb gf c0 c1 rho g cF cb : X → ℝ} (Rc : X → PF)
  (kH : PositiveInput H) (kT : PositiveInput T) (kb' : Continuous b) (kc : PositiveInput c) (kA : PositiveInput Ac)
  (kW : PositiveInput W) (kgb : PositiveInput gb) (kgf : PositiveInput gf) (k0 : PositiveInput c0)
  (k1 : PositiveInput c1) (kr : PositiveInput rho) (kg : PositiveInput g) (kF : PositiveInput cF)
include kH kT kb' kc kA kW kgb kgf k0 k1 kr kg kF

/-- C95: horizontal force on a crest wall in oblique waves, as long as the run-up level does not pass the armour crest
(missing: there, see `C95_crest_wall_horizontal_oblique_refuted`) -/
theorem C95_crest_wall_horizontal_oblique_partial
    (hz : ∀ x, VanGent2001.calculate_wave_runup_height_zXp (fin (H x)) (fin (T x)) (fin (gf x) * fin (gb x)) (fin (c x))
      (fin (c0 x)) (fin (c1 x)) ≠ fin (Ac x)) :
    VariesContinuously fun x => CrestWall.calculate_FH2p_oblique (fin (H x)) (fin (T x)) (fin (b x)) (fin (c x))
      (fin (Ac x)) (Rc x) (fin (W x)) (fin (gb x)) (fin (gf x)) (fin (c0 x)) (fin (c1 x)) (fin (cF x)) (fin (rho x))
      (fin (g x)) := by
  have ez : ∀ x, VanGent2001.calculate_wave_runup_height_zXp (fin (H x)) (fin (T x)) (fin (gf x) * fin (gb x)) (fin (c x))
      (fin (c0 x)) (fin (c1 x)) = fin (RunupProof.rf (c0 x) (c1 x) (VdMProof.xi (H x) (T x) (c x)) * (gf x * gb x) *
        H x) := fun x => by
    rw [mul_fin]; exact RunupProof.zX_eval (kT.2 x) (kc.2 x) (k0.2 x) (k1.2 x) (kH.2 x)
  have hne : ∀ x, RunupProof.rf (c0 x) (c1 x) (VdMProof.xi (H x) (T x) (c x)) * (gf x * gb x) * H x - Ac x ≠ 0 :=
    fun x h => hz x ((ez x).trans (by rw [sub_eq_zero.mp h]))
  refine of (fun x => (kb (b x) * (RunupProof.rf (c0 x) (c1 x) (VdMProof.xi (H x) (T x) (c x)) * (gf x * gb x) * H x) -
    Ac x) / (RunupProof.rf (c0 x) (c1 x) (VdMProof.xi (H x) (T x) (c x)) * (gf x * gb x) * H x - Ac x) *
    (cF x * rho x * g x * W x * (RunupProof.rf (c0 x) (c1 x) (VdMProof.xi (H x) (T x) (c x)) * (gf x * gb x) * H x -
      Ac x) ⊔ 0)) (fun x => ?_) fun x => ?_
  · rw [FH_obl (H x) (T x) (b x) (c x) (Ac x) (W x) (gb x) (gf x) (c0 x) (c1 x) (rho x) (g x)
      (cF x) (Rc x) (kH.2 x) (kT.2 x) (kc.2 x) (kgb.2 x) (kgf.2 x) (k0.2 x) (k1.2 x) (kr.2 x) (kg.2 x) (kF.2 x) (kW.2 x)
      (ez x), gF_eval (by rw [one_mul]; exact hne x), one_mul, mul_fin]
  · have k := (rf_input kH kT kc k0 k1).1
    have k' := kb_cont (b := b) kb'
    have := hne x
    inputs [kH, kA, kW, kgb, kgf, kr, kg, kF] x
    cont

/-- C95: vertical force on a crest wall in oblique waves, as long as the run-up level does not pass three quarters of the
armour crest level (missing: there, see `C95_crest_wall_vertical_oblique_refuted`) -/
theorem C95_crest_wall_vertical_oblique_partial (kFb : PositiveInput Fb) (kcb : PositiveInput cb)
    (hz : ∀ x, VanGent2001.calculate_wave_runup_height_zXp (fin (H x)) (fin (T x)) (fin (gf x) * fin (gb x)) (fin (c x))
      (fin (c0 x)) (fin (c1 x)) ≠ fin (0.75 * Ac x)) :
    VariesContinuously fun x => CrestWall.calculate_FV2p_oblique (fin (H x)) (fin (T x)) (fin (b x)) (fin (c x))
      (fin (Ac x)) (fin (W x)) (fin (Fb x)) (fin (gb x)) (fin (gf x)) (fin (c0 x)) (fin (c1 x)) (fin (cF x))
      (fin (cb x)) (fin (rho x)) (fin (g x)) := by
  have ez : ∀ x, VanGent2001.calculate_wave_runup_height_zXp (fin (H x)) (fin (T x)) (fin (gf x) * fin (gb x)) (fin (c x))
      (fin (c0 x)) (fin (c1 x)) = fin (RunupProof.rf (c0 x) (c1 x) (VdMProof.xi (H x) (T x) (c x)) * (gf x * gb x) *
        H x) := fun x => by
    rw [mul_fin]; exact RunupProof.zX_eval (kT.2 x) (kc.2 x) (k0.2 x) (k1.2 x) (kH.2 x)
  have hne : ∀ x, RunupProof.rf (c0 x) (c1 x) (VdMProof.xi (H x) (T x) (c x)) * (gf x * gb x) * H x - 0.75 * Ac x ≠ 0 :=
    fun x h => hz x ((ez x).trans (by rw [sub_eq_zero.mp h]))
  refine of (fun x => (kb (b x) * (RunupProof.rf (c0 x) (c1 x) (VdMProof.xi (H x) (T x) (c x)) * (gf x * gb x) * H x) -
    0.75 * Ac x) / (RunupProof.rf (c0 x) (c1 x) (VdMProof.xi (H x) (T x) (c x)) * (gf x * gb x) * H x - 0.75 * Ac x) *
    (cF x * rho x * g x * W x * (RunupProof.rf (c0 x) (c1 x) (VdMProof.xi (H x) (T x) (c x)) * (gf x * gb x) * H x -
      0.75 * Ac x) * (1 - (Fb x / Ac x) ^ cb x) ⊔ 0)) (fun x => ?_) fun x => ?_
  · rw [FV_obl (H x) (T x) (b x) (c x) (Ac x) (W x) (Fb x) (gb x) (gf x) (c0 x) (c1 x) (rho x) (g x)
      (cF x) (cb x) (kH.2 x) (kT.2 x) (kc.2 x) (kgb.2 x) (kgf.2 x) (k0.2 x) (k1.2 x) (kr.2 x) (kg.2 x) (kF.2 x)
      (kcb.2 x) (kW.2 x) (kA.2 x) (kFb.2 x).le (ez x), gF_eval (hne x), mul_fin]
  · have k := (rf_input kH kT kc k0 k1).1
    have k' := kb_cont (b := b) kb'
    have := hne x
    inputs [kH, kA, kW, kgb, kgf, kr, kg, kF, kFb, kcb] x
    cont
end

namespace ContProof
/-- two formulas left and right of a place that differ there -/
theorem breaks {call : Set.Ioi (0 : ℝ) → PyM PF} {l u : ℝ → ℝ} {a : ℝ} (ha : 0 < a) (hl : ContinuousAt l a)
    (hu : ContinuousAt u a) (el : ∀ y (hy : 0 < y), y < a → (call ⟨y, hy⟩).res = .ok (fin (l y)))
    (eu : ∀ y (hy : 0 < y), a < y → (call ⟨y, hy⟩).res = .ok (fin (u y))) (ne : l a ≠ u a) : BreaksOff call := by
  rintro ⟨r, hr, e⟩
  have h1 : r ⟨a, ha⟩ = l a := by
    by_contra h
    exact jump_on (Set.mem_Ioi.mpr ha) (Ioi_mem_nhds ha) hl (Set.Iio a)
      (fun y hy hy' => e ⟨y, hy⟩ _ (el y hy hy')) h hr
  have h2 : r ⟨a, ha⟩ = u a := by
    by_contra h
    exact jump_on (Set.mem_Ioi.mpr ha) (Ioi_mem_nhds ha) hu (Set.Ioi a)
      (fun y hy hy' => e ⟨y, hy⟩ _ (eu y hy hy')) h hr
  exact ne (h1.symm.trans h2)
end ContProof

section
variable (H T b c W gb gf c0 c1 rho g cF : ℝ) (hH : 0 < H) (hT : 0 < T) (hc : 0 < c)
  (hgb : 0 < gb) (hgf : 0 < gf) (h0 : 0 < c0) (h1 : 0 < c1) (hr : 0 < rho) (hg : 0 < g)
  (hcF : 0 < cF) (hW : 0 < W) (hb : Real.cos (b * (Real.pi / 180)) ^ 2 ≠ 1)
include hH hT hc hgb hgf h0 h1 hr hg hcF hW hb

/-- C95 refuted: in oblique waves the horizontal force breaks off where the armour crest passes the run-up level; it
tends to a negative force from below, is zero above, and NaN there (`C38_runup_at_crest_refuted`) -/
theorem C95_crest_wall_horizontal_oblique_refuted (Rc : PF) :
    BreaksOff fun Ac : Set.Ioi (0 : ℝ) => CrestWall.calculate_FH2p_oblique (fin H) (fin T) (fin b) (fin c) (fin Ac) Rc
      (fin W) (fin gb) (fin gf) (fin c0) (fin c1) (fin cF) (fin rho) (fin g) := by
  obtain ⟨z, z0, hz⟩ := zc_eval H T c W gb gf c0 c1 rho g cF hH hT hc hgb hgf h0 h1 hr hg hcF hW
  have hK : 0 < cF * rho * g * W := by positivity
  have ev : ∀ A, A ≠ z → (CrestWall.calculate_FH2p_oblique (fin H) (fin T) (fin b) (fin c) (fin A) Rc
      (fin W) (fin gb) (fin gf) (fin c0) (fin c1) (fin cF) (fin rho) (fin g)).res =
      .ok (fin ((kb b * z - A) / (z - A) * (cF * rho * g * W * (z - A) ⊔ 0))) := fun A hA => by
    rw [FH_obl H T b c A W gb gf c0 c1 rho g cF Rc hH hT hc hgb hgf h0 h1 hr hg hcF hW hz,
      gF_eval (by rw [one_mul]; exact sub_ne_zero.mpr hA.symm), one_mul, mul_fin]
  refine breaks z0 (l := fun A => cF * rho * g * W * (kb b * z - A)) (u := fun _ => 0) (by fun_prop) (by fun_prop)
    (fun A hA h => ?_) (fun A hA h => ?_) ?_
  · have hd : 0 < z - A := sub_pos.mpr h
    rw [ev A h.ne, sup_eq_left.mpr (by positivity)]
    congr 2
    field_simp
  · rw [ev A h.ne', sup_eq_right.mpr (mul_nonpos_of_nonneg_of_nonpos hK.le (by linarith)), mul_zero]
  · intro h
    rw [kb_eq] at h
    have h2 := (mul_eq_zero.mp h).resolve_left hK.ne'
    apply hb
    have h3 : ((1 + Real.cos (b * (Real.pi / 180)) ^ 2) / 2 - 1) * z = 0 := by linarith
    have := (mul_eq_zero.mp h3).resolve_right z0.ne'
    linarith

/-- C95 refuted: the same for the vertical force, at three quarters of the armour crest level, for a wall whose base is
below the run-up level -/
theorem C95_crest_wall_vertical_oblique_refuted (Fb cb : ℝ) (hcb : 0 < cb) (hF : 0 < Fb)
    (hz : ∃ z : ℝ, VanGent2001.calculate_wave_runup_height_zXp (fin H) (fin T) (fin gf * fin gb) (fin c) (fin c0)
      (fin c1) = fin z ∧ Fb < z / 0.75) :
    BreaksOff fun Ac : Set.Ioi (0 : ℝ) => CrestWall.calculate_FV2p_oblique (fin H) (fin T) (fin b) (fin c) (fin Ac)
      (fin W) (fin Fb) (fin gb) (fin gf) (fin c0) (fin c1) (fin cF) (fin cb) (fin rho) (fin g) := by
  obtain ⟨z, hz, hFz⟩ := hz
  obtain ⟨z', z0, hz'⟩ := zc_eval H T c W gb gf c0 c1 rho g cF hH hT hc hgb hgf h0 h1 hr hg hcF hW
  have : z' = z := by rw [hz'] at hz; injection hz
  subst this
  have a0 : 0 < z' / 0.75 := by positivity
  have hK : 0 < cF * rho * g * W := by positivity
  have ev : ∀ A, 0 < A → z' - 0.75 * A ≠ 0 → (CrestWall.calculate_FV2p_oblique (fin H) (fin T) (fin b) (fin c) (fin A)
      (fin W) (fin Fb) (fin gb) (fin gf) (fin c0) (fin c1) (fin cF) (fin cb) (fin rho) (fin g)).res =
      .ok (fin ((kb b * z' - 0.75 * A) / (z' - 0.75 * A) *
        (cF * rho * g * W * (z' - 0.75 * A) * (1 - (Fb / A) ^ cb) ⊔ 0))) := fun A h0A hA => by
    rw [FV_obl H T b c A W Fb gb gf c0 c1 rho g cF cb hH hT hc hgb hgf h0 h1 hr hg hcF hcb hW h0A hF.le hz',
      gF_eval hA, mul_fin]
  have pw : ∀ A, Fb < A → (Fb / A) ^ cb < 1 := fun A hA =>
    Real.rpow_lt_one (div_nonneg hF.le (hF.trans hA).le) ((div_lt_one (hF.trans hA)).mpr hA) hcb
  refine breaks a0 (l := fun A => (kb b * z' - 0.75 * A) * (cF * rho * g * W * (1 - (Fb / A) ^ cb) ⊔ 0))
    (u := fun _ => 0) ?_ (by fun_prop) (fun A hA h => ?_) (fun A hA h => ?_) ?_
  · have ha := a0.ne'
    have hFa : Fb / (z' / 0.75) ≠ 0 ∨ 0 ≤ cb := Or.inr hcb.le
    refine ContinuousAt.mul (by fun_prop) (ContinuousAt.sup (continuousAt_const.mul (continuousAt_const.sub ?_))
      continuousAt_const)
    exact (continuousAt_const.div continuousAt_id ha).rpow_const hFa
  · have hd : 0 < z' - 0.75 * A := by
      rw [lt_div_iff₀ (by norm_num)] at h
      linarith
    rw [ev A hA hd.ne', show cF * rho * g * W * (z' - 0.75 * A) * (1 - (Fb / A) ^ cb) ⊔ 0 =
      (z' - 0.75 * A) * (cF * rho * g * W * (1 - (Fb / A) ^ cb) ⊔ 0) by
        rw [mul_max_of_nonneg _ _ hd.le, mul_zero]; congr 1; ring]
    congr 2
    field_simp
  · have hd : z' - 0.75 * A < 0 := by
      rw [div_lt_iff₀ (by norm_num)] at h
      linarith
    have := pw A (hFz.trans h)
    rw [ev A hA hd.ne, sup_eq_right.mpr (mul_nonpos_of_nonpos_of_nonneg
      (mul_nonpos_of_nonneg_of_nonpos hK.le hd.le) (by linarith)), mul_zero]
  · intro h
    have h1 := pw _ hFz
    have h2 : 0 < cF * rho * g * W * (1 - (Fb / (z' / 0.75)) ^ cb) := mul_pos hK (by linarith)
    rw [sup_eq_left.mpr h2.le, kb_eq] at h
    have h3 := (mul_eq_zero.mp h).resolve_right h2.ne'
    apply hb
    have h4 : ((1 + Real.cos (b * (Real.pi / 180)) ^ 2) / 2 - 1) * z' = 0 := by
      have : 0.75 * (z' / 0.75) = z' := by ring
      linarith
    have := (mul_eq_zero.mp h4).resolve_right z0.ne'
    linarith
end

-- all armour crest levels but the run-up level itself, waves of 3 m and 9 s
example := C95_crest_wall_horizontal_oblique_partial (X := {A : ℝ // 0 < A ∧
    VanGent2001.calculate_wave_runup_height_zXp (fin 3) (fin 9) (fin 0.45 * fin 1) (fin 2) (fin 1.45) (fin 5) ≠ fin A})
  (Ac := fun x => x.1) (fun _ => 5) (const_input (a := 3) (by norm_num)) (const_input (a := 9) (by norm_num))
  (continuous_const (y := (30 : ℝ))) (const_input (a := 2) (by norm_num)) ⟨continuous_subtype_val, fun x => x.2.1⟩
  (const_input (a := 2) (by norm_num)) (const_input (a := 1) (by norm_num)) (const_input (a := 0.45) (by norm_num))
  (const_input (a := 1.45) (by norm_num)) (const_input (a := 5) (by norm_num)) (const_input (a := 1025) (by norm_num))
  (const_input (a := 9.81) (by norm_num)) (const_input (a := 1) (by norm_num)) fun x => x.2.2

example := C95_crest_wall_vertical_oblique_partial (X := {A : ℝ // 0 < A ∧
    VanGent2001.calculate_wave_runup_height_zXp (fin 3) (fin 9) (fin 0.45 * fin 1) (fin 2) (fin 1.45) (fin 5) ≠
      fin (0.75 * A)})
  (Ac := fun x => x.1) (const_input (a := 3) (by norm_num)) (const_input (a := 9) (by norm_num))
  (continuous_const (y := (30 : ℝ))) (const_input (a := 2) (by norm_num)) ⟨continuous_subtype_val, fun x => x.2.1⟩
  (const_input (a := 2) (by norm_num)) (const_input (a := 1) (by norm_num)) (const_input (a := 0.45) (by norm_num))
  (const_input (a := 1.45) (by norm_num)) (const_input (a := 5) (by norm_num)) (const_input (a := 1025) (by norm_num))
  (const_input (a := 9.81) (by norm_num)) (const_input (a := 1) (by norm_num)) (const_input (a := 0.5) (by norm_num))
  (const_input (a := 1) (by norm_num)) fun x => x.2.2

namespace ContProof
theorem oblique60 : Real.cos (60 * (Real.pi / 180)) ^ 2 ≠ 1 := by
  rw [show 60 * (Real.pi / 180) = Real.pi / 3 by ring, Real.cos_pi_div_three]
  norm_num
end ContProof

example := C95_crest_wall_horizontal_oblique_refuted 3 9 60 2 2 1 0.45 1.45 5 1025 9.81 1 (by norm_num) (by norm_num)
  (by norm_num) (by norm_num) (by norm_num) (by norm_num) (by norm_num) (by norm_num) (by norm_num) (by norm_num)
  (by norm_num) oblique60 5

-- for every wave there are such walls
example : ∃ Fb : ℝ, 0 < Fb ∧ BreaksOff fun Ac : Set.Ioi (0 : ℝ) => CrestWall.calculate_FV2p_oblique (fin 3) (fin 9)
    (fin 60) (fin 2) (fin Ac) (fin 2) (fin Fb) (fin 1) (fin 0.45) (fin 1.45) (fin 5) (fin 1) (fin 1) (fin 1025)
    (fin 9.81) := by
  obtain ⟨z, z0, hz⟩ := zc_eval 3 9 2 2 1 0.45 1.45 5 1025 9.81 1 (by norm_num) (by norm_num) (by norm_num)
    (by norm_num) (by norm_num) (by norm_num) (by norm_num) (by norm_num) (by norm_num) (by norm_num) (by norm_num)
  exact ⟨z, z0, C95_crest_wall_vertical_oblique_refuted 3 9 60 2 2 1 0.45 1.45 5 1025 9.81 1 (by norm_num) (by norm_num)
    (by norm_num) (by norm_num) (by norm_num) (by norm_num) (by norm_num) (by norm_num) (by norm_num) (by norm_num)
    (by norm_num) oblique60 z 1 (by norm_num) z0 ⟨z, hz, by rw [lt_div_iff₀ (by norm_num)]; linarith⟩⟩
