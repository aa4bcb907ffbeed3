import Verif.Props.ContinuousHydraulic
import Verif.Props.FormulasOvertopping
import Verif.Props.FormulasOvertoppingMore

/-! # C95: run-up and overtopping, small changes of the inputs -/

open Classical
open PF ContProof
noncomputable section

namespace ContProof
section
variable {X : Type} [TopologicalSpace X] {H T c gf gb p : X → ℝ}

theorem irib_input (kH : PositiveInput H) (kT : PositiveInput T) (kc : PositiveInput c) :
    PositiveInput fun x => Textbook.iribarren (H x) (T x) (c x) := by
  simp only [RangeProof.irib_eq]
  exact ⟨continuous_iff_continuousAt.mpr fun x => xi_cont kH.1.continuousAt kT.1.continuousAt kc.1.continuousAt
    (kH.2 x) (kT.2 x) (kc.2 x), fun x => VdMProof.xi_pos (kH.2 x) (kT.2 x) (kc.2 x)⟩

theorem roughness_eq {gf p : ℝ} (h : gf ≤ 1) :
    Published.roughness gf p = 1 ⊓ (gf + ((p - 1.8) ⊔ 0) * (1 - gf) / (10 - 1.8)) := by
  unfold Published.roughness
  split_ifs with hp
  · rw [sup_eq_right.mpr (by linarith), zero_mul, zero_div, add_zero, inf_eq_right.mpr h]
  · rw [sup_eq_left.mpr (by linarith)]

theorem roughness_input (kf : PositiveInput gf) (hf : ∀ x, gf x ≤ 1) (kp : Continuous p) :
    PositiveInput fun x => Published.roughness (gf x) (p x) := by
  refine ⟨?_, fun x => FormulaProof.roughness_pos (kf.2 x) (hf x)⟩
  simp only [roughness_eq (hf _)]
  have := kf.1
  fun_prop

omit [TopologicalSpace X] in
theorem at_point {gf gb xi : X → ℝ} (h : RoughnessOnLine gf gb xi) (x : X) :
    gf x = 1 ∨ gb x * xi x < 1.8 ∨ (gb x = 1 ∧ xi x ≤ 10) :=
  h.imp (· x) (Or.imp (· x) (· x))

/-- a call that returns a number and a flag -/
theorem of_pair {call : X → PyM (PF × Bool)} (r : X → ℝ) (f : X → Bool) (e : ∀ x, (call x).res = .ok (fin (r x), f x))
    (h : ∀ x, ContinuousAt r x) : VariesContinuously fun x => Prod.fst <$> call x := by
  refine of r (fun x => ?_) h
  rw [← bind_pure_comp, PyM.bind_res_of_ok (e x)]; rfl

/-- the freeboard at which the smaller of two discharges has a given value -/
theorem solve {A B a b y R : ℝ} (hA : 0 < A) (hB : 0 < B) (ha : 0 < a) (hb : 0 < b)
    (h : y = min (A * Real.exp (-a * R)) (B * Real.exp (-b * R))) :
    R = min (Real.log (A / y) / a) (Real.log (B / y) / b) := by
  have l : ∀ {A a : ℝ}, 0 < A → 0 < a → Real.log (A / (A * Real.exp (-a * R))) / a = R := by
    intro A a hA ha
    rw [div_mul_eq_div_div, div_self hA.ne', one_div, ← Real.exp_neg, Real.log_exp]
    field_simp
  have m : ∀ {A a y : ℝ}, 0 < A → 0 < a → 0 < y → y ≤ A * Real.exp (-a * R) → R ≤ Real.log (A / y) / a := by
    intro A a y hA ha hy h
    calc R = Real.log (A / (A * Real.exp (-a * R))) / a := (l hA ha).symm
      _ ≤ _ := by gcongr
  rcases le_total (A * Real.exp (-a * R)) (B * Real.exp (-b * R)) with h' | h'
  · rw [min_eq_left h'] at h
    have hy : 0 < y := by rw [h]; positivity
    rw [min_eq_left]
    · rw [h, l hA ha]
    · rw [h, l hA ha, ← h]; exact m hB hb hy (h ▸ h')
  · rw [min_eq_right h'] at h
    have hy : 0 < y := by rw [h]; positivity
    rw [min_eq_right]
    · rw [h, l hB hb]
    · rw [h, l hB hb, ← h]; exact m hA ha hy (h ▸ h')

end
end ContProof

/-! ## TAW (2002): run-up -/

section
variable {X : Type} [TopologicalSpace X] {H T c gf gb gB : X → ℝ} (bf : Bool) (kH : PositiveInput H)
  (kT : PositiveInput T) (kc : PositiveInput c) (kf : PositiveInput gf) (hf : ∀ x, gf x ≤ 1) (kb : Continuous gb)
  (kB : Continuous gB)
include kH kT kc kf hf kb kB

/-- C95: run-up by TAW (2002), as long as the roughness factor follows the published line -/
theorem C95_taw_runup_partial (hr : RoughnessOnLine gf gb fun x => Textbook.iribarren (H x) (T x) (c x)) :
    VariesContinuously fun x => Prod.fst <$> RunupTaw2002.calculate_wave_runup_height_z2p
      { Hm0 := fin (H x), Tmm10 := fin (T x), cot_alpha := fin (c x), gamma_f := fin (gf x), gamma_b := fin (gb x), gamma_beta := fin (gB x), use_best_fit := bf } := by
  choose z f h1 h2 using fun x => C78_runup_taw_partial (H x) (T x) (c x) (gf x) (gb x) (gB x) bf (kH.2 x) (kT.2 x)
    (kc.2 x) (hf x) (at_point hr x)
  refine of_pair z f h1 fun x => ?_
  have e : z = _ := funext fun x => (div_eq_iff (kH.2 x).ne').mp (h2 x)
  rw [e]
  have kx := irib_input kH kT kc
  have kx' := kx.1.continuousAt (x := x)
  have kr' := (roughness_input kf hf (kb.mul kx.1)).1.continuousAt (x := x)
  inputs [kH, kx] x
  unfold Published.runup
  cont

example := C95_taw_runup_partial true id_input (const_input (a := 8) (by norm_num)) (const_input (a := 2) (by
  norm_num)) (const_input (a := 1) (by norm_num)) (fun _ => by norm_num) (continuous_const (y := (0.8 : ℝ)))
  (continuous_const (y := (1 : ℝ))) (Or.inl fun _ => rfl)

end

namespace ContProof
open RunupTawProofs RunupTaw2002

theorem single_at {H T c gf gb gB : ℝ} (bf : Bool) (hH : 0 < H) (hT : 0 < T) (hc : 0 < c) :
    (Prod.fst <$> single H T c gf gb gB bf).res = .ok (fin ((k1 bf * gb * rough gf gb (VdMProof.xi H T c) * gB *
      VdMProof.xi H T c ⊓ 1.0 * rough gf gb (VdMProof.xi H T c) * gB * (k2 bf - k3 bf / √(VdMProof.xi H T c))) * H)) := by
  rw [← bind_pure_comp, PyM.bind_res_of_ok (single_eval bf hH hT hc)]; rfl

/-- where the roughness factor jumps, the run-up jumps -/
theorem runup_jump {H c gf gb gB a r0 r1 : ℝ} (bf : Bool) (hH : 0 < H) (hc : 0 < c) (hb : 0 < gb) (hB : 0 < gB)
    (ha : 0 < a) (t : Set ℝ) [(nhdsWithin a t).NeBot] (h1 : 1 < VdMProof.xi H a c) (hr : 0 < r0)
    (hr' : 0 < r1) (ne : r1 ≠ r0) (e1 : rough gf gb (VdMProof.xi H a c) = r1)
    (e : ∀ T, 0 < T → T ∈ t → rough gf gb (VdMProof.xi H T c) = r0) :
    Jumps fun T : Set.Ioi (0 : ℝ) => Prod.fst <$> single H T c gf gb gB bf := by
  refine ⟨_, ?_, fun T => single_at bf hH T.2 hc⟩
  refine jump_on (s := Set.Ioi 0) (a := a) (g := fun T => (k1 bf * gb * r0 * gB * VdMProof.xi H T c ⊓
    1.0 * r0 * gB * (k2 bf - k3 bf / √(VdMProof.xi H T c))) * H) (Set.mem_Ioi.mpr ha) (Ioi_mem_nhds ha) ?_ t ?_ ?_
  · have := xi_cont (x := a) (H := fun _ => H) (T := fun T => T) (c := fun _ => c) continuousAt_const continuousAt_id
      continuousAt_const hH ha hc
    have := VdMProof.xi_pos hH ha hc
    cont
  · intro T hT hTt
    simp only [e T hT hTt]
  · simp only [e1]
    have hx := VdMProof.xi_pos hH ha hc
    have hs : 1 < √(VdMProof.xi H a c) := by rw [Real.lt_sqrt (by norm_num)]; norm_num; exact h1
    have hM : 0 < (k1 bf * gb * gB * VdMProof.xi H a c ⊓ gB * (k2 bf - k3 bf / √(VdMProof.xi H a c))) := by
      have hk : 0 < k2 bf - k3 bf / √(VdMProof.xi H a c) := by
        have : k3 bf / √(VdMProof.xi H a c) < k2 bf := by
          rw [div_lt_iff₀ (by positivity)]
          unfold k2 k3
          cases bf <;> norm_num <;> nlinarith
        linarith
      have : 0 < k1 bf := by unfold k1; cases bf <;> norm_num
      exact lt_inf_iff.mpr ⟨by positivity, by positivity⟩
    have f : ∀ r : ℝ, 0 < r → (k1 bf * gb * r * gB * VdMProof.xi H a c ⊓ 1.0 * r * gB * (k2 bf - k3 bf /
        √(VdMProof.xi H a c))) = r * (k1 bf * gb * gB * VdMProof.xi H a c ⊓ gB * (k2 bf - k3 bf /
        √(VdMProof.xi H a c))) := by
      intro r h
      rw [mul_min_of_nonneg _ _ h.le, VdMProof.one_sci]
      congr 1 <;> ring
    rw [f r1 hr', f r0 hr]
    intro h
    have h2 := mul_right_cancel₀ hH.ne' h
    exact ne (mul_right_cancel₀ hM.ne' h2)

end ContProof

/-- C95: on a rough slope without a berm the run-up by TAW (2002) jumps where the Iribarren number passes 10: the
roughness factor is 1 there and falls back to the given one for any longer wave -/
theorem C95_taw_runup_long_waves_refuted {H c gf gB : ℝ} (bf : Bool) (hH : 0 < H) (hc : 0 < c) (hf : 0 < gf)
    (hf1 : gf < 1) (hB : 0 < gB) :
    Jumps fun T : Set.Ioi (0 : ℝ) => Prod.fst <$> RunupTaw2002.calculate_wave_runup_height_z2p
      { Hm0 := fin H, Tmm10 := fin (T : ℝ), cot_alpha := fin c, gamma_f := fin gf, gamma_b := fin 1, gamma_beta := fin gB, use_best_fit := bf } := by
  have h1 := VdMProof.xi_pos hH one_pos hc
  have ha : 0 < 10 / VdMProof.xi H 1 c := by positivity
  have ex : VdMProof.xi H (10 / VdMProof.xi H 1 c) c = 10 := by rw [xi_period hH ha hc]; field_simp
  refine runup_jump (a := 10 / VdMProof.xi H 1 c) (r0 := gf) (r1 := 1) bf hH hc one_pos hB ha
    (Set.Ioi (10 / VdMProof.xi H 1 c)) (by rw [ex]; norm_num) hf one_pos hf1.ne' ?_ ?_
  · rw [ex]
    unfold RunupTaw2002.rough
    rw [if_pos (by norm_num)]; ring
  · intro T hT h
    have : 10 < VdMProof.xi H T c := by
      rw [xi_period hH hT hc]
      exact (div_lt_iff₀ h1).mp h
    unfold RunupTaw2002.rough
    rw [if_neg]
    rintro ⟨-, h⟩
    linarith

example := C95_taw_runup_long_waves_refuted (H := 2) (c := 2) (gf := 0.55) (gB := 1) false (by norm_num) (by
  norm_num) (by norm_num) (by norm_num) (by norm_num)

/-- C95: on a rough slope with a berm the run-up by TAW (2002) jumps where the Iribarren number times the berm factor
passes 1.8: the correction of the roughness starts from the Iribarren number alone -/
theorem C95_taw_runup_berm_refuted {H c gf gb gB : ℝ} (bf : Bool) (hH : 0 < H) (hc : 0 < c) (hf : 0 < gf)
    (hf1 : gf < 1) (hb : 0 < gb) (hb1 : gb < 1) (hB : 0 < gB) :
    Jumps fun T : Set.Ioi (0 : ℝ) => Prod.fst <$> RunupTaw2002.calculate_wave_runup_height_z2p
      { Hm0 := fin H, Tmm10 := fin (T : ℝ), cot_alpha := fin c, gamma_f := fin gf, gamma_b := fin gb, gamma_beta := fin gB, use_best_fit := bf } := by
  have h1 := VdMProof.xi_pos hH one_pos hc
  have ha : 0 < 1.8 / gb / VdMProof.xi H 1 c := by positivity
  have ex : VdMProof.xi H (1.8 / gb / VdMProof.xi H 1 c) c = 1.8 / gb := by rw [xi_period hH ha hc]; field_simp
  have hgt : 1.8 < 1.8 / gb := by rw [lt_div_iff₀ hb]; linarith
  have hpos : 0 < (1.8 / gb - 1.8) * (1 - gf) / 8.2 :=
    div_pos (mul_pos (sub_pos.mpr hgt) (sub_pos.mpr hf1)) (by norm_num)
  refine runup_jump (a := 1.8 / gb / VdMProof.xi H 1 c) (r0 := gf) (r1 := (1.8 / gb - 1.8) * (1 - gf) / 8.2 + gf) bf hH
    hc hb hB ha (Set.Iio (1.8 / gb / VdMProof.xi H 1 c)) (by rw [ex]; norm_num at hgt ⊢; linarith) hf (by positivity)
    (by linarith) ?_ ?_
  · rw [ex]
    unfold RunupTaw2002.rough
    have : gb * (1.8 / gb) = 1.8 := by field_simp
    rw [this, if_pos (by norm_num)]
  · intro T hT h
    have : gb * VdMProof.xi H T c < 1.8 := by
      rw [xi_period hH hT hc]
      have := (lt_div_iff₀ h1).mp h
      have := (lt_div_iff₀ hb).mp this
      linarith
    unfold RunupTaw2002.rough
    rw [if_neg]
    rintro ⟨h, -⟩
    linarith

example := C95_taw_runup_berm_refuted (H := 2) (c := 2) (gf := 0.55) (gb := 0.8) (gB := 1) false (by norm_num) (by
  norm_num) (by norm_num) (by norm_num) (by norm_num) (by norm_num) (by norm_num)

/-! ## TAW (2002): overtopping -/

section
variable {X : Type} [TopologicalSpace X] {H T c gf gv gB gb s : X → ℝ} (beta B db : X → PF) (bf : Bool)
  (kH : PositiveInput H) (kT : PositiveInput T) (kc : PositiveInput c) (kf : PositiveInput gf) (hf : ∀ x, gf x ≤ 1)
  (kv : PositiveInput gv) (kB : PositiveInput gB) (kb : PositiveInput gb) (hb : ∀ x, gb x ≤ 1) (ks : Continuous s)
  (hs : (∀ x, s x = 0) ∨ bf = true)
  (hr : RoughnessOnLine gf gb fun x => Textbook.iribarren (H x) (T x) (c x))
include kH kT kc kf hf kv kB kb hb ks hs hr

/-- C95: discharge by TAW (2002), as long as the roughness factor follows the published line -/
theorem C95_taw_discharge_partial {R g : X → ℝ} (kR : Continuous R) (kg : PositiveInput g) :
    VariesContinuously fun x => Prod.fst <$> OvertoppingTaw2002.calculate_overtopping_discharge_q (fin (H x))
      (fin (T x)) (fin (R x)) (fin (c x)) nan nan (beta x) (B x) (db x) (fin (gB x)) (fin (gb x)) (fin (gf x))
      (fin (gv x)) (fin (s x)) (fin (g x)) bf := by
  choose q f h1 h2 using fun x => C78_taw_discharge_partial (H x) (T x) (c x) (gf x) (gv x) (gB x) (gb x) (s x) (beta x)
    (B x) (db x) bf (kH.2 x) (kT.2 x) (kc.2 x) (kf.2 x) (hf x) (kv.2 x) (kB.2 x) (kb.2 x) (hb x) (hs.imp (· x) id)
    (at_point hr x) (R x) (g x) (kg.2 x)
  have hS : ∀ x, √(g x * H x ^ 3) ≠ 0 := fun x => by
    have := kg.2 x; have := kH.2 x; positivity
  refine of_pair q f h1 fun x => ?_
  have e : q = fun x => min (Published.breakingDischarge ((if bf then 4.75 else 4.3) + 0.5 * s x) (c x) (gb x)
      (Published.roughness (gf x) (gb x * Textbook.iribarren (H x) (T x) (c x))) (gB x) (gv x)
      (Textbook.iribarren (H x) (T x) (c x)) (R x / H x)) (Published.maximumDischarge 0.2
      ((if bf then 2.6 else 2.3) + 0.35 * s x)
      (Published.roughness (gf x) (gb x * Textbook.iribarren (H x) (T x) (c x))) (gB x) (R x / H x)) *
      √(g x * H x ^ 3) := by
    funext x
    obtain ⟨_, _, _, _, rfl, rfl, rfl, rfl, h, -⟩ := h2 x
    exact (div_eq_iff (hS x)).mp h
  rw [e]
  have kx := irib_input kH kT kc
  have kx' := kx.1.continuousAt (x := x)
  have kr : PositiveInput fun x => Published.roughness (gf x) (gb x * Textbook.iribarren (H x) (T x) (c x)) :=
    roughness_input kf hf (kb.1.mul kx.1)
  have kr' := kr.1.continuousAt (x := x)
  generalize (if bf then (4.75 : ℝ) else 4.3) = k1
  generalize (if bf then (2.6 : ℝ) else 2.3) = k3
  inputs [kH, kx, kr, kc, kB, kv, kb, kg] x
  unfold Published.breakingDischarge Published.maximumDischarge
  cont

example := C95_taw_discharge_partial (fun _ => nan) (fun _ => nan) (fun _ => nan) true id_input (const_input (a :=
  8) (by norm_num)) (const_input (a := 2) (by norm_num)) (const_input (a := 1) (by norm_num)) (fun _ => by norm_num)
  (const_input (a := 1) (by norm_num)) (const_input (a := 1) (by norm_num)) (const_input (a := 0.8) (by norm_num))
  (fun _ => by norm_num) (continuous_const (y := (1 : ℝ))) (Or.inr rfl) (Or.inl fun _ => rfl) (continuous_const (y
  := (1 : ℝ))) (const_input (a := 9.81) (by norm_num))

/-- C95: crest level by TAW (2002), as long as the roughness factor follows the published line -/
theorem C95_taw_freeboard_partial {q : X → ℝ} (kq : PositiveInput q) (hs7 : ∀ x, -6 ≤ s x) :
    VariesContinuously fun x => Prod.fst <$> OvertoppingTaw2002.calculate_crest_freeboard_Rc (fin (H x))
      (fin (T x)) (fin (q x)) (fin (c x)) nan nan (beta x) (B x) (db x) (fin (gB x)) (fin (gb x)) (fin (gf x))
      (fin (gv x)) (fin (s x)) (use_best_fit := bf) := by
  choose R f h1 h2 using fun x => C78_taw_freeboard_partial (H x) (T x) (c x) (gf x) (gv x) (gB x) (gb x) (s x) (beta x)
    (B x) (db x) bf (kH.2 x) (kT.2 x) (kc.2 x) (kf.2 x) (hf x) (kv.2 x) (kB.2 x) (kb.2 x) (hb x) (hs.imp (· x) id)
    (at_point hr x) (q x) (kq.2 x) (by linarith [hs7 x])
  have kx := irib_input kH kT kc
  have kr : PositiveInput fun x => Published.roughness (gf x) (gb x * Textbook.iribarren (H x) (T x) (c x)) :=
    roughness_input kf hf (kb.1.mul kx.1)
  have p1 : ∀ x, 0 < (if bf then (4.75 : ℝ) else 4.3) + 0.5 * s x := by
    intro x; have := hs7 x; cases bf <;> norm_num <;> linarith
  have p3 : ∀ x, 0 < (if bf then (2.6 : ℝ) else 2.3) + 0.35 * s x := by
    intro x; have := hs7 x; cases bf <;> norm_num <;> linarith
  generalize (if bf then (4.75 : ℝ) else 4.3) = k1 at *
  generalize (if bf then (2.6 : ℝ) else 2.3) = k3 at *
  refine of_pair R f h1 fun x => ?_
  have e : R = fun x => Min.min
      (Real.log (0.067 / √(1 / c x) * gb x * Textbook.iribarren (H x) (T x) (c x) / (q x / √(9.81 * H x ^ 3))) /
        ((k1 + 0.5 * s x) / H x / (Textbook.iribarren (H x) (T x) (c x) * gb x *
          Published.roughness (gf x) (gb x * Textbook.iribarren (H x) (T x) (c x)) * gB x * gv x)))
      (Real.log (0.2 / (q x / √(9.81 * H x ^ 3))) / ((k3 + 0.35 * s x) / H x /
        (Published.roughness (gf x) (gb x * Textbook.iribarren (H x) (T x) (c x)) * gB x))) := by
    funext x
    have := p1 x
    have := p3 x
    inputs [kH, kx, kr, kc, kB, kv, kb, kq] x
    obtain ⟨_, _, _, _, rfl, rfl, rfl, rfl, h, -⟩ := h2 x
    refine solve (by positivity) (by norm_num) (by positivity) (by positivity) (h.trans ?_)
    unfold Published.breakingDischarge Published.maximumDischarge
    congr 3
    · ring
    · ring
  rw [e]
  have kx' := kx.1.continuousAt (x := x)
  have kr' := kr.1.continuousAt (x := x)
  have := p1 x
  have := p3 x
  inputs [kH, kx, kr, kc, kB, kv, kb, kq] x
  cont

example := C95_taw_freeboard_partial (fun _ => nan) (fun _ => nan) (fun _ => nan) true id_input (const_input (a :=
  8) (by norm_num)) (const_input (a := 2) (by norm_num)) (const_input (a := 1) (by norm_num)) (fun _ => by norm_num)
  (const_input (a := 1) (by norm_num)) (const_input (a := 1) (by norm_num)) (const_input (a := 0.8) (by norm_num))
  (fun _ => by norm_num) (continuous_const (y := (1 : ℝ))) (Or.inr rfl) (Or.inl fun _ => rfl) (const_input (a := 1)
  (by norm_num)) (fun _ => by norm_num)

end

/-! ## EurOtop (2007), rubble mounds -/

section
variable {X : Type} [TopologicalSpace X] {H T c gf gB c2 c3 : X → ℝ} (beta : X → PF) (bf : Bool)
  (kH : PositiveInput H) (kT : PositiveInput T) (kc : PositiveInput c) (kf : PositiveInput gf) (hf : ∀ x, gf x ≤ 1)
  (kB : PositiveInput gB) (k2 : PositiveInput c2) (k3 : PositiveInput c3)
  (hr : (∀ x, gf x = 1) ∨ ∀ x, Textbook.iribarren (H x) (T x) (c x) ≤ 10)
include kH kT kc kf hf kB k2 hr k3

/-- C95: discharge by EurOtop (2007), for Iribarren numbers up to 10 or a smooth slope -/
theorem C95_eurotop2007_discharge_partial {R g : X → ℝ} (kR : Continuous R) (kg : PositiveInput g) :
    VariesContinuously fun x => OvertoppingEurOtop2007.calculate_overtopping_discharge_q_rubble_mound (fin (H x))
      (fin (T x)) (fin (R x)) (beta x) (fin (gB x)) (fin (gf x)) (fin (c x)) (fin (c2 x)) (fin (c3 x)) bf
      (fin (g x)) := by
  choose q h0 h1 h2 using fun x => C78_eurotop2007_discharge_partial (H x) (T x) (c x) (gf x) (gB x) (c2 x) (c3 x)
    (beta x) bf (kH.2 x) (kT.2 x) (kc.2 x) (kf.2 x) (hf x) (kB.2 x) (k2.2 x) (hr.imp (· x) (· x)) (R x) (g x) (kg.2 x)
  have hS : ∀ x, √(g x * H x ^ 3) ≠ 0 := fun x => by
    have := kg.2 x; have := kH.2 x; positivity
  refine of q h1 fun x => ?_
  have e : q = _ := funext fun x => (div_eq_iff (hS x)).mp (h2 x)
  rw [e]
  have kx := irib_input kH kT kc
  have kr := roughness_input kf hf kx.1
  have kr' := kr.1.continuousAt (x := x)
  have k2' : ContinuousAt (fun x => if bf then 0.2 else c2 x) x := by
    cases bf
    · simpa using k2.1.continuousAt
    · simpa using continuousAt_const
  have k3' : ContinuousAt (fun x => if bf then 2.6 else c3 x) x := by
    cases bf
    · simpa using k3.1.continuousAt
    · simpa using continuousAt_const
  inputs [kH, kr, kB, kg] x
  unfold Published.maximumDischarge
  cont

example := C95_eurotop2007_discharge_partial (fun _ => nan) true id_input (const_input (a := 8) (by norm_num))
  (const_input (a := 2) (by norm_num)) (const_input (a := 1) (by norm_num)) (fun _ => by norm_num) (const_input (a
  := 1) (by norm_num)) (const_input (a := 1) (by norm_num)) (const_input (a := 1) (by norm_num)) (Or.inl fun _ =>
  rfl) (continuous_const (y := (1 : ℝ))) (const_input (a := 9.81) (by norm_num))

end

/-! ## De Ridder et al. (2024, 2026) -/

section
variable {X : Type} [TopologicalSpace X] {H s gf g R w : X → ℝ} (kH : PositiveInput H) (ks : PositiveInput s)
  (kf : PositiveInput gf) (kg : PositiveInput g) (kR : Continuous R) (kw : Continuous w)
include kH ks kf kg kR kw

/-- C95: discharge by De Ridder et al. (2024), both equations -/
theorem C95_deridder2024_discharge :
    (VariesContinuously fun x => DeRidder2024.calculate_overtopping_discharge_q_eq24 (fin (H x)) (fin (s x))
      (fin (gf x)) (fin (R x)) (fin (g x))) ∧
    VariesContinuously fun x => DeRidder2024.calculate_overtopping_discharge_q_eq26 (fin (H x)) (fin (s x))
      (fin (w x)) (fin (gf x)) (fin (R x)) (fin (g x)) := by
  have kS : PositiveInput fun x => √(g x * H x ^ 3) := by
    refine ⟨?_, fun x => ?_⟩
    · have := kg.1; have := kH.1; fun_prop
    · have := kg.2 x; have := kH.2 x; positivity
  have h := fun x => C78_deridder2024_discharge (H x) (s x) (gf x) (g x) (kH.2 x) (ks.2 x) (kf.2 x) (kg.2 x) (R x) (w x)
  refine ⟨of_returns kS (fun x => (h x).1) fun x => ?_, of_returns kS (fun x => (h x).2) fun x => ?_⟩ <;>
  · inputs [kH, ks, kf] x
    unfold Published.deRidder
    cont

example := C95_deridder2024_discharge id_input (const_input (a := 0.03) (by norm_num)) (const_input (a := 0.4) (by
  norm_num)) (const_input (a := 9.81) (by norm_num)) (continuous_const (y := (1 : ℝ))) (continuous_const (y := (1 :
  ℝ)))

/-- C95: discharge by De Ridder et al. (2026), both equations -/
theorem C95_deridder2026_discharge {t : X → ℝ} (kt : Continuous t) :
    (VariesContinuously fun x => DeRidder2026.calculate_overtopping_discharge_q_eq28 (fin (H x)) (fin (s x))
      (fin (gf x)) (fin (R x)) (fin (g x)) (fin (t x))) ∧
    VariesContinuously fun x => DeRidder2026.calculate_overtopping_discharge_q_eq32 (fin (H x)) (fin (s x))
      (fin (w x)) (fin (gf x)) (fin (R x)) (fin (g x)) (fin (t x)) := by
  have kS : PositiveInput fun x => √(g x * H x ^ 3) := by
    refine ⟨?_, fun x => ?_⟩
    · have := kg.1; have := kH.1; fun_prop
    · have := kg.2 x; have := kH.2 x; positivity
  have h := fun x => C78_deridder2026_discharge (H x) (s x) (gf x) (g x) (t x) (kH.2 x) (ks.2 x) (kf.2 x) (kg.2 x)
    (R x) (w x)
  have ho : PositiveInput fun x => Published.obliqueCos 0.35 (t x) := by
    refine ⟨by unfold Published.obliqueCos; fun_prop, fun x => ?_⟩
    unfold Published.obliqueCos
    have := sq_nonneg (Real.cos (t x * (Real.pi / 180)))
    norm_num; positivity
  refine ⟨of_returns kS (fun x => (h x).1) fun x => ?_, of_returns kS (fun x => (h x).2) fun x => ?_⟩ <;>
  · have ho' := ho.1.continuousAt (x := x)
    inputs [kH, ks, kf, ho] x
    unfold Published.deRidder
    cont

example := C95_deridder2026_discharge id_input (const_input (a := 0.03) (by norm_num)) (const_input (a := 0.4) (by
  norm_num)) (const_input (a := 9.81) (by norm_num)) (continuous_const (y := (1 : ℝ))) (continuous_const (y := (1 :
  ℝ))) (continuous_const (y := (1 : ℝ)))

end

/-! ## Van Gent et al. (2025), without wind -/

section
variable {X : Type} [TopologicalSpace X] {H T c gf gb gv gB w : X → ℝ} (Ac beta B db D : X → PF)
  (kH : PositiveInput H) (kT : PositiveInput T) (kc : PositiveInput c) (kf : PositiveInput gf) (kb : PositiveInput gb)
  (kv : PositiveInput gv) (kB : PositiveInput gB) (kw : Continuous w)
include kH kT kc kf kb kv kB kw

/-- C95: discharge by Van Gent et al. (2025), also for design calculations -/
theorem C95_vangent2025_discharge {R g : X → ℝ} (dc : Bool) (kR : Continuous R) (kg : PositiveInput g) :
    VariesContinuously fun x => Prod.fst <$> VanGent2025.calculate_overtopping_discharge_q (fin (H x)) (fin (w x))
      (fin (T x)) (fin (R x)) (Ac x) (fin (c x)) (beta x) (B x) (db x) (D x) (fin (gf x)) (fin (gb x)) (fin (gv x))
      (fin (gB x)) (fin (g x)) dc false := by
  choose q f h0 h1 h2 using fun x => C78_vangent2025_discharge (H x) (T x) (c x) (gf x) (gb x) (gv x) (gB x) (Ac x)
    (beta x) (B x) (db x) (D x) (kH.2 x) (kT.2 x) (kc.2 x) (kf.2 x) (kb.2 x) (kv.2 x) (kB.2 x) (R x) (w x) (g x) dc
    (kg.2 x)
  have hS : ∀ x, √(g x * H x ^ 3) ≠ 0 := fun x => by
    have := kg.2 x; have := kH.2 x; positivity
  refine of_pair q f h1 fun x => ?_
  have kx := irib_input kH kT kc
  have km : PositiveInput fun x => min
      (Published.slopeBreaking2025 (c x) (gf x * gb x * gv x * gB x) (Textbook.iribarren (H x) (T x) (c x))
        (R x / H x) (w x / H x))
      (Published.slopeMaximum2025 (c x) (gf x * gb x * gv x * gB x) (Textbook.iribarren (H x) (T x) (c x))
        (R x / H x) (w x / H x)) := by
    refine ⟨continuous_iff_continuousAt.mpr fun x => ?_, fun x => ?_⟩
    · have kx' := kx.1.continuousAt (x := x)
      inputs [kH, kx, kc, kB, kv, kb, kf, kg] x
      unfold Published.slopeBreaking2025 Published.slopeMaximum2025
      cont
    · have := kc.2 x
      unfold Published.slopeBreaking2025 Published.slopeMaximum2025
      exact lt_min (by positivity) (by positivity)
  have km' := km.1.continuousAt (x := x)
  have e : q = fun x => (if dc then min
      (Published.slopeBreaking2025 (c x) (gf x * gb x * gv x * gB x) (Textbook.iribarren (H x) (T x) (c x))
        (R x / H x) (w x / H x))
      (Published.slopeMaximum2025 (c x) (gf x * gb x * gv x * gB x) (Textbook.iribarren (H x) (T x) (c x))
        (R x / H x) (w x / H x)) ^ (0.857 : ℝ) else min
      (Published.slopeBreaking2025 (c x) (gf x * gb x * gv x * gB x) (Textbook.iribarren (H x) (T x) (c x))
        (R x / H x) (w x / H x))
      (Published.slopeMaximum2025 (c x) (gf x * gb x * gv x * gB x) (Textbook.iribarren (H x) (T x) (c x))
        (R x / H x) (w x / H x))) * √(g x * H x ^ 3) := by
    funext x
    obtain ⟨_, _, rfl, rfl, h, -⟩ := h2 x
    exact (div_eq_iff (hS x)).mp h
  rw [e]
  have kS : ContinuousAt (fun x => √(g x * H x ^ 3)) x := by inputs [kH, kg] x; cont
  refine ContinuousAt.mul ?_ kS
  cases dc
  · simpa using km'
  · simpa using km'.rpow continuousAt_const (Or.inl (km.2 x).ne')

example := C95_vangent2025_discharge (fun _ => nan) (fun _ => nan) (fun _ => nan) (fun _ => nan) (fun _ => nan)
  id_input (const_input (a := 8) (by norm_num)) (const_input (a := 2) (by norm_num)) (const_input (a := 1) (by
  norm_num)) (const_input (a := 1) (by norm_num)) (const_input (a := 1) (by norm_num)) (const_input (a := 1) (by
  norm_num)) (continuous_const (y := (1 : ℝ))) true (continuous_const (y := (1 : ℝ))) (const_input (a := 9.81) (by
  norm_num))

/-- C95: crest level by Van Gent et al. (2025), not for design calculations -/
theorem C95_vangent2025_freeboard_partial {q : X → ℝ} (kq : PositiveInput q) :
    VariesContinuously fun x => Prod.fst <$> VanGent2025.calculate_crest_freeboard_Rc (fin (H x)) (fin (w x))
      (fin (T x)) (fin (q x)) (Ac x) (fin (c x)) (beta x) (B x) (db x) (D x) (fin (gf x)) (fin (gb x)) (fin (gv x))
      (fin (gB x)) false false := by
  choose R f h1 h2 using fun x => C78_vangent2025_freeboard_partial (H x) (T x) (c x) (gf x) (gb x) (gv x) (gB x) (Ac x)
    (beta x) (B x) (db x) (D x) (kH.2 x) (kT.2 x) (kc.2 x) (kf.2 x) (kb.2 x) (kv.2 x) (kB.2 x) (q x) (w x) (kq.2 x)
  have kx := irib_input kH kT kc
  refine of_pair R f h1 fun x => ?_
  have e : R = fun x => 0.4 * w x + Min.min
      (Real.log (6.8 / c x / (q x / √(9.81 * H x ^ 3))) /
        (5 / H x / (gf x * gb x * gv x * gB x * Textbook.iribarren (H x) (T x) (c x))))
      (Real.log (0.8 / c x / (q x / √(9.81 * H x ^ 3))) /
        (2.5 / H x / (gf x * gb x * gv x * gB x * Textbook.iribarren (H x) (T x) (c x) ^ (0.24 : ℝ)))) := by
    funext x
    inputs [kH, kx, kc, kB, kv, kb, kf, kq] x
    obtain ⟨_, _, rfl, rfl, h, -⟩ := h2 x
    rw [← sub_eq_iff_eq_add']
    refine solve (by positivity) (by positivity) (by positivity) (by positivity) (h.trans ?_)
    unfold Published.slopeBreaking2025 Published.slopeMaximum2025
    congr 3
    · ring
    · ring
  rw [e]
  have kx' := kx.1.continuousAt (x := x)
  inputs [kH, kx, kc, kB, kv, kb, kf, kq] x
  cont

example := C95_vangent2025_freeboard_partial (fun _ => nan) (fun _ => nan) (fun _ => nan) (fun _ => nan) (fun _ =>
  nan) id_input (const_input (a := 8) (by norm_num)) (const_input (a := 2) (by norm_num)) (const_input (a := 1) (by
  norm_num)) (const_input (a := 1) (by norm_num)) (const_input (a := 1) (by norm_num)) (const_input (a := 1) (by
  norm_num)) (continuous_const (y := (1 : ℝ))) (const_input (a := 1) (by norm_num))

end

/-! ## EurOtop (2018) -/

/-- C95: discharge by EurOtop (2018) on slopes without a berm, for Iribarren numbers up to 10 or a smooth slope -/
theorem C95_eurotop2018_discharge_partial {X : Type} [TopologicalSpace X] {H T c gf gv gs gB c1 c2 c3 c4 R g : X → ℝ}
    (beta gb : X → PF) (bf : Bool) (kH : PositiveInput H) (kT : PositiveInput T) (kc : PositiveInput c)
    (kf : PositiveInput gf) (hf : ∀ x, gf x ≤ 1) (kv : PositiveInput gv) (ks : PositiveInput gs) (kB : PositiveInput gB)
    (k1 : PositiveInput c1) (k2 : PositiveInput c2) (k3 : PositiveInput c3) (k4 : PositiveInput c4)
    (hr : (∀ x, gf x = 1) ∨ ∀ x, Textbook.iribarren (H x) (T x) (c x) ≤ 10) (kR : Continuous R) (hR : ∀ x, 0 ≤ R x)
    (kg : PositiveInput g) :
    VariesContinuously fun x => Prod.fst <$> OvertoppingEurOtop2018.calculate_overtopping_discharge_q (fin (H x))
      (fin (T x)) (fin (R x)) (beta x) (fin (gB x)) (gb x) (fin (gf x)) (fin (gv x)) (fin (gs x))
      (cot_alpha := fin (c x)) (c1 := fin (c1 x)) (c2 := fin (c2 x)) (c3 := fin (c3 x)) (c4 := fin (c4 x))
      (use_best_fit := bf) (g := fin (g x)) := by
  choose q f h1 h2 using fun x => C78_eurotop2018_discharge_partial (H x) (T x) (c x) (gf x) (gv x) (gs x) (gB x) (c1 x)
    (c2 x) (c3 x) (c4 x) (beta x) (gb x) bf (kH.2 x) (kT.2 x) (kc.2 x) (kf.2 x) (hf x) (kv.2 x) (ks.2 x) (kB.2 x)
    (k1.2 x) (k2.2 x) (k3.2 x) (k4.2 x) (hr.imp (· x) (· x)) (R x) (g x) (hR x) (kg.2 x)
  have hS : ∀ x, √(g x * H x ^ 3) ≠ 0 := fun x => by
    have := kg.2 x; have := kH.2 x; positivity
  refine of_pair q f h1 fun x => ?_
  have e : q = fun x => min (Published.breakingDischarge2018 (if bf then 2.7 else c1 x) (if bf then 0.023 else c4 x)
      (c x) 1 (Published.roughness (gf x) (Textbook.iribarren (H x) (T x) (c x))) (gB x) (gv x)
      (Textbook.iribarren (H x) (T x) (c x)) (R x / H x)) (Published.maximumDischarge2018
      (if bf then 0.09 else c2 x) (if bf then 1.5 else c3 x) (gf x) (gB x) (gs x) (R x / H x)) *
      √(g x * H x ^ 3) := by
    funext x
    obtain ⟨_, _, _, _, rfl, rfl, rfl, rfl, h, -⟩ := h2 x
    exact (div_eq_iff (hS x)).mp h
  rw [e]
  have kx := irib_input kH kT kc
  have kx' := kx.1.continuousAt (x := x)
  have kr := roughness_input kf hf kx.1
  have kr' := kr.1.continuousAt (x := x)
  have sw : ∀ {u : X → ℝ} (a : ℝ), Continuous u → ContinuousAt (fun x => if bf then a else u x) x := by
    intro u a hu
    cases bf
    · simpa using hu.continuousAt
    · simpa using continuousAt_const
  have s1 := sw 2.7 k1.1
  have s2 := sw 0.09 k2.1
  have s3 := sw 1.5 k3.1
  have s4 := sw 0.023 k4.1
  have hp : ∀ {u : X → ℝ}, ContinuousAt u x → ContinuousAt (fun x => u x ^ (1.3 : ℝ)) x :=
    fun hu => hu.rpow continuousAt_const (Or.inr (by norm_num))
  inputs [kH, kx, kr, kc, kf, kB, kv, ks, kg] x
  unfold Published.breakingDischarge2018 Published.maximumDischarge2018
  have t1 : ContinuousAt (fun x => ((if bf then 2.7 else c1 x) * (R x / H x) / (Textbook.iribarren (H x) (T x) (c x) *
      1 * Published.roughness (gf x) (Textbook.iribarren (H x) (T x) (c x)) * gB x * gv x)) ^ (1.3 : ℝ)) x :=
    hp (by cont)
  have t2 : ContinuousAt (fun x => ((if bf then 1.5 else c3 x) * (R x / H x) / (gf x * gB x * gs x)) ^ (1.3 : ℝ)) x :=
    hp (by cont)
  have a1 : ContinuousAt (fun x => (if bf then 0.023 else c4 x) / √(1 / c x) * 1 *
      Textbook.iribarren (H x) (T x) (c x)) x := by cont
  have kS : ContinuousAt (fun x => √(g x * H x ^ 3)) x := by cont
  exact ((a1.mul t1.neg.rexp).min (s2.mul t2.neg.rexp)).mul kS

example := C95_eurotop2018_discharge_partial (fun _ => nan) (fun _ => nan) true id_input (const_input (a := 8) (by
  norm_num)) (const_input (a := 2) (by norm_num)) (const_input (a := 1) (by norm_num)) (fun _ => by norm_num)
  (const_input (a := 1) (by norm_num)) (const_input (a := 1) (by norm_num)) (const_input (a := 1) (by norm_num))
  (const_input (a := 1) (by norm_num)) (const_input (a := 1) (by norm_num)) (const_input (a := 1) (by norm_num))
  (const_input (a := 1) (by norm_num)) (Or.inl fun _ => rfl) (continuous_const (y := (1 : ℝ))) (fun _ => by
  norm_num) (const_input (a := 9.81) (by norm_num))

/-! ## caissons by Van Gent (2021) -/

/-- C95: discharge of caissons by Van Gent (2021) with each combination of coefficients; with exponent 1.3 for crests
not below the swell correction -/
theorem C95_caisson_discharge_partial {X : Type} [TopologicalSpace X] {H R r w cw g : X → ℝ} (beta : X → PF)
    {c a b cb gp : ℝ} {k sc cs pp : Bool} (kH : PositiveInput H) (kg : PositiveInput g) (kR : Continuous R)
    (kr : PositiveInput r) (kw : Continuous w) (kcw : Continuous cw)
    (ht : (c, k, pp, a, b, cb, gp) ∈ Published.caissonTable) (hk : (sc || cs) = k)
    (hR : c = 1 ∨ ∀ x, (if cs then cw x else 0) * w x ≤ R x) :
    VariesContinuously fun x => VanGent2021Caisson.calculate_overtopping_discharge_q (fin (H x)) (fin (R x)) (beta x)
      (fin (r x)) (fin (w x)) (fin c) (fin (cw x)) sc cs pp (fin (g x)) := by
  have kS : PositiveInput fun x => √(g x * H x ^ 3) := by
    refine ⟨?_, fun x => ?_⟩
    · have := kg.1; have := kH.1; fun_prop
    · have := kg.2 x; have := kH.2 x; positivity
  refine of_returns kS (fun x => C78_caisson_discharge_partial (H x) (g x) (w x) (cw x) c a b cb gp k sc cs pp (kH.2 x)
    (kg.2 x) ht hk (R x) (r x) (beta x) (fin (r x)) (kr.2 x) (Or.inl rfl) (hR.imp_right (· x))) fun x => ?_
  have hc : 0 < c ∧ 0 < gp := by
    simp only [Published.caissonTable, List.mem_cons, Prod.mk.injEq, List.not_mem_nil, or_false] at ht
    rcases ht with h | h | h | h | h | h <;> obtain ⟨rfl, -, -, -, -, -, rfl⟩ := h <;> norm_num
  obtain ⟨hc, hgp⟩ := hc
  have s1 : ContinuousAt (fun x => if cs then cw x else 0) x := by
    cases cs
    · simpa using continuousAt_const
    · simpa using kcw.continuousAt
  inputs [kH, kr] x
  have t1 : ContinuousAt (fun x => (R x / H x - (if cs then cw x else 0) * (w x / H x)) ^ c) x :=
    ContinuousAt.rpow (by cont) continuousAt_const (Or.inr hc)
  have t2 : ContinuousAt (fun x => -(b / (r x * gp))) x := by cont
  unfold Published.caisson
  exact continuousAt_const.mul (t2.mul t1).rexp

example := C95_caisson_discharge_partial (X := Set.Ioi (0 : ℝ)) (sc := true) (cs := false) (fun _ => nan) id_input
  (const_input (a := 9.81) (by norm_num)) (continuous_const (y := (2 : ℝ))) (const_input (a := 1) one_pos)
  (continuous_const (y := (0 : ℝ))) (continuous_const (y := (0.4 : ℝ)))
  (show ((1 : ℝ), true, false, (0.2 : ℝ), (3.9 : ℝ), (0.75 : ℝ), (1 : ℝ)) ∈ Published.caissonTable from
    List.mem_cons_self) rfl (Or.inl rfl)

/-! ## influence factors -/

/-- C95: the crest wall factor of TAW (2002) jumps at 45 degrees, from 1 to 0.999 -/
theorem C95_crest_wall_factor_refuted :
    Jumps fun a : ℝ => pure (OvertoppingTaw2002.calculate_influence_crest_wall_gamma_v (fin a)) := by
  have ev : ∀ a : ℝ, OvertoppingTaw2002.calculate_influence_crest_wall_gamma_v (fin a) =
      fin (if a ≤ 45 then 1 else 1.35 - 0.0078 * a) := by
    intro a
    unfold OvertoppingTaw2002.calculate_influence_crest_wall_gamma_v
    have e : (fin a ≤ 45) ↔ a ≤ 45 := by pf_eval []
    by_cases h : a ≤ 45
    · rw [whr_true (e.mpr h), if_pos h, sci_eq]; norm_num
    · rw [whr_false (fun h2 => h (e.mp h2)), if_neg h]; pf_eval []
  refine ⟨_, ?_, fun a => congrArg Except.ok (ev a)⟩
  refine jump_real (a := 45) (g := fun a => 1.35 - 0.0078 * a) (by fun_prop) (Set.Ioi 45) ?_ ?_
  · intro a ha
    exact if_neg (not_le.mpr ha)
  · norm_num

/-- C95: the obliqueness factors of TAW (2002) change continuously -/
theorem C95_obliqueness :
    (VariesContinuously fun b : ℝ => pure (RunupTaw2002.calculate_influence_oblique_waves_gamma_beta (fin b))) ∧
    VariesContinuously fun b : ℝ => pure (OvertoppingTaw2002.calculate_influence_oblique_waves_gamma_beta (fin b)) := by
  refine ⟨of _ (fun b => congrArg Except.ok (C78_obliqueness b).1) fun b => ?_,
    of _ (fun b => congrArg Except.ok (C78_obliqueness b).2) fun b => ?_⟩ <;>
  · unfold Published.obliqueness
    fun_prop

/-- C95: the obliqueness factor of EurOtop (2018) jumps where the roughness factor passes 0.6, for all waves that are
not perpendicular -/
theorem C95_obliqueness_eurotop2018_refuted {b : ℝ} (hb : b ≠ 0) :
    (Jumps fun gf : ℝ => pure (RunupEurOtop2018.calculate_influence_oblique_waves_gamma_beta (fin b) (fin gf))) ∧
    Jumps fun gf : ℝ => pure (OvertoppingEurOtop2018.calculate_influence_oblique_waves_gamma_beta (fin b)
      (fin gf)) := by
  have hm : 0 < Min.min |b| 80 := lt_min (abs_pos.mpr hb) (by norm_num)
  refine ⟨⟨_, ?_, fun gf => congrArg Except.ok (C78_obliqueness_eurotop2018 b gf).1⟩,
    ⟨_, ?_, fun gf => congrArg Except.ok (C78_obliqueness_eurotop2018 b gf).2⟩⟩
  · refine jump_real (a := 0.6) (g := fun _ => Published.obliqueness 0.0022 b) continuousAt_const (Set.Ioi 0.6) ?_ ?_
    · intro gf h
      rw [if_pos (Set.mem_Ioi.mp h)]
    · rw [if_neg (lt_irrefl _)]
      unfold Published.obliqueness
      intro h
      generalize Min.min |b| 80 = m at *
      norm_num at h
      exact hm.ne' h
  · refine jump_real (a := 0.6) (g := fun _ => Published.obliqueness 0.0033 b) continuousAt_const (Set.Ioi 0.6) ?_ ?_
    · intro gf h
      rw [if_pos (Set.mem_Ioi.mp h)]
    · rw [if_neg (lt_irrefl _)]
      unfold Published.obliqueness
      intro h
      generalize Min.min |b| 80 = m at *
      norm_num at h
      exact hm.ne' h

example := C95_obliqueness_eurotop2018_refuted (b := 30) (by norm_num)

/-! ## TAW (2002): jumps of the discharge -/

namespace ContProof
open OvertoppingTaw2002 TwoFormulas

theorem taw_q {H T c gf gv gB gb s R g : ℝ} (beta B db : PF) {bf : Bool} (hH : 0 < H) (hT : 0 < T) (hc : 0 < c)
    (hf : 0 < gf) (hf1 : gf ≤ 1) (hv : 0 < gv) (hB : 0 < gB) (hb : 0 < gb) (hb1 : gb ≤ 1) (hs : s = 0 ∨ bf = true)
    (hg : 0 < g) :
    (Prod.fst <$> calculate_overtopping_discharge_q (fin H) (fin T) (fin R) (fin c) nan nan beta B db (fin gB)
      (fin gb) (fin gf) (fin gv) (fin s) (fin g) bf).res = .ok (fin ((E (A1 H T c gb) (d1 H T c gb gf gB gv (k1 s bf)) R ⊓
        E 0.2 (d3 H T c gb gf gB (k3 s bf)) R) * Sc g H)) := by
  have hp : (pre (fin H) (fin T) (fin c) nan nan beta B db (fin gB) (fin gb) (fin gf)).res =
      .ok (fin gB, fin c, fin gb) := by
    have e1 : RunupTaw2002.check_calculate_gamma_beta beta (fin gB) = pure false := by
      unfold RunupTaw2002.check_calculate_gamma_beta; simp
    have e2 : RunupTaw2002.check_composite_slope (fin c) nan nan = pure false := by
      unfold RunupTaw2002.check_composite_slope; simp
    unfold pre
    rw [e1, pure_bind, e2]
    simp
  obtain ⟨f, h⟩ : ∃ f, (calculate_overtopping_discharge_q (fin H) (fin T) (fin R) (fin c) nan nan beta B db (fin gB)
      (fin gb) (fin gf) (fin gv) (fin s) (fin g) bf).res = .ok (fin ((E (A1 H T c gb) (d1 H T c gb gf gB gv (k1 s bf)) R ⊓
        E 0.2 (d3 H T c gb gf gB (k3 s bf)) R) * Sc g H), f) := by
    unfold calculate_overtopping_discharge_q
    rw [PyM.bind_res_of_ok (q_res hH hT hs hf hf1 hv hB hc hb hb1 hp)]
    dsimp only
    rw [Sc_eval hg hH, mul_fin]
    exact ⟨_, rfl⟩
  rw [← bind_pure_comp, PyM.bind_res_of_ok h]; rfl

theorem taw_q_jump {H c gf gv gB gb R g a r0 r1 : ℝ} (beta B db : PF) (bf : Bool) (hH : 0 < H) (hc : 0 < c)
    (hf : 0 < gf) (hf1 : gf ≤ 1) (hv : 0 < gv) (hB : 0 < gB) (hb : 0 < gb) (hb1 : gb ≤ 1) (hg : 0 < g) (hR : 0 < R)
    (ha : 0 < a) (t : Set ℝ) [(nhdsWithin a t).NeBot] (hr : 0 < r0) (lt : r0 < r1)
    (e1 : RunupTaw2002.rough gf gb (VdMProof.xi H a c) = r1)
    (e : ∀ T, 0 < T → T ∈ t → RunupTaw2002.rough gf gb (VdMProof.xi H T c) = r0) :
    Jumps fun T : Set.Ioi (0 : ℝ) => Prod.fst <$> calculate_overtopping_discharge_q (fin H) (fin (T : ℝ)) (fin R)
      (fin c) nan nan beta B db (fin gB) (fin gb) (fin gf) (fin gv) (fin 0) (fin g) bf := by
  refine ⟨_, ?_, fun T => taw_q beta B db hH T.2 hc hf hf1 hv hB hb hb1 (Or.inl rfl) hg⟩
  have p1 : 0 < k1 0 bf := by unfold k1; cases bf <;> norm_num
  have p3 : 0 < k3 0 bf := by unfold k3; cases bf <;> norm_num
  unfold E A1 d1 d3
  generalize k1 0 bf = m1 at *
  generalize k3 0 bf = m3 at *
  have hx := VdMProof.xi_pos hH ha hc
  have hS := Sc_pos hg hH
  refine jump_on (s := Set.Ioi 0) (a := a) (g := fun T =>
    (0.067 / √(1.0 / c) * VdMProof.xi H T c * gb * Real.exp (-(m1 / (H * (VdMProof.xi H T c * gb * r0 * gB * gv)) * R)) ⊓
      0.2 * Real.exp (-(m3 / (H * (r0 * gB)) * R))) * Sc g H) (Set.mem_Ioi.mpr ha) (Ioi_mem_nhds ha) ?_ t ?_ ?_
  · have := xi_cont (x := a) (H := fun _ => H) (T := fun T => T) (c := fun _ => c) continuousAt_const continuousAt_id
      continuousAt_const hH ha hc
    cont
  · intro T hT hTt
    simp only [e T hT hTt]
  · simp only [e1]
    generalize VdMProof.xi H a c = y at *
    have hr1 := hr.trans lt
    have q1 : 0.067 / √(1.0 / c) * y * gb * Real.exp (-(m1 / (H * (y * gb * r0 * gB * gv)) * R)) <
        0.067 / √(1.0 / c) * y * gb * Real.exp (-(m1 / (H * (y * gb * r1 * gB * gv)) * R)) := by gcongr
    have q2 : 0.2 * Real.exp (-(m3 / (H * (r0 * gB)) * R)) < 0.2 * Real.exp (-(m3 / (H * (r1 * gB)) * R)) := by
      gcongr
    exact (mul_lt_mul_of_pos_right (min_lt_min q1 q2) hS).ne'

end ContProof

/-- C95: on a rough slope without a berm the discharge by TAW (2002) jumps where the Iribarren number passes 10, for
every crest above the water -/
theorem C95_taw_discharge_long_waves_refuted {H c gf gv gB R g : ℝ} (beta B db : PF) (bf : Bool) (hH : 0 < H)
    (hc : 0 < c) (hf : 0 < gf) (hf1 : gf < 1) (hv : 0 < gv) (hB : 0 < gB) (hg : 0 < g) (hR : 0 < R) :
    Jumps fun T : Set.Ioi (0 : ℝ) => Prod.fst <$> OvertoppingTaw2002.calculate_overtopping_discharge_q (fin H)
      (fin (T : ℝ)) (fin R) (fin c) nan nan beta B db (fin gB) (fin 1) (fin gf) (fin gv) (fin 0) (fin g) bf := by
  have h1 := VdMProof.xi_pos hH one_pos hc
  have ha : 0 < 10 / VdMProof.xi H 1 c := by positivity
  have ex : VdMProof.xi H (10 / VdMProof.xi H 1 c) c = 10 := by rw [xi_period hH ha hc]; field_simp
  refine taw_q_jump (a := 10 / VdMProof.xi H 1 c) (r0 := gf) (r1 := 1) beta B db bf hH hc hf hf1.le hv hB one_pos le_rfl
    hg hR ha (Set.Ioi (10 / VdMProof.xi H 1 c)) hf hf1 ?_ ?_
  · rw [ex]
    unfold RunupTaw2002.rough
    rw [if_pos (by norm_num)]; ring
  · intro T hT h
    have : 10 < VdMProof.xi H T c := by
      rw [xi_period hH hT hc]
      exact (div_lt_iff₀ h1).mp h
    unfold RunupTaw2002.rough
    rw [if_neg]
    rintro ⟨-, h⟩
    linarith

example := C95_taw_discharge_long_waves_refuted (H := 2) (c := 2) (gf := 0.55) (gv := 1) (gB := 1) (R := 3) (g :=
  9.81) nan nan nan false (by norm_num) (by norm_num) (by norm_num) (by norm_num) (by norm_num) (by norm_num) (by
  norm_num) (by norm_num)

/-- C95: on a rough slope with a berm the discharge by TAW (2002) jumps where the Iribarren number times the berm factor
passes 1.8 -/
theorem C95_taw_discharge_berm_refuted {H c gf gv gB gb R g : ℝ} (beta B db : PF) (bf : Bool) (hH : 0 < H)
    (hc : 0 < c) (hf : 0 < gf) (hf1 : gf < 1) (hv : 0 < gv) (hB : 0 < gB) (hg : 0 < g) (hR : 0 < R) (hb : 0 < gb)
    (hb1 : gb < 1) :
    Jumps fun T : Set.Ioi (0 : ℝ) => Prod.fst <$> OvertoppingTaw2002.calculate_overtopping_discharge_q (fin H)
      (fin (T : ℝ)) (fin R) (fin c) nan nan beta B db (fin gB) (fin gb) (fin gf) (fin gv) (fin 0) (fin g) bf := by
  have h1 := VdMProof.xi_pos hH one_pos hc
  have ha : 0 < 1.8 / gb / VdMProof.xi H 1 c := by positivity
  have ex : VdMProof.xi H (1.8 / gb / VdMProof.xi H 1 c) c = 1.8 / gb := by rw [xi_period hH ha hc]; field_simp
  have hgt : 1.8 < 1.8 / gb := by rw [lt_div_iff₀ hb]; linarith
  have hpos : 0 < (1.8 / gb - 1.8) * (1 - gf) / 8.2 :=
    div_pos (mul_pos (sub_pos.mpr hgt) (sub_pos.mpr hf1)) (by norm_num)
  refine taw_q_jump (a := 1.8 / gb / VdMProof.xi H 1 c) (r0 := gf) (r1 := (1.8 / gb - 1.8) * (1 - gf) / 8.2 + gf) beta B
    db bf hH hc hf hf1.le hv hB hb hb1.le hg hR ha (Set.Iio (1.8 / gb / VdMProof.xi H 1 c)) hf (by linarith) ?_ ?_
  · rw [ex]
    unfold RunupTaw2002.rough
    have : gb * (1.8 / gb) = 1.8 := by field_simp
    rw [this, if_pos (by norm_num)]
  · intro T hT h
    have : gb * VdMProof.xi H T c < 1.8 := by
      rw [xi_period hH hT hc]
      have := (lt_div_iff₀ h1).mp h
      have := (lt_div_iff₀ hb).mp this
      linarith
    unfold RunupTaw2002.rough
    rw [if_neg]
    rintro ⟨h, -⟩
    linarith

example := C95_taw_discharge_berm_refuted (H := 2) (c := 2) (gf := 0.55) (gv := 1) (gB := 1) (gb := 0.8) (R := 3) (g
  := 9.81) nan nan nan false (by norm_num) (by norm_num) (by norm_num) (by norm_num) (by norm_num) (by norm_num) (by
  norm_num) (by norm_num) (by norm_num) (by norm_num)
