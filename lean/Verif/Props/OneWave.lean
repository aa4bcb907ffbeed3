import Verif.SpecOneAnswer
import Verif.Props.Worse
import Verif.Props.ContinuousOvertopping
import Mathlib.Topology.Order.IntermediateValue

/-! # C98: which wave overtops so much?

Every discharge belongs to exactly one wave height, for crests at or above the water level (raised by the swell or
infragravity part where the formula subtracts it). -/

open Classical
open PF
open CorePhysics CoreUtility WorseProof ContProof
noncomputable section

namespace OneWaveProof

/-- results that grow at least in proportion to the argument -/
theorem one {f : PF → PyM PF} (hc : VariesContinuously fun x : Set.Ioi (0 : ℝ) => f (fin x))
    (h : ∀ H H' v v' : ℝ, 0 < H → H ≤ H' → (f (fin H)).res = .ok (fin v) → (f (fin H')).res = .ok (fin v') →
      0 < v ∧ v * H' ≤ v' * H) : OneAnswer f := by
  obtain ⟨r, kr, hr⟩ := hc
  intro v hv
  have hm : ∀ x y : Set.Ioi (0 : ℝ), x ≤ y → 0 < r x ∧ r x * (y : ℝ) ≤ r y * (x : ℝ) :=
    fun x y hxy => h x y _ _ x.2 hxy (hr x) (hr y)
  have one0 : (1 : ℝ) ∈ Set.Ioi (0 : ℝ) := Set.mem_Ioi.mpr one_pos
  have r1 := (hm ⟨1, one0⟩ ⟨1, one0⟩ le_rfl).1
  set R := r ⟨1, one0⟩ with hR
  have : PreconnectedSpace (Set.Ioi (0 : ℝ)) := Subtype.preconnectedSpace isPreconnected_Ioi
  have x0 : (0 : ℝ) < 1 ⊓ (v / R) := lt_min one_pos (by positivity)
  have x1 : (0 : ℝ) < 1 ⊔ (v / R) := lt_of_lt_of_le one_pos le_sup_left
  obtain ⟨x, hx⟩ := mem_range_of_exists_le_of_exists_ge kr (c := v)
    ⟨⟨1 ⊓ (v / R), x0⟩, by
      have := (hm ⟨1 ⊓ (v / R), x0⟩ ⟨1, one0⟩ (Subtype.mk_le_mk.mpr inf_le_left)).2
      rw [mul_one, ← hR] at this
      refine this.trans ?_
      calc R * (1 ⊓ (v / R)) ≤ R * (v / R) := mul_le_mul_of_nonneg_left inf_le_right r1.le
        _ = v := mul_div_cancel₀ _ r1.ne'⟩
    ⟨⟨1 ⊔ (v / R), x1⟩, by
      have := (hm ⟨1, one0⟩ ⟨1 ⊔ (v / R), x1⟩ (Subtype.mk_le_mk.mpr le_sup_left)).2
      rw [mul_one, ← hR] at this
      refine le_trans ?_ this
      calc v = R * (v / R) := (mul_div_cancel₀ _ r1.ne').symm
        _ ≤ R * (1 ⊔ (v / R)) := mul_le_mul_of_nonneg_left le_sup_right r1.le⟩
  have inj : ∀ x y : Set.Ioi (0 : ℝ), x < y → r x < r y := fun x y hxy => by
    obtain ⟨p, h2⟩ := hm x y hxy.le
    have p' := (hm y y le_rfl).1
    have hlt : (x : ℝ) < y := hxy
    have y0 : (0 : ℝ) < y := y.2
    have : r y * (x : ℝ) < r y * (y : ℝ) := mul_lt_mul_of_pos_left hlt p'
    exact lt_of_mul_lt_mul_right (h2.trans_lt this) y0.le
  refine ⟨x, ⟨x.2, by rw [hr x, hx]⟩, fun y ⟨y0, hy⟩ => ?_⟩
  have e : r ⟨y, y0⟩ = v := by
    have := hr ⟨y, y0⟩
    rw [hy] at this
    cases this
    rfl
  rcases lt_trichotomy (⟨y, y0⟩ : Set.Ioi (0 : ℝ)) x with hl | hl | hl
  · have := inj _ _ hl; linarith
  · exact congrArg Subtype.val hl
  · have := inj _ _ hl; linarith

theorem fst_res {m : PyM (PF × Bool)} {v : ℝ} (h : (Prod.fst <$> m).res = .ok (fin v)) : ∃ f, m.res = .ok (fin v, f) := by
  obtain ⟨w, r⟩ := m
  cases r with
  | error e => cases h
  | ok p =>
    obtain ⟨a, b⟩ := p
    cases h
    exact ⟨b, rfl⟩

/-- a discharge over the wave scale that does not fall as the waves grow -/
theorem scaled {a a' g H H' v v' : ℝ} (hg : 0 < g) (hH : 0 < H) (hHH : H ≤ H') (ha : 0 < a) (haa : a ≤ a')
    (e : v / √(g * H ^ 3) = a) (e' : v' / √(g * H' ^ 3) = a') : 0 < v ∧ v * H' ≤ v' * H := by
  have hH' := hH.trans_le hHH
  have S : 0 < √(g * H ^ 3) := by positivity
  have S' : 0 < √(g * H' ^ 3) := by positivity
  rw [div_eq_iff S.ne'] at e
  rw [div_eq_iff S'.ne'] at e'
  subst e e'
  have k : √(g * H ^ 3) * H' ≤ √(g * H' ^ 3) * H := by
    refine abs_le_of_sq_le_sq' ?_ (by positivity) |>.2
    rw [mul_pow, mul_pow, Real.sq_sqrt (by positivity), Real.sq_sqrt (by positivity)]
    have : H ^ 3 * H' ^ 2 ≤ H' ^ 3 * H ^ 2 := by
      have : H ^ 2 * H' ^ 2 * H ≤ H ^ 2 * H' ^ 2 * H' := mul_le_mul_of_nonneg_left hHH (by positivity)
      linarith
    nlinarith
  exact ⟨by positivity, by rw [mul_assoc, mul_assoc]; exact mul_le_mul haa k (by positivity) (ha.le.trans haa)⟩

end OneWaveProof

open OneWaveProof

/-- C98: wave height with a given discharge by De Ridder et al. (2024) and (2026) -/
theorem C98_deridder_wave_height (s gf g R w t : ℝ) (hs : 0 < s) (hf : 0 < gf) (hg : 0 < g) :
    (0 ≤ R → OneAnswer fun H => DeRidder2024.calculate_overtopping_discharge_q_eq24 H (fin s) (fin gf) (fin R)
      (fin g)) ∧
    (0.21 * w ≤ R → OneAnswer fun H => DeRidder2024.calculate_overtopping_discharge_q_eq26 H (fin s) (fin w) (fin gf)
      (fin R) (fin g)) ∧
    (0 ≤ R → OneAnswer fun H => DeRidder2026.calculate_overtopping_discharge_q_eq28 H (fin s) (fin gf) (fin R)
      (fin g) (fin t)) ∧
    (0.97 * w ≤ R → OneAnswer fun H => DeRidder2026.calculate_overtopping_discharge_q_eq32 H (fin s) (fin w) (fin gf)
      (fin R) (fin g) (fin t)) := by
  have key : ∀ {m a b e f H H' v v' : ℝ}, 0 < a → 0 < b → 0 < f → m * w ≤ R → 0 < H → H ≤ H' →
      v / √(g * H ^ 3) = Published.deRidder a b e f (R / H - m * (w / H)) s →
      v' / √(g * H' ^ 3) = Published.deRidder a b e f (R / H' - m * (w / H')) s → 0 < v ∧ v * H' ≤ v' * H := by
    intro m a b e f H H' v v' ha hb hf hR hH hHH h h'
    have hH' := hH.trans_le hHH
    refine scaled hg hH hHH (by unfold Published.deRidder; positivity) ?_ h h'
    unfold Published.deRidder
    refine mul_le_mul_of_nonneg_left (Real.exp_le_exp.mpr ?_) ha.le
    have e1 : ∀ H : ℝ, R / H - m * (w / H) = (R - m * w) / H := fun H => by ring
    rw [e1, e1, neg_mul, neg_mul, neg_mul, neg_le_neg_iff]
    have d : 0 ≤ R - m * w := by linarith
    have := Real.rpow_pos_of_pos hs e
    gcongr
  have ob : 0 < gf * Published.obliqueCos 0.35 t := by
    have : 0 < Published.obliqueCos 0.35 t := by
      unfold Published.obliqueCos
      nlinarith [sq_nonneg (Real.cos (t * (Real.pi / 180)))]
    positivity
  have k24 := C95_deridder2024_discharge id_input (const_input hs) (const_input hf) (const_input hg)
    (continuous_const (y := R)) (continuous_const (y := w))
  have k26 := C95_deridder2026_discharge id_input (const_input hs) (const_input hf) (const_input hg)
    (continuous_const (y := R)) (continuous_const (y := w)) (continuous_const (y := t))
  have res : ∀ {m : PyM PF} {P : ℝ → Prop} {v : ℝ}, Returns m P → m.res = .ok (fin v) → P v := by
    rintro m P v ⟨u, -, e, hu⟩ h
    rw [h] at e
    cases e
    exact hu
  refine ⟨fun hR => one k24.1 ?_, fun hR => one k24.2 ?_, fun hR => one k26.1 ?_, fun hR => one k26.2 ?_⟩ <;>
    intro H H' v v' hH hHH e e'
  · have h := res (C78_deridder2024_discharge H s gf g hH hs hf hg R w).1 e
    have h' := res (C78_deridder2024_discharge H' s gf g (hH.trans_le hHH) hs hf hg R w).1 e'
    exact key (a := 0.74) (b := 8.51) (m := 0) (by norm_num) (by norm_num) hf (by linarith) hH hHH (by rw [zero_mul, sub_zero]; exact h)
      (by rw [zero_mul, sub_zero]; exact h')
  · have h := res (C78_deridder2024_discharge H s gf g hH hs hf hg R w).2 e
    have h' := res (C78_deridder2024_discharge H' s gf g (hH.trans_le hHH) hs hf hg R w).2 e'
    exact key (a := 0.50) (b := 7.91) (by norm_num) (by norm_num) hf hR hH hHH h h'
  · have h := res (C78_deridder2026_discharge H s gf g t hH hs hf hg R w).1 e
    have h' := res (C78_deridder2026_discharge H' s gf g t (hH.trans_le hHH) hs hf hg R w).1 e'
    exact key (a := 0.16) (b := 6.93) (m := 0) (by norm_num) (by norm_num) ob (by linarith) hH hHH (by rw [zero_mul, sub_zero]; exact h)
      (by rw [zero_mul, sub_zero]; exact h')
  · have h := res (C78_deridder2026_discharge H s gf g t hH hs hf hg R w).2 e
    have h' := res (C78_deridder2026_discharge H' s gf g t (hH.trans_le hHH) hs hf hg R w).2 e'
    exact key (a := 0.05) (b := 10.40) (by norm_num) (by norm_num) ob hR hH hHH h h'

example := (C98_deridder_wave_height 0.03 0.4 9.81 5 1 30 (by norm_num) (by norm_num) (by norm_num)).2.2.2 (by norm_num)

/-- C98: wave height with a given discharge over a caisson by Van Gent (2021) -/
theorem C98_caisson_wave_height (g w cw c a b cb gp r R : ℝ) (k sc cs pp : Bool) (beta : PF) (hg : 0 < g)
    (ht : (c, k, pp, a, b, cb, gp) ∈ Published.caissonTable) (hk : (sc || cs) = k) (hr : 0 < r)
    (hR : (if cs then cw else 0) * w ≤ R) :
    OneAnswer fun H => VanGent2021Caisson.calculate_overtopping_discharge_q H (fin R) beta (fin r) (fin w) (fin c)
      (fin cw) sc cs pp (fin g) := by
  obtain ⟨-, ha, hb, hcb, hlt, hc1⟩ := FormulaProof.caisson_coefficients ht sc cs hk
  have hgp : 0 < gp := hcb.trans hlt
  refine one (C95_caisson_discharge_partial (fun _ => beta) id_input (const_input hg) (continuous_const (y := R))
    (const_input hr) (continuous_const (y := w)) (continuous_const (y := cw)) ht hk (Or.inr fun _ => hR)) ?_
  intro H H' v v' hH hHH e e'
  have hH' := hH.trans_le hHH
  obtain ⟨q, -, e1, e2⟩ := C78_caisson_discharge_partial H g w cw c a b cb gp k sc cs pp hH hg ht hk R r beta
    (fin r) hr (Or.inl rfl) (Or.inr hR)
  obtain ⟨q', -, e1', e2'⟩ := C78_caisson_discharge_partial H' g w cw c a b cb gp k sc cs pp hH' hg ht hk R
    r beta (fin r) hr (Or.inl rfl) (Or.inr hR)
  rw [e] at e1
  rw [e'] at e1'
  cases e1
  cases e1'
  refine scaled hg hH hHH (by unfold Published.caisson; positivity) ?_ e2 e2'
  unfold Published.caisson
  refine mul_le_mul_of_nonneg_left (Real.exp_le_exp.mpr ?_) ha.le
  rw [neg_mul, neg_mul, neg_le_neg_iff]
  generalize (if cs then cw else 0) = m at *
  have e : ∀ H : ℝ, R / H - m * (w / H) = (R - m * w) / H := fun H => by ring
  rw [e, e]
  have d0 : 0 ≤ R - m * w := by linarith
  have c0 : 0 ≤ c := by rcases hc1 with h | h <;> rw [h] <;> norm_num
  refine mul_le_mul_of_nonneg_left (Real.rpow_le_rpow (by positivity) ?_ c0) (by positivity)
  gcongr

example := C98_caisson_wave_height 9.81 0 0.4 1 0.2 3.9 0.75 1 1 4 true true false false nan (by norm_num)
  List.mem_cons_self rfl one_pos (by norm_num)

/-- C98: wave height with a given discharge over a slope by Van Gent et al. (2025), with and without the design
correction -/
theorem C98_vangent2025_wave_height (T c gf gb gv gB R w g : ℝ) (Ac beta B db D : PF) (dc : Bool) (hT : 0 < T)
    (hc : 0 < c) (hf : 0 < gf) (hb : 0 < gb) (hv : 0 < gv) (hB : 0 < gB) (hR : 0.4 * w ≤ R) (hg : 0 < g) :
    OneAnswer fun H => Prod.fst <$> VanGent2025.calculate_overtopping_discharge_q H (fin w) (fin T) (fin R) Ac (fin c)
      beta B db D (fin gf) (fin gb) (fin gv) (fin gB) (fin g) dc false := by
  refine one (C95_vangent2025_discharge (fun _ => Ac) (fun _ => beta) (fun _ => B) (fun _ => db) (fun _ => D) id_input
    (const_input hT) (const_input hc) (const_input hf) (const_input hb) (const_input hv) (const_input hB)
    (continuous_const (y := w)) dc (continuous_const (y := R)) (const_input hg)) ?_
  intro H H' v v' hH hHH e e'
  have hH' := hH.trans_le hHH
  obtain ⟨m, e⟩ := fst_res e
  obtain ⟨m', e'⟩ := fst_res e'
  obtain ⟨q, f, q0, e1, a, b, ha, hab, e2, -⟩ := C78_vangent2025_discharge H T c gf gb gv gB Ac beta B db D hH
    hT hc hf hb hv hB R w g dc hg
  obtain ⟨q', f', -, e1', a', b', ha', hab', e2', -⟩ := C78_vangent2025_discharge H' T c gf gb gv gB Ac
    beta B db D hH' hT hc hf hb hv hB R w g dc hg
  rw [e] at e1
  rw [e'] at e1'
  cases e1
  cases e1'
  obtain ⟨m1, m2⟩ := irib_conditions hH hHH hT le_rfl hc le_rfl
  have x0 := (irib_sq hH hT hc).1
  have x0' := (irib_sq hH' hT hc).1
  have G0 : 0 < gf * gb * gv * gB := by positivity
  have d0 : 0 ≤ R - 0.4 * w := by linarith
  have h1 : a ≤ a' := by
    rw [ha, ha', slopeBreaking_damp, slopeBreaking_damp]
    exact damp (by positivity) le_rfl (by norm_num) d0 le_rfl (by positivity) (by gcongr) zero_le_one
  have h2 : b ≤ b' := by
    rw [hab, hab', slopeMaximum_damp, slopeMaximum_damp]
    exact damp (by positivity) le_rfl (by norm_num) d0 le_rfl (by positivity) (by gcongr) zero_le_one
  have a0 : 0 < a := by rw [ha]; unfold Published.slopeBreaking2025; positivity
  have b0 : 0 < b := by rw [hab]; unfold Published.slopeMaximum2025; positivity
  have h3 : min a b ≤ min a' b' := min_le_min h1 h2
  have h0 : 0 < min a b := lt_min a0 b0
  refine scaled hg hH hHH ?_ ?_ e2 e2'
  · split_ifs
    · exact Real.rpow_pos_of_pos h0 _
    · exact h0
  · split_ifs
    · exact Real.rpow_le_rpow h0.le h3 (by norm_num)
    · exact h3

example := C98_vangent2025_wave_height 8 2 0.5 1 1 1 5 1 9.81 nan nan nan nan nan true (by norm_num) (by norm_num)
  (by norm_num) one_pos one_pos one_pos (by norm_num) (by norm_num)

namespace OneWaveProof
theorem smooth (p : ℝ) : Published.roughness 1 p = 1 := by unfold Published.roughness; split_ifs <;> simp

/-- the breaker parameter times the wave scale is proportional to the wave height -/
theorem irib_scale {T c g : ℝ} (hT : 0 < T) (hc : 0 < c) (hg : 0 < g) : ∃ K : ℝ, 0 < K ∧
    ∀ H, 0 < H → Textbook.iribarren H T c * √(g * H ^ 3) = K * H := by
  have hp := Real.pi_pos
  refine ⟨√(g * (9.81 * T ^ 2 / (2 * Real.pi) / c ^ 2)), by positivity, fun H hH => ?_⟩
  obtain ⟨x0, hx⟩ := irib_sq hH hT hc
  rw [← Real.sqrt_sq hH.le, ← Real.sqrt_mul (by positivity), Real.sqrt_sq hH.le, ← hx]
  nth_rw 1 [← Real.sqrt_sq x0.le]
  rw [← Real.sqrt_mul (by positivity)]
  congr 1
  ring

/-- the smaller of a discharge in breaking waves and a largest discharge -/
theorem smaller {T c g p q u u' H H' v v' : ℝ} (hT : 0 < T) (hc : 0 < c) (hg : 0 < g) (hH : 0 < H) (hHH : H ≤ H')
    (hp : 0 < p) (hq : 0 < q) {E E' F F' : ℝ} (hE : 0 < E) (hEE : E ≤ E') (hF : 0 < F) (hFF : F ≤ F')
    (hu : u = p * Textbook.iribarren H T c * E) (hu' : u' = p * Textbook.iribarren H' T c * E')
    (h : v / √(g * H ^ 3) = min u (q * F)) (h' : v' / √(g * H' ^ 3) = min u' (q * F')) :
    0 < v ∧ v * H' ≤ v' * H := by
  have hH' := hH.trans_le hHH
  have S : 0 < √(g * H ^ 3) := by positivity
  have S' : 0 < √(g * H' ^ 3) := by positivity
  obtain ⟨K, hK, hk⟩ := irib_scale hT hc hg
  have x0 := (irib_sq hH hT hc).1
  obtain ⟨-, s1⟩ := scaled hg hH hHH (mul_pos hq hF) (mul_le_mul_of_nonneg_left hFF hq.le)
    (mul_div_cancel_right₀ (q * F) S.ne') (mul_div_cancel_right₀ (q * F') S'.ne')
  rw [div_eq_iff S.ne', min_mul_of_nonneg _ _ S.le] at h
  rw [div_eq_iff S'.ne', min_mul_of_nonneg _ _ S'.le] at h'
  have e : u * √(g * H ^ 3) = p * K * E * H := by rw [hu]; linear_combination p * E * hk H hH
  have e' : u' * √(g * H' ^ 3) = p * K * E' * H' := by rw [hu']; linear_combination p * E' * hk H' hH'
  rw [h, h', min_mul_of_nonneg _ _ hH'.le, min_mul_of_nonneg _ _ hH.le]
  refine ⟨lt_min (by rw [e]; positivity) (by positivity), min_le_min ?_ s1⟩
  rw [e, e']
  have : p * K * E * (H * H') ≤ p * K * E' * (H * H') := by gcongr
  linarith
end OneWaveProof

/-- C98: wave height with a given discharge over a smooth dike by TAW (2002) (on rough slopes the discharge jumps, see
`C95_taw_discharge_long_waves_refuted`) -/
theorem C98_taw_wave_height_partial (T c gv gB gb R s g : ℝ) (beta B db : PF) (bf : Bool) (hT : 0 < T) (hc : 0 < c)
    (hv : 0 < gv) (hB : 0 < gB) (hb : 0 < gb) (hb1 : gb ≤ 1) (hR : 0 ≤ R) (hs : s = 0 ∨ bf = true) (hs7 : -7 ≤ s)
    (hg : 0 < g) :
    OneAnswer fun H => Prod.fst <$> OvertoppingTaw2002.calculate_overtopping_discharge_q H (fin T) (fin R) (fin c) nan
      nan beta B db (fin gB) (fin gb) (fin 1) (fin gv) (fin s) (fin g) bf := by
  refine one (C95_taw_discharge_partial (fun _ => beta) (fun _ => B) (fun _ => db) bf id_input (const_input hT)
    (const_input hc) (const_input one_pos) (fun _ => le_rfl) (const_input hv) (const_input hB) (const_input hb)
    (fun _ => hb1) (continuous_const (y := s)) (hs.imp (fun h _ => h) id) (Or.inl fun _ => rfl)
    (continuous_const (y := R)) (const_input hg)) ?_
  intro H H' v v' hH hHH e e'
  have hH' := hH.trans_le hHH
  obtain ⟨m, e⟩ := fst_res e
  obtain ⟨m', e'⟩ := fst_res e'
  obtain ⟨q, f, h1, x, r, a, b, rfl, rfl, rfl, rfl, h2, -⟩ := C78_taw_discharge_partial H T c 1 gv gB gb s beta
    B db bf hH hT hc one_pos le_rfl hv hB hb hb1 hs (Or.inl rfl) R g hg
  obtain ⟨q', f', h1', x, r, a, b, rfl, rfl, rfl, rfl, h2', -⟩ := C78_taw_discharge_partial H' T c 1 gv gB gb s beta
    B db bf hH' hT hc one_pos le_rfl hv hB hb hb1 hs (Or.inl rfl) R g hg
  rw [e] at h1
  rw [e'] at h1'
  cases h1
  cases h1'
  have k1 : (0 : ℝ) < (if bf then 4.75 else 4.3) + 0.5 * s := by split_ifs <;> norm_num <;> linarith
  have k2 : (0 : ℝ) < (if bf then 2.6 else 2.3) + 0.35 * s := by
    rcases hs with rfl | rfl
    · split_ifs <;> norm_num
    · norm_num; linarith
  generalize (if bf then (4.75 : ℝ) else 4.3) + 0.5 * s = k at *
  generalize (if bf then (2.6 : ℝ) else 2.3) + 0.35 * s = l at *
  obtain ⟨m1, -⟩ := irib_conditions hH hHH hT le_rfl hc le_rfl
  have x0 := (irib_sq hH hT hc).1
  have x0' := (irib_sq hH' hT hc).1
  rw [smooth] at h2 h2'
  refine smaller (p := 0.067 / √(1 / c) * gb) (q := 0.2) hT hc hg hH hHH (by positivity) (by norm_num)
    (Real.exp_pos _) (Real.exp_le_exp.mpr ?_) (Real.exp_pos _) (Real.exp_le_exp.mpr ?_) rfl rfl h2 h2'
  · have e : ∀ H, -k * (R / H) / (Textbook.iribarren H T c * gb * 1 * gB * gv) =
        -(k * R / (H * Textbook.iribarren H T c * (gb * 1 * gB * gv))) := fun H => by
      rw [neg_mul, neg_div, mul_div_assoc', div_div]; congr 2; ring
    rw [e, e, neg_le_neg_iff]
    gcongr
  · rw [neg_mul, neg_mul, neg_div, neg_div, neg_le_neg_iff]
    gcongr

example := C98_taw_wave_height_partial 8 3 1 1 0.8 5 0 9.81 nan nan nan false (by norm_num) (by norm_num) one_pos
  one_pos (by norm_num) (by norm_num) (by norm_num) (Or.inl rfl) (by norm_num) (by norm_num)

/-- C98: wave height with a given discharge over a smooth dike by EurOtop (2018) -/
theorem C98_eurotop2018_wave_height_partial (T c gv gs gB c1 c2 c3 c4 R g : ℝ) (beta gb : PF) (bf : Bool) (hT : 0 < T)
    (hc : 0 < c) (hv : 0 < gv) (hs : 0 < gs) (hB : 0 < gB) (h1 : 0 < c1) (h2 : 0 < c2) (h3 : 0 < c3) (h4 : 0 < c4)
    (hR : 0 ≤ R) (hg : 0 < g) :
    OneAnswer fun H => Prod.fst <$> OvertoppingEurOtop2018.calculate_overtopping_discharge_q H (fin T) (fin R) beta
      (fin gB) gb (fin 1) (fin gv) (fin gs) (cot_alpha := fin c) (c1 := fin c1) (c2 := fin c2) (c3 := fin c3)
      (c4 := fin c4) (use_best_fit := bf) (g := fin g) := by
  refine one (C95_eurotop2018_discharge_partial (fun _ => beta) (fun _ => gb) bf id_input (const_input hT)
    (const_input hc) (const_input one_pos) (fun _ => le_rfl) (const_input hv) (const_input hs) (const_input hB)
    (const_input h1) (const_input h2) (const_input h3) (const_input h4) (Or.inl fun _ => rfl)
    (continuous_const (y := R)) (fun _ => hR) (const_input hg)) ?_
  intro H H' v v' hH hHH e e'
  have hH' := hH.trans_le hHH
  obtain ⟨m, e⟩ := fst_res e
  obtain ⟨m', e'⟩ := fst_res e'
  obtain ⟨q, f, e1, x, r, a, b, rfl, rfl, rfl, rfl, e2, -⟩ := C78_eurotop2018_discharge_partial H T c 1 gv gs gB c1
    c2 c3 c4 beta gb bf hH hT hc one_pos le_rfl hv hs hB h1 h2 h3 h4 (Or.inl rfl) R g hR hg
  obtain ⟨q', f', e1', x, r, a, b, rfl, rfl, rfl, rfl, e2', -⟩ := C78_eurotop2018_discharge_partial H' T c 1 gv gs gB
    c1 c2 c3 c4 beta gb bf hH' hT hc one_pos le_rfl hv hs hB h1 h2 h3 h4 (Or.inl rfl) R g hR hg
  rw [e] at e1
  rw [e'] at e1'
  cases e1
  cases e1'
  have k1 : 0 < if bf then 2.7 else c1 := by cases bf <;> norm_num [h1]
  have k2 : 0 < if bf then 0.09 else c2 := by cases bf <;> norm_num [h2]
  have k3 : 0 < if bf then 1.5 else c3 := by cases bf <;> norm_num [h3]
  have k4 : 0 < if bf then 0.023 else c4 := by cases bf <;> norm_num [h4]
  generalize (if bf then 2.7 else c1) = j1 at *
  generalize (if bf then 0.09 else c2) = j2 at *
  generalize (if bf then 1.5 else c3) = j3 at *
  generalize (if bf then 0.023 else c4) = j4 at *
  obtain ⟨m1, -⟩ := irib_conditions hH hHH hT le_rfl hc le_rfl
  have x0 := (irib_sq hH hT hc).1
  have x0' := (irib_sq hH' hT hc).1
  rw [smooth] at e2 e2'
  refine smaller (p := j4 / √(1 / c) * 1) (q := j2) hT hc hg hH hHH (by positivity) k2
    (Real.exp_pos _) (Real.exp_le_exp.mpr ?_) (Real.exp_pos _) (Real.exp_le_exp.mpr ?_) rfl rfl e2 e2'
  · rw [neg_le_neg_iff]
    refine Real.rpow_le_rpow (by positivity) ?_ (by norm_num)
    have e : ∀ H, j1 * (R / H) / (Textbook.iribarren H T c * 1 * 1 * gB * gv) =
        j1 * R / (H * Textbook.iribarren H T c * (gB * gv)) := fun H => by
      rw [mul_div_assoc', div_div]; congr 1; ring
    rw [e, e]
    gcongr
  · rw [neg_le_neg_iff]
    refine Real.rpow_le_rpow (by positivity) ?_ (by norm_num)
    gcongr

example := C98_eurotop2018_wave_height_partial 8 3 1 1 1 2.5 0.1 1.35 0.026 5 9.81 nan nan false (by norm_num)
  (by norm_num) one_pos one_pos one_pos (by norm_num) (by norm_num) (by norm_num) (by norm_num) (by norm_num)
  (by norm_num)

namespace OneWaveProof

/-- results that rise from nothing and fall to zero again -/
theorem two {f : PF → PyM PF} (hc : VariesContinuously fun x : Set.Ioi (0 : ℝ) => f (fin x)) {B x0 x1 k : ℝ} (h0 : 0 < x0)
    (h01 : x0 < x1) (e0 : ∀ v, (f (fin x0)).res = .ok (fin v) → v = B) (e1 : ∀ v, (f (fin x1)).res = .ok (fin v) → v ≤ 0)
    (hk : 0 < k) (es : ∀ x v, 0 < x → (f (fin x)).res = .ok (fin v) → v ≤ k * x) : TwoAnswersBelow f B := by
  obtain ⟨r, kr, hr⟩ := hc
  intro v v0 vB
  set h : ℝ → ℝ := fun t => r ⟨Real.exp t, Real.exp_pos t⟩ with hh
  have kh : Continuous h := kr.comp (Real.continuous_exp.subtype_mk _)
  have he : ∀ x, 0 < x → (f (fin x)).res = .ok (fin (h (Real.log x))) := fun x hx => by
    have := hr ⟨Real.exp (Real.log x), Real.exp_pos _⟩
    simp only [Real.exp_log hx] at this
    rw [this, hh]
    simp only [Real.exp_log hx]
  have l0 := e0 _ (he x0 h0)
  have l1 := e1 _ (he x1 (h0.trans h01))
  set d := x0 ⊓ (v / (2 * k)) with hd
  have d0 : 0 < d := lt_min h0 (by positivity)
  have ls : h (Real.log d) ≤ v := by
    refine (es d _ d0 (he d d0)).trans ?_
    calc k * d ≤ k * (v / (2 * k)) := mul_le_mul_of_nonneg_left inf_le_right hk.le
      _ = v / 2 := by field_simp
      _ ≤ v := by linarith
  obtain ⟨s, ⟨s0, s1⟩, hs⟩ := intermediate_value_Icc (Real.log_le_log d0 (inf_le_left : d ≤ x0)) kh.continuousOn
    ⟨ls, by rw [l0]; exact vB.le⟩
  obtain ⟨t, ⟨t0, t1⟩, ht⟩ := intermediate_value_Icc' (Real.log_le_log h0 h01.le) kh.continuousOn
    ⟨l1.trans v0.le, by rw [l0]; exact vB.le⟩
  refine ⟨Real.exp s, Real.exp t, Real.exp_pos s, ?_, ?_, ?_⟩
  · refine Real.exp_lt_exp.mpr (lt_of_le_of_ne (s1.trans t0) fun e => ?_)
    have : s = Real.log x0 := le_antisymm s1 (by rw [e]; exact t0)
    rw [this, l0] at hs
    linarith
  · rw [he _ (Real.exp_pos s), Real.log_exp, hs]
  · rw [he _ (Real.exp_pos t), Real.log_exp, ht]

end OneWaveProof

/-- C98, refuted for the run-up by TAW (2002) on smooth slopes: as waves of one period grow, the run-up rises and falls
again, so that run-up levels below a certain one belong to two wave heights -/
theorem C98_taw_runup_height_refuted (T c gb gB : ℝ) (bf : Bool) (hT : 0 < T) (hc : 0 < c) (hb : 0 < gb) (hB : 0 < gB) :
    ∃ B : ℝ, 0 < B ∧ TwoAnswersBelow (fun H => Prod.fst <$> RunupTaw2002.calculate_wave_runup_height_z2p
      { Hm0 := H, Tmm10 := fin T, cot_alpha := fin c, gamma_f := fin 1, gamma_b := fin gb, gamma_beta := fin gB,
        use_best_fit := bf }) B := by
  have hp := Real.pi_pos
  set A := 9.81 * T ^ 2 / (2 * Real.pi) / c ^ 2 with hA
  have A0 : 0 < A := by positivity
  have key : ∀ H v, 0 < H → (Prod.fst <$> RunupTaw2002.calculate_wave_runup_height_z2p
      { Hm0 := fin H, Tmm10 := fin T, cot_alpha := fin c, gamma_f := fin 1, gamma_b := fin gb, gamma_beta := fin gB,
        use_best_fit := bf }).res = .ok (fin v) → v / H = Min.min ((if bf then 1.65 else 1.75) * gb * 1 * gB *
          Textbook.iribarren H T c) (1 * 1 * gB * ((if bf then 4 else 4.3) - (if bf then 1.5 else 1.6) /
          √(Textbook.iribarren H T c))) := by
    intro H v hH e
    obtain ⟨m, e⟩ := fst_res e
    obtain ⟨z, f, h1, h2⟩ := C78_runup_taw_partial H T c 1 gb gB bf hH hT hc le_rfl (Or.inl rfl)
    rw [e] at h1
    cases h1
    rw [h2, smooth]
    rfl
  have xi0 : Textbook.iribarren A T c = 1 := by
    obtain ⟨p, h⟩ := irib_sq A0 hT hc
    rw [← hA] at h
    have : Textbook.iribarren A T c ^ 2 = 1 := by
      have := mul_right_cancel₀ (b := A) A0.ne' (h.trans (one_mul A).symm)
      exact this
    nlinarith
  have xi1 : Textbook.iribarren (A * 10 ^ 4) T c = 0.01 := by
    obtain ⟨p, h⟩ := irib_sq (show 0 < A * 10 ^ 4 by positivity) hT hc
    rw [← hA] at h
    have : Textbook.iribarren (A * 10 ^ 4) T c ^ 2 = 0.01 ^ 2 := by
      have : (Textbook.iribarren (A * 10 ^ 4) T c ^ 2 * 10 ^ 4) * A = 1 * A := by linarith
      have := mul_right_cancel₀ A0.ne' this
      norm_num at this ⊢
      linarith
    exact (pow_left_inj₀ p.le (by norm_num) (by norm_num)).mp this
  have a1 : (0 : ℝ) < if bf then 1.65 else 1.75 := by cases bf <;> norm_num
  have a2 : (0 : ℝ) < (if bf then 4 else 4.3) - (if bf then 1.5 else 1.6) := by cases bf <;> norm_num
  have a3 : (if bf then 4 else 4.3 : ℝ) - (if bf then 1.5 else 1.6) / 0.1 ≤ 0 := by cases bf <;> norm_num
  have a4 : (0 : ℝ) < if bf then 4 else 4.3 := by cases bf <;> norm_num
  have a5 : (0 : ℝ) < if bf then 1.5 else 1.6 := by cases bf <;> norm_num
  generalize (if bf then (1.65 : ℝ) else 1.75) = k1 at *
  generalize (if bf then (4 : ℝ) else 4.3) = k2 at *
  generalize (if bf then (1.5 : ℝ) else 1.6) = k3 at *
  refine ⟨Min.min (k1 * gb * 1 * gB * 1) (1 * 1 * gB * (k2 - k3 / √1)) * A, ?_, two (x0 := A) (x1 := A * 10 ^ 4)
    (k := gB * k2) (C95_taw_runup_partial bf id_input (const_input hT) (const_input hc) (const_input one_pos)
      (fun _ => le_rfl) (continuous_const (y := gb)) (continuous_const (y := gB)) (Or.inl fun _ => rfl)) A0
      (by linarith) ?_ ?_ (by positivity) ?_⟩
  · rw [Real.sqrt_one, div_one]
    exact mul_pos (lt_min (by positivity) (by positivity)) A0
  · intro v e
    have := key A v A0 e
    rw [xi0, div_eq_iff A0.ne'] at this
    exact this
  · intro v e
    have h := key _ v (by positivity) e
    have s : √(0.01 : ℝ) = 0.1 := by
      rw [show (0.01 : ℝ) = 0.1 ^ 2 by norm_num]; exact Real.sqrt_sq (by norm_num)
    rw [xi1, s, div_eq_iff (by positivity)] at h
    rw [h]
    refine mul_nonpos_of_nonpos_of_nonneg (min_le_of_right_le ?_) (by positivity)
    exact mul_nonpos_of_nonneg_of_nonpos (by positivity) a3
  · intro H v hH e
    have h := key H v hH e
    rw [div_eq_iff hH.ne'] at h
    rw [h]
    refine mul_le_mul_of_nonneg_right (min_le_of_right_le ?_) hH.le
    have : 0 ≤ k3 / √(Textbook.iribarren H T c) := by positivity
    nlinarith

example := C98_taw_runup_height_refuted 6 4 1 1 false (by norm_num) (by norm_num) one_pos one_pos
