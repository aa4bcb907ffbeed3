import Verif.Props.RearPozuetaHeight
import Mathlib.Topology.Order.IntermediateValue
import Mathlib.Analysis.SpecialFunctions.Pow.Continuity

/-! # The wave height solver of Van Gent & Pozueta (2004) for crests of any width (C66) -/

open Classical
open PF
open CorePhysics
noncomputable section

namespace RearProof
open VanGentPozueta2004 RunupProof VdMProof

section
variable {cs ca T d cp n D S Rc Rr B gf gc : ℝ} (hcs : 0 < cs) (hca : 0 < ca) (hT : 0 < T)
  (hd : 0 < d) (hcp : 0 < cp) (hn : 0 < n) (hD : 0 < D) (hS : 0 < S) (hRc : 0 < Rc) (hRr : 0 ≤ Rr)
  (hB : 0 ≤ B) (hgf : 0 < gf) (hgc : 0 < gc)

include hcs hT hd hcp hn hD hS hRr hB hgf hgc in
theorem W04_anti {x y : ℝ} (hx : 0 < x) (hxy : x ≤ y) :
    W04 cs T d cp n D S Rr B gf gc y ≤ W04 cs T d cp n D S Rr B gf gc x := by
  obtain ⟨K, hK, e⟩ := W04_eq (Rr := Rr) hcs hT hd hcp hn hD hS hgf hgc hB
  have hy := hx.trans_le hxy
  rw [e x hx, e y hy]
  have h1 : Real.exp (-Rr / x) ≤ Real.exp (-Rr / y) := by
    apply Real.exp_le_exp.mpr
    rw [neg_div, neg_div, neg_le_neg_iff]
    gcongr
  have h2 : (1 + 10 * Real.exp (-Rr / y)) ^ (-(1 / 6) : ℝ) ≤ (1 + 10 * Real.exp (-Rr / x)) ^ (-(1 / 6) : ℝ) :=
    Real.rpow_le_rpow_of_nonpos (by positivity) (by linarith) (by norm_num)
  gcongr

include hcs hT hd hcp hn hD hS hB hgf hgc in
theorem W04_continuousOn : ContinuousOn (W04 cs T d cp n D S Rr B gf gc) (Set.Ioi 0) := by
  obtain ⟨K, hK, e⟩ := W04_eq (Rr := Rr) hcs hT hd hcp hn hD hS hgf hgc hB
  refine ContinuousOn.congr (f := fun x => K * ((1 + 10 * Real.exp (-Rr / x)) ^ (-(1 / 6) : ℝ) *
    (1 + 0.1 * B / x)) ^ 2) ?_ (fun x hx => e x hx)
  have h0 : ∀ x ∈ Set.Ioi (0 : ℝ), x ≠ 0 := fun x hx => (show 0 < x from hx).ne'
  refine continuousOn_const.mul ((ContinuousOn.mul ?_ ?_).pow 2)
  · refine ContinuousOn.rpow_const ?_ (fun x _ => Or.inl (by positivity))
    exact continuousOn_const.add (continuousOn_const.mul
      (Real.continuous_exp.comp_continuousOn (continuousOn_const.div continuousOn_id h0)))
  · exact continuousOn_const.add (continuousOn_const.div continuousOn_id h0)

include hca hT in
theorem level_continuousOn : ContinuousOn (fun x => rf 1.45 5.1 (xi x T ca) * gf * x) (Set.Ioi 0) := by
  have hpi := Real.pi_pos
  refine ((ContinuousOn.comp (rf_continuousOn (c0 := 1.45) (c1 := 5.1) (by norm_num) (by norm_num)) ?_
    (fun x hx => xi_pos hx hT hca)).mul continuousOn_const).mul continuousOn_id
  unfold xi
  refine ContinuousOn.div continuousOn_const ?_ ?_
  · exact Real.continuous_sqrt.comp_continuousOn (by fun_prop)
  · intro x hx
    have hx : 0 < x := hx
    exact (Real.sqrt_pos.mpr (by positivity)).ne'

include hca hT hgf in
theorem level_strictMono {x y : ℝ} (hx : 0 < x) (hxy : x < y) :
    rf 1.45 5.1 (xi x T ca) * gf * x < rf 1.45 5.1 (xi y T ca) * gf * y := by
  have hy := hx.trans hxy
  have h := rfxi_sqrt hT hca (c0 := 1.45) (c1 := 5.1) (by norm_num) (by norm_num) hx hxy.le
  have p := rfxi_pos hT hca (c0 := 1.45) (c1 := 5.1) (by norm_num) (by norm_num) hy
  have s1 := Real.sqrt_pos.mpr hx
  have s2 := Real.sqrt_lt_sqrt hx.le hxy
  have e1 := Real.mul_self_sqrt hx.le
  have e2 := Real.mul_self_sqrt hy.le
  calc rf 1.45 5.1 (xi x T ca) * gf * x = rf 1.45 5.1 (xi x T ca) * gf * (√x * √x) := by rw [e1]
    _ = rf 1.45 5.1 (xi x T ca) * √x * gf * √x := by ring
    _ ≤ rf 1.45 5.1 (xi y T ca) * √y * gf * √x := by gcongr
    _ < rf 1.45 5.1 (xi y T ca) * √y * gf * √y := by gcongr
    _ = rf 1.45 5.1 (xi y T ca) * gf * (√y * √y) := by ring
    _ = rf 1.45 5.1 (xi y T ca) * gf * y := by rw [e2]

include hca hT hgf in
/-- the run-up level grows without bound -/
theorem level_unbounded (z : ℝ) : ∃ y : ℝ, 1 ≤ y ∧ z ≤ rf 1.45 5.1 (xi y T ca) * gf * y := by
  have p := rfxi_pos hT hca (c0 := 1.45) (c1 := 5.1) (by norm_num) (by norm_num) one_pos
  set q := rf 1.45 5.1 (xi 1 T ca) * gf with hq
  have hq0 : 0 < q := by positivity
  refine ⟨max 1 (z / q) ^ 2, ?_, ?_⟩
  · exact one_le_pow₀ (le_max_left _ _)
  · have h1 : (1 : ℝ) ≤ max 1 (z / q) := le_max_left _ _
    have h2 : z / q ≤ max 1 (z / q) := le_max_right _ _
    generalize max 1 (z / q) = w at *
    have hw : 0 < w := by linarith
    have h := rfxi_sqrt hT hca (c0 := 1.45) (c1 := 5.1) (by norm_num) (by norm_num) one_pos (one_le_pow₀ h1 : 1 ≤ w ^ 2)
    rw [Real.sqrt_one, mul_one, Real.sqrt_sq hw.le] at h
    rw [div_le_iff₀ hq0] at h2
    have e : rf 1.45 5.1 (xi (w ^ 2) T ca) * gf * w ^ 2 = (rf 1.45 5.1 (xi (w ^ 2) T ca) * w) * gf * w := by ring
    rw [e]
    calc z ≤ w * q := h2
      _ = rf 1.45 5.1 (xi 1 T ca) * gf * w := by rw [hq]; ring
      _ ≤ _ := by gcongr

include hcs hca hT hd hcp hn hD hS hRc hRr hB hgf hgc in
theorem F04_one_fixed : ∃ p : ℝ, 0 < p ∧ ∀ x : ℝ, 0 < x →
    (F04 cs ca T d cp n D S Rc Rr B gf gc x = x ↔ x = p) := by
  have e : ∀ x : ℝ, 0 < x → (F04 cs ca T d cp n D S Rc Rr B gf gc x = x ↔
      rf 1.45 5.1 (xi x T ca) * gf * x - W04 cs T d cp n D S Rr B gf gc x = Rc) := by
    intro x hx
    have hp := rfxi_pos hT hca (c0 := 1.45) (c1 := 5.1) (by norm_num) (by norm_num) hx
    unfold F04
    rw [div_eq_iff (mul_pos hp hgf).ne', mul_comm x, sub_eq_iff_eq_add, eq_comm, add_comm Rc]
  have hmono : ∀ x y : ℝ, 0 < x → x < y →
      rf 1.45 5.1 (xi x T ca) * gf * x - W04 cs T d cp n D S Rr B gf gc x <
      rf 1.45 5.1 (xi y T ca) * gf * y - W04 cs T d cp n D S Rr B gf gc y := by
    intro x y hx hxy
    have h1 := level_strictMono hca hT hgf hx hxy
    have h2 := W04_anti hcs hT hd hcp hn hD hS hRr hB hgf hgc hx hxy.le
    linarith
  -- start: where the level is at most the crest; end: where it is far above
  have hm : 0 < Rc / (5.1 * gf) := by positivity
  obtain ⟨y, hy1, hy⟩ := level_unbounded hca hT hgf
    (Rc + W04 cs T d cp n D S Rr B gf gc (Min.min 1 (Rc / (5.1 * gf))))
  set m := Min.min 1 (Rc / (5.1 * gf)) with hmdef
  have hm0 : 0 < m := lt_min one_pos hm
  have hmy : m ≤ y := (min_le_left _ _).trans hy1
  have hlow : rf 1.45 5.1 (xi m T ca) * gf * m - W04 cs T d cp n D S Rr B gf gc m ≤ Rc := by
    have h1 := W04_pos (Rr := Rr) hcs hT hd hcp hn hD hS hgf hgc hB hm0
    have h3 := rf_le (c0 := 1.45) (c1 := 5.1) (by norm_num) (by norm_num) (xi_pos hm0 hT hca)
    have h4 : m * (5.1 * gf) ≤ Rc := (le_div_iff₀ (by positivity)).mp (min_le_right _ _)
    have : rf 1.45 5.1 (xi m T ca) * gf * m ≤ 5.1 * gf * m := by gcongr
    linarith
  have hhigh : Rc ≤ rf 1.45 5.1 (xi y T ca) * gf * y - W04 cs T d cp n D S Rr B gf gc y := by
    have := W04_anti hcs hT hd hcp hn hD hS hRr hB hgf hgc hm0 hmy
    linarith
  have hcont : ContinuousOn (fun x => rf 1.45 5.1 (xi x T ca) * gf * x - W04 cs T d cp n D S Rr B gf gc x)
      (Set.Icc m y) :=
    ((level_continuousOn hca hT).sub (W04_continuousOn hcs hT hd hcp hn hD hS hB hgf hgc)).mono
      fun x hx => lt_of_lt_of_le hm0 hx.1
  obtain ⟨p, hp, hpe⟩ := intermediate_value_Icc hmy hcont ⟨hlow, hhigh⟩
  have hp0 : 0 < p := lt_of_lt_of_le hm0 hp.1
  refine ⟨p, hp0, fun x hx => ?_⟩
  rw [e x hx]
  constructor
  · intro h
    rcases lt_trichotomy x p with h1 | h1 | h1
    · exact absurd (hmono x p hx h1) (by simp only at hpe; rw [h, hpe]; exact lt_irrefl _)
    · exact h1
    · exact absurd (hmono p x hp0 h1) (by simp only at hpe; rw [h, hpe]; exact lt_irrefl _)
  · rintro rfl
    exact hpe

end
end RearProof

section
open VanGentPozueta2004 RearProof
variable (ca cp gf gc T Rc Rr B N D S rr rw cs : ℝ) (M : PF) (hca : 0 < ca) (hcp : 0 < cp)
  (hgf : 0 < gf) (hgc : 0 < gc) (hT : 0 < T) (hRc : 0 < Rc) (hRr : 0 ≤ Rr) (hB : 0 ≤ B) (hN : 0 < N)
  (hw : 0 < rw) (hr : rw < rr) (hcs : 0 < cs) (hD : 0 < D) (hS : 0 < S)
include hca hcp hgf hgc hT hRc hRr hB hN hw hr hcs hD hS

/-- C66, for every crest width: there is exactly one wave height whose run-up passes the crest and whose
damage is the requested one. -/
theorem C66_one_solution : ∃ p : ℝ, 0 < p ∧
    ∀ H : ℝ, 0 < H → ((∃ z : ℝ, Rc < z ∧
      VanGent2001.calculate_wave_runup_height_z1p (fin H) (fin T) (fin gf) (fin ca) = fin z ∧
      (calculate_damage_number_S (fin ca) (fin cp) (fin gf) (fin gc) (fin H) (fin T) (fin Rc)
      (fin Rr) (fin B) (fin N) (fin D) M (fin rr) (fin rw) (fin cs)).res = .ok (fin S)) ↔ H = p) := by
  obtain ⟨p, hp, h⟩ := F04_one_fixed hcs hca hT (Real.sqrt_pos.mpr (div_pos (sub_pos.mpr hr) hw)) hcp
    (Real.sqrt_pos.mpr hN) hD hS hRc hRr hB hgf hgc
  refine ⟨p, hp, fun H hH => ?_⟩
  rw [← fixed04_iff hca hcp hgf hgc hT hB hN hw hr hcs hD hS M hRc hH]
  exact h H hH
end

example := C66_one_solution 2 2 0.5 0.6 8 3 3 40 2000 0.5 5 2650 1025 1e-12 nan (by norm_num)
    (by norm_num) (by norm_num) (by norm_num) (by norm_num) (by norm_num) (by norm_num)
    (by norm_num) (by norm_num) (by norm_num) (by norm_num) (by norm_num) (by norm_num)
    (by norm_num)

/-! ## Where the iteration does not settle -/

namespace RearProof
open VanGentPozueta2004 RunupProof VdMProof

/-- the roughness of the example, which with a crest level of 25 mm makes the start value 0.5 m -/
def wideGf : ℝ := 0.525 / 1.276
/-- the front slope of the example, which makes the Iribarren number of the start value 1.34 -/
def wideCa : ℝ := xi 0.5 2 1 / (0.4 / (1.45 * wideGf * 0.5))
/-- the stone size of the example, for which the run-up above the crest is 0.175 m at a wave height of 2 m -/
def wideD : ℝ := √((7 / 360) / (W04 1e-12 2 √((2650 - 1025) / 1025) 2 √1000 1 5 0 40 wideGf 0.6 0.5 / 81))

theorem W04_size (cs T d cp n D S Rr B gf gc x : ℝ) :
    W04 cs T d cp n D S Rr B gf gc x = D ^ 2 * W04 cs T d cp n 1 S Rr B gf gc x := by
  unfold W04 u04
  generalize (1.0 / cs * (S / n) * cp ^ (2.5 : ℝ) * (1.0 / (1 + 10 * Real.exp (-Rr / x)))) ^ (1.0 / 6.0 : ℝ) = A
  generalize √(9.81 * x) = s
  generalize 1 / (1.7 * √gc) = c
  generalize 0.1 * B / x = b
  rw [mul_one]
  ring

theorem wideGf_pos : 0 < wideGf := div_pos (by norm_num) (by norm_num)

theorem wideCa_pos : 0 < wideCa := by
  have := xi_pos (H := 0.5) (T := 2) (c := 1) (by norm_num) (by norm_num) (by norm_num)
  have := wideGf_pos
  unfold wideCa; positivity

theorem wideW (x : ℝ) (hx : 0 < x) : 0 < wideD ∧
    W04 1e-12 2 √((2650 - 1025) / 1025) 2 √1000 wideD 5 0 40 wideGf 0.6 x = 7 / 360 * (1 + 4 / x) ^ 2 := by
  have hg := wideGf_pos
  obtain ⟨K, hK, e⟩ := W04_eq (cs := 1e-12) (T := 2) (d := √((2650 - 1025) / 1025)) (cp := 2) (n := √1000)
    (D := 1) (S := 5) (Rr := 0) (B := 40) (gf := wideGf) (gc := 0.6) (by norm_num) (by norm_num)
    (Real.sqrt_pos.mpr (by norm_num)) (by norm_num) (Real.sqrt_pos.mpr (by norm_num)) (by norm_num)
    (by norm_num) hg (by norm_num) (by norm_num)
  have e' : ∀ x : ℝ, 0 < x → W04 1e-12 2 √((2650 - 1025) / 1025) 2 √1000 1 5 0 40 wideGf 0.6 x =
      K * ((11 : ℝ) ^ (-(1 / 6) : ℝ)) ^ 2 * (1 + 4 / x) ^ 2 := by
    intro x hx
    rw [e x hx, neg_zero, zero_div, Real.exp_zero, show (0.1 * 40 : ℝ) = 4 by norm_num,
      show (1 + 10 * 1 : ℝ) = 11 by norm_num]
    ring
  have hX : 0 < K * ((11 : ℝ) ^ (-(1 / 6) : ℝ)) ^ 2 := by positivity
  generalize K * ((11 : ℝ) ^ (-(1 / 6) : ℝ)) ^ 2 = Q at *
  have hD : wideD = √((7 / 360) / Q) := by
    unfold wideD
    rw [e' 0.5 (by norm_num)]
    congr 1
    norm_num
  refine ⟨by rw [hD]; positivity, ?_⟩
  rw [W04_size, e' x hx, hD, Real.sq_sqrt (by positivity)]
  field_simp

theorem wide_xi (x : ℝ) : xi x 2 wideCa = xi x 2 1 / wideCa := by
  unfold xi
  rw [div_one, div_right_comm]

theorem wide_step : F04 1e-12 wideCa 2 √((2650 - 1025) / 1025) 2 √1000 wideD 5 0.025 0 40 wideGf 0.6 0.5 = 2 ∧
    F04 1e-12 wideCa 2 √((2650 - 1025) / 1025) 2 √1000 wideD 5 0.025 0 40 wideGf 0.6 2 = 0.5 := by
  have hg := wideGf_pos
  have hca := wideCa_pos
  have h05 : xi 0.5 2 wideCa = 0.4 / (1.45 * wideGf * 0.5) := by
    have := xi_pos (H := 0.5) (T := 2) (c := 1) (by norm_num) (by norm_num) (by norm_num)
    rw [wide_xi]
    unfold wideCa
    have : 0 < 0.4 / (1.45 * wideGf * 0.5) := by positivity
    generalize 0.4 / (1.45 * wideGf * 0.5) = q at *
    field_simp
  have h2 : xi 2 2 wideCa = 0.2 / (1.45 * wideGf * 0.5) := by
    have a := xi_sqrt (T := 2) (c := wideCa) (H := 0.5) (by norm_num)
    have b := xi_sqrt (T := 2) (c := wideCa) (H := 2) (by norm_num)
    have c : √(2 : ℝ) = 2 * √0.5 := by
      rw [show (2 : ℝ) = 2 ^ 2 * 0.5 by norm_num, Real.sqrt_mul (by norm_num), Real.sqrt_sq (by norm_num)]
      norm_num
    have s : 0 < √(0.5 : ℝ) := Real.sqrt_pos.mpr (by norm_num)
    rw [← a, c, h05] at b
    have : xi 2 2 wideCa * 2 = 0.4 / (1.45 * wideGf * 0.5) := by
      apply mul_right_cancel₀ s.ne'
      linarith
    have e : (0.2 : ℝ) / (1.45 * wideGf * 0.5) = 0.4 / (1.45 * wideGf * 0.5) / 2 := by ring
    rw [e, ← this]
    ring
  have r05 : rf 1.45 5.1 (xi 0.5 2 wideCa) * wideGf = 0.8 := by
    rw [h05]
    unfold rf
    rw [if_pos (by unfold wideGf; norm_num)]
    unfold wideGf
    norm_num
  have r2 : rf 1.45 5.1 (xi 2 2 wideCa) * wideGf = 0.4 := by
    rw [h2]
    unfold rf
    rw [if_pos (by unfold wideGf; norm_num)]
    unfold wideGf
    norm_num
  constructor
  · unfold F04
    rw [(wideW 0.5 (by norm_num)).2, r05]
    norm_num
  · unfold F04
    rw [(wideW 2 (by norm_num)).2, r2]
    norm_num

end RearProof

open RearProof in
/-- C66 fails for wide crests: on a crest of 40 m the iteration goes back and forth between 0.5 m and 2 m, so
that for every limit of iterations the convergence warning is given, with every tolerance below 1.5 m. -/
theorem C66_wide_crest_refuted : ∃ ca gf D : ℝ, 0 < ca ∧ 0 < gf ∧ 0 < D ∧ ∀ (n : ℕ) (t : ℝ), 1 ≤ n → t < 1.5 →
    (.text "Maximum number of iterations reached, convergence not achieved" ∈
      (VanGentPozueta2004.calculate_maximum_significant_wave_height_Hs (fin ca) (fin 2) (fin gf) (fin 0.6)
        (fin 5) (fin 2) (fin 0.025) (fin 0) (fin 40) (fin 1000) (fin D) nan (fin 2650) (fin 1025)
        (fin 1e-12) (fin t) n).warns) ∧
    (VanGentPozueta2004.calculate_maximum_significant_wave_height_Hs (fin ca) (fin 2) (fin gf) (fin 0.6)
        (fin 5) (fin 2) (fin 0.025) (fin 0) (fin 40) (fin 1000) (fin D) nan (fin 2650) (fin 1025)
        (fin 1e-12) (fin t) n).res = .ok (fin (if n % 2 = 0 then 0.5 else 2)) := by
  have hg := wideGf_pos
  have hca := wideCa_pos
  have hD := (wideW 1 one_pos).1
  refine ⟨wideCa, wideGf, wideD, hca, hg, hD, fun n t hn ht => ?_⟩
  obtain ⟨k, hk, h1, h2, h3, -⟩ := height04_eval (ca := wideCa) (cp := 2) (gf := wideGf) (gc := 0.6) (T := 2)
    (Rc := 0.025) (Rr := 0) (B := 40) (N := 1000) (D := wideD) (S := 5) (rr := 2650) (rw := 1025) (cs := 1e-12)
    (n := n) (t := t) (x0 := 0.5) hca (by norm_num) hg (by norm_num) (by norm_num) (by norm_num) (by norm_num)
    (by norm_num) (by norm_num) (by norm_num) hD (by norm_num) nan (by norm_num)
    (by unfold wideGf; norm_num) hn
  obtain ⟨s1, s2⟩ := wide_step
  have it : ∀ j, (F04 1e-12 wideCa 2 √((2650 - 1025) / 1025) 2 √1000 wideD 5 0.025 0 40 wideGf 0.6)^[j] 0.5 =
      if j % 2 = 0 then 0.5 else 2 := by
    intro j
    induction j with
    | zero => rfl
    | succ j ih =>
      rw [Function.iterate_succ_apply', ih]
      rcases Nat.mod_two_eq_zero_or_one j with h | h
      · rw [if_pos h, if_neg (by omega), s1]
      · rw [if_neg (by omega), if_pos (by omega), s2]
  have hkn : k + 1 = n := by
    refine h3.resolve_right fun h => ?_
    rw [it, it] at h
    rcases Nat.mod_two_eq_zero_or_one k with h' | h'
    · rw [if_pos h', if_neg (by omega)] at h
      rw [abs_of_nonneg (by norm_num)] at h
      linarith
    · rw [if_pos (by omega), if_neg (by omega)] at h
      rw [abs_of_nonpos (by norm_num)] at h
      linarith
  refine ⟨h2.mpr hkn, ?_⟩
  rw [h1, it, hkn]

end
