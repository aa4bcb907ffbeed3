import Verif.Props.Takahashi

/-! # C96: the depth above the toe found by the search of Takahashi et al. (1990) -/

open Classical
open PF Takahashi1990 CorePhysics
noncomputable section

namespace TakahashiProof

/-- the designed size is a number below the given size exactly when the stability number passes Hs/(Delta Dn50) -/
theorem size_lt_iff (disper : PF → PF → PF → PF) (T x Bt beta g : PF) {H D ra rw : ℝ} (hD : 0 < D)
    (hw : 0 < rw) (hr : rw < ra) {Ns : PF}
    (hN : (calculate_stability_number_Ns disper (fin H) T x Bt beta g).res = .ok Ns) :
    fin H / (calculate_buoyant_density_Delta (fin ra) (fin rw) * fin D) < Ns ↔
      ∃ y, (calculate_nominal_diameter_Dn50 disper (fin H) T x Bt (fin ra) (fin rw) beta g).res = .ok (fin y) ∧
        y < D := by
  obtain ⟨De, hDe, hDD, e⟩ := Delta_eval hw hr
  have e1 : fin H / (fin De * fin D) = fin (H / (De * D)) := by pf_eval []
  unfold calculate_nominal_diameter_Dn50
  rw [PyM.bind_res_of_ok hN, e, e1]
  simp only [stab_Dn, PyM.bind_ok, PyM.pure_def]
  rw [Ns_res, Except.ok.injEq] at hN
  subst hN
  rcases ns_cases disper (fin H) T x Bt beta g with h1 | h1 | ⟨v, hv, h1⟩ <;> rw [h1]
  · refine ⟨fun h => absurd h (by rintro h; exact h), ?_⟩
    rintro ⟨y, hy, -⟩
    rw [Except.ok.injEq, div_nan, nan_div] at hy
    cases hy
  · refine ⟨fun _ => ⟨0, ?_, hD⟩, fun _ => fin_lt_pinf _⟩
    have : fin H / pinf = fin 0 := rfl
    rw [this, div_fin hDe.ne', zero_div]
  · have hv0 : (0 : ℝ) < 1.8 := by norm_num
    have hvp : 0 < v := hv0.trans_le hv
    rw [div_fin hvp.ne', div_fin hDe.ne', lt_fin]
    have k : H / (De * D) < v ↔ H / v / De < D := by
      rw [div_div, div_lt_iff₀ (by positivity), div_lt_iff₀ (by positivity)]
      constructor <;> intro h <;> linarith [mul_comm D (v * De), mul_assoc v De D, mul_comm (v * De) D]
    rw [k]
    constructor
    · intro h; exact ⟨_, rfl, h⟩
    · rintro ⟨y, hy, h⟩
      rw [Except.ok.injEq, fin_inj] at hy
      rw [hy]; exact h

end TakahashiProof
open TakahashiProof

section
variable (disper : PF → PF → PF → PF) (T Bt beta g : PF) {H D ra rw : ℝ}

/-- C96: when the given stones are too small (or their size is undefined) with Hs/20 of water above the toe, the depth
returned is the limit up to one step of the search: at that depth a smaller size than the given one is designed, so the
given stones are stable; at every depth of the search before it the designed size is undefined or at least the given
one.  The step is 1 mm, or Hs/20 when that is smaller.
Missing: depths between those tried. -/
theorem C96_takahashi_depth_partial (hH : 0 < H) (hD : 0 < D) (hw : 0 < rw) (hr : rw < ra) (r : PyM PF) (hacc : PF)
    (h : calculate_significant_depth_above_toe_hacc disper (fin D) T (fin H) Bt (fin ra) (fin rw) beta g = some r)
    (hres : r.res = .ok hacc)
    (h0 : ∀ y, (calculate_nominal_diameter_Dn50 disper (fin H) T (fin (H / 20)) Bt (fin ra) (fin rw) beta g).res
      = .ok (fin y) → D ≤ y) :
    ∃ d δ x : ℝ, hacc = fin d ∧ H / 20 < d ∧ δ = Min.min (0.001 : ℝ) (H / 20) ∧
      (calculate_nominal_diameter_Dn50 disper (fin H) T hacc Bt (fin ra) (fin rw) beta g).res = .ok (fin x) ∧ x < D ∧
      ∀ y, (calculate_nominal_diameter_Dn50 disper (fin H) T (fin (d - δ)) Bt (fin ra) (fin rw) beta g).res
        = .ok (fin y) → D ≤ y := by
  obtain ⟨below, hb, n, h1, h2, h3, h4⟩ := C62_first_crossing disper (fin D) T Bt (fin ra) (fin rw) beta g H r hacc h
    hres
  have hk : ∀ x, below x ↔ ∃ y, (calculate_nominal_diameter_Dn50 disper (fin H) T (fin x) Bt (fin ra) (fin rw) beta
      g).res = .ok (fin y) ∧ y < D := by
    intro x
    obtain ⟨Ns, k1, k2⟩ := hb x
    rw [k2]
    exact size_lt_iff disper T (fin x) Bt beta g hD hw hr k1
  have hs : ¬ below (H / 20) := by
    rw [hk]
    rintro ⟨y, hy, hlt⟩
    exact absurd (h0 y hy) (not_le.mpr hlt)
  have pos : ∀ x, ¬ (below (H / 20) ↔ below x) → ∃ y, (calculate_nominal_diameter_Dn50 disper (fin H) T (fin x) Bt
      (fin ra) (fin rw) beta g).res = .ok (fin y) ∧ y < D := by
    intro x hx
    rw [← hk]
    by_contra hn
    exact hx ⟨fun a => absurd a hs, fun a => absurd a hn⟩
  have neg : ∀ x, (below (H / 20) ↔ below x) → ∀ y, (calculate_nominal_diameter_Dn50 disper (fin H) T (fin x) Bt
      (fin ra) (fin rw) beta g).res = .ok (fin y) → D ≤ y := by
    intro x hx y hy
    by_contra hn
    exact hs (hx.mpr ((hk x).mpr ⟨y, hy, not_le.mp hn⟩))
  have hn0 : (0 : ℝ) ≤ n := n.cast_nonneg
  rcases le_or_gt (H / 20) (0.001 : ℝ) with hc | hc
  · rw [h3 hc]
    obtain ⟨y, hy, hlt⟩ := pos _ h2
    refine ⟨_, _, y, rfl, by nlinarith, rfl, hy, hlt, ?_⟩
    rw [min_eq_right hc]
    have e : ((n : ℝ) + 2) * (H / 20) - H / 20 = (n + 1) * (H / 20) := by ring
    rw [e]
    exact neg _ (h1 n le_rfl)
  · obtain ⟨m, g1, g2, g3⟩ := h4 hc
    have hm0 : (0 : ℝ) ≤ m := m.cast_nonneg
    rw [g1]
    obtain ⟨y, hy, hlt⟩ := pos _ g3
    have hlt2 : H / 20 < ((n : ℝ) + 1) * (H / 20) + (m + 1) * 0.001 := by
      have : (0 : ℝ) < (m + 1) * 0.001 := by positivity
      nlinarith
    refine ⟨_, _, y, rfl, hlt2, rfl, hy, hlt, ?_⟩
    rw [min_eq_left hc.le]
    have e : ((n : ℝ) + 1) * (H / 20) + (m + 1) * 0.001 - 0.001 = (n + 1) * (H / 20) + m * 0.001 := by ring
    rw [e]
    exact neg _ (g2 m le_rfl)

/-- C96 refuted: when the given stones are stable with Hs/20 of water above the toe, no depth returned is one where
they are: at it the designed size is undefined or at least the given one -/
theorem C96_takahashi_depth_unsafe (hD : 0 < D) (hw : 0 < rw) (hr : rw < ra) (r : PyM PF) (hacc : PF)
    (h : calculate_significant_depth_above_toe_hacc disper (fin D) T (fin H) Bt (fin ra) (fin rw) beta g = some r)
    (hres : r.res = .ok hacc) (y : ℝ) (hy : y < D)
    (h0 : (calculate_nominal_diameter_Dn50 disper (fin H) T (fin (H / 20)) Bt (fin ra) (fin rw) beta g).res
      = .ok (fin y)) :
    ∀ x, (calculate_nominal_diameter_Dn50 disper (fin H) T hacc Bt (fin ra) (fin rw) beta g).res = .ok (fin x) →
      D ≤ x := by
  obtain ⟨below, hb, n, -, h2, h3, h4⟩ := C62_first_crossing disper (fin D) T Bt (fin ra) (fin rw) beta g H r hacc h
    hres
  have hk : ∀ x, below x ↔ ∃ y, (calculate_nominal_diameter_Dn50 disper (fin H) T (fin x) Bt (fin ra) (fin rw) beta
      g).res = .ok (fin y) ∧ y < D := by
    intro x
    obtain ⟨Ns, k1, k2⟩ := hb x
    rw [k2]
    exact size_lt_iff disper T (fin x) Bt beta g hD hw hr k1
  have hs : below (H / 20) := (hk _).mpr ⟨y, h0, hy⟩
  obtain ⟨d, hd, hnd⟩ : ∃ d : ℝ, hacc = fin d ∧ ¬ below d := by
    rcases le_or_gt (H / 20) (0.001 : ℝ) with hc | hc
    · exact ⟨_, h3 hc, fun a => h2 ⟨fun _ => a, fun _ => hs⟩⟩
    · obtain ⟨m, g1, -, g3⟩ := h4 hc
      exact ⟨_, g1, fun a => g3 ⟨fun _ => a, fun _ => hs⟩⟩
  intro x hx
  by_contra hn
  rw [hd] at hx
  exact hnd ((hk d).mpr ⟨x, hx, not_le.mp hn⟩)

end

/-! ## Cases meeting the hypotheses -/

namespace TakahashiProof

/-- a toe of a width of half a wave length: the stability number is unbounded -/
theorem ns_half (disper : PF → PF → PF → PF) (T g : PF) {h H : ℝ} (hh : 0 < h) (hH : 0 < H)
    (hdis : disper (2 * PF.pi / T) (fin h) g = fin 6) :
    ns_value disper (fin H) T (fin h) (fin (Real.pi / 6)) (fin 0) g = pinf := by
  have hpi := Real.pi_pos
  have h1 : 0 < 2 * 6 * h := by positivity
  have h2 : 0 < Real.sinh (2 * 6 * h) := Real.sinh_pos_iff.mpr h1
  have hL : 2 * PF.pi / calculate_local_wavelength disper T (fin h) g = fin 6 := by
    unfold calculate_local_wavelength
    simp only [hdis]
    pf_eval []
    field_simp
  have hb : PF.deg2rad (fin 0) = fin 0 := by rw [deg2rad_fin, zero_mul]
  have hkap : 2 * fin 6 * fin h / PF.sinh (2 * fin 6 * fin h) *
      PF.max (0.45 * npow (PF.sin (fin 0)) 2 * npow (PF.cos (fin 6 * fin (Real.pi / 6) * PF.cos (fin 0))) 2)
        (npow (PF.cos (fin 0)) 2 * npow (PF.sin (fin 6 * fin (Real.pi / 6) * PF.cos (fin 0))) 2)
      = fin 0 := by
    pf_eval [max_fin]
    rw [Real.sin_zero, Real.cos_zero, mul_one, show 6 * (Real.pi / 6) = Real.pi by ring, Real.sin_pi]
    simp
  unfold ns_value
  simp only [hL, hb, hkap]
  have e0 : npow (fin 0) (1 / 3) = fin 0 := by
    have : (1 / 3 : PF) = fin (1 / 3) := by pf_eval []
    rw [this]
    show powFin 0 (1 / 3) = _
    unfold powFin
    norm_num
  have e1 : (1 : PF) - fin 0 = fin 1 := by pf_eval []; norm_num
  have e2 : npow (fin 1) 2 = fin 1 := by pf_eval []; norm_num
  have e3 : fin 1 / fin 0 = pinf := by
    show PF.div _ _ = _
    simp [PF.div, mulInf]
  have e4 : fin h / fin H = fin (h / H) := by pf_eval []
  have e5 : (1.3 : PF) * pinf * fin h / fin H = pinf := by
    have a : (1.3 : PF) * pinf = pinf := by
      show mulInf _ = _
      unfold mulInf
      rw [if_pos (by norm_num)]
    have b : pinf * fin h = pinf := by
      show mulInf _ = _
      unfold mulInf
      rw [if_pos hh]
    rw [a, b]
    show PF.div _ _ = _
    simp [PF.div, hH.le]
  have e6 : (-1.5 : PF) * pinf * fin (h / H) = ninf := by
    have a : (-1.5 : PF) * pinf = ninf := by
      show mulInf _ = _
      unfold mulInf
      rw [if_neg (by norm_num), if_pos (by norm_num)]
    rw [a]
    show PF.neg (mulInf _) = _
    unfold mulInf
    rw [if_pos (by positivity)]
    rfl
  rw [e0, e1, e2, e3, e4, e5, e6]
  have e7 : (1.8 : PF) * PF.exp ninf = fin 0 := by
    show fin (_ * 0) = _
    rw [mul_zero]
  rw [e7]
  show PF.max _ pinf = _
  simp [PF.max, show ¬ (pinf ≤ fin 1.8) from id, PF.isnan, show (1.8 : PF) = fin 1.8 from rfl]

/-- a toe of a width of a twelfth of the wave length -/
theorem ns_twelfth (disper : PF → PF → PF → PF) (T g : PF) {h : ℝ} (hh : 0 < h) (h5 : h ≤ 1 / 5)
    (hdis : disper (2 * PF.pi / T) (fin h) g = fin 1) :
    ∃ v, ns_value disper (fin 2) T (fin h) (fin (Real.pi / 6)) (fin 0) g = fin v ∧ v ≤ 20 := by
  have hs : 0 < Real.sin (1 * (Real.pi / 6)) ^ 2 := by rw [one_mul, Real.sin_pi_div_six]; norm_num
  refine ⟨_, ns_eval T g hdis one_pos hh (by norm_num) hs, ?_⟩
  have hb := kap_bounds (k := 1) (h := h) (B := Real.pi / 6) one_pos hh hs
  have hK : 1 / 10 ≤ kap 1 h (Real.pi / 6) := by
    unfold kap
    rw [one_mul, Real.sin_pi_div_six]
    have e : (2 * 1 * h : ℝ) = 2 * h := by ring
    rw [e]
    have h1 : 0 < Real.sinh (2 * h) := Real.sinh_pos_iff.mpr (by positivity)
    have h3 := Real.add_one_le_exp (-(2 * h) : ℝ)
    have h4 := Real.exp_pos (2 * h)
    have h6 : (1 - 2 * h) * Real.exp (2 * h) ≤ 1 := by
      rw [Real.exp_neg] at h3
      have := mul_le_mul_of_nonneg_right h3 h4.le
      rw [inv_mul_cancel₀ h4.ne'] at this
      linarith
    have h7 : (3 / 5 : ℝ) * Real.sinh (2 * h) ≤ 2 * h := by
      have e8 : Real.sinh (2 * h) = (Real.exp (2 * h) - Real.exp (-(2 * h))) / 2 := Real.sinh_eq _
      have h9 : Real.exp (2 * h) ≤ 1 + 2 * h / (1 - 2 * h) := by
        rw [← sub_le_iff_le_add', le_div_iff₀ (by linarith)]
        nlinarith
      have h10 : 2 * h / (1 - 2 * h) ≤ 2 * h * (5 / 3) := by
        rw [div_le_iff₀ (by linarith)]; nlinarith
      rw [e8]
      nlinarith
    have h5 : (3 : ℝ) / 5 ≤ 2 * h / Real.sinh (2 * h) := by rw [le_div_iff₀ h1]; linarith
    nlinarith
  rw [one_mul, Real.sin_pi_div_six] at hb
  obtain ⟨hb1, hb2⟩ := hb
  generalize kap 1 h (Real.pi / 6) = K at *
  have hK1 : K ≤ 1 := by linarith
  have hc : K ≤ K ^ (1 / 3 : ℝ) := by
    conv_lhs => rw [← Real.rpow_one K]
    exact Real.rpow_le_rpow_of_exponent_ge hb1 hK1 (by norm_num)
  have hc0 : 0 < K ^ (1 / 3 : ℝ) := by positivity
  have hq : (1 - K) / K ^ (1 / 3 : ℝ) ≤ 10 := by rw [div_le_iff₀ hc0]; linarith
  have hq0 : 0 ≤ (1 - K) ^ 2 / K ^ (1 / 3 : ℝ) := by positivity
  have hq1 : 0 ≤ (1 - K) / K ^ (1 / 3 : ℝ) := div_nonneg (by linarith) hc0.le
  have hx : Real.exp (-1.5 * ((1 - K) ^ 2 / K ^ (1 / 3 : ℝ)) * (h / 2)) ≤ 1 := by
    rw [Real.exp_le_one_iff]
    have : 0 ≤ (1 - K) ^ 2 / K ^ (1 / 3 : ℝ) * (h / 2) := by positivity
    linarith
  refine sup_le (by norm_num) ?_
  generalize Real.exp (-1.5 * ((1 - K) ^ 2 / K ^ (1 / 3 : ℝ)) * (h / 2)) = E at *
  generalize (1 - K) / K ^ (1 / 3 : ℝ) = q at *
  have : q * h ≤ 10 * (1 / 5) := by gcongr
  rw [mul_assoc, mul_div_assoc]
  linarith

end TakahashiProof

/-- C96 refuted: waves that are 1.05 m long at a depth Hs/20 above the toe and 6.3 m at all other depths.  Rock of
1 cm is stable at Hs/20; the depth returned is one where at least 1 cm is needed. -/
theorem C96_takahashi_depth_refuted : ∃ (disper : PF → PF → PF → PF) (r : PyM PF) (d y : ℝ),
    calculate_significant_depth_above_toe_hacc disper (fin 0.01) (fin 8) (fin 2) (fin (Real.pi / 6)) (fin 2650)
      (fin 1025) (fin 0) (fin 9.81) = some r ∧ r.res = .ok (fin d) ∧
    (calculate_nominal_diameter_Dn50 disper (fin 2) (fin 8) (fin (2 / 20)) (fin (Real.pi / 6)) (fin 2650) (fin 1025)
      (fin 0) (fin 9.81)).res = .ok (fin y) ∧ y < 0.01 ∧
    ∃ x, (calculate_nominal_diameter_Dn50 disper (fin 2) (fin 8) (fin d) (fin (Real.pi / 6)) (fin 2650) (fin 1025)
      (fin 0) (fin 9.81)).res = .ok (fin x) ∧ 0.01 ≤ x := by
  obtain ⟨disper, d1, d2⟩ : ∃ disper : PF → PF → PF → PF, (∀ w g, disper w (fin (2 / 20)) g = fin 6) ∧
      ∀ w g (h : ℝ), h ≠ 2 / 20 → disper w (fin h) g = fin 1 :=
    ⟨fun _ h _ => if h = fin (2 / 20) then fin 6 else fin 1, fun w g => by simp,
      fun w g h hh => by simp only [fin_inj, hh, if_false]⟩
  have n1 := ns_half disper (fin 8) (fin 9.81) (h := 2 / 20) (H := 2) (by norm_num) (by norm_num) (d1 _ _)
  obtain ⟨v, n2, hv⟩ := ns_twelfth disper (fin 8) (fin 9.81) (h := 4 / 20) (by norm_num) (by norm_num)
    (d2 _ _ _ (by norm_num))
  obtain ⟨u, n3, hu⟩ := ns_twelfth disper (fin 8) (fin 9.81) (h := 0.101) (by norm_num) (by norm_num)
    (d2 _ _ _ (by norm_num))
  have e2 : fin 2 / 20 = fin (2 / 20) := by pf_eval []
  have e3 : fin 2 / (calculate_buoyant_density_Delta (fin 2650) (fin 1025) * fin 0.01) = fin (8200 / 65) := by
    unfold calculate_buoyant_density_Delta
    pf_eval []
    norm_num
  have s1 : ∃ w, depth_search disper (fin 2) (fin 8) (fin (Real.pi / 6)) (fin 0) (fin 9.81) (fin (8200 / 65))
      (fin (2 / 20)) (fin (2 / 20)) = some ⟨fin (4 / 20), fin v, w⟩ := by
    refine ⟨(calculate_stability_number_Ns disper (fin 2) (fin 8) (fin (2 / 20)) (fin (Real.pi / 6)) (fin 0)
      (fin 9.81)).warns ++ (calculate_stability_number_Ns disper (fin 2) (fin 8) (fin (4 / 20))
      (fin (Real.pi / 6)) (fin 0) (fin 9.81)).warns, ?_⟩
    unfold depth_search
    rw [whileUnb_some]
    refine ⟨1, ?_, ?_, ?_⟩
    · rw [Function.iterate_one]
      unfold depth_step
      have : fin (2 / 20) + fin (2 / 20) = fin (4 / 20) := by rw [add_fin, fin_inj]; norm_num
      simp only [this, n2]
    · rw [n1]
      intro k
      have := k.mp (fin_lt_pinf _)
      rw [lt_fin] at this
      linarith
    · intro j hj
      obtain rfl : j = 0 := by omega
      exact Iff.rfl
  have s2 : ∃ w, depth_search disper (fin 2) (fin 8) (fin (Real.pi / 6)) (fin 0) (fin 9.81) (fin (8200 / 65))
      0.001 (fin (2 / 20)) = some ⟨fin 0.101, fin u, w⟩ := by
    refine ⟨(calculate_stability_number_Ns disper (fin 2) (fin 8) (fin (2 / 20)) (fin (Real.pi / 6)) (fin 0)
      (fin 9.81)).warns ++ (calculate_stability_number_Ns disper (fin 2) (fin 8) (fin 0.101)
      (fin (Real.pi / 6)) (fin 0) (fin 9.81)).warns, ?_⟩
    unfold depth_search
    rw [whileUnb_some]
    refine ⟨1, ?_, ?_, ?_⟩
    · rw [Function.iterate_one]
      unfold depth_step
      have : fin (2 / 20) + 0.001 = fin 0.101 := by
        show fin (2 / 20) + fin 0.001 = _
        rw [add_fin, fin_inj]; norm_num
      simp only [this, n3]
    · rw [n1]
      intro k
      have := k.mp (fin_lt_pinf _)
      rw [lt_fin] at this
      linarith
    · intro j hj
      obtain rfl : j = 0 := by omega
      exact Iff.rfl
  obtain ⟨w1, s1⟩ := s1
  obtain ⟨w2, s2⟩ := s2
  have hret : calculate_significant_depth_above_toe_hacc disper (fin 0.01) (fin 8) (fin 2) (fin (Real.pi / 6))
      (fin 2650) (fin 1025) (fin 0) (fin 9.81) = some ⟨w1 ++ w2, .ok (fin 0.101)⟩ := by
    unfold calculate_significant_depth_above_toe_hacc
    simp only [e2, e3, s1]
    have e4 : fin (4 / 20) - fin (2 / 20) = fin (2 / 20) := by rw [sub_fin, fin_inj]; norm_num
    have e5 : fin (2 / 20) > (0.001 : PF) := by
      show (0.001 : ℝ) < 2 / 20
      norm_num
    rw [if_pos e5, e4, s2]
  obtain ⟨y, hy, hlt⟩ := (size_lt_iff disper (fin 8) (fin (2 / 20)) (fin (Real.pi / 6)) (fin 0) (fin 9.81) (H := 2)
    (D := 0.01) (ra := 2650) (rw := 1025) (by norm_num) (by norm_num) (by norm_num) (Ns_res ..)).mp
    (by rw [e3, n1]; exact fin_lt_pinf _)
  refine ⟨disper, _, 0.101, y, hret, rfl, hy, hlt, ?_⟩
  obtain ⟨De, hDe, hDD, e⟩ := Delta_eval (rr := 2650) (rw := 1025) (by norm_num) (by norm_num)
  have hu0 : 0 < u := by
    rcases ns_cases disper (fin 2) (fin 8) (fin 0.101) (fin (Real.pi / 6)) (fin 0) (fin 9.81) with k | k | ⟨t, ht, k⟩
      <;> rw [n3] at k
    · cases k
    · cases k
    · rw [fin_inj] at k
      have : (0 : ℝ) < 1.8 := by norm_num
      linarith
  have hsz : (calculate_nominal_diameter_Dn50 disper (fin 2) (fin 8) (fin 0.101) (fin (Real.pi / 6)) (fin 2650)
      (fin 1025) (fin 0) (fin 9.81)).res = .ok (fin (2 / u / De)) := by
    unfold calculate_nominal_diameter_Dn50
    rw [PyM.bind_res_of_ok (Ns_res ..), e, n3]
    simp only [stab_Dn, PyM.bind_ok, PyM.pure_def]
    rw [div_fin hu0.ne', div_fin hDe.ne']
  exact ⟨_, hsz, C96_takahashi_depth_unsafe disper (fin 8) (fin (Real.pi / 6)) (fin 0) (fin 9.81) (by norm_num)
    (by norm_num) (by norm_num) _ _ hret rfl y hlt hy _ hsz⟩

/-- the search of C62's case, for which the depth is the limit -/
example (disper : PF → PF → PF → PF) (hdis : ∀ w h g, disper w h g = fin 1) :
    ∀ y, (calculate_nominal_diameter_Dn50 disper (fin 2) (fin 8) (fin (2 / 20)) (fin (Real.pi / 6)) (fin 2650)
      (fin 1025) (fin 0) (fin 9.81)).res = .ok (fin y) → 0.01 ≤ y := by
  intro y hy
  obtain ⟨v, n2, hv⟩ := ns_twelfth disper (fin 8) (fin 9.81) (h := 2 / 20) (by norm_num) (by norm_num) (hdis _ _ _)
  by_contra hn
  have e3 : fin 2 / (calculate_buoyant_density_Delta (fin 2650) (fin 1025) * fin 0.01) = fin (8200 / 65) := by
    unfold calculate_buoyant_density_Delta
    pf_eval []
    norm_num
  have := (size_lt_iff disper (fin 8) (fin (2 / 20)) (fin (Real.pi / 6)) (fin 0) (fin 9.81) (H := 2)
    (D := 0.01) (ra := 2650) (rw := 1025) (by norm_num) (by norm_num) (by norm_num) (Ns_res ..)).mpr
    ⟨y, hy, not_le.mp hn⟩
  rw [e3, n2, lt_fin] at this
  linarith
end
