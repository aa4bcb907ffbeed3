import Verif.Props.DesignTakahashiDepth

/-! # C92: the depth above the toe found by the search of Takahashi et al. (1990), smaller or lighter stones -/

open Classical
open PF Takahashi1990 CorePhysics TakahashiProof
noncomputable section

/-- C92: smaller or lighter stones, or heavier water, never need more than one step (1 mm, or Hs/20 when that is
smaller) less water above the toe, if larger depths than the one found for them are not less safe for the given stones,
and the given stones are too small at Hs/20.
Missing: stones stable at Hs/20 (see C96_takahashi_depth_unsafe); stability numbers that fall with the depth. -/
theorem C92_takahashi_depth_partial (disper : PF → PF → PF → PF) (T Bt beta g : PF) {H D D' ra rw ra' rw' : ℝ}
    (hH : 0 < H) (hD' : 0 < D') (hDD : D' ≤ D) (hw : 0 < rw) (hww : rw ≤ rw') (hr' : rw' < ra') (hra : ra' ≤ ra)
    (r r' : PyM PF) (d d' : ℝ)
    (h : calculate_significant_depth_above_toe_hacc disper (fin D) T (fin H) Bt (fin ra) (fin rw) beta g = some r)
    (hres : r.res = .ok (fin d))
    (h' : calculate_significant_depth_above_toe_hacc disper (fin D') T (fin H) Bt (fin ra') (fin rw') beta g = some r')
    (hres' : r'.res = .ok (fin d'))
    (h0 : ∀ y, (calculate_nominal_diameter_Dn50 disper (fin H) T (fin (H / 20)) Bt (fin ra) (fin rw) beta g).res
      = .ok (fin y) → D ≤ y)
    (hup : ∀ e y, d' ≤ e → (calculate_nominal_diameter_Dn50 disper (fin H) T (fin d') Bt (fin ra) (fin rw) beta
        g).res = .ok (fin y) → y < D →
      ∃ z, (calculate_nominal_diameter_Dn50 disper (fin H) T (fin e) Bt (fin ra) (fin rw) beta g).res = .ok (fin z) ∧
        z < D) :
    d < d' + Min.min (0.001 : ℝ) (H / 20) := by
  have hD : 0 < D := hD'.trans_le hDD
  have hr : rw < ra := (hww.trans_lt hr').trans_le hra
  have hw' : 0 < rw' := hw.trans_le hww
  obtain ⟨De, hDe, hDDe, e⟩ := Delta_eval hw hr
  obtain ⟨De', hDe', hDDe', e'⟩ := Delta_eval hw' hr'
  have hDle : De' ≤ De := by
    rw [hDDe, hDDe', div_le_div_iff₀ hw' hw]
    nlinarith
  -- stones that suffice among the smaller ones suffice
  have key : ∀ x y, (calculate_nominal_diameter_Dn50 disper (fin H) T (fin x) Bt (fin ra') (fin rw') beta g).res
      = .ok (fin y) → y < D' → ∃ z, (calculate_nominal_diameter_Dn50 disper (fin H) T (fin x) Bt (fin ra) (fin rw)
        beta g).res = .ok (fin z) ∧ z < D := by
    intro x y hy hlt
    have k := (size_lt_iff disper T (fin x) Bt beta g hD' hw' hr' (Ns_res ..)).mpr ⟨y, hy, hlt⟩
    refine (size_lt_iff disper T (fin x) Bt beta g hD hw hr (Ns_res ..)).mp ?_
    have e1 : fin H / (fin De * fin D) = fin (H / (De * D)) := by pf_eval []
    have e2 : fin H / (fin De' * fin D') = fin (H / (De' * D')) := by pf_eval []
    rw [e, e1]
    rw [e', e2] at k
    have hle : H / (De * D) ≤ H / (De' * D') := by gcongr
    rcases ns_cases disper (fin H) T (fin x) Bt beta g with h1 | h1 | ⟨v, -, h1⟩ <;> rw [h1] at k ⊢
    · exact k
    · exact fin_lt_pinf _
    · rw [lt_fin] at k ⊢
      exact hle.trans_lt k
  have h0' : ∀ y, (calculate_nominal_diameter_Dn50 disper (fin H) T (fin (H / 20)) Bt (fin ra') (fin rw') beta g).res
      = .ok (fin y) → D' ≤ y := by
    intro y hy
    by_contra hn
    obtain ⟨z, hz, hzl⟩ := key _ y hy (not_le.mp hn)
    exact absurd (h0 z hz) (not_le.mpr hzl)
  obtain ⟨a, δ, x, ha, -, hδ, -, -, hx⟩ := C96_takahashi_depth_partial disper T Bt beta g hH hD hw hr r _ h hres h0
  obtain ⟨a', δ', x', ha', -, -, hs', hx', -⟩ := C96_takahashi_depth_partial disper T Bt beta g hH hD' hw' hr' r' _ h'
    hres' h0'
  rw [fin_inj] at ha
  subst ha hδ
  obtain ⟨z, hz, hzl⟩ := key _ x' hs' hx'
  by_contra hn
  push Not at hn
  obtain ⟨t, ht, htl⟩ := hup (d - Min.min (0.001 : ℝ) (H / 20)) z (by linarith) hz hzl
  exact absurd (hx t ht) (not_le.mpr htl)

/-- Stones of 10 and 9 mm below waves 6.3 m long at Hs/20 and 1.05 m long (twice the width of the toe) at all larger
depths: both searches end and all hypotheses hold -/
example : ∃ (disper : PF → PF → PF → PF) (r r' : PyM PF) (d d' : ℝ),
    calculate_significant_depth_above_toe_hacc disper (fin 0.01) (fin 8) (fin 2) (fin (Real.pi / 6)) (fin 2650)
      (fin 1025) (fin 0) (fin 9.81) = some r ∧ r.res = .ok (fin d) ∧
    calculate_significant_depth_above_toe_hacc disper (fin 0.009) (fin 8) (fin 2) (fin (Real.pi / 6)) (fin 2600)
      (fin 1030) (fin 0) (fin 9.81) = some r' ∧ r'.res = .ok (fin d') ∧
    d < d' + Min.min (0.001 : ℝ) (2 / 20) := by
  obtain ⟨disper, d1, d2⟩ : ∃ disper : PF → PF → PF → PF, (∀ w g, disper w (fin (2 / 20)) g = fin 1) ∧
      ∀ w g (h : ℝ), h ≠ 2 / 20 → disper w (fin h) g = fin 6 :=
    ⟨fun _ h _ => if h = fin (2 / 20) then fin 1 else fin 6, fun w g => by simp,
      fun w g h hh => by simp only [fin_inj, hh, if_false]⟩
  obtain ⟨v, n1, hv⟩ := ns_twelfth disper (fin 8) (fin 9.81) (h := 2 / 20) (by norm_num) (by norm_num) (d1 _ _)
  have hdis : ∀ h : ℝ, 0 < h → disper (2 * PF.pi / fin 8) (fin h) (fin 9.81) = fin (if h = 2 / 20 then 1 else 6) ∧
      (1 : ℝ) ≤ if h = 2 / 20 then 1 else 6 := by
    intro h _
    split_ifs with hc
    · rw [hc]; exact ⟨d1 _ _, le_rfl⟩
    · exact ⟨d2 _ _ _ hc, by norm_num⟩
  obtain ⟨r, d, h, hr, -⟩ := C62_terminates_partial disper (fin 8) (fin 9.81) _ 1 (Real.pi / 6) 0 2 0.01 2650 1025 one_pos
    hdis (by norm_num) (by norm_num) (by norm_num) (by norm_num) _ (Ns_res ..)
    (by rw [n1, le_fin]; refine hv.trans ?_; norm_num)
  obtain ⟨r', d', h', hr', -⟩ := C62_terminates_partial disper (fin 8) (fin 9.81) _ 1 (Real.pi / 6) 0 2 0.009 2600 1030
    one_pos hdis (by norm_num) (by norm_num) (by norm_num) (by norm_num) _ (Ns_res ..)
    (by rw [n1, le_fin]; refine hv.trans ?_; norm_num)
  have unst : ∀ D ra rw : ℝ, 0 < D → 0 < rw → rw < ra → D * ((ra - rw) / rw) ≤ 1 / 10 → ∀ y,
      (calculate_nominal_diameter_Dn50 disper (fin 2) (fin 8) (fin (2 / 20)) (fin (Real.pi / 6)) (fin ra)
        (fin rw) (fin 0) (fin 9.81)).res = .ok (fin y) → D ≤ y := by
    intro D ra rw hD hw hra hs y hy
    by_contra hn
    obtain ⟨De, hDe, hDDe, e⟩ := Delta_eval hw hra
    rw [← hDDe] at hs
    have e3 : fin 2 / (fin De * fin D) = fin (2 / (De * D)) := by pf_eval []
    have := (size_lt_iff disper (fin 8) (fin (2 / 20)) (fin (Real.pi / 6)) (fin 0) (fin 9.81) (H := 2) hD hw hra
      (Ns_res ..)).mpr ⟨y, hy, not_le.mp hn⟩
    rw [e, e3, n1, lt_fin, div_lt_iff₀ (by positivity)] at this
    have h3 := mul_le_mul_of_nonneg_right hv (mul_pos hDe hD).le
    linarith [mul_comm De D]
  have u1 := unst 0.01 2650 1025 (by norm_num) (by norm_num) (by norm_num) (by norm_num)
  have u2 := unst 0.009 2600 1030 (by norm_num) (by norm_num) (by norm_num) (by norm_num)
  obtain ⟨a, -, -, ha, hlt, -⟩ := C96_takahashi_depth_partial disper (fin 8) (fin (Real.pi / 6)) (fin 0) (fin 9.81)
    (by norm_num) (by norm_num) (by norm_num) (by norm_num) r' _ h' hr' u2
  rw [fin_inj] at ha
  subst ha
  refine ⟨disper, r, r', d, d', h, hr, h', hr', ?_⟩
  refine C92_takahashi_depth_partial disper (fin 8) (fin (Real.pi / 6)) (fin 0) (fin 9.81) (by norm_num) (by norm_num)
    (by norm_num) (by norm_num) (by norm_num) (by norm_num) (by norm_num) r r' d d' h hr h' hr' u1 ?_
  intro e y he _ _
  refine (size_lt_iff disper (fin 8) (fin e) (fin (Real.pi / 6)) (fin 0) (fin 9.81) (H := 2) (by norm_num) (by norm_num)
    (by norm_num) (Ns_res ..)).mp ?_
  rw [ns_half disper (fin 8) (fin 9.81) (h := e) (H := 2) (by linarith) (by norm_num) (d2 _ _ _ (by linarith))]
  have : fin 2 / (calculate_buoyant_density_Delta (fin 2650) (fin 1025) * fin 0.01) = fin (8200 / 65) := by
    unfold calculate_buoyant_density_Delta
    pf_eval []
    norm_num
  rw [this]
  exact fin_lt_pinf _
end
