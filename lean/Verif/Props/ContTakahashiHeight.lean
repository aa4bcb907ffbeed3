import Verif.Props.WorseTakahashi

/-! # C95: the wave height found by the search of Takahashi et al. (1990), up to the grid of the search -/

open Classical
open PF Takahashi1990 CorePhysics
noncomputable section

section
variable (disper : PF → PF → PF → PF) (T : PF) {D h B ρr ρw β g L : ℝ} (hh : 0 < h) (hL : 0 < L)
  (hw : calculate_local_wavelength disper T (fin h) (fin g) = fin L)
  (hk : 0 < Published.toeKappa (2 * Real.pi / L) h B (β * (Real.pi / 180)))
include hh hL hw hk

/-- the wave height for which stones are just stable depends continuously on `Delta * Dn50` -/
theorem TakahashiProof.stable_height_cont (hr0 : 0 < ρw) (hr : ρw < ρr) (hD : 0 < D) {H ε : ℝ} (hH : 0 < H) (hε : 0 < ε)
    (hsol : H / (Textbook.Delta ρr ρw * D) =
      Published.toeStability (Published.toeKappa (2 * Real.pi / L) h B (β * (Real.pi / 180))) (h / H)) :
    ∃ a b : ℝ, a < Textbook.Delta ρr ρw * D ∧ Textbook.Delta ρr ρw * D < b ∧ ∀ q H' : ℝ, a < q → q < b → 0 < q → 0 < H' →
      H' / q = Published.toeStability (Published.toeKappa (2 * Real.pi / L) h B (β * (Real.pi / 180))) (h / H') →
      |H' - H| < ε := by
  have hDe : 0 < Textbook.Delta ρr ρw := div_pos (sub_pos.mpr hr) hr0
  have key : ∀ {D1 D2 H1 H2 : ℝ}, 0 < D1 → 0 < D2 → 0 < H1 → H1 < H2 →
      H1 / (Textbook.Delta ρr ρw * D1) =
        Published.toeStability (Published.toeKappa (2 * Real.pi / L) h B (β * (Real.pi / 180))) (h / H1) →
      H2 / (Textbook.Delta ρr ρw * D2) =
        Published.toeStability (Published.toeKappa (2 * Real.pi / L) h B (β * (Real.pi / 180))) (h / H2) → D1 < D2 := by
    intro D1 D2 H1 H2 d1 d2 h1 h12 e1 e2
    have k1 := (TakahashiProof.size_iff disper T hh hL hw hk hr0 hr d1 h1).mpr e1
    have k2 := (TakahashiProof.size_iff disper T hh hL hw hk hr0 hr d2 (h1.trans h12)).mpr e2
    by_contra hn
    have := (C92_takahashi_stable_height disper T hh hL hw hk h1 (not_lt.mp hn) hr0 le_rfl hr le_rfl k1 k2).1
    linarith
  -- the size for a given wave height
  have size : ∀ {x : ℝ}, 0 < x → ∃ D1, 0 < D1 ∧ x / (Textbook.Delta ρr ρw * D1) =
      Published.toeStability (Published.toeKappa (2 * Real.pi / L) h B (β * (Real.pi / 180))) (h / x) := by
    intro x hx
    have hs : 0 < Published.toeStability (Published.toeKappa (2 * Real.pi / L) h B (β * (Real.pi / 180))) (h / x) :=
      lt_of_lt_of_le (by norm_num) (le_max_left _ _)
    refine ⟨x / (Textbook.Delta ρr ρw *
      Published.toeStability (Published.toeKappa (2 * Real.pi / L) h B (β * (Real.pi / 180))) (h / x)), by positivity, ?_⟩
    generalize Published.toeStability (Published.toeKappa (2 * Real.pi / L) h B (β * (Real.pi / 180))) (h / x) = s at *
    field_simp
  have lowH : 0 < max (H - ε) (H / 2) := lt_of_lt_of_le (by linarith) (le_max_right _ _)
  obtain ⟨D1, d1, e1⟩ := size lowH
  obtain ⟨D2, d2, e2⟩ := size (show 0 < H + ε by linarith)
  have lt1 : max (H - ε) (H / 2) < H := max_lt (by linarith) (by linarith)
  refine ⟨Textbook.Delta ρr ρw * D1, Textbook.Delta ρr ρw * D2,
    mul_lt_mul_of_pos_left (key d1 hD lowH lt1 e1 hsol) hDe,
    mul_lt_mul_of_pos_left (key hD d2 hH (by linarith) hsol e2) hDe, fun q H' ha hb hq hH' e' => ?_⟩
  have eq : Textbook.Delta ρr ρw * (q / Textbook.Delta ρr ρw) = q := by field_simp
  have hq' : 0 < q / Textbook.Delta ρr ρw := div_pos hq hDe
  rw [← eq] at e'
  rw [← eq, mul_lt_mul_iff_right₀ hDe] at ha hb
  have l1 : max (H - ε) (H / 2) < H' := by
    by_contra hn
    rcases (not_lt.mp hn).lt_or_eq with hn | hn
    · exact absurd (key hq' d1 hH' hn e' e1) (not_lt.mpr ha.le)
    · rw [← hn] at e1
      have := e1.trans e'.symm
      rw [div_eq_div_iff (by positivity) (by positivity)] at this
      have := mul_left_cancel₀ hDe.ne' (mul_left_cancel₀ hH'.ne' this)
      linarith
  have l2 : H' < H + ε := by
    by_contra hn
    rcases (not_lt.mp hn).lt_or_eq with hn | hn
    · exact absurd (key d2 hq' (by linarith) hn e2 e') (not_lt.mpr hb.le)
    · rw [hn] at e2
      have := e2.trans e'.symm
      rw [div_eq_div_iff (by positivity) (by positivity)] at this
      have := mul_left_cancel₀ hDe.ne' (mul_left_cancel₀ hH'.ne' this)
      linarith
  rw [abs_lt]
  exact ⟨by linarith [le_max_left (H - ε) (H / 2)], by linarith⟩

/-- C95, wave height by Takahashi et al. (1990): nearby stone sizes and densities get wave heights that differ by no more
than 2 mm plus as little as wished, where neither call gives the precision warning.
Missing: the other inputs, calls with the precision warning, and continuity itself, which the grid of the search rules
out. -/
theorem C95_takahashi_height_partial (hr0 : 0 < ρw) (hr : ρw < ρr) (hD : 0 < D) (ε : ℝ) (hε : 0 < ε) :
    ∃ δ > 0, ∀ D' ρr' ρw' : ℝ, |D' - D| < δ → |ρr' - ρr| < δ → |ρw' - ρw| < δ → ∀ v v' : PF,
      (calculate_significant_wave_height_Hs disper (fin D) T (fin h) (fin B) (fin ρr) (fin ρw) (fin β) (fin g)).res
        = .ok v →
      (calculate_significant_wave_height_Hs disper (fin D') T (fin h) (fin B) (fin ρr') (fin ρw') (fin β) (fin g)).res
        = .ok v' →
      ∃ x x' : ℝ, v = fin x ∧ v' = fin x' ∧
        (Warn.text "Hs precision is not better than" ∉ (calculate_significant_wave_height_Hs disper (fin D) T
          (fin h) (fin B) (fin ρr) (fin ρw) (fin β) (fin g)).warns →
        Warn.text "Hs precision is not better than" ∉ (calculate_significant_wave_height_Hs disper (fin D') T
          (fin h) (fin B) (fin ρr') (fin ρw') (fin β) (fin g)).warns → |x' - x| < 0.002 + ε) := by
  have hDe : 0 < Textbook.Delta ρr ρw := div_pos (sub_pos.mpr hr) hr0
  obtain ⟨H, ⟨hH, hsol⟩, -⟩ := C61_one_solution D h B ρr ρw β L _ hD hh hr0 hr hL hk rfl
  obtain ⟨a, b, ha, hb, near⟩ := TakahashiProof.stable_height_cont disper T hh hL hw hk hr0 hr hD hH hε hsol
  -- Delta * Dn50 is continuous
  have hc : ContinuousAt (fun p : ℝ × ℝ × ℝ => Textbook.Delta p.2.1 p.2.2 * p.1) (D, ρr, ρw) := by
    unfold Textbook.Delta
    fun_prop (disch := exact hr0.ne')
  have ev := hc.eventually (Ioo_mem_nhds ha hb)
  have ev2 : ∀ᶠ p : ℝ × ℝ × ℝ in nhds (D, ρr, ρw), 0 < p.1 ∧ 0 < p.2.2 ∧ p.2.2 < p.2.1 := by
    refine ((continuous_fst.tendsto _).eventually (lt_mem_nhds hD)).and
      (((continuous_snd.comp continuous_snd).tendsto (D, ρr, ρw) |>.eventually (lt_mem_nhds hr0)).and ?_)
    exact ((continuous_snd.comp continuous_snd).tendsto (D, ρr, ρw)).eventually_lt
      ((continuous_fst.comp continuous_snd).tendsto (D, ρr, ρw)) hr
  obtain ⟨δ, hδ, hball⟩ := Metric.eventually_nhds_iff.mp (ev.and ev2)
  refine ⟨δ, hδ, fun D' ρr' ρw' q1 q2 q3 v v' hv hv' => ?_⟩
  obtain ⟨⟨i1, i2⟩, i3, i4, i5⟩ := @hball (D', ρr', ρw') (by
    rw [Prod.dist_eq, Prod.dist_eq]
    exact max_lt q1 (max_lt q2 q3))
  dsimp only at i1 i2 i3 i4 i5
  have hDe' : 0 < Textbook.Delta ρr' ρw' := div_pos (sub_pos.mpr i5) i4
  obtain ⟨H', ⟨hH', hsol'⟩, -⟩ := C61_one_solution D' h B ρr' ρw' β L _ i3 hh i4 i5 hL hk rfl
  have n := abs_lt.mp (near _ H' i1 i2 (by positivity) hH' hsol')
  obtain ⟨x, c, ex, -, -, s, -⟩ := C61_near_solution disper T D h B ρr ρw β g L _ hD hh hr0 hr hL hw hk rfl H hsol v hv
  obtain ⟨x', c', ex', -, -, s', -⟩ := C61_near_solution disper T D' h B ρr' ρw' β g L _ i3 hh i4 i5 hL hw hk rfl H' hsol'
    v' hv'
  refine ⟨x, x', ex, ex', fun w w' => ?_⟩
  have k := abs_lt.mp (s w)
  have k' := abs_lt.mp (s' w')
  rw [abs_lt]
  norm_num at k k' ⊢
  constructor <;> linarith [k.1, k.2, k'.1, k'.2, n.1, n.2]
end

/-- a concrete toe that meets the hypotheses, and for which the search returns a wave height -/
example (T : PF) : (∃ x : ℝ, (calculate_significant_wave_height_Hs (fun _ _ _ => fin 0.05) (fin 0.1) T (fin 10)
      (fin (10 * Real.pi / 3)) (fin 2000) (fin 1000) (fin 0) (fin 9.81)).res = .ok (fin x)) ∧
    0 < Published.toeKappa (2 * Real.pi / (2 * Real.pi / 0.05)) 10 (10 * Real.pi / 3) (0 * (Real.pi / 180)) ∧
    calculate_local_wavelength (fun _ _ _ => fin 0.05) T (fin 10) (fin 9.81) = fin (2 * Real.pi / 0.05) := by
  obtain ⟨κ, H, hκ, eκ, hsol, hroom⟩ := TakahashiProof.toe_example
  have hpi := Real.pi_pos
  have hw := TakahashiProof.toe_wavelength T
  obtain ⟨v, hv⟩ := C61_returns _ T 0.1 10 (10 * Real.pi / 3) 2000 1000 0 9.81 _ κ (by norm_num) (by norm_num)
    (by norm_num) (by norm_num) (by positivity) hw hκ eκ H hsol hroom
  obtain ⟨δ, hδ, near⟩ := C95_takahashi_height_partial _ T (D := 0.1) (h := 10) (B := 10 * Real.pi / 3) (ρr := 2000)
    (ρw := 1000) (β := 0) (g := 9.81) (by norm_num) (by positivity) hw (eκ ▸ hκ) (by norm_num) (by norm_num) (by norm_num)
    0.001 (by norm_num)
  obtain ⟨x, -, e, -⟩ := near 0.1 2000 1000 (by simpa using hδ) (by simpa using hδ) (by simpa using hδ) v v hv hv
  exact ⟨⟨x, e ▸ hv⟩, eκ ▸ hκ, hw⟩
end
