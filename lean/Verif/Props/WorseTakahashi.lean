import Verif.Props.TakahashiSearch
import Verif.Props.WorseToeMore

/-! # C92, C96: the wave height found by the search of Takahashi et al. (1990) -/

open Classical
open PF Takahashi1990 CorePhysics
noncomputable section

section
variable (disper : PF → PF → PF → PF) (T : PF) {D D' h B ρr ρr' ρw ρw' β g L H H' : ℝ} (hh : 0 < h) (hL : 0 < L)
  (hw : calculate_local_wavelength disper T (fin h) (fin g) = fin L)
  (hk : 0 < Published.toeKappa (2 * Real.pi / L) h B (β * (Real.pi / 180)))
include hh hL hw hk

/-- C92: smaller or lighter stones, or heavier water, never withstand a higher wave in a caisson toe: comparing the
wave heights for which the designed size is exactly the given one -/
theorem C92_takahashi_stable_height (hH : 0 < H) (hDD : D' ≤ D) (hr0 : 0 < ρw) (hww : ρw ≤ ρw')
    (hr' : ρw' < ρr') (hrr : ρr' ≤ ρr)
    (e : (calculate_nominal_diameter_Dn50 disper (fin H) T (fin h) (fin B) (fin ρr) (fin ρw) (fin β) (fin g)).res
      = .ok (fin D))
    (e' : (calculate_nominal_diameter_Dn50 disper (fin H') T (fin h) (fin B) (fin ρr') (fin ρw') (fin β) (fin g)).res
      = .ok (fin D')) :
    H' ≤ H ∧ (D' < D → H' < H) := by
  refine ⟨?_, fun hs => ?_⟩
  · by_contra hn
    push Not at hn
    obtain ⟨x, x', k, k', -, h2⟩ := C92_takahashi_size disper H H' h B β g L T hH hn.le hh hL hw hk ρr ρr' ρw ρw' hr0 hww
      hr' hrr
    rw [e, Except.ok.injEq, fin_inj] at k
    rw [e', Except.ok.injEq, fin_inj] at k'
    linarith [h2 hn]
  · by_contra hn
    push Not at hn
    obtain ⟨x, x', k, k', h1, -⟩ := C92_takahashi_size disper H H' h B β g L T hH hn hh hL hw hk ρr ρr' ρw ρw' hr0 hww
      hr' hrr
    rw [e, Except.ok.injEq, fin_inj] at k
    rw [e', Except.ok.injEq, fin_inj] at k'
    linarith

/-- the designed size, and the wave height with that size -/
theorem TakahashiProof.size_iff (hr0 : 0 < ρw) (hr : ρw < ρr) (hD : 0 < D) (hH : 0 < H) :
    (calculate_nominal_diameter_Dn50 disper (fin H) T (fin h) (fin B) (fin ρr) (fin ρw) (fin β) (fin g)).res
      = .ok (fin D) ↔ H / (Textbook.Delta ρr ρw * D) =
        Published.toeStability (Published.toeKappa (2 * Real.pi / L) h B (β * (Real.pi / 180))) (h / H) := by
  obtain ⟨De, hDe, hDD, e⟩ := Delta_eval hr0 hr
  have hDt : Textbook.Delta ρr ρw = De := hDD.symm
  rw [hDt]
  unfold calculate_nominal_diameter_Dn50
  rw [PyM.bind_res_of_ok (C78_takahashi disper H h B β g L T hH hh hL hw hk), e]
  simp only [stab_Dn, PyM.bind_ok, PyM.pure_def]
  have hs : 0 < Published.toeStability (Published.toeKappa (2 * Real.pi / L) h B (β * (Real.pi / 180))) (h / H) :=
    lt_of_lt_of_le (by norm_num) (le_max_left _ _)
  generalize Published.toeStability (Published.toeKappa (2 * Real.pi / L) h B (β * (Real.pi / 180))) (h / H) = s at *
  rw [div_fin hs.ne', div_fin hDe.ne', Except.ok.injEq, fin_inj, div_div, div_eq_iff (by positivity),
    div_eq_iff (by positivity)]
  constructor <;> intro k <;> rw [k] <;> ring

/-- C96: there is exactly one wave height `H` that is the limit for the given stones: the designed size is at most the
given one for all wave heights up to it and larger for all higher waves. A wave height returned by the search without
the precision warning is within 1 mm of it; with the warning,
within half a millimetre times the largest slope of the stability number there. -/
theorem C96_takahashi_height_partial (hr0 : 0 < ρw) (hr : ρw < ρr) (hD : 0 < D) : ∃ H : ℝ, 0 < H ∧
    (∀ x, 0 < x → ∃ v,
      (calculate_nominal_diameter_Dn50 disper (fin x) T (fin h) (fin B) (fin ρr) (fin ρw) (fin β) (fin g)).res
        = .ok (fin v) ∧ (v ≤ D ↔ x ≤ H)) ∧
    (∀ v, (calculate_significant_wave_height_Hs disper (fin D) T (fin h) (fin B) (fin ρr) (fin ρw) (fin β)
        (fin g)).res = .ok v → ∃ x : ℝ, v = fin x ∧
      |x - H| ≤ 1.3 * (1 - Published.toeKappa (2 * Real.pi / L) h B (β * (Real.pi / 180))) /
        Published.toeKappa (2 * Real.pi / L) h B (β * (Real.pi / 180)) ^ ((1 : ℝ) / 3) * h /
        (3.24 * Textbook.Delta ρr ρw * D) * 0.0005 ∧
      (Warn.text "Hs precision is not better than" ∉ (calculate_significant_wave_height_Hs disper (fin D) T
        (fin h) (fin B) (fin ρr) (fin ρw) (fin β) (fin g)).warns → |x - H| < 0.001)) := by
  obtain ⟨H, ⟨hH, hsol⟩, -⟩ := C61_one_solution D h B ρr ρw β L _ hD hh hr0 hr hL hk rfl
  have e := (TakahashiProof.size_iff disper T hh hL hw hk hr0 hr hD hH).mpr hsol
  refine ⟨H, hH, fun x hx => ?_, fun v hv => ?_⟩
  · rcases le_or_gt x H with hxH | hxH
    · obtain ⟨u, v, k, k', h1, -⟩ := C92_takahashi_size disper x H h B β g L T hx hxH hh hL hw hk ρr ρr ρw ρw hr0 le_rfl
        hr le_rfl
      rw [e, Except.ok.injEq, fin_inj] at k'
      exact ⟨u, k, iff_of_true (by linarith) hxH⟩
    · obtain ⟨u, v, k, k', -, h1⟩ := C92_takahashi_size disper H x h B β g L T hH hxH.le hh hL hw hk ρr ρr ρw ρw hr0
        le_rfl hr le_rfl
      rw [e, Except.ok.injEq, fin_inj] at k
      exact ⟨v, k', iff_of_false (by linarith [h1 hxH]) (not_le.mpr hxH)⟩
  · obtain ⟨x, c, ex, hc, b1, b2, -⟩ := C61_near_solution disper T D h B ρr ρw β g L _ hD hh hr0 hr hL hw hk rfl H hsol v hv
    subst hc
    exact ⟨x, ex, b1, b2⟩

/-- C92: wave heights returned by the search follow the order up to the grid of the search: smaller or lighter stones,
or heavier water, never withstand a wave that is higher by more than half a millimetre times the largest slopes of the
stability number, or by more than 2 mm where neither call gives the precision warning -/
theorem C92_takahashi_height (hr0 : 0 < ρw) (hww : ρw ≤ ρw') (hr' : ρw' < ρr') (hrr : ρr' ≤ ρr) (hD : 0 < D')
    (hDD : D' ≤ D) {v v' : PF} {κ : ℝ} (eκ : κ = Published.toeKappa (2 * Real.pi / L) h B (β * (Real.pi / 180)))
    (hv : (calculate_significant_wave_height_Hs disper (fin D) T (fin h) (fin B) (fin ρr) (fin ρw) (fin β)
      (fin g)).res = .ok v)
    (hv' : (calculate_significant_wave_height_Hs disper (fin D') T (fin h) (fin B) (fin ρr') (fin ρw') (fin β)
      (fin g)).res = .ok v') :
    ∃ x x' : ℝ, v = fin x ∧ v' = fin x' ∧
      x' ≤ x + 1.3 * (1 - κ) / κ ^ ((1 : ℝ) / 3) * h / (3.24 * Textbook.Delta ρr ρw * D) * 0.0005 +
        1.3 * (1 - κ) / κ ^ ((1 : ℝ) / 3) * h / (3.24 * Textbook.Delta ρr' ρw' * D') * 0.0005 ∧
      (Warn.text "Hs precision is not better than" ∉ (calculate_significant_wave_height_Hs disper (fin D) T
          (fin h) (fin B) (fin ρr) (fin ρw) (fin β) (fin g)).warns →
        Warn.text "Hs precision is not better than" ∉ (calculate_significant_wave_height_Hs disper (fin D') T
          (fin h) (fin B) (fin ρr') (fin ρw') (fin β) (fin g)).warns → x' < x + 0.002) := by
  have hr : ρw < ρr := by linarith
  have hr0' := hr0.trans_le hww
  have hD0 := hD.trans_le hDD
  obtain ⟨H, ⟨hH, hsol⟩, -⟩ := C61_one_solution D h B ρr ρw β L _ hD0 hh hr0 hr hL hk rfl
  obtain ⟨H', ⟨hH', hsol'⟩, -⟩ := C61_one_solution D' h B ρr' ρw' β L _ hD hh hr0' hr' hL hk rfl
  have e := (TakahashiProof.size_iff disper T hh hL hw hk hr0 hr hD0 hH).mpr hsol
  have e' := (TakahashiProof.size_iff disper T hh hL hw hk hr0' hr' hD hH').mpr hsol'
  have := (C92_takahashi_stable_height disper T hh hL hw hk hH hDD hr0 hww hr' hrr e e').1
  rw [← eκ] at hsol hsol' hk
  obtain ⟨x, c, ex, ec, a, b, -⟩ := C61_near_solution disper T D h B ρr ρw β g L κ hD0 hh hr0 hr hL hw hk eκ H hsol v hv
  obtain ⟨x', c', ex', ec', a', b', -⟩ := C61_near_solution disper T D' h B ρr' ρw' β g L κ hD hh hr0' hr' hL hw hk eκ H'
    hsol' v' hv'
  rw [ec] at a
  rw [ec'] at a'
  refine ⟨x, x', ex, ex', by linarith [(abs_le.mp a).1, (abs_le.mp a').2], fun hp hp' => ?_⟩
  have k := abs_lt.mp (b hp)
  have k' := abs_lt.mp (b' hp')
  linarith
end

/-- a concrete toe: the search returns a wave height, so the comparison applies -/
example (T : PF) : ∃ H x : ℝ, 0 < H ∧
    (∀ y, 0 < y → ∃ v, (calculate_nominal_diameter_Dn50 (fun _ _ _ => fin 0.05) (fin y) T (fin 10)
      (fin (10 * Real.pi / 3)) (fin 2000) (fin 1000) (fin 0) (fin 9.81)).res = .ok (fin v) ∧ (v ≤ 0.1 ↔ y ≤ H)) ∧
    (calculate_significant_wave_height_Hs (fun _ _ _ => fin 0.05) (fin 0.1) T (fin 10)
      (fin (10 * Real.pi / 3)) (fin 2000) (fin 1000) (fin 0) (fin 9.81)).res = .ok (fin x) := by
  obtain ⟨κ, H, hκ, eκ, hsol, hroom⟩ := TakahashiProof.toe_example
  have hpi := Real.pi_pos
  have hw := TakahashiProof.toe_wavelength T
  obtain ⟨v, hv⟩ := C61_returns _ T 0.1 10 (10 * Real.pi / 3) 2000 1000 0 9.81 _ κ (by norm_num) (by norm_num)
    (by norm_num) (by norm_num) (by positivity) hw hκ eκ H hsol hroom
  obtain ⟨H, hH, h1, h2⟩ := C96_takahashi_height_partial _ T (D := 0.1) (h := 10) (B := 10 * Real.pi / 3) (ρr := 2000)
    (ρw := 1000) (β := 0) (g := 9.81) (by norm_num) (by positivity) hw (eκ ▸ hκ) (by norm_num) (by norm_num) (by norm_num)
  obtain ⟨x, e, -⟩ := h2 v hv
  exact ⟨H, x, hH, h1, e ▸ hv⟩
end
