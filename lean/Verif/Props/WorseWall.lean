import Verif.Props.WorseRear
import Verif.Props.FormulasStructures

/-! # C92: worse conditions never give smaller forces on a crest wall -/

open Classical
open PF WorseStrProof CrestWall
noncomputable section

section
variable {H H' T T' c c' gb gb' gf gf' ρ ρ' : ℝ} (c0 c1 g cF : ℝ) (hH : 0 < H) (hHH : H ≤ H') (hT : 0 < T)
  (hTT : T ≤ T') (hc : 0 < c') (hcc : c' ≤ c) (hgb : 0 < gb) (hbb : gb ≤ gb') (hgf : 0 < gf) (hff : gf ≤ gf')
  (h0 : 0 < c0) (h1 : 0 < c1) (hρ : 0 < ρ) (hρρ : ρ ≤ ρ') (hg : 0 < g) (hcF : 0 < cF)
include hH hHH hT hTT hc hcc hgb hbb hgf hff h0 h1 hρ hρρ hg hcF

/-- C92: higher or longer waves, a steeper or smoother slope, less berm, a lower armour crest in front and a higher
wall never give a smaller horizontal force on a crest wall (Van Gent & Van der Werf 2019); when there is a force, one
of them is enough for a larger force -/
theorem C92_crest_wall_horizontal (Ac Ac' W W' : ℝ) (Rc Rc' : PF) (hA : 0 < Ac') (hAA : Ac' ≤ Ac) (hW : 0 < W)
    (hWW : W ≤ W') (F' : ℝ)
    (hF' : (calculate_FH2p_perpendicular (fin H') (fin T') (fin c') (fin Ac') Rc' (fin W') (fin gb') (fin gf') (fin c0)
      (fin c1) (fin ρ') (fin g) (fin cF)).res = .ok (fin F')) :
    NotLess (calculate_FH2p_perpendicular (fin H) (fin T) (fin c) (fin Ac) Rc (fin W) (fin gb) (fin gf) (fin c0)
      (fin c1) (fin ρ) (fin g) (fin cF))
      (calculate_FH2p_perpendicular (fin H') (fin T') (fin c') (fin Ac') Rc' (fin W') (fin gb') (fin gf') (fin c0)
      (fin c1) (fin ρ') (fin g) (fin cF))
      (0 < F' ∧ (H < H' ∨ T < T' ∨ c' < c ∨ gb < gb' ∨ gf < gf' ∨ Ac' < Ac ∨ W < W' ∨ ρ < ρ')) := by
  have hH' := hH.trans_le hHH
  have hT' := hT.trans_le hTT
  have hc0 := hc.trans_le hcc
  have hgb' := hgb.trans_le hbb
  have hgf' := hgf.trans_le hff
  have hρ' := hρ.trans_le hρρ
  have hW' := hW.trans_le hWW
  obtain ⟨z, hz, e, -⟩ := C78_crest_wall_perpendicular H T c Ac gb gf c0 c1 ρ g cF Rc hH hT hc0 hgb hgf h0 h1 hρ hg hcF
    W 1 0 1 hW one_pos (hA.trans_le hAA) le_rfl one_pos
  obtain ⟨z', hz', e', -⟩ := C78_crest_wall_perpendicular H' T' c' Ac' gb' gf' c0 c1 ρ' g cF Rc' hH' hT' hc hgb' hgf' h0
    h1 hρ' hg hcF W' 1 0 1 hW' one_pos hA le_rfl one_pos
  have hm : gf * gb ≤ gf' * gb' := by gcongr
  obtain ⟨y0, y1, y2⟩ := runup_le hH hHH hT hTT hc hcc h0 h1 (by positivity) hm hz hz'
  have hF : F' = Published.wallHorizontal cF ρ' g W' z' Ac' := by rw [hF'] at e'; simpa using e'
  refine ⟨_, _, e, e', ?_⟩
  rw [hF]
  unfold Published.wallHorizontal
  have hk : cF * (ρ * g) * W ≤ cF * (ρ' * g) * W' := by gcongr
  have hk0 : 0 < cF * (ρ * g) * W := by positivity
  have hks : W < W' ∨ ρ < ρ' → cF * (ρ * g) * W < cF * (ρ' * g) * W' := by
    rintro (h | h)
    · calc _ < cF * (ρ * g) * W' := by gcongr
        _ ≤ _ := by gcongr
    · calc _ < cF * (ρ' * g) * W := by gcongr
        _ ≤ _ := by gcongr
  have hms : gb < gb' ∨ gf < gf' → gf * gb < gf' * gb' := by
    rintro (h | h)
    · calc _ < gf * gb' := by gcongr
        _ ≤ _ := by gcongr
    · calc _ < gf' * gb := by gcongr
        _ ≤ _ := by gcongr
  generalize cF * (ρ * g) * W = k at *
  generalize cF * (ρ' * g) * W' = k' at *
  have hk' := hk0.trans_le hk
  have hd : z - Ac ≤ z' - Ac' := by linarith
  have hle : max 0 (k * (z - Ac)) ≤ max 0 (k' * (z' - Ac')) := by
    rcases le_total (z - Ac) 0 with h | h
    · rw [max_eq_left (by nlinarith)]; exact le_max_left _ _
    · exact max_le_max le_rfl (mul_le_mul hk hd h hk'.le)
  refine ⟨hle, ?_⟩
  rintro ⟨hpos, hs⟩
  have hp : 0 < k' * (z' - Ac') := by
    by_contra h
    rw [max_eq_left (not_lt.mp h)] at hpos
    exact lt_irrefl _ hpos
  have hp2 : 0 < z' - Ac' := (mul_pos_iff_of_pos_left hk').mp hp
  rw [max_eq_right hp.le]
  apply max_lt hp
  rcases le_or_gt (z - Ac) 0 with h | h
  · nlinarith
  have sd : z - Ac < z' - Ac' → k * (z - Ac) < k' * (z' - Ac') := fun h => by
    calc _ < k * (z' - Ac') := by gcongr
      _ ≤ _ := by gcongr
  have sk : k < k' → k * (z - Ac) < k' * (z' - Ac') := fun h => by
    calc _ < k' * (z - Ac) := by gcongr
      _ ≤ _ := by gcongr
  rcases hs with h | h | h | h | h | h | h | h
  · exact sd (by have := y2 (Or.inl h); linarith)
  · exact sd (by have := y2 (Or.inr (Or.inl h)); linarith)
  · exact sd (by have := y2 (Or.inr (Or.inr (Or.inl h))); linarith)
  · exact sd (by have := y2 (Or.inr (Or.inr (Or.inr (hms (Or.inl h))))); linarith)
  · exact sd (by have := y2 (Or.inr (Or.inr (Or.inr (hms (Or.inr h))))); linarith)
  · exact sd (by linarith)
  · exact sk (hks (Or.inl h))
  · exact sk (hks (Or.inr h))

/-- C92: the same for the vertical force on the base slab, at the same armour crest, with a wider slab or a slab nearer
to the water; the base not above the armour crest -/
theorem C92_crest_wall_vertical_partial (Ac B B' Fb Fb' cFb : ℝ) (hA : 0 < Ac) (hB : 0 < B) (hBB : B ≤ B')
    (hFb : 0 ≤ Fb') (hFF : Fb' ≤ Fb) (hFA : Fb ≤ Ac) (hcFb : 0 < cFb) :
    NotLess (calculate_FV2p_perpendicular (fin H) (fin T) (fin c) (fin Ac) (fin B) (fin Fb) (fin gb) (fin gf) (fin c0)
      (fin c1) (fin cF) (fin cFb) (fin ρ) (fin g))
      (calculate_FV2p_perpendicular (fin H') (fin T') (fin c') (fin Ac) (fin B') (fin Fb') (fin gb') (fin gf') (fin c0)
      (fin c1) (fin cF) (fin cFb) (fin ρ') (fin g)) False := by
  have hH' := hH.trans_le hHH
  have hT' := hT.trans_le hTT
  have hc0 := hc.trans_le hcc
  have hgb' := hgb.trans_le hbb
  have hgf' := hgf.trans_le hff
  have hρ' := hρ.trans_le hρρ
  have hB' := hB.trans_le hBB
  obtain ⟨z, hz, -, e⟩ := C78_crest_wall_perpendicular H T c Ac gb gf c0 c1 ρ g cF nan hH hT hc0 hgb hgf h0 h1 hρ hg hcF
    1 B Fb cFb one_pos hB hA (hFb.trans hFF) hcFb
  obtain ⟨z', hz', -, e'⟩ := C78_crest_wall_perpendicular H' T' c' Ac gb' gf' c0 c1 ρ' g cF nan hH' hT' hc hgb' hgf' h0
    h1 hρ' hg hcF 1 B' Fb' cFb one_pos hB' hA hFb hcFb
  have hm : gf * gb ≤ gf' * gb' := by gcongr
  obtain ⟨y0, y1, -⟩ := runup_le hH hHH hT hTT hc hcc h0 h1 (by positivity) hm hz hz'
  refine ⟨_, _, e, e', ?_, False.elim⟩
  unfold Published.wallVertical
  have hk : cF * (ρ * g) * B ≤ cF * (ρ' * g) * B' := by gcongr
  have hk0 : 0 < cF * (ρ * g) * B := by positivity
  generalize cF * (ρ * g) * B = k at *
  generalize cF * (ρ' * g) * B' = k' at *
  have hk' := hk0.trans_le hk
  have hF0 := hFb.trans hFF
  have f1 : (Fb' / Ac) ^ cFb ≤ (Fb / Ac) ^ cFb := by gcongr
  have f2 : (Fb / Ac) ^ cFb ≤ 1 := Real.rpow_le_one (by positivity) (by rwa [div_le_one hA]) hcFb.le
  generalize (Fb / Ac) ^ cFb = u at *
  generalize (Fb' / Ac) ^ cFb = u' at *
  rcases le_total (z - 0.75 * Ac) 0 with h | h
  · have : k * (z - 0.75 * Ac) * (1 - u) ≤ 0 :=
      mul_nonpos_of_nonpos_of_nonneg (mul_nonpos_of_nonneg_of_nonpos hk0.le h) (by linarith)
    rw [max_eq_left this]; exact le_max_left _ _
  · have h3 : z - 0.75 * Ac ≤ z' - 0.75 * Ac := by linarith
    have h4 : 1 - u ≤ 1 - u' := by linarith
    have h5 : 0 ≤ 1 - u := by linarith
    have h6 : 0 ≤ z' - 0.75 * Ac := h.trans h3
    exact max_le_max le_rfl (by gcongr)

end

example := C92_crest_wall_vertical_partial (H := 2) (H' := 3) (T := 8) (T' := 9) (c := 2) (c' := 1.5) (gb := 0.9)
  (gb' := 1) (gf := 0.45) (gf' := 0.5) (ρ := 1000) (ρ' := 1025) 1.45 5 9.81 0.4 (by norm_num) (by norm_num)
  (by norm_num) (by norm_num) (by norm_num) (by norm_num) (by norm_num) (by norm_num) (by norm_num) (by norm_num)
  (by norm_num) (by norm_num) (by norm_num) (by norm_num) (by norm_num) (by norm_num) 2 3 4 1 0.5 0.75 (by norm_num)
  (by norm_num) (by norm_num) (by norm_num) (by norm_num) (by norm_num) (by norm_num)

/-- the hypotheses of the first are satisfiable: the force exists for all conditions -/
example : ∃ F' : ℝ, (calculate_FH2p_perpendicular (fin 3) (fin 9) (fin 2) (fin 2) nan (fin 1) (fin 1) (fin 0.45)
    (fin 1.45) (fin 5) (fin 1025) (fin 9.81) (fin 1)).res = .ok (fin F') := by
  obtain ⟨z, -, e, -⟩ := C78_crest_wall_perpendicular 3 9 2 2 1 0.45 1.45 5 1025 9.81 1 nan (by norm_num) (by norm_num)
    (by norm_num) (by norm_num) (by norm_num) (by norm_num) (by norm_num) (by norm_num) (by norm_num) (by norm_num)
    1 1 0 1 (by norm_num) (by norm_num) (by norm_num) (by norm_num) (by norm_num)
  exact ⟨_, e⟩

/-- C92 is false for the armour crest in front of the wall: for every wave and slope there are base slabs that lose
their whole vertical force when the armour crest is lowered to half its height -/
theorem C92_crest_wall_vertical_refuted (H T c gb gf c0 c1 ρ g cF B cFb : ℝ) (hH : 0 < H) (hT : 0 < T) (hc : 0 < c)
    (hgb : 0 < gb) (hgf : 0 < gf) (h0 : 0 < c0) (h1 : 0 < c1) (hρ : 0 < ρ) (hg : 0 < g) (hcF : 0 < cF) (hB : 0 < B)
    (hcFb : 0 < cFb) : ∃ Ac Ac' Fb F : ℝ, 0 < Fb ∧ 0 < Ac' ∧ Ac' < Ac ∧ 0 < F ∧
    (calculate_FV2p_perpendicular (fin H) (fin T) (fin c) (fin Ac) (fin B) (fin Fb) (fin gb) (fin gf) (fin c0)
      (fin c1) (fin cF) (fin cFb) (fin ρ) (fin g)).res = .ok (fin F) ∧
    (calculate_FV2p_perpendicular (fin H) (fin T) (fin c) (fin Ac') (fin B) (fin Fb) (fin gb) (fin gf) (fin c0)
      (fin c1) (fin cF) (fin cFb) (fin ρ) (fin g)).res = .ok (fin 0) := by
  obtain ⟨z, hz0, -, hz⟩ := C78_vangent_runup H T c (gf * gb) c0 c1 hH hT hc (by positivity) h0 h1
  have k : ∀ A : ℝ, 0 < A → (calculate_FV2p_perpendicular (fin H) (fin T) (fin c) (fin A) (fin B) (fin (z / 2))
      (fin gb) (fin gf) (fin c0) (fin c1) (fin cF) (fin cFb) (fin ρ) (fin g)).res =
      .ok (fin (Published.wallVertical cF cFb ρ g B z A (z / 2))) := by
    intro A hA
    obtain ⟨y, hy, -, e⟩ := C78_crest_wall_perpendicular H T c A gb gf c0 c1 ρ g cF nan hH hT hc hgb hgf h0 h1 hρ hg
      hcF 1 B (z / 2) cFb one_pos hB hA (by positivity) hcFb
    obtain rfl : y = z := by
      rw [runup_eq hH hT hc (by positivity) hy, runup_eq hH hT hc (by positivity) hz]
    exact e
  refine ⟨z, z / 2, z / 2, _, by positivity, by positivity, by linarith, ?_, k z hz0, ?_⟩
  · unfold Published.wallVertical
    have : (z / 2 / z) ^ cFb < 1 := by
      apply Real.rpow_lt_one (by positivity) _ hcFb
      rw [div_lt_one hz0]; linarith
    have h2 : 0 < cF * (ρ * g) * B * (z - 0.75 * z) * (1 - (z / 2 / z) ^ cFb) := by
      have h3 : 0 < z - 0.75 * z := by linarith
      have h4 := sub_pos.mpr this
      positivity
    exact lt_max_of_lt_right h2
  · rw [k _ (by positivity)]
    unfold Published.wallVertical
    rw [div_self (by positivity), Real.one_rpow, sub_self, mul_zero, max_self]

example := C92_crest_wall_vertical_refuted 2 8 2 1 0.45 1.45 5 1025 9.81 0.4 3 0.75 (by norm_num) (by norm_num)
  (by norm_num) (by norm_num) (by norm_num) (by norm_num) (by norm_num) (by norm_num) (by norm_num) (by norm_num)
  (by norm_num) (by norm_num)

end
