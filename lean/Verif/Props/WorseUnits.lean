import Verif.Lemmas.WorseStructural
import Verif.Props.FormulasRock

/-! # C92: worse conditions never allow smaller units (Hudson, concrete units) -/

open Classical
open PF WorseStrProof
noncomputable section

namespace WorseStrProof

theorem delta_mass {ra ra' rw rw' : ℝ} (hw : 0 < rw) (hww : rw ≤ rw') (hr' : rw' < ra') (hrr : ra' ≤ ra) :
    0 < Textbook.Delta ra' rw' ^ 3 / ra' ∧ Textbook.Delta ra' rw' ^ 3 / ra' ≤ Textbook.Delta ra rw ^ 3 / ra := by
  have hw' := hw.trans_le hww
  have hra' := hw'.trans hr'
  have hra := hra'.trans_le hrr
  have h1 := delta_pos hw' hr'
  have h2 := delta_le hw hww hr' hrr
  have h3 : Textbook.Delta ra' rw' / ra' ≤ Textbook.Delta ra rw / ra := by
    have e : ∀ ra rw : ℝ, 0 < ra → 0 < rw → Textbook.Delta ra rw / ra = 1 / rw - 1 / ra := by
      intro ra rw h1 h2; unfold Textbook.Delta; field_simp
    rw [e _ _ hra' hw', e _ _ hra hw]
    have := one_div_le_one_div_of_le hw hww
    have := one_div_le_one_div_of_le hra' hrr
    linarith
  refine ⟨by positivity, ?_⟩
  generalize Textbook.Delta ra rw = De at *
  generalize Textbook.Delta ra' rw' = De' at *
  have h0 := h1.trans_le h2
  calc De' ^ 3 / ra' = De' ^ 2 * (De' / ra') := by ring
    _ ≤ De ^ 2 * (De / ra) := by gcongr
    _ = De ^ 3 / ra := by ring

/-- the stability number of a unit with volume `V / f` -/
theorem ns_cube {H V f ra rw k : ℝ} (hw : 0 < rw) (hr : rw < ra) (hV : 0 < V) (hf : 0 < f) (hH : 0 < H) (hk : 0 < k) :
    Textbook.Ns H ((V / f) ^ ((1 : ℝ) / 3)) ra rw = k ↔ Textbook.Delta ra rw ^ 3 / f * k ^ 3 * V = H ^ 3 := by
  have hD := delta_pos hw hr
  unfold Textbook.Ns
  generalize Textbook.Delta ra rw = De at *
  obtain ⟨d, hd, rfl⟩ : ∃ d : ℝ, 0 < d ∧ V = f * d ^ 3 :=
    ⟨(V / f) ^ ((1 : ℝ) / 3), by positivity, by
      rw [← Real.rpow_natCast, ← Real.rpow_mul (by positivity)]; norm_num; field_simp⟩
  have e : (f * d ^ 3 / f) ^ ((1 : ℝ) / 3) = d := by
    rw [mul_div_cancel_left₀ _ hf.ne', ← Real.rpow_natCast, ← Real.rpow_mul hd.le]; norm_num
  have e2 : De ^ 3 / f * k ^ 3 * (f * d ^ 3) = (k * (De * d)) ^ 3 := by field_simp
  rw [e, e2, div_eq_iff (by positivity), pow_left_inj₀ (by positivity) hH.le (by norm_num), eq_comm]

/-- mass of a unit -/
theorem mass_le {H H' M M' k k' ra ra' rw rw' : ℝ} (hw : 0 < rw) (hww : rw ≤ rw') (hr' : rw' < ra') (hrr : ra' ≤ ra)
    (hH : 0 < H) (hHH : H ≤ H') (hk : 0 < k') (hkk : k' ≤ k) (hM : 0 < M) (hM' : 0 < M')
    (e : Textbook.Ns H (Published.Dn M ra) ra rw = k) (e' : Textbook.Ns H' (Published.Dn M' ra') ra' rw' = k') :
    M ≤ M' ∧ (H < H' ∨ k' < k → M < M') := by
  have hw' := hw.trans_le hww
  have hra' := hw'.trans hr'
  have hra := hra'.trans_le hrr
  have hr : rw < ra := by linarith
  unfold Published.Dn at e e'
  rw [ns_cube hw hr hM hra hH (hk.trans_le hkk)] at e
  rw [ns_cube hw' hr' hM' hra' (hH.trans_le hHH) hk] at e'
  obtain ⟨d1, d2⟩ := delta_mass hw hww hr' hrr
  have d3 := d1.trans_le d2
  have hk0 := hk.trans_le hkk
  obtain ⟨r1, r2⟩ := solve1 (by positivity) (by gcongr) (by gcongr) hM hM' e e'
  refine ⟨r1, fun hs => r2 (hs.symm.imp (fun hs => ?_) fun hs => by gcongr)⟩
  calc _ < Textbook.Delta ra' rw' ^ 3 / ra' * k ^ 3 := by gcongr
    _ ≤ _ := by gcongr

/-- wave height for a unit -/
theorem height_le {H H' M M' k k' ra ra' rw rw' : ℝ} (hw : 0 < rw) (hww : rw ≤ rw') (hr' : rw' < ra') (hrr : ra' ≤ ra)
    (hH : 0 < H) (hk : 0 < k') (hkk : k' ≤ k) (hM : 0 < M') (hMM : M' ≤ M)
    (e : Textbook.Ns H (Published.Dn M ra) ra rw = k) (e' : Textbook.Ns H' (Published.Dn M' ra') ra' rw' = k') :
    H' ≤ H ∧ (M' < M ∨ k' < k → H' < H) := by
  have hM0 := hM.trans_le hMM
  constructor
  · by_contra h
    push Not at h
    exact absurd ((mass_le hw hww hr' hrr hH h.le hk hkk hM0 hM e e').2 (.inl h)) (not_lt.mpr hMM)
  · intro hs
    by_contra h
    push Not at h
    obtain ⟨h1, h2⟩ := mass_le hw hww hr' hrr hH h hk hkk hM0 hM e e'
    rcases hs with hs | hs
    · linarith
    · linarith [h2 (.inr hs)]

/-- volume of a unit with correction factor -/
theorem volume_le {H H' V V' f f' k ra ra' rw rw' : ℝ} (hw : 0 < rw) (hww : rw ≤ rw') (hr' : rw' < ra') (hrr : ra' ≤ ra)
    (hH : 0 < H) (hHH : H ≤ H') (hf : 0 < f) (hff : f ≤ f') (hk : 0 < k) (hV : 0 < V) (hV' : 0 < V')
    (e : Published.UnitDesign k H V f ra rw) (e' : Published.UnitDesign k H' V' f' ra' rw') :
    V ≤ V' ∧ (H < H' ∨ f < f' → V < V') := by
  have hw' := hw.trans_le hww
  have hr : rw < ra := by linarith
  have hf' := hf.trans_le hff
  have hH' := hH.trans_le hHH
  unfold Published.UnitDesign at e e'
  rw [ns_cube hw hr hV hf hH hk] at e
  rw [ns_cube hw' hr' hV' hf' hH' hk] at e'
  have d1 := delta_pos hw' hr'
  have d2 := delta_le hw hww hr' hrr
  generalize Textbook.Delta ra rw = De at *
  generalize Textbook.Delta ra' rw' = De' at *
  have d3 := d1.trans_le d2
  have k1 : De ^ 3 * k ^ 3 * V = f * H ^ 3 := by field_simp at e; linarith
  have k2 : De' ^ 3 * k ^ 3 * V' = f' * H' ^ 3 := by field_simp at e'; linarith
  obtain ⟨r1, r2⟩ := solve1 (by positivity) (by gcongr) (by gcongr) hV hV' k1 k2
  refine ⟨r1, fun hs => r2 (.inr ?_)⟩
  rcases hs with hs | hs
  · calc f * H ^ 3 < f * H' ^ 3 := by gcongr
      _ ≤ _ := by gcongr
  · calc f * H ^ 3 < f' * H ^ 3 := by gcongr
      _ ≤ _ := by gcongr

/-- mass of a unit with correction factor -/
theorem unit_mass_le {H H' M M' f f' k ra ra' rw rw' : ℝ} (hw : 0 < rw) (hww : rw ≤ rw') (hr' : rw' < ra')
    (hrr : ra' ≤ ra) (hH : 0 < H) (hHH : H ≤ H') (hf : 0 < f) (hff : f ≤ f') (hk : 0 < k) (hM : 0 < M) (hM' : 0 < M')
    (e : Published.UnitDesign k H (M / ra) f ra rw) (e' : Published.UnitDesign k H' (M' / ra') f' ra' rw') :
    M ≤ M' ∧ (H < H' ∨ f < f' → M < M') := by
  have hw' := hw.trans_le hww
  have hr : rw < ra := by linarith
  have hf' := hf.trans_le hff
  have hH' := hH.trans_le hHH
  have hra' := hw'.trans hr'
  have hra := hra'.trans_le hrr
  unfold Published.UnitDesign at e e'
  rw [ns_cube hw hr (by positivity) hf hH hk] at e
  rw [ns_cube hw' hr' (by positivity) hf' hH' hk] at e'
  obtain ⟨d1, d2⟩ := delta_mass hw hww hr' hrr
  have d3 := d1.trans_le d2
  have k1 : Textbook.Delta ra rw ^ 3 / ra * k ^ 3 * M = f * H ^ 3 := by field_simp at e ⊢; linarith
  have k2 : Textbook.Delta ra' rw' ^ 3 / ra' * k ^ 3 * M' = f' * H' ^ 3 := by field_simp at e' ⊢; linarith
  obtain ⟨r1, r2⟩ := solve1 (by positivity) (by gcongr) (by gcongr) hM hM' k1 k2
  refine ⟨r1, fun hs => r2 (.inr ?_)⟩
  rcases hs with hs | hs
  · calc f * H ^ 3 < f * H' ^ 3 := by gcongr
      _ ≤ _ := by gcongr
  · calc f * H ^ 3 < f' * H ^ 3 := by gcongr
      _ ≤ _ := by gcongr

end WorseStrProof

section
variable {rw rw' ra ra' : ℝ} (hw : 0 < rw) (hww : rw ≤ rw') (hr' : rw' < ra') (hrr : ra' ≤ ra)
include hw hww hr' hrr

section
variable (KD KD' c c' a a' : ℝ) (hK : 0 < KD') (hKK : KD' ≤ KD) (hc : 0 < c') (hcc : c' ≤ c) (ha : 0 < a) (haa : a ≤ a')
include hK hKK hc hcc ha haa

/-- C92: a higher wave, lighter rock or concrete, a steeper slope or a lower stability coefficient never allow a smaller
mass (Hudson, and the concrete units designed with it) -/
theorem C92_hudson_mass (H H' : ℝ) (hH : 0 < H) (hHH : H ≤ H') :
    ∀ p ∈ [
      (pure (Hudson1959.calculate_median_rock_mass_M50_no_damage (fin H) (fin rw) (fin ra) (fin KD) (fin c) (fin a)),
        pure (Hudson1959.calculate_median_rock_mass_M50_no_damage (fin H') (fin rw') (fin ra') (fin KD') (fin c')
          (fin a'))),
      (Accropode.calculate_unit_mass_M (fin H) (fin rw) (fin ra) (fin KD) (fin c) (fin a),
        Accropode.calculate_unit_mass_M (fin H') (fin rw') (fin ra') (fin KD') (fin c') (fin a')),
      (Accropode2.calculate_unit_mass_M (fin H) (fin rw) (fin ra) (fin KD) (fin c) (fin a),
        Accropode2.calculate_unit_mass_M (fin H') (fin rw') (fin ra') (fin KD') (fin c') (fin a')),
      (pure (CoreLoc.calculate_unit_mass_M (fin H) (fin rw) (fin ra) (fin KD) (fin c) (fin a)),
        pure (CoreLoc.calculate_unit_mass_M (fin H') (fin rw') (fin ra') (fin KD') (fin c') (fin a'))),
      (pure (CubesHudson.calculate_unit_mass_M (fin H) (fin rw) (fin ra) (fin KD) (fin c) (fin a)),
        pure (CubesHudson.calculate_unit_mass_M (fin H') (fin rw') (fin ra') (fin KD') (fin c') (fin a'))),
      (pure (Cubipod.calculate_unit_mass_M (fin H) (fin rw) (fin ra) (fin KD) (fin c) (fin a)),
        pure (Cubipod.calculate_unit_mass_M (fin H') (fin rw') (fin ra') (fin KD') (fin c') (fin a'))),
      (pure (Tetrapod.calculate_unit_mass_M (fin H) (fin rw) (fin ra) (fin KD) (fin c) (fin a)),
        pure (Tetrapod.calculate_unit_mass_M (fin H') (fin rw') (fin ra') (fin KD') (fin c') (fin a')))],
    NotLess p.1 p.2 (H < H' ∨ KD' < KD ∨ c' < c ∨ a < a') := by
  have hw' := hw.trans_le hww
  have hr : rw < ra := by linarith
  have hK0 := hK.trans_le hKK
  have hc0 := hc.trans_le hcc
  have ha' := ha.trans_le haa
  have hH' := hH.trans_le hHH
  have key : ∀ M M' : ℝ, 0 < M → 0 < M' → Published.Hudson (Textbook.Ns (a * H) (Published.Dn M ra) ra rw) 1 KD c →
      Published.Hudson (Textbook.Ns (a' * H') (Published.Dn M' ra') ra' rw') 1 KD' c' →
      M ≤ M' ∧ (H < H' ∨ KD' < KD ∨ c' < c ∨ a < a' → M < M') := by
    intro M M' hM hM' e e'
    unfold Published.Hudson at e e'
    have hkk : 1 * (KD' * c') ^ ((1 : ℝ) / 3) ≤ 1 * (KD * c) ^ ((1 : ℝ) / 3) := by gcongr
    obtain ⟨r1, r2⟩ := mass_le hw hww hr' hrr (by positivity) (by gcongr) (by positivity) hkk hM hM' e e'
    refine ⟨r1, fun hs => r2 ?_⟩
    rcases hs with hs | hs | hs | hs
    · left
      calc a * H < a * H' := by gcongr
        _ ≤ _ := by gcongr
    · right
      have : KD' * c' < KD * c := by nlinarith
      gcongr
    · right
      have : KD' * c' < KD * c := by nlinarith
      gcongr
    · left
      calc a * H < a' * H := by gcongr
        _ ≤ _ := by gcongr
  have h0 := C78_hudson_mass rw ra KD c a hw hr hK0 hc0 ha H hH
  have h0' := C78_hudson_mass rw' ra' KD' c' a' hw' hr' hK hc ha' H' hH'
  have h1 := C78_concrete_units_mass rw ra KD c a hw hr hK0 hc0 ha H hH
  have h1' := C78_concrete_units_mass rw' ra' KD' c' a' hw' hr' hK hc ha' H' hH'
  intro p hp
  simp only [List.mem_cons, List.not_mem_nil, or_false] at hp
  simp only [List.mem_cons, List.not_mem_nil, or_false, forall_eq_or_imp, forall_eq] at h1 h1'
  obtain ⟨a1, a2, a3, a4, a5, a6⟩ := h1
  obtain ⟨b1, b2, b3, b4, b5, b6⟩ := h1'
  rcases hp with rfl | rfl | rfl | rfl | rfl | rfl | rfl
  · exact ofReturns h0 h0' key
  · exact ofReturns a1 b1 key
  · exact ofReturns a2 b2 key
  · exact ofReturns a3 b3 key
  · exact ofReturns a4 b4 key
  · exact ofReturns a5 b5 key
  · exact ofReturns a6 b6 key

/-- C92: a smaller or lighter unit, a steeper slope or a lower stability coefficient never resist a higher wave
(Hudson, and the concrete units designed with it) -/
theorem C92_hudson_height (M M' : ℝ) (hM : 0 < M') (hMM : M' ≤ M) :
    ∀ p ∈ [
      (pure (Hudson1959.calculate_significant_wave_height_Hs_no_damage (fin M') (fin rw') (fin ra') (fin KD') (fin c')
          (fin a')),
        pure (Hudson1959.calculate_significant_wave_height_Hs_no_damage (fin M) (fin rw) (fin ra) (fin KD) (fin c)
          (fin a))),
      (Accropode.calculate_significant_wave_height_Hs (fin M') (fin rw') (fin ra') (fin KD') (fin c') (fin a'),
        Accropode.calculate_significant_wave_height_Hs (fin M) (fin rw) (fin ra) (fin KD) (fin c) (fin a)),
      (Accropode2.calculate_significant_wave_height_Hs (fin M') (fin rw') (fin ra') (fin KD') (fin c') (fin a'),
        Accropode2.calculate_significant_wave_height_Hs (fin M) (fin rw) (fin ra) (fin KD) (fin c) (fin a)),
      (pure (CoreLoc.calculate_significant_wave_height_Hs (fin M') (fin rw') (fin ra') (fin KD') (fin c') (fin a')),
        pure (CoreLoc.calculate_significant_wave_height_Hs (fin M) (fin rw) (fin ra) (fin KD) (fin c) (fin a))),
      (pure (CubesHudson.calculate_significant_wave_height_Hs (fin M') (fin rw') (fin ra') (fin KD') (fin c') (fin a')),
        pure (CubesHudson.calculate_significant_wave_height_Hs (fin M) (fin rw) (fin ra) (fin KD) (fin c) (fin a))),
      (pure (Cubipod.calculate_significant_wave_height_Hs (fin M') (fin rw') (fin ra') (fin KD') (fin c') (fin a')),
        pure (Cubipod.calculate_significant_wave_height_Hs (fin M) (fin rw) (fin ra) (fin KD) (fin c) (fin a))),
      (pure (Tetrapod.calculate_significant_wave_height_Hs (fin M') (fin rw') (fin ra') (fin KD') (fin c') (fin a')),
        pure (Tetrapod.calculate_significant_wave_height_Hs (fin M) (fin rw) (fin ra) (fin KD) (fin c) (fin a)))],
    NotLess p.1 p.2 (M' < M ∨ KD' < KD ∨ c' < c ∨ a < a') := by
  have hw' := hw.trans_le hww
  have hr : rw < ra := by linarith
  have hK0 := hK.trans_le hKK
  have hc0 := hc.trans_le hcc
  have ha' := ha.trans_le haa
  have hM0 := hM.trans_le hMM
  have key : ∀ H' H : ℝ, 0 < H' → 0 < H → Published.Hudson (Textbook.Ns (a' * H') (Published.Dn M' ra') ra' rw') 1 KD' c' →
      Published.Hudson (Textbook.Ns (a * H) (Published.Dn M ra) ra rw) 1 KD c →
      H' ≤ H ∧ (M' < M ∨ KD' < KD ∨ c' < c ∨ a < a' → H' < H) := by
    intro H' H hH' hH e' e
    unfold Published.Hudson at e e'
    have hkk : 1 * (KD' * c') ^ ((1 : ℝ) / 3) ≤ 1 * (KD * c) ^ ((1 : ℝ) / 3) := by gcongr
    obtain ⟨r1, r2⟩ := height_le hw hww hr' hrr (by positivity) (by positivity) hkk hM hMM e e'
    have r3 : a * H' ≤ a' * H' := by gcongr
    refine ⟨le_of_mul_le_mul_left (r3.trans r1) ha, fun hs => ?_⟩
    refine lt_of_mul_lt_mul_left (a := a) ?_ ha.le
    rcases hs with hs | hs | hs | hs
    · exact r3.trans_lt (r2 (.inl hs))
    · refine r3.trans_lt (r2 (.inr ?_))
      have : KD' * c' < KD * c := by nlinarith
      gcongr
    · refine r3.trans_lt (r2 (.inr ?_))
      have : KD' * c' < KD * c := by nlinarith
      gcongr
    · exact (by gcongr : a * H' < a' * H').trans_le r1
  have h0 := C78_hudson_height rw ra KD c a hw hr hK0 hc0 ha M hM0
  have h0' := C78_hudson_height rw' ra' KD' c' a' hw' hr' hK hc ha' M' hM
  have h1 := C78_concrete_units_height rw ra KD c a hw hr hK0 hc0 ha M hM0
  have h1' := C78_concrete_units_height rw' ra' KD' c' a' hw' hr' hK hc ha' M' hM
  intro p hp
  simp only [List.mem_cons, List.not_mem_nil, or_false] at hp
  simp only [List.mem_cons, List.not_mem_nil, or_false, forall_eq_or_imp, forall_eq] at h1 h1'
  obtain ⟨a1, a2, a3, a4, a5, a6⟩ := h1
  obtain ⟨b1, b2, b3, b4, b5, b6⟩ := h1'
  rcases hp with rfl | rfl | rfl | rfl | rfl | rfl | rfl
  · exact ofReturns h0' h0 key
  · exact ofReturns b1 a1 key
  · exact ofReturns b2 a2 key
  · exact ofReturns b3 a3 key
  · exact ofReturns b4 a4 key
  · exact ofReturns b5 a5 key
  · exact ofReturns b6 a6 key

end

/-- C92: a higher wave, lighter concrete or a larger correction factor never allow a smaller Xbloc or XblocPlus -/
theorem C92_xbloc_size (H H' f f' : ℝ) (hH : 0 < H) (hHH : H ≤ H') (hf : 0 < f) (hff : f ≤ f') :
    ∀ p ∈ [
      (Xbloc.calculate_unit_volume_V (fin H) (fin rw) (fin ra) (fin f),
        Xbloc.calculate_unit_volume_V (fin H') (fin rw') (fin ra') (fin f')),
      (Xbloc.calculate_unit_mass_M (fin H) (fin rw) (fin ra) (fin f),
        Xbloc.calculate_unit_mass_M (fin H') (fin rw') (fin ra') (fin f')),
      (XblocPlus.calculate_unit_volume_V (fin H) (fin rw) (fin ra) (fin f),
        XblocPlus.calculate_unit_volume_V (fin H') (fin rw') (fin ra') (fin f')),
      (XblocPlus.calculate_unit_mass_M (fin H) (fin rw) (fin ra) (fin f),
        XblocPlus.calculate_unit_mass_M (fin H') (fin rw') (fin ra') (fin f'))],
    NotLess (pure p.1) (pure p.2) (H < H' ∨ f < f') := by
  have hw' := hw.trans_le hww
  have hr : rw < ra := by linarith
  have hf' := hf.trans_le hff
  have hH' := hH.trans_le hHH
  obtain ⟨a1, a2, a3, a4⟩ := C78_xbloc_size rw ra f hw hr hf H hH
  obtain ⟨b1, b2, b3, b4⟩ := C78_xbloc_size rw' ra' f' hw' hr' hf' H' hH'
  intro p hp
  simp only [List.mem_cons, List.not_mem_nil, or_false] at hp
  rcases hp with rfl | rfl | rfl | rfl
  · exact ofReturns a1 b1 fun _ _ h h' => volume_le hw hww hr' hrr hH hHH hf hff (by norm_num) h h'
  · exact ofReturns a2 b2 fun _ _ h h' => unit_mass_le hw hww hr' hrr hH hHH hf hff (by norm_num) h h'
  · exact ofReturns a3 b3 fun _ _ h h' => volume_le hw hww hr' hrr hH hHH hf hff (by norm_num) h h'
  · exact ofReturns a4 b4 fun _ _ h h' => unit_mass_le hw hww hr' hrr hH hHH hf hff (by norm_num) h h'

/-- C92: a smaller or lighter Xbloc or XblocPlus, or a larger correction factor, never resists a higher wave -/
theorem C92_xbloc_height (V V' f f' : ℝ) (hV : 0 < V') (hVV : V' ≤ V) (hf : 0 < f) (hff : f ≤ f') :
    ∀ p ∈ [
      (Xbloc.calculate_wave_height_Hs_from_V (fin V') (fin rw') (fin ra') (fin f'),
        Xbloc.calculate_wave_height_Hs_from_V (fin V) (fin rw) (fin ra) (fin f)),
      (Xbloc.calculate_wave_height_Hs_from_M (fin V') (fin rw') (fin ra') (fin f'),
        Xbloc.calculate_wave_height_Hs_from_M (fin V) (fin rw) (fin ra) (fin f)),
      (XblocPlus.calculate_wave_height_Hs_from_V (fin V') (fin rw') (fin ra') (fin f'),
        XblocPlus.calculate_wave_height_Hs_from_V (fin V) (fin rw) (fin ra) (fin f)),
      (XblocPlus.calculate_wave_height_Hs_from_M (fin V') (fin rw') (fin ra') (fin f'),
        XblocPlus.calculate_wave_height_Hs_from_M (fin V) (fin rw) (fin ra) (fin f))],
    NotLess (pure p.1) (pure p.2) (V' < V ∨ f < f') := by
  have hw' := hw.trans_le hww
  have hr : rw < ra := by linarith
  have hf' := hf.trans_le hff
  have hV0 := hV.trans_le hVV
  have kV : ∀ k : ℝ, 0 < k → ∀ H' H : ℝ, 0 < H' → 0 < H → Published.UnitDesign k H' V' f' ra' rw' →
      Published.UnitDesign k H V f ra rw → H' ≤ H ∧ (V' < V ∨ f < f' → H' < H) := by
    intro k hk H' H hH' hH e' e
    constructor
    · by_contra h
      push Not at h
      linarith [(volume_le hw hww hr' hrr hH h.le hf hff hk hV0 hV e e').2 (.inl h)]
    · intro hs
      by_contra h
      push Not at h
      obtain ⟨h1, h2⟩ := volume_le hw hww hr' hrr hH h hf hff hk hV0 hV e e'
      rcases hs with hs | hs
      · linarith
      · linarith [h2 (.inr hs)]
  have kM : ∀ k : ℝ, 0 < k → ∀ H' H : ℝ, 0 < H' → 0 < H → Published.UnitDesign k H' (V' / ra') f' ra' rw' →
      Published.UnitDesign k H (V / ra) f ra rw → H' ≤ H ∧ (V' < V ∨ f < f' → H' < H) := by
    intro k hk H' H hH' hH e' e
    constructor
    · by_contra h
      push Not at h
      linarith [(unit_mass_le hw hww hr' hrr hH h.le hf hff hk hV0 hV e e').2 (.inl h)]
    · intro hs
      by_contra h
      push Not at h
      obtain ⟨h1, h2⟩ := unit_mass_le hw hww hr' hrr hH h hf hff hk hV0 hV e e'
      rcases hs with hs | hs
      · linarith
      · linarith [h2 (.inr hs)]
  obtain ⟨a1, a2, a3, a4⟩ := C78_xbloc_height rw ra f hw hr hf V hV0
  obtain ⟨b1, b2, b3, b4⟩ := C78_xbloc_height rw' ra' f' hw' hr' hf' V' hV
  intro p hp
  simp only [List.mem_cons, List.not_mem_nil, or_false] at hp
  rcases hp with rfl | rfl | rfl | rfl
  · exact ofReturns b1 a1 (kV _ (by norm_num))
  · exact ofReturns b2 a2 (kM _ (by norm_num))
  · exact ofReturns b3 a3 (kV _ (by norm_num))
  · exact ofReturns b4 a4 (kM _ (by norm_num))

/-- C92: a higher wave or lighter concrete never allow smaller cubes in a single layer, and lighter cubes never resist a
higher wave (Van Gent et al. 2002) -/
theorem C92_cubes_single (H H' M M' Ns Ns' : ℝ) (hH : 0 < H) (hHH : H ≤ H') (hM : 0 < M') (hMM : M' ≤ M)
    (hN : 0 < Ns') (hNN : Ns' ≤ Ns) :
    (∀ p ∈ [
      (CubesSingle.calculate_unit_mass_M_start_of_damage (fin H) (fin rw) (fin ra) (fin Ns),
        CubesSingle.calculate_unit_mass_M_start_of_damage (fin H') (fin rw') (fin ra') (fin Ns')),
      (CubesSingle.calculate_unit_mass_M_failure (fin H) (fin rw) (fin ra) (fin Ns),
        CubesSingle.calculate_unit_mass_M_failure (fin H') (fin rw') (fin ra') (fin Ns'))],
    NotLess p.1 p.2 (H < H' ∨ Ns' < Ns)) ∧
    ∀ p ∈ [
      (CubesSingle.calculate_significant_wave_height_Hs_start_of_damage (fin M') (fin rw') (fin ra') (fin Ns'),
        CubesSingle.calculate_significant_wave_height_Hs_start_of_damage (fin M) (fin rw) (fin ra) (fin Ns)),
      (CubesSingle.calculate_significant_wave_height_Hs_failure (fin M') (fin rw') (fin ra') (fin Ns'),
        CubesSingle.calculate_significant_wave_height_Hs_failure (fin M) (fin rw) (fin ra) (fin Ns))],
    NotLess p.1 p.2 (M' < M ∨ Ns' < Ns) := by
  have hw' := hw.trans_le hww
  have hr : rw < ra := by linarith
  obtain ⟨a, b, -⟩ := C78_cubes_single H rw ra M hH hw hr (hM.trans_le hMM)
  obtain ⟨a', b', -⟩ := C78_cubes_single H' rw' ra' M' (hH.trans_le hHH) hw' hr' hM
  have a := a Ns (hN.trans_le hNN)
  have b := b Ns (hN.trans_le hNN)
  have a' := a' Ns' hN
  have b' := b' Ns' hN
  simp only [List.mem_cons, List.not_mem_nil, or_false, forall_eq_or_imp, forall_eq] at a b a' b' ⊢
  exact ⟨⟨ofReturns a.1 a'.1 fun _ _ h h' => mass_le hw hww hr' hrr hH hHH hN hNN h h',
      ofReturns a.2 a'.2 fun _ _ h h' => mass_le hw hww hr' hrr hH hHH hN hNN h h'⟩,
    ofReturns b'.1 b.1 fun _ _ _ h e' e => height_le hw hww hr' hrr h hN hNN hM hMM e e',
    ofReturns b'.2 b.2 fun _ _ _ h e' e => height_le hw hww hr' hrr h hN hNN hM hMM e e'⟩

/-- C92: a higher or shorter wave, more waves, lighter concrete or a stricter damage limit never allow smaller cubes in a
double layer (Van der Meer 1988) -/
theorem C92_cubes_double_size (H H' T T' N N' Nod Nod' c c' : ℝ) (hH : 0 < H) (hHH : H ≤ H') (hT : 0 < T') (hTT : T' ≤ T)
    (hN : 0 < N) (hNN : N ≤ N') (hd : 0 < Nod') (hdd : Nod' ≤ Nod) :
    NotLess (CubesVdM.calculate_nominal_diameter_Dn_vanDerMeer1988 (fin H) (fin T) (fin rw) (fin ra) (fin N) (fin c)
        (fin Nod))
      (CubesVdM.calculate_nominal_diameter_Dn_vanDerMeer1988 (fin H') (fin T') (fin rw') (fin ra') (fin N') (fin c')
        (fin Nod'))
      (H < H' ∨ Nod' < Nod) := by
  have hw' := hw.trans_le hww
  have hr : rw < ra := by linarith
  have hH' := hH.trans_le hHH
  have hT0 := hT.trans_le hTT
  have hN' := hN.trans_le hNN
  have hd0 := hd.trans_le hdd
  have hpi := Real.pi_pos
  refine ofReturns (C78_cubes_double_size rw ra N c hw hr hN H T Nod hH hT0 hd0)
    (C78_cubes_double_size rw' ra' N' c' hw' hr' hN' H' T' Nod' hH' hT hd) ?_
  intro D D' hD hD' e e'
  have hs : Textbook.steepness H T ≤ Textbook.steepness H' T' := by unfold Textbook.steepness; gcongr
  have hs0 : 0 < Textbook.steepness H T := by unfold Textbook.steepness; positivity
  have hs' := hs0.trans_le hs
  have hsp : Textbook.steepness H' T' ^ (-0.1 : ℝ) ≤ Textbook.steepness H T ^ (-0.1 : ℝ) :=
    Real.rpow_le_rpow_of_nonpos hs0 hs (by norm_num)
  have hsp' : 0 < Textbook.steepness H' T' ^ (-0.1 : ℝ) := by positivity
  unfold Published.CubesDouble Textbook.Ns at e e'
  have d1 := delta_pos hw' hr'
  have d2 := delta_le hw hww hr' hrr
  generalize Textbook.Delta ra rw = De at *
  generalize Textbook.Delta ra' rw' = De' at *
  have d3 := d1.trans_le d2
  have hk : 6.7 * Nod' ^ (0.4 : ℝ) / N' ^ (0.3 : ℝ) + 1 ≤ 6.7 * Nod ^ (0.4 : ℝ) / N ^ (0.3 : ℝ) + 1 := by gcongr
  have hk' : Nod' < Nod → 6.7 * Nod' ^ (0.4 : ℝ) / N' ^ (0.3 : ℝ) + 1 < 6.7 * Nod ^ (0.4 : ℝ) / N ^ (0.3 : ℝ) + 1 := by
    intro h
    calc _ < 6.7 * Nod ^ (0.4 : ℝ) / N' ^ (0.3 : ℝ) + 1 := by gcongr
      _ ≤ _ := by gcongr
  have hk0 : 0 < 6.7 * Nod' ^ (0.4 : ℝ) / N' ^ (0.3 : ℝ) + 1 := by positivity
  generalize 6.7 * Nod' ^ (0.4 : ℝ) / N' ^ (0.3 : ℝ) + 1 = k' at *
  generalize 6.7 * Nod ^ (0.4 : ℝ) / N ^ (0.3 : ℝ) + 1 = k at *
  generalize Textbook.steepness H' T' ^ (-0.1 : ℝ) = s' at *
  generalize Textbook.steepness H T ^ (-0.1 : ℝ) = s at *
  have k0 := hk0.trans_le hk
  have s0 := hsp'.trans_le hsp
  have k1 : De * (k * s) * D = H := by field_simp at e; linarith
  have k2 : De' * (k' * s') * D' = H' := by field_simp at e'; linarith
  obtain ⟨r1, r2⟩ := solve1 (by positivity) (by gcongr) hHH hD hD' k1 k2
  refine ⟨r1, fun hs => r2 (hs.symm.imp_left fun h => ?_)⟩
  calc _ < De' * (k * s') := by gcongr; exact hk' h
    _ ≤ _ := by gcongr

/-- C92: smaller or lighter cubes, more waves, steeper waves or a stricter damage limit never resist a higher wave
(Van der Meer 1988, double layer) -/
theorem C92_cubes_double_height (D D' s s' N N' Nod Nod' c c' : ℝ) (hD : 0 < D') (hDD : D' ≤ D) (hs : 0 < s)
    (hss : s ≤ s') (hN : 0 < N) (hNN : N ≤ N') (hd : 0 < Nod') (hdd : Nod' ≤ Nod) :
    NotLess (CubesVdM.calculate_wave_height_Hs_vanDerMeer1988 (fin D') (fin s') (fin rw') (fin ra') (fin N') (fin c')
        (fin Nod'))
      (CubesVdM.calculate_wave_height_Hs_vanDerMeer1988 (fin D) (fin s) (fin rw) (fin ra) (fin N) (fin c) (fin Nod))
      (D' < D ∨ Nod' < Nod) := by
  have hw' := hw.trans_le hww
  have hr : rw < ra := by linarith
  have hD0 := hD.trans_le hDD
  have hN' := hN.trans_le hNN
  have hd0 := hd.trans_le hdd
  have hs' := hs.trans_le hss
  refine ofReturns (C78_cubes_double_height rw' ra' N' c' s' hw' hr' hN' hs' D' Nod' hD hd)
    (C78_cubes_double_height rw ra N c s hw hr hN hs D Nod hD0 hd0) ?_
  intro H' H hH' hH e' e
  have hsp : s' ^ (-0.1 : ℝ) ≤ s ^ (-0.1 : ℝ) := Real.rpow_le_rpow_of_nonpos hs hss (by norm_num)
  have hsp' : 0 < s' ^ (-0.1 : ℝ) := by positivity
  unfold Published.CubesDouble Textbook.Ns at e e'
  have d1 := delta_pos hw' hr'
  have d2 := delta_le hw hww hr' hrr
  generalize Textbook.Delta ra rw = De at *
  generalize Textbook.Delta ra' rw' = De' at *
  have d3 := d1.trans_le d2
  have hk : 6.7 * Nod' ^ (0.4 : ℝ) / N' ^ (0.3 : ℝ) + 1 ≤ 6.7 * Nod ^ (0.4 : ℝ) / N ^ (0.3 : ℝ) + 1 := by gcongr
  have hk' : Nod' < Nod → 6.7 * Nod' ^ (0.4 : ℝ) / N' ^ (0.3 : ℝ) + 1 < 6.7 * Nod ^ (0.4 : ℝ) / N ^ (0.3 : ℝ) + 1 := by
    intro h
    calc _ < 6.7 * Nod ^ (0.4 : ℝ) / N' ^ (0.3 : ℝ) + 1 := by gcongr
      _ ≤ _ := by gcongr
  have hk0 : 0 < 6.7 * Nod' ^ (0.4 : ℝ) / N' ^ (0.3 : ℝ) + 1 := by positivity
  generalize 6.7 * Nod' ^ (0.4 : ℝ) / N' ^ (0.3 : ℝ) + 1 = k' at *
  generalize 6.7 * Nod ^ (0.4 : ℝ) / N ^ (0.3 : ℝ) + 1 = k at *
  generalize s' ^ (-0.1 : ℝ) = t' at *
  generalize s ^ (-0.1 : ℝ) = t at *
  have k0 := hk0.trans_le hk
  have t0 := hsp'.trans_le hsp
  rw [div_eq_iff (by positivity)] at e e'
  subst e e'
  refine ⟨by gcongr, fun hs => ?_⟩
  rcases hs with hs | hs
  · calc _ < k' * t' * (De' * D) := by gcongr
      _ ≤ _ := by gcongr
  · calc _ < k * t' * (De' * D') := by gcongr; exact hk' hs
      _ ≤ _ := by gcongr

/-- C92: a higher or steeper wave, more waves, smaller or lighter cubes never give less damage (Van der Meer 1988, double
layer, above the stability number without damage) -/
theorem C92_cubes_double_damage (H H' D D' s s' N N' c c' : ℝ) (hH : 0 < H) (hHH : H ≤ H') (hD : 0 < D') (hDD : D' ≤ D)
    (hs : 0 < s) (hss : s ≤ s') (hN : 0 < N) (hNN : N ≤ N') (hd : s ^ (-0.1 : ℝ) < Textbook.Ns H D ra rw) :
    NotLess (CubesVdM.calculate_damage_Nod_vanDerMeer1988 (fin H) (fin D) (fin s) (fin rw) (fin ra) (fin N) (fin c))
      (CubesVdM.calculate_damage_Nod_vanDerMeer1988 (fin H') (fin D') (fin s') (fin rw') (fin ra') (fin N') (fin c'))
      (H < H' ∨ D' < D ∨ s < s' ∨ N < N') := by
  have hw' := hw.trans_le hww
  have hr : rw < ra := by linarith
  have hD0 := hD.trans_le hDD
  have hH' := hH.trans_le hHH
  have hN' := hN.trans_le hNN
  have hs' := hs.trans_le hss
  have hsp : s' ^ (-0.1 : ℝ) ≤ s ^ (-0.1 : ℝ) := Real.rpow_le_rpow_of_nonpos hs hss (by norm_num)
  have hsp' : 0 < s' ^ (-0.1 : ℝ) := by positivity
  have d1 := delta_pos hw' hr'
  have d2 := delta_le hw hww hr' hrr
  have d3 := d1.trans_le d2
  have hNs : Textbook.Ns H D ra rw ≤ Textbook.Ns H' D' ra' rw' := by unfold Textbook.Ns; gcongr
  have hNs' : H < H' ∨ D' < D → Textbook.Ns H D ra rw < Textbook.Ns H' D' ra' rw' := by
    intro h
    refine (quot hH hHH (by positivity) (by gcongr)).2 (h.imp_right fun h => ?_)
    calc _ < Textbook.Delta ra' rw' * D := by gcongr
      _ ≤ _ := by gcongr
  refine ofReturns (C78_cubes_double_damage rw ra N c s hw hr hN hs H D hH hD0 hd)
    (C78_cubes_double_damage rw' ra' N' c' s' hw' hr' hN' hs' H' D' hH' hD (by linarith)) ?_
  intro n n' hn hn' e e'
  unfold Published.CubesDouble at e e'
  have hst : s < s' → s' ^ (-0.1 : ℝ) < s ^ (-0.1 : ℝ) := fun h => Real.rpow_lt_rpow_of_neg hs h (by norm_num)
  generalize Textbook.Ns H D ra rw = x at *
  generalize Textbook.Ns H' D' ra' rw' = x' at *
  generalize s' ^ (-0.1 : ℝ) = t' at *
  generalize s ^ (-0.1 : ℝ) = t at *
  have t0 := hsp'.trans_le hsp
  have x0 := t0.trans hd
  have hM : N ^ (0.3 : ℝ) ≤ N' ^ (0.3 : ℝ) := by gcongr
  have hMt : N < N' → N ^ (0.3 : ℝ) < N' ^ (0.3 : ℝ) := fun h => by gcongr
  have hM0 : 0 < N ^ (0.3 : ℝ) := by positivity
  generalize N ^ (0.3 : ℝ) = M at *
  generalize N' ^ (0.3 : ℝ) = M' at *
  have hM1 := hM0.trans_le hM
  have k1 : 6.7 * n ^ (0.4 : ℝ) = (x / t - 1) * M := by
    rw [e]; field_simp; ring
  have k2 : 6.7 * n' ^ (0.4 : ℝ) = (x' / t' - 1) * M' := by
    rw [e']; field_simp; ring
  have h1 : 0 < x / t - 1 := by rw [sub_pos, lt_div_iff₀ t0]; linarith
  obtain ⟨q1, q2⟩ := quot x0 hNs hsp' hsp
  have hB : (x / t - 1) * M ≤ (x' / t' - 1) * M' := by
    apply mul_le_mul (by linarith) hM hM0.le (by linarith)
  obtain ⟨r1, r2⟩ := solve (by norm_num) (by norm_num) le_rfl hB hn hn' k1 k2
  refine ⟨r1, fun h => r2 (.inr ?_)⟩
  have hq : H < H' ∨ D' < D ∨ s < s' → x / t < x' / t' := by
    rintro (h | h | h)
    · exact q2 (.inl (hNs' (.inl h)))
    · exact q2 (.inl (hNs' (.inr h)))
    · exact q2 (.inr (hst h))
  by_cases h4 : N < N'
  · nlinarith [hMt h4]
  · have : H < H' ∨ D' < D ∨ s < s' := by
      rcases h with h | h | h | h
      exacts [.inl h, .inr (.inl h), .inr (.inr h), absurd h h4]
    nlinarith [hq this]

end

/-- the hypotheses are satisfiable -/
example := C92_hudson_mass (rw := 1000) (rw' := 1025) (ra := 2650) (ra' := 2600) (by norm_num) (by norm_num)
  (by norm_num) (by norm_num) 4 2 2 1.5 1 1.27 (by norm_num) (by norm_num) (by norm_num) (by norm_num) (by norm_num)
  (by norm_num) 2 3 (by norm_num) (by norm_num)
example := C92_hudson_height (rw := 1000) (rw' := 1025) (ra := 2650) (ra' := 2600) (by norm_num) (by norm_num)
  (by norm_num) (by norm_num) 4 2 2 1.5 1 1.27 (by norm_num) (by norm_num) (by norm_num) (by norm_num) (by norm_num)
  (by norm_num) 3000 2000 (by norm_num) (by norm_num)
example := And.intro (C92_xbloc_size (rw := 1000) (rw' := 1025) (ra := 2650) (ra' := 2600) (by norm_num) (by norm_num)
  (by norm_num) (by norm_num) 2 3 1 1.5 (by norm_num) (by norm_num) (by norm_num) (by norm_num))
  (C92_xbloc_height (rw := 1000) (rw' := 1025) (ra := 2650) (ra' := 2600) (by norm_num) (by norm_num)
  (by norm_num) (by norm_num) 2 1 1 1.5 (by norm_num) (by norm_num) (by norm_num) (by norm_num))
example := C92_cubes_single (rw := 1000) (rw' := 1025) (ra := 2650) (ra' := 2600) (by norm_num) (by norm_num)
  (by norm_num) (by norm_num) 2 3 4000 3000 3.5 2.9 (by norm_num) (by norm_num) (by norm_num) (by norm_num)
  (by norm_num) (by norm_num)
example := And.intro (C92_cubes_double_size (rw := 1000) (rw' := 1025) (ra := 2650) (ra' := 2600) (by norm_num)
  (by norm_num) (by norm_num) (by norm_num) 2 3 8 7 1000 3000 1 0.5 1.5 1.5 (by norm_num) (by norm_num) (by norm_num)
  (by norm_num) (by norm_num) (by norm_num) (by norm_num) (by norm_num))
  (C92_cubes_double_height (rw := 1000) (rw' := 1025) (ra := 2650) (ra' := 2600) (by norm_num)
  (by norm_num) (by norm_num) (by norm_num) 2 1 0.02 0.03 1000 3000 1 0.5 1.5 1.5 (by norm_num) (by norm_num)
  (by norm_num) (by norm_num) (by norm_num) (by norm_num) (by norm_num) (by norm_num))
example := C92_cubes_double_damage (rw := 1000) (rw' := 1025) (ra := 2000) (ra' := 1900) (by norm_num)
  (by norm_num) (by norm_num) (by norm_num) 4 5 1 0.9 1 1.1 1000 3000 1.5 1.5 (by norm_num) (by norm_num)
  (by norm_num) (by norm_num) (by norm_num) (by norm_num) (by norm_num) (by norm_num)
  (by unfold Textbook.Ns Textbook.Delta; rw [Real.one_rpow]; norm_num)
