import Verif.Lemmas.WorseStructural
import Verif.Props.FormulasToe

/-! # C92: worse conditions never make a toe look safer -/

open Classical
open PF WorseStrProof
noncomputable section

section
variable {ra ra' rw rw' : ℝ} (h h' : PF) (hw : 0 < rw) (hww : rw ≤ rw') (hr' : rw' < ra') (hrr : ra' ≤ ra)
include hw hww hr' hrr

/-- C92: a higher wave, smaller or lighter stones or less water above the toe never give less damage
(Gerding 1993) -/
theorem C92_gerding_damage (H H' D D' ht ht' : ℝ) (hH : 0 < H) (hHH : H ≤ H') (hD : 0 < D') (hDD : D' ≤ D)
    (hht : 0 ≤ ht') (htt : ht' ≤ ht) :
    NotLess (Gerding1993.calculate_damage_Nod (fin H) (fin ht) h (fin D) (fin ra) (fin rw))
      (Gerding1993.calculate_damage_Nod (fin H') (fin ht') h' (fin D') (fin ra') (fin rw'))
      (H < H' ∨ D' < D ∨ ht' < ht) := by
  have hw' := hw.trans_le hww
  have hr : rw < ra := by linarith
  have hDe' := delta_pos hw' hr'
  have hDe := delta_le hw hww hr' hrr
  have hD0 := hD.trans_le hDD
  have hh0 := hht.trans htt
  refine ofReturns (C78_gerding_damage ra rw h hw hr H D ht hH hD0 (by positivity))
    (C78_gerding_damage ra' rw' h' hw' hr' H' D' ht' (hH.trans_le hHH) hD (by positivity)) ?_
  intro n n' hn hn' e e'
  unfold Published.Gerding Textbook.Ns at e e'
  generalize Textbook.Delta ra rw = De at *
  generalize Textbook.Delta ra' rw' = De' at *
  have hDe0 := hDe'.trans_le hDe
  have k : (0.24 * ht + 1.6 * D) * n ^ (0.15 : ℝ) = H / De := by
    field_simp at e ⊢; linarith
  have k' : (0.24 * ht' + 1.6 * D') * n' ^ (0.15 : ℝ) = H' / De' := by
    field_simp at e' ⊢; linarith
  have hB : H / De ≤ H' / De' := by gcongr; linarith
  obtain ⟨r1, r2⟩ := solve (by norm_num) (by positivity) (by linarith) hB hn hn' k k'
  refine ⟨r1, fun hs => r2 ?_⟩
  rcases hs with hs | hs | hs
  · right
    calc H / De < H' / De := by gcongr
      _ ≤ H' / De' := by gcongr; linarith
  · left; linarith
  · left; linarith

example := C92_gerding_damage (ra := 2650) (ra' := 2600) (rw := 1000) (rw' := 1025) nan nan (by norm_num) (by norm_num)
  (by norm_num) (by norm_num) 2 2.5 1 0.9 5 4 (by norm_num) (by norm_num) (by norm_num) (by norm_num) (by norm_num)
  (by norm_num)

/-- C92: a higher wave, lighter stones, less water above the toe or a stricter damage limit never allow a smaller
stone (Gerding 1993) -/
theorem C92_gerding_size (H H' N N' ht ht' : ℝ) (hH : 0 < H) (hHH : H ≤ H') (hN : 0 < N') (hNN : N' ≤ N)
    (htt : ht' ≤ ht) :
    NotLess (Gerding1993.calculate_nominal_diameter_Dn50 (fin H) (fin ht) h (fin N) (fin ra) (fin rw))
      (Gerding1993.calculate_nominal_diameter_Dn50 (fin H') (fin ht') h' (fin N') (fin ra') (fin rw'))
      (H < H' ∨ N' < N ∨ ht' < ht) := by
  have hw' := hw.trans_le hww
  have hr : rw < ra := by linarith
  have hDe' := delta_pos hw' hr'
  have hDe := delta_le hw hww hr' hrr
  have hN0 := hN.trans_le hNN
  have e : ∀ H De n ht : ℝ, 0 < De → 0 < n →
      (H / De - n * 0.24 * ht) / (n * 1.6) = H / (De * n * 1.6) - 0.15 * ht := by
    intro H De n ht h1 h2; field_simp; ring
  refine ⟨_, _, GerdingProof.Dn_eval h hw hr hN0, GerdingProof.Dn_eval h' hw' hr' hN, ?_⟩
  change (_ / Textbook.Delta ra rw - _) / _ ≤ (_ / Textbook.Delta ra' rw' - _) / _ ∧
    (_ → (_ / Textbook.Delta ra rw - _) / _ < (_ / Textbook.Delta ra' rw' - _) / _)
  generalize Textbook.Delta ra rw = De at *
  generalize Textbook.Delta ra' rw' = De' at *
  have hDe0 := hDe'.trans_le hDe
  have hn : 0 < N' ^ (0.15 : ℝ) := by positivity
  have hnn : N' ^ (0.15 : ℝ) ≤ N ^ (0.15 : ℝ) := Real.rpow_le_rpow hN.le hNN (by norm_num)
  rw [e _ _ _ _ hDe0 (hn.trans_le hnn), e _ _ _ _ hDe' hn]
  have hd : De' * N' ^ (0.15 : ℝ) * 1.6 ≤ De * N ^ (0.15 : ℝ) * 1.6 := by gcongr
  obtain ⟨r1, r2⟩ := quot hH hHH (by positivity) hd
  refine ⟨by linarith, fun hs => ?_⟩
  rcases hs with hs | hs | hs
  · linarith [r2 (.inl hs)]
  · have h1 : N' ^ (0.15 : ℝ) < N ^ (0.15 : ℝ) := Real.rpow_lt_rpow hN.le hs (by norm_num)
    have : De' * N' ^ (0.15 : ℝ) * 1.6 < De * N ^ (0.15 : ℝ) * 1.6 := by
      calc _ < De' * N ^ (0.15 : ℝ) * 1.6 := by gcongr
        _ ≤ _ := by gcongr
    linarith [r2 (.inr this)]
  · linarith

example := C92_gerding_size (ra := 2650) (ra' := 2600) (rw := 1000) (rw' := 1025) nan nan (by norm_num) (by norm_num)
  (by norm_num) (by norm_num) 2 2.5 1 0.5 5 4 (by norm_num) (by norm_num) (by norm_num) (by norm_num) (by norm_num)

/-- C92: smaller or lighter stones, less water above the toe or a stricter damage limit never resist a higher wave
(Gerding 1993) -/
theorem C92_gerding_height (D D' N N' ht ht' : ℝ) (hD : 0 < D') (hDD : D' ≤ D) (hN : 0 < N') (hNN : N' ≤ N)
    (hht : 0 ≤ ht') (htt : ht' ≤ ht) :
    NotLess (Gerding1993.calculate_wave_height_Hs (fin D') (fin ht') h' (fin N') (fin ra') (fin rw'))
      (Gerding1993.calculate_wave_height_Hs (fin D) (fin ht) h (fin N) (fin ra) (fin rw))
      (D' < D ∨ N' < N ∨ ht' < ht) := by
  have hw' := hw.trans_le hww
  have hr : rw < ra := by linarith
  have hDe' := delta_pos hw' hr'
  have hDe := delta_le hw hww hr' hrr
  have hN0 := hN.trans_le hNN
  have hD0 := hD.trans_le hDD
  refine ⟨_, _, GerdingProof.Hs_eval h' hw' hr' hD hN, GerdingProof.Hs_eval h hw hr hD0 hN0, ?_⟩
  change _ * Textbook.Delta ra' rw' * _ ≤ _ * Textbook.Delta ra rw * _ ∧
    (_ → _ * Textbook.Delta ra' rw' * _ < _ * Textbook.Delta ra rw * _)
  generalize Textbook.Delta ra rw = De at *
  generalize Textbook.Delta ra' rw' = De' at *
  have hDe0 := hDe'.trans_le hDe
  have hn : 0 < N' ^ (0.15 : ℝ) := by positivity
  have hnn : N' ^ (0.15 : ℝ) ≤ N ^ (0.15 : ℝ) := Real.rpow_le_rpow hN.le hNN (by norm_num)
  have hn0 := hn.trans_le hnn
  have hht0 := hht.trans htt
  unfold GerdingProof.K
  refine ⟨by gcongr, fun hs => ?_⟩
  rcases hs with hs | hs | hs
  · have : 1.6 * D' + 0.24 * ht' < 1.6 * D + 0.24 * ht := by linarith
    calc _ < N' ^ (0.15 : ℝ) * De' * (1.6 * D + 0.24 * ht) := by gcongr
      _ ≤ _ := by gcongr
  · have h1 : N' ^ (0.15 : ℝ) < N ^ (0.15 : ℝ) := Real.rpow_lt_rpow hN.le hs (by norm_num)
    calc _ < N ^ (0.15 : ℝ) * De' * (1.6 * D' + 0.24 * ht') := by gcongr
      _ ≤ _ := by gcongr
  · have : 1.6 * D' + 0.24 * ht' < 1.6 * D + 0.24 * ht := by linarith
    calc _ < N' ^ (0.15 : ℝ) * De' * (1.6 * D + 0.24 * ht) := by gcongr
      _ ≤ _ := by gcongr

example := C92_gerding_height (ra := 2650) (ra' := 2600) (rw := 1000) (rw' := 1025) nan nan (by norm_num)
  (by norm_num) (by norm_num) (by norm_num) 1 0.9 1 0.5 5 4 (by norm_num) (by norm_num) (by norm_num) (by norm_num)
  (by norm_num) (by norm_num)

omit h h' in
/-- C92: a higher wave, smaller or lighter stones, or a shallower toe never give less damage (Van der Meer 1998) -/
theorem C92_vdm1998_damage (H H' D D' ht ht' h h' : ℝ) (hH : 0 < H) (hHH : H ≤ H') (hD : 0 < D') (hDD : D' ≤ D)
    (hht : 0 < ht') (htt : ht' ≤ ht) (hh : 0 < h) (hhh : h ≤ h') :
    NotLess (VanDerMeer1998.calculate_damage_Nod (fin H) (fin ht) (fin h) (fin D) (fin ra) (fin rw))
      (VanDerMeer1998.calculate_damage_Nod (fin H') (fin ht') (fin h') (fin D') (fin ra') (fin rw'))
      (H < H' ∨ D' < D) := by
  have hw' := hw.trans_le hww
  have hr : rw < ra := by linarith
  have hDe' := delta_pos hw' hr'
  have hDe := delta_le hw hww hr' hrr
  have hD0 := hD.trans_le hDD
  have hht0 := hht.trans_le htt
  have hh' := hh.trans_le hhh
  refine ofReturns (C78_vdm1998_damage ra rw hw hr H D ht h hH hD0 hh hht0)
    (C78_vdm1998_damage ra' rw' hw' hr' H' D' ht' h' (hH.trans_le hHH) hD hh' hht) ?_
  intro n n' hn hn' e e'
  unfold Published.VanDerMeerToe Textbook.Ns at e e'
  generalize Textbook.Delta ra rw = De at *
  generalize Textbook.Delta ra' rw' = De' at *
  have hDe0 := hDe'.trans_le hDe
  have hq : 6.2 * (ht' / h') ^ (2.7 : ℝ) + 2 ≤ 6.2 * (ht / h) ^ (2.7 : ℝ) + 2 := by gcongr
  have hq0 : 0 < 6.2 * (ht' / h') ^ (2.7 : ℝ) + 2 := by positivity
  obtain ⟨b1, b2⟩ := quot hH hHH (d := De * D) (d' := De' * D') (by positivity) (by gcongr)
  obtain ⟨r1, r2⟩ := solve (by norm_num) hq0 hq b1 hn hn' e.symm e'.symm
  refine ⟨r1, fun hs => r2 (.inr (b2 ?_))⟩
  rcases hs with hs | hs
  · exact .inl hs
  · right
    calc De' * D' < De' * D := by gcongr
      _ ≤ _ := by gcongr

omit h h' in
/-- C92: a higher wave, lighter stones, a shallower toe or a stricter damage limit never allow a smaller stone
(Van der Meer 1998) -/
theorem C92_vdm1998_size (H H' N N' ht ht' h h' : ℝ) (hH : 0 < H) (hHH : H ≤ H') (hN : 0 < N') (hNN : N' ≤ N)
    (hht : 0 < ht') (htt : ht' ≤ ht) (hh : 0 < h) (hhh : h ≤ h') :
    NotLess (VanDerMeer1998.calculate_nominal_diameter_Dn50 (fin H) (fin ht) (fin h) (fin N) (fin ra) (fin rw))
      (VanDerMeer1998.calculate_nominal_diameter_Dn50 (fin H') (fin ht') (fin h') (fin N') (fin ra') (fin rw'))
      (H < H' ∨ N' < N) := by
  have hw' := hw.trans_le hww
  have hr : rw < ra := by linarith
  have hDe' := delta_pos hw' hr'
  have hDe := delta_le hw hww hr' hrr
  have hN0 := hN.trans_le hNN
  have hht0 := hht.trans_le htt
  have hh' := hh.trans_le hhh
  refine ofReturns (C78_vdm1998_size ra rw hw hr H N ht h hH hN0 hh hht0)
    (C78_vdm1998_size ra' rw' hw' hr' H' N' ht' h' (hH.trans_le hHH) hN hh' hht) ?_
  intro n n' hn hn' e e'
  unfold Published.VanDerMeerToe Textbook.Ns at e e'
  generalize Textbook.Delta ra rw = De at *
  generalize Textbook.Delta ra' rw' = De' at *
  have hDe0 := hDe'.trans_le hDe
  have hq : 6.2 * (ht' / h') ^ (2.7 : ℝ) + 2 ≤ 6.2 * (ht / h) ^ (2.7 : ℝ) + 2 := by gcongr
  have hq0 : 0 < 6.2 * (ht' / h') ^ (2.7 : ℝ) + 2 := by positivity
  have hnn : N' ^ (0.15 : ℝ) ≤ N ^ (0.15 : ℝ) := Real.rpow_le_rpow hN.le hNN (by norm_num)
  have hn0 : 0 < N' ^ (0.15 : ℝ) := by positivity
  generalize 6.2 * (ht' / h') ^ (2.7 : ℝ) + 2 = q' at *
  generalize 6.2 * (ht / h) ^ (2.7 : ℝ) + 2 = q at *
  have hq1 := hq0.trans_le hq
  have k : De * (q * N ^ (0.15 : ℝ)) * n = H := by field_simp at e; linarith
  have k' : De' * (q' * N' ^ (0.15 : ℝ)) * n' = H' := by field_simp at e'; linarith
  obtain ⟨r1, r2⟩ := solve1 (by positivity) (by gcongr) hHH hn hn' k k'
  refine ⟨r1, fun hs => r2 ?_⟩
  rcases hs with hs | hs
  · exact .inr hs
  · left
    have h1 : N' ^ (0.15 : ℝ) < N ^ (0.15 : ℝ) := Real.rpow_lt_rpow hN.le hs (by norm_num)
    calc _ < De' * (q' * N ^ (0.15 : ℝ)) := by gcongr
      _ ≤ _ := by gcongr

omit h h' in
/-- C92: smaller or lighter stones, a shallower toe or a stricter damage limit never resist a higher wave
(Van der Meer 1998) -/
theorem C92_vdm1998_height (D D' N N' ht ht' h h' : ℝ) (hD : 0 < D') (hDD : D' ≤ D) (hN : 0 < N') (hNN : N' ≤ N)
    (hht : 0 < ht') (htt : ht' ≤ ht) (hh : 0 < h) (hhh : h ≤ h') :
    NotLess (VanDerMeer1998.calculate_wave_height_Hs (fin D') (fin ht') (fin h') (fin N') (fin ra') (fin rw'))
      (VanDerMeer1998.calculate_wave_height_Hs (fin D) (fin ht) (fin h) (fin N) (fin ra) (fin rw))
      (D' < D ∨ N' < N) := by
  have hw' := hw.trans_le hww
  have hr : rw < ra := by linarith
  have hDe' := delta_pos hw' hr'
  have hDe := delta_le hw hww hr' hrr
  have hD0 := hD.trans_le hDD
  have hN0 := hN.trans_le hNN
  have hht0 := hht.trans_le htt
  have hh' := hh.trans_le hhh
  refine ofReturns (C78_vdm1998_height ra' rw' hw' hr' D' N' ht' h' hD hN hh' hht)
    (C78_vdm1998_height ra rw hw hr D N ht h hD0 hN0 hh hht0) ?_
  intro n n' hn hn' e e'
  unfold Published.VanDerMeerToe Textbook.Ns at e e'
  generalize Textbook.Delta ra rw = De at *
  generalize Textbook.Delta ra' rw' = De' at *
  have hDe0 := hDe'.trans_le hDe
  have hq : 6.2 * (ht' / h') ^ (2.7 : ℝ) + 2 ≤ 6.2 * (ht / h) ^ (2.7 : ℝ) + 2 := by gcongr
  have hq0 : 0 < 6.2 * (ht' / h') ^ (2.7 : ℝ) + 2 := by positivity
  have hnn : N' ^ (0.15 : ℝ) ≤ N ^ (0.15 : ℝ) := Real.rpow_le_rpow hN.le hNN (by norm_num)
  have hn0 : 0 < N' ^ (0.15 : ℝ) := by positivity
  rw [div_eq_iff (by positivity)] at e e'
  subst e e'
  refine ⟨by gcongr, fun hs => ?_⟩
  rcases hs with hs | hs
  · calc _ < (6.2 * (ht' / h') ^ (2.7 : ℝ) + 2) * N' ^ (0.15 : ℝ) * (De' * D) := by gcongr
      _ ≤ _ := by gcongr
  · calc _ < (6.2 * (ht' / h') ^ (2.7 : ℝ) + 2) * N ^ (0.15 : ℝ) * (De' * D') := by gcongr
      _ ≤ _ := by gcongr

end

/-- the hypotheses are satisfiable -/
example := And.intro (C92_vdm1998_damage (ra := 2650) (ra' := 2600) (rw := 1000) (rw' := 1025) (by norm_num)
  (by norm_num) (by norm_num) (by norm_num) 2 2.5 1 0.9 5 4 8 9 (by norm_num) (by norm_num) (by norm_num)
  (by norm_num) (by norm_num) (by norm_num) (by norm_num) (by norm_num))
  (And.intro (C92_vdm1998_size (ra := 2650) (ra' := 2600) (rw := 1000) (rw' := 1025) (by norm_num)
    (by norm_num) (by norm_num) (by norm_num) 2 2.5 1 0.5 5 4 8 9 (by norm_num) (by norm_num) (by norm_num)
    (by norm_num) (by norm_num) (by norm_num) (by norm_num) (by norm_num))
  (C92_vdm1998_height (ra := 2650) (ra' := 2600) (rw := 1000) (rw' := 1025) (by norm_num)
    (by norm_num) (by norm_num) (by norm_num) 1 0.9 1 0.5 5 4 8 9 (by norm_num) (by norm_num) (by norm_num)
    (by norm_num) (by norm_num) (by norm_num) (by norm_num) (by norm_num)))
