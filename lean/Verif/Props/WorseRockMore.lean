import Verif.Lemmas.WorseStructural
import Verif.Props.FormulasRock

/-! # C92: Jumelet et al. (2024), Scaravaglione et al. (2025), Kramer & Burcharth (2003) -/

open Classical
open PF WorseStrProof
noncomputable section

namespace WorseStrProof

/-! ## Scaravaglione et al. 2025 -/

/-- load of the waves -/
theorem waveLoad {H H' T T' : ℝ} (hH : 0 < H) (hHH : H ≤ H') (hT : 0 < T) (hTT : T ≤ T') :
    0 < H * JumScaProof.st H T ^ (-0.1 : ℝ) ∧
    H * JumScaProof.st H T ^ (-0.1 : ℝ) ≤ H' * JumScaProof.st H' T' ^ (-0.1 : ℝ) ∧
    (H < H' ∨ T < T' → H * JumScaProof.st H T ^ (-0.1 : ℝ) < H' * JumScaProof.st H' T' ^ (-0.1 : ℝ)) := by
  have hpi := Real.pi_pos
  have key : ∀ a b : ℝ, 0 < a → 0 < b → a * JumScaProof.st a b ^ (-0.1 : ℝ) =
      (2 * Real.pi / 9.81) ^ (-0.1 : ℝ) * (a ^ (0.9 : ℝ) * b ^ (0.2 : ℝ)) := by
    intro a b ha hb
    unfold JumScaProof.st
    have hk : 0 < 2 * Real.pi / 9.81 := by positivity
    generalize 2 * Real.pi / 9.81 = k at *
    rw [mul_div_assoc, Real.mul_rpow hk.le (by positivity), Real.div_rpow ha.le (by positivity),
      ← Real.rpow_natCast, ← Real.rpow_mul hb.le]
    have e1 : a ^ (0.9 : ℝ) = a * a ^ (-0.1 : ℝ) := by
      nth_rewrite 2 [← Real.rpow_one a]; rw [← Real.rpow_add ha]; norm_num
    have e2 : b ^ (0.2 : ℝ) = 1 / b ^ (((2 : ℕ) : ℝ) * (-0.1)) := by
      rw [one_div, ← Real.rpow_neg hb.le]; norm_num
    rw [e1, e2]; ring
  have hH' := hH.trans_le hHH
  have hT' := hT.trans_le hTT
  rw [key H T hH hT, key H' T' hH' hT']
  have hk : 0 < (2 * Real.pi / 9.81) ^ (-0.1 : ℝ) := by positivity
  generalize (2 * Real.pi / 9.81) ^ (-0.1 : ℝ) = k at *
  refine ⟨by positivity, by gcongr, ?_⟩
  rintro (h | h)
  · calc _ < k * (H' ^ (0.9 : ℝ) * T ^ (0.2 : ℝ)) := by gcongr
      _ ≤ _ := by gcongr
  · calc _ < k * (H ^ (0.9 : ℝ) * T' ^ (0.2 : ℝ)) := by gcongr
      _ ≤ _ := by gcongr

end WorseStrProof

section
variable {T T' N N' c c' ra ra' rw rw' : ℝ} (cv : ℝ) (rc rc' M M' Mc Mc' : PF) (hcv : 0 < cv) (hT : 0 < T)
  (hTT : T ≤ T') (hN : 0 < N) (hNN : N ≤ N') (hc : 0 < c') (hcc : c' ≤ c) (hw : 0 < rw) (hww : rw ≤ rw')
  (hr' : rw' < ra') (hrr : ra' ≤ ra)
include hcv hT hTT hN hNN hc hcc hw hww hr' hrr

/-- C92: higher or longer waves, a longer storm, a steeper slope, smaller or lighter armour and a finer core never give
less damage (Scaravaglione et al. 2025) -/
theorem C92_scaravaglione_damage (H H' D D' Dc Dc' : ℝ) (hH : 0 < H) (hHH : H ≤ H') (hD : 0 < D') (hDD : D' ≤ D)
    (hDc : 0 ≤ Dc') (hkk : Dc' ≤ Dc) :
    NotLess (Scaravaglione2025.calculate_damage_number_S (fin H) (fin T) (fin N) (fin c) (fin ra) rc (fin D) (fin Dc) M
        Mc (fin cv) (fin rw))
      (Scaravaglione2025.calculate_damage_number_S (fin H') (fin T') (fin N') (fin c') (fin ra') rc' (fin D') (fin Dc')
        M' Mc' (fin cv) (fin rw'))
      (H < H' ∨ T < T' ∨ N < N' ∨ c' < c ∨ D' < D ∨ Dc' < Dc) := by
  have hw' := hw.trans_le hww
  have hr : rw < ra := by linarith
  have hDe' := delta_pos hw' hr'
  have hDe := delta_le hw hww hr' hrr
  have hDe0 := hDe'.trans_le hDe
  have hD0 := hD.trans_le hDD
  have hk0 := hDc.trans hkk
  have hH0 := hH.trans_le hHH
  have hN0 := hN.trans_le hNN
  have hT0 := hT.trans_le hTT
  have hc0 := hc.trans_le hcc
  refine ⟨_, _, JumScaProof.scS_eval rc M Mc hT hN hc0 hw hr hcv hH hD0 hk0,
    JumScaProof.scS_eval rc' M' Mc' hT0 hN0 hc hw' hr' hcv hH0 hD hDc, ?_⟩
  change JumScaProof.Sc H T N c (Textbook.Delta ra rw) D Dc cv ≤
    JumScaProof.Sc H' T' N' c' (Textbook.Delta ra' rw') D' Dc' cv ∧ (_ →
    JumScaProof.Sc H T N c (Textbook.Delta ra rw) D Dc cv <
    JumScaProof.Sc H' T' N' c' (Textbook.Delta ra' rw') D' Dc' cv)
  generalize Textbook.Delta ra rw = De at *
  generalize Textbook.Delta ra' rw' = De' at *
  unfold JumScaProof.Sc
  have re : ∀ H T c De D Dc : ℝ, 1 / cv * JumScaProof.st H T ^ (-0.1 : ℝ) * (1 / √c) * H / (De * (D + Dc)) =
      (H * JumScaProof.st H T ^ (-0.1 : ℝ)) / (cv * √c * (De * (D + Dc))) := by
    intros; generalize JumScaProof.st _ _ ^ (-0.1 : ℝ) = s; field_simp
  rw [re, re]
  obtain ⟨l0, l1, l2⟩ := waveLoad hH hHH hT hTT
  generalize H * JumScaProof.st H T ^ (-0.1 : ℝ) = L at *
  generalize H' * JumScaProof.st H' T' ^ (-0.1 : ℝ) = L' at *
  have hcs : 0 < √c' := Real.sqrt_pos.mpr hc
  have hns : 0 < √N := Real.sqrt_pos.mpr hN
  have hsum : 0 < D' + Dc' := by linarith
  have hsum0 : 0 < D + Dc := by linarith
  have hd : cv * √c' * (De' * (D' + Dc')) ≤ cv * √c * (De * (D + Dc)) := by gcongr
  have hd0 : 0 < cv * √c' * (De' * (D' + Dc')) := by positivity
  obtain ⟨q1, q2⟩ := quot l0 l1 hd0 hd
  have q0 : 0 < L / (cv * √c * (De * (D + Dc))) := by
    have : 0 < √c := hcs.trans_le (by gcongr)
    positivity
  have hlow : c' < c ∨ D' + Dc' < D + Dc → cv * √c' * (De' * (D' + Dc')) < cv * √c * (De * (D + Dc)) := by
    rintro (h | h)
    · calc _ < cv * √c * (De' * (D' + Dc')) := by gcongr
        _ ≤ _ := by gcongr
    · calc _ < cv * √c' * (De' * (D + Dc)) := by gcongr
        _ ≤ _ := by gcongr
  generalize L / (cv * √c * (De * (D + Dc))) = y at *
  generalize L' / (cv * √c' * (De' * (D' + Dc'))) = y' at *
  have q3 := q0.trans_le q1
  refine ⟨by gcongr, fun hs => ?_⟩
  have strictN : N < N' → y ^ 5 * √N < y' ^ 5 * √N' := fun h => by
    have : √N < √N' := Real.sqrt_lt_sqrt hN.le h
    calc _ < y ^ 5 * √N' := by gcongr
      _ ≤ _ := by gcongr
  have strictY : y < y' → y ^ 5 * √N < y' ^ 5 * √N' := fun h => by
    calc _ < y' ^ 5 * √N := by gcongr
      _ ≤ _ := by gcongr
  rcases hs with h | h | h | h | h | h
  · exact strictY (q2 (Or.inl (l2 (Or.inl h))))
  · exact strictY (q2 (Or.inl (l2 (Or.inr h))))
  · exact strictN h
  · exact strictY (q2 (Or.inr (hlow (Or.inl h))))
  · exact strictY (q2 (Or.inr (hlow (Or.inr (by linarith)))))
  · exact strictY (q2 (Or.inr (hlow (Or.inr (by linarith)))))

/-- C92: the same for the required size, with a stricter damage limit -/
theorem C92_scaravaglione_size (H H' S S' Dc Dc' : ℝ) (hH : 0 < H) (hHH : H ≤ H') (hS : 0 < S') (hSS : S' ≤ S)
    (hkk : Dc' ≤ Dc) :
    NotLess (Scaravaglione2025.calculate_nominal_rock_diameter_Dn50 (fin H) (fin T) (fin N) (fin c) (fin ra) rc (fin S)
        (fin Dc) Mc (fin cv) (fin rw))
      (Scaravaglione2025.calculate_nominal_rock_diameter_Dn50 (fin H') (fin T') (fin N') (fin c') (fin ra') rc'
        (fin S') (fin Dc') Mc' (fin cv) (fin rw'))
      (H < H' ∨ T < T' ∨ N < N' ∨ c' < c ∨ S' < S ∨ Dc' < Dc) := by
  have hw' := hw.trans_le hww
  have hr : rw < ra := by linarith
  have hDe' := delta_pos hw' hr'
  have hDe := delta_le hw hww hr' hrr
  have hDe0 := hDe'.trans_le hDe
  have hH0 := hH.trans_le hHH
  have hN0 := hN.trans_le hNN
  have hT0 := hT.trans_le hTT
  have hc0 := hc.trans_le hcc
  have hS0 := hS.trans_le hSS
  refine ⟨_, _, JumScaProof.scD_eval rc Mc hT hN hc0 hw hr hcv hH hS0,
    JumScaProof.scD_eval rc' Mc' hT0 hN0 hc hw' hr' hcv hH0 hS, ?_⟩
  change JumScaProof.X H T N c (Textbook.Delta ra rw) S cv - Dc ≤
    JumScaProof.X H' T' N' c' (Textbook.Delta ra' rw') S' cv - Dc' ∧ (_ →
    JumScaProof.X H T N c (Textbook.Delta ra rw) S cv - Dc <
    JumScaProof.X H' T' N' c' (Textbook.Delta ra' rw') S' cv - Dc')
  generalize Textbook.Delta ra rw = De at *
  generalize Textbook.Delta ra' rw' = De' at *
  unfold JumScaProof.X
  have re : ∀ H T c De z : ℝ, H / De * (1 / cv) * z * (1 / √c) * JumScaProof.st H T ^ (-0.1 : ℝ) =
      (H * JumScaProof.st H T ^ (-0.1 : ℝ)) / (cv * √c * De) * z := by
    intros; generalize JumScaProof.st _ _ ^ (-0.1 : ℝ) = s; field_simp
  rw [re, re]
  obtain ⟨l0, l1, l2⟩ := waveLoad hH hHH hT hTT
  generalize H * JumScaProof.st H T ^ (-0.1 : ℝ) = L at *
  generalize H' * JumScaProof.st H' T' ^ (-0.1 : ℝ) = L' at *
  have hcs : 0 < √c' := Real.sqrt_pos.mpr hc
  have hcs0 : 0 < √c := Real.sqrt_pos.mpr hc0
  have hns : 0 < √N := Real.sqrt_pos.mpr hN
  have hns0 : 0 < √N' := Real.sqrt_pos.mpr hN0
  have hd : cv * √c' * De' ≤ cv * √c * De := by gcongr
  obtain ⟨q1, q2⟩ := quot l0 l1 (by positivity) hd
  have q0 : 0 < L / (cv * √c * De) := by positivity
  obtain ⟨z1, z2⟩ := quot (H := S') (H' := S) (d := √N') (d' := √N) hS hSS hns (by gcongr)
  have z0 : 0 < S' / √N' := by positivity
  have hlow : c' < c → cv * √c' * De' < cv * √c * De := fun h => by
    calc _ < cv * √c * De' := by gcongr
      _ ≤ _ := by gcongr
  have w1 : (S / √N) ^ (-0.2 : ℝ) ≤ (S' / √N') ^ (-0.2 : ℝ) := Real.rpow_le_rpow_of_nonpos z0 z1 (by norm_num)
  have w2 : S' < S ∨ N < N' → (S / √N) ^ (-0.2 : ℝ) < (S' / √N') ^ (-0.2 : ℝ) := fun h =>
    Real.rpow_lt_rpow_of_neg z0 (z2 (h.imp id fun h => Real.sqrt_lt_sqrt hN.le h)) (by norm_num)
  have w0 : 0 < (S / √N) ^ (-0.2 : ℝ) := by positivity
  generalize L / (cv * √c * De) = y at *
  generalize L' / (cv * √c' * De') = y' at *
  generalize (S / √N) ^ (-0.2 : ℝ) = w at *
  generalize (S' / √N') ^ (-0.2 : ℝ) = w' at *
  have q3 := q0.trans_le q1
  have w3 := w0.trans_le w1
  have hle : y * w ≤ y' * w' := by gcongr
  refine ⟨by linarith, fun hs => ?_⟩
  have strictW : w < w' → y * w - Dc < y' * w' - Dc' := fun h => by
    have : y * w < y' * w' := by
      calc _ < y * w' := by gcongr
        _ ≤ _ := by gcongr
    linarith
  have strictY : y < y' → y * w - Dc < y' * w' - Dc' := fun h => by
    have : y * w < y' * w' := by
      calc _ < y' * w := by gcongr
        _ ≤ _ := by gcongr
    linarith
  rcases hs with h | h | h | h | h | h
  · exact strictY (q2 (Or.inl (l2 (Or.inl h))))
  · exact strictY (q2 (Or.inl (l2 (Or.inr h))))
  · exact strictW (w2 (Or.inr h))
  · exact strictY (q2 (Or.inr (hlow h)))
  · exact strictW (w2 (Or.inl h))
  · linarith

/-- C92: the same for the wave height that can be allowed -/
theorem C92_scaravaglione_height (D D' S S' Dc Dc' g : ℝ) (hD : 0 < D') (hDD : D' ≤ D) (hS : 0 < S') (hSS : S' ≤ S)
    (hDc : 0 ≤ Dc') (hkk : Dc' ≤ Dc) (hg : 0 < g) :
    NotLess (Scaravaglione2025.calculate_significant_wave_height_Hm0 (fin T') (fin N') (fin c') (fin ra') rc' (fin S')
        (fin D') (fin Dc') M' Mc' (fin cv) (fin g) (fin rw'))
      (Scaravaglione2025.calculate_significant_wave_height_Hm0 (fin T) (fin N) (fin c) (fin ra) rc (fin S)
        (fin D) (fin Dc) M Mc (fin cv) (fin g) (fin rw))
      (T < T' ∨ N < N' ∨ c' < c ∨ S' < S ∨ D' < D ∨ Dc' < Dc) := by
  have hw' := hw.trans_le hww
  have hr : rw < ra := by linarith
  have hDe' := delta_pos hw' hr'
  have hDe := delta_le hw hww hr' hrr
  have hDe0 := hDe'.trans_le hDe
  have hD0 := hD.trans_le hDD
  have hk0 := hDc.trans hkk
  have hN0 := hN.trans_le hNN
  have hT0 := hT.trans_le hTT
  have hc0 := hc.trans_le hcc
  have hS0 := hS.trans_le hSS
  have hpi := Real.pi_pos
  refine ⟨_, _, JumScaProof.scH_eval rc' M' Mc' hT0 hN0 hc hw' hr' hcv hD hDc hS hg,
    JumScaProof.scH_eval rc M Mc hT hN hc0 hw hr hcv hD0 hk0 hS0 hg, ?_⟩
  change JumScaProof.Hx T' N' c' (Textbook.Delta ra' rw') D' Dc' S' cv g ≤
    JumScaProof.Hx T N c (Textbook.Delta ra rw) D Dc S cv g ∧ (_ →
    JumScaProof.Hx T' N' c' (Textbook.Delta ra' rw') D' Dc' S' cv g <
    JumScaProof.Hx T N c (Textbook.Delta ra rw) D Dc S cv g)
  generalize Textbook.Delta ra rw = De at *
  generalize Textbook.Delta ra' rw' = De' at *
  unfold JumScaProof.Hx
  have re : ∀ De D c Dc u z : ℝ, 0 < D → De * D * cv * √c * (1 + Dc / D) * u * z =
      (cv * √c * (De * (D + Dc))) * (u * z) := by
    intro De D c Dc u z h; field_simp
  rw [re _ _ _ _ _ _ hD, re _ _ _ _ _ _ hD0]
  have hcs : 0 < √c' := Real.sqrt_pos.mpr hc
  have hcs0 : 0 < √c := Real.sqrt_pos.mpr hc0
  have hns : 0 < √N := Real.sqrt_pos.mpr hN
  have hns0 : 0 < √N' := Real.sqrt_pos.mpr hN0
  have hsum : 0 < D' + Dc' := by linarith
  have hsum0 : 0 < D + Dc := by linarith
  have hlow : c' < c ∨ D' + Dc' < D + Dc → cv * √c' * (De' * (D' + Dc')) < cv * √c * (De * (D + Dc)) := by
    rintro (h | h)
    · calc _ < cv * √c * (De' * (D' + Dc')) := by gcongr
        _ ≤ _ := by gcongr
    · calc _ < cv * √c' * (De' * (D + Dc)) := by gcongr
        _ ≤ _ := by gcongr
  have hd : cv * √c' * (De' * (D' + Dc')) ≤ cv * √c * (De * (D + Dc)) := by gcongr
  have hd0 : 0 < cv * √c' * (De' * (D' + Dc')) := by positivity
  obtain ⟨z1, z2⟩ := quot (H := S') (H' := S) (d := √N') (d' := √N) hS hSS hns (by gcongr)
  have z0 : 0 < S' / √N' := by positivity
  have w1 : (S' / √N') ^ (0.2 : ℝ) ≤ (S / √N) ^ (0.2 : ℝ) := by gcongr
  have w2 : S' < S ∨ N < N' → (S' / √N') ^ (0.2 : ℝ) < (S / √N) ^ (0.2 : ℝ) := fun h => by
    have := z2 (h.imp id fun h => Real.sqrt_lt_sqrt hN.le h)
    gcongr
  have w0 : 0 < (S' / √N') ^ (0.2 : ℝ) := by positivity
  have t1 : (2 * Real.pi / (g * T' ^ 2)) ^ (0.1 : ℝ) ≤ (2 * Real.pi / (g * T ^ 2)) ^ (0.1 : ℝ) := by gcongr
  have t2 : T < T' → (2 * Real.pi / (g * T' ^ 2)) ^ (0.1 : ℝ) < (2 * Real.pi / (g * T ^ 2)) ^ (0.1 : ℝ) := fun h => by
    gcongr
  have t0 : 0 < (2 * Real.pi / (g * T' ^ 2)) ^ (0.1 : ℝ) := by positivity
  generalize cv * √c' * (De' * (D' + Dc')) = y' at *
  generalize cv * √c * (De * (D + Dc)) = y at *
  generalize (S / √N) ^ (0.2 : ℝ) = w at *
  generalize (S' / √N') ^ (0.2 : ℝ) = w' at *
  generalize (2 * Real.pi / (g * T' ^ 2)) ^ (0.1 : ℝ) = t' at *
  generalize (2 * Real.pi / (g * T ^ 2)) ^ (0.1 : ℝ) = t at *
  have t3 := t0.trans_le t1
  have w3 := w0.trans_le w1
  have y3 := hd0.trans_le hd
  refine ⟨by gcongr, fun hs => ?_⟩
  refine Real.rpow_lt_rpow (by positivity) ?_ (by norm_num)
  have sy : y' < y → y' * (t' * w') < y * (t * w) := fun h => by
    calc _ < y * (t' * w') := by gcongr
      _ ≤ _ := by gcongr
  have sw : w' < w → y' * (t' * w') < y * (t * w) := fun h => by
    calc _ < y' * (t' * w) := by gcongr
      _ ≤ _ := by gcongr
  have st : t' < t → y' * (t' * w') < y * (t * w) := fun h => by
    calc _ < y' * (t * w') := by gcongr
      _ ≤ _ := by gcongr
  rcases hs with h | h | h | h | h | h
  · exact st (t2 h)
  · exact sw (w2 (Or.inr h))
  · exact sy (hlow (Or.inl h))
  · exact sw (w2 (Or.inl h))
  · exact sy (hlow (Or.inr (by linarith)))
  · exact sy (hlow (Or.inr (by linarith)))

end

example := C92_scaravaglione_damage (T := 8) (T' := 9) (N := 2000) (N' := 3000) (c := 2) (c' := 1.5) (ra := 2700)
  (ra' := 2650) (rw := 1000) (rw' := 1025) 4.3 nan nan nan nan nan nan (by norm_num) (by norm_num) (by norm_num)
  (by norm_num) (by norm_num) (by norm_num) (by norm_num) (by norm_num) (by norm_num) (by norm_num) (by norm_num)
  2 2.5 1 0.9 0.3 0.2 (by norm_num) (by norm_num) (by norm_num) (by norm_num) (by norm_num) (by norm_num)

example := C92_scaravaglione_size (T := 8) (T' := 9) (N := 2000) (N' := 3000) (c := 2) (c' := 1.5) (ra := 2700)
  (ra' := 2650) (rw := 1000) (rw' := 1025) 4.3 nan nan nan nan (by norm_num) (by norm_num) (by norm_num)
  (by norm_num) (by norm_num) (by norm_num) (by norm_num) (by norm_num) (by norm_num) (by norm_num) (by norm_num)
  2 2.5 3 2 0.3 0.2 (by norm_num) (by norm_num) (by norm_num) (by norm_num) (by norm_num)

example := C92_scaravaglione_height (T := 8) (T' := 9) (N := 2000) (N' := 3000) (c := 2) (c' := 1.5) (ra := 2700)
  (ra' := 2650) (rw := 1000) (rw' := 1025) 4.3 nan nan nan nan nan nan (by norm_num) (by norm_num) (by norm_num)
  (by norm_num) (by norm_num) (by norm_num) (by norm_num) (by norm_num) (by norm_num) (by norm_num) (by norm_num)
  1 0.9 3 2 0.3 0.2 9.81 (by norm_num) (by norm_num) (by norm_num) (by norm_num) (by norm_num) (by norm_num)
  (by norm_num)

/-! ## Kramer & Burcharth 2003 -/

/-- C92: smaller or lighter stones and a higher crest never allow a higher wave on a low-crested structure, for crests
up to 1.9 stone sizes above and 4.7 below the water (the formula is meant for 2 above to 3 below) -/
theorem C92_kramer_height_partial (R R' ra ra' D D' : ℝ) (M M' : PF) (hr' : 1025 < ra') (hrr : ra' ≤ ra) (hD : 0 < D')
    (hDD : D' ≤ D) (hRR : R ≤ R') (hlo : -4.7 * D' ≤ R') (hhi : R' ≤ 1.9 * D') :
    NotLess (KramerBurcharth.calculate_significant_wave_height_Hs (fin R') (fin ra') (fin D') M')
      (KramerBurcharth.calculate_significant_wave_height_Hs (fin R) (fin ra) (fin D) M)
      (ra' < ra ∨ D' < D ∨ R < R') := by
  have hD0 := hD.trans_le hDD
  have hr : 1025 < ra := by linarith
  refine ofReturns (C78_kramer_height R' ra' D' M' hr' hD) (C78_kramer_height R ra D M hr hD0) ?_
  intro H' H hH' hH e' e
  unfold Published.KramerBurcharth Textbook.Ns at e e'
  have hDe' := delta_pos (by norm_num : (0 : ℝ) < 1025) hr'
  have hDe0 := delta_pos (by norm_num : (0 : ℝ) < 1025) hr
  have hDe : Textbook.Delta ra' 1025 ≤ Textbook.Delta ra 1025 :=
    delta_le (by norm_num) le_rfl hr' hrr
  have hDs : ra' < ra → Textbook.Delta ra' 1025 < Textbook.Delta ra 1025 := by
    intro h; unfold Textbook.Delta; gcongr
  generalize Textbook.Delta ra 1025 = De at *
  generalize Textbook.Delta ra' 1025 = De' at *
  have k : ∀ H De R D : ℝ, 0 < De → 0 < D → H / (De * D) = 1.36 - 0.23 * (R / D) + 0.06 * (R / D) ^ 2 →
      H = De * (1.36 * D - 0.23 * R + 0.06 * (R ^ 2 / D)) := by
    intro H De R D h1 h2 h
    field_simp at h ⊢
    linarith
  have e1 := k _ _ _ _ hDe0 hD0 e
  have e2 := k _ _ _ _ hDe' hD e'
  have p0 : 0 < 1.36 * D' - 0.23 * R' + 0.06 * (R' ^ 2 / D') := by
    by_contra h
    push Not at h
    nlinarith
  have sq : R' ^ 2 ≤ 22.09 * D' ^ 2 := by nlinarith
  -- smaller stones
  have s1 : 0.034 * (D - D') ≤ (1.36 * D + 0.06 * (R' ^ 2 / D)) - (1.36 * D' + 0.06 * (R' ^ 2 / D')) := by
    have : R' ^ 2 / D' - R' ^ 2 / D = R' ^ 2 / (D' * D) * (D - D') := by field_simp
    have h2 : R' ^ 2 / (D' * D) ≤ 22.09 := by
      rw [div_le_iff₀ (by positivity)]; nlinarith
    nlinarith [mul_le_mul_of_nonneg_right h2 (sub_nonneg.mpr hDD)]
  -- a higher crest
  have s2 : 0.002 * (R' - R) ≤ (-0.23 * R + 0.06 * (R ^ 2 / D)) - (-0.23 * R' + 0.06 * (R' ^ 2 / D)) := by
    have : R' ^ 2 / D - R ^ 2 / D = (R' + R) / D * (R' - R) := by field_simp; ring
    have h2 : (R' + R) / D ≤ 3.8 := by
      rw [div_le_iff₀ hD0]; nlinarith
    nlinarith [mul_le_mul_of_nonneg_right h2 (sub_nonneg.mpr hRR)]
  have p1 : 1.36 * D' - 0.23 * R' + 0.06 * (R' ^ 2 / D') ≤ 1.36 * D - 0.23 * R + 0.06 * (R ^ 2 / D) := by linarith
  have p2 : D' < D ∨ R < R' →
      1.36 * D' - 0.23 * R' + 0.06 * (R' ^ 2 / D') < 1.36 * D - 0.23 * R + 0.06 * (R ^ 2 / D) := by
    rintro (h | h) <;> linarith
  rw [e1, e2]
  generalize 1.36 * D' - 0.23 * R' + 0.06 * (R' ^ 2 / D') = y' at *
  generalize 1.36 * D - 0.23 * R + 0.06 * (R ^ 2 / D) = y at *
  refine ⟨by gcongr, ?_⟩
  rintro (h | h)
  · have := hDs h
    calc _ < De * y' := by gcongr
      _ ≤ _ := by gcongr
  · have := p2 h
    calc _ < De' * y := by gcongr
      _ ≤ _ := by gcongr; exact (p0.trans_le p1).le

example := C92_kramer_height_partial (-0.5) 0.5 2700 2650 1.2 1 nan nan (by norm_num) (by norm_num) (by norm_num)
  (by norm_num) (by norm_num) (by norm_num) (by norm_num)

/-- C92 is false for crests near the upper end of the range of the formula: from 1.92 to 2 stone sizes above the water
a higher crest allows a higher wave -/
theorem C92_kramer_height_refuted (ra D : ℝ) (M : PF) (hr : 1025 < ra) (hD : 0 < D) : ∃ R R' H H' : ℝ,
    1.92 * D ≤ R ∧ R < R' ∧ R' ≤ 2 * D ∧ H < H' ∧
    (KramerBurcharth.calculate_significant_wave_height_Hs (fin R) (fin ra) (fin D) M).res = .ok (fin H) ∧
    (KramerBurcharth.calculate_significant_wave_height_Hs (fin R') (fin ra) (fin D) M).res = .ok (fin H') := by
  obtain ⟨H, hH, e, p⟩ := C78_kramer_height (1.92 * D) ra D M hr hD
  obtain ⟨H', hH', e', p'⟩ := C78_kramer_height (2 * D) ra D M hr hD
  refine ⟨_, _, H, H', le_rfl, by linarith, le_rfl, ?_, e, e'⟩
  unfold Published.KramerBurcharth Textbook.Ns at p p'
  have hDe0 := delta_pos (by norm_num : (0 : ℝ) < 1025) hr
  generalize Textbook.Delta ra 1025 = De at *
  rw [mul_div_cancel_right₀ _ hD.ne'] at p p'
  have : H / (De * D) < H' / (De * D) := by rw [p, p']; norm_num
  exact (div_lt_div_iff_of_pos_right (by positivity)).mp this

example := C92_kramer_height_refuted 2650 1 nan (by norm_num) (by norm_num)

end
