import Verif.Lemmas.WorseStructural
import Verif.Props.FormulasRock

/-! # C92: Jumelet et al. (2024), mild slopes -/

open Classical
open PF WorseStrProof
noncomputable section

namespace WorseStrProof

theorem roundEven_mono {x y : ℝ} (h : x ≤ y) : roundEven x ≤ roundEven y := by
  by_contra hh
  push Not at hh
  have h1 := abs_le.mp (FormulaProof.roundEven_near x)
  have h2 := abs_le.mp (FormulaProof.roundEven_near y)
  have h3 : (roundEven y : ℝ) + 1 ≤ roundEven x := by exact_mod_cast hh
  have : x = y := by linarith
  rw [this] at hh
  exact lt_irrefl _ hh

/-- wave height times Iribarren number -/
theorem height_xi {H H' T T' c c' : ℝ} (hH : 0 < H) (hHH : H ≤ H') (hT : 0 < T) (hTT : T ≤ T') (hc : 0 < c')
    (hcc : c' ≤ c) : 0 < H * VdMProof.xi H T c ∧ H * VdMProof.xi H T c ≤ H' * VdMProof.xi H' T' c' ∧
    (H < H' ∨ T < T' ∨ c' < c → H * VdMProof.xi H T c < H' * VdMProof.xi H' T' c') := by
  have hpi := Real.pi_pos
  have hH' := hH.trans_le hHH
  have hT' := hT.trans_le hTT
  have hc' := hc.trans_le hcc
  have key : ∀ a b d : ℝ, 0 < a → 0 < b → 0 < d → a * VdMProof.xi a b d =
      √a * b / d * (1 / √(2 * Real.pi / 9.81)) := by
    intro a b d ha hb hd
    unfold VdMProof.xi
    rw [Real.sqrt_div (by positivity), Real.sqrt_sq hb.le, Real.sqrt_mul (by positivity)]
    have h1 : (1.0 : ℝ) = 1 := by norm_num
    have h2 : 0 < √(2 * Real.pi / 9.81) := Real.sqrt_pos.mpr (by positivity)
    have h3 : 0 < √a := Real.sqrt_pos.mpr ha
    rw [h1]
    generalize √(2 * Real.pi / 9.81) = k at *
    nth_rewrite 1 [← Real.mul_self_sqrt ha.le]
    field_simp
  rw [key H T c hH hT hc', key H' T' c' hH' hT' hc]
  have hk : 0 < 1 / √(2 * Real.pi / 9.81) := by
    have : 0 < √(2 * Real.pi / 9.81) := Real.sqrt_pos.mpr (by positivity)
    positivity
  generalize 1 / √(2 * Real.pi / 9.81) = k at *
  have h3 : 0 < √H := Real.sqrt_pos.mpr hH
  have h4 : 0 < √H' := Real.sqrt_pos.mpr hH'
  refine ⟨by positivity, by gcongr, ?_⟩
  rintro (h | h | h)
  · have : √H < √H' := Real.sqrt_lt_sqrt hH.le h
    calc _ < √H' * T / c * k := by gcongr
      _ ≤ _ := by gcongr
  · calc _ < √H * T' / c * k := by gcongr
      _ ≤ _ := by gcongr
  · calc _ < √H * T / c' * k := by gcongr
      _ ≤ _ := by gcongr

theorem np_le {H H' T T' N N' c c' : ℝ}
    (h : Published.plungingPart (Textbook.iribarren H T c) * N ≤
      Published.plungingPart (Textbook.iribarren H' T' c') * N') :
    JumScaProof.Np H T N c ≤ JumScaProof.Np H' T' N' c' := by
  rw [RangeProof.irib_eq, RangeProof.irib_eq] at h
  unfold JumScaProof.Np
  unfold Published.plungingPart at h
  exact_mod_cast roundEven_mono h

end WorseStrProof

section
variable {H H' T T' N N' c c' ra ra' : ℝ} (cp : ℝ) (M M' : PF) (hcp : 0 < cp) (hH : 0 < H) (hHH : H ≤ H')
  (hT : 0 < T) (hTT : T ≤ T') (hc : 0 < c') (hcc : c' ≤ c)
  (hN : 1 / 2 < Published.plungingPart (Textbook.iribarren H T c) * N)
  (hNN : Published.plungingPart (Textbook.iribarren H T c) * N ≤
    Published.plungingPart (Textbook.iribarren H' T' c') * N')
include hcp hH hHH hT hTT hc hcc hN hNN

/-- C92: higher or longer waves, a steeper slope and smaller or lighter armour never give less damage (Jumelet et al.
2024), as long as the number of plunging waves does not go down. Missing: without that condition it is false, see
`C92_jumelet_damage_refuted` -/
theorem C92_jumelet_damage_partial (D D' rw rw' : ℝ) (hD : 0 < D') (hDD : D' ≤ D) (hw : 0 < rw) (hww : rw ≤ rw')
    (hr' : rw' < ra') (hrr : ra' ≤ ra) :
    NotLess (Jumelet2024.calculate_damage_number_S (fin H) (fin T) (fin N) (fin c) (fin ra) (fin D) M (fin cp) (fin rw))
      (Jumelet2024.calculate_damage_number_S (fin H') (fin T') (fin N') (fin c') (fin ra') (fin D') M' (fin cp)
        (fin rw'))
      (H < H' ∨ T < T' ∨ c' < c ∨ D' < D) := by
  have hw' := hw.trans_le hww
  have hr : rw < ra := by linarith
  have hDe' := delta_pos hw' hr'
  have hDe := delta_le hw hww hr' hrr
  have hDe0 := hDe'.trans_le hDe
  have hD0 := hD.trans_le hDD
  have hH0 := hH.trans_le hHH
  have hT0 := hT.trans_le hTT
  have hc0 := hc.trans_le hcc
  have hp : 0 < JumScaProof.Np H T N c :=
    JumScaProof.np_pos hH hT hc0 ⟨_, VdMProof.xi_eval hH hT hc0, by rw [RangeProof.irib_eq] at hN; exact hN⟩
  have hpp := np_le hNN
  have hp' := hp.trans_le hpp
  refine ⟨_, _, JumScaProof.jumS_eval M hH hT hc0 hw hr hD0 hcp hp,
    JumScaProof.jumS_eval M' hH0 hT0 hc hw' hr' hD hcp hp', ?_⟩
  obtain ⟨l0, l1, l2⟩ := height_xi hH hHH hT hTT hc hcc
  have e : ∀ H x De D n : ℝ, H / (De * D) * x * n * (1.0 / cp) = H * x / (De * D) * (n / cp) := by
    intro H x De D n
    have : (1.0 : ℝ) = 1 := by norm_num
    rw [this]; ring
  change (H / (Textbook.Delta ra rw * D) * _ * _ * _) ^ (5.0 : ℝ) ≤ (H' / (Textbook.Delta ra' rw' * D') * _ * _ * _) ^
    (5.0 : ℝ) ∧ (_ → (H / (Textbook.Delta ra rw * D) * _ * _ * _) ^ (5.0 : ℝ) <
    (H' / (Textbook.Delta ra' rw' * D') * _ * _ * _) ^ (5.0 : ℝ))
  rw [e, e]
  generalize Textbook.Delta ra rw = De at *
  generalize Textbook.Delta ra' rw' = De' at *
  generalize H * VdMProof.xi H T c = L at *
  generalize H' * VdMProof.xi H' T' c' = L' at *
  generalize JumScaProof.Np H T N c = n at *
  generalize JumScaProof.Np H' T' N' c' = n' at *
  obtain ⟨q1, q2⟩ := quot l0 l1 (by positivity : 0 < De' * D') (by gcongr : De' * D' ≤ De * D)
  have q0 : 0 < L / (De * D) := by positivity
  generalize hy : L / (De * D) = y at *
  generalize hy' : L' / (De' * D') = y' at *
  have q3 := q0.trans_le q1
  refine ⟨by gcongr, fun hs => ?_⟩
  have : y < y' := by
    apply q2
    rcases hs with h | h | h | h
    · exact Or.inl (l2 (Or.inl h))
    · exact Or.inl (l2 (Or.inr (Or.inl h)))
    · exact Or.inl (l2 (Or.inr (Or.inr h)))
    · right
      calc _ < De' * D := by gcongr
        _ ≤ _ := by gcongr
  refine Real.rpow_lt_rpow (by positivity) ?_ (by norm_num)
  calc _ < y' * (n ^ (0.1 : ℝ) / cp) := by gcongr
    _ ≤ _ := by gcongr

/-- C92: the same for the required size, with a stricter damage limit -/
theorem C92_jumelet_size_partial (S S' : ℝ) (hS : 0 < S') (hSS : S' ≤ S) (hr' : 1025 < ra') (hrr : ra' ≤ ra) :
    NotLess (Jumelet2024.calculate_nominal_rock_diameter_Dn50 (fin H) (fin T) (fin N) (fin c) (fin ra) (fin S) (fin cp))
      (Jumelet2024.calculate_nominal_rock_diameter_Dn50 (fin H') (fin T') (fin N') (fin c') (fin ra') (fin S') (fin cp))
      (H < H' ∨ T < T' ∨ c' < c ∨ S' < S) := by
  have hr : 1025 < ra := by linarith
  have hDe' := delta_pos (by norm_num : (0 : ℝ) < 1025) hr'
  have hDe := delta_le (by norm_num : (0 : ℝ) < 1025) le_rfl hr' hrr
  have hDe0 := hDe'.trans_le hDe
  have hS0 := hS.trans_le hSS
  have hH0 := hH.trans_le hHH
  have hT0 := hT.trans_le hTT
  have hc0 := hc.trans_le hcc
  have hp : 0 < JumScaProof.Np H T N c :=
    JumScaProof.np_pos hH hT hc0 ⟨_, VdMProof.xi_eval hH hT hc0, by rw [RangeProof.irib_eq] at hN; exact hN⟩
  have hpp := np_le hNN
  have hp' := hp.trans_le hpp
  refine ⟨_, _, JumScaProof.jumD_eval hH hT hc0 hr hS0 hcp hp,
    JumScaProof.jumD_eval hH0 hT0 hc hr' hS hcp hp', ?_⟩
  obtain ⟨l0, l1, l2⟩ := height_xi hH hHH hT hTT hc hcc
  have e : ∀ H x De z n : ℝ, H / De * x * n * (1.0 / cp) * z = H * x / De * (n / cp * z) := by
    intro H x De z n
    have : (1.0 : ℝ) = 1 := by norm_num
    rw [this]; ring
  change H / Textbook.Delta ra 1025 * _ * _ * _ * _ ≤ H' / Textbook.Delta ra' 1025 * _ * _ * _ * _ ∧
    (_ → H / Textbook.Delta ra 1025 * _ * _ * _ * _ < H' / Textbook.Delta ra' 1025 * _ * _ * _ * _)
  rw [e, e]
  generalize Textbook.Delta ra 1025 = De at *
  generalize Textbook.Delta ra' 1025 = De' at *
  generalize H * VdMProof.xi H T c = L at *
  generalize H' * VdMProof.xi H' T' c' = L' at *
  generalize JumScaProof.Np H T N c = n at *
  generalize JumScaProof.Np H' T' N' c' = n' at *
  obtain ⟨q1, q2⟩ := quot l0 l1 hDe' hDe
  have q0 : 0 < L / De := by positivity
  have z1 : S ^ (-0.2 : ℝ) ≤ S' ^ (-0.2 : ℝ) := Real.rpow_le_rpow_of_nonpos hS hSS (by norm_num)
  have z2 : S' < S → S ^ (-0.2 : ℝ) < S' ^ (-0.2 : ℝ) := fun h => Real.rpow_lt_rpow_of_neg hS h (by norm_num)
  have z0 : 0 < S ^ (-0.2 : ℝ) := by positivity
  generalize L / De = y at *
  generalize L' / De' = y' at *
  generalize S ^ (-0.2 : ℝ) = z at *
  generalize S' ^ (-0.2 : ℝ) = z' at *
  have q3 := q0.trans_le q1
  have z3 := z0.trans_le z1
  refine ⟨by gcongr, fun hs => ?_⟩
  have sy : y < y' → y * (n ^ (0.1 : ℝ) / cp * z) < y' * (n' ^ (0.1 : ℝ) / cp * z') := fun h => by
    calc _ < y' * (n ^ (0.1 : ℝ) / cp * z) := by gcongr
      _ ≤ _ := by gcongr
  rcases hs with h | h | h | h
  · exact sy (q2 (Or.inl (l2 (Or.inl h))))
  · exact sy (q2 (Or.inl (l2 (Or.inr (Or.inl h)))))
  · exact sy (q2 (Or.inl (l2 (Or.inr (Or.inr h)))))
  · have := z2 h
    calc _ < y * (n ^ (0.1 : ℝ) / cp * z') := by gcongr
      _ ≤ _ := by gcongr

end

namespace WorseStrProof

/-- wave height with a given Iribarren number -/
def heightOf (T c x : ℝ) : ℝ := 9.81 * T ^ 2 / (2 * Real.pi * c ^ 2 * x ^ 2)

theorem heightOf_pos {T c x : ℝ} (hT : 0 < T) (hc : 0 < c) (hx : 0 < x) : 0 < heightOf T c x := by
  have hpi := Real.pi_pos
  unfold heightOf; positivity

theorem heightOf_xi {T c x : ℝ} (hT : 0 < T) (hc : 0 < c) (hx : 0 < x) :
    VdMProof.xi (heightOf T c x) T c = x := by
  have hpi := Real.pi_pos
  unfold VdMProof.xi heightOf
  have : 2 * Real.pi / 9.81 * (9.81 * T ^ 2 / (2 * Real.pi * c ^ 2 * x ^ 2)) / T ^ 2 = (1 / (c * x)) ^ 2 := by
    field_simp
  rw [this, Real.sqrt_sq (by positivity)]
  have : (1.0 : ℝ) = 1 := by norm_num
  rw [this]
  field_simp

end WorseStrProof

/-- the conditions are met: with ξ from 1 to 1.1 a higher wave has more plunging waves -/
example : ∃ H H' T T' N N' c c' : ℝ, 0 < H ∧ H < H' ∧ 0 < T ∧ T ≤ T' ∧ 0 < c' ∧ c' ≤ c ∧
    1 / 2 < Published.plungingPart (Textbook.iribarren H T c) * N ∧
    Published.plungingPart (Textbook.iribarren H T c) * N ≤
    Published.plungingPart (Textbook.iribarren H' T' c') * N' := by
  have hpi := Real.pi_pos
  refine ⟨heightOf 8 6 1.1, heightOf 8 6 1, 8, 8, 1000, 1000, 6, 6, heightOf_pos (by norm_num) (by norm_num)
    (by norm_num), ?_, by norm_num, le_rfl, by norm_num, le_rfl, ?_, ?_⟩
  · unfold heightOf; gcongr; norm_num
  · rw [RangeProof.irib_eq, heightOf_xi (by norm_num) (by norm_num) (by norm_num)]
    unfold Published.plungingPart; norm_num
  · rw [RangeProof.irib_eq, heightOf_xi (by norm_num) (by norm_num) (by norm_num), RangeProof.irib_eq,
      heightOf_xi (by norm_num) (by norm_num) (by norm_num)]
    unfold Published.plungingPart; norm_num

/-- C92 is false for the wave height by Jumelet et al. (2024): the number of plunging waves is rounded to an integer,
so that on every slope, with every stone and period, there is a wave with less damage than a lower wave (375 waves,
ξ = 0.8: 364 of them plunging, but 365 with ξ = 0.8001) -/
theorem C92_jumelet_damage_refuted (T c ra rw D cp : ℝ) (M : PF) (hT : 0 < T) (hc : 0 < c) (hw : 0 < rw)
    (hr : rw < ra) (hD : 0 < D) (hcp : 0 < cp) : ∃ H H' S S' : ℝ, 0 < H ∧ H < H' ∧ S' < S ∧
    (Jumelet2024.calculate_damage_number_S (fin H) (fin T) (fin 375) (fin c) (fin ra) (fin D) M (fin cp) (fin rw)).res =
      .ok (fin S) ∧
    (Jumelet2024.calculate_damage_number_S (fin H') (fin T) (fin 375) (fin c) (fin ra) (fin D) M (fin cp)
      (fin rw)).res = .ok (fin S') := by
  have hpi := Real.pi_pos
  have h1 := heightOf_pos hT hc (by norm_num : (0 : ℝ) < 0.8001)
  have h2 := heightOf_pos hT hc (by norm_num : (0 : ℝ) < 0.8)
  have x1 := heightOf_xi hT hc (by norm_num : (0 : ℝ) < 0.8001)
  have x2 := heightOf_xi hT hc (by norm_num : (0 : ℝ) < 0.8)
  have n1 : JumScaProof.Np (heightOf T c 0.8001) T 375 c = 365 := by
    unfold JumScaProof.Np
    rw [x1]
    have f : ⌊((-1.7 * 0.8001 ^ 2 + 3.2 * 0.8001 - 0.5) * 375 : ℝ)⌋ = 364 := by
      rw [Int.floor_eq_iff]; norm_num
    unfold roundEven
    rw [f, if_neg (by norm_num), if_pos (by norm_num)]
    norm_num
  have n2 : JumScaProof.Np (heightOf T c 0.8) T 375 c = 364 := by
    unfold JumScaProof.Np
    rw [x2]
    have f : ⌊((-1.7 * 0.8 ^ 2 + 3.2 * 0.8 - 0.5) * 375 : ℝ)⌋ = 364 := by
      rw [Int.floor_eq_iff]; norm_num
    unfold roundEven
    rw [f, if_neg (by norm_num), if_neg (by norm_num), if_pos (by decide)]
    norm_num
  refine ⟨heightOf T c 0.8001, heightOf T c 0.8, _, _, h1, ?_, ?_,
    JumScaProof.jumS_eval M h1 hT hc hw hr hD hcp (by rw [n1]; norm_num),
    JumScaProof.jumS_eval M h2 hT hc hw hr hD hcp (by rw [n2]; norm_num)⟩
  · unfold heightOf; gcongr; norm_num
  · rw [x1, x2, n1, n2]
    have hDe := delta_pos hw hr
    change (_ / (Textbook.Delta ra rw * D) * _ * _ * _) ^ _ < (_ / (Textbook.Delta ra rw * D) * _ * _ * _) ^ _
    refine Real.rpow_lt_rpow (by positivity) ?_ (by norm_num)
    unfold heightOf
    have key : (0.8001 : ℝ) * 364 ^ (0.1 : ℝ) < 0.8 * 365 ^ (0.1 : ℝ) := by
      have p : ((0.8001 : ℝ) * 364 ^ (0.1 : ℝ)) ^ 10 < (0.8 * 365 ^ (0.1 : ℝ)) ^ 10 := by
        rw [mul_pow, mul_pow, ← Real.rpow_natCast, ← Real.rpow_natCast, ← Real.rpow_natCast, ← Real.rpow_natCast,
          ← Real.rpow_mul (by norm_num), ← Real.rpow_mul (by norm_num)]
        norm_num
      exact lt_of_pow_lt_pow_left₀ 10 (by positivity) p
    generalize (364 : ℝ) ^ (0.1 : ℝ) = u at *
    generalize (365 : ℝ) ^ (0.1 : ℝ) = v at *
    have hk : 0 < 9.81 * T ^ 2 / (2 * Real.pi * c ^ 2) / (Textbook.Delta ra rw * D) * (1.0 / cp) / (0.8 * 0.8001) := by
      positivity
    have := mul_lt_mul_of_pos_left key hk
    calc _ = 9.81 * T ^ 2 / (2 * Real.pi * c ^ 2) / (Textbook.Delta ra rw * D) * (1.0 / cp) / (0.8 * 0.8001) *
          (0.8001 * u) := by field_simp
      _ < _ := this
      _ = _ := by field_simp

example := C92_jumelet_damage_refuted 8 6 2650 1025 1 4.5 nan (by norm_num) (by norm_num) (by norm_num) (by norm_num)
  (by norm_num) (by norm_num)

end
