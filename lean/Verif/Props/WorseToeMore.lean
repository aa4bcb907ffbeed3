import Verif.Props.WorseToe
import Verif.Props.FormulasStructures

/-! # C92, continued: toes by Van Gent & Van der Werf (2014), Etemad-Shahidi et al. (2021) and Takahashi et al. (1990) -/

open Classical
open PF WorseStrProof
noncomputable section

namespace WorseStrProof

theorem tenth {H : ℝ} (hH : 0 < H) : ∃ y : ℝ, 0 < y ∧ H = y ^ 10 :=
  ⟨H ^ ((1 : ℝ) / 10), by positivity, by
    rw [← Real.rpow_natCast, ← Real.rpow_mul hH.le]; norm_num⟩

/-- velocity above the toe -/
def toe (T ht g : ℝ) : ℝ := T * Real.sinh (2 * Real.pi * ht / Published.deepWavelength T g)

theorem toe_pos {T ht g : ℝ} (hT : 0 < T) (hh : 0 < ht) (hg : 0 < g) : 0 < toe T ht g := by
  have := Real.pi_pos
  unfold toe Published.deepWavelength
  have : 0 < Real.sinh (2 * Real.pi * ht / (g * T ^ 2 / (2 * Real.pi))) :=
    Real.sinh_pos_iff.mpr (by positivity)
  positivity

theorem toe_le {T T' ht ht' g : ℝ} (hT : 0 < T) (hTT : T ≤ T') (hh : 0 < ht') (hhh : ht' ≤ ht) (hg : 0 < g) :
    toe T' ht' g ≤ toe T ht g := by
  have := Real.pi_pos
  have hT' := hT.trans_le hTT
  have hh0 := hh.trans_le hhh
  unfold toe Published.deepWavelength
  set x := 2 * Real.pi * ht / (g * T ^ 2 / (2 * Real.pi)) with hx
  set x' := 2 * Real.pi * ht' / (g * T' ^ 2 / (2 * Real.pi)) with hx'
  have hx0 : 0 < x' := by positivity
  have hxx : x' ≤ x := by rw [hx, hx']; gcongr
  have h1 := sinh_div_le hx0 hxx
  have h2 : T' * x' ≤ T * x := by
    have e : ∀ T ht : ℝ, 0 < T → T * (2 * Real.pi * ht / (g * T ^ 2 / (2 * Real.pi))) =
        4 * Real.pi ^ 2 * ht / (g * T) := by
      intro T ht hT; field_simp; ring
    rw [hx, hx', e _ _ hT, e _ _ hT']
    gcongr
  have hs : 0 < Real.sinh x := Real.sinh_pos_iff.mpr (hx0.trans_le hxx)
  have hs' : 0 < Real.sinh x' := Real.sinh_pos_iff.mpr hx0
  have hxp := hx0.trans_le hxx
  calc T' * Real.sinh x' = T' * x' * (Real.sinh x' / x') := by field_simp
    _ ≤ T * x * (Real.sinh x / x) := by gcongr
    _ = T * Real.sinh x := by field_simp

theorem vgw {k De D B t y T ht g n : ℝ} (hDe : 0 < De) (hD : 0 < D) (hB : 0 < B) (hy : 0 < y) (hT : 0 < T)
    (hg : 0 < g) (hh : 0 < ht) :
    Published.VanGentToe k (y ^ 10 / (De * D)) B t (y ^ 10) (Published.toeVelocity (y ^ 10) T ht g) g n ↔
    √g * (De * D) ^ 3 * toe T ht g * n = k * t * B ^ (0.3 : ℝ) * Real.pi * y ^ 22 := by
  have hp := Real.pi_pos
  unfold Published.VanGentToe Published.toeVelocity
  have h1 : (B / y ^ 10) ^ (0.3 : ℝ) = B ^ (0.3 : ℝ) / y ^ 3 := by
    rw [Real.div_rpow hB.le (by positivity), ← Real.rpow_natCast y 10, ← Real.rpow_mul hy.le]
    norm_num
  have h2 : √(g * y ^ 10) = √g * y ^ 5 := by
    rw [Real.sqrt_mul hg.le, show y ^ 10 = (y ^ 5) ^ 2 by ring, Real.sqrt_sq (by positivity)]
  have hq := Real.sqrt_pos.mpr hg
  have h0 := toe_pos hT hh hg
  unfold toe at *
  rw [h1, h2]
  generalize Real.sinh (2 * Real.pi * ht / Published.deepWavelength T g) = s at *
  have hs : 0 < s := pos_of_mul_pos_right h0 hT.le
  generalize B ^ (0.3 : ℝ) = b at *
  generalize √g = q at *
  field_simp

end WorseStrProof

section
variable {ra ra' rw rw' : ℝ} (hw : 0 < rw) (hww : rw ≤ rw') (hr' : rw' < ra') (hrr : ra' ≤ ra)
include hw hww hr' hrr

/-- C92: a higher or longer wave, smaller or lighter stones, less water above the toe, or a wider or thicker toe
never give less damage (Van Gent & Van der Werf 2014) -/
theorem C92_vangent_toe_damage (H H' T T' ht ht' B B' t t' D D' g k : ℝ) (cot cot' : PF) (hH : 0 < H) (hHH : H ≤ H')
    (hT : 0 < T) (hTT : T ≤ T') (hht : 0 < ht') (hhh : ht' ≤ ht) (hB : 0 < B) (hBB : B ≤ B') (ht0 : 0 < t)
    (htt : t ≤ t') (hD : 0 < D') (hDD : D' ≤ D) (hg : 0 < g) (hk : 0 < k) :
    NotLess (VanGentVanDerWerf2014.calculate_damage_Nod (fin H) (fin T) (fin ht) (fin B) (fin t) (fin D)
        (fin ra) (fin rw) cot (g := fin g) (c1 := fin k))
      (VanGentVanDerWerf2014.calculate_damage_Nod (fin H') (fin T') (fin ht') (fin B') (fin t') (fin D')
        (fin ra') (fin rw') cot' (g := fin g) (c1 := fin k))
      (H < H' ∨ D' < D ∨ B < B' ∨ t < t') := by
  have hw' := hw.trans_le hww
  have hr : rw < ra := by linarith
  have hDe' := delta_pos hw' hr'
  have hDe := delta_le hw hww hr' hrr
  have hD0 := hD.trans_le hDD
  have hH' := hH.trans_le hHH
  have hT' := hT.trans_le hTT
  have hh0 := hht.trans_le hhh
  have hB' := hB.trans_le hBB
  have ht0' := ht0.trans_le htt
  refine ofReturns (C78_vangent_toe_damage H T ht B t g ra rw cot hH hT hh0 hB ht0 hg hw hr D k hD0 hk)
    (C78_vangent_toe_damage H' T' ht' B' t' g ra' rw' cot' hH' hT' hht hB' ht0' hg hw' hr' D' k hD hk) ?_
  intro n n' hn hn' e e'
  unfold Textbook.Ns at e e'
  generalize Textbook.Delta ra rw = De at *
  generalize Textbook.Delta ra' rw' = De' at *
  have hDe0 := hDe'.trans_le hDe
  obtain ⟨y, hy, rfl⟩ := tenth hH
  obtain ⟨y', hy', rfl⟩ := tenth hH'
  rw [vgw hDe0 hD0 hB hy hT hg hh0] at e
  rw [vgw hDe' hD hB' hy' hT' hg hht] at e'
  have hyy : y ≤ y' := le_of_pow_le_pow_left₀ (by norm_num) hy'.le hHH
  have hto := toe_le hT hTT hht hhh hg
  have hto' := toe_pos hT' hht hg
  have hto0 := hto'.trans_le hto
  have hq := Real.sqrt_pos.mpr hg
  have hp := Real.pi_pos
  obtain ⟨r1, r2⟩ := solve1 (by positivity) (by gcongr) (by gcongr) hn hn' e e'
  refine ⟨r1, fun hs => r2 ?_⟩
  rcases hs with hs | hs | hs | hs
  · right
    have : y < y' := lt_of_pow_lt_pow_left₀ 10 hy'.le hs
    calc _ < k * t * B ^ (0.3 : ℝ) * Real.pi * y' ^ 22 := by gcongr
      _ ≤ _ := by gcongr
  · left
    calc _ < √g * (De' * D) ^ 3 * toe T' ht' g := by gcongr
      _ ≤ _ := by gcongr
  · right
    calc _ < k * t * B' ^ (0.3 : ℝ) * Real.pi * y ^ 22 := by gcongr
      _ ≤ _ := by gcongr
  · right
    calc _ < k * t' * B ^ (0.3 : ℝ) * Real.pi * y ^ 22 := by gcongr
      _ ≤ _ := by gcongr

/-- C92: a higher or longer wave, lighter stones, less water above the toe, a wider or thicker toe, or a stricter
damage limit never allow a smaller stone (Van Gent & Van der Werf 2014) -/
theorem C92_vangent_toe_size (H H' T T' ht ht' B B' t t' N N' g : ℝ) (cot cot' : PF) (hH : 0 < H) (hHH : H ≤ H')
    (hT : 0 < T) (hTT : T ≤ T') (hht : 0 < ht') (hhh : ht' ≤ ht) (hB : 0 < B) (hBB : B ≤ B') (ht0 : 0 < t)
    (htt : t ≤ t') (hN : 0 < N') (hNN : N' ≤ N) (hg : 0 < g) :
    NotLess (VanGentVanDerWerf2014.calculate_nominal_diameter_Dn50 (fin H) (fin T) (fin ht) (fin B) (fin t) (fin N)
        (fin ra) (fin rw) cot (g := fin g))
      (VanGentVanDerWerf2014.calculate_nominal_diameter_Dn50 (fin H') (fin T') (fin ht') (fin B') (fin t') (fin N')
        (fin ra') (fin rw') cot' (g := fin g))
      (H < H' ∨ N' < N ∨ B < B' ∨ t < t') := by
  have hw' := hw.trans_le hww
  have hr : rw < ra := by linarith
  have hDe' := delta_pos hw' hr'
  have hDe := delta_le hw hww hr' hrr
  have hN0 := hN.trans_le hNN
  have hH' := hH.trans_le hHH
  have hT' := hT.trans_le hTT
  have hh0 := hht.trans_le hhh
  have hB' := hB.trans_le hBB
  have ht0' := ht0.trans_le htt
  refine ofReturns (C78_vangent_toe_size H T ht B t g ra rw cot hH hT hh0 hB ht0 hg hw hr N hN0)
    (C78_vangent_toe_size H' T' ht' B' t' g ra' rw' cot' hH' hT' hht hB' ht0' hg hw' hr' N' hN) ?_
  intro n n' hn hn' e e'
  unfold Textbook.Ns at e e'
  generalize Textbook.Delta ra rw = De at *
  generalize Textbook.Delta ra' rw' = De' at *
  have hDe0 := hDe'.trans_le hDe
  obtain ⟨y, hy, rfl⟩ := tenth hH
  obtain ⟨y', hy', rfl⟩ := tenth hH'
  rw [vgw hDe0 hn hB hy hT hg hh0] at e
  rw [vgw hDe' hn' hB' hy' hT' hg hht] at e'
  have hyy : y ≤ y' := le_of_pow_le_pow_left₀ (by norm_num) hy'.le hHH
  have hto := toe_le hT hTT hht hhh hg
  have hto' := toe_pos hT' hht hg
  have hto0 := hto'.trans_le hto
  have hq := Real.sqrt_pos.mpr hg
  have hp := Real.pi_pos
  have k : √g * De ^ 3 * toe T ht g * N * n ^ (3 : ℝ) = 0.032768 * t * B ^ (0.3 : ℝ) * Real.pi * y ^ 22 := by
    rw [← e, show n ^ (3 : ℝ) = n ^ 3 by norm_cast]; ring
  have k' : √g * De' ^ 3 * toe T' ht' g * N' * n' ^ (3 : ℝ) =
      0.032768 * t' * B' ^ (0.3 : ℝ) * Real.pi * y' ^ 22 := by
    rw [← e', show n' ^ (3 : ℝ) = n' ^ 3 by norm_cast]; ring
  obtain ⟨r1, r2⟩ := solve (by norm_num) (by positivity) (by gcongr) (by gcongr) hn hn' k k'
  refine ⟨r1, fun hs => r2 ?_⟩
  rcases hs with hs | hs | hs | hs
  · right
    have : y < y' := lt_of_pow_lt_pow_left₀ 10 hy'.le hs
    calc _ < 0.032768 * t * B ^ (0.3 : ℝ) * Real.pi * y' ^ 22 := by gcongr
      _ ≤ _ := by gcongr
  · left
    calc _ < √g * De' ^ 3 * toe T' ht' g * N := by gcongr
      _ ≤ _ := by gcongr
  · right
    calc _ < 0.032768 * t * B' ^ (0.3 : ℝ) * Real.pi * y ^ 22 := by gcongr
      _ ≤ _ := by gcongr
  · right
    calc _ < 0.032768 * t' * B ^ (0.3 : ℝ) * Real.pi * y ^ 22 := by gcongr
      _ ≤ _ := by gcongr

end

example := And.intro (C92_vangent_toe_damage (ra := 2650) (ra' := 2600) (rw := 1000) (rw' := 1025) (by norm_num)
  (by norm_num) (by norm_num) (by norm_num) 2 2.5 7 8 5 4 3 4 1 1.2 1 0.9 9.81 0.032 nan nan (by norm_num)
  (by norm_num) (by norm_num) (by norm_num) (by norm_num) (by norm_num) (by norm_num) (by norm_num) (by norm_num)
  (by norm_num) (by norm_num) (by norm_num) (by norm_num) (by norm_num))
  (C92_vangent_toe_size (ra := 2650) (ra' := 2600) (rw := 1000) (rw' := 1025) (by norm_num)
  (by norm_num) (by norm_num) (by norm_num) 2 2.5 7 8 5 4 3 4 1 1.2 1 0.9 9.81 nan nan (by norm_num)
  (by norm_num) (by norm_num) (by norm_num) (by norm_num) (by norm_num) (by norm_num) (by norm_num) (by norm_num)
  (by norm_num) (by norm_num) (by norm_num) (by norm_num))

namespace WorseStrProof

theorem et {c1 c2 c3 c4 c5 c6 c7 De D ht h H T g n B m : ℝ} (hH : 0 < H) (hT : 0 < T) (hg : 0 < g) (hB : 0 < B) :
    Published.EtemadToe c1 c2 c3 c4 c5 c6 c7 (H / (De * D)) ht h (2 * Real.pi * H / (g * T ^ 2)) n B H m ↔
    c2 * (ht / h) ^ c3 * (2 * Real.pi / (g * T ^ 2)) ^ c4 * B ^ c6 * (1 - c7 * m) * n ^ c5 =
      (H / (De * D) - c1) * H ^ (-(c4 - c6)) := by
  have hp := Real.pi_pos
  unfold Published.EtemadToe
  have e1 : (2 * Real.pi * H / (g * T ^ 2)) ^ c4 = (2 * Real.pi / (g * T ^ 2)) ^ c4 * H ^ c4 := by
    rw [← Real.mul_rpow (by positivity) hH.le]; congr 1; field_simp
  have e2 : (B / H) ^ c6 = B ^ c6 / H ^ c6 := Real.div_rpow hB.le hH.le _
  have e3 : H ^ (-(c4 - c6)) = H ^ c6 / H ^ c4 := by
    rw [← Real.rpow_sub hH]; congr 1; ring
  have h4 : 0 < H ^ c4 := by positivity
  have h6 : 0 < H ^ c6 := by positivity
  rw [e1, e2, e3]
  generalize H / (De * D) = N
  generalize H ^ c4 = x at *
  generalize H ^ c6 = y at *
  generalize (2 * Real.pi / (g * T ^ 2)) ^ c4 = z at *
  rw [← sub_eq_iff_eq_add']
  constructor
  · intro e; rw [e]; field_simp
  · intro e; field_simp at e ⊢; linarith

/-- what counts in the load: `(Ns - c1) H^-p` -/
theorem et_load {c1 p H H' d d' : ℝ} (hc : 0 ≤ c1) (hp : 0 ≤ p) (hp1 : p < 1) (hH : 0 < H) (hHH : H ≤ H')
    (hd : 0 < d') (hdd : d' ≤ d) : (H / d - c1) * H ^ (-p) ≤ (H' / d' - c1) * H' ^ (-p) ∧
      (H < H' ∨ d' < d → (H / d - c1) * H ^ (-p) < (H' / d' - c1) * H' ^ (-p)) := by
  have hH' := hH.trans_le hHH
  have e : ∀ H d : ℝ, 0 < H → (H / d - c1) * H ^ (-p) = H ^ (1 - p) / d - c1 * H ^ (-p) := by
    intro H d hH
    rw [sub_eq_add_neg 1 p, Real.rpow_add hH, Real.rpow_one]; ring
  rw [e _ _ hH, e _ _ hH']
  have h1 : H' ^ (-p) ≤ H ^ (-p) := Real.rpow_le_rpow_of_nonpos hH hHH (by linarith)
  have h2 : H ^ (1 - p) ≤ H' ^ (1 - p) := Real.rpow_le_rpow hH.le hHH (by linarith)
  obtain ⟨q1, q2⟩ := quot (by positivity) h2 hd hdd
  have h3 := mul_le_mul_of_nonneg_left h1 hc
  refine ⟨by linarith, fun hs => ?_⟩
  have := q2 (hs.imp_left fun hs => Real.rpow_lt_rpow hH.le hs (by linarith))
  linarith

end WorseStrProof

section
variable {ra ra' rw rw' : ℝ} (c1 c2 c3 c4 c5 c6 c7 : ℝ) (hw : 0 < rw) (hww : rw ≤ rw') (hr' : rw' < ra')
  (hrr : ra' ≤ ra) (h1 : 0 ≤ c1) (h2 : 0 < c2) (h3 : 0 ≤ c3) (h4 : 0 ≤ c4) (h5 : 0 < c5) (h6 : c6 ≤ 0) (h46 : c4 - c6 < 1)
  (h7 : 0 ≤ c7)
include hw hww hr' hrr h1 h2 h3 h4 h5 h6 h46 h7

/-- C92: a higher or longer wave, smaller or lighter stones, a shallower or wider toe, or a steeper foreshore never
give less damage (Etemad-Shahidi et al. 2021), for coefficients with the published signs -/
theorem C92_etemad_toe_damage (H H' T T' h h' ht ht' B B' m m' D D' g : ℝ) (hH : 0 < H) (hHH : H ≤ H') (hT : 0 < T)
    (hTT : T ≤ T') (hh : 0 < h) (hhh : h ≤ h') (hht : 0 < ht') (htt : ht' ≤ ht) (hB : 0 < B) (hBB : B ≤ B')
    (hmm : m ≤ m') (hm : c7 * m' < 1) (hD : 0 < D') (hDD : D' ≤ D) (hg : 0 < g)
    (hd : c1 < Textbook.Ns H D ra rw) :
    NotLess (EtemadShahidi2021.calculate_damage_Nod (fin H) (fin T) (fin h) (fin ht) (fin B) (fin m) (fin D) (fin ra)
        (fin rw) (fin g) (fin c1) (fin c2) (fin c3) (fin c4) (fin c5) (fin c6) (fin c7))
      (EtemadShahidi2021.calculate_damage_Nod (fin H') (fin T') (fin h') (fin ht') (fin B') (fin m') (fin D') (fin ra')
        (fin rw') (fin g) (fin c1) (fin c2) (fin c3) (fin c4) (fin c5) (fin c6) (fin c7))
      (H < H' ∨ D' < D) := by
  have hw' := hw.trans_le hww
  have hr : rw < ra := by linarith
  have hDe' := delta_pos hw' hr'
  have hDe := delta_le hw hww hr' hrr
  have hD0 := hD.trans_le hDD
  have hH' := hH.trans_le hHH
  have hT' := hT.trans_le hTT
  have hht0 := hht.trans_le htt
  have hh' := hh.trans_le hhh
  have hB' := hB.trans_le hBB
  have hDe0 := hDe'.trans_le hDe
  have hcm := mul_le_mul_of_nonneg_left hmm h7
  have hdd : Textbook.Delta ra' rw' * D' ≤ Textbook.Delta ra rw * D := by gcongr
  obtain ⟨l1, l2⟩ := et_load h1 (by linarith : 0 ≤ c4 - c6) h46 hH hHH (mul_pos hDe' hD) hdd
  have hNs : Textbook.Ns H D ra rw ≤ Textbook.Ns H' D' ra' rw' := by unfold Textbook.Ns; gcongr
  refine ofReturns (C78_etemad_toe_damage H T h ht B m ra rw g c1 c2 c3 c4 c5 c6 c7 hH hT hh hht0 hB hg hw hr h2 h5.ne'
      (by linarith) D hD0 hd)
    (C78_etemad_toe_damage H' T' h' ht' B' m' ra' rw' g c1 c2 c3 c4 c5 c6 c7 hH' hT' hh' hht hB' hg hw' hr' h2 h5.ne'
      (by linarith) D' hD (hd.trans_le hNs)) ?_
  intro n n' hn hn' e e'
  unfold Textbook.Ns at e e'
  rw [et hH hT hg hB] at e
  rw [et hH' hT' hg hB'] at e'
  have hp := Real.pi_pos
  have hb : B' ^ c6 ≤ B ^ c6 := Real.rpow_le_rpow_of_nonpos hB hBB h6
  have hm0 : 0 < 1 - c7 * m := by linarith
  have hm1 : 0 < 1 - c7 * m' := by linarith
  have hm2 : 1 - c7 * m' ≤ 1 - c7 * m := by linarith
  have hs : (2 * Real.pi / (g * T' ^ 2)) ^ c4 ≤ (2 * Real.pi / (g * T ^ 2)) ^ c4 := by gcongr
  have hq : (ht' / h') ^ c3 ≤ (ht / h) ^ c3 := by gcongr
  obtain ⟨r1, r2⟩ := solve h5 (by positivity) (by gcongr) l1 hn hn' e e'
  refine ⟨r1, fun hs => r2 (.inr (l2 (hs.imp_right fun hs => ?_)))⟩
  calc _ < Textbook.Delta ra' rw' * D := by gcongr
    _ ≤ _ := by gcongr

/-- C92: a higher or longer wave, lighter stones, a shallower or wider toe, a steeper foreshore or a stricter damage
limit never allow a smaller stone (Etemad-Shahidi et al. 2021), for coefficients with the published signs -/
theorem C92_etemad_toe_size (H H' T T' h h' ht ht' B B' m m' N N' g : ℝ) (hH : 0 < H) (hHH : H ≤ H') (hT : 0 < T)
    (hTT : T ≤ T') (hh : 0 < h) (hhh : h ≤ h') (hht : 0 < ht') (htt : ht' ≤ ht) (hB : 0 < B) (hBB : B ≤ B')
    (hmm : m ≤ m') (hm : c7 * m' < 1) (hN : 0 < N') (hNN : N' ≤ N) (hg : 0 < g) :
    NotLess (EtemadShahidi2021.calculate_nominal_diameter_Dn50 (fin H) (fin T) (fin h) (fin ht) (fin B) (fin N) (fin m)
        (fin ra) (fin rw) (fin g) (fin c1) (fin c2) (fin c3) (fin c4) (fin c5) (fin c6) (fin c7))
      (EtemadShahidi2021.calculate_nominal_diameter_Dn50 (fin H') (fin T') (fin h') (fin ht') (fin B') (fin N')
        (fin m') (fin ra') (fin rw') (fin g) (fin c1) (fin c2) (fin c3) (fin c4) (fin c5) (fin c6) (fin c7))
      (H < H' ∨ N' < N) := by
  have hw' := hw.trans_le hww
  have hr : rw < ra := by linarith
  have hDe' := delta_pos hw' hr'
  have hDe := delta_le hw hww hr' hrr
  have hN0 := hN.trans_le hNN
  have hH' := hH.trans_le hHH
  have hT' := hT.trans_le hTT
  have hht0 := hht.trans_le htt
  have hh' := hh.trans_le hhh
  have hB' := hB.trans_le hBB
  have hDe0 := hDe'.trans_le hDe
  have hcm := mul_le_mul_of_nonneg_left hmm h7
  refine ofReturns (C78_etemad_toe_size H T h ht B m ra rw g c1 c2 c3 c4 c5 c6 c7 hH hT hh hht0 hB hg hw hr h2 h5.ne'
      (by linarith) N hN0 h1)
    (C78_etemad_toe_size H' T' h' ht' B' m' ra' rw' g c1 c2 c3 c4 c5 c6 c7 hH' hT' hh' hht hB' hg hw' hr' h2 h5.ne'
      (by linarith) N' hN h1) ?_
  intro n n' hn hn' e e'
  unfold Textbook.Ns at e e'
  rw [et hH hT hg hB] at e
  rw [et hH' hT' hg hB'] at e'
  have hp := Real.pi_pos
  have hb : B' ^ c6 ≤ B ^ c6 := Real.rpow_le_rpow_of_nonpos hB hBB h6
  have hm0 : 0 < 1 - c7 * m := by linarith
  have hm1 : 0 < 1 - c7 * m' := by linarith
  have hm2 : 1 - c7 * m' ≤ 1 - c7 * m := by linarith
  have hs : (2 * Real.pi / (g * T' ^ 2)) ^ c4 ≤ (2 * Real.pi / (g * T ^ 2)) ^ c4 := by gcongr
  have hq : (ht' / h') ^ c3 ≤ (ht / h) ^ c3 := by gcongr
  have hn1 : N' ^ c5 ≤ N ^ c5 := Real.rpow_le_rpow hN.le hNN h5.le
  -- the smaller of the two stones on the side of the load
  have key : c2 * (ht' / h') ^ c3 * (2 * Real.pi / (g * T' ^ 2)) ^ c4 * B' ^ c6 * (1 - c7 * m') * N' ^ c5 ≤
      c2 * (ht / h) ^ c3 * (2 * Real.pi / (g * T ^ 2)) ^ c4 * B ^ c6 * (1 - c7 * m) * N ^ c5 := by gcongr
  rw [e, e'] at key
  have hcc : (0 : ℝ) ≤ c4 - c6 := by linarith
  constructor
  · by_contra hlt
    push Not at hlt
    have hdd : Textbook.Delta ra' rw' * n' < Textbook.Delta ra rw * n := by
      calc _ < Textbook.Delta ra' rw' * n := by gcongr
        _ ≤ _ := by gcongr
    have := (et_load h1 hcc h46 hH hHH (mul_pos hDe' hn') hdd.le).2 (.inr hdd)
    linarith
  · intro hs'
    by_contra hlt
    push Not at hlt
    have hdd : Textbook.Delta ra' rw' * n' ≤ Textbook.Delta ra rw * n := by gcongr
    obtain ⟨l1, l2⟩ := et_load h1 hcc h46 hH hHH (mul_pos hDe' hn') hdd
    rcases hs' with hs' | hs'
    · linarith [l2 (.inl hs')]
    · have hn2 : N' ^ c5 < N ^ c5 := Real.rpow_lt_rpow hN.le hs' h5
      have : c2 * (ht' / h') ^ c3 * (2 * Real.pi / (g * T' ^ 2)) ^ c4 * B' ^ c6 * (1 - c7 * m') * N' ^ c5 <
          c2 * (ht / h) ^ c3 * (2 * Real.pi / (g * T ^ 2)) ^ c4 * B ^ c6 * (1 - c7 * m) * N ^ c5 := by
        calc _ < c2 * (ht' / h') ^ c3 * (2 * Real.pi / (g * T' ^ 2)) ^ c4 * B' ^ c6 * (1 - c7 * m') * N ^ c5 := by
              gcongr
          _ ≤ _ := by gcongr
      rw [e, e'] at this
      linarith

end

/-- the published coefficients, and a toe above the stability number without damage -/
example := And.intro (C92_etemad_toe_damage (ra := 2650) (ra' := 2600) (rw := 1000) (rw' := 1025) 1.2 11.2 (7 / 4)
  (1 / 6) (2 / 5) (-1 / 10) 3.7 (by norm_num) (by norm_num) (by norm_num) (by norm_num) (by norm_num) (by norm_num)
  (by norm_num) (by norm_num) (by norm_num) (by norm_num) (by norm_num) (by norm_num) 4 5 7 8 8 9 5 4 3 4 0.01 0.02
  1 0.9 9.81 (by norm_num) (by norm_num) (by norm_num) (by norm_num) (by norm_num) (by norm_num) (by norm_num)
  (by norm_num) (by norm_num) (by norm_num) (by norm_num) (by norm_num) (by norm_num) (by norm_num) (by norm_num)
  (by unfold Textbook.Ns Textbook.Delta; norm_num))
  (C92_etemad_toe_size (ra := 2650) (ra' := 2600) (rw := 1000) (rw' := 1025) 1.2 11.2 (7 / 4)
  (1 / 6) (2 / 5) (-1 / 10) 3.7 (by norm_num) (by norm_num) (by norm_num) (by norm_num) (by norm_num) (by norm_num)
  (by norm_num) (by norm_num) (by norm_num) (by norm_num) (by norm_num) (by norm_num) 4 5 7 8 8 9 5 4 3 4 0.01 0.02
  1 0.9 9.81 (by norm_num) (by norm_num) (by norm_num) (by norm_num) (by norm_num) (by norm_num) (by norm_num)
  (by norm_num) (by norm_num) (by norm_num) (by norm_num) (by norm_num) (by norm_num) (by norm_num) (by norm_num))

/-! ## Takahashi et al. (1990) -/

namespace WorseStrProof

theorem toeStability_le (k : ℝ) {r r' : ℝ} (hr : 0 < r') (hrr : r' ≤ r) :
    Published.toeStability k r' ≤ Published.toeStability k r := by
  unfold Published.toeStability
  have h0 := hr.trans_le hrr
  refine max_le (le_max_left _ _) ?_
  generalize (1 - k) / k ^ ((1 : ℝ) / 3) = a
  generalize (1 - k) ^ 2 / k ^ ((1 : ℝ) / 3) = b
  obtain ⟨t, ht0, ht1, rfl⟩ : ∃ t : ℝ, 0 ≤ t ∧ t ≤ 1 ∧ r' = t * r :=
    ⟨r' / r, by positivity, by rwa [div_le_one h0], by field_simp⟩
  have hc := convexOn_exp.2 (Set.mem_univ (0 : ℝ)) (Set.mem_univ (-1.5 * b * r)) (sub_nonneg.mpr ht1) ht0 (by ring)
  simp only [smul_eq_mul, mul_zero, zero_add, Real.exp_zero, mul_one] at hc
  have e : -1.5 * b * (t * r) = t * (-1.5 * b * r) := by ring
  rw [e]
  have h1 := le_max_left (1.8 : ℝ) (1.3 * a * r + 1.8 * Real.exp (-1.5 * b * r))
  have h2 := le_max_right (1.8 : ℝ) (1.3 * a * r + 1.8 * Real.exp (-1.5 * b * r))
  generalize max (1.8 : ℝ) (1.3 * a * r + 1.8 * Real.exp (-1.5 * b * r)) = M at *
  nlinarith [mul_le_mul_of_nonneg_left h1 (sub_nonneg.mpr ht1), mul_le_mul_of_nonneg_left h2 ht0]

end WorseStrProof

section
variable (disper : PF → PF → PF → PF) (H H' h B β g L : ℝ) (T : PF) (hH : 0 < H) (hHH : H ≤ H') (hh : 0 < h)
  (hL : 0 < L) (hw : CorePhysics.calculate_local_wavelength disper T (fin h) (fin g) = fin L)
  (hk : 0 < Published.toeKappa (2 * Real.pi / L) h B (β * (Real.pi / 180)))
include hH hHH hh hL hw hk

/-- C92: the stability number of a caisson toe never rises with the wave height (Takahashi et al. 1990) -/
theorem C92_takahashi_stability : NotLess
    (Takahashi1990.calculate_stability_number_Ns disper (fin H') T (fin h) (fin B) (fin β) (fin g))
    (Takahashi1990.calculate_stability_number_Ns disper (fin H) T (fin h) (fin B) (fin β) (fin g)) False :=
  ⟨_, _, C78_takahashi disper H' h B β g L T (hH.trans_le hHH) hh hL hw hk,
    C78_takahashi disper H h B β g L T hH hh hL hw hk,
    toeStability_le _ (div_pos hh (hH.trans_le hHH)) (by gcongr), False.elim⟩

/-- C92: a higher wave or lighter stones never allow a smaller stone in a caisson toe (Takahashi et al. 1990) -/
theorem C92_takahashi_size (ra ra' rw rw' : ℝ) (hr0 : 0 < rw) (hww : rw ≤ rw') (hr' : rw' < ra') (hrr : ra' ≤ ra) :
    NotLess (Takahashi1990.calculate_nominal_diameter_Dn50 disper (fin H) T (fin h) (fin B) (fin ra) (fin rw) (fin β)
        (fin g))
      (Takahashi1990.calculate_nominal_diameter_Dn50 disper (fin H') T (fin h) (fin B) (fin ra') (fin rw') (fin β)
        (fin g))
      (H < H') := by
  have hr0' := hr0.trans_le hww
  have hr : rw < ra := by linarith
  have hDe' := delta_pos hr0' hr'
  have hDe := delta_le hr0 hww hr' hrr
  have key : ∀ H ra rw : ℝ, 0 < H → 0 < rw → rw < ra →
      (Takahashi1990.calculate_nominal_diameter_Dn50 disper (fin H) T (fin h) (fin B) (fin ra) (fin rw) (fin β)
        (fin g)).res = .ok (fin (H / (Published.toeStability
          (Published.toeKappa (2 * Real.pi / L) h B (β * (Real.pi / 180))) (h / H) * Textbook.Delta ra rw))) := by
    intro H ra rw hH hw0 hr
    obtain ⟨De, hDe, hDD, e⟩ := Delta_eval hw0 hr
    unfold Takahashi1990.calculate_nominal_diameter_Dn50
    rw [PyM.bind_res_of_ok (C78_takahashi disper H h B β g L T hH hh hL hw hk), e]
    simp only [stab_Dn, PyM.bind_ok, PyM.pure_def]
    have hs : 0 < Published.toeStability (Published.toeKappa (2 * Real.pi / L) h B (β * (Real.pi / 180))) (h / H) :=
      lt_of_lt_of_le (by norm_num) (le_max_left _ _)
    rw [div_fin hs.ne', div_fin hDe.ne', div_div, hDD]
    rfl
  refine ⟨_, _, key H ra rw hH hr0 hr, key H' ra' rw' (hH.trans_le hHH) hr0' hr', ?_⟩
  have hs := toeStability_le (Published.toeKappa (2 * Real.pi / L) h B (β * (Real.pi / 180)))
    (div_pos hh (hH.trans_le hHH)) (by gcongr : h / H' ≤ h / H)
  have hs' : 0 < Published.toeStability (Published.toeKappa (2 * Real.pi / L) h B (β * (Real.pi / 180))) (h / H') :=
    lt_of_lt_of_le (by norm_num) (le_max_left _ _)
  obtain ⟨q1, q2⟩ := quot hH hHH (mul_pos hs' hDe') (mul_le_mul hs hDe hDe'.le (hs'.trans_le hs).le)
  exact ⟨q1, fun h => q2 (.inl h)⟩

end

/-- the hypotheses are satisfiable: waves of 2 m and 3 m, head-on -/
example : NotLess (Takahashi1990.calculate_nominal_diameter_Dn50 (fun _ _ _ => fin 1) (fin 2) (fin 8) (fin 3)
      (fin (Real.pi / 6)) (fin 2650) (fin 1025) (fin 0) (fin 9.81))
    (Takahashi1990.calculate_nominal_diameter_Dn50 (fun _ _ _ => fin 1) (fin 3) (fin 8) (fin 3)
      (fin (Real.pi / 6)) (fin 2600) (fin 1025) (fin 0) (fin 9.81)) True := by
  have hπ := Real.pi_pos
  have hw : CorePhysics.calculate_local_wavelength (fun _ _ _ => fin 1) (fin 8) (fin 3) (fin 9.81) =
      fin (2 * Real.pi) := by
    unfold CorePhysics.calculate_local_wavelength
    pf_eval []
    field_simp
  have e1 : 2 * Real.pi / (2 * Real.pi) = 1 := by field_simp
  have hk : 0 < Published.toeKappa (2 * Real.pi / (2 * Real.pi)) 3 (Real.pi / 6) (0 * (Real.pi / 180)) := by
    rw [e1, zero_mul]
    unfold Published.toeKappa
    have hs : 0 < Real.sinh (2 * 1 * 3) := Real.sinh_pos_iff.mpr (by norm_num)
    refine mul_pos (by positivity) (lt_max_of_lt_right ?_)
    rw [Real.cos_zero, one_mul, mul_one, Real.sin_pi_div_six]
    norm_num
  obtain ⟨x, x', h1, h2, h3, h4⟩ := C92_takahashi_size (fun _ _ _ => fin 1) 2 3 3 (Real.pi / 6) 0 9.81 (2 * Real.pi)
    (fin 8) (by norm_num) (by norm_num) (by norm_num) (by positivity) hw hk 2650 2600 1025 1025 (by norm_num)
    (by norm_num) (by norm_num) (by norm_num)
  exact ⟨x, x', h1, h2, h3, fun _ => h4 (by norm_num)⟩
