import Verif.Props.ScaleToeRear
import Verif.Props.ToeEtemad

/-! # C82: the wave height at a toe by Etemad-Shahidi et al. (2021), solved by iteration -/

open Classical
open PF EtemadShahidi2021
noncomputable section

/-- C82, toe wave height by Etemad-Shahidi et al. (2021): the iterations in a scale model and in the prototype both end
and their results follow the scale up to what the fixed tolerance of 1 mm leaves at either (relative, q = |c4 - c6|,
0.27 by default).
Missing: coefficients with q of 1 or more; equality, which the fixed tolerance rules out. -/
theorem C82_toe_etemadshahidi2021_height_partial {lam : ℝ} (hl : 0 < lam)
    (D T h ht Bt N m ra rw g c1 c2 c3 c4 c5 c6 c7 s0 : ℝ)
    (hD : 0 < D) (hT : 0 < T) (hh : 0 < h) (hht : 0 < ht) (hB : 0 < Bt) (hN : 0 < N)
    (hg : 0 < g) (hw : 0 < rw) (hr : rw < ra) (hc1 : 0 ≤ c1) (hc2 : 0 < c2) (hm : 0 < 1 - c7 * m)
    (hs0 : 0 < s0) (hq : |c4 - c6| < 1) (hc5 : c5 ≠ 0) (n : ℕ) (hn : 0 < n) :
    ∃ (r r' : PyM PF) (H H' : ℝ),
      calculate_significant_wave_height_Hs (fin T) (fin h) (fin ht) (fin Bt) (fin N) (fin m) (fin D)
        (fin ra) (fin rw) (fin g) (fin c1) (fin c2) (fin c3) (fin c4) (fin c5) (fin c6) (fin c7)
        (fin s0) n = some r ∧
      calculate_significant_wave_height_Hs (Scale.time lam (fin T)) (Scale.len lam (fin h)) (Scale.len lam (fin ht))
        (Scale.len lam (fin Bt)) (fin N) (fin m) (Scale.len lam (fin D))
        (fin ra) (fin rw) (fin g) (fin c1) (fin c2) (fin c3) (fin c4) (fin c5) (fin c6) (fin c7)
        (fin s0) n = some r' ∧
      r.res = .ok (fin H) ∧ r'.res = .ok (fin H') ∧ 0 < H ∧ 0 < H' ∧
      (1e-3 < H → 1e-3 < H' → |Real.log (H' / (lam * H))| ≤
        |c4 - c6| / (1 - |c4 - c6|) * (1e-3 / (H - 1e-3) + 1e-3 / (H' - 1e-3))) := by
  have hs := Real.sqrt_pos.mpr hl
  have el : ∀ x : ℝ, Scale.len lam (fin x) = fin (lam * x) := fun x => by
    unfold Scale.len Scale.times; rw [mul_fin]
  have et : ∀ x : ℝ, Scale.time lam (fin x) = fin (√lam * x) := fun x => by
    unfold Scale.time Scale.times; rw [mul_fin]
  obtain ⟨r, H, p, a1, a2, a3, a4, a5, a6⟩ := C31_terminates_partial D T h ht Bt N m ra rw g c1 c2 c3 c4 c5 c6 c7 s0
    hD hT hh hht hB hN hg hw hr hc1 hc2 hm hs0 hq hc5 n hn
  obtain ⟨r', H', p', b1, b2, b3, b4, b5, b6⟩ := C31_terminates_partial (lam * D) (√lam * T) (lam * h) (lam * ht)
    (lam * Bt) N m ra rw g c1 c2 c3 c4 c5 c6 c7 s0 (by positivity) (by positivity) (by positivity) (by positivity)
    (by positivity) hN hg hw hr hc1 hc2 hm hs0 hq hc5 n hn
  have hp : p' = lam * p := by
    refine ((b5 (lam * p) (by positivity)).mp ?_).symm
    obtain ⟨k1, k2⟩ := (a5 p a4).mpr rfl
    refine ⟨?_, ?_⟩
    · have k := (C82_toe_etemadshahidi2021 hl).1 (fin p) (fin T) (fin h) (fin ht) (fin Bt) (fin m) (fin D) (fin ra)
        (fin rw) (fin g) (fin c1) (fin c2) (fin c3) (fin c4) (fin c5) (fin c6) (fin c7)
      simp only [el, et] at k
      rw [k]; exact k1
    · have : lam * p / ((ra - rw) / rw * (lam * D)) = p / ((ra - rw) / rw * D) := by
        rw [show (ra - rw) / rw * (lam * D) = lam * ((ra - rw) / rw * D) by ring, mul_div_mul_left _ _ hl.ne']
      rw [this]; exact k2
  simp only [el, et]
  refine ⟨r, r', H, H', a1, b1, a2, b2, a3, b3, fun h1 h2 => ?_⟩
  have e := a6 h1
  have e' := b6 h2
  rw [hp, Real.log_mul hl.ne' a4.ne'] at e'
  rw [Real.log_div b3.ne' (by positivity), Real.log_mul hl.ne' a3.ne', mul_add]
  rw [abs_le] at *
  constructor <;> linarith [e.1, e.2, e'.1, e'.2]

/-- a case meeting the hypotheses: a model at scale 1 to 20, q = 0.27 -/
example := C82_toe_etemadshahidi2021_height_partial (lam := 1 / 20) (by norm_num) (D := 1) (T := 8) (h := 8) (ht := 5)
  (Bt := 6) (N := 0.5) (m := 0.02) (ra := 2650) (rw := 1025) (g := 9.81) (c1 := 1) (c2 := 5) (c3 := 0.2)
  (c4 := 1 / 6) (c5 := 0.5) (c6 := -1 / 10) (c7 := 5) (s0 := 0.03) (by norm_num) (by norm_num) (by norm_num)
  (by norm_num) (by norm_num) (by norm_num) (by norm_num) (by norm_num) (by norm_num) (by norm_num) (by norm_num)
  (by norm_num) (by norm_num) (by rw [abs_of_nonneg] <;> norm_num) (by norm_num) 100 (by norm_num)
end
