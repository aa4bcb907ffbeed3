import Verif.SpecWorse
import Verif.SpecFormula
import Mathlib.Analysis.SpecialFunctions.Pow.Real
import Mathlib.Analysis.Convex.SpecificFunctions.Basic
import Mathlib.Analysis.Convex.Deriv
import Mathlib.Analysis.SpecialFunctions.Trigonometric.DerivHyp

/-! # Lemmas for C92 -/

open PF
noncomputable section

namespace WorseStrProof

/-- a relation `A n^p = B` solved for `n` -/
theorem solve {p A A' B B' n n' : ℝ} (hp : 0 < p) (hA : 0 < A') (hAA : A' ≤ A) (hBB : B ≤ B') (hn : 0 < n)
    (hn' : 0 < n') (e : A * n ^ p = B) (e' : A' * n' ^ p = B') :
    n ≤ n' ∧ (A' < A ∨ B < B' → n < n') := by
  have hx : 0 < n ^ p := by positivity
  have hy : 0 < n' ^ p := by positivity
  constructor
  · by_contra h
    push Not at h
    have h1 : n' ^ p < n ^ p := Real.rpow_lt_rpow hn'.le h hp
    nlinarith [mul_le_mul_of_nonneg_right hAA hx.le]
  · intro hs
    by_contra h
    push Not at h
    have h1 : n' ^ p ≤ n ^ p := Real.rpow_le_rpow hn'.le h hp.le
    have h2 := mul_le_mul_of_nonneg_left h1 hA.le
    rcases hs with hs | hs
    · nlinarith [mul_lt_mul_of_pos_right hs hx]
    · nlinarith [mul_le_mul_of_nonneg_right hAA hx.le]

theorem delta_pos {ra rw : ℝ} (hw : 0 < rw) (hr : rw < ra) : 0 < Textbook.Delta ra rw := by
  unfold Textbook.Delta
  exact div_pos (sub_pos.mpr hr) hw

theorem delta_le {ra ra' rw rw' : ℝ} (hw : 0 < rw) (hww : rw ≤ rw') (hr' : rw' < ra') (hrr : ra' ≤ ra) :
    Textbook.Delta ra' rw' ≤ Textbook.Delta ra rw := by
  unfold Textbook.Delta
  have hw' := hw.trans_le hww
  rw [div_le_div_iff₀ hw' hw]
  nlinarith

/-- both calls solved: from two relations of the form `A n^p = B` -/
theorem ofReturns {m m' : PyM PF} {P P' : ℝ → Prop} {s : Prop} (h : Returns m P) (h' : Returns m' P')
    (k : ∀ n n', 0 < n → 0 < n' → P n → P' n' → n ≤ n' ∧ (s → n < n')) : NotLess m m' s := by
  obtain ⟨n, hn, e, p⟩ := h
  obtain ⟨n', hn', e', p'⟩ := h'
  obtain ⟨h1, h2⟩ := k n n' hn hn' p p'
  exact ⟨n, n', e, e', h1, h2⟩

/-- `sinh x / x` does not decrease -/
theorem sinh_div_le {x y : ℝ} (hx : 0 < x) (hxy : x ≤ y) : Real.sinh x / x ≤ Real.sinh y / y := by
  have hc : ConvexOn ℝ (Set.Ici 0) Real.sinh := by
    apply MonotoneOn.convexOn_of_deriv (convex_Ici 0) Real.continuous_sinh.continuousOn
      Real.differentiable_sinh.differentiableOn
    rw [interior_Ici, Real.deriv_sinh]
    intro a ha b hb hab
    exact Real.cosh_le_cosh.mpr (by rw [abs_of_pos ha, abs_of_pos hb]; exact hab)
  have hy := hx.trans_le hxy
  have := hc.secant_mono (a := 0) (x := x) (y := y) (Set.mem_Ici.mpr le_rfl) hx.le hy.le hx.ne' hy.ne' hxy
  simpa using this

/-- the same without exponent -/
theorem solve1 {A A' B B' n n' : ℝ} (hA : 0 < A') (hAA : A' ≤ A) (hBB : B ≤ B') (hn : 0 < n) (hn' : 0 < n')
    (e : A * n = B) (e' : A' * n' = B') : n ≤ n' ∧ (A' < A ∨ B < B' → n < n') :=
  solve one_pos hA hAA hBB hn hn' (by rwa [Real.rpow_one]) (by rwa [Real.rpow_one])

/-- quotients -/
theorem quot {H H' d d' : ℝ} (hH : 0 < H) (hHH : H ≤ H') (hd : 0 < d') (hdd : d' ≤ d) :
    H / d ≤ H' / d' ∧ (H < H' ∨ d' < d → H / d < H' / d') := by
  have h0 := hd.trans_le hdd
  refine ⟨by gcongr; linarith, fun h => ?_⟩
  rw [div_lt_div_iff₀ h0 hd]
  rcases h with h | h <;> nlinarith

end WorseStrProof
