import Verif.Lemmas.Composite
import Verif.Lemmas.Contraction
import Verif.Props.WorseBerm
import Mathlib.Analysis.Calculus.MeanValue
import Mathlib.Analysis.SpecialFunctions.Log.Deriv
import Mathlib.Analysis.SpecialFunctions.ExpDeriv

/-!
# Proof support: the run-up iteration on two slopes settles on one level
-/

open Classical
open PF CorePhysics CoreUtility
noncomputable section

namespace RunupTaw2002

/-- relative change of the average of two slopes with the level, for slopes at most a factor 4 apart -/
theorem avg_slope {a s d u : ℝ} (ha : 0 < a) (hs : 0 < s) (hd : 0 < d) (hu : 0 < u) (h1 : u ≤ 4 * d)
    (h2 : d ≤ 4 * u) : |s / (a + s) - u * s / (a * d + u * s)| ≤ 1 / 3 := by
  have h3 : 0 < (a + s) * (a * d + u * s) := by positivity
  have e : s / (a + s) - u * s / (a * d + u * s) = a * s * (d - u) / ((a + s) * (a * d + u * s)) := by
    field_simp
    ring
  have q1 : 0 ≤ a ^ 2 * d + u * s ^ 2 - 2 * (a * s) * (u - 2 * d) := by
    have : 0 ≤ d * (a ^ 2 * d + u * s ^ 2 - 2 * (a * s) * (u - 2 * d)) := by
      have : d * (a ^ 2 * d + u * s ^ 2 - 2 * (a * s) * (u - 2 * d)) =
        (a * d - s * (u - 2 * d)) ^ 2 + s ^ 2 * ((4 * d - u) * (u - d)) := by ring
      by_cases hud : u ≤ 2 * d
      · have : 0 ≤ (a * s) * (2 * d - u) := mul_nonneg (by positivity) (by linarith)
        have : 0 ≤ a ^ 2 * d + u * s ^ 2 := by positivity
        exact mul_nonneg hd.le (by linarith)
      · rw [this]
        have : 0 ≤ (4 * d - u) * (u - d) := mul_nonneg (by linarith) (by linarith)
        positivity
    exact nonneg_of_mul_nonneg_right this hd
  have q2 : 0 ≤ a ^ 2 * d + u * s ^ 2 - 2 * (a * s) * (d - 2 * u) := by
    have : 0 ≤ u * (a ^ 2 * d + u * s ^ 2 - 2 * (a * s) * (d - 2 * u)) := by
      have : u * (a ^ 2 * d + u * s ^ 2 - 2 * (a * s) * (d - 2 * u)) =
        (u * s - a * (d - 2 * u)) ^ 2 + a ^ 2 * ((4 * u - d) * (d - u)) := by ring
      by_cases hud : d ≤ 2 * u
      · have : 0 ≤ (a * s) * (2 * u - d) := mul_nonneg (by positivity) (by linarith)
        have : 0 ≤ a ^ 2 * d + u * s ^ 2 := by positivity
        exact mul_nonneg hu.le (by linarith)
      · rw [this]
        have : 0 ≤ (4 * u - d) * (d - u) := mul_nonneg (by linarith) (by linarith)
        positivity
    exact nonneg_of_mul_nonneg_right this hu
  rw [e, abs_le, neg_le_iff_add_nonneg, div_le_iff₀ h3]
  constructor
  · have : a * s * (d - u) / ((a + s) * (a * d + u * s)) + 1 / 3 =
        (3 * (a * s * (d - u)) + (a + s) * (a * d + u * s)) / (3 * ((a + s) * (a * d + u * s))) := by
      field_simp
    rw [this]
    refine div_nonneg ?_ (by positivity)
    nlinarith
  · nlinarith

theorem avg_log {a d u z w : ℝ} (ha : 0 < a) (hd : 0 < d) (hu : 0 < u) (h1 : u ≤ 4 * d) (h2 : d ≤ 4 * u)
    (hz : 0 < z) (hw : 0 < w) :
    |Real.log ((a * d + u * z) / (a + z)) - Real.log ((a * d + u * w) / (a + w))| ≤
      1 / 3 * |Real.log z - Real.log w| := by
  let f : ℝ → ℝ := fun t => Real.log (a + Real.exp t) - Real.log (a * d + u * Real.exp t)
  have hf : ∀ t : ℝ, HasDerivAt f (Real.exp t / (a + Real.exp t) - u * Real.exp t / (a * d + u * Real.exp t)) t := by
    intro t
    have := Real.exp_pos t
    have e := Real.hasDerivAt_exp t
    exact ((e.const_add a).log (by positivity)).sub (((e.const_mul u).const_add (a * d)).log (by positivity))
  have := Convex.norm_image_sub_le_of_norm_hasDerivWithin_le (s := Set.univ) (C := 1 / 3) (x := Real.log w)
    (y := Real.log z) (fun t _ => (hf t).hasDerivWithinAt)
    (fun t _ => by rw [Real.norm_eq_abs]; exact avg_slope ha (Real.exp_pos t) hd hu h1 h2) convex_univ trivial trivial
  rw [Real.norm_eq_abs, Real.norm_eq_abs] at this
  refine le_trans (le_of_eq ?_) this
  rw [abs_sub_comm]
  congr 1
  simp only [f]
  rw [Real.exp_log hz, Real.exp_log hw, Real.log_div (by positivity) (by positivity),
    Real.log_div (by positivity) (by positivity)]
  ring

theorem avg_log' {H cd cu db z w : ℝ} (hH : 0 < H) (hcd : 0 < cd) (hcu : 0 < cu) (hd0 : 0 ≤ db)
    (hd : db ≤ 1.5 * H) (h1 : cu ≤ 4 * cd) (h2 : cd ≤ 4 * cu) (hz : 0 < z) (hw : 0 < w) :
    |Real.log (avg H z cd cu db) - Real.log (avg H w cd cu db)| ≤ 1 / 3 * |Real.log z - Real.log w| := by
  have ha : 0 < 1.5 * H := by positivity
  unfold avg
  generalize 1.5 * H = a at *
  have b0 : 0 ≤ a - db := by linarith
  have hn : 0 < (a - db) * cd + db * cu := by
    rcases hd0.eq_or_lt with rfl | h
    · rw [sub_zero]; positivity
    · positivity
  have e : a * (((a - db) * cd + db * cu) / a) = (a - db) * cd + db * cu := by field_simp
  have := avg_log (a := a) (d := ((a - db) * cd + db * cu) / a) ha (by positivity) hcu
    (by rw [← mul_div_assoc, le_div_iff₀ ha]; nlinarith) (by rw [div_le_iff₀ ha]; nlinarith) hz hw
  rw [e] at this
  rw [show (a - db) * cd + (z + db) * cu = (a - db) * cd + db * cu + cu * z by ring,
    show (a - db) * cd + (w + db) * cu = (a - db) * cd + db * cu + cu * w by ring]
  exact this

/-- differences between positive numbers from differences between their logarithms -/
theorem abs_sub_le_log {x y M d : ℝ} (hx : 0 < x) (hy : 0 < y) (hxM : x ≤ M) (hyM : y ≤ M)
    (h : |Real.log x - Real.log y| ≤ d) : |x - y| ≤ M * d := by
  have key : ∀ {x y : ℝ}, 0 < x → 0 < y → y ≤ M → |Real.log x - Real.log y| ≤ d → y - x ≤ M * d := by
    intro x y hx hy hyM h
    have h1 := Real.log_le_sub_one_of_pos (div_pos hx hy)
    rw [Real.log_div hx.ne' hy.ne'] at h1
    have h2 := (abs_le.mp h).1
    have h3 : y - x ≤ y * d := by
      have : y * (Real.log x - Real.log y) ≤ y * (x / y - 1) := mul_le_mul_of_nonneg_left h1 hy.le
      rw [mul_sub y (x / y), mul_div_cancel₀ _ hy.ne', mul_one] at this
      have : y * (-d) ≤ y * (Real.log x - Real.log y) := mul_le_mul_of_nonneg_left h2 hy.le
      linarith
    have d0 : 0 ≤ d := (abs_nonneg _).trans h
    exact h3.trans (mul_le_mul_of_nonneg_right hyM d0)
  rw [abs_le]
  constructor
  · have := key hx hy hyM h
    linarith
  · exact key hy hx hxM (by rwa [abs_sub_comm])

/-- a contraction iterated until the level changes by at most 0.1 mm, or 1001 times: one more pass gives the
settled level -/
theorem settle (F : ℝ → ℝ) (q : ℝ) (hq0 : 0 ≤ q) (hq1 : q ≤ 2 / 3) (hF : ∀ x, 0 < x → 1e-3 ≤ F x ∧ F x ≤ 1e7)
    (hL : ∀ x y, 0 < x → 0 < y → |Real.log (F x) - Real.log (F y)| ≤ q * |Real.log x - Real.log y|)
    {x0 : ℝ} (hx0 : 1e-3 ≤ x0) (hx1 : x0 ≤ 1e7) {k : ℕ}
    (hk : k + 1 = 1001 ∨ |F^[k + 1] x0 - F^[k] x0| ≤ 1e-4) :
    ∃ p, 0 < p ∧ F p = p ∧ (∀ x, 0 < x → F x = x → x = p) ∧
      |F (F^[k + 1] x0) - p| ≤ 20 / 9 * (q ^ 2 / (1 - q)) * 1e-4 := by
  have pos : ∀ x, 0 < x → 0 < F x := fun x hx => lt_of_lt_of_le (by norm_num) (hF x hx).1
  obtain ⟨p, hp, hfp, hu, hit⟩ := log_contraction F q hq0 (by linarith) pos hL
  refine ⟨p, hp, hfp, hu, ?_⟩
  have h0 : 0 < x0 := lt_of_lt_of_le (by norm_num) hx0
  have hpb := hF p hp
  rw [hfp] at hpb
  have yk := (hit x0 h0 k).1
  have ek : F^[k + 1] x0 = F (F^[k] x0) := Function.iterate_succ_apply' F k x0
  have y1 := (hit x0 h0 (k + 1)).1
  have b1 := hF _ yk
  have b2 := hF _ y1
  rw [← ek] at b1
  have q1 : 0 < 1 - q := by linarith
  have hout : |Real.log (F (F^[k + 1] x0)) - Real.log p| ≤ q * |Real.log (F^[k + 1] x0) - Real.log p| := by
    have := hL _ p y1 hp
    rwa [hfp] at this
  rcases hk with hk | hk
  · -- all passes used up
    have h1 := (hit x0 h0 (k + 1)).2
    have lb : ∀ y : ℝ, 1e-3 ≤ y → y ≤ 1e7 → |Real.log y| ≤ 1e7 := by
      intro y hy hy'
      have y0 : 0 < y := lt_of_lt_of_le (by norm_num) hy
      rw [abs_le]
      constructor
      · have := Real.log_le_sub_one_of_pos (inv_pos.mpr y0)
        rw [Real.log_inv] at this
        have h : y⁻¹ ≤ 1000 := by
          rw [inv_le_comm₀ y0 (by norm_num)]
          norm_num at hy ⊢
          exact hy
        norm_num
        linarith
      · have := Real.log_le_sub_one_of_pos y0
        linarith
    have h2 : |Real.log x0 - Real.log p| ≤ 2e7 := by
      have := abs_sub (Real.log x0) (Real.log p)
      have a := lb x0 hx0 hx1
      have b := lb p hpb.1 hpb.2
      norm_num at a b ⊢
      linarith
    have h3 : |Real.log (F (F^[k + 1] x0)) - Real.log p| ≤ q * (q ^ (k + 1) * 2e7) :=
      hout.trans (mul_le_mul_of_nonneg_left (h1.trans (mul_le_mul_of_nonneg_left h2 (by positivity))) hq0)
    have h4 := abs_sub_le_log (pos _ y1) hp b2.2 hpb.2 h3
    refine h4.trans ?_
    have h5 : q ^ (k + 1) ≤ q * 1e-40 := by
      rw [pow_succ']
      refine mul_le_mul_of_nonneg_left ?_ hq0
      calc q ^ k ≤ (2 / 3) ^ k := pow_le_pow_left₀ hq0 hq1 _
        _ ≤ (2 / 3) ^ 250 := pow_le_pow_of_le_one (by norm_num) (by norm_num) (by omega)
        _ ≤ 1e-40 := by norm_num
    have h6 : q ^ 2 ≤ q ^ 2 / (1 - q) := by
      rw [le_div_iff₀ q1]
      nlinarith [mul_nonneg (sq_nonneg q) hq0]
    calc 1e7 * (q * (q ^ (k + 1) * 2e7)) ≤ 1e7 * (q * (q * 1e-40 * 2e7)) := by gcongr
      _ = q ^ 2 * (1e7 * 1e-40 * 2e7) := by ring
      _ ≤ q ^ 2 * (20 / 9 * 1e-4) := mul_le_mul_of_nonneg_left (by norm_num) (sq_nonneg q)
      _ ≤ q ^ 2 / (1 - q) * (20 / 9 * 1e-4) := mul_le_mul_of_nonneg_right h6 (by norm_num)
      _ = _ := by ring
  · -- stopped by the tolerance
    have a0 := log_a_posteriori F q p _ (by linarith) yk hp hfp hL
    rw [← ek] at a0
    have lt : (1e-4 : ℝ) < F^[k + 1] x0 := lt_of_lt_of_le (by norm_num) b1.1
    have a1 := abs_log_sub_le (by norm_num) lt yk hk
    generalize hy : F^[k + 1] x0 = y at *
    have e1 : (1e-4 : ℝ) / (y - 1e-4) ≤ 10 / 9 * 1e-4 / y := by
      rw [div_le_div_iff₀ (by linarith) y1]
      have := b1.1
      norm_num at this ⊢
      linarith
    have e2 : (10 / 9 * 1e-4 : ℝ) / y ≤ 1 / 9 := by
      rw [div_le_iff₀ y1]
      have := b1.1
      norm_num at this ⊢
      linarith
    have k0 : 0 ≤ q / (1 - q) := by positivity
    have k2 : q / (1 - q) ≤ 2 := by rw [div_le_iff₀ q1]; linarith
    have a2 : |Real.log y - Real.log p| ≤ q / (1 - q) * (10 / 9 * 1e-4 / y) :=
      a0.trans (mul_le_mul_of_nonneg_left (a1.trans e1) k0)
    have a3 : |Real.log (F y) - Real.log p| ≤ q * (q / (1 - q) * (10 / 9 * 1e-4 / y)) :=
      hout.trans (mul_le_mul_of_nonneg_left a2 hq0)
    have e0 : 0 ≤ (10 / 9 * 1e-4 : ℝ) / y := by positivity
    have s1 : q / (1 - q) * (10 / 9 * 1e-4 / y) ≤ 2 * (1 / 9) := mul_le_mul k2 e2 e0 (by norm_num)
    have s2 : q * (q / (1 - q) * (10 / 9 * 1e-4 / y)) ≤ 2 / 3 * (2 * (1 / 9)) :=
      mul_le_mul hq1 s1 (mul_nonneg k0 e0) (by norm_num)
    have l2 : 1 / 2 ≤ Real.log 2 := by
      have := Real.log_le_sub_one_of_pos (show (0 : ℝ) < 2⁻¹ by norm_num)
      rw [Real.log_inv] at this
      linarith
    have two : ∀ w : ℝ, 0 < w → Real.log w - Real.log y ≤ 1 / 2 → w ≤ 2 * y := by
      intro w hw h
      rw [← Real.log_le_log_iff hw (by positivity), Real.log_mul (by norm_num) y1.ne']
      linarith
    have m1 : p ≤ 2 * y := two p hp (by have := (abs_le.mp (a2.trans s1)).1; linarith)
    have m2 : F y ≤ 2 * y := two _ (pos _ y1) (by
      have h1 := (abs_le.mp (a2.trans s1)).1
      have h2 := (abs_le.mp (a3.trans s2)).2
      linarith)
    refine (abs_sub_le_log (pos _ y1) hp m2 m1 a3).trans (le_of_eq ?_)
    generalize (1e-4 : ℝ) = t
    field_simp
    ring

/-- the level reached on a slope with Iribarren number `x`, over the wave height -/
def rel (k1 k2 k3 k4 gf gB x : ℝ) : ℝ := ra k1 gf 1 gB x ⊓ rb k2 k3 k4 gf 1 gB x

/-- the level of the next pass -/
def next (H T cd cu gf gB db k1 k2 k3 k4 z : ℝ) : ℝ :=
  rel k1 k2 k3 k4 gf gB (VdMProof.xi H T (avg H z cd cu db)) * H

theorem log_pow {x y u v : ℝ} (n : ℕ) (hx : 0 < x) (hxy : x ≤ y) (hu : 0 < u) (huv : u ≤ v)
    (h : x ^ n * v ≤ y ^ n * u) : |Real.log u - Real.log v| ≤ n * |Real.log x - Real.log y| := by
  have hy := hx.trans_le hxy
  have hv := hu.trans_le huv
  have h1 := Real.log_le_log (by positivity) h
  rw [Real.log_mul (by positivity) hv.ne', Real.log_mul (by positivity) hu.ne', Real.log_pow, Real.log_pow] at h1
  rw [abs_sub_comm, abs_of_nonneg (sub_nonneg.mpr (Real.log_le_log hu huv)), abs_sub_comm (Real.log x),
    abs_of_nonneg (sub_nonneg.mpr (Real.log_le_log hx hxy)), mul_sub]
  linarith

section
variable {k1 k2 k3 k4 gf gB : ℝ} (hf : 0.18 ≤ gf) (hf1 : gf ≤ 1) (hB : 0 < gB) (p1 : 0 < k1) (p2 : 0 < k2)
  (p3 : 0 ≤ k3) (p4 : 0 < k4) (h23 : 15 / 7 * k3 ≤ k2)
include hf hf1 hB p1 p2 p3 p4 h23

theorem rel_pos {x : ℝ} (hx : 0.5 ≤ x) : 0 < rel k1 k2 k3 k4 gf gB x := by
  have f0 : 0 < gf := lt_of_lt_of_le (by norm_num) hf
  have x0 : 0 < x := lt_of_lt_of_le (by norm_num) hx
  have r0 := rough_pos (gb := 1) f0 hf1 le_rfl x0
  have g0 := WorseProof.G_pos p3 h23 p2 hx
  unfold WorseProof.G at g0
  unfold rel ra rb
  exact lt_min (by positivity) (by positivity)

theorem rel_mono {x y : ℝ} (hx : 0.5 ≤ x) (hxy : x ≤ y) (hr : gf = 1 ∨ y ≤ 10) :
    rel k1 k2 k3 k4 gf gB x ≤ rel k1 k2 k3 k4 gf gB y ∧
      x ^ 2 * rel k1 k2 k3 k4 gf gB y ≤ y ^ 2 * rel k1 k2 k3 k4 gf gB x := by
  have f0 : 0 < gf := lt_of_lt_of_le (by norm_num) hf
  have x0 : 0 < x := lt_of_lt_of_le (by norm_num) hx
  have y0 := x0.trans_le hxy
  have ex : rough gf 1 x = Published.roughness gf x := by
    have := FormulaProof.rough_published (gb := 1) hf1 (x := x) (by rcases hr with h | h; exact Or.inl h; exact Or.inr (Or.inr ⟨rfl, hxy.trans h⟩))
    rwa [one_mul] at this
  have ey : rough gf 1 y = Published.roughness gf y := by
    have := FormulaProof.rough_published (gb := 1) hf1 (x := y) (by rcases hr with h | h; exact Or.inl h; exact Or.inr (Or.inr ⟨rfl, h⟩))
    rwa [one_mul] at this
  have r0 := WorseProof.rough_pos (p := x) f0 hf1
  have m := WorseProof.rough_p hf1 hxy
  have l := WorseProof.rough_ratio hf hf1 x0 hxy
  have g0 := WorseProof.G_pos p3 h23 p2 hx
  have gm := WorseProof.G_mono (c2 := k2) p3 x0 hxy
  have gl := WorseProof.G_ratio p3 h23 hx hxy
  have e : ∀ z, k2 - k3 / √z = WorseProof.G k2 k3 z := fun z => rfl
  unfold rel ra rb
  rw [ex, ey, e, e]
  generalize Published.roughness gf x = r at *
  generalize Published.roughness gf y = s at *
  generalize WorseProof.G k2 k3 x = u at *
  generalize WorseProof.G k2 k3 y = v at *
  have s0 := r0.trans_le m
  have v0 := g0.trans_le gm
  constructor
  · exact min_le_min (by gcongr) (by gcongr)
  · rw [mul_min_of_nonneg _ _ (sq_nonneg x), mul_min_of_nonneg _ _ (sq_nonneg y)]
    refine min_le_min ?_ ?_
    · calc x ^ 2 * (k1 * 1 * s * gB * y) = k1 * 1 * gB * y * x * (s * x) := by ring
        _ ≤ k1 * 1 * gB * y * x * (r * y) := mul_le_mul_of_nonneg_left l (by positivity)
        _ = _ := by ring
    · calc x ^ 2 * (k4 * s * gB * v) = k4 * gB * ((s * x) * (x * v)) := by ring
        _ ≤ k4 * gB * ((r * y) * (y * u)) := by gcongr
        _ = _ := by ring

/-- with a roughness that does not depend on the Iribarren number -/
theorem rel_const {x y : ℝ} (hx : 0.5 ≤ x) (hxy : x ≤ y) (hr : gf = 1 ∨ y < 1.8) :
    x ^ 1 * rel k1 k2 k3 k4 gf gB y ≤ y ^ 1 * rel k1 k2 k3 k4 gf gB x := by
  have f0 : 0 < gf := lt_of_lt_of_le (by norm_num) hf
  have x0 : 0 < x := lt_of_lt_of_le (by norm_num) hx
  have y0 := x0.trans_le hxy
  have c : ∀ z, (gf = 1 ∨ z < 1.8) → rough gf 1 z = gf := by
    intro z hz
    unfold rough
    rcases hz with rfl | hz
    · split_ifs <;> norm_num
    · rw [if_neg (by rw [one_mul]; rintro ⟨h, -⟩; linarith)]
  have gl := WorseProof.G_ratio p3 h23 hx hxy
  have e : ∀ z, k2 - k3 / √z = WorseProof.G k2 k3 z := fun z => rfl
  unfold rel ra rb
  rw [c x (hr.imp_right hxy.trans_lt), c y hr, e, e, pow_one, pow_one, mul_min_of_nonneg _ _ x0.le,
    mul_min_of_nonneg _ _ y0.le]
  generalize WorseProof.G k2 k3 x = u at *
  generalize WorseProof.G k2 k3 y = v at *
  refine min_le_min (le_of_eq (by ring)) ?_
  calc x * (k4 * gf * gB * v) = k4 * gf * gB * (x * v) := by ring
    _ ≤ k4 * gf * gB * (y * u) := mul_le_mul_of_nonneg_left gl (by positivity)
    _ = _ := by ring

variable {H T cd cu db : ℝ} (hH : 0 < H) (hT : 0 < T) (hcd : 0 < cd) (hcu : 0 < cu) (hd0 : 0 ≤ db)
  (hd : db ≤ 1.5 * H) (hl : 0.5 ≤ Textbook.iribarren H T (Max.max cd cu))
include hH hT hcd hcu hd0 hd hl

theorem xi_avg {z : ℝ} (hz : 0 < z) : 0 < avg H z cd cu db ∧ 0.5 ≤ VdMProof.xi H T (avg H z cd cu db) ∧
    VdMProof.xi H T (avg H z cd cu db) ≤ Textbook.iribarren H T (Min.min cd cu) := by
  have hb := avg_between hH hz hd0 hd (min_le_left cd cu) (min_le_right cd cu) (le_max_left cd cu)
    (le_max_right cd cu)
  have hc : 0 < avg H z cd cu db := lt_of_lt_of_le (lt_min hcd hcu) hb.1
  rw [← RangeProof.irib_eq]
  exact ⟨hc, hl.trans (WorseProof.irib_c hH hT hc hb.2), WorseProof.irib_c hH hT (lt_min hcd hcu) hb.1⟩

theorem next_log (n : ℕ) (h1 : cu ≤ 4 * cd) (h2 : cd ≤ 4 * cu)
    (hr : gf = 1 ∨ Textbook.iribarren H T (Min.min cd cu) ≤ 10)
    (hn : ∀ x y, 0.5 ≤ x → x ≤ y → y ≤ Textbook.iribarren H T (Min.min cd cu) →
      x ^ n * rel k1 k2 k3 k4 gf gB y ≤ y ^ n * rel k1 k2 k3 k4 gf gB x) {z w : ℝ} (hz : 0 < z) (hw : 0 < w) :
    |Real.log (next H T cd cu gf gB db k1 k2 k3 k4 z) - Real.log (next H T cd cu gf gB db k1 k2 k3 k4 w)| ≤
      n * (1 / 3) * |Real.log z - Real.log w| := by
  have key : ∀ z w : ℝ, 0 < z → 0 < w →
      VdMProof.xi H T (avg H z cd cu db) ≤ VdMProof.xi H T (avg H w cd cu db) →
      |Real.log (next H T cd cu gf gB db k1 k2 k3 k4 z) - Real.log (next H T cd cu gf gB db k1 k2 k3 k4 w)| ≤
      n * (1 / 3) * |Real.log z - Real.log w| := by
    intro z w hz hw h
    obtain ⟨a0, a1, a2⟩ := xi_avg hf hf1 hB p1 p2 p3 p4 h23 hH hT hcd hcu hd0 hd hl hz
    obtain ⟨b0, b1, b2⟩ := xi_avg hf hf1 hB p1 p2 p3 p4 h23 hH hT hcd hcu hd0 hd hl hw
    have hp := rel_pos hf hf1 hB p1 p2 p3 p4 h23 a1
    have hq := rel_pos hf hf1 hB p1 p2 p3 p4 h23 b1
    have hm := (rel_mono hf hf1 hB p1 p2 p3 p4 h23 a1 h (hr.imp_right b2.trans)).1
    have x0 : 0 < VdMProof.xi H T (avg H z cd cu db) := lt_of_lt_of_le (by norm_num) a1
    have s1 := log_pow n x0 h hp hm (hn _ _ a1 h b2)
    have e : |Real.log (VdMProof.xi H T (avg H z cd cu db)) - Real.log (VdMProof.xi H T (avg H w cd cu db))| =
        |Real.log (avg H z cd cu db) - Real.log (avg H w cd cu db)| := by
      have k : ∀ c, 0 < c → Real.log (VdMProof.xi H T c) = Real.log (VdMProof.xi H T 1) - Real.log c := by
        intro c hc
        have h := WorseProof.irib_div H T 1 c⁻¹
        rw [div_inv_eq_mul, one_mul, RangeProof.irib_eq, RangeProof.irib_eq] at h
        rw [h, Real.log_mul (by positivity) (VdMProof.xi_pos hH hT one_pos).ne', Real.log_inv]
        ring
      rw [k _ a0, k _ b0, abs_sub_comm (Real.log (avg H z cd cu db))]
      congr 1
      ring
    rw [e] at s1
    have s2 := avg_log' hH hcd hcu hd0 hd h1 h2 hz hw
    unfold next
    rw [Real.log_mul hp.ne' hH.ne', Real.log_mul hq.ne' hH.ne', add_sub_add_right_eq_sub, mul_assoc]
    exact s1.trans (mul_le_mul_of_nonneg_left s2 (Nat.cast_nonneg n))
  rcases le_total (VdMProof.xi H T (avg H z cd cu db)) (VdMProof.xi H T (avg H w cd cu db)) with h | h
  · exact key z w hz hw h
  · rw [abs_sub_comm, abs_sub_comm (Real.log z)]
    exact key w z hw hz h

theorem next_bounds (hr : gf = 1 ∨ Textbook.iribarren H T (Min.min cd cu) ≤ 10) (q1 : 2e-3 ≤ k1 * (gf * gB * H))
    (q2 : 3 ≤ k2)
    (q4 : 1 ≤ k4) (q24 : k2 * k4 ≤ 10) (hB1 : gB ≤ 1) (hH6 : H ≤ 1e6) (hlo : 2e-3 ≤ gf * gB * H) {z : ℝ}
    (hz : 0 < z) : 1e-3 ≤ next H T cd cu gf gB db k1 k2 k3 k4 z ∧ next H T cd cu gf gB db k1 k2 k3 k4 z ≤ 1e7 := by
  obtain ⟨a0, a1, a2⟩ := xi_avg hf hf1 hB p1 p2 p3 p4 h23 hH hT hcd hcu hd0 hd hl hz
  have f0 : 0 < gf := lt_of_lt_of_le (by norm_num) hf
  unfold next
  generalize VdMProof.xi H T (avg H z cd cu db) = x at *
  have hr' := hr.imp_right a2.trans
  have x0 : 0 < x := lt_of_lt_of_le (by norm_num) a1
  have rr : gf ≤ rough gf 1 x ∧ rough gf 1 x ≤ 1 := by
    have : rough gf 1 x = Published.roughness gf x := by
      have := FormulaProof.rough_published (gb := 1) hf1 (x := x) (by rcases hr' with h | h; exact Or.inl h; exact Or.inr (Or.inr ⟨rfl, h⟩))
      rwa [one_mul] at this
    rw [this]
    unfold Published.roughness
    split_ifs with h
    · exact ⟨le_rfl, hf1⟩
    · refine ⟨le_min hf1 ?_, min_le_left _ _⟩
      have : 0 ≤ (x - 1.8) * (1 - gf) / (10 - 1.8) :=
        div_nonneg (mul_nonneg (by linarith) (by linarith)) (by norm_num)
      linarith
  have hb : (0.7 : ℝ) ≤ √x := Real.le_sqrt_of_sq_le (by norm_num at a1 ⊢; linarith)
  have hb0 : 0 < √x := lt_of_lt_of_le (by norm_num) hb
  have d0 : 0 ≤ k3 / √x := by positivity
  have d1 : k3 / √x ≤ 2 / 3 * k2 := by
    rw [div_le_iff₀ hb0]
    have : 2 / 3 * k2 * 0.7 ≤ 2 / 3 * k2 * √x := mul_le_mul_of_nonneg_left hb (by positivity)
    norm_num at this
    linarith
  obtain ⟨r1, r2⟩ := rr
  have r0 := f0.trans_le r1
  unfold rel ra rb
  generalize rough gf 1 x = r at *
  rw [min_mul_of_nonneg _ _ hH.le]
  have base : 2e-3 ≤ r * gB * H := hlo.trans (by gcongr)
  have base0 : 0 < r * gB * H := by positivity
  constructor
  · refine le_min ?_ ?_
    · have : 0.5 * (k1 * (gf * gB * H)) ≤ x * (k1 * (r * gB * H)) := by gcongr
      norm_num at this q1 ⊢
      linarith
    · have : 1 * 1 * (r * gB * H) ≤ k4 * (k2 - k3 / √x) * (r * gB * H) := by
        gcongr
        linarith
      norm_num at this base ⊢
      linarith
  · refine (min_le_right _ _).trans ?_
    have v0 : 0 ≤ k2 - k3 / √x := by linarith
    calc k4 * r * gB * (k2 - k3 / √x) * H ≤ k4 * 1 * 1 * k2 * 1e6 := by
          gcongr
          linarith
      _ = k2 * k4 * 1e6 := by ring
      _ ≤ 10 * 1e6 := mul_le_mul_of_nonneg_right q24 (by norm_num)
      _ = 1e7 := by norm_num
end

theorem pass_next {H T cd cu gf gB db c1 c2 c3 c4 k1 k2 k3 k4 z : ℝ} (bf : Bool)
    (hH : 0 < H) (hT : 0 < T) (hcd : 0 < cd) (hcu : 0 < cu) (hd0 : 0 ≤ db) (hd : db ≤ 1.5 * H)
    (e1 : (if bf then 1.65 else fin c1) = fin k1) (e2 : (if bf then 4.0 else fin c2) = fin k2)
    (e3 : (if bf then 1.5 else fin c3) = fin k3) (e4 : (if bf then 1.0 else fin c4) = fin k4) (hz : 0 < z)
    (s2 : PF) : (pass H T cd cu gf gB 0 db c1 c2 c3 c4 bf (fin z, s2)).res =
      .ok (fin (next H T cd cu gf gB db k1 k2 k3 k4 z), fin z) := by
  obtain ⟨L, hL0, hL⟩ : ∃ L : ℝ, 0 < L ∧ (1.0 * fin H * fin cd + fin 0 + 1.0 * fin H * fin cu : PF) = fin L := by
    refine ⟨1.0 * H * cd + 0 + 1.0 * H * cu, by positivity, ?_⟩
    simp only [sci_eq, mul_fin, add_fin]
  have hfin : ∀ x : ℝ, ¬ (fin x).isnan := fun x => by simp
  have hb := avg_between hH hz hd0 hd (min_le_left cd cu) (min_le_right cd cu) (le_max_left cd cu)
    (le_max_right cd cu)
  have hc : 0 < avg H z cd cu db := lt_of_lt_of_le (lt_min hcd hcu) hb.1
  unfold pass
  dsimp only
  rw [berm_length_composite (hfin cd) (hfin cu), pure_bind, hL, average_eval 0 hH hz hcd hcu hd0 hd,
    berm_none hH hL0.ne']
  unfold calculate_wave_runup_height_z2p height_of
  rw [bind_assoc, PyM.bind_res_of_ok (single_res hH hT hc rfl rfl rfl (Or.inl rfl) rfl rfl rfl e1 e2 e3 e4)]
  rfl

/-- what the iteration returns: the level after some passes, where the last pass changed it by no more than
the tolerance or all passes are used up -/
theorem iteration_chain {H T cd cu gf gB db c1 c2 c3 c4 k1 k2 k3 k4 z : ℝ} (bf : Bool)
    (hH : 0 < H) (hT : 0 < T) (hcd : 0 < cd) (hcu : 0 < cu) (hd0 : 0 ≤ db) (hd : db ≤ 1.5 * H)
    (e1 : (if bf then 1.65 else fin c1) = fin k1) (e2 : (if bf then 4.0 else fin c2) = fin k2)
    (e3 : (if bf then 1.5 else fin c3) = fin k3) (e4 : (if bf then 1.0 else fin c4) = fin k4)
    (hp : ∀ z, 0 < z → 0 < next H T cd cu gf gB db k1 k2 k3 k4 z)
    (hit : (iteration_procedure_z2p (fin H) (fin T) (fin cd) (fin cu) (fin 0) (fin db)
      (fin gf) (fin gB) (fin c1) (fin c2) (fin c3) (fin c4) bf).res = .ok (fin z)) :
    ∃ k : ℕ, z = (next H T cd cu gf gB db k1 k2 k3 k4)^[k + 1] (1.5 * H) ∧
      (k + 1 = 1001 ∨ |(next H T cd cu gf gB db k1 k2 k3 k4)^[k + 1] (1.5 * H) -
        (next H T cd cu gf gB db k1 k2 k3 k4)^[k] (1.5 * H)| ≤ 1e-4) := by
  unfold iteration_procedure_z2p iteration_procedure_z2p_rec at hit
  dsimp only at hit
  obtain ⟨r, hw, hr, -⟩ := PyM.bind_inv hit
  change (whileIterM 1001 (fun s : PF × PF => PF.abs (s.1 - s.2) > fin 1e-4) (pass H T cd cu gf gB 0 db c1 c2 c3 c4 bf) (fin (1.5 * H), _)).res = _ at hw
  obtain ⟨k, t, hk, h0, hkr, hj, hx⟩ := whileIterM_spec _ _ _ hw
  have q0 : 0 < 1.5 * H := by positivity
  have ps : ∀ j, 0 < (next H T cd cu gf gB db k1 k2 k3 k4)^[j] (1.5 * H) := by
    intro j
    induction j with
    | zero => exact q0
    | succ j ih => rw [Function.iterate_succ_apply']; exact hp _ ih
  have st : ∀ j, j ≤ k → (t j).1 = fin ((next H T cd cu gf gB db k1 k2 k3 k4)^[j] (1.5 * H)) := by
    intro j
    induction j with
    | zero => intro _; rw [h0]; rfl
    | succ j ih =>
      intro hjk
      have h := (hj j (by omega)).2
      have e : t j = (fin ((next H T cd cu gf gB db k1 k2 k3 k4)^[j] (1.5 * H)), (t j).2) := by
        rw [← ih (by omega)]
      rw [e, pass_next bf hH hT hcd hcu hd0 hd e1 e2 e3 e4 (ps j)] at h
      rw [← Except.ok.inj h, Function.iterate_succ_apply']
  have st2 : ∀ j, j < k → (t (j + 1)).2 = fin ((next H T cd cu gf gB db k1 k2 k3 k4)^[j] (1.5 * H)) := by
    intro j hjk
    have h := (hj j hjk).2
    have e : t j = (fin ((next H T cd cu gf gB db k1 k2 k3 k4)^[j] (1.5 * H)), (t j).2) := by
      rw [← st j (by omega)]
    rw [e, pass_next bf hH hT hcd hcu hd0 hd e1 e2 e3 e4 (ps j)] at h
    rw [← Except.ok.inj h]
  have hz : r.1 = fin z := Except.ok.inj hr
  cases k with
  | zero =>
    exfalso
    rcases hx with hx | hx
    · omega
    · apply hx
      rw [← hkr, h0]
      have : PF.abs (fin (1.5 * H) - (fin (1.5 * H) + 2 * fin 1e-4)) > fin 1e-4 := by
        simp only [ofNat_eq, mul_fin, add_fin, sub_fin, abs_fin, gt_fin]
        rw [show (1.5 * H - (1.5 * H + 2 * 1e-4) : ℝ) = -(2 * 1e-4) by ring, abs_neg,
          abs_of_pos (by norm_num)]
        norm_num
      exact this
  | succ k =>
    have a := st (k + 1) le_rfl
    have b := st2 k (by omega)
    refine ⟨k, ?_, ?_⟩
    · rw [hkr, hz, fin_inj] at a
      exact a
    · rcases hx with hx | hx
      · exact Or.inl hx
      · right
        rw [← hkr, a, b, sub_fin, abs_fin, gt_fin, not_lt] at hx
        exact hx

theorem height_straight {H T c gf gB c1 c2 c3 c4 k1 k2 k3 k4 : ℝ} (bf : Bool) (hH : 0 < H) (hT : 0 < T) (hc : 0 < c)
    (e1 : (if bf then 1.65 else fin c1) = fin k1) (e2 : (if bf then 4.0 else fin c2) = fin k2)
    (e3 : (if bf then 1.5 else fin c3) = fin k3) (e4 : (if bf then 1.0 else fin c4) = fin k4) :
    ∃ f : Bool, (calculate_wave_runup_height_z2p
          { Hm0 := fin H, Tmm10 := fin T, cot_alpha := fin c, gamma_beta := fin gB, gamma_b := fin 1,
            gamma_f := fin gf, c1 := fin c1, c2 := fin c2, c3 := fin c3, c4 := fin c4,
            use_best_fit := bf }).res = .ok (fin (rel k1 k2 k3 k4 gf gB (VdMProof.xi H T c) * H), f) := by
  unfold calculate_wave_runup_height_z2p height_of
  rw [PyM.bind_res_of_ok (single_res hH hT hc rfl rfl rfl (Or.inl rfl) rfl rfl rfl e1 e2 e3 e4)]
  exact ⟨_, rfl⟩

/-- C89, in the terms of the model -/
theorem composite_settles {H T cd cu gf gB db c1 c2 c3 c4 k1 k2 k3 k4 : ℝ} (bf : Bool) (hH : 0 < H) (hT : 0 < T)
    (hcd : 0 < cd) (hcu : 0 < cu) (h1 : cu ≤ 4 * cd) (h2 : cd ≤ 4 * cu) (hf : 0.18 ≤ gf) (hf1 : gf ≤ 1)
    (hB : 0 < gB) (hd0 : 0 ≤ db) (hd : db ≤ 1.5 * H)
    (e1 : (if bf then 1.65 else fin c1) = fin k1) (e2 : (if bf then 4.0 else fin c2) = fin k2)
    (e3 : (if bf then 1.5 else fin c3) = fin k3) (e4 : (if bf then 1.0 else fin c4) = fin k4)
    (p3 : 0 ≤ k3) (h23 : 15 / 7 * k3 ≤ k2)
    (hl : 0.5 ≤ Textbook.iribarren H T (Max.max cd cu))
    (hr : gf = 1 ∨ Textbook.iribarren H T (Min.min cd cu) ≤ 10) (q1 : 1 ≤ k1) (q2 : 3 ≤ k2)
    (q4 : 1 ≤ k4) (q24 : k2 * k4 ≤ 10) (hB1 : gB ≤ 1) (hH6 : H ≤ 1e6) (hlo : 2e-3 ≤ gf * gB * H) :
    ∃ p, 0 < p ∧ next H T cd cu gf gB db k1 k2 k3 k4 p = p ∧
      (∀ x, 0 < x → next H T cd cu gf gB db k1 k2 k3 k4 x = x → x = p) ∧
      ∃ (z : ℝ) (f : Bool), (calculate_wave_runup_height_z2p
        { Hm0 := fin H, Tmm10 := fin T, cot_alpha_down := fin cd, cot_alpha_up := fin cu,
          gamma_beta := fin gB, gamma_f := fin gf, db := fin db, c1 := fin c1, c2 := fin c2, c3 := fin c3,
          c4 := fin c4, use_best_fit := bf }).res = .ok (fin z, f) ∧ |z - p| ≤ 3e-4 ∧
        ((gf = 1 ∨ Textbook.iribarren H T (Min.min cd cu) < 1.8) → |z - p| ≤ 1e-4) := by
  have p1 : 0 < k1 := by linarith
  have p2 : 0 < k2 := by linarith
  have p4 : 0 < k4 := by linarith
  have f0 : 0 < gf := lt_of_lt_of_le (by norm_num) hf
  have again : ∀ {x y : PF} {k : ℝ}, (if bf then x else y) = fin k → (if bf then x else fin k) = fin k := by
    intro x y k h
    cases bf
    · rfl
    · exact h
  have hl' := hl
  rw [RangeProof.irib_eq] at hl'
  obtain ⟨z, z0, hz, -, -, hit⟩ := pre_pass bf hH hT hcd hcu f0 hf1 hB hd0 hd (again e1) (again e2) (again e3)
    (again e4) p1 p2 p3 p4 h23 hl'
  have bounds := fun z (hz : 0 < z) => next_bounds hf hf1 hB p1 p2 p3 p4 h23 hH hT hcd hcu hd0 hd hl hr
    (hlo.trans (le_mul_of_one_le_left (by positivity) q1)) q2 q4 q24 hB1 hH6 hlo hz
  obtain ⟨k, hk, hx⟩ := iteration_chain bf hH hT hcd hcu hd0 hd (again e1) (again e2) (again e3) (again e4)
    (fun z hz => lt_of_lt_of_le (by norm_num) (bounds z hz).1) hit
  have gfB : gf * gB ≤ 1 := mul_le_one₀ hf1 hB.le hB1
  have hH3 : 2e-3 ≤ H := hlo.trans (by nlinarith)
  have s0 : 1e-3 ≤ 1.5 * H := by norm_num at hH3 ⊢; linarith
  have s1 : 1.5 * H ≤ 1e7 := by norm_num at hH6 ⊢; linarith
  have L2 := fun x y (hx : 0 < x) (hy : 0 < y) => next_log hf hf1 hB p1 p2 p3 p4 h23 hH hT hcd hcu hd0 hd hl 2 h1 h2 hr
    (fun x y hx hxy hy => (rel_mono hf hf1 hB p1 p2 p3 p4 h23 hx hxy (hr.imp_right hy.trans)).2) hx hy
  obtain ⟨p, hp, hfp, hu, ha⟩ := settle _ ((2 : ℕ) * (1 / 3)) (by norm_num) (by norm_num) bounds L2 s0 s1 hx
  refine ⟨p, hp, hfp, hu, ?_⟩
  have hb := avg_between hH hz hd0 hd (min_le_left cd cu) (min_le_right cd cu) (le_max_left cd cu)
    (le_max_right cd cu)
  have hc : 0 < avg H z cd cu db := lt_of_lt_of_le (lt_min hcd hcu) hb.1
  have hfin : ∀ x : ℝ, ¬ (fin x).isnan := fun x => by simp
  have e0 : (0.0 : PF) = fin 0 := by rw [sci_eq]; norm_num
  have val : ∃ f, (calculate_wave_runup_height_z2p
        { Hm0 := fin H, Tmm10 := fin T, cot_alpha_down := fin cd, cot_alpha_up := fin cu,
          gamma_beta := fin gB, gamma_f := fin gf, db := fin db, c1 := fin c1, c2 := fin c2, c3 := fin c3,
          c4 := fin c4, use_best_fit := bf }).res = .ok (fin (next H T cd cu gf gB db k1 k2 k3 k4 z), f) := by
    unfold calculate_wave_runup_height_z2p height_of
    rw [PyM.bind_res_of_ok (diml_res hH hT hc rfl rfl rfl rfl e1 e2 e3 e4 (gb := 1) ?_ ?_)]
    · exact ⟨_, rfl⟩
    · have : check_composite_slope nan (fin cd) (fin cu) = pure true := by
        unfold check_composite_slope; simp
      have hx : (iteration_procedure_z2p_rec calculate_wave_runup_height_z2p (fin H) (fin T) (fin cd) (fin cu)
          (fin 0) (fin db) (fin gf) (fin gB) (fin k1) (fin k2) (fin k3) (fin k4) bf).res = .ok (fin z) := hit
      unfold slope_rec
      dsimp only
      rw [this, pure_bind, if_pos rfl, e0, PyM.bind_res_of_ok hx, average_eval 0 hH hz hcd hcu hd0 hd]
      rfl
    · unfold berm_rec iteration_procedure_gamma_b_rec
      dsimp only
      rw [if_pos (isnan_nan.mpr trivial), berm_length_composite (hfin cd) (hfin cu), pure_bind, if_pos]
      · rw [sci_eq]; norm_num
      · left; rw [e0, eqF_fin]
  obtain ⟨f, hv⟩ := val
  refine ⟨_, f, hv, ?_, ?_⟩
  · rw [hk]
    refine ha.trans ?_
    norm_num
  · intro hs
    have L1 := fun x y (hx : 0 < x) (hy : 0 < y) => next_log hf hf1 hB p1 p2 p3 p4 h23 hH hT hcd hcu hd0 hd hl 1 h1 h2 hr
      (fun x y hx hxy hy => rel_const hf hf1 hB p1 p2 p3 p4 h23 hx hxy (hs.imp_right hy.trans_lt)) hx hy
    obtain ⟨p', hp', hfp', -, ha'⟩ := settle _ ((1 : ℕ) * (1 / 3)) (by norm_num) (by norm_num) bounds L1 s0 s1 hx
    obtain rfl := hu p' hp' hfp'
    rw [hk]
    refine ha'.trans ?_
    norm_num

end RunupTaw2002
end
