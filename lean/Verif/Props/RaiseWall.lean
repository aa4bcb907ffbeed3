import Verif.Props.Raise
import Verif.Props.WindCrest
import Mathlib.Analysis.Real.Pi.Bounds

/-! # C99: raising crest walls, by Van Gent et al. (2025) -/

open Classical
open PF
noncomputable section

namespace RaiseProof

/-- a product over a straight line is convex -/
theorem quad_over_lin {m n s A : ℝ} (hm : 0 < m) (hn : 0 ≤ n) (hns : m * s ≤ n) (hA : n < m * A) :
    ConvexOn ℝ (Set.Ici A) fun x => (x - s) * x / (m * x - n) := by
  refine ⟨convex_Ici A, fun x hx y hy a b ha hb hab => ?_⟩
  simp only [smul_eq_mul, Set.mem_Ici] at *
  have hp : ∀ {z}, A ≤ z → 0 < m * z - n := fun {z} hz => by nlinarith
  have hz : A ≤ a * x + b * y := by
    calc A = a * A + b * A := by rw [← add_mul, hab, one_mul]
      _ ≤ _ := add_le_add (mul_le_mul_of_nonneg_left hx ha) (mul_le_mul_of_nonneg_left hy hb)
  have u := hp hx
  have v := hp hy
  have w := hp hz
  have e : ∀ {z}, A ≤ z → (z - s) * z / (m * z - n) =
      ((m * z - n) + (2 * n - m * s) + n * (n - m * s) / (m * z - n)) / m ^ 2 := fun {z} hz => by
    have h := (hp hz).ne'
    have h2 : m ^ 2 ≠ 0 := by positivity
    rw [eq_div_iff h2, div_mul_eq_mul_div, div_eq_iff h, add_mul, div_mul_cancel₀ _ h]
    ring
  rw [e hx, e hy, e hz]
  have hw : m * (a * x + b * y) - n = a * (m * x - n) + b * (m * y - n) := by
    have : n = (a + b) * n := by rw [hab, one_mul]
    linear_combination -this
  have key : 1 / (m * (a * x + b * y) - n) ≤ a / (m * x - n) + b / (m * y - n) := by
    rw [hw, div_add_div _ _ u.ne' v.ne', div_le_div_iff₀ (by rw [← hw]; exact w) (mul_pos u v)]
    generalize m * x - n = p at *
    generalize m * y - n = q at *
    have hb' : b = 1 - a := by linarith
    subst hb'
    nlinarith [mul_nonneg (mul_nonneg ha hb) (sq_nonneg (p - q))]
  have hk : 0 ≤ n * (n - m * s) := mul_nonneg hn (by linarith)
  have := mul_le_mul_of_nonneg_left key hk
  rw [← mul_div_assoc, ← mul_div_assoc, ← add_div]
  refine div_le_div_of_nonneg_right ?_ (by positivity)
  have e2 : a * (m * x - n + (2 * n - m * s) + n * (n - m * s) / (m * x - n)) +
      b * (m * y - n + (2 * n - m * s) + n * (n - m * s) / (m * y - n)) =
      m * (a * x + b * y) - n + (2 * n - m * s) + n * (n - m * s) * (a / (m * x - n) + b / (m * y - n)) := by
    rw [hw]
    have : 2 * n - m * s = (a + b) * (2 * n - m * s) := by rw [hab, one_mul]
    linear_combination -this
  rw [e2]
  rw [mul_one_div] at this
  linarith

end RaiseProof
open RaiseProof

namespace Published
/-- the factor per unit of relative wall height in the crest wall influence of Van Gent et al. (2025) -/
def wallSlope2025 (c : ℝ) : ℝ := if c ≤ 4 then 0.45 else 0.1125 * c
end Published

section
open VanGent2025

theorem RaiseProof.wall_eval {c R A : ℝ} (hR : 0 < R) : calculate_influence_crest_wall_gamma_v (fin c) (fin R) (fin A) =
    fin (1 + Published.wallSlope2025 c * (R - A) / R) := by
  unfold calculate_influence_crest_wall_gamma_v Published.wallSlope2025
  have h1 : (1.0 : ℝ) = 1 := by norm_num
  have h4 : (4.0 : ℝ) = 4 := by norm_num
  simp only [sci_eq, sub_fin, mul_fin, div_fin hR.ne', add_fin, le_fin, whr_fin, h1, h4]
  split_ifs <;> rfl

/-- C99, slopes by Van Gent et al. (2025) without wind, with the crest wall factor that belongs to each level of the wall
crest: further raises of the wall pay at least as much, for swell that is low against the armour crest -/
theorem C99_vangent2025_wall_partial (H T c gf gb gB A : ℝ) (beta B db D : PF) (hH : 0 < H) (hT : 0 < T) (hc : 0 < c)
    (hf : 0 < gf) (hb : 0 < gb) (hB : 0 < gB) (hA : 0 < A) (w g : ℝ) (dc : Bool) (hg : 0 < g)
    (low : (1 + Published.wallSlope2025 c) * (0.4 * w) ≤ Published.wallSlope2025 c * A) :
    FurtherRaisesPay (OvertopsWithFlag fun R => calculate_overtopping_discharge_q (fin H) (fin w) (fin T) R (fin A) (fin c)
      beta B db D (fin gf) (fin gb) (calculate_influence_crest_wall_gamma_v (fin c) R (fin A)) (fin gB) (fin g) dc false)
      fun R => A ≤ R := by
  set k := Published.wallSlope2025 c with hk
  have hk0 : 0 < k := by
    rw [hk]; unfold Published.wallSlope2025; split_ifs <;> positivity
  have hS : 0 < √(g * H ^ 3) := by positivity
  have hx : 0 < Textbook.iribarren H T c := by rw [RangeProof.irib_eq]; exact VdMProof.xi_pos hH hT hc
  have hcv := quad_over_lin (m := 1 + k) (n := k * A) (s := 0.4 * w) (A := A) (by linarith) (by positivity) low
    (by nlinarith)
  have lc : ∀ {a p : ℝ}, 0 < a → 0 ≤ p → LC (Set.Ici A) fun R => a * Real.exp (-(p * ((R - 0.4 * w) * R /
      ((1 + k) * R - k * A)))) := fun {a p} ha hp =>
    (LC.exp ((hcv.smul hp).neg.congr fun x _ => by simp only [Pi.neg_apply, smul_eq_mul])).cmul ha
  have hgv : ∀ {R}, A ≤ R → 0 < 1 + k * (R - A) / R := fun {R} h => by
    have : 0 ≤ k * (R - A) / R := div_nonneg (mul_nonneg hk0.le (by linarith)) (by linarith)
    linarith
  have l1 : LC (Set.Ici A) fun R => Published.slopeBreaking2025 c (gf * gb * (1 + k * (R - A) / R) * gB)
      (Textbook.iribarren H T c) (R / H) (w / H) :=
    (lc (a := 6.8 / c) (p := 5 / (gf * gb * gB * Textbook.iribarren H T c * H)) (by positivity) (by positivity)).congr
    fun R hR => by
      have hR0 : 0 < R := lt_of_lt_of_le hA hR
      have h1 := (hgv hR).ne'
      have h2 : (1 + k) * R - k * A ≠ 0 := by
        have : k * A ≤ k * R := mul_le_mul_of_nonneg_left hR hk0.le
        nlinarith
      have e : 1 + k * (R - A) / R = ((1 + k) * R - k * A) / R := by field_simp; ring
      unfold Published.slopeBreaking2025
      rw [e]
      congr 2
      field_simp
  have l2 : LC (Set.Ici A) fun R => Published.slopeMaximum2025 c (gf * gb * (1 + k * (R - A) / R) * gB)
      (Textbook.iribarren H T c) (R / H) (w / H) :=
    (lc (a := 0.8 / c) (p := 2.5 / (gf * gb * gB * Textbook.iribarren H T c ^ (0.24 : ℝ) * H)) (by positivity)
      (by positivity)).congr fun R hR => by
      have hR0 : 0 < R := lt_of_lt_of_le hA hR
      have h2 : (1 + k) * R - k * A ≠ 0 := by
        have : k * A ≤ k * R := mul_le_mul_of_nonneg_left hR hk0.le
        nlinarith
      have hx' : Textbook.iribarren H T c ^ (0.24 : ℝ) ≠ 0 := by positivity
      have e : 1 + k * (R - A) / R = ((1 + k) * R - k * A) / R := by field_simp; ring
      unfold Published.slopeMaximum2025
      rw [e]
      congr 2
      field_simp
  have l : LC (Set.Ici A) fun R => (if dc then (Published.slopeBreaking2025 c (gf * gb * (1 + k * (R - A) / R) * gB)
      (Textbook.iribarren H T c) (R / H) (w / H) ⊓ Published.slopeMaximum2025 c (gf * gb * (1 + k * (R - A) / R) * gB)
      (Textbook.iribarren H T c) (R / H) (w / H)) ^ (0.857 : ℝ) else Published.slopeBreaking2025 c
      (gf * gb * (1 + k * (R - A) / R) * gB) (Textbook.iribarren H T c) (R / H) (w / H) ⊓ Published.slopeMaximum2025 c
      (gf * gb * (1 + k * (R - A) / R) * gB) (Textbook.iribarren H T c) (R / H) (w / H)) * √(g * H ^ 3) := by
    cases dc
    · exact (l1.min l2).mulc hS
    · exact ((l1.min l2).rpow (by norm_num)).mulc hS
  refine pays (s := Set.Ici A) (fun x hx y hy => le_trans hx hy) l fun x hx => ?_
  have hx0 : 0 < x := lt_of_lt_of_le hA hx
  obtain ⟨q, m, -, e, a, b, rfl, rfl, hq, -⟩ := C78_vangent2025_discharge H T c gf gb (1 + k * (x - A) / x) gB (fin A) beta
    B db D hH hT hc hf hb (hgv hx) hB x w g dc hg
  refine ⟨m, ?_⟩
  dsimp only
  rw [wall_eval hx0, ← hk, e, Except.ok.injEq, Prod.mk.injEq, fin_inj, (div_eq_iff hS.ne').mp hq]
  exact ⟨rfl, rfl⟩

/-- C99 refuted: slopes by Van Gent et al. (2025) with wind. Where raises of the same height pay the same without wind, the
first raise of a low wall pays more than the next, for every sea state, structure and raise with a discharge that is not
very small. -/
theorem C99_vangent2025_wind_refuted (H T c gf gb gv gB A : ℝ) (beta B db D : PF) (hH : 0 < H) (hT : 0 < T) (hc : 0 < c)
    (hf : 0 < gf) (hb : 0 < gb) (hv : 0 < gv) (hB : 0 < gB) (w g d : ℝ) (dc : Bool) (hg : 0 < g) (hd : 0 < d)
    (same : Published.slope2025 c (gf * gb * gv * gB) (Textbook.iribarren H T c) ((A + d) / H) (w / H) ^ 2 =
      Published.slope2025 c (gf * gb * gv * gB) (Textbook.iribarren H T c) (A / H) (w / H) *
      Published.slope2025 c (gf * gb * gv * gB) (Textbook.iribarren H T c) ((A + d + d) / H) (w / H))
    (wet : 0.0375 * (d / H) <
      Published.slope2025 c (gf * gb * gv * gB) (Textbook.iribarren H T c) (A / H) (w / H) ^ (0.3 : ℝ) -
      Published.slope2025 c (gf * gb * gv * gB) (Textbook.iribarren H T c) ((A + d) / H) (w / H) ^ (0.3 : ℝ)) :
    ¬ FurtherRaisesPay (OvertopsWithFlag fun R => calculate_overtopping_discharge_q (fin H) (fin w) (fin T) R (fin A)
      (fin c) beta B db D (fin gf) (fin gb) (fin gv) (fin gB) (fin g) dc true) fun R => A ≤ R := by
  intro h
  have hS : 0 < √(g * H ^ 3) := by positivity
  have hpos : ∀ R, 0 < Published.slope2025 c (gf * gb * gv * gB) (Textbook.iribarren H T c) (R / H) (w / H) := by
    intro R
    unfold Published.slope2025 Published.slopeBreaking2025 Published.slopeMaximum2025
    exact lt_inf_iff.mpr ⟨by positivity, by positivity⟩
  have key : ∀ {R v : ℝ}, A ≤ R → OvertopsWithFlag (fun R => calculate_overtopping_discharge_q (fin H) (fin w) (fin T) R
      (fin A) (fin c) beta B db D (fin gf) (fin gb) (fin gv) (fin gB) (fin g) dc true) R v →
      v = (if dc then Published.slopeWind2025 ((R - A) / H) (Published.slope2025 c (gf * gb * gv * gB)
      (Textbook.iribarren H T c) (R / H) (w / H)) ^ (0.857 : ℝ) else Published.slopeWind2025 ((R - A) / H)
      (Published.slope2025 c (gf * gb * gv * gB) (Textbook.iribarren H T c) (R / H) (w / H))) * √(g * H ^ 3) := by
    rintro R v hR ⟨m, e⟩
    obtain ⟨q, f, -, e', hq⟩ := C78_vangent2025_discharge_wind H T c gf gb gv gB beta B db D hH hT hc hf hb hv hB R A w g
      dc hg hR
    rw [e', Except.ok.injEq, Prod.mk.injEq, fin_inj] at e
    rw [← e.1, (div_eq_iff hS.ne').mp hq]
  obtain ⟨a, a', b, b', ha, ha', hb0, hb', ea, ea', eb, eb', hle⟩ := h A (A + d) d le_rfl (by linarith) hd.le
  rw [key (by linarith) ea, key (by linarith) ea', key (by linarith) eb'] at *
  rw [key (by linarith) eb] at hle
  have p0 := hpos A
  have p1 := hpos (A + d)
  have p2 := hpos (A + d + d)
  revert hle same wet
  generalize Published.slope2025 c (gf * gb * gv * gB) (Textbook.iribarren H T c) (A / H) (w / H) = q0 at *
  generalize Published.slope2025 c (gf * gb * gv * gB) (Textbook.iribarren H T c) ((A + d) / H) (w / H) = q1 at *
  generalize Published.slope2025 c (gf * gb * gv * gB) (Textbook.iribarren H T c) ((A + d + d) / H) (w / H) = q2 at *
  intro same wet hle
  have hle : Published.slopeWind2025 ((A + d + d - A) / H) q2 * Published.slopeWind2025 ((A - A) / H) q0 ≤
      Published.slopeWind2025 ((A + d - A) / H) q1 * Published.slopeWind2025 ((A + d - A) / H) q1 := by
    have wp : ∀ {v q : ℝ}, 0 ≤ v → 0 < q → 0 < Published.slopeWind2025 v q := fun {v q} hv hq => by
      unfold Published.slopeWind2025; positivity
    have w0 := wp (v := (A - A) / H) (by rw [sub_self, zero_div]) p0
    have w1 := wp (v := (A + d - A) / H) (div_nonneg (by linarith) hH.le) p1
    have w2 := wp (v := (A + d + d - A) / H) (div_nonneg (by linarith) hH.le) p2
    generalize Published.slopeWind2025 ((A - A) / H) q0 = W0 at *
    generalize Published.slopeWind2025 ((A + d - A) / H) q1 = W1 at *
    generalize Published.slopeWind2025 ((A + d + d - A) / H) q2 = W2 at *
    rw [mul_div_mul_right _ _ hS.ne', mul_div_mul_right _ _ hS.ne'] at hle
    cases dc
    · simp only [Bool.false_eq_true, if_false] at hle
      rwa [div_le_div_iff₀ w1 w0] at hle
    · simp only [if_true] at hle
      rw [div_le_div_iff₀ (by positivity) (by positivity), ← Real.mul_rpow w2.le w0.le, ← Real.mul_rpow w1.le w1.le,
        Real.rpow_le_rpow_iff (by positivity) (by positivity) (by norm_num)] at hle
      exact hle
  refine absurd hle (not_le.mpr ?_)
  have sp : ∀ {v q : ℝ}, 0 < q → Published.slopeWind2025 v q = q ^ (0.7 : ℝ) * (q ^ (0.3 : ℝ) + 0.075 * v) :=
    fun {v q} hq => by
    unfold Published.slopeWind2025
    have e1 : q = q ^ (0.7 : ℝ) * q ^ (0.3 : ℝ) := by
      rw [← Real.rpow_add hq]; norm_num
    have e2 : q ^ (0.3 : ℝ) * q ^ (-0.3 : ℝ) = 1 := by
      rw [← Real.rpow_add hq]; norm_num
    calc q * (1 + 0.075 * v * q ^ (-0.3 : ℝ))
        = q ^ (0.7 : ℝ) * q ^ (0.3 : ℝ) * (1 + 0.075 * v * q ^ (-0.3 : ℝ)) := by rw [← e1]
      _ = q ^ (0.7 : ℝ) * (q ^ (0.3 : ℝ) + 0.075 * v * (q ^ (0.3 : ℝ) * q ^ (-0.3 : ℝ))) := by ring
      _ = _ := by rw [e2, mul_one]
  have pw : ∀ p : ℝ, (q1 ^ p) ^ 2 = q0 ^ p * q2 ^ p := fun p => by
    rw [← Real.mul_rpow p0.le p2.le, ← same, sq, sq, Real.mul_rpow p1.le p1.le]
  have s7 := pw 0.7
  have s3 := pw 0.3
  have t0 : 0 < q0 ^ (0.7 : ℝ) := by positivity
  have t2 : 0 < q2 ^ (0.7 : ℝ) := by positivity
  rw [sp p0, sp p1, sp p2, sub_self, zero_div, show A + d - A = d by ring, show A + d + d - A = d + d by ring, add_div]
  have hv : 0 < d / H := by positivity
  generalize d / H = v at *
  generalize q0 ^ (0.7 : ℝ) = T0 at *
  generalize q1 ^ (0.7 : ℝ) = T1 at *
  generalize q2 ^ (0.7 : ℝ) = T2 at *
  generalize q0 ^ (0.3 : ℝ) = r0 at *
  generalize q1 ^ (0.3 : ℝ) = r1 at *
  generalize q2 ^ (0.3 : ℝ) = r2 at *
  have e1 : T1 * (r1 + 0.075 * v) * (T1 * (r1 + 0.075 * v)) = T0 * T2 * (r0 * r2 + 0.15 * v * r1 + (0.075 * v) ^ 2) := by
    rw [← s7, ← s3]; ring
  have e2 : T2 * (r2 + 0.075 * (v + v)) * (T0 * (r0 + 0.075 * 0)) = T0 * T2 * (r0 * r2 + 0.15 * v * r0) := by ring
  rw [e1, e2]
  refine mul_lt_mul_of_pos_left ?_ (mul_pos t0 t2)
  nlinarith [mul_lt_mul_of_pos_left wet hv]
/-- C99 refuted for the crest wall factor in high swell: each raise of the wall pays less than the one before it, wherever
the maximum formula governs -/
theorem C99_vangent2025_wall_refuted (H T c gf gb gB A : ℝ) (beta B db D : PF) (hH : 0 < H) (hT : 0 < T) (hc : 0 < c)
    (hf : 0 < gf) (hb : 0 < gb) (hB : 0 < gB) (hA : 0 < A) (w g d : ℝ) (dc : Bool) (hg : 0 < g) (hd : 0 < d) (x : ℝ)
    (hx : A ≤ x) (high : Published.wallSlope2025 c * A < (1 + Published.wallSlope2025 c) * (0.4 * w))
    (governs : ∀ R, x ≤ R → Published.slopeMaximum2025 c (gf * gb * (1 + Published.wallSlope2025 c * (R - A) / R) * gB)
      (Textbook.iribarren H T c) (R / H) (w / H) ≤ Published.slopeBreaking2025 c
      (gf * gb * (1 + Published.wallSlope2025 c * (R - A) / R) * gB) (Textbook.iribarren H T c) (R / H) (w / H)) :
    ∃ a a' b : ℝ, 0 < a ∧ 0 < a' ∧ 0 < b ∧
      (∀ R v, (R, v) ∈ [(x, a), (x + d, a'), (x + 2 * d, b)] → OvertopsWithFlag (fun R => calculate_overtopping_discharge_q
        (fin H) (fin w) (fin T) R (fin A) (fin c) beta B db D (fin gf) (fin gb)
        (calculate_influence_crest_wall_gamma_v (fin c) R (fin A)) (fin gB) (fin g) dc false) R v) ∧
      a' / a < b / a' := by
  set k := Published.wallSlope2025 c with hk
  have hk0 : 0 < k := by
    rw [hk]; unfold Published.wallSlope2025; split_ifs <;> positivity
  have hS : 0 < √(g * H ^ 3) := by positivity
  have hξ : 0 < Textbook.iribarren H T c := by rw [RangeProof.irib_eq]; exact VdMProof.xi_pos hH hT hc
  have hξ' : 0 < Textbook.iribarren H T c ^ (0.24 : ℝ) := by positivity
  have hgv : ∀ {R}, A ≤ R → 0 < 1 + k * (R - A) / R := fun {R} h => by
    have : 0 ≤ k * (R - A) / R := div_nonneg (mul_nonneg hk0.le (by linarith)) (by linarith)
    linarith
  set u : ℝ → ℝ := fun R => (1 + k) * R - k * A with hu
  have hu0 : ∀ {R}, A ≤ R → 0 < u R := fun {R} h => by
    have : k * A ≤ k * R := mul_le_mul_of_nonneg_left h hk0.le
    simp only [hu]
    nlinarith
  obtain ⟨p, hp, hF⟩ : ∃ p : ℝ, 0 < p ∧ ∀ R, x ≤ R → OvertopsWithFlag (fun R => calculate_overtopping_discharge_q
        (fin H) (fin w) (fin T) R (fin A) (fin c) beta B db D (fin gf) (fin gb)
        (calculate_influence_crest_wall_gamma_v (fin c) R (fin A)) (fin gB) (fin g) dc false) R
        ((if dc then (0.8 / c * Real.exp (-(p * ((R - 0.4 * w) * R / u R)))) ^ (0.857 : ℝ) else
          0.8 / c * Real.exp (-(p * ((R - 0.4 * w) * R / u R)))) * √(g * H ^ 3)) := by
    refine ⟨2.5 / (gf * gb * gB * Textbook.iribarren H T c ^ (0.24 : ℝ) * H), by positivity, fun R hR => ?_⟩
    have hAR := hx.trans hR
    have hR0 : 0 < R := lt_of_lt_of_le hA hAR
    obtain ⟨q, m, -, e, a, b, rfl, rfl, hq, -⟩ := C78_vangent2025_discharge H T c gf gb (1 + k * (R - A) / R) gB (fin A)
      beta B db D hH hT hc hf hb (hgv hAR) hB R w g dc hg
    refine ⟨m, ?_⟩
    dsimp only
    have e' : Published.slopeMaximum2025 c (gf * gb * (1 + k * (R - A) / R) * gB) (Textbook.iribarren H T c) (R / H)
        (w / H) = 0.8 / c * Real.exp (-(2.5 / (gf * gb * gB * Textbook.iribarren H T c ^ (0.24 : ℝ) * H) *
          ((R - 0.4 * w) * R / u R))) := by
      have h2 := (hu0 hAR).ne'
      have e : 1 + k * (R - A) / R = u R / R := by simp only [hu]; field_simp; ring
      unfold Published.slopeMaximum2025
      rw [e]
      generalize u R = y at *
      congr 2
      field_simp
    rw [min_eq_right (governs R hR), e'] at hq
    rw [wall_eval hR0, ← hk, e, Except.ok.injEq, Prod.mk.injEq, fin_inj, (div_eq_iff hS.ne').mp hq]
    exact ⟨rfl, rfl⟩
  have hP : ∀ y : ℝ, 0 < (if dc then (0.8 / c * Real.exp (-(p * y))) ^ (0.857 : ℝ) else 0.8 / c * Real.exp (-(p * y))) *
      √(g * H ^ 3) := by
    intro y
    cases dc
    · simp only [Bool.false_eq_true, if_false]; positivity
    · simp only [if_true]; positivity
  refine ⟨_, _, _, hP ((x - 0.4 * w) * x / u x), hP ((x + d - 0.4 * w) * (x + d) / u (x + d)),
    hP ((x + 2 * d - 0.4 * w) * (x + 2 * d) / u (x + 2 * d)), ?_, ?_⟩
  · intro R v h
    simp only [List.mem_cons, Prod.mk.injEq, List.not_mem_nil, or_false] at h
    rcases h with ⟨rfl, rfl⟩ | ⟨rfl, rfl⟩ | ⟨rfl, rfl⟩
    · exact hF _ le_rfl
    · exact hF _ (by linarith)
    · exact hF _ (by linarith)
  rw [mul_div_mul_right _ _ hS.ne', mul_div_mul_right _ _ hS.ne']
  have main : (x - 0.4 * w) * x / u x + (x + 2 * d - 0.4 * w) * (x + 2 * d) / u (x + 2 * d) <
      2 * ((x + d - 0.4 * w) * (x + d) / u (x + d)) := by
    have v0 := hu0 hx
    have v1 := hu0 (show A ≤ x + d by linarith)
    have v2 := hu0 (show A ≤ x + 2 * d by linarith)
    have hm : 0 < 1 + k := by linarith
    have e : ∀ {z}, A ≤ z → (z - 0.4 * w) * z / u z =
        (u z + (2 * (k * A) - (1 + k) * (0.4 * w)) - k * A * ((1 + k) * (0.4 * w) - k * A) / u z) / (1 + k) ^ 2 :=
      fun {z} hz => by
      have h := (hu0 hz).ne'
      have h2 : (1 + k) ^ 2 ≠ 0 := by positivity
      rw [eq_div_iff h2, div_mul_eq_mul_div, div_eq_iff h, sub_mul (u z + _), div_mul_cancel₀ _ h]
      simp only [hu]
      ring
    rw [e hx, e (show A ≤ x + d by linarith), e (show A ≤ x + 2 * d by linarith), ← add_div, ← mul_div_assoc]
    refine div_lt_div_of_pos_right ?_ (by positivity)
    have a1 : u x + u (x + 2 * d) = 2 * u (x + d) := by simp only [hu]; ring
    have a2 : u (x + 2 * d) = u x + 2 * ((1 + k) * d) := by simp only [hu]; ring
    have a3 : u (x + d) = u x + (1 + k) * d := by simp only [hu]; ring
    have hM : 0 < k * A * ((1 + k) * (0.4 * w) - k * A) := mul_pos (mul_pos hk0 hA) (by linarith)
    have hD : 0 < (1 + k) * d := by positivity
    have conv : 2 / u (x + d) < 1 / u x + 1 / u (x + 2 * d) := by
      rw [a2] at v2
      rw [a3] at v1
      rw [a2, a3]
      clear a1 a2 a3
      generalize u x = y at *
      generalize (1 + k) * d = z at *
      rw [div_add_div _ _ v0.ne' v2.ne', div_lt_div_iff₀ v1 (mul_pos v0 v2)]
      nlinarith [mul_pos hD hD, mul_pos v0 hD]
    have := mul_lt_mul_of_pos_left conv hM
    rw [mul_add, mul_one_div, mul_one_div, ← mul_div_assoc, mul_comm _ (2 : ℝ), mul_div_assoc] at this
    linarith
  generalize (x - 0.4 * w) * x / u x = E0 at *
  generalize (x + d - 0.4 * w) * (x + d) / u (x + d) = E1 at *
  generalize (x + 2 * d - 0.4 * w) * (x + 2 * d) / u (x + 2 * d) = E2 at *
  have hlt : (0.8 / c * Real.exp (-(p * E1))) * (0.8 / c * Real.exp (-(p * E1))) <
      (0.8 / c * Real.exp (-(p * E2))) * (0.8 / c * Real.exp (-(p * E0))) := by
    have r : ∀ y z : ℝ, (0.8 / c * Real.exp y) * (0.8 / c * Real.exp z) = (0.8 / c) ^ 2 * Real.exp (y + z) := fun y z => by
      rw [Real.exp_add]; ring
    rw [r, r]
    refine mul_lt_mul_of_pos_left (Real.exp_lt_exp.mpr ?_) (by positivity)
    nlinarith [mul_lt_mul_of_pos_left main hp]
  have y0 : 0 < 0.8 / c * Real.exp (-(p * E0)) := by positivity
  have y1 : 0 < 0.8 / c * Real.exp (-(p * E1)) := by positivity
  have y2 : 0 < 0.8 / c * Real.exp (-(p * E2)) := by positivity
  generalize 0.8 / c * Real.exp (-(p * E0)) = W0 at *
  generalize 0.8 / c * Real.exp (-(p * E1)) = W1 at *
  generalize 0.8 / c * Real.exp (-(p * E2)) = W2 at *
  cases dc
  · simp only [Bool.false_eq_true, if_false]
    rwa [div_lt_div_iff₀ y0 y1]
  · simp only [if_true]
    rw [div_lt_div_iff₀ (by positivity) (by positivity), ← Real.mul_rpow y1.le y1.le, ← Real.mul_rpow y2.le y0.le]
    exact Real.rpow_lt_rpow (by positivity) hlt (by norm_num)

/-! ## Ordinary inputs -/

namespace RaiseProof

/-- breaker parameters from 3 on: the maximum formula governs at all levels above the swell correction -/
theorem maximum_governs {c G ξ r w : ℝ} (hc : 0 < c) (hG : 0 < G) (hξ : 3 ≤ ξ) (hr : 0.4 * w ≤ r) :
    Published.slopeMaximum2025 c G ξ r w ≤ Published.slopeBreaking2025 c G ξ r w := by
  unfold Published.slopeMaximum2025 Published.slopeBreaking2025
  have h0 : 0 < ξ := by linarith
  have h24 : 0 < ξ ^ (0.24 : ℝ) := by positivity
  have h76 : 2 ≤ ξ ^ (0.76 : ℝ) := by
    calc (2 : ℝ) = (2 ^ (4 : ℝ)) ^ (0.25 : ℝ) := by rw [← Real.rpow_mul (by norm_num)]; norm_num
      _ ≤ (3 ^ (3 : ℝ)) ^ (0.25 : ℝ) := Real.rpow_le_rpow (by positivity) (by norm_num) (by norm_num)
      _ = 3 ^ (0.75 : ℝ) := by rw [← Real.rpow_mul (by norm_num)]; norm_num
      _ ≤ 3 ^ (0.76 : ℝ) := Real.rpow_le_rpow_of_exponent_le (by norm_num) (by norm_num)
      _ ≤ _ := Real.rpow_le_rpow (by norm_num) hξ (by norm_num)
  have h1 : ξ = ξ ^ (0.24 : ℝ) * ξ ^ (0.76 : ℝ) := by rw [← Real.rpow_add h0]; norm_num
  refine mul_le_mul (by gcongr; norm_num) (Real.exp_le_exp.mpr ?_) (Real.exp_pos _).le (by positivity)
  rw [div_le_div_iff₀ (mul_pos hG h24) (mul_pos hG h0)]
  have h2 : 2 * ξ ^ (0.24 : ℝ) ≤ ξ := by
    conv_rhs => rw [h1]
    nlinarith
  have h3 : 0 ≤ (r - 0.4 * w) * G := mul_nonneg (by linarith) hG.le
  nlinarith [mul_le_mul_of_nonneg_left h2 h3]

theorem surging : 3 ≤ Textbook.iribarren 2 8 2 ∧ Textbook.iribarren 2 8 2 ≤ 4 := by
  have h3 := Real.pi_gt_three
  have h4 := Real.pi_lt_d2
  have hs : 0 < √(Textbook.steepness 2 8) := Real.sqrt_pos.mpr (by unfold Textbook.steepness; positivity)
  have e : Textbook.steepness 2 8 = Real.pi / 156.96 := by unfold Textbook.steepness; field_simp; norm_num
  unfold Textbook.iribarren
  rw [le_div_iff₀ (by positivity), div_le_iff₀ (by positivity)]
  constructor
  · have : √(Textbook.steepness 2 8) ≤ 1 / 6 := Real.sqrt_le_iff.mpr ⟨by norm_num, by rw [e]; norm_num; linarith⟩
    linarith
  · have : 1 / 8 ≤ √(Textbook.steepness 2 8) := Real.le_sqrt_of_sq_le (by rw [e]; norm_num; linarith)
    linarith

end RaiseProof

/-- armour crest at 3 m, wind sea only -/
example := C99_vangent2025_wall_partial 2 8 2 0.5 1 1 3 nan 0 0 nan (by norm_num) (by norm_num) (by norm_num) (by norm_num)
  (by norm_num) (by norm_num) (by norm_num) 0 9.81 true (by norm_num)
  (by unfold Published.wallSlope2025; norm_num)

/-- armour crest at 1 m in swell of 2 m, a wall raised from 1 m to 2 m and 3 m -/
example := C99_vangent2025_wall_refuted 2 8 2 0.5 1 1 1 nan 0 0 nan (by norm_num) (by norm_num) (by norm_num) (by norm_num)
  (by norm_num) (by norm_num) (by norm_num) 2 9.81 1 true (by norm_num) (by norm_num) 1 le_rfl
  (by unfold Published.wallSlope2025; norm_num) fun R hR => by
    have hk : Published.wallSlope2025 2 = 0.45 := by unfold Published.wallSlope2025; norm_num
    rw [hk]
    have : 0 ≤ 0.45 * (R - 1) / R := div_nonneg (by nlinarith) (by linarith)
    exact maximum_governs (by norm_num) (by nlinarith) surging.1 (by rw [div_self (by norm_num)]; linarith)

/-- armour crest at the water line, a wall raised from there by 2 m and by 2 m more -/
example : ¬ FurtherRaisesPay (OvertopsWithFlag fun R => calculate_overtopping_discharge_q (fin 2) (fin 0) (fin 8) R (fin 0)
    (fin 2) nan 0 0 nan (fin 0.5) (fin 1) (fin 1) (fin 1) (fin 9.81) true true) fun R => 0 ≤ R := by
  have hs := surging
  have ev : ∀ r : ℝ, 0 ≤ r → Published.slope2025 2 (0.5 * 1 * 1 * 1) (Textbook.iribarren 2 8 2) r (0 / 2) =
      0.4 * Real.exp (-(5 / Textbook.iribarren 2 8 2 ^ (0.24 : ℝ)) * r) := by
    intro r hr
    unfold Published.slope2025
    rw [inf_eq_right.mpr (maximum_governs (by norm_num) (by norm_num) hs.1 (by simpa using hr))]
    unfold Published.slopeMaximum2025
    have : 0 < Textbook.iribarren 2 8 2 ^ (0.24 : ℝ) := Real.rpow_pos_of_pos (by linarith) _
    rw [show (0.8 : ℝ) / 2 = 0.4 by norm_num]
    congr 2
    field_simp
    norm_num
    ring
  refine C99_vangent2025_wind_refuted 2 8 2 0.5 1 1 1 0 nan 0 0 nan (by norm_num) (by norm_num) (by norm_num) (by norm_num)
    (by norm_num) (by norm_num) (by norm_num) 0 9.81 2 true (by norm_num) (by norm_num) ?_ ?_
  · rw [ev _ (by norm_num), ev _ (by norm_num), ev _ (by norm_num), mul_pow, ← Real.exp_nat_mul]
    rw [show ∀ a b : ℝ, 0.4 * Real.exp a * (0.4 * Real.exp b) = 0.4 ^ 2 * Real.exp (a + b) from fun a b => by
      rw [Real.exp_add]; ring]
    congr 2
    push_cast
    ring
  · rw [ev _ (by norm_num), ev _ (by norm_num), Real.mul_rpow (by norm_num) (Real.exp_pos _).le,
      Real.mul_rpow (by norm_num) (Real.exp_pos _).le, ← Real.exp_mul, ← Real.exp_mul]
    have hx : 0 < Textbook.iribarren 2 8 2 := by linarith
    have h24 : Textbook.iribarren 2 8 2 ^ (0.24 : ℝ) ≤ 2 := by
      calc Textbook.iribarren 2 8 2 ^ (0.24 : ℝ) ≤ 4 ^ (0.24 : ℝ) := Real.rpow_le_rpow hx.le hs.2 (by norm_num)
        _ ≤ 4 ^ (0.5 : ℝ) := Real.rpow_le_rpow_of_exponent_le (by norm_num) (by norm_num)
        _ = (2 ^ (2 : ℝ)) ^ (0.5 : ℝ) := by norm_num
        _ = 2 := by rw [← Real.rpow_mul (by norm_num)]; norm_num
    have hk : 2.5 ≤ 5 / Textbook.iribarren 2 8 2 ^ (0.24 : ℝ) := by
      rw [le_div_iff₀ (by positivity)]; linarith
    generalize 5 / Textbook.iribarren 2 8 2 ^ (0.24 : ℝ) = κ at *
    have h4 : (0.4 : ℝ) ≤ 0.4 ^ (0.3 : ℝ) := by
      conv_lhs => rw [← Real.rpow_one 0.4]
      exact Real.rpow_le_rpow_of_exponent_ge (by norm_num) (by norm_num) (by norm_num)
    have h5 : Real.exp (-κ * ((0 + 2) / 2) * 0.3) ≤ 0.6 := by
      rw [show -κ * ((0 + 2) / 2) * 0.3 = -(0.3 * κ) by ring, Real.exp_neg]
      have := Real.add_one_le_exp (0.3 * κ)
      rw [inv_le_comm₀ (Real.exp_pos _) (by norm_num)]
      linarith
    rw [zero_div, mul_zero, zero_mul, Real.exp_zero]
    nlinarith
end

end
