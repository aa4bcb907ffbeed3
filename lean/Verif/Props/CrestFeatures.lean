import Verif.SpecFeature
import Verif.SpecWorse
import Verif.Props.FormulasOvertoppingMore
import Verif.Props.RangeOvertoppingMore
import Verif.Props.Worse

/-! # Property C100: what is built to reduce overtopping does not increase it

Walls, parapets, stones and berms, with the influence factors that the library computes for them. -/

open Classical
open PF Feature
noncomputable section

namespace FeatureProof
open Published

theorem slopes_le {c G G' x r r' w : ℝ} (hc : 0 < c) (hG : 0 < G) (hG' : 0 < G') (hx : 0 < x)
    (h : (r - 0.4 * w) * G' ≤ (r' - 0.4 * w) * G) :
    (slopeBreaking2025 c G' x r' w ≤ slopeBreaking2025 c G x r w ∧
      slopeMaximum2025 c G' x r' w ≤ slopeMaximum2025 c G x r w) ∧
    ((r - 0.4 * w) * G' < (r' - 0.4 * w) * G → slopeBreaking2025 c G' x r' w < slopeBreaking2025 c G x r w ∧
      slopeMaximum2025 c G' x r' w < slopeMaximum2025 c G x r w) := by
  have hy := MoreOvertopping.rpow_pos' (y := (0.24 : ℝ)) hx
  have key : ∀ {k z A : ℝ}, 0 < k → 0 < z → 0 < A →
      (A * Real.exp (-k * (r' - 0.4 * w) / (G' * z)) ≤ A * Real.exp (-k * (r - 0.4 * w) / (G * z))) ∧
      ((r - 0.4 * w) * G' < (r' - 0.4 * w) * G →
        A * Real.exp (-k * (r' - 0.4 * w) / (G' * z)) < A * Real.exp (-k * (r - 0.4 * w) / (G * z))) := by
    intro k z A hk hz hA
    generalize r - 0.4 * w = u at *
    generalize r' - 0.4 * w = u' at *
    have e : -k * u / (G * z) - -k * u' / (G' * z) = k / (G * G' * z) * (u' * G - u * G') := by
      field_simp; ring
    have p : 0 < k / (G * G' * z) := by positivity
    constructor
    · refine mul_le_mul_of_nonneg_left (Real.exp_le_exp.mpr (sub_nonneg.mp ?_)) hA.le
      rw [e]; exact mul_nonneg p.le (by linarith)
    · intro hs
      refine mul_lt_mul_of_pos_left (Real.exp_lt_exp.mpr (sub_pos.mp ?_)) hA
      rw [e]; exact mul_pos p (by linarith)
  have a1 : 0 < 6.8 / c := div_pos (by norm_num) hc
  have a2 : 0 < 0.8 / c := div_pos (by norm_num) hc
  have h1 := key (k := 5) (by norm_num) hx a1
  have h2 := key (k := 2.5) (by norm_num) hy a2
  exact ⟨⟨h1.1, h2.1⟩, fun hs => ⟨h1.2 hs, h2.2 hs⟩⟩

open VanGent2025 in
/-- two calls that differ in crest and influence factors only -/
theorem compare {H T c g w R R' gf gb gv gB gf' gb' gv' gB' : ℝ} (Ac beta B db D Ac' beta' B' db' D' : PF) (dc : Bool)
    (hH : 0 < H) (hT : 0 < T) (hc : 0 < c) (hg : 0 < g) (hf : 0 < gf) (hb : 0 < gb) (hv : 0 < gv) (hB : 0 < gB)
    (hf' : 0 < gf') (hb' : 0 < gb') (hv' : 0 < gv') (hB' : 0 < gB')
    (h : (R - 0.4 * w) * (gf' * gb' * gv' * gB') ≤ (R' - 0.4 * w) * (gf * gb * gv * gB)) :
    NoMore (calculate_overtopping_discharge_q (fin H) (fin w) (fin T) (fin R) Ac (fin c) beta B db D (fin gf)
        (fin gb) (fin gv) (fin gB) (fin g) dc false)
      (calculate_overtopping_discharge_q (fin H) (fin w) (fin T) (fin R') Ac' (fin c) beta' B' db' D' (fin gf')
        (fin gb') (fin gv') (fin gB') (fin g) dc false)
      ((R - 0.4 * w) * (gf' * gb' * gv' * gB') < (R' - 0.4 * w) * (gf * gb * gv * gB)) := by
  obtain ⟨q, f, q0, e, a, b, ha, hb1, hq, -⟩ := C78_vangent2025_discharge H T c gf gb gv gB Ac beta B db D hH hT hc hf hb
    hv hB R w g dc hg
  obtain ⟨q', f', q0', e', a', b', ha', hb1', hq', -⟩ := C78_vangent2025_discharge H T c gf' gb' gv' gB' Ac' beta' B' db'
    D' hH hT hc hf' hb' hv' hB' R' w g dc hg
  have hx : 0 < Textbook.iribarren H T c := by rw [RangeProof.irib_eq]; exact VdMProof.xi_pos hH hT hc
  have e1 : ∀ r : ℝ, r / H - 0.4 * (w / H) = (r - 0.4 * w) / H := fun r => by ring
  have k : ∀ {s t u v : ℝ}, (s / H * t ≤ u / H * v ↔ s * t ≤ u * v) ∧ (s / H * t < u / H * v ↔ s * t < u * v) := by
    intro s t u v
    rw [div_mul_eq_mul_div, div_mul_eq_mul_div, div_le_div_iff_of_pos_right hH, div_lt_div_iff_of_pos_right hH]
    exact ⟨Iff.rfl, Iff.rfl⟩
  obtain ⟨⟨l1, l2⟩, l3⟩ := slopes_le (r := R / H) (r' := R' / H) (w := w / H) hc
    (show 0 < gf * gb * gv * gB by positivity) (show 0 < gf' * gb' * gv' * gB' by positivity) hx
    (by rw [e1, e1, k.1]; exact h)
  rw [e1, e1, k.2] at l3
  rw [← ha, ← ha'] at l1 l3
  rw [← hb1, ← hb1'] at l2 l3
  have pa' : 0 < a' := by rw [ha']; unfold slopeBreaking2025; positivity
  have pb' : 0 < b' := by rw [hb1']; unfold slopeMaximum2025; positivity
  have pm : 0 < min a' b' := lt_min pa' pb'
  have hS : 0 < √(g * H ^ 3) := by positivity
  refine ⟨q, q', f, f', e, e', q0', ?_, fun hs => ?_⟩
  · rw [← div_le_div_iff_of_pos_right hS, hq, hq']
    have := min_le_min l1 l2
    split_ifs
    · exact Real.rpow_le_rpow pm.le this (by norm_num)
    · exact this
  · rw [← div_lt_div_iff_of_pos_right hS, hq, hq']
    have := min_lt_min (l3 hs).1 (l3 hs).2
    split_ifs
    · exact Real.rpow_lt_rpow pm.le this (by norm_num)
    · exact this

theorem steep_pos {H T : ℝ} (hH : 0 < H) (hT : 0 < T) : 0 < Textbook.steepness H T := by
  have := Real.pi_pos
  unfold Textbook.steepness; positivity

open VanGent2025 in
theorem berm_given {H T a B db : ℝ} (w x gv c g D gB beta : PF) (gf : ℝ) (dc wd : Bool) (hH : 0 < H) (hT : 0 < T)
    (ha : 0 < a) (hB : 0 ≤ B) (hd : db ≤ a) :
    calculate_overtopping_discharge_q (fin H) w (fin T) x (fin a) c beta (fin B) (fin db) D (fin gf) nan gv gB g dc wd =
    calculate_overtopping_discharge_q (fin H) w (fin T) x (fin a) c beta (fin B) (fin db) D (fin gf)
      (fin (berm2025 (Textbook.steepness H T) (B / H) ((a - db) / a))) gv gB g dc wd := by
  have eb := FormulaProof.berm2025 (B := B) (db := db) hH (steep_pos hH hT) ha hB hd
  have es := RangeProof.steep_eval (H := H) hT
  unfold calculate_overtopping_discharge_q calculate_dimensionless_overtopping_discharge_q
  simp only [isnan_nan, isnan_fin, if_true, if_false, es, sub_fin, eb]

open VanGent2025 in
theorem friction_given {H T D : ℝ} (w x gv c g gb gB beta Ac B db : PF) (dc wd : Bool) (hH : 0 < H) (hT : 0 < T)
    (hD : 0 < D) :
    calculate_overtopping_discharge_q (fin H) w (fin T) x Ac c beta B db (fin D) nan gb gv gB g dc wd =
    calculate_overtopping_discharge_q (fin H) w (fin T) x Ac c beta B db (fin D)
      (fin (friction2025 (D / H) (Textbook.steepness H T))) gb gv gB g dc wd := by
  have ef := FormulaProof.friction2025 (s := Textbook.steepness H T) hD hH
  have es := RangeProof.steep_eval (H := H) hT
  unfold calculate_overtopping_discharge_q calculate_dimensionless_overtopping_discharge_q friction_or_raise
  simp only [isnan_nan, isnan_fin, if_true, if_false, es, ef]

/-- with `γ` proportional to the height of the wall over the crest level -/
theorem wall_key {k a R R' s : ℝ} (hk : 0 ≤ k) (ha : 0 < a) (hR : a ≤ R) (hs : 0 ≤ s) :
    (k ≤ 1 → R ≤ R' → (R - s) * (1 + k * ((R' - a) / R')) ≤ (R' - s) * (1 + k * ((R - a) / R)) ∧
      (R < R' → (R - s) * (1 + k * ((R' - a) / R')) < (R' - s) * (1 + k * ((R - a) / R)))) := by
  intro hk1 hRR
  have h0 : 0 < R := ha.trans_le hR
  have h0' : 0 < R' := h0.trans_le hRR
  have e : (R' - s) * (1 + k * ((R - a) / R)) - (R - s) * (1 + k * ((R' - a) / R')) =
      (R' - R) / (R * R') * ((1 + k) * (R * R') - k * a * (R + R') + k * a * s) := by
    field_simp; ring
  have b1 : 0 ≤ k * a * s := by positivity
  have b2 : 0 ≤ k * ((R - a) * R') := mul_nonneg hk (mul_nonneg (by linarith) h0'.le)
  have b3 : 0 ≤ R * (R' - k * a) := mul_nonneg h0.le (by nlinarith)
  have b : 0 ≤ (1 + k) * (R * R') - k * a * (R + R') + k * a * s := by linarith
  constructor
  · rw [← sub_nonneg, e]
    exact mul_nonneg (div_nonneg (by linarith) (by positivity)) b
  · intro hlt
    have b4 : 0 < R * (R' - k * a) := mul_pos h0 (by nlinarith)
    rw [← sub_pos, e]
    exact mul_pos (div_pos (by linarith) (by positivity)) (by linarith)

end FeatureProof

section
open VanGent2025 FeatureProof Published

/-- C100 (missing: wind, see C80, and slopes gentler than 1:8.9, refuted below): a higher crest wall on the
same rock, with the crest wall factor computed for each, never gives more overtopping -/
theorem C100_vangent2025_wall_partial (H T c g w a R R' gf gb gB : ℝ) (beta B db D : PF) (dc : Bool)
    (hH : 0 < H) (hT : 0 < T) (hc : 0 < c) (hc' : c ≤ 80 / 9) (hg : 0 < g) (hf : 0 < gf) (hb : 0 < gb) (hB : 0 < gB)
    (hw : 0 ≤ w) (ha : 0 < a) (hR : a ≤ R) (hRR : R ≤ R') :
    NoMore (calculate_overtopping_discharge_q (fin H) (fin w) (fin T) (fin R) (fin a) (fin c) beta B db D (fin gf)
        (fin gb) (calculate_influence_crest_wall_gamma_v (fin c) (fin R) (fin a)) (fin gB) (fin g) dc false)
      (calculate_overtopping_discharge_q (fin H) (fin w) (fin T) (fin R') (fin a) (fin c) beta B db D (fin gf)
        (fin gb) (calculate_influence_crest_wall_gamma_v (fin c) (fin R') (fin a)) (fin gB) (fin g) dc false)
      (R < R') := by
  have h0 : 0 < R := ha.trans_le hR
  have h0' : 0 < R' := h0.trans_le hRR
  rw [C78_vangent2025_crest_wall c R a h0, C78_vangent2025_crest_wall c R' a h0']
  have hk : 0 ≤ (if c ≤ 4 then (0.45 : ℝ) else 0.1125 * c) ∧ (if c ≤ 4 then (0.45 : ℝ) else 0.1125 * c) ≤ 1 := by
    split_ifs <;> constructor <;> norm_num <;> linarith
  generalize (if c ≤ 4 then (0.45 : ℝ) else 0.1125 * c) = k at hk
  obtain ⟨hk0, hk1⟩ := hk
  have p : ∀ {r : ℝ}, a ≤ r → 0 < 1 + k * ((r - a) / r) := fun h => by
    have := div_nonneg (sub_nonneg.mpr h) (ha.le.trans h)
    positivity
  obtain ⟨l1, l2⟩ := wall_key (s := 0.4 * w) hk0 ha hR (by positivity) hk1 hRR
  have r : ∀ {x y x' y' : ℝ}, (x * (gf * gb * y * gB) ≤ x' * (gf * gb * y' * gB) ↔ x * y ≤ x' * y') ∧
      (x * (gf * gb * y * gB) < x' * (gf * gb * y' * gB) ↔ x * y < x' * y') := by
    intro x y x' y'
    have e : ∀ x y : ℝ, x * (gf * gb * y * gB) = gf * gb * gB * (x * y) := fun x y => by ring
    have q : 0 < gf * gb * gB := by positivity
    rw [e, e]
    exact ⟨mul_le_mul_iff_right₀ q, mul_lt_mul_iff_right₀ q⟩
  obtain ⟨q, q', f, f', e, e', h1, h2, h3⟩ := compare (fin a) beta B db D (fin a) beta B db D dc hH hT hc hg hf hb
    (p hR) hB hf hb (p (hR.trans hRR)) hB (r.1.mpr l1)
  exact ⟨q, q', f, f', e, e', h1, h2, fun hs => h3 (r.2.mpr (l2 hs))⟩

example := C100_vangent2025_wall_partial 2 7 8 9.81 0.5 3 3.2 4 0.6 1 0.8 (fin 20) 0.0 0.0 nan true (by norm_num)
  (by norm_num) (by norm_num) (by norm_num) (by norm_num) (by norm_num) (by norm_num) (by norm_num) (by norm_num)
  (by norm_num) (by norm_num) (by norm_num)

/-- C100, refuted in general: on slopes gentler than 1:8.9 (outside the range of validity) a low wall on the
crest gives more overtopping than no wall -/
theorem C100_vangent2025_wall_refuted (H T c g a d gf gb gB : ℝ) (beta B db D : PF) (dc : Bool)
    (hH : 0 < H) (hT : 0 < T) (hc : 80 / 9 < c) (hg : 0 < g) (hf : 0 < gf) (hb : 0 < gb) (hB : 0 < gB)
    (hd : 0 < d) (hda : d < (0.1125 * c - 1) * a) :
    NoMore (calculate_overtopping_discharge_q (fin H) (fin 0) (fin T) (fin (a + d)) (fin a) (fin c) beta B db D
        (fin gf) (fin gb) (calculate_influence_crest_wall_gamma_v (fin c) (fin (a + d)) (fin a)) (fin gB) (fin g)
        dc false)
      (calculate_overtopping_discharge_q (fin H) (fin 0) (fin T) (fin a) (fin a) (fin c) beta B db D (fin gf)
        (fin gb) (calculate_influence_crest_wall_gamma_v (fin c) (fin a) (fin a)) (fin gB) (fin g) dc false)
      True := by
  have hk : 0 < 0.1125 * c - 1 := by norm_num at hc ⊢; linarith
  have ha : 0 < a := by
    by_contra h
    have := mul_nonneg hk.le (neg_nonneg.mpr (not_lt.mp h))
    linarith
  have c0 : 0 < c := lt_trans (by norm_num) hc
  have h4 : ¬ c ≤ 4 := by intro h; norm_num at hc; linarith
  rw [C78_vangent2025_crest_wall c a a ha, C78_vangent2025_crest_wall c (a + d) a (by positivity), if_neg h4]
  generalize 0.1125 * c = k at *
  have e1 : 1 + k * ((a - a) / a) = 1 := by simp
  have e2 : a + d - a = d := by ring
  rw [e1, e2]
  have hk0 : 0 < k := by linarith
  have key : (a + d - 0.4 * 0) * (gf * gb * 1 * gB) < (a - 0.4 * 0) * (gf * gb * (1 + k * (d / (a + d))) * gB) := by
    have q : 0 < gf * gb * gB := by positivity
    have : (a + d) < a * (1 + k * (d / (a + d))) := by
      rw [← sub_pos]
      have : a * (1 + k * (d / (a + d))) - (a + d) = d / (a + d) * ((k - 1) * a - d) := by
        field_simp; ring
      rw [this]
      exact mul_pos (by positivity) (by linarith)
    have := mul_lt_mul_of_pos_left this q
    linarith
  obtain ⟨q, q', f, f', e, e', h1, h2, h3⟩ := compare (w := 0) (fin a) beta B db D (fin a) beta B db D dc hH hT
    c0 hg hf hb (show 0 < 1 + k * (d / (a + d)) by positivity) hB hf hb one_pos hB key.le
  exact ⟨q, q', f, f', e, e', h1, h2, fun _ => h3 key⟩

example := C100_vangent2025_wall_refuted 2 7 10 9.81 3 0.1 0.6 1 0.8 (fin 20) 0.0 0.0 nan true (by norm_num)
  (by norm_num) (by norm_num) (by norm_num) (by norm_num) (by norm_num) (by norm_num) (by norm_num) (by norm_num)

/-- the sign of the effect of a berm in Van Gent et al. (2025) -/
theorem FeatureProof.berm_key {s l b b' : ℝ} (hs : 0 < s) (hl : 0 ≤ l) (hb : 0 ≤ b) (hbb : b ≤ b') :
    (0.34 ^ 5 * l ≤ s → berm2025 s b' l ≤ berm2025 s b l ∧
      (b < b' → 0.34 ^ 5 * l < s → berm2025 s b' l < berm2025 s b l)) ∧
    (s ≤ 0.34 ^ 5 * l → berm2025 s b l ≤ berm2025 s b' l ∧
      (b < b' → s < 0.34 ^ 5 * l → berm2025 s b l < berm2025 s b' l)) := by
  have p0 : 0 ≤ (s * b) ^ (1.3 : ℝ) := Real.rpow_nonneg (by positivity) _
  have p1 : (s * b) ^ (1.3 : ℝ) ≤ (s * b') ^ (1.3 : ℝ) :=
    Real.rpow_le_rpow (by positivity) (mul_le_mul_of_nonneg_left hbb hs.le) (by norm_num)
  have p2 : b < b' → (s * b) ^ (1.3 : ℝ) < (s * b') ^ (1.3 : ℝ) := fun h =>
    Real.rpow_lt_rpow (by positivity) (mul_lt_mul_of_pos_left h hs) (by norm_num)
  have ls : 0 ≤ l / s := by positivity
  have e5 : ((1 / 0.34 : ℝ) ^ 5) ^ (0.2 : ℝ) = 1 / 0.34 := by
    rw [← Real.rpow_natCast, ← Real.rpow_mul (by norm_num)]
    norm_num
  have m1 : 0.34 ^ 5 * l ≤ s → 0.34 * (l / s) ^ (0.2 : ℝ) ≤ 1 := fun h => by
    have : l / s ≤ (1 / 0.34) ^ 5 := by
      rw [div_le_iff₀ hs, one_div, inv_pow, ← div_eq_inv_mul, le_div_iff₀ (by norm_num)]; linarith
    have := Real.rpow_le_rpow ls this (show (0 : ℝ) ≤ 0.2 by norm_num)
    rw [e5, le_div_iff₀ (by norm_num)] at this
    linarith
  have m2 : 0.34 ^ 5 * l < s → 0.34 * (l / s) ^ (0.2 : ℝ) < 1 := fun h => by
    have : l / s < (1 / 0.34) ^ 5 := by
      rw [div_lt_iff₀ hs, one_div, inv_pow, ← div_eq_inv_mul, lt_div_iff₀ (by norm_num)]; linarith
    have := Real.rpow_lt_rpow ls this (show (0 : ℝ) < 0.2 by norm_num)
    rw [e5, lt_div_iff₀ (by norm_num)] at this
    linarith
  have m3 : s ≤ 0.34 ^ 5 * l → 1 ≤ 0.34 * (l / s) ^ (0.2 : ℝ) := fun h => by
    have : (1 / 0.34) ^ 5 ≤ l / s := by
      rw [le_div_iff₀ hs, one_div, inv_pow, ← div_eq_inv_mul, div_le_iff₀ (by norm_num)]; linarith
    have := Real.rpow_le_rpow (by positivity) this (show (0 : ℝ) ≤ 0.2 by norm_num)
    rw [e5, div_le_iff₀ (by norm_num)] at this
    linarith
  have m4 : s < 0.34 ^ 5 * l → 1 < 0.34 * (l / s) ^ (0.2 : ℝ) := fun h => by
    have : (1 / 0.34) ^ 5 < l / s := by
      rw [lt_div_iff₀ hs, one_div, inv_pow, ← div_eq_inv_mul, div_lt_iff₀ (by norm_num)]; linarith
    have := Real.rpow_lt_rpow (by positivity) this (show (0 : ℝ) < 0.2 by norm_num)
    rw [e5, div_lt_iff₀ (by norm_num)] at this
    linarith
  unfold berm2025
  generalize 0.34 * (l / s) ^ (0.2 : ℝ) = m at *
  generalize (s * b) ^ (1.3 : ℝ) = p at *
  generalize (s * b') ^ (1.3 : ℝ) = p' at *
  refine ⟨fun h => ⟨?_, fun hb h' => ?_⟩, fun h => ⟨?_, fun hb h' => ?_⟩⟩
  · have := mul_nonneg (sub_nonneg.mpr p1) (sub_nonneg.mpr (m1 h)); linarith
  · have := mul_pos (sub_pos.mpr (p2 hb)) (sub_pos.mpr (m2 h')); linarith
  · have := mul_nonneg (sub_nonneg.mpr p1) (sub_nonneg.mpr (m3 h)); linarith
  · have := mul_pos (sub_pos.mpr (p2 hb)) (sub_pos.mpr (m4 h')); linarith

/-- C100 (missing: long waves, refuted below): a wider berm, with the berm factor computed, gives no more
overtopping if the steepness is at least `0.34⁵ (Ac - db) / Ac`, that is 0.0045 for a berm at the water level -/
theorem C100_vangent2025_berm_partial (H T c g w a R db b b' gf gv gB : ℝ) (beta D : PF) (dc : Bool)
    (hH : 0 < H) (hT : 0 < T) (hc : 0 < c) (hg : 0 < g) (hf : 0 < gf) (hv : 0 < gv) (hB : 0 < gB)
    (hR : 0.4 * w ≤ R) (ha : 0 < a) (hdb : db ≤ a) (hb : 0 ≤ b) (hbb : b ≤ b')
    (hs : 0.34 ^ 5 * ((a - db) / a) ≤ Textbook.steepness H T)
    (p' : 0 < berm2025 (Textbook.steepness H T) (b' / H) ((a - db) / a)) :
    NoMore (calculate_overtopping_discharge_q (fin H) (fin w) (fin T) (fin R) (fin a) (fin c) beta (fin b) (fin db) D
        (fin gf) nan (fin gv) (fin gB) (fin g) dc false)
      (calculate_overtopping_discharge_q (fin H) (fin w) (fin T) (fin R) (fin a) (fin c) beta (fin b') (fin db) D
        (fin gf) nan (fin gv) (fin gB) (fin g) dc false)
      (b < b' ∧ 0.4 * w < R ∧ 0.34 ^ 5 * ((a - db) / a) < Textbook.steepness H T) := by
  have s0 := steep_pos hH hT
  have l0 : 0 ≤ (a - db) / a := div_nonneg (by linarith) ha.le
  rw [berm_given _ _ _ _ _ _ _ _ _ _ _ hH hT ha hb hdb, berm_given _ _ _ _ _ _ _ _ _ _ _ hH hT ha (hb.trans hbb) hdb]
  obtain ⟨k1, k2⟩ := (berm_key s0 l0 (show 0 ≤ b / H by positivity)
    (div_le_div_of_nonneg_right hbb hH.le)).1 hs
  have q : 0 < gf * gv * gB := by positivity
  generalize berm2025 (Textbook.steepness H T) (b' / H) ((a - db) / a) = G' at *
  generalize berm2025 (Textbook.steepness H T) (b / H) ((a - db) / a) = G at *
  obtain ⟨x, x', f, f', e, e', h1, h2, h3⟩ := compare (fin a) beta (fin b) (fin db) D (fin a) beta (fin b') (fin db) D
    dc hH hT hc hg hf (p'.trans_le k1) hv hB hf p' hv hB (R := R) (R' := R) (w := w) (by
      have := mul_nonneg (mul_nonneg q.le (sub_nonneg.mpr hR)) (sub_nonneg.mpr k1); linarith)
  refine ⟨x, x', f, f', e, e', h1, h2, fun ⟨ha', hb', hc'⟩ => h3 ?_⟩
  have := k2 ((div_lt_div_iff_of_pos_right hH).mpr ha') hc'
  have := mul_pos (mul_pos q (sub_pos.mpr hb')) (sub_pos.mpr this)
  linarith

/-- C100, refuted in general: in longer waves a wider berm gives more overtopping, by the same formula -/
theorem C100_vangent2025_berm_refuted (H T c g w a R db b b' gf gv gB : ℝ) (beta D : PF) (dc : Bool)
    (hH : 0 < H) (hT : 0 < T) (hc : 0 < c) (hg : 0 < g) (hf : 0 < gf) (hv : 0 < gv) (hB : 0 < gB)
    (hR : 0.4 * w < R) (ha : 0 < a) (hdb : db ≤ a) (hb : 0 ≤ b) (hbb : b < b')
    (hs : Textbook.steepness H T < 0.34 ^ 5 * ((a - db) / a)) :
    NoMore (calculate_overtopping_discharge_q (fin H) (fin w) (fin T) (fin R) (fin a) (fin c) beta (fin b') (fin db) D
        (fin gf) nan (fin gv) (fin gB) (fin g) dc false)
      (calculate_overtopping_discharge_q (fin H) (fin w) (fin T) (fin R) (fin a) (fin c) beta (fin b) (fin db) D
        (fin gf) nan (fin gv) (fin gB) (fin g) dc false) True := by
  have s0 := steep_pos hH hT
  have l0 : 0 ≤ (a - db) / a := div_nonneg (by linarith) ha.le
  rw [berm_given _ _ _ _ _ _ _ _ _ _ _ hH hT ha hb hdb, berm_given _ _ _ _ _ _ _ _ _ _ _ hH hT ha (hb.trans hbb.le) hdb]
  obtain ⟨-, k2⟩ := (berm_key s0 l0 (show 0 ≤ b / H by positivity)
    (div_le_div_of_nonneg_right hbb.le hH.le)).2 hs.le
  have k := k2 ((div_lt_div_iff_of_pos_right hH).mpr hbb) hs
  have p : 0 < berm2025 (Textbook.steepness H T) (b / H) ((a - db) / a) := by
    have := ((berm_key s0 l0 le_rfl (show 0 ≤ b / H by positivity)).2 hs.le).1
    have e : berm2025 (Textbook.steepness H T) 0 ((a - db) / a) = 1 := by
      unfold berm2025
      rw [mul_zero, Real.zero_rpow (by norm_num)]; ring
    rw [e] at this
    linarith
  have q : 0 < gf * gv * gB := by positivity
  generalize berm2025 (Textbook.steepness H T) (b' / H) ((a - db) / a) = G' at *
  generalize berm2025 (Textbook.steepness H T) (b / H) ((a - db) / a) = G at *
  have hlt := mul_pos (mul_pos q (sub_pos.mpr hR)) (sub_pos.mpr k)
  obtain ⟨x, x', f, f', e, e', h1, h2, h3⟩ := compare (fin a) beta (fin b') (fin db) D (fin a) beta (fin b) (fin db) D
    dc hH hT hc hg hf (p.trans k) hv hB hf p hv hB (R := R) (R' := R) (w := w) (by linarith)
  exact ⟨x, x', f, f', e, e', h1, h2, fun _ => h3 (by linarith)⟩

/-- C100: larger stones, with the friction factor computed, give less overtopping; so do stones of any size up
to the wave height instead of a smooth slope -/
theorem C100_vangent2025_stones (H T c g w R d d' gb gv gB : ℝ) (Ac beta B db : PF) (dc : Bool)
    (hH : 0 < H) (hT : 0 < T) (hc : 0 < c) (hg : 0 < g) (hb : 0 < gb) (hv : 0 < gv) (hB : 0 < gB)
    (hR : 0.4 * w ≤ R) (hd : 0 < d) (hdd : d ≤ d') (hd' : d' ≤ H) :
    NoMore (calculate_overtopping_discharge_q (fin H) (fin w) (fin T) (fin R) Ac (fin c) beta B db (fin d)
        nan (fin gb) (fin gv) (fin gB) (fin g) dc false)
      (calculate_overtopping_discharge_q (fin H) (fin w) (fin T) (fin R) Ac (fin c) beta B db (fin d')
        nan (fin gb) (fin gv) (fin gB) (fin g) dc false) (d < d' ∧ 0.4 * w < R) ∧
    NoMore (calculate_overtopping_discharge_q (fin H) (fin w) (fin T) (fin R) Ac (fin c) beta B db nan
        (fin 1) (fin gb) (fin gv) (fin gB) (fin g) dc false)
      (calculate_overtopping_discharge_q (fin H) (fin w) (fin T) (fin R) Ac (fin c) beta B db (fin d)
        nan (fin gb) (fin gv) (fin gB) (fin g) dc false) (0.4 * w < R) := by
  have s0 := steep_pos hH hT
  have hd0 : 0 < d' := hd.trans_le hdd
  rw [friction_given _ _ _ _ _ _ _ _ _ _ _ _ _ hH hT hd, friction_given _ _ _ _ _ _ _ _ _ _ _ _ _ hH hT hd0]
  have y0 : ∀ {x : ℝ}, 0 < x → 0 < x ^ (0.05 : ℝ) := fun h => Real.rpow_pos_of_pos h _
  have y1 : ∀ {x : ℝ}, 0 < x → x ≤ 1 → x ^ (0.05 : ℝ) ≤ 1 := fun h h1 =>
    Real.rpow_le_one h.le h1 (by norm_num)
  have mono : ∀ {x x' : ℝ}, 0 < x → x ≤ x' → friction2025 x' (Textbook.steepness H T) ≤
      friction2025 x (Textbook.steepness H T) := by
    intro x x' h h'
    have := Real.rpow_le_rpow h.le h' (show (0 : ℝ) ≤ 0.05 by norm_num)
    unfold friction2025
    generalize x ^ (0.05 : ℝ) = y at *
    generalize x' ^ (0.05 : ℝ) = y' at *
    split_ifs
    · linarith
    · have := mul_nonneg s0.le (sub_nonneg.mpr this); norm_num; linarith
  have strict : ∀ {x x' : ℝ}, 0 < x → x < x' → friction2025 x' (Textbook.steepness H T) <
      friction2025 x (Textbook.steepness H T) := by
    intro x x' h h'
    have := Real.rpow_lt_rpow h.le h' (show (0 : ℝ) < 0.05 by norm_num)
    unfold friction2025
    generalize x ^ (0.05 : ℝ) = y at *
    generalize x' ^ (0.05 : ℝ) = y' at *
    split_ifs
    · linarith
    · have := mul_pos s0 (sub_pos.mpr this); norm_num; linarith
  have pos : ∀ {x : ℝ}, 0 < x → x ≤ 1 → 0 < friction2025 x (Textbook.steepness H T) ∧
      friction2025 x (Textbook.steepness H T) < 1 := by
    intro x h h1
    have a1 := y0 h
    have a2 := y1 h h1
    unfold friction2025
    generalize x ^ (0.05 : ℝ) = y at *
    split_ifs with hs
    · constructor <;> norm_num <;> linarith
    · push Not at hs
      have m := mul_pos (sub_pos.mpr hs) a1
      have m' := mul_pos s0 a1
      constructor <;> norm_num at * <;> linarith
  have r : ∀ {x : ℝ}, 0 < x → x ≤ H → 0 < x / H ∧ x / H ≤ 1 := fun h h' =>
    ⟨by positivity, (div_le_one hH).mpr h'⟩
  have q : 0 < gb * gv * gB := by positivity
  obtain ⟨r1, r2⟩ := r hd (hdd.trans hd')
  obtain ⟨r1', r2'⟩ := r hd0 hd'
  have P := pos r1 r2
  have P' := pos r1' r2'
  have M := mono r1 (div_le_div_of_nonneg_right hdd hH.le)
  have S := fun h : d < d' => strict r1 ((div_lt_div_iff_of_pos_right hH).mpr h)
  generalize friction2025 (d / H) (Textbook.steepness H T) = G at *
  generalize friction2025 (d' / H) (Textbook.steepness H T) = G' at *
  constructor
  · obtain ⟨x, x', f, f', e, e', h1, h2, h3⟩ := compare Ac beta B db (fin d) Ac beta B db (fin d')
      dc hH hT hc hg P.1 hb hv hB P'.1 hb hv hB (R := R) (R' := R) (w := w) (by
        have := mul_nonneg (mul_nonneg q.le (sub_nonneg.mpr hR)) (sub_nonneg.mpr M); linarith)
    refine ⟨x, x', f, f', e, e', h1, h2, fun ⟨ha', hb'⟩ => h3 ?_⟩
    have := mul_pos (mul_pos q (sub_pos.mpr hb')) (sub_pos.mpr (S ha'))
    linarith
  · obtain ⟨x, x', f, f', e, e', h1, h2, h3⟩ := compare Ac beta B db nan Ac beta B db (fin d)
      dc hH hT hc hg one_pos hb hv hB P.1 hb hv hB (R := R) (R' := R) (w := w) (by
        have := mul_nonneg (mul_nonneg q.le (sub_nonneg.mpr hR)) (sub_nonneg.mpr P.2.le); linarith)
    refine ⟨x, x', f, f', e, e', h1, h2, fun hb' => h3 ?_⟩
    have := mul_pos (mul_pos q (sub_pos.mpr hb')) (sub_pos.mpr P.2)
    linarith

example := C100_vangent2025_stones 2 7 3 9.81 0.5 4 1 1.2 1 1 0.8 (fin 4) (fin 20) 0.0 0.0 true (by norm_num)
  (by norm_num) (by norm_num) (by norm_num) (by norm_num) (by norm_num) (by norm_num) (by norm_num) (by norm_num)
  (by norm_num) (by norm_num)

/-- a negative influence factor turns the formulas upside down -/
theorem FeatureProof.mirror {H T c g w R gf gb gv gB : ℝ} (Ac beta B db D : PF) (dc : Bool)
    (hH : 0 < H) (hT : 0 < T) (hc : 0 < c) (hf : 0 < gf) (hb : gb < 0) (hv : 0 < gv) (hB : 0 < gB) :
    (calculate_overtopping_discharge_q (fin H) (fin w) (fin T) (fin R) Ac (fin c) beta B db D (fin gf)
      (fin gb) (fin gv) (fin gB) (fin g) dc false).res =
    (calculate_overtopping_discharge_q (fin H) (fin w) (fin T) (fin (0.8 * w - R)) Ac (fin c) beta B db D (fin gf)
      (fin (-gb)) (fin gv) (fin gB) (fin g) dc false).res := by
  have hx := VdMProof.xi_pos hH hT hc
  have ex := VdMProof.xi_eval hH hT hc
  have hp := MoreOvertopping.rpow_pos' (y := (0.24 : ℝ)) hx
  have hb' : 0 < -gb := by linarith
  have ef : ∀ x : PF, friction_or_raise (fin H) (fin T) x (fin gf) = pure (fin gf) := fun x => by
    unfold friction_or_raise; simp
  have hm : ∀ {p : ℝ}, 0 < p → gf * gb * gv * gB * p * H ≠ 0 ∧ gf * (-gb) * gv * gB * p * H ≠ 0 := fun h =>
    ⟨by have := hb.ne; positivity, by positivity⟩
  have key : ∀ {p k : ℝ}, 0 < p → -k * (R - 0.4 * w) / (gf * gb * gv * gB * p * H) =
      -k * (0.8 * w - R - 0.4 * w) / (gf * (-gb) * gv * gB * p * H) := by
    intro p k h
    have e1 : gf * (-gb) * gv * gB * p * H = -(gf * gb * gv * gB * p * H) := by ring
    have e2 : -k * (0.8 * w - R - 0.4 * w) = -(-k * (R - 0.4 * w)) := by ring
    rw [e1, e2, neg_div_neg_eq]
  have e5 : (5.0 : PF) = fin 5 := by rw [sci_eq]; norm_num
  have E1 : PF.exp (-5.0 * (fin R - 0.4 * fin w) / (fin gf * fin gb * fin gv * fin gB * fin (VdMProof.xi H T c) * fin H)) =
      PF.exp (-5.0 * (fin (0.8 * w - R) - 0.4 * fin w) /
        (fin gf * fin (-gb) * fin gv * fin gB * fin (VdMProof.xi H T c) * fin H)) := by
    rw [e5]; simp only [sci_eq]
    simp only [mul_fin, sub_fin, neg_fin, div_fin (hm hx).1, div_fin (hm hx).2, exp_fin, key hx]
  have E2 : q_diml_max_equation (fin H) (fin w) (fin (VdMProof.xi H T c)) (fin c) (fin R) (fin gf) (fin gb) (fin gv)
      (fin gB) = q_diml_max_equation (fin H) (fin w) (fin (VdMProof.xi H T c)) (fin c) (fin (0.8 * w - R)) (fin gf)
        (fin (-gb)) (fin gv) (fin gB) := by
    unfold q_diml_max_equation
    simp only [sci_eq]
    rw [npow_fin hx]
    simp only [mul_fin, sub_fin, neg_fin, div_fin (hm hp).1, div_fin (hm hp).2, exp_fin, key hp]
  unfold calculate_overtopping_discharge_q calculate_dimensionless_overtopping_discharge_q
  dsimp only
  simp only [isnan_fin, if_false, ex, ef, pure_bind, bind_assoc]
  rw [PyM.bind_res_of_ok (check_res ..), PyM.bind_res_of_ok (check_res ..), E1, E2]
  rfl

/-- C100, refuted in general: the berm factor may become negative, also within the range of validity (see below);
then the berm gives more overtopping than no berm, and a higher crest more than a lower one -/
theorem C100_vangent2025_negative_factor_refuted (H T c g w a R R' db b gf gv gB : ℝ) (beta D : PF) (dc : Bool)
    (hH : 0 < H) (hT : 0 < T) (hc : 0 < c) (hg : 0 < g) (hf : 0 < gf) (hv : 0 < gv) (hB : 0 < gB)
    (hR : 0.4 * w < R) (hRR : R < R') (ha : 0 < a) (hdb : db ≤ a) (hb : 0 ≤ b)
    (hn : berm2025 (Textbook.steepness H T) (b / H) ((a - db) / a) < 0) :
    NoMore (calculate_overtopping_discharge_q (fin H) (fin w) (fin T) (fin R) (fin a) (fin c) beta (fin b) (fin db) D
        (fin gf) nan (fin gv) (fin gB) (fin g) dc false)
      (calculate_overtopping_discharge_q (fin H) (fin w) (fin T) (fin R) (fin a) (fin c) beta (fin 0) (fin db) D
        (fin gf) nan (fin gv) (fin gB) (fin g) dc false) True ∧
    NoMore (calculate_overtopping_discharge_q (fin H) (fin w) (fin T) (fin R') (fin a) (fin c) beta (fin b) (fin db) D
        (fin gf) nan (fin gv) (fin gB) (fin g) dc false)
      (calculate_overtopping_discharge_q (fin H) (fin w) (fin T) (fin R) (fin a) (fin c) beta (fin b) (fin db) D
        (fin gf) nan (fin gv) (fin gB) (fin g) dc false) True := by
  have e : berm2025 (Textbook.steepness H T) (0 / H) ((a - db) / a) = 1 := by
    unfold berm2025
    rw [zero_div, mul_zero, Real.zero_rpow (by norm_num)]; ring
  have q : 0 < gf * gv * gB := by positivity
  rw [berm_given _ _ _ _ _ _ _ _ _ _ _ hH hT ha le_rfl hdb, berm_given _ _ _ _ _ _ _ _ _ _ _ hH hT ha hb hdb,
    berm_given _ _ _ _ _ _ _ _ _ _ _ hH hT ha hb hdb, e]
  generalize berm2025 (Textbook.steepness H T) (b / H) ((a - db) / a) = G at *
  have hG : 0 < -G := by linarith
  have M := fun r => mirror (g := g) (w := w) (R := r) (fin a) beta (fin b) (fin db) D dc hH hT hc hf hn hv hB
  unfold NoMore
  rw [M R, M R']
  have u := sub_pos.mpr hR
  constructor
  · have k : (0.8 * w - R - 0.4 * w) * (gf * 1 * gv * gB) < (R - 0.4 * w) * (gf * -G * gv * gB) := by
      have h1 := mul_pos u q
      have h2 := mul_pos h1 hG
      linarith
    obtain ⟨x, x', f, f', e, e', h1, h2, h3⟩ := compare (fin a) beta (fin b) (fin db) D (fin a) beta (fin 0) (fin db)
      D dc hH hT hc hg hf hG hv hB hf one_pos hv hB k.le
    exact ⟨x, x', f, f', e, e', h1, h2, fun _ => h3 k⟩
  · have k : (0.8 * w - R' - 0.4 * w) * (gf * -G * gv * gB) < (0.8 * w - R - 0.4 * w) * (gf * -G * gv * gB) :=
      mul_lt_mul_of_pos_right (by linarith) (by positivity)
    obtain ⟨x, x', f, f', e, e', h1, h2, h3⟩ := compare (fin a) beta (fin b) (fin db) D (fin a) beta (fin b) (fin db)
      D dc hH hT hc hg hf hG hv hB hf hG hv hB k.le
    exact ⟨x, x', f, f', e, e', h1, h2, fun _ => h3 k⟩

/-- some period gives any steepness -/
theorem FeatureProof.exists_period {H s : ℝ} (hH : 0 < H) (hs : 0 < s) : ∃ T : ℝ, 0 < T ∧ Textbook.steepness H T = s := by
  have := Real.pi_pos
  refine ⟨√(2 * Real.pi * H / (9.81 * s)), by positivity, ?_⟩
  unfold Textbook.steepness
  rw [Real.sq_sqrt (by positivity)]
  field_simp

theorem FeatureProof.warns_q (H w T R A c be B d D gf gb gv gB g : PF) (dc wd : Bool) :
    (calculate_overtopping_discharge_q H w T R A c be B d D gf gb gv gB g dc wd).warns =
      (calculate_dimensionless_overtopping_discharge_q H w T R A c be B d D gf gb gv gB dc wd).warns := by
  unfold calculate_overtopping_discharge_q
  generalize calculate_dimensionless_overtopping_discharge_q H w T R A c be B d D gf gb gv gB dc wd = m
  obtain ⟨ws, r⟩ := m
  cases r <;> simp [bind, PyM.andThen, pure]

theorem FeatureProof.silent {H T c R a b db : ℝ} (w gf gb gv gB g : PF) (dc wd : Bool) (hH : 0 < H) (hT : 0 < T)
    (hc : 1.5 ≤ c) (hc' : c ≤ 8) (hs : 0.001 ≤ Textbook.steepness H T) (hs' : Textbook.steepness H T ≤ 0.042)
    (hx : 0.05 ≤ Textbook.iribarren H T c) (hx' : Textbook.iribarren H T c ≤ 6)
    (hR : 0.6 ≤ R / H) (hR' : R / H ≤ 5) (ha : 0 ≤ (R - a) / H) (ha' : (R - a) / H ≤ 0.68)
    (hb : 0.6 ≤ b / H) (hb' : b / H ≤ 5) (hd : -1.7 ≤ db / H) (hd' : db / H ≤ 0.5) :
    (calculate_overtopping_discharge_q (fin H) w (fin T) (fin R) (fin a) (fin c) (fin 0) (fin b) (fin db)
      (fin (H / 2)) gf gb gv gB g dc wd).warns = [] := by
  rw [warns_q]
  refine (RangeOvertoppingMore.C60_vangent2025_partial w gf gb gv gB dc wd hH hT
    (lt_of_lt_of_le (by norm_num) hc)).silent ?_
  have hH2 : H / 2 / H = 0.5 := by field_simp; norm_num
  intro l hl
  simp only [List.mem_cons, List.not_mem_nil, or_false] at hl
  rcases hl with rfl | rfl | rfl | rfl | rfl | rfl | rfl | rfl | rfl <;>
    simp only [Limit.Violated, sci_eq, neg_fin, lt_fin, not_or, not_lt, hH2] <;>
    constructor <;> norm_num <;> norm_num at * <;> linarith

/-- C100: both refutations of berms within the range of validity, without any warning: a berm of 8 m instead of 2 m
at the water level, and a berm of 10 m near the crest instead of one of 2 m -/
theorem C100_vangent2025_berm_in_range_refuted :
    (∃ (T : ℝ) (call : ℝ → PyM (PF × Bool)), (call = fun b => calculate_overtopping_discharge_q (fin 2) (fin 0) (fin T) (fin 4) (fin 4)
        (fin 3) (fin 0) (fin b) (fin 0) (fin (2 / 2)) (fin 0.5) nan (fin 1) (fin 1)) ∧
      (call 2).warns = [] ∧ (call 8).warns = [] ∧ NoMore (call 8) (call 2) True) ∧
    (∃ (T : ℝ) (call : ℝ → PyM (PF × Bool)), (call = fun R => calculate_overtopping_discharge_q (fin 2) (fin 0) (fin T) (fin R) (fin 1.2)
        (fin 3) (fin 0) (fin 10) (fin 1) (fin (2 / 2)) (fin 0.5) nan (fin 1) (fin 1)) ∧
      (call 1.2).warns = [] ∧ (call 2).warns = [] ∧ NoMore (call 2) (call 1.2) True) := by
  have g9 : (9.81 : PF) = fin 9.81 := sci_eq ..
  constructor
  · obtain ⟨T, hT, hs⟩ := exists_period (H := 2) (s := 0.004) (by norm_num) (by norm_num)
    have hx : 0.05 ≤ Textbook.iribarren 2 T 3 ∧ Textbook.iribarren 2 T 3 ≤ 6 := by
      unfold Textbook.iribarren
      rw [hs]
      have h1 : (0.06 : ℝ) ≤ √0.004 := Real.le_sqrt_of_sq_le (by norm_num)
      have h2 : √0.004 ≤ (0.1 : ℝ) := Real.sqrt_le_iff.mpr ⟨by norm_num, by norm_num⟩
      constructor
      · rw [le_div_iff₀ (by linarith)]; linarith
      · rw [div_le_iff₀ (by linarith)]; linarith
    refine ⟨T, _, rfl, ?_, ?_, ?_⟩
    · apply silent _ _ _ _ _ _ _ _ _ hT _ _ (by rw [hs]; norm_num) (by rw [hs]; norm_num) hx.1 hx.2 <;> norm_num
    · apply silent _ _ _ _ _ _ _ _ _ hT _ _ (by rw [hs]; norm_num) (by rw [hs]; norm_num) hx.1 hx.2 <;> norm_num
    · rw [g9]
      exact C100_vangent2025_berm_refuted 2 T 3 9.81 0 4 4 0 2 8 0.5 1 1 _ _ _ (by norm_num) hT (by norm_num)
        (by norm_num) (by norm_num) (by norm_num) (by norm_num) (by norm_num) (by norm_num) (by norm_num)
        (by norm_num) (by norm_num) (by rw [hs]; norm_num)
  · obtain ⟨T, hT, hs⟩ := exists_period (H := 2) (s := 0.04) (by norm_num) (by norm_num)
    have hx : 0.05 ≤ Textbook.iribarren 2 T 3 ∧ Textbook.iribarren 2 T 3 ≤ 6 := by
      unfold Textbook.iribarren
      rw [hs]
      have h1 : √0.04 = (0.2 : ℝ) := by
        rw [show (0.04 : ℝ) = 0.2 ^ 2 by norm_num, Real.sqrt_sq (by norm_num)]
      rw [h1]
      norm_num
    refine ⟨T, _, rfl, ?_, ?_, ?_⟩
    · apply silent _ _ _ _ _ _ _ _ _ hT _ _ (by rw [hs]; norm_num) (by rw [hs]; norm_num) hx.1 hx.2 <;> norm_num
    · apply silent _ _ _ _ _ _ _ _ _ hT _ _ (by rw [hs]; norm_num) (by rw [hs]; norm_num) hx.1 hx.2 <;> norm_num
    · rw [g9]
      refine (C100_vangent2025_negative_factor_refuted 2 T 3 9.81 0 1.2 1.2 2 1 10 0.5 1 1 _ _ _ (by norm_num) hT
        (by norm_num) (by norm_num) (by norm_num) (by norm_num) (by norm_num) (by norm_num) (by norm_num)
        (by norm_num) (by norm_num) (by norm_num) ?_).2
      rw [hs]
      unfold berm2025
      have h1 : (0.12 : ℝ) ≤ (0.04 * (10 / 2)) ^ (1.3 : ℝ) := by
        have e : ((0.04 : ℝ) * (10 / 2)) ^ (1.3 : ℝ) = (0.2 ^ 13) ^ (0.1 : ℝ) := by
          rw [← Real.rpow_natCast, ← Real.rpow_mul (by norm_num)]; norm_num
        have e' : (0.12 : ℝ) = (0.12 ^ 10) ^ (0.1 : ℝ) := by
          rw [← Real.rpow_natCast, ← Real.rpow_mul (by norm_num)]; norm_num
        rw [e, e']
        exact Real.rpow_le_rpow (by norm_num) (by norm_num) (by norm_num)
      have h2 : (((1.2 : ℝ) - 1) / 1.2 / 0.04) ^ (0.2 : ℝ) ≤ 1.34 := by
        have e' : (1.34 : ℝ) = (1.34 ^ 5) ^ (0.2 : ℝ) := by
          rw [← Real.rpow_natCast, ← Real.rpow_mul (by norm_num)]; norm_num
        rw [e']
        exact Real.rpow_le_rpow (by norm_num) (by norm_num) (by norm_num)
      generalize ((0.04 : ℝ) * (10 / 2)) ^ (1.3 : ℝ) = p at *
      generalize (((1.2 : ℝ) - 1) / 1.2 / 0.04) ^ (0.2 : ℝ) = m at *
      nlinarith [mul_nonneg (sub_nonneg.mpr h1) (sub_nonneg.mpr h2)]

/-- a berm of 8 m instead of none in waves of 5 % of the wave length -/
example : ∃ T : ℝ, NoMore
    (calculate_overtopping_discharge_q (fin 2) (fin 0) (fin T) (fin 4) (fin 4) (fin 3) (fin 0) (fin 0) (fin 0)
      nan (fin 0.5) nan (fin 1) (fin 1) (fin 9.81))
    (calculate_overtopping_discharge_q (fin 2) (fin 0) (fin T) (fin 4) (fin 4) (fin 3) (fin 0) (fin 2) (fin 0)
      nan (fin 0.5) nan (fin 1) (fin 1) (fin 9.81)) True := by
  obtain ⟨T, hT, hs⟩ := exists_period (H := 2) (s := 0.05) (by norm_num) (by norm_num)
  obtain ⟨x, x', f, f', e, e', h1, h2, h3⟩ := C100_vangent2025_berm_partial 2 T 3 9.81 0 4 4 0 0 2 0.5 1 1 (fin 0) nan
    true (by norm_num) hT (by norm_num) (by norm_num) (by norm_num) (by norm_num) (by norm_num) (by norm_num)
    (by norm_num) (by norm_num) (by norm_num) (by norm_num) (by rw [hs]; norm_num) (by
      rw [hs]
      unfold berm2025
      have h1 : ((0.05 : ℝ) * (2 / 2)) ^ (1.3 : ℝ) ≤ 0.05 := by
        have := Real.rpow_le_rpow_of_exponent_ge (x := (0.05 : ℝ)) (y := 1.3) (z := 1) (by norm_num) (by norm_num)
          (by norm_num)
        norm_num at this ⊢; exact this
      have h0 : 0 ≤ ((0.05 : ℝ) * (2 / 2)) ^ (1.3 : ℝ) := Real.rpow_nonneg (by norm_num) _
      have h2 : 0 ≤ (((4 : ℝ) - 0) / 4 / 0.05) ^ (0.2 : ℝ) := Real.rpow_nonneg (by norm_num) _
      generalize ((0.05 : ℝ) * (2 / 2)) ^ (1.3 : ℝ) = p at *
      generalize (((4 : ℝ) - 0) / 4 / 0.05) ^ (0.2 : ℝ) = m at *
      nlinarith [mul_nonneg h0 h2])
  exact ⟨T, x, x', f, f', e, e', h1, h2, fun _ => h3 ⟨by norm_num, by norm_num, by rw [hs]; norm_num⟩⟩

end

section
open VanGent2021Caisson Published

/-- C100: a parapet on a caisson gives less overtopping, for both exponents of Van Gent (2021), whatever the
angle of the waves (except along the caisson, where the parapet has no effect) -/
theorem C100_caisson_parapet (H R w cw g β c : ℝ) (sc cs : Bool) (hH : 0 < H) (hg : 0 < g) (hc : c = 1 ∨ c = 1.3)
    (hs : (sc || cs) = true) (hR : (if cs then cw else 0) * w ≤ R) :
    NotLess (calculate_overtopping_discharge_q (fin H) (fin R) (fin β) nan (fin w) (fin c) (fin cw) sc cs true (fin g))
      (calculate_overtopping_discharge_q (fin H) (fin R) (fin β) nan (fin w) (fin c) (fin cw) sc cs false (fin g))
      ((if cs then cw else 0) * w < R ∧ Real.cos (β * (Real.pi / 180)) ≠ 0) := by
  obtain ⟨a, b, cb, gp, ht, ht', hcb, hlt, hp1, hb, ha⟩ : ∃ a b cb gp : ℝ, (c, true, true, a, b, cb, gp) ∈ caissonTable ∧
      (c, true, false, a, b, cb, 1) ∈ caissonTable ∧ 0 < cb ∧ cb < gp ∧ gp < 1 ∧ 0 < b ∧ 0 < a := by
    unfold caissonTable
    rcases hc with rfl | rfl
    · exact ⟨0.2, 3.9, 0.75, 0.89, by simp, by simp, by norm_num, by norm_num, by norm_num, by norm_num, by norm_num⟩
    · exact ⟨0.047, 2.57, 0.70, 0.85, by simp, by simp, by norm_num, by norm_num, by norm_num, by norm_num, by norm_num⟩
  have hgp := hcb.trans hlt
  have C0 := sq_nonneg (Real.cos (β * (Real.pi / 180)))
  have r0 : ∀ {p : ℝ}, cb < p → obliqueCos (cb / p) β * p = (p - cb) * Real.cos (β * (Real.pi / 180)) ^ 2 + cb ∧
      0 < obliqueCos (cb / p) β := by
    intro p hp
    have p0 := hcb.trans hp
    have e : obliqueCos (cb / p) β * p = (p - cb) * Real.cos (β * (Real.pi / 180)) ^ 2 + cb := by
      unfold obliqueCos; field_simp
    refine ⟨e, pos_of_mul_pos_left (b := p) ?_ p0.le⟩
    rw [e]
    have := mul_nonneg (sub_nonneg.mpr hp.le) C0
    linarith
  obtain ⟨x, x0, e, hx⟩ := C78_caisson_discharge_partial H g w cw c a b cb gp true sc cs true hH hg ht hs R _ (fin β)
    nan (r0 hlt).2 (Or.inr ⟨rfl, β, rfl, rfl⟩) (Or.inr hR)
  obtain ⟨x', x0', e', hx'⟩ := C78_caisson_discharge_partial H g w cw c a b cb 1 true sc cs false hH hg ht' hs R _
    (fin β) nan (r0 (hlt.trans hp1)).2 (Or.inr ⟨rfl, β, rfl, rfl⟩) (Or.inr hR)
  have hS : 0 < √(g * H ^ 3) := by positivity
  unfold caisson at hx hx'
  rw [(r0 hlt).1] at hx
  rw [(r0 (hlt.trans hp1)).1] at hx'
  have ey : R / H - (if cs then cw else 0) * (w / H) = (R - (if cs then cw else 0) * w) / H := by ring
  rw [ey] at hx hx'
  have y0 : 0 ≤ ((R - (if cs then cw else 0) * w) / H) ^ c :=
    Real.rpow_nonneg (div_nonneg (by linarith) hH.le) _
  have y1 : (if cs then cw else 0) * w < R → 0 < ((R - (if cs then cw else 0) * w) / H) ^ c := fun h =>
    Real.rpow_pos_of_pos (div_pos (by linarith) hH) _
  generalize ((R - (if cs then cw else 0) * w) / H) ^ c = y at *
  have C1 : Real.cos (β * (Real.pi / 180)) ≠ 0 → 0 < Real.cos (β * (Real.pi / 180)) ^ 2 := fun h => by positivity
  generalize Real.cos (β * (Real.pi / 180)) ^ 2 = C at *
  have d0 : 0 < (gp - cb) * C + cb := by have := mul_nonneg (sub_nonneg.mpr hlt.le) C0; linarith
  have dd : (gp - cb) * C + cb ≤ (1 - cb) * C + cb := by have := mul_nonneg (sub_nonneg.mpr hp1.le) C0; linarith
  refine ⟨x, x', e, e', ?_, fun ⟨h1, h2⟩ => ?_⟩
  · rw [← div_le_div_iff_of_pos_right hS, hx, hx']
    refine mul_le_mul_of_nonneg_left (Real.exp_le_exp.mpr ?_) ha.le
    have := mul_le_mul_of_nonneg_right (div_le_div_of_nonneg_left hb.le d0 dd) y0
    linarith
  · rw [← div_lt_div_iff_of_pos_right hS, hx, hx']
    refine mul_lt_mul_of_pos_left (Real.exp_lt_exp.mpr ?_) ha
    have dd' : (gp - cb) * C + cb < (1 - cb) * C + cb := by have := mul_pos (sub_pos.mpr hp1) (C1 h2); linarith
    have := mul_lt_mul_of_pos_right (div_lt_div_of_pos_left hb d0 dd') (y1 h1)
    linarith

example := C100_caisson_parapet 2 4 0.5 0.4 9.81 30 1.3 true true (by norm_num) (by norm_num) (Or.inr rfl) rfl
  (by norm_num)
end

section
open OvertoppingTaw2002

/-- C100 (missing: berms, and rough slopes with Iribarren numbers above 10): a wall on the crest of a dike, with
the wall factor of TAW (2002) computed for its angle, never gives more overtopping or a higher crest -/
theorem C100_taw_wall_partial (H T c gf gB α R s g q : ℝ) (beta B db : PF) (bf : Bool) (hH : 0 < H) (hT : 0 < T)
    (hc : 0 < c) (hf : 0.18 ≤ gf) (hf1 : gf ≤ 1) (hB : 0 < gB) (hr : gf = 1 ∨ Textbook.iribarren H T c ≤ 10)
    (hα : α ≤ 90) (hR : 0 ≤ R) (hs : s = 0 ∨ bf = true) (hs7 : -7 ≤ s) (hg : 0 < g) (hq : 0 < q) :
    (∃ (q q' : ℝ) (f f' : Bool), 0 < q ∧ q ≤ q' ∧
      (calculate_overtopping_discharge_q (fin H) (fin T) (fin R) (fin c) nan nan beta B db (fin gB) (fin 1) (fin gf)
        (calculate_influence_crest_wall_gamma_v (fin α)) (fin s) (fin g) bf).res = .ok (fin q, f) ∧
      (calculate_overtopping_discharge_q (fin H) (fin T) (fin R) (fin c) nan nan beta B db (fin gB) (fin 1) (fin gf)
        (fin 1) (fin s) (fin g) bf).res = .ok (fin q', f')) ∧
    ∃ (R R' : ℝ) (f f' : Bool), (0 ≤ R' → R ≤ R') ∧
      (calculate_crest_freeboard_Rc (fin H) (fin T) (fin q) (fin c) nan nan beta B db (fin gB) (fin 1) (fin gf)
        (calculate_influence_crest_wall_gamma_v (fin α)) (fin s) (use_best_fit := bf)).res = .ok (fin R, f) ∧
      (calculate_crest_freeboard_Rc (fin H) (fin T) (fin q) (fin c) nan nan beta B db (fin gB) (fin 1) (fin gf)
        (fin 1) (fin s) (use_best_fit := bf)).res = .ok (fin R', f') := by
  obtain ⟨v, ev, v0, v1⟩ : ∃ v : ℝ, calculate_influence_crest_wall_gamma_v (fin α) = fin v ∧ 0 < v ∧ v ≤ 1 := by
    unfold calculate_influence_crest_wall_gamma_v
    have e45 : (45 : PF) = fin 45 := ofNat_eq 45
    rw [e45]
    simp only [sci_eq, mul_fin, sub_fin]
    by_cases h : α ≤ 45
    · rw [whr_true ((le_fin _ _).mpr h)]; exact ⟨_, rfl, by norm_num, by norm_num⟩
    · rw [whr_false (by rwa [le_fin])]
      push Not at h
      exact ⟨_, rfl, by norm_num; linarith, by norm_num; linarith⟩
  rw [ev]
  exact ⟨C80_taw_overtopping_partial H H T T c c gf gf gB gB hH le_rfl hT le_rfl hc le_rfl hf le_rfl hf1 hB le_rfl hr
      hr v 1 R R s g beta B db bf v0 v1 hR le_rfl hs hs7 hg,
    C80_taw_freeboard_partial H H T T c c gf gf gB gB hH le_rfl hT le_rfl hc le_rfl hf le_rfl hf1 hB le_rfl hr
      hr v 1 q s beta B db bf v0 v1 hq hs hs7⟩

example := C100_taw_wall_partial 2 6 3 1 0.9 60 2 0 9.81 0.01 (fin 20) (fin 0) (fin 0) false (by norm_num)
  (by norm_num) (by norm_num) (by norm_num) (by norm_num) (by norm_num) (Or.inl rfl) (by norm_num) (by norm_num)
  (Or.inl rfl) (by norm_num) (by norm_num) (by norm_num)
end
end
