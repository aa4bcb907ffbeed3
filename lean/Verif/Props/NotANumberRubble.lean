import Verif.SpecWarned
import Verif.Props.OvertoppingEur
import Verif.Props.RangeHydraulics
import Verif.Props.NotANumberSilent

/-! # C103: EurOtop (2018) rubble mounds, crests below the water and discharges beyond the maximum -/

open Classical
open PF CoreUtility CorePhysics
open OvertoppingEurOtop2018
noncomputable section

open OvertoppingEurProofs TwoFormulas
open OvertoppingTaw2002 (Sc Sc_pos)
open NumberProof (eq_silent ok_limit)

theorem NumberProof.steep_ok {n : String} {c : ℝ} (h1 : 4 / 3 ≤ c) (h2 : c ≤ 2) :
    ∀ l ∈ [(⟨n, fin c, 4.0 / 3.0, 2.0⟩ : Limit)], ¬ l.Violated := by
  intro l hl
  rw [List.mem_singleton] at hl
  rw [hl, show (4.0 / 3.0 : PF) = fin (4 / 3) by pf_eval []; norm_num, show (2.0 : PF) = fin 2 by pf_eval []; norm_num]
  exact ok_limit h1 h2

/-- C103 refuted: a rubble mound with its crest below the still water level, of any slope in the range, has the discharge
NaN by EurOtop (2018), without a warning -/
theorem C103_eurotop2018_rubble_refuted {H T R c gf c2 c3 g B db : ℝ} {beta : PF} {bf : Bool} (hH : 0 < H) (hT : 0 < T)
    (hc : 4 / 3 ≤ c) (hc' : c ≤ 2) (hf : 0 < gf) (hf1 : gf ≤ 1) (h2 : 0 < c2) (h3 : 0 < c3) (hB : 0 ≤ B)
    (hb : ¬ beta.isnan) (hg : 0 < g) (hR : R < 0) :
    SilentlyNotANumber (calculate_overtopping_discharge_q_rubble_mound (fin H) (fin T) (fin R) beta nan (fin gf) (fin B)
      (fin db) (fin c) nan nan (fin c2) (fin c3) bf (fin g)) := by
  have hc0 : 0 < c := by linarith
  obtain ⟨gB', gb', hB0, -, -, -, hp, -⟩ :=
    pre_straight (gf := gf) (db := db) (gB' := nan) bf hH hT hc0 hB (Or.inl rfl) (Or.inr hb)
  have hp' := hp
  rw [pre_single] at hp'
  obtain ⟨A, k, hA, hk, hq, -⟩ := rubble hH hf hf1 h2 h3 (Or.inl rfl) hp hp'
  refine eq_silent ((RangeHydraulics.C60_eurotop2018_rubble _ _ _ _ _ _ _ _ _ _ hb).silent (NumberProof.steep_ok hc hc')) ?_
  rw [hq R g hg, if_neg (not_le.mpr hR)]

/-- the crest of a breakwater half a metre under water -/
example := C103_eurotop2018_rubble_refuted (H := 2) (T := 7) (R := -0.5) (c := 1.5) (gf := 0.4) (c2 := 0.1035) (c3 := 1.35)
  (g := 9.81) (B := 0) (db := 0) (beta := fin 20) (bf := false) (by norm_num) (by norm_num) (by norm_num) (by norm_num)
  (by norm_num) (by norm_num) (by norm_num) (by norm_num) (by norm_num) (by simp) (by norm_num) (by norm_num)

/-- C103 refuted: every discharge larger than that over a crest at the water level has the freeboard NaN, without a warning -/
theorem C103_eurotop2018_rubble_freeboard_refuted {H T c gf c2 c3 g B db q q0 : ℝ} {beta : PF} {bf : Bool} (hH : 0 < H)
    (hT : 0 < T) (hc : 4 / 3 ≤ c) (hc' : c ≤ 2) (hf : 0 < gf) (hf1 : gf ≤ 1) (h2 : 0 < c2) (h3 : 0 < c3) (hB : 0 ≤ B)
    (hb : ¬ beta.isnan) (hg : 0 < g)
    (h0 : (calculate_overtopping_discharge_q_rubble_mound (fin H) (fin T) (fin 0) beta nan (fin gf) (fin B)
      (fin db) (fin c) nan nan (fin c2) (fin c3) bf (fin g)).res = .ok (fin q0)) (hq0 : q0 < q) :
    SilentlyNotANumber (calculate_crest_freeboard_Rc_rubble_mound (fin H) (fin T) (fin q) beta nan (fin gf) (fin B)
      (fin db) (fin c) nan nan (fin c2) (fin c3) bf (fin g)) := by
  have hc0 : 0 < c := by linarith
  obtain ⟨gB', gb', hB0, -, -, -, hp, -⟩ :=
    pre_straight (gf := gf) (db := db) (gB' := nan) bf hH hT hc0 hB (Or.inl rfl) (Or.inr hb)
  have hp' := hp
  rw [pre_single] at hp'
  obtain ⟨A, k, hA, hk, hq, hR⟩ := rubble hH hf hf1 h2 h3 (Or.inl rfl) hp hp'
  have hS := Sc_pos hg hH
  rw [hq 0 g hg, if_pos le_rfl] at h0
  have h0' : F A k 0 * Sc g H = q0 := by simpa using h0
  have hF : F A k 0 = A := by
    unfold F
    rw [mul_zero, Real.zero_rpow (by norm_num)]
    simp
  rw [hF] at h0'
  have hqp : 0 < q := lt_trans (by rw [← h0']; positivity) hq0
  refine eq_silent ((RangeHydraulics.C60_eurotop2018_rubble_freeboard _ _ _ _ _ _ _ _ _ _ hb).silent
    (NumberProof.steep_ok hc hc')) ?_
  rw [hR q g hqp hg, if_neg (not_le.mpr (by rw [lt_div_iff₀ hS, h0']; exact hq0))]

/-- there is such a discharge -/
example : ∃ q : ℝ, SilentlyNotANumber (calculate_crest_freeboard_Rc_rubble_mound (fin 2) (fin 7) (fin q) (fin 20) nan
    (fin 0.4) (fin 0) (fin 0) (fin 1.5) nan nan (fin 0.1035) (fin 1.35) false (fin 9.81)) := by
  obtain ⟨q0, -, h⟩ := C52_rubble_returns 2 7 0 1.5 0.4 0.1035 1.35 9.81 0 0 (fin 20) nan false
    (by norm_num) (by norm_num) (by norm_num) (by norm_num) (by norm_num) (by norm_num) (by norm_num)
    (by norm_num) (Or.inl rfl) (Or.inr (by simp)) (by norm_num) (by norm_num)
  exact ⟨q0 + 1, C103_eurotop2018_rubble_freeboard_refuted (by norm_num) (by norm_num) (by norm_num) (by norm_num)
    (by norm_num) (by norm_num) (by norm_num) (by norm_num) (by norm_num) (by simp) (by norm_num) h (by linarith)⟩

/-- C103: with the crest at or above the water level the discharge of a rubble mound is a number -/
theorem C103_eurotop2018_rubble_above {H T R c gf c2 c3 g B db : ℝ} {beta gB : PF} {bf : Bool} (hH : 0 < H) (hT : 0 < T)
    (hc : 0 < c) (hf : 0 < gf) (hf1 : gf ≤ 1) (h2 : 0 < c2) (h3 : 0 < c3) (hB : 0 ≤ B) (hgB : OmittedOr (0 < ·) gB)
    (hgiven : ¬ gB.isnan ∨ ¬ beta.isnan) (hg : 0 < g) (hR : 0 ≤ R) :
    NoNumberIsReported (calculate_overtopping_discharge_q_rubble_mound (fin H) (fin T) (fin R) beta gB (fin gf) (fin B)
      (fin db) (fin c) nan nan (fin c2) (fin c3) bf (fin g)) := by
  obtain ⟨q, -, h⟩ := C52_rubble_returns H T R c gf c2 c3 g B db beta gB bf hH hT hc hf hf1 h2 h3 hB hgB hgiven hg hR
  intro v hv hn
  rw [h] at hv
  cases hv
  exact absurd rfl (hn q)

example := C103_eurotop2018_rubble_above (H := 2) (T := 7) (R := 3) (c := 1.5) (gf := 0.4) (c2 := 0.1035) (c3 := 1.35)
  (g := 9.81) (B := 0) (db := 0) (beta := fin 20) (gB := nan) (bf := false) (by norm_num) (by norm_num) (by norm_num)
  (by norm_num) (by norm_num) (by norm_num) (by norm_num) (by norm_num) (Or.inl rfl) (Or.inr (by simp)) (by norm_num)
  (by norm_num)

end
