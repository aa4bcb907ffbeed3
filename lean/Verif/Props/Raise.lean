import Verif.SpecRaise
import Verif.Props.OvertoppingTaw
import Verif.Props.OvertoppingEur
import Verif.Props.FormulasOvertopping
import Verif.Props.FormulasOvertoppingMore
import Mathlib.Analysis.Convex.SpecificFunctions.Basic

/-! # Property C99: raising the crest pays -/

open Classical
open PF
noncomputable section

namespace RaiseProof

/-- positive with a concave logarithm -/
structure LC (s : Set ℝ) (F : ℝ → ℝ) : Prop where
  pos : ∀ x ∈ s, 0 < F x
  con : ConcaveOn ℝ s fun x => Real.log (F x)

variable {s : Set ℝ} {F G : ℝ → ℝ}

theorem LC.congr (h : LC s F) (e : ∀ x ∈ s, G x = F x) : LC s G where
  pos x hx := by rw [e x hx]; exact h.pos x hx
  con := h.con.congr fun x hx => by rw [e x hx]

theorem LC.min (h : LC s F) (h' : LC s G) : LC s fun x => F x ⊓ G x where
  pos x hx := lt_inf_iff.mpr ⟨h.pos x hx, h'.pos x hx⟩
  con := (h.con.inf h'.con).congr fun x hx => by
    have a := h.pos x hx
    have b := h'.pos x hx
    simp only [Pi.inf_apply]
    rcases le_total (F x) (G x) with i | i
    · rw [inf_eq_left.mpr i, inf_eq_left.mpr (Real.log_le_log a i)]
    · rw [inf_eq_right.mpr i, inf_eq_right.mpr (Real.log_le_log b i)]

theorem LC.cmul {v : ℝ} (hv : 0 < v) (h : LC s F) : LC s fun x => v * F x where
  pos x hx := mul_pos hv (h.pos x hx)
  con := (h.con.add_const (Real.log v)).congr fun x hx => by
    have := h.pos x hx
    simp only [Pi.add_apply]
    rw [Real.log_mul hv.ne' this.ne', add_comm]

theorem LC.mulc {v : ℝ} (hv : 0 < v) (h : LC s F) : LC s fun x => F x * v :=
  (h.cmul hv).congr fun _ _ => mul_comm _ _

theorem LC.rpow {p : ℝ} (hp : 0 ≤ p) (h : LC s F) : LC s fun x => F x ^ p where
  pos x hx := Real.rpow_pos_of_pos (h.pos x hx) p
  con := (h.con.smul hp).congr fun x hx => by
    have := h.pos x hx
    simp only [smul_eq_mul]
    rw [Real.log_rpow this]

theorem LC.exp {f : ℝ → ℝ} (h : ConcaveOn ℝ s f) : LC s fun x => Real.exp (f x) where
  pos _ _ := Real.exp_pos _
  con := h.congr fun x _ => by rw [Real.log_exp]

theorem LC.lin (hs : Convex ℝ s) (k m : ℝ) : LC s fun x => Real.exp (k * x + m) := by
  refine LC.exp ⟨hs, fun x _ y _ a b _ _ hab => ?_⟩
  simp only [smul_eq_mul]
  have : m = (a + b) * m := by rw [hab, one_mul]
  nlinarith

theorem pays {q : ℝ → ℝ → Prop} (hs : ∀ x ∈ s, ∀ y, x ≤ y → y ∈ s) (h : LC s F) (e : ∀ x ∈ s, q x (F x)) :
    FurtherRaisesPay q (· ∈ s) := by
  intro x y d hx hxy hd
  have h1 := hs x hx (x + d) (by linarith)
  have h2 := hs x hx y hxy
  have h3 := hs x hx (y + d) (by linarith)
  refine ⟨_, _, _, _, h.pos _ hx, h.pos _ h1, h.pos _ h2, h.pos _ h3, e _ hx, e _ h1, e _ h2, e _ h3, ?_⟩
  rw [div_le_div_iff₀ (h.pos _ h2) (h.pos _ hx), ← Real.log_le_log_iff (mul_pos (h.pos _ h3) (h.pos _ hx))
    (mul_pos (h.pos _ h1) (h.pos _ h2)), Real.log_mul (h.pos _ h3).ne' (h.pos _ hx).ne',
    Real.log_mul (h.pos _ h1).ne' (h.pos _ h2).ne']
  rcases hd.eq_or_lt with rfl | hd
  · simp only [add_zero]; linarith
  have hL : 0 < y + d - x := by linarith
  have p1 : 0 ≤ (y - x) / (y + d - x) := div_nonneg (by linarith) hL.le
  have p2 : 0 ≤ d / (y + d - x) := div_nonneg hd.le hL.le
  have c1 := h.con.2 hx h3 p1 p2 (by field_simp; ring)
  have c2 := h.con.2 hx h3 p2 p1 (by field_simp; ring)
  simp only [smul_eq_mul] at c1 c2
  have e1 : (y - x) / (y + d - x) * x + d / (y + d - x) * (y + d) = x + d := by field_simp; ring
  have e2 : d / (y + d - x) * x + (y - x) / (y + d - x) * (y + d) = y := by field_simp; ring
  have e3 : (y - x) / (y + d - x) = 1 - d / (y + d - x) := by field_simp; ring
  rw [e1] at c1
  rw [e2] at c2
  rw [e3] at c1 c2
  nlinarith

theorem same {q : ℝ → ℝ → Prop} {A k : ℝ} (hA : 0 < A) (e : ∀ x, q x (A * Real.exp (k * x))) :
    EachRaisePaysTheSame q := by
  intro x y d
  refine ⟨_, _, _, _, by positivity, by positivity, by positivity, by positivity, e _, e _, e _, e _, ?_⟩
  rw [mul_div_mul_left _ _ hA.ne', mul_div_mul_left _ _ hA.ne', ← Real.exp_sub, ← Real.exp_sub]
  congr 1
  ring

end RaiseProof
open RaiseProof

/-! ## TAW (2002) and EurOtop (2007, 2018) -/
section
open OvertoppingTaw2002 TwoFormulas

/-- C99, TAW (2002): every combination of options for which a discharge is returned -/
theorem C99_taw2002 (H T R gf gv s g : ℝ) (cot cd cu beta B db gB gb : PF)
    (bf : Bool) (hH : 0 < H) (hT : 0 < T) (hf : 0 < gf) (hf1 : gf ≤ 1) (hv : 0 < gv) (hgB : OmittedOr (0 < ·) gB)
    (hgb : OmittedOr (fun r => 0 < r ∧ r ≤ 1) gb) (hg : 0 < g) (q : ℝ) (m : Bool)
    (h : (calculate_overtopping_discharge_q (fin H) (fin T) (fin R) cot cd cu beta B db gB gb
      (fin gf) (fin gv) (fin s) (fin g) bf).res = .ok (fin q, m)) :
    FurtherRaisesPay (OvertopsWithFlag fun R => calculate_overtopping_discharge_q (fin H) (fin T) R cot cd cu beta B db
      gB gb (fin gf) (fin gv) (fin s) (fin g) bf) fun _ => True := by
  obtain ⟨hs0, gB', c, gb', hB, hc, hb, hb1, hp⟩ := q_inv hH hT hgB hgb h
  have hS := Sc_pos hg hH
  have hA := A1_pos hH hT hc hb
  have lc : ∀ {A k : ℝ}, 0 < A → LC Set.univ (E A k) := fun {A k} hA =>
    ((LC.lin convex_univ (-k) 0).cmul hA).congr fun x _ => by unfold E; rw [add_zero, neg_mul]
  have key : ∀ x : ℝ, ∃ m : Bool, (calculate_overtopping_discharge_q (fin H) (fin T) (fin x) cot cd cu beta B db gB gb
      (fin gf) (fin gv) (fin s) (fin g) bf).res = .ok (fin ((E (A1 H T c gb') (d1 H T c gb' gf gB' gv (k1 s bf)) x ⊓
        E 0.2 (d3 H T c gb' gf gB' (k3 s bf)) x) * Sc g H), m) := by
    intro x
    unfold calculate_overtopping_discharge_q
    rw [PyM.bind_res_of_ok (q_res hH hT hs0 hf hf1 hv hB hc hb hb1 hp)]
    dsimp only
    rw [Sc_eval hg hH, mul_fin]
    exact ⟨_, rfl⟩
  exact pays (s := Set.univ) (fun _ _ _ _ => trivial) (((lc hA).min (lc (A := 0.2) (by norm_num))).mulc hS)
    fun x _ => key x
end

section
open OvertoppingEurOtop2007 TwoFormulas
open OvertoppingTaw2002 (Sc Sc_pos Sc_eval)

/-- C99, EurOtop (2007), rubble mounds: each raise by the same height pays the same -/
theorem C99_eurotop2007 (H gf c2 c3 g : ℝ) (T beta gB cot : PF) (bf : Bool)
    (hH : 0 < H) (hf : 0 < gf) (hf1 : gf ≤ 1) (h2 : 0 < c2) (h3 : 0 < c3)
    (hgB : OmittedOr (0 < ·) gB) (hgv : ¬ gB.isnan ∨ ¬ beta.isnan) (hg : 0 < g) :
    EachRaisePaysTheSame (Overtops fun R => calculate_overtopping_discharge_q_rubble_mound (fin H) T R beta gB
      (fin gf) cot (fin c2) (fin c3) bf (fin g)) := by
  obtain ⟨A, k, hA, -, hq, -⟩ := both (T := T) (cot := cot) bf hH hf hf1 h2 h3 hgB hgv
  have hS := Sc_pos hg hH
  refine same (A := A * Sc g H) (k := -k) (by positivity) fun x => ?_
  unfold Overtops
  rw [hq x g hg]
  unfold E
  rw [neg_mul, mul_right_comm]
end

namespace RaiseProof
theorem lc_pow {A k : ℝ} (hA : 0 < A) (hk : 0 < k) :
    LC (Set.Ici 0) fun x => A * Real.exp (-(k * x) ^ (1.3 : ℝ)) := by
  refine LC.cmul hA (LC.exp ?_)
  have := ((convexOn_rpow (p := 1.3) (by norm_num)).smul (Real.rpow_nonneg hk.le 1.3)).neg
  refine this.congr fun x hx => ?_
  simp only [Pi.neg_apply, smul_eq_mul]
  rw [Real.mul_rpow hk.le hx]

theorem up (r : ℝ) : ∀ x ∈ Set.Ici r, ∀ y, x ≤ y → y ∈ Set.Ici r := fun _ hx _ hy => le_trans hx hy
end RaiseProof

section
open OvertoppingEurOtop2018
open OvertoppingTaw2002 (Sc Sc_pos Sc_eval)

/-- C99, EurOtop (2018): every combination of options for which a discharge is returned, crests from the water level -/
theorem C99_eurotop2018 (H T R gf gv gs c1 c2 c3 c4 g : ℝ)
    (cot cd cu beta B db gB gb : PF) (bf : Bool) (hH : 0 < H) (hT : 0 < T) (hf : 0 < gf) (hf1 : gf ≤ 1)
    (hv : 0 < gv) (hs : 0 < gs) (h1 : 0 < c1) (h2 : 0 < c2) (h3 : 0 < c3) (h4 : 0 < c4)
    (hgB : OmittedOr (0 < ·) gB) (hg : 0 < g) (q : ℝ) (m : Bool)
    (h : (calculate_overtopping_discharge_q (fin H) (fin T) (fin R) beta gB gb (fin gf) (fin gv)
      (fin gs) B db cot cd cu (fin c1) (fin c2) (fin c3) (fin c4) bf (fin g)).res = .ok (fin q, m)) :
    FurtherRaisesPay (OvertopsWithFlag fun R => calculate_overtopping_discharge_q (fin H) (fin T) R beta gB gb (fin gf)
      (fin gv) (fin gs) B db cot cd cu (fin c1) (fin c2) (fin c3) (fin c4) bf (fin g)) fun x => 0 ≤ x := by
  obtain ⟨hR0, gB', c, gb', k1, k2, k3, k4, X, hp, hb⟩ :=
    q_inv hH hT hf hf1 hv hs h1 h2 h3 h4 hgB h
  have hS := Sc_pos hg hH
  exact pays (s := Set.Ici 0) (up 0) (((lc_pow X.A X.d).min
    (lc_pow X.h2 (d3_pos hH hf X.hB hs X.h3))).mulc hS) fun x hx => ⟨_, X.q_res hg hx hp hb⟩
end

section
open OvertoppingEurOtop2018 TwoFormulas
open OvertoppingTaw2002 (Sc Sc_pos Sc_eval)

/-- every discharge of a rubble mound by EurOtop (2018) as a function of the crest level -/
theorem RaiseProof.rubble {H T gf c2 c3 g' : ℝ} {R' cot cd cu beta B db gB v : PF} {bf : Bool} (hH : 0 < H) (hf : 0 < gf)
    (hf1 : gf ≤ 1) (h3 : 0 < c3) (hgB : OmittedOr (0 < ·) gB)
    (h : (calculate_overtopping_discharge_q_rubble_mound (fin H) (fin T) R' beta gB (fin gf) B db
      cot cd cu (fin c2) (fin c3) bf (fin g')).res = .ok v) : ∃ k : ℝ, 0 < k ∧ ∀ R g : ℝ, 0 < g →
    (calculate_overtopping_discharge_q_rubble_mound (fin H) (fin T) (fin R) beta gB (fin gf) B db
      cot cd cu (fin c2) (fin c3) bf (fin g)).res =
        .ok (if 0 ≤ R then fin (F (if bf then 0.09 else c2) k R * Sc g H) else nan) := by
  obtain ⟨⟨p1, ca⟩, hp⟩ := OvertoppingEurProofs.pre_of_q h
  obtain ⟨gB', e1, hB⟩ := pre_inv hgB hp
  dsimp only at e1
  subst e1
  obtain ⟨r, hr, e4, -⟩ := RunupTaw2002.rough_any hf hf1
    (CorePhysics.calculate_Iribarren_number_ksi (fin H) (fin T) ca)
  have hk : 0 < if bf then 1.5 else c3 := by cases bf <;> norm_num [h3]
  have e2 : (check_best_fit nan (fin c2) (fin c3) nan bf).2.1 = fin (if bf then 0.09 else c2) := by cases bf <;> rfl
  have e3 : (check_best_fit nan (fin c2) (fin c3) nan bf).2.2.1 = fin (if bf then 1.5 else c3) := by cases bf <;> rfl
  have o : (1.0 : PF) = fin 1 := by rw [sci_eq]; norm_num
  have hv : ∀ {α : Type} (m : PyM α), (check_validity_range_rubble_mound ca >>= fun _ => m).res =
      m.res := by
    intro α m
    unfold check_validity_range_rubble_mound
    simp
  refine ⟨(if bf then 1.5 else c3) / (H * (r * gB' * 1)), by positivity, fun R g hg => ?_⟩
  rw [qr_split, PyM.bind_res_of_ok hp]
  dsimp only
  rw [e2, e3, hv, e4, o, qmax_eval hH hr hB one_pos hk, Sc_eval hg hH]
  by_cases h0 : 0 ≤ R
  · rw [if_pos h0, if_pos h0, mul_fin]; rfl
  · rw [if_neg h0, if_neg h0, nan_mul]; rfl

/-- C99, EurOtop (2018), rubble mounds: every combination of options for which a discharge is returned, crests from
the water level -/
theorem C99_eurotop2018_rubble (H T R gf c2 c3 g : ℝ) (cot cd cu beta B db gB : PF) (bf : Bool) (hH : 0 < H)
    (hf : 0 < gf) (hf1 : gf ≤ 1) (h2 : 0 < c2) (h3 : 0 < c3) (hgB : OmittedOr (0 < ·) gB) (hg : 0 < g) (q : ℝ)
    (h : (calculate_overtopping_discharge_q_rubble_mound (fin H) (fin T) (fin R) beta gB (fin gf) B db cot cd cu (fin c2)
      (fin c3) bf (fin g)).res = .ok (fin q)) :
    FurtherRaisesPay (Overtops fun R => calculate_overtopping_discharge_q_rubble_mound (fin H) (fin T) R beta gB
      (fin gf) B db cot cd cu (fin c2) (fin c3) bf (fin g)) fun x => 0 ≤ x := by
  have k2 : 0 < if bf then 0.09 else c2 := by cases bf <;> norm_num [h2]
  obtain ⟨k, hk, hq⟩ := RaiseProof.rubble hH hf hf1 h3 hgB h
  refine pays (s := Set.Ici 0) (up 0) ((lc_pow k2 hk).mulc (Sc_pos hg hH)) fun x hx => ?_
  unfold Overtops
  rw [hq x g hg, if_pos (Set.mem_Ici.mp hx)]
  rfl
end

/-! ## De Ridder et al. (2024, 2026) -/
section
variable (H s gf g w : ℝ) (hH : 0 < H) (hs : 0 < s) (hf : 0 < gf) (hg : 0 < g)
include hH hs hf hg

namespace RaiseProof
omit hs in
theorem deRidder_same {f : PF → PyM PF} {a b e r c : ℝ} (ha : 0 < a) (hr : r ≠ 0)
    (h : ∀ R, Returns (f (fin R)) fun q => q / √(g * H ^ 3) = Published.deRidder a b e r (R / H - c) s) :
    EachRaisePaysTheSame (Overtops f) := by
  have hS : 0 < √(g * H ^ 3) := by positivity
  refine same (A := a * Real.exp (b * s ^ e * (c / r)) * √(g * H ^ 3)) (k := -b * s ^ e / (r * H)) (by positivity)
    fun R => ?_
  obtain ⟨q, -, eq, hq⟩ := h R
  unfold Overtops
  rw [eq, Except.ok.injEq, fin_inj, (div_eq_iff hS.ne').mp hq]
  unfold Published.deRidder
  have e1 : -b * s ^ e * ((R / H - c) / r) = b * s ^ e * (c / r) + -b * s ^ e / (r * H) * R := by
    field_simp
    ring
  rw [e1, Real.exp_add]
  ring
end RaiseProof

/-- C99, De Ridder et al. (2024, 2026): each raise by the same height pays the same -/
theorem C99_deridder (t : ℝ) :
    EachRaisePaysTheSame (Overtops fun R => DeRidder2024.calculate_overtopping_discharge_q_eq24 (fin H) (fin s) (fin gf) R
      (fin g)) ∧
    EachRaisePaysTheSame (Overtops fun R => DeRidder2024.calculate_overtopping_discharge_q_eq26 (fin H) (fin s) (fin w)
      (fin gf) R (fin g)) ∧
    EachRaisePaysTheSame (Overtops fun R => DeRidder2026.calculate_overtopping_discharge_q_eq28 (fin H) (fin s) (fin gf) R
      (fin g) (fin t)) ∧
    EachRaisePaysTheSame (Overtops fun R => DeRidder2026.calculate_overtopping_discharge_q_eq32 (fin H) (fin s) (fin w)
      (fin gf) R (fin g) (fin t)) := by
  have ho : gf * Published.obliqueCos 0.35 t ≠ 0 := by
    have : 0 < Published.obliqueCos 0.35 t := by
      unfold Published.obliqueCos
      nlinarith [sq_nonneg (Real.cos (t * (Real.pi / 180)))]
    positivity
  refine ⟨deRidder_same H s gf g hH hf hg (a := 0.74) (b := 8.51) (e := 0.32) (c := 0) (by norm_num) hf.ne' fun R => ?_,
    deRidder_same H s gf g hH hf hg (a := 0.50) (by norm_num) hf.ne' fun R =>
      (C78_deridder2024_discharge H s gf g hH hs hf hg R w).2,
    deRidder_same H s gf g hH hf hg (a := 0.16) (b := 6.93) (e := 0.36) (c := 0) (by norm_num) ho fun R => ?_,
    deRidder_same H s gf g hH hf hg (a := 0.05) (by norm_num) ho fun R =>
      (C78_deridder2026_discharge H s gf g t hH hs hf hg R w).2⟩
  · simpa only [sub_zero] using (C78_deridder2024_discharge H s gf g hH hs hf hg R w).1
  · simpa only [sub_zero] using (C78_deridder2026_discharge H s gf g t hH hs hf hg R w).1
end

/-! ## Van Gent (2021) caissons and Van Gent et al. (2025) slopes -/
namespace RaiseProof
theorem LC.shift {G : ℝ → ℝ} {r : ℝ} (h : LC (Set.Ici 0) G) : LC (Set.Ici r) fun x => G (x - r) where
  pos x hx := h.pos _ (Set.mem_Ici.mpr (sub_nonneg.mpr hx))
  con := by
    refine ⟨convex_Ici r, fun x hx y hy a b ha hb hab => ?_⟩
    have := h.con.2 (Set.mem_Ici.mpr (sub_nonneg.mpr hx)) (Set.mem_Ici.mpr (sub_nonneg.mpr hy)) ha hb hab
    simp only [smul_eq_mul] at this ⊢
    have e : a * (x - r) + b * (y - r) = a * x + b * y - r := by
      have : r = (a + b) * r := by rw [hab, one_mul]
      linarith
    rwa [e] at this
end RaiseProof

section
open VanGent2021Caisson
variable (H g w cw c a b cb gp : ℝ) (k sc cs pp : Bool) (hH : 0 < H) (hg : 0 < g)
  (ht : (c, k, pp, a, b, cb, gp) ∈ Published.caissonTable) (hk : (sc || cs) = k)
include hH hg ht hk

/-- C99, caissons by Van Gent (2021) with every published combination of coefficients, for crests above the swell
correction -/
theorem C99_caisson (r : ℝ) (beta gB : PF) (hr : 0 < r)
    (her : gB = fin r ∨ gB = nan ∧ ∃ β : ℝ, beta = fin β ∧ r = Published.obliqueCos (cb / gp) β) :
    FurtherRaisesPay (Overtops fun R => calculate_overtopping_discharge_q (fin H) R beta gB (fin w) (fin c) (fin cw)
      sc cs pp (fin g)) fun R => (if cs then cw else 0) * w ≤ R := by
  obtain ⟨-, ha, hb, hcb, hlt, hc1⟩ := FormulaProof.caisson_coefficients ht sc cs hk
  have hgp : 0 < gp := hcb.trans hlt
  have hS : 0 < √(g * H ^ 3) := by positivity
  have key : LC (Set.Ici 0) fun x => a * Real.exp (-(b / (r * gp)) * (x / H) ^ c) := by
    refine LC.cmul ha (LC.exp ?_)
    have h1 : 1 ≤ c := by rcases hc1 with rfl | rfl <;> norm_num
    have hp : 0 ≤ b / (r * gp) * (1 / H) ^ c := by positivity
    refine ((convexOn_rpow h1).smul hp).neg.congr fun x hx => ?_
    have hx : 0 ≤ x := hx
    simp only [Pi.neg_apply, smul_eq_mul]
    rw [div_eq_mul_one_div x H, Real.mul_rpow hx (by positivity)]
    ring
  refine pays (s := Set.Ici ((if cs then cw else 0) * w)) (up _) (key.shift.mulc hS) fun x hx => ?_
  obtain ⟨q, -, e, hq⟩ := C78_caisson_discharge_partial H g w cw c a b cb gp k sc cs pp hH hg ht hk x r beta gB hr her
    (.inr hx)
  unfold Overtops
  rw [e, Except.ok.injEq, fin_inj, (div_eq_iff hS.ne').mp hq]
  unfold Published.caisson
  rw [sub_div, mul_div_assoc]
end

section
open VanGent2025
variable (H T c gf gb gv gB : ℝ) (Ac beta B db D : PF) (hH : 0 < H) (hT : 0 < T) (hc : 0 < c)
  (hf : 0 < gf) (hb : 0 < gb) (hv : 0 < gv) (hB : 0 < gB)
include hH hT hc hf hb hv hB

/-- C99, slopes by Van Gent et al. (2025) without wind, also for design calculations -/
theorem C99_vangent2025_partial (w g : ℝ) (dc : Bool) (hg : 0 < g) :
    FurtherRaisesPay (OvertopsWithFlag fun R => calculate_overtopping_discharge_q (fin H) (fin w) (fin T) R Ac (fin c)
      beta B db D (fin gf) (fin gb) (fin gv) (fin gB) (fin g) dc false) fun _ => True := by
  have hS : 0 < √(g * H ^ 3) := by positivity
  have lc : ∀ {A k : ℝ}, 0 < A → LC Set.univ fun R => A * Real.exp (-k * (R / H - 0.4 * (w / H))) := fun {A k} hA =>
    ((LC.lin convex_univ (-k / H) (k * (0.4 * (w / H)))).cmul hA).congr fun x _ => by
      congr 2
      ring
  have l1 : LC Set.univ fun R => Published.slopeBreaking2025 c (gf * gb * gv * gB) (Textbook.iribarren H T c) (R / H)
      (w / H) := (lc (A := 6.8 / c) (k := 5 / (gf * gb * gv * gB * Textbook.iribarren H T c)) (by positivity)).congr
    fun x _ => by unfold Published.slopeBreaking2025; congr 2; ring
  have l2 : LC Set.univ fun R => Published.slopeMaximum2025 c (gf * gb * gv * gB) (Textbook.iribarren H T c) (R / H)
      (w / H) := (lc (A := 0.8 / c) (k := 2.5 / (gf * gb * gv * gB * Textbook.iribarren H T c ^ (0.24 : ℝ)))
      (by positivity)).congr
    fun x _ => by unfold Published.slopeMaximum2025; congr 2; ring
  have l : LC Set.univ fun R => (if dc then (Published.slopeBreaking2025 c (gf * gb * gv * gB) (Textbook.iribarren H T c)
      (R / H) (w / H) ⊓ Published.slopeMaximum2025 c (gf * gb * gv * gB) (Textbook.iribarren H T c) (R / H)
      (w / H)) ^ (0.857 : ℝ) else Published.slopeBreaking2025 c (gf * gb * gv * gB) (Textbook.iribarren H T c)
      (R / H) (w / H) ⊓ Published.slopeMaximum2025 c (gf * gb * gv * gB) (Textbook.iribarren H T c) (R / H)
      (w / H)) * √(g * H ^ 3) := by
    cases dc
    · exact (l1.min l2).mulc hS
    · exact ((l1.min l2).rpow (by norm_num)).mulc hS
  refine pays (s := Set.univ) (fun _ _ _ _ => trivial) l fun x _ => ?_
  obtain ⟨q, m, -, e, a, b, rfl, rfl, hq, -⟩ := C78_vangent2025_discharge H T c gf gb gv gB Ac beta B db D hH hT hc hf hb
    hv hB x w g dc hg
  refine ⟨m, ?_⟩
  rw [e, Except.ok.injEq, Prod.mk.injEq, fin_inj, (div_eq_iff hS.ne').mp hq]
  exact ⟨rfl, rfl⟩
end

/-! ## Ordinary inputs -/

example : FurtherRaisesPay (OvertopsWithFlag fun R => OvertoppingTaw2002.calculate_overtopping_discharge_q (fin 2) (fin 6)
    R (fin 3) nan nan nan 0 0 (fin 0.9) (fin 1) (fin 0.7) (fin 1) (fin 1) (fin 9.81) true) fun _ => True := by
  obtain ⟨q, m, h, -⟩ := C78_taw_discharge_partial 2 6 3 0.7 1 0.9 1 1 nan 0 0 true (by norm_num) (by norm_num)
    (by norm_num) (by norm_num) (by norm_num) (by norm_num) (by norm_num) (by norm_num) (by norm_num) (Or.inr rfl)
    (Or.inr (Or.inr ⟨rfl, FormulaProof.ordinary⟩)) 3 9.81 (by norm_num)
  exact C99_taw2002 2 6 3 0.7 1 1 9.81 _ _ _ _ _ _ _ _ true (by norm_num) (by norm_num) (by norm_num) (by norm_num)
    (by norm_num) (Or.inr ⟨0.9, rfl, by norm_num⟩) (Or.inr ⟨1, rfl, by norm_num, by norm_num⟩) (by norm_num) q m h

example := C99_eurotop2007 2 0.5 0.2 2.3 9.81 6 (fin 40) nan 2 false (by norm_num) (by norm_num) (by norm_num)
  (by norm_num) (by norm_num) (Or.inl rfl) (Or.inr (by simp [PF.isnan])) (by norm_num)

example : FurtherRaisesPay (OvertopsWithFlag fun R => OvertoppingEurOtop2018.calculate_overtopping_discharge_q (fin 2)
    (fin 6) R nan (fin 0.9) nan (fin 0.7) (fin 1) (fin 1) (cot_alpha := fin 3) (c1 := fin 2.5) (c2 := fin 0.1035)
    (c3 := fin 1.35) (c4 := fin 0.026) (use_best_fit := false) (g := fin 9.81)) fun x => 0 ≤ x := by
  obtain ⟨q, m, h, -⟩ := C78_eurotop2018_discharge_partial 2 6 3 0.7 1 1 0.9 2.5 0.1035 1.35 0.026 nan nan false
    (by norm_num) (by norm_num) (by norm_num) (by norm_num) (by norm_num) (by norm_num) (by norm_num) (by norm_num)
    (by norm_num) (by norm_num) (by norm_num) (by norm_num) (Or.inr FormulaProof.ordinary) 3 9.81 (by norm_num)
    (by norm_num)
  exact C99_eurotop2018 2 6 3 0.7 1 1 2.5 0.1035 1.35 0.026 9.81 _ _ _ _ _ _ _ _ false (by norm_num) (by norm_num)
    (by norm_num) (by norm_num) (by norm_num) (by norm_num) (by norm_num) (by norm_num) (by norm_num) (by norm_num)
    (Or.inr ⟨0.9, rfl, by norm_num⟩) (by norm_num) q m h

example : FurtherRaisesPay (Overtops fun R => OvertoppingEurOtop2018.calculate_overtopping_discharge_q_rubble_mound (fin 2)
    (fin 6) R (fin 30) nan (fin 0.5) (fin 0) (fin 0) (fin 1.5) nan nan (fin 0.1035) (fin 1.35) true (fin 9.81))
    fun x => 0 ≤ x := by
  obtain ⟨q, -, h⟩ := OvertoppingEurProofs.C52_rubble_returns 2 6 3 1.5 0.5 0.1035 1.35 9.81 0 0 (fin 30) nan true
    (by norm_num) (by norm_num) (by norm_num) (by norm_num) (by norm_num) (by norm_num) (by norm_num)
    (by norm_num) (Or.inl rfl) (Or.inr (by simp)) (by norm_num) (by norm_num)
  exact C99_eurotop2018_rubble 2 6 3 0.5 0.1035 1.35 9.81 _ _ _ _ _ _ _ true (by norm_num) (by norm_num) (by norm_num)
    (by norm_num) (by norm_num) (Or.inl rfl) (by norm_num) q h

example := C99_deridder 2 0.02 0.5 9.8 0.6 (by norm_num) (by norm_num) (by norm_num) (by norm_num) 30

example := C99_caisson 2 9.81 0.5 0.4 1.3 0.047 2.57 0.70 0.85 true false true true (by norm_num)
  (by norm_num) (by unfold Published.caissonTable; simp) rfl 0.9 nan (fin 0.9) (by norm_num) (Or.inl rfl)

example := C99_vangent2025_partial 2 7 2 0.5 0.9 1.05 0.8 (fin 3.5) (fin 25) 0.0 0.0 (fin 0.8) (by norm_num)
  (by norm_num) (by norm_num) (by norm_num) (by norm_num) (by norm_num) (by norm_num) 0.3 9.81 true (by norm_num)
