import Verif.Props.ContinuousOvertopping

/-! # C95: crest levels, small changes of the inputs -/

open Classical
open PF ContProof
noncomputable section

namespace ContProof
section
variable {X : Type} [TopologicalSpace X]

/-- an exponential decay solved for its exponent -/
theorem exponent {A y z : ℝ} (hA : 0 < A) (h : y = A * Real.exp (-z)) : z = Real.log (A / y) := by
  rw [h, div_mul_eq_div_div, div_self hA.ne', one_div, ← Real.exp_neg, Real.log_exp, neg_neg]

/-- in the real numbers a negative base with exponent 1.3 gives a negative power -/
theorem neg_pow_13 {x : ℝ} (h : x < 0) : x ^ (1.3 : ℝ) < 0 := by
  rw [Real.rpow_def_of_neg h]
  refine mul_neg_of_pos_of_neg (Real.exp_pos _) ?_
  have e : (1.3 : ℝ) * Real.pi = Real.pi * 0.3 + Real.pi := by ring
  rw [e, Real.cos_add_pi, neg_lt_zero]
  have := Real.pi_pos
  exact Real.cos_pos_of_mem_Ioo ⟨by linarith, by linarith⟩

/-- the freeboard at which the smaller of two discharges with exponent 1.3 has a given value -/
theorem solve13 {A B a b y R : ℝ} (hA : 0 < A) (hB : 0 < B) (ha : 0 < a) (hb : 0 < b) (h1 : y ≤ A) (h2 : y ≤ B)
    (h : y = min (A * Real.exp (-(a * R) ^ (1.3 : ℝ))) (B * Real.exp (-(b * R) ^ (1.3 : ℝ)))) :
    R = min (Real.log (A / y) ^ (1 / 1.3 : ℝ) / a) (Real.log (B / y) ^ (1 / 1.3 : ℝ) / b) := by
  have hy : 0 < y := by rw [h]; exact lt_min (by positivity) (by positivity)
  have hR : 0 ≤ R := by
    by_contra hn
    rw [not_le] at hn
    have g : ∀ {A a : ℝ}, 0 < A → 0 < a → A < A * Real.exp (-(a * R) ^ (1.3 : ℝ)) := by
      intro A a hA ha
      have := neg_pow_13 (mul_neg_of_pos_of_neg ha hn)
      have : 1 < Real.exp (-(a * R) ^ (1.3 : ℝ)) := Real.one_lt_exp_iff.mpr (by linarith)
      nlinarith
    have l := g hA ha
    have m := g hB hb
    have : y < y := by
      conv_rhs => rw [h]
      exact lt_min (h1.trans_lt l) (h2.trans_lt m)
    exact lt_irrefl _ this
  have l : ∀ {A a y : ℝ}, 0 < A → 0 < a → y = A * Real.exp (-(a * R) ^ (1.3 : ℝ)) →
      R = Real.log (A / y) ^ (1 / 1.3 : ℝ) / a := by
    intro A a y hA ha h
    rw [← exponent hA h, ← Real.rpow_mul (by positivity)]
    norm_num
    field_simp
  have m : ∀ {A a y : ℝ}, 0 < A → 0 < a → 0 < y → y ≤ A * Real.exp (-(a * R) ^ (1.3 : ℝ)) →
      R ≤ Real.log (A / y) ^ (1 / 1.3 : ℝ) / a := by
    intro A a y hA ha hy h
    have e := exponent hA (y := A * Real.exp (-(a * R) ^ (1.3 : ℝ))) rfl
    have h0 : 0 ≤ (a * R) ^ (1.3 : ℝ) := by positivity
    calc R = Real.log (A / (A * Real.exp (-(a * R) ^ (1.3 : ℝ)))) ^ (1 / 1.3 : ℝ) / a := l hA ha rfl
      _ ≤ _ := by
        rw [e] at h0
        gcongr
  rcases le_total (A * Real.exp (-(a * R) ^ (1.3 : ℝ))) (B * Real.exp (-(b * R) ^ (1.3 : ℝ))) with h' | h'
  · rw [min_eq_left h'] at h
    rw [min_eq_left]
    · exact l hA ha h
    · rw [← l hA ha h]; exact m hB hb hy (h ▸ h')
  · rw [min_eq_right h'] at h
    rw [min_eq_right]
    · exact l hB hb h
    · rw [← l hB hb h]; exact m hA ha hy (h ▸ h')

theorem best_input {c : X → ℝ} {a : ℝ} (bf : Bool) (ha : 0 < a) (k : PositiveInput c) :
    PositiveInput fun x => if bf then a else c x := by
  cases bf
  · simpa using k
  · simpa using const_input ha

theorem scale_input {g H : X → ℝ} (kg : PositiveInput g) (kH : PositiveInput H) :
    PositiveInput fun x => √(g x * H x ^ 3) := by
  refine ⟨?_, fun x => ?_⟩
  · have := kg.1; have := kH.1; fun_prop
  · have := kg.2 x; have := kH.2 x; positivity

theorem discharge_input {q g H : X → ℝ} (kq : PositiveInput q) (kg : PositiveInput g) (kH : PositiveInput H) :
    PositiveInput fun x => q x / √(g x * H x ^ 3) := by
  have k := scale_input kg kH
  refine ⟨continuous_iff_continuousAt.mpr fun x => ?_, fun x => div_pos (kq.2 x) (k.2 x)⟩
  exact kq.1.continuousAt.div k.1.continuousAt (k.2 x).ne'

end
end ContProof

/-! ## EurOtop (2007), rubble mounds -/

section
variable {X : Type} [TopologicalSpace X] {H T c gf gB c2 c3 : X → ℝ} (beta : X → PF) (bf : Bool)
  (kH : PositiveInput H) (kT : PositiveInput T) (kc : PositiveInput c) (kf : PositiveInput gf) (hf : ∀ x, gf x ≤ 1)
  (kB : PositiveInput gB) (k2 : PositiveInput c2) (k3 : PositiveInput c3)
  (hr : (∀ x, gf x = 1) ∨ ∀ x, Textbook.iribarren (H x) (T x) (c x) ≤ 10)
include kH kT kc kf hf kB k2 hr k3

/-- C95: crest level of a rubble mound by EurOtop (2007), for Iribarren numbers up to 10 or a smooth slope -/
theorem C95_eurotop2007_freeboard_partial {q : X → ℝ} (kq : PositiveInput q) :
    VariesContinuously fun x => OvertoppingEurOtop2007.calculate_crest_freeboard_Rc_rubble_mound (fin (H x))
      (fin (T x)) (fin (q x)) (beta x) (fin (gB x)) (fin (gf x)) (fin (c x)) (fin (c2 x)) (fin (c3 x)) bf := by
  choose R h1 h2 using fun x => C78_eurotop2007_freeboard_partial (H x) (T x) (c x) (gf x) (gB x) (c2 x) (c3 x)
    (beta x) bf (kH.2 x) (kT.2 x) (kc.2 x) (kf.2 x) (hf x) (kB.2 x) (k2.2 x) (k3.2 x) (hr.imp (· x) (· x)) (q x) (kq.2 x)
  have kx := irib_input kH kT kc
  have kr := roughness_input kf hf kx.1
  have kA := best_input (a := 0.2) bf (by norm_num) k2
  have kk := best_input (a := 2.6) bf (by norm_num) k3
  have ky := discharge_input kq (const_input (a := 9.81) (by norm_num)) kH
  refine of R h1 fun x => ?_
  have e : R = fun x => Real.log ((if bf then 0.2 else c2 x) / (q x / √(9.81 * H x ^ 3))) *
      (Published.roughness (gf x) (Textbook.iribarren (H x) (T x) (c x)) * gB x) / (if bf then 2.6 else c3 x) * H x := by
    funext x
    rw [← exponent (A := if bf then 0.2 else c2 x) (z := (if bf then 2.6 else c3 x) * (R x / H x) /
      (Published.roughness (gf x) (Textbook.iribarren (H x) (T x) (c x)) * gB x)) (kA.2 x) ?_]
    · inputs [kH, kr, kB, kk] x
      field_simp
    · rw [h2 x]; unfold Published.maximumDischarge; congr 2; ring
  rw [e]
  have kr' := kr.1.continuousAt (x := x)
  have kA' := kA.1.continuousAt (x := x)
  have kk' := kk.1.continuousAt (x := x)
  inputs [kH, kr, kB, kA, kk, kq] x
  cont

example := C95_eurotop2007_freeboard_partial (fun _ => nan) false id_input (const_input (a := 8) (by norm_num))
  (const_input (a := 2) (by norm_num)) (const_input (a := 1) (by norm_num)) (fun _ => by norm_num) (const_input (a
  := 1) (by norm_num)) (const_input (a := 0.2) (by norm_num)) (const_input (a := 2.3) (by norm_num)) (Or.inl fun _ =>
  rfl) (const_input (a := 0.01) (by norm_num))

/-- C95: crest level of a rubble mound by EurOtop (2018), for Iribarren numbers up to 10 or a smooth slope and
discharges that a crest at the water level would have at least -/
theorem C95_eurotop2018_rubble_freeboard_partial {q g : X → ℝ} (B db : X → PF) (kq : PositiveInput q)
    (kg : PositiveInput g) (hq : ∀ x, q x / √(g x * H x ^ 3) ≤ if bf then 0.09 else c2 x) :
    VariesContinuously fun x => OvertoppingEurOtop2018.calculate_crest_freeboard_Rc_rubble_mound (fin (H x))
      (fin (T x)) (fin (q x)) (beta x) (fin (gB x)) (fin (gf x)) (B x) (db x) (fin (c x)) nan nan (fin (c2 x))
      (fin (c3 x)) bf (fin (g x)) := by
  choose R h0 h1 h2 using fun x => C78_eurotop2018_rubble_freeboard_partial (H x) (T x) (c x) (gf x) (gB x) (c2 x)
    (c3 x) (beta x) (B x) (db x) bf (kH.2 x) (kT.2 x) (kc.2 x) (kf.2 x) (hf x) (kB.2 x) (k2.2 x) (k3.2 x)
    (hr.imp (· x) (· x)) (q x) (g x) (kq.2 x) (kg.2 x) (hq x)
  have kx := irib_input kH kT kc
  have kr := roughness_input kf hf kx.1
  have kA := best_input (a := 0.09) bf (by norm_num) k2
  have kk := best_input (a := 1.5) bf (by norm_num) k3
  have ky := discharge_input kq kg kH
  refine of R h1 fun x => ?_
  have e : R = fun x => Real.log ((if bf then 0.09 else c2 x) / (q x / √(g x * H x ^ 3))) ^ (1 / 1.3 : ℝ) /
      ((if bf then 1.5 else c3 x) / H x /
      (Published.roughness (gf x) (Textbook.iribarren (H x) (T x) (c x)) * gB x)) := by
    funext x
    rw [← min_self (_ ^ (1 / 1.3 : ℝ) / _)]
    inputs [kH, kr, kB, kA, kk] x
    refine solve13 (by assumption) (by assumption) (by positivity) (by positivity) (hq x) (hq x) ?_
    rw [min_self, h2 x]; unfold Published.maximumDischarge2018; congr 4; ring
  rw [e]
  have kr' := kr.1.continuousAt (x := x)
  have kA' := kA.1.continuousAt (x := x)
  have kk' := kk.1.continuousAt (x := x)
  have ky' := ky.1.continuousAt (x := x)
  inputs [kH, kr, kB, kA, kk, ky] x
  have t1 : ContinuousAt (fun x => Real.log ((if bf then 0.09 else c2 x) / (q x / √(g x * H x ^ 3))) ^
      (1 / 1.3 : ℝ)) x := ContinuousAt.rpow_const (by cont) (Or.inr (by norm_num))
  refine t1.div (by cont) (by positivity)

example := C95_eurotop2018_rubble_freeboard_partial (X := Unit) (fun _ => nan) true (const_input (a := 2) (by norm_num))
  (const_input (a := 8) (by norm_num)) (const_input (a := 2) (by norm_num)) (const_input (a := 1) (by norm_num))
  (fun _ => by norm_num) (const_input (a := 1) (by norm_num)) (const_input (a := 0.2) (by norm_num)) (const_input (a
  := 2.3) (by norm_num)) (Or.inl fun _ => rfl) (q := fun _ => 0.01) (g := fun _ => 2) (fun _ => nan) (fun _ => nan)
  (const_input (by norm_num)) (const_input (by norm_num)) (fun _ => by
    have : √(2 * 2 ^ 3 : ℝ) = 4 := by rw [show (2 * 2 ^ 3 : ℝ) = 4 ^ 2 by norm_num]; exact Real.sqrt_sq (by norm_num)
    rw [this]; norm_num)

end

/-- C95: crest level by EurOtop (2018), for Iribarren numbers up to 10 or a smooth slope and discharges that a crest
at the water level would have at least -/
theorem C95_eurotop2018_freeboard_partial {X : Type} [TopologicalSpace X] {H T c gf gv gs gB c1 c2 c3 c4 q g : X → ℝ}
    (beta gb : X → PF) (bf : Bool) (kH : PositiveInput H) (kT : PositiveInput T) (kc : PositiveInput c)
    (kf : PositiveInput gf) (hf : ∀ x, gf x ≤ 1) (kv : PositiveInput gv) (ks : PositiveInput gs) (kB : PositiveInput gB)
    (k1 : PositiveInput c1) (k2 : PositiveInput c2) (k3 : PositiveInput c3) (k4 : PositiveInput c4)
    (hr : (∀ x, gf x = 1) ∨ ∀ x, Textbook.iribarren (H x) (T x) (c x) ≤ 10) (kq : PositiveInput q)
    (kg : PositiveInput g)
    (hq1 : ∀ x, q x / √(g x * H x ^ 3) ≤ (if bf then 0.023 else c4 x) / √(1 / c x) *
      Textbook.iribarren (H x) (T x) (c x))
    (hq2 : ∀ x, q x / √(g x * H x ^ 3) ≤ if bf then 0.09 else c2 x) :
    VariesContinuously fun x => Prod.fst <$> OvertoppingEurOtop2018.calculate_crest_freeboard_Rc (fin (H x))
      (fin (T x)) (fin (q x)) (beta x) (fin (gB x)) (gb x) (fin (gf x)) (fin (gv x)) (fin (gs x))
      (cot_alpha := fin (c x)) (c1 := fin (c1 x)) (c2 := fin (c2 x)) (c3 := fin (c3 x)) (c4 := fin (c4 x))
      (use_best_fit := bf) (g := fin (g x)) := by
  have kx := irib_input kH kT kc
  have kr := roughness_input kf hf kx.1
  have hq1' : ∀ x, q x / √(g x * H x ^ 3) ≤ Published.breakingDischarge2018 (if bf then 2.7 else c1 x)
      (if bf then 0.023 else c4 x) (c x) 1 (Published.roughness (gf x) (Textbook.iribarren (H x) (T x) (c x))) (gB x)
      (gv x) (Textbook.iribarren (H x) (T x) (c x)) 0 := by
    intro x
    refine (hq1 x).trans (le_of_eq ?_)
    unfold Published.breakingDischarge2018
    rw [mul_zero, zero_div, Real.zero_rpow (by norm_num), neg_zero, Real.exp_zero, mul_one, mul_one]
  choose R f h1 h2 using fun x => C78_eurotop2018_freeboard_partial (H x) (T x) (c x) (gf x) (gv x) (gs x) (gB x) (c1 x)
    (c2 x) (c3 x) (c4 x) (beta x) (gb x) bf (kH.2 x) (kT.2 x) (kc.2 x) (kf.2 x) (hf x) (kv.2 x) (ks.2 x) (kB.2 x)
    (k1.2 x) (k2.2 x) (k3.2 x) (k4.2 x) (hr.imp (· x) (· x)) (q x) (g x) (kq.2 x) (kg.2 x) (hq1' x) (hq2 x)
  have m1 := best_input (a := 2.7) bf (by norm_num) k1
  have m2 := best_input (a := 0.09) bf (by norm_num) k2
  have m3 := best_input (a := 1.5) bf (by norm_num) k3
  have m4 := best_input (a := 0.023) bf (by norm_num) k4
  have ky := discharge_input kq kg kH
  refine of_pair R f h1 fun x => ?_
  have e : R = fun x => Min.min
      (Real.log ((if bf then 0.023 else c4 x) / √(1 / c x) * Textbook.iribarren (H x) (T x) (c x) /
        (q x / √(g x * H x ^ 3))) ^ (1 / 1.3 : ℝ) / ((if bf then 2.7 else c1 x) / H x /
        (Textbook.iribarren (H x) (T x) (c x) *
          Published.roughness (gf x) (Textbook.iribarren (H x) (T x) (c x)) * gB x * gv x)))
      (Real.log ((if bf then 0.09 else c2 x) / (q x / √(g x * H x ^ 3))) ^ (1 / 1.3 : ℝ) /
        ((if bf then 1.5 else c3 x) / H x /
        (Published.roughness (gf x) (Textbook.iribarren (H x) (T x) (c x)) * gB x * gs x))) := by
    funext x
    inputs [kH, kx, kr, kc, kB, kv, ks, kq, m1, m2, m3, m4] x
    obtain ⟨_, _, _, _, rfl, rfl, rfl, rfl, h, -⟩ := h2 x
    refine solve13 (by positivity) (by assumption) (by positivity) (by positivity) (hq1 x) (hq2 x) (h.trans ?_)
    unfold Published.breakingDischarge2018 Published.maximumDischarge2018
    congr 1
    · congr 1
      · ring
      · congr 3; ring
    · congr 4; ring
  rw [e]
  have kx' := kx.1.continuousAt (x := x)
  have kr' := kr.1.continuousAt (x := x)
  have ky' := ky.1.continuousAt (x := x)
  have n1 := m1.1.continuousAt (x := x)
  have n2 := m2.1.continuousAt (x := x)
  have n3 := m3.1.continuousAt (x := x)
  have n4 := m4.1.continuousAt (x := x)
  inputs [kH, kx, kr, kc, kB, kv, ks, m1, m2, m3, m4, ky] x
  have t1 : ContinuousAt (fun x => Real.log ((if bf then 0.023 else c4 x) / √(1 / c x) *
      Textbook.iribarren (H x) (T x) (c x) / (q x / √(g x * H x ^ 3))) ^ (1 / 1.3 : ℝ)) x :=
    ContinuousAt.rpow_const (by cont) (Or.inr (by norm_num))
  have t2 : ContinuousAt (fun x => Real.log ((if bf then 0.09 else c2 x) / (q x / √(g x * H x ^ 3))) ^
      (1 / 1.3 : ℝ)) x := ContinuousAt.rpow_const (by cont) (Or.inr (by norm_num))
  exact (t1.div (by cont) (by positivity)).min (t2.div (by cont) (by positivity))

example := C95_eurotop2018_freeboard_partial (X := Unit) (fun _ => nan) (fun _ => nan) true
  (H := fun _ => 2) (T := fun _ => 8) (c := fun _ => 2) (g := fun _ => 2) (q := fun _ => 0.01)
  (const_input (by norm_num)) (const_input (by norm_num)) (const_input (by norm_num)) (const_input (a := 1) (by norm_num))
  (fun _ => by norm_num) (const_input (a := 1) (by norm_num)) (const_input (a := 1) (by norm_num))
  (const_input (a := 1) (by norm_num)) (const_input (a := 1) (by norm_num)) (const_input (a := 1) (by norm_num))
  (const_input (a := 1) (by norm_num)) (const_input (a := 1) (by norm_num)) (Or.inl fun _ => rfl)
  (const_input (by norm_num)) (const_input (by norm_num))
  (fun _ => by
    have e : √(2 * 2 ^ 3 : ℝ) = 4 := by rw [show (2 * 2 ^ 3 : ℝ) = 4 ^ 2 by norm_num]; exact Real.sqrt_sq (by norm_num)
    have hp := Real.pi_pos
    have h4 := Real.pi_le_four
    have h1 : √(1 / 2 : ℝ) ≤ 1 := by rw [Real.sqrt_le_left (by norm_num)]; norm_num
    have h0 : 0 < √(1 / 2 : ℝ) := by positivity
    have hs : 0 < Textbook.steepness 2 8 := by unfold Textbook.steepness; positivity
    have h2 : √(Textbook.steepness 2 8) ≤ 1 := by
      rw [Real.sqrt_le_left (by norm_num), one_pow]
      unfold Textbook.steepness
      rw [div_div_eq_mul_div, div_le_one (by norm_num)]
      norm_num; linarith
    have hx : 0.5 ≤ Textbook.iribarren 2 8 2 := by
      unfold Textbook.iribarren
      rw [le_div_iff₀ (mul_pos (by norm_num) (Real.sqrt_pos.mpr hs))]
      norm_num; linarith
    have h3 : 0.023 ≤ 0.023 / √(1 / 2 : ℝ) := by
      rw [le_div_iff₀ h0]; norm_num at h1 ⊢; linarith
    rw [e, if_pos rfl]
    calc (0.01 / 4 : ℝ) ≤ 0.023 * 0.5 := by norm_num
      _ ≤ _ := mul_le_mul h3 hx (by norm_num) (by positivity))
  (fun _ => by
    have e : √(2 * 2 ^ 3 : ℝ) = 4 := by rw [show (2 * 2 ^ 3 : ℝ) = 4 ^ 2 by norm_num]; exact Real.sqrt_sq (by norm_num)
    rw [e]; norm_num)

/-! ## De Ridder et al. (2024, 2026) -/

namespace ContProof
theorem deRidder_level {a b e gf H d s y R : ℝ} (ha : 0 < a) (hb : 0 < b) (hf : 0 < gf) (hH : 0 < H) (hs : 0 < s)
    (h : y = Published.deRidder a b e gf (R / H - d) s) : R = (Real.log (a / y) * gf / (b * s ^ e) + d) * H := by
  have := Real.rpow_pos_of_pos hs e
  rw [← exponent ha (z := b * s ^ e * ((R / H - d) / gf)) (by rw [h]; unfold Published.deRidder; congr 2; ring)]
  field_simp
  ring

theorem deRidder_cont {X : Type} [TopologicalSpace X] {H s gf y d : X → ℝ} {a b e : ℝ} (kH : PositiveInput H)
    (ks : PositiveInput s) (kf : PositiveInput gf) (ky : PositiveInput y) (kd : Continuous d) (ha : 0 < a) (hb : 0 < b)
    (x : X) : ContinuousAt (fun x => (Real.log (a / y x) * gf x / (b * s x ^ e) + d x) * H x) x := by
  inputs [kH, ks, kf, ky] x
  cont
end ContProof

section
variable {X : Type} [TopologicalSpace X] {H s gf g q w : X → ℝ} (kH : PositiveInput H) (ks : PositiveInput s)
  (kf : PositiveInput gf) (kg : PositiveInput g) (kq : PositiveInput q) (kw : Continuous w)
include kH ks kf kg kq kw

/-- C95: crest level by De Ridder et al. (2024), both equations -/
theorem C95_deridder2024_freeboard :
    (VariesContinuously fun x => DeRidder2024.calculate_crest_freeboard_discharge_q_eq24 (fin (H x)) (fin (s x))
      (fin (gf x)) (fin (q x))) ∧
    VariesContinuously fun x => DeRidder2024.calculate_crest_freeboard_discharge_q_eq26 (fin (H x)) (fin (s x))
      (fin (w x)) (fin (gf x)) (fin (q x)) (fin (g x)) := by
  have h := fun x => C78_deridder2024_freeboard_partial (H x) (s x) (gf x) (g x) (kH.2 x) (ks.2 x) (kf.2 x) (kg.2 x)
    (q x) (w x) (kq.2 x)
  choose R e1 h1 using fun x => (h x).1
  choose S e2 h2 using fun x => (h x).2
  have y1 := discharge_input kq (const_input (a := 9.81) (by norm_num)) kH
  have y2 := discharge_input kq kg kH
  have kd : Continuous fun x => 0.21 * (w x / H x) := continuous_iff_continuousAt.mpr fun x => by
    inputs [kH] x
    cont
  refine ⟨of R e1 fun x => ?_, of S e2 fun x => ?_⟩
  · have e : R = _ := funext fun x => deRidder_level (a := 0.74) (b := 8.51) (e := 0.32) (d := 0) (by norm_num) (by norm_num) (kf.2 x) (kH.2 x) (ks.2 x)
      ((h1 x).trans (by rw [sub_zero]))
    rw [e]
    exact deRidder_cont kH ks kf y1 continuous_const (by norm_num) (by norm_num) x
  · have e : S = _ := funext fun x => deRidder_level (by norm_num) (by norm_num) (kf.2 x) (kH.2 x) (ks.2 x) (h2 x)
    rw [e]
    exact deRidder_cont kH ks kf y2 kd (by norm_num) (by norm_num) x

example := C95_deridder2024_freeboard id_input (const_input (a := 0.03) (by norm_num)) (const_input (a := 0.4) (by
  norm_num)) (const_input (a := 9.81) (by norm_num)) (const_input (a := 0.01) (by norm_num)) (continuous_const (y :=
  (1 : ℝ)))

/-- C95: crest level by De Ridder et al. (2026), both equations -/
theorem C95_deridder2026_freeboard {t : X → ℝ} (kt : Continuous t) :
    (VariesContinuously fun x => DeRidder2026.calculate_crest_freeboard_discharge_q_eq28 (fin (H x)) (fin (s x))
      (fin (gf x)) (fin (q x)) (fin (g x)) (fin (t x))) ∧
    VariesContinuously fun x => DeRidder2026.calculate_crest_freeboard_discharge_q_eq32 (fin (H x)) (fin (s x))
      (fin (w x)) (fin (gf x)) (fin (q x)) (fin (g x)) (fin (t x)) := by
  have h := fun x => C78_deridder2026_freeboard (H x) (s x) (gf x) (g x) (t x) (kH.2 x) (ks.2 x) (kf.2 x) (kg.2 x)
    (q x) (w x) (kq.2 x)
  choose R e1 h1 using fun x => (h x).1
  choose S e2 h2 using fun x => (h x).2
  have y2 := discharge_input kq kg kH
  have ko : PositiveInput fun x => gf x * Published.obliqueCos 0.35 (t x) := by
    refine ⟨by have := kf.1; unfold Published.obliqueCos; fun_prop, fun x => mul_pos (kf.2 x) ?_⟩
    unfold Published.obliqueCos
    have := sq_nonneg (Real.cos (t x * (Real.pi / 180)))
    norm_num; positivity
  have kd : Continuous fun x => 0.97 * (w x / H x) := continuous_iff_continuousAt.mpr fun x => by
    inputs [kH] x
    cont
  refine ⟨of R e1 fun x => ?_, of S e2 fun x => ?_⟩
  · have e : R = _ := funext fun x => deRidder_level (a := 0.16) (b := 6.93) (e := 0.36) (d := 0) (by norm_num) (by norm_num) (ko.2 x) (kH.2 x) (ks.2 x)
      ((h1 x).trans (by rw [sub_zero]))
    rw [e]
    exact deRidder_cont kH ks ko y2 continuous_const (by norm_num) (by norm_num) x
  · have e : S = _ := funext fun x => deRidder_level (by norm_num) (by norm_num) (ko.2 x) (kH.2 x) (ks.2 x) (h2 x)
    rw [e]
    exact deRidder_cont kH ks ko y2 kd (by norm_num) (by norm_num) x

example := C95_deridder2026_freeboard id_input (const_input (a := 0.03) (by norm_num)) (const_input (a := 0.4) (by
  norm_num)) (const_input (a := 9.81) (by norm_num)) (const_input (a := 0.01) (by norm_num)) (continuous_const (y :=
  (1 : ℝ))) (continuous_const (y := (20 : ℝ)))

end

/-! ## caissons by Van Gent (2021) -/

/-- C95: crest level of caissons by Van Gent (2021) with each combination of coefficients; with exponent 1.3 for
discharges that a crest at the water level would have at least -/
theorem C95_caisson_freeboard_partial {X : Type} [TopologicalSpace X] {H q r w cw g : X → ℝ} (beta : X → PF)
    {c a b cb gp : ℝ} {k sc cs pp : Bool} (kH : PositiveInput H) (kg : PositiveInput g) (kq : PositiveInput q)
    (kr : PositiveInput r) (kw : Continuous w) (kcw : Continuous cw)
    (ht : (c, k, pp, a, b, cb, gp) ∈ Published.caissonTable) (hk : (sc || cs) = k)
    (hR : c = 1 ∨ ∀ x, q x / √(g x * H x ^ 3) ≤ a) :
    VariesContinuously fun x => VanGent2021Caisson.calculate_crest_freeboard_Rc (fin (H x)) (fin (q x)) (beta x)
      (fin (r x)) (fin (w x)) (fin c) (fin (cw x)) sc cs pp (fin (g x)) := by
  choose R h1 h2 using fun x => C78_caisson_freeboard_partial (H x) (g x) (w x) (cw x) c a b cb gp k sc cs pp (kH.2 x)
    (kg.2 x) ht hk (q x) (r x) (beta x) (fin (r x)) (kq.2 x) (kr.2 x) (Or.inl rfl) (hR.imp_right (· x))
  have hc : (c = 1 ∨ c = 1.3) ∧ 0 < gp ∧ 0 < a ∧ 0 < b := by
    simp only [Published.caissonTable, List.mem_cons, Prod.mk.injEq, List.not_mem_nil, or_false] at ht
    rcases ht with h | h | h | h | h | h <;> obtain ⟨rfl, -, -, rfl, rfl, -, rfl⟩ := h <;> norm_num
  obtain ⟨hc, hgp, ha, hb⟩ := hc
  have hc0 : 0 < 1 / c := by rcases hc with rfl | rfl <;> norm_num
  have ky := discharge_input kq kg kH
  refine of R h1 fun x => ?_
  have e : R = fun x => ((Real.log (a / (q x / √(g x * H x ^ 3))) / (b / (r x * gp))) ^ (1 / c) +
      (if cs then cw x else 0) * (w x / H x)) * H x := by
    funext x
    inputs [kH, kr, ky] x
    rw [← exponent ha (z := b / (r x * gp) * (R x / H x - (if cs then cw x else 0) * (w x / H x)) ^ c)
      (by rw [h2 x]; unfold Published.caisson; congr 2; ring)]
    have hb' : 0 < b / (r x * gp) := by positivity
    rw [mul_div_cancel_left₀ _ hb'.ne']
    have : ((R x / H x - (if cs then cw x else 0) * (w x / H x)) ^ c) ^ (1 / c) =
        R x / H x - (if cs then cw x else 0) * (w x / H x) := by
      rcases hc with rfl | rfl
      · simp
      · have hp : 0 ≤ R x / H x - (if cs then cw x else 0) * (w x / H x) := by
          by_contra hn
          rw [not_le] at hn
          have h0 := neg_pow_13 hn
          have h3 := (hR.resolve_left (by norm_num)) x
          rw [h2 x] at h3
          unfold Published.caisson at h3
          have : 1 < Real.exp (-(b / (r x * gp)) * (R x / H x - (if cs then cw x else 0) * (w x / H x)) ^ (1.3 : ℝ)) := by
            rw [Real.one_lt_exp_iff]
            nlinarith
          nlinarith
        rw [← Real.rpow_mul hp]; norm_num
    rw [this, sub_add_cancel, div_mul_cancel₀ _ (kH.2 x).ne']
  rw [e]
  have s1 : ContinuousAt (fun x => if cs then cw x else 0) x := by
    cases cs
    · simpa using continuousAt_const
    · simpa using kcw.continuousAt
  have ky' := ky.1.continuousAt (x := x)
  inputs [kH, kr, ky] x
  have t1 : ContinuousAt (fun x => (Real.log (a / (q x / √(g x * H x ^ 3))) / (b / (r x * gp))) ^ (1 / c)) x :=
    ContinuousAt.rpow_const (by cont) (Or.inr hc0.le)
  have t2 : ContinuousAt (fun x => (if cs then cw x else 0) * (w x / H x)) x := by cont
  exact (t1.add t2).mul kH.1.continuousAt

example := C95_caisson_freeboard_partial (fun _ => nan) (c := 1) (a := 0.2) (b := 3.9) (cb := 0.75) (gp := 1)
  (k := true) (sc := true) (cs := false) (pp := false) id_input (const_input (a := 9.81) (by norm_num))
  (const_input (a := 0.01) (by norm_num)) (const_input (a := 0.9) (by norm_num)) (continuous_const (y := (0 : ℝ)))
  (continuous_const (y := (0.4 : ℝ))) (by unfold Published.caissonTable; simp) rfl (Or.inl rfl)

end
