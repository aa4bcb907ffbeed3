import Verif.Py.Monad
import Mathlib.Analysis.SpecialFunctions.Pow.NNReal
import Mathlib.Tactic.Ring

/-! # Evaluation lemmas for `PF` and a normaliser for products of powers of positive reals -/

open Classical

noncomputable section
namespace PF

@[simp] theorem nan_eq_fin (x : ℝ) : (nan = fin x) ↔ False := by simp
@[simp] theorem fin_inj (x y : ℝ) : (fin x = fin y) ↔ x = y := by simp

theorem ofNat_eq (n : ℕ) [n.AtLeastTwo] :
    (OfNat.ofNat n : PF) = fin (OfNat.ofNat n : ℝ) := rfl
theorem zero_eq : (0 : PF) = fin 0 := by
  show fin ((0 : ℕ) : ℝ) = _; simp
theorem one_eq : (1 : PF) = fin 1 := by
  show fin ((1 : ℕ) : ℝ) = _; simp
theorem sci_eq (m : ℕ) (s : Bool) (e : ℕ) :
    (OfScientific.ofScientific m s e : PF) = fin (OfScientific.ofScientific m s e : ℝ) := rfl
theorem pi_eq : pi = fin Real.pi := rfl

theorem neg_fin (x : ℝ) : -(fin x) = fin (-x) := rfl
theorem add_fin (x y : ℝ) : fin x + fin y = fin (x + y) := rfl
theorem sub_fin (x y : ℝ) : fin x - fin y = fin (x - y) := by
  show fin (x + -y) = _; rw [sub_eq_add_neg]
theorem mul_fin (x y : ℝ) : fin x * fin y = fin (x * y) := rfl
theorem div_fin {x y : ℝ} (h : y ≠ 0) : fin x / fin y = fin (x / y) := by
  show (if y = 0 then mulInf x else fin (x / y)) = _; rw [if_neg h]
theorem div_zero_fin (x : ℝ) : fin x / fin 0 = mulInf x := by
  show (if (0 : ℝ) = 0 then mulInf x else fin (x / 0)) = _; simp

theorem nan_add (x : PF) : nan + x = nan := by cases x <;> rfl
theorem add_nan (x : PF) : x + nan = nan := by cases x <;> rfl
theorem nan_mul (x : PF) : nan * x = nan := by cases x <;> rfl
theorem mul_nan (x : PF) : x * nan = nan := by cases x <;> rfl
theorem nan_div (x : PF) : nan / x = nan := by cases x <;> rfl
theorem div_nan (x : PF) : x / nan = nan := by cases x <;> rfl
theorem nan_sub (x : PF) : nan - x = nan := by cases x <;> rfl
theorem sub_nan (x : PF) : x - nan = nan := by cases x <;> rfl
theorem neg_nan : -nan = nan := rfl

theorem sqrt_fin {x : ℝ} (h : 0 ≤ x) : sqrt (fin x) = fin (Real.sqrt x) := by
  simp [sqrt, not_lt.mpr h]
theorem exp_fin (x : ℝ) : exp (fin x) = fin (Real.exp x) := rfl
theorem log_fin {x : ℝ} (h : 0 < x) : log (fin x) = fin (Real.log x) := by simp [log, h]
theorem abs_fin (x : ℝ) : abs (fin x) = fin |x| := rfl
theorem sin_fin (x : ℝ) : sin (fin x) = fin (Real.sin x) := rfl
theorem cos_fin (x : ℝ) : cos (fin x) = fin (Real.cos x) := rfl
theorem tanh_fin (x : ℝ) : tanh (fin x) = fin (Real.tanh x) := rfl
theorem sinh_fin (x : ℝ) : sinh (fin x) = fin (Real.sinh x) := rfl
theorem cosh_fin (x : ℝ) : cosh (fin x) = fin (Real.cosh x) := rfl
theorem floor_fin (x : ℝ) : floor (fin x) = fin (⌊x⌋ : ℝ) := rfl
theorem deg2rad_fin (x : ℝ) : deg2rad (fin x) = fin (x * (Real.pi / 180)) := by
  rw [deg2rad, pi_eq, ofNat_eq, div_fin (by norm_num), mul_fin]

theorem npow_fin {x : ℝ} (h : 0 < x) (y : ℝ) : npow (fin x) (fin y) = fin (x ^ y) := by
  simp [npow, powFin, h]
theorem npow_fin_zero {y : ℝ} (h : 0 < y) : npow (fin 0) (fin y) = fin 0 := by
  simp [npow, powFin, h]
theorem npow_fin_nonneg {x : ℝ} (h : 0 ≤ x) {y : ℝ} (hy : 0 < y) :
    npow (fin x) (fin y) = fin (x ^ y) := by
  rcases h.lt_or_eq with h | h
  · exact npow_fin h y
  · subst h; rw [npow_fin_zero hy, Real.zero_rpow hy.ne']
/-- integer powers are defined for every base -/
theorem npow_nat (x : ℝ) (n : ℕ) (hn : 0 < n) : npow (fin x) (fin (n : ℝ)) = fin (x ^ n) := by
  rcases lt_trichotomy x 0 with h | h | h
  · simp [npow, powFin, not_lt.mpr h.le, h.ne]
    exact ⟨n, by simp⟩
  · subst h
    rw [npow_fin_zero (by exact_mod_cast hn), zero_pow hn.ne']
  · rw [npow_fin h, Real.rpow_natCast]
theorem npow_two (x : ℝ) : npow (fin x) (fin 2) = fin (x ^ 2) := by
  simpa using npow_nat x 2 (by norm_num)
theorem npow_three (x : ℝ) : npow (fin x) (fin 3) = fin (x ^ 3) := by
  simpa using npow_nat x 3 (by norm_num)
theorem npow_nan_left {y : PF} (h : y ≠ fin 0) : npow nan y = nan := by
  cases y with
  | fin y => exact if_neg fun e => h (by rw [e])
  | _ => rfl
theorem npow_nan_fin {y : ℝ} (h : y ≠ 0) : npow nan (fin y) = nan := if_neg h
theorem npow_nan_sci {m : ℕ} {b : Bool} {e : ℕ} (h : (OfScientific.ofScientific m b e : ℝ) ≠ 0) :
    npow nan (OfScientific.ofScientific m b e) = nan := if_neg h
theorem npow_nan_two : npow nan 2 = nan := npow_nan_fin (by norm_num)
theorem npow_nan_three : npow nan 3 = nan := npow_nan_fin (by norm_num)
theorem npow_neg_base {x y : ℝ} (h : x < 0) (hy : ∀ n : ℤ, (n : ℝ) ≠ y) :
    npow (fin x) (fin y) = nan := by
  simp [npow, powFin, not_lt.mpr h.le, h.ne]
  intro n hn; exact absurd hn (hy n)

theorem lt_fin (x y : ℝ) : (fin x < fin y) ↔ x < y := Iff.rfl
theorem le_fin (x y : ℝ) : (fin x ≤ fin y) ↔ x ≤ y := Iff.rfl
theorem gt_fin (x y : ℝ) : (fin x > fin y) ↔ x > y := Iff.rfl
theorem ge_fin (x y : ℝ) : (fin x ≥ fin y) ↔ x ≥ y := Iff.rfl
theorem eqF_fin (x y : ℝ) : eqF (fin x) (fin y) ↔ x = y := Iff.rfl
theorem nan_lt (x : PF) : ¬ (nan < x) := by cases x <;> exact id
theorem lt_nan (x : PF) : ¬ (x < nan) := by cases x <;> exact id
theorem nan_le (x : PF) : ¬ (nan ≤ x) := by cases x <;> exact id
theorem le_nan (x : PF) : ¬ (x ≤ nan) := by cases x <;> exact id
theorem fin_lt_pinf (x : ℝ) : fin x < pinf := trivial
theorem not_pinf_lt (x : PF) : ¬ (pinf < x) := by cases x <;> exact id
theorem not_lt_ninf (x : PF) : ¬ (x < ninf) := by cases x <;> exact id

@[simp] theorem isnan_nan : isnan nan ↔ True := Iff.rfl
@[simp] theorem isnan_fin (x : ℝ) : isnan (fin x) ↔ False := Iff.rfl
@[simp] theorem isnan_pinf : isnan pinf ↔ False := Iff.rfl
@[simp] theorem isnan_ninf : isnan ninf ↔ False := Iff.rfl

theorem min_fin (x y : ℝ) : min (fin x) (fin y) = fin (x ⊓ y) := by
  simp only [min, isnan_fin, if_false, le_fin]
  by_cases h : x ≤ y
  · rw [if_pos h, inf_eq_left.mpr h]
  · rw [if_neg h, inf_eq_right.mpr (not_le.mp h).le]
theorem max_fin (x y : ℝ) : max (fin x) (fin y) = fin (x ⊔ y) := by
  simp only [max, isnan_fin, if_false, le_fin]
  by_cases h : y ≤ x
  · rw [if_pos h, sup_eq_left.mpr h]
  · rw [if_neg h, sup_eq_right.mpr (not_le.mp h).le]

theorem whr_true {c : Prop} (h : c) (x y : PF) : whr c x y = x := if_pos h
theorem whr_false {c : Prop} (h : ¬c) (x y : PF) : whr c x y = y := if_neg h
theorem whr_fin (c : Prop) (x y : ℝ) : whr c (fin x) (fin y) = fin (if c then x else y) := by
  unfold whr; split <;> rfl

/-- the simp set evaluating `PF` expressions whose side conditions are positivity facts -/
macro "pf_eval" "[" ts:Lean.Parser.Tactic.simpLemma,* "]" : tactic => `(tactic|
  simp (disch := first | assumption | positivity | norm_num | (apply ne_of_gt; assumption)) only
    [ofNat_eq, zero_eq, one_eq, sci_eq, pi_eq, neg_fin, add_fin, sub_fin, mul_fin, div_fin, sqrt_fin,
     exp_fin, log_fin, abs_fin, sin_fin, cos_fin, tanh_fin, sinh_fin, cosh_fin, deg2rad_fin, floor_fin,
     npow_two, npow_three, npow_fin, lt_fin, le_fin, gt_fin, ge_fin, eqF_fin, isnan_nan, isnan_fin,
     min_fin, max_fin, whr_fin, fin_inj, Real.rpow_ofNat, $ts,*])

end PF

/-- a positive real is an exponential -/
theorem exists_exp {x : ℝ} (h : 0 < x) : ∃ u, x = Real.exp u := ⟨Real.log x, (Real.exp_log h).symm⟩

/-- after substituting exponentials for positive reals, collect into one exponential -/
macro "exp_norm" : tactic => `(tactic|
  simp only [← Real.exp_add, ← Real.exp_sub, ← Real.exp_neg, ← Real.exp_mul, ← Real.exp_half,
    ← Real.exp_nat_mul, one_div, Real.exp_eq_exp])

/-- decimal literals as fractions (`ring` mishandles them) -/
theorem real_sci (m e : ℕ) : (OfScientific.ofScientific m true e : ℝ) = (m : ℝ) / 10 ^ e := by
  rw [NNRatCast.ofScientific_eq_ite, if_pos rfl, NNRat.cast_divNat]
  push_cast; rfl

/-- decimals to fractions -/
macro "sci_norm" : tactic => `(tactic|
  simp only [real_sci, Nat.cast_ofNat, Nat.cast_one, Nat.cast_zero])

/-- identities between products of powers of exponentials -/
macro "exp_ring" : tactic => `(tactic|
  (exp_norm; (try sci_norm); push_cast; ring))

end
