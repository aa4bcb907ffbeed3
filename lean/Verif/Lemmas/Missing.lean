import Verif.SpecMissing
import Verif.Py.Lemmas

/-! # NaN runs through the arithmetic -/

open PF
noncomputable section

namespace Missing

theorem nan_lt_iff (x : PF) : (nan < x) = False := eq_false (nan_lt x)
theorem lt_nan_iff (x : PF) : (x < nan) = False := eq_false (lt_nan x)
theorem nan_le_iff (x : PF) : (nan ≤ x) = False := eq_false (nan_le x)
theorem le_nan_iff (x : PF) : (x ≤ nan) = False := eq_false (le_nan x)
theorem nan_eqF (x : PF) : PF.eqF nan x = False := by cases x <;> rfl
theorem eqF_nan (x : PF) : PF.eqF x nan = False := by cases x <;> rfl
theorem isnan_nan' : PF.isnan nan = True := rfl
theorem sqrt_nan : PF.sqrt nan = nan := rfl
theorem abs_nan : PF.abs nan = nan := rfl
theorem exp_nan : PF.exp nan = nan := rfl
theorem log_nan : PF.log nan = nan := rfl
theorem sin_nan : PF.sin nan = nan := rfl
theorem cos_nan : PF.cos nan = nan := rfl
theorem tan_nan : PF.tan nan = nan := rfl
theorem sinh_nan : PF.sinh nan = nan := rfl
theorem cosh_nan : PF.cosh nan = nan := rfl
theorem tanh_nan : PF.tanh nan = nan := rfl
theorem round_nan : PF.round nan = nan := rfl
theorem floor_nan : PF.floor nan = nan := rfl
theorem deg2rad_nan : PF.deg2rad nan = nan := rfl
theorem fin_ne {x : ℝ} (h : x ≠ 0) : fin x ≠ fin 0 := fun e => h (PF.fin.inj e)
theorem npow_nan_nan : npow nan nan = nan := rfl
theorem min_nan (x : PF) : PF.min x nan = nan := by cases x <;> simp [PF.min]
theorem nan_min (x : PF) : PF.min nan x = nan := by simp [PF.min]
theorem max_nan (x : PF) : PF.max x nan = nan := by cases x <;> simp [PF.max]
theorem nan_max (x : PF) : PF.max nan x = nan := by simp [PF.max]
theorem whr_self (c : Prop) (x : PF) : PF.whr c x x = x := by unfold PF.whr; split_ifs <;> rfl
theorem whr_false (x y : PF) : PF.whr False x y = y := if_neg id
theorem whr_true (x y : PF) : PF.whr True x y = x := if_pos trivial

variable {α β : Type} [Number α] [Number β]

theorem NoNumber.raise (e : PyErr) : NoNumber (PyM.raise e : PyM α) := fun _ h => by cases h
theorem NoNumber.raise_bind {γ : Type} (e : PyErr) (f : γ → PyM α) : NoNumber (PyM.raise e >>= f) :=
  fun _ h => by cases h
theorem NoNumber.nan : NoNumber (pure nan : PyM PF) := fun v h => by cases h; rfl
theorem NoNumber.nan2 {γ : Type} (b : γ) : NoNumber (pure (.nan, b) : PyM (PF × γ)) := fun v h => by cases h; rfl
theorem NoNumber.bind {γ : Type} {x : PyM γ} {f : γ → PyM β} (h : ∀ v, NoNumber (f v)) : NoNumber (x >>= f) :=
  fun v hv => by
    obtain ⟨a, -, h2, -⟩ := PyM.bind_inv hv
    exact h a v h2
theorem NoNumber.bind_nan {x : PyM PF} {f : PF → PyM β} (hx : NoNumber x) (h : NoNumber (f .nan)) :
    NoNumber (x >>= f) :=
  fun v hv => by
    obtain ⟨a, h1, h2, -⟩ := PyM.bind_inv hv
    obtain rfl : a = .nan := hx a h1
    exact h v h2
theorem NoNumber.bind_nan2 {γ : Type} {x : PyM (PF × γ)} {f : PF × γ → PyM β} (hx : NoNumber x)
    (h : ∀ b, NoNumber (f (.nan, b))) : NoNumber (x >>= f) :=
  fun v hv => by
    obtain ⟨⟨a, b⟩, h1, h2, -⟩ := PyM.bind_inv hv
    obtain rfl : a = .nan := hx _ h1
    exact h b v h2
theorem NoNumber.ite {c : Prop} [Decidable c] {x y : PyM α} (h1 : c → NoNumber x) (h2 : ¬ c → NoNumber y) :
    NoNumber (if c then x else y) := by split_ifs with h; exacts [h1 h, h2 h]

end Missing

/-- an exponent is not zero -/
macro "exponent" : tactic => `(tactic| first
  | assumption
  | (try simp (disch := first | (norm_num; done) | positivity) only [PF.ofNat_eq, PF.one_eq, PF.zero_eq, PF.sci_eq,
      PF.neg_fin, PF.div_fin, PF.add_fin, PF.mul_fin, PF.sub_fin]
     refine Missing.fin_ne ?_
     first | (norm_num; done) | positivity | (refine neg_ne_zero.mpr ?_; positivity) |
       (refine mul_ne_zero ?_ ?_ <;> first | (norm_num; done) | positivity)))

/-- replaces everything computed from NaN by NaN -/
syntax "nan_simp" "[" Lean.Parser.Tactic.simpLemma,* "]" : tactic
macro_rules
  | `(tactic| nan_simp [$ls,*]) => `(tactic|
    simp (disch := exponent) only [PF.nan_add, PF.add_nan, PF.nan_mul, PF.mul_nan, PF.nan_div, PF.div_nan,
      PF.nan_sub, PF.sub_nan, PF.neg_nan, Missing.npow_nan_nan, PF.npow_nan_left, gt_iff_lt, ge_iff_le, Missing.nan_lt_iff,
      Missing.lt_nan_iff, Missing.nan_le_iff, Missing.le_nan_iff, Missing.nan_eqF, Missing.eqF_nan,
      Missing.isnan_nan', Missing.sqrt_nan, Missing.abs_nan, Missing.exp_nan, Missing.log_nan,
      Missing.sin_nan, Missing.cos_nan, Missing.tan_nan, Missing.sinh_nan, Missing.cosh_nan,
      Missing.tanh_nan, Missing.round_nan, Missing.floor_nan, Missing.deg2rad_nan, Missing.min_nan,
      Missing.nan_min, Missing.max_nan, Missing.nan_max, Missing.whr_self, Missing.whr_false,
      Missing.whr_true, ite_self, if_true, if_false, if_pos, if_neg, and_false, false_and, and_true, true_and,
      or_true, true_or, or_false, false_or, not_true_eq_false, not_false_eq_true, pure_bind, bind_assoc, $ls,*])

/-- follows NaN through a call -/
syntax "no_number" "[" Lean.Parser.Tactic.simpLemma,* "]" : tactic
macro_rules
  | `(tactic| no_number [$ls,*]) => `(tactic|
    ((try nan_simp [$ls,*])
     first
     | done
     | with_reducible exact Missing.NoNumber.raise _
     | with_reducible exact Missing.NoNumber.nan
     | with_reducible exact Missing.NoNumber.nan2 _
     | (with_reducible refine Missing.NoNumber.bind fun _ => ?_; no_number [$ls,*])
     | (with_reducible refine Missing.NoNumber.bind_nan ?_ ?_ <;> no_number [$ls,*])
     | (with_reducible refine Missing.NoNumber.bind_nan2 ?_ ?_ <;> (try intro _) <;> no_number [$ls,*])
     | (with_reducible refine Missing.NoNumber.ite (fun _ => ?_) (fun _ => ?_) <;> no_number [$ls,*])
     | (split <;> no_number [$ls,*])))
end
