import Verif.Spec
import Mathlib.Analysis.SpecialFunctions.Pow.Real

/-! # How errors of the input are passed on

`ChangesBetween f a b`: if the argument of `f` is multiplied by `k ≥ 1`, the (positive) result is multiplied by
a factor between `k ^ a` and `k ^ b`.  For small errors: `p` % more of the argument gives between `a p` % and
`b p` % more of the result. -/

open Classical
open PF
noncomputable section

def ChangesBetween (f : PF → PyM PF) (a b : ℝ) : Prop :=
  ∀ x k : ℝ, 0 < x → 1 ≤ k → ∃ v v' : ℝ, 0 < v ∧ (f (fin x)).res = .ok (fin v) ∧
    (f (fin (k * x))).res = .ok (fin v') ∧ k ^ a * v ≤ v' ∧ v' ≤ k ^ b * v

/-- the result is multiplied by exactly `k ^ a` -/
def ChangesAs (f : PF → PyM PF) (a : ℝ) : Prop :=
  ∀ x k : ℝ, 0 < x → 1 ≤ k → ∃ v : ℝ, 0 < v ∧ (f (fin x)).res = .ok (fin v) ∧
    (f (fin (k * x))).res = .ok (fin (k ^ a * v))

namespace Sens

/-- the same for a formula -/
structure El (F : ℝ → ℝ) (a b : ℝ) : Prop where
  pos : ∀ x, 0 < x → 0 < F x
  lo : ∀ x k, 0 < x → 1 ≤ k → k ^ a * F x ≤ F (k * x)
  hi : ∀ x k, 0 < x → 1 ≤ k → F (k * x) ≤ k ^ b * F x

variable {F G : ℝ → ℝ} {a b c d p : ℝ}

theorem between {f : PF → PyM PF} (h : ∀ x, 0 < x → (f (fin x)).res = .ok (fin (F x))) (e : El F a b) :
    ChangesBetween f a b := fun x k hx hk =>
  ⟨_, _, e.pos x hx, h x hx, h _ (mul_pos (by linarith) hx), e.lo x k hx hk, e.hi x k hx hk⟩

theorem as {f : PF → PyM PF} (h : ∀ x, 0 < x → (f (fin x)).res = .ok (fin (F x))) (e : El F a a) :
    ChangesAs f a := fun x k hx hk =>
  ⟨_, e.pos x hx, h x hx, by
    rw [h _ (mul_pos (by linarith) hx), le_antisymm (e.hi x k hx hk) (e.lo x k hx hk)]⟩

theorem congr (e : El F a b) (h : ∀ x, 0 < x → G x = F x) : El G a b where
  pos x hx := by rw [h x hx]; exact e.pos x hx
  lo x k hx hk := by rw [h x hx, h _ (mul_pos (by linarith) hx)]; exact e.lo x k hx hk
  hi x k hx hk := by rw [h x hx, h _ (mul_pos (by linarith) hx)]; exact e.hi x k hx hk

theorem El.weaken (e : El F a b) (h : c ≤ a) (h' : b ≤ d) : El F c d where
  pos := e.pos
  lo x k hx hk := (mul_le_mul_of_nonneg_right (Real.rpow_le_rpow_of_exponent_le hk h) (e.pos x hx).le).trans
    (e.lo x k hx hk)
  hi x k hx hk := (e.hi x k hx hk).trans
    (mul_le_mul_of_nonneg_right (Real.rpow_le_rpow_of_exponent_le hk h') (e.pos x hx).le)

theorem El.of_eq (e : El F a b) (h : a = c) (h' : b = d) : El F c d := h ▸ h' ▸ e

theorem El.const {v : ℝ} (hv : 0 < v) : El (fun _ => v) 0 0 where
  pos _ _ := hv
  lo _ _ _ _ := by simp
  hi _ _ _ _ := by simp

theorem El.id : El (fun x => x) 1 1 where
  pos _ h := h
  lo _ _ _ _ := by simp
  hi _ _ _ _ := by simp

theorem El.mul (e : El F a b) (e' : El G c d) : El (fun x => F x * G x) (a + c) (b + d) where
  pos x hx := mul_pos (e.pos x hx) (e'.pos x hx)
  lo x k hx hk := by
    have h0 : 0 < k := by linarith
    have h1 := e.pos x hx
    have h2 := e'.pos x hx
    have := mul_le_mul (e.lo x k hx hk) (e'.lo x k hx hk) (by positivity) (e.pos _ (mul_pos h0 hx)).le
    rw [Real.rpow_add h0]
    calc _ = k ^ a * F x * (k ^ c * G x) := by ring
      _ ≤ _ := this
  hi x k hx hk := by
    have h0 : 0 < k := by linarith
    have h1 := e.pos x hx
    have h2 := e'.pos x hx
    have := mul_le_mul (e.hi x k hx hk) (e'.hi x k hx hk) (e'.pos _ (mul_pos h0 hx)).le (by positivity)
    rw [Real.rpow_add h0]
    calc _ ≤ _ := this
      _ = _ := by ring

theorem El.inv (e : El F a b) : El (fun x => (F x)⁻¹) (-b) (-a) where
  pos x hx := inv_pos.mpr (e.pos x hx)
  lo x k hx hk := by
    have h0 : 0 < k := by linarith
    have h1 := e.pos x hx
    rw [Real.rpow_neg h0.le, ← mul_inv]
    exact inv_anti₀ (e.pos _ (mul_pos h0 hx)) (e.hi x k hx hk)
  hi x k hx hk := by
    have h0 : 0 < k := by linarith
    have h1 := e.pos x hx
    rw [Real.rpow_neg h0.le, ← mul_inv]
    exact inv_anti₀ (by positivity) (e.lo x k hx hk)

theorem El.div (e : El F a b) (e' : El G c d) : El (fun x => F x / G x) (a - d) (b - c) := by
  have := e.mul e'.inv
  simpa only [div_eq_mul_inv, sub_eq_add_neg] using this

theorem El.rpow (e : El F a b) (hp : 0 ≤ p) : El (fun x => F x ^ p) (a * p) (b * p) where
  pos x hx := Real.rpow_pos_of_pos (e.pos x hx) p
  lo x k hx hk := by
    have h0 : 0 < k := by linarith
    have h1 := e.pos x hx
    rw [Real.rpow_mul h0.le, ← Real.mul_rpow (by positivity) h1.le]
    exact Real.rpow_le_rpow (by positivity) (e.lo x k hx hk) hp
  hi x k hx hk := by
    have h0 : 0 < k := by linarith
    have h1 := e.pos x hx
    rw [Real.rpow_mul h0.le, ← Real.mul_rpow (by positivity) h1.le]
    exact Real.rpow_le_rpow (e.pos _ (mul_pos h0 hx)).le (e.hi x k hx hk) hp

theorem El.rpow_neg (e : El F a b) (hp : p ≤ 0) : El (fun x => F x ^ p) (b * p) (a * p) := by
  have h := (e.rpow (p := -p) (by linarith)).inv
  refine congr (by simpa using h) fun x hx => ?_
  rw [← Real.rpow_neg (e.pos x hx).le, neg_neg]

theorem El.pow (e : El F a b) (n : ℕ) : El (fun x => F x ^ n) (a * n) (b * n) := by
  have h := e.rpow (p := n) (by positivity)
  simpa only [Real.rpow_natCast] using h

theorem El.sqrt (e : El F a b) : El (fun x => √(F x)) (a / 2) (b / 2) := by
  have h := e.rpow (p := 1 / 2) (by norm_num)
  simp only [← Real.sqrt_eq_rpow] at h
  simpa only [mul_one_div] using h

theorem El.min (e : El F a b) (e' : El G a b) : El (fun x => F x ⊓ G x) a b where
  pos x hx := lt_min (e.pos x hx) (e'.pos x hx)
  lo x k hx hk := by
    have h0 : 0 ≤ k ^ a := Real.rpow_nonneg (by linarith) _
    rw [mul_min_of_nonneg _ _ h0]
    exact min_le_min (e.lo x k hx hk) (e'.lo x k hx hk)
  hi x k hx hk := by
    have h0 : 0 ≤ k ^ b := Real.rpow_nonneg (by linarith) _
    rw [mul_min_of_nonneg _ _ h0]
    exact min_le_min (e.hi x k hx hk) (e'.hi x k hx hk)

theorem El.max (e : El F a b) (e' : El G a b) : El (fun x => F x ⊔ G x) a b where
  pos x hx := lt_max_of_lt_left (e.pos x hx)
  lo x k hx hk := by
    have h0 : 0 ≤ k ^ a := Real.rpow_nonneg (by linarith) _
    rw [mul_max_of_nonneg _ _ h0]
    exact max_le_max (e.lo x k hx hk) (e'.lo x k hx hk)
  hi x k hx hk := by
    have h0 : 0 ≤ k ^ b := Real.rpow_nonneg (by linarith) _
    rw [mul_max_of_nonneg _ _ h0]
    exact max_le_max (e.hi x k hx hk) (e'.hi x k hx hk)

theorem El.add (e : El F a b) (e' : El G a b) : El (fun x => F x + G x) a b where
  pos x hx := add_pos (e.pos x hx) (e'.pos x hx)
  lo x k hx hk := by
    have := add_le_add (e.lo x k hx hk) (e'.lo x k hx hk)
    rwa [← mul_add] at this
  hi x k hx hk := by
    have := add_le_add (e.hi x k hx hk) (e'.hi x k hx hk)
    rwa [← mul_add] at this

theorem El.cmul (e : El F a b) {v : ℝ} (hv : 0 < v) : El (fun x => v * F x) a b := by
  simpa using (El.const hv).mul e

theorem El.mulc (e : El F a b) {v : ℝ} (hv : 0 < v) : El (fun x => F x * v) a b := by
  simpa using e.mul (El.const hv)

theorem El.divc (e : El F a b) {v : ℝ} (hv : 0 < v) : El (fun x => F x / v) a b := by
  simpa using e.div (El.const hv)

theorem El.cdiv (e : El F a b) {v : ℝ} (hv : 0 < v) : El (fun x => v / F x) (-b) (-a) := by
  simpa using (El.const hv).div e

/-- a formula that switches where both branches agree in order: written as a minimum or a choice that does not
depend on the argument -/
theorem El.ite {q : Prop} (e : El F a b) (e' : El G a b) : El (fun x => if q then F x else G x) a b := by
  split_ifs
  · exact e
  · exact e'

end Sens
end
