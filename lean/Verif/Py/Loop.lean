import Verif.Py.Monad
import Mathlib.Logic.Function.Iterate

/-! # Bounded `while` loops -/

open Classical
noncomputable section

/-- `while cond(state) and n_iter < max_iter: n_iter += 1; state = body(state)` with `n_iter = 0`
initially: the first argument counts the iterations still allowed. -/
def whileIter {σ : Type} : ℕ → (σ → Prop) → (σ → σ) → σ → σ
  | 0, _, _, s => s
  | n + 1, cond, body, s => if cond s then whileIter n cond body (body s) else s

variable {σ : Type} (cond : σ → Prop) (body : σ → σ)

/-- what a bounded loop returns: an iterate, reached with the condition true all the way, where
either the condition is false or the limit is used up -/
theorem whileIter_spec (n : ℕ) (s : σ) : ∃ k ≤ n, whileIter n cond body s = body^[k] s ∧
    (∀ j < k, cond (body^[j] s)) ∧ (k = n ∨ ¬ cond (body^[k] s)) := by
  induction n generalizing s with
  | zero => exact ⟨0, le_rfl, rfl, by simp, Or.inl rfl⟩
  | succ n ih =>
    unfold whileIter
    split_ifs with h
    · obtain ⟨k, hk, e, hc, hx⟩ := ih (body s)
      refine ⟨k + 1, by omega, by rw [e, Function.iterate_succ_apply], ?_, ?_⟩
      · intro j hj
        cases j with
        | zero => exact h
        | succ j => rw [Function.iterate_succ_apply]; exact hc j (by omega)
      · rcases hx with hx | hx
        · left; omega
        · right; rw [Function.iterate_succ_apply]; exact hx
    · exact ⟨0, by omega, rfl, by simp, Or.inr h⟩

/-- an invariant of the body is an invariant of the loop -/
theorem whileIter_inv (I : σ → Prop) (hb : ∀ s, I s → I (body s)) (n : ℕ) {s : σ} (hs : I s) :
    I (whileIter n cond body s) := by
  induction n generalizing s with
  | zero => exact hs
  | succ n ih =>
    unfold whileIter
    split_ifs
    · exact ih (hb s hs)
    · exact hs

/-- if the condition stays true the loop uses all its iterations -/
theorem whileIter_all (n : ℕ) (s : σ) (h : ∀ j < n, cond (body^[j] s)) :
    whileIter n cond body s = body^[n] s := by
  induction n generalizing s with
  | zero => rfl
  | succ n ih =>
    unfold whileIter
    rw [if_pos (show cond s from h 0 (by omega)), Function.iterate_succ_apply]
    exact ih _ fun j hj => by
      have := h (j + 1) (by omega); rwa [Function.iterate_succ_apply] at this

/-- if the condition fails within the limit, the loop stops at the first such state, whatever the
limit -/
theorem whileIter_stop (n k : ℕ) (s : σ) (hk : k ≤ n) (h : ∀ j < k, cond (body^[j] s))
    (hn : ¬ cond (body^[k] s)) : whileIter n cond body s = body^[k] s := by
  induction n generalizing s k with
  | zero => obtain rfl : k = 0 := by omega
            rfl
  | succ n ih =>
    unfold whileIter
    cases k with
    | zero => exact if_neg hn
    | succ k =>
      rw [if_pos (show cond s from h 0 (by omega)), Function.iterate_succ_apply]
      exact ih k _ (by omega) (fun j hj => by
        have := h (j + 1) (by omega); rwa [Function.iterate_succ_apply] at this)
        (by rwa [Function.iterate_succ_apply] at hn)

/-- `while cond(state): state = body(state)` without a limit; `none` when it never stops -/
def whileUnb {σ : Type} (cond : σ → Prop) (body : σ → σ) (s : σ) : Option σ :=
  if h : ∃ k, ¬ cond (body^[k] s) then some (body^[Nat.find h] s) else none

variable {cond} {body} in
theorem whileUnb_some {s r : σ} : whileUnb cond body s = some r ↔
    ∃ k, r = body^[k] s ∧ ¬ cond r ∧ ∀ j < k, cond (body^[j] s) := by
  unfold whileUnb
  split_ifs with h
  · rw [Option.some.injEq]
    constructor
    · rintro rfl
      exact ⟨Nat.find h, rfl, Nat.find_spec h, fun j hj => not_not.mp (Nat.find_min h hj)⟩
    · rintro ⟨k, rfl, hk, hj⟩
      congr 1
      exact (Nat.find_eq_iff h).mpr ⟨hk, fun n hn => not_not.mpr (hj n hn)⟩
  · constructor
    · intro h2; cases h2
    · rintro ⟨k, rfl, hk, -⟩; exact absurd ⟨k, hk⟩ h

variable {cond} {body} in
theorem whileUnb_none {s : σ} : whileUnb cond body s = none ↔ ∀ k, cond (body^[k] s) := by
  unfold whileUnb
  split_ifs with h
  · constructor
    · intro h2; cases h2
    · intro h2; obtain ⟨k, hk⟩ := h; exact absurd (h2 k) hk
  · constructor
    · intro _ k; by_contra hk; exact h ⟨k, hk⟩
    · intro _; rfl

/-- the same loop with a body that may warn or raise: warnings accumulate over the iterations, an
exception ends the loop -/
def whileIterM {σ : Type} : ℕ → (σ → Prop) → (σ → PyM σ) → σ → PyM σ
  | 0, _, _, s => pure s
  | n + 1, cond, body, s => if cond s then body s >>= whileIterM n cond body else pure s

variable {cond} in
/-- what a bounded loop with effects returns: the end of a chain of successful passes, no longer than
the limit, each started with the condition true, where either the condition is false or the limit is
used up -/
theorem whileIterM_spec {bodyM : σ → PyM σ} (n : ℕ) (s r : σ)
    (h : (whileIterM n cond bodyM s).res = .ok r) :
    ∃ (k : ℕ) (t : ℕ → σ), k ≤ n ∧ t 0 = s ∧ t k = r ∧
      (∀ j < k, cond (t j) ∧ (bodyM (t j)).res = .ok (t (j + 1))) ∧ (k = n ∨ ¬ cond r) := by
  induction n generalizing s with
  | zero => 
    obtain rfl : s = r := by simpa [whileIterM] using h
    exact ⟨0, fun _ => s, le_rfl, rfl, rfl, by simp, Or.inl rfl⟩
  | succ n ih =>
    unfold whileIterM at h
    split_ifs at h with hc
    · obtain ⟨a, ha, hr, -⟩ := PyM.bind_inv h
      obtain ⟨k, t, hk, h0, hkr, hj, hx⟩ := ih a hr
      refine ⟨k + 1, fun j => Nat.casesOn j s t, by omega, rfl, hkr, ?_, ?_⟩
      · intro j hj'
        cases j with
        | zero => exact ⟨hc, by simpa [h0] using ha⟩
        | succ j => exact hj j (by omega)
      · rcases hx with hx | hx
        · left; omega
        · exact Or.inr hx
    · obtain rfl : s = r := by simpa using h
      exact ⟨0, fun _ => s, by omega, rfl, rfl, by simp, Or.inr hc⟩

/-- a loop whose passes all succeed inside an invariant succeeds inside it -/
theorem whileIterM_ok {bodyM : σ → PyM σ} (I : σ → Prop)
    (hb : ∀ s, I s → ∃ t, (bodyM s).res = .ok t ∧ I t) (n : ℕ) (s : σ) (hs : I s) :
    ∃ r, (whileIterM n cond bodyM s).res = .ok r ∧ I r := by
  induction n generalizing s with
  | zero => exact ⟨s, rfl, hs⟩
  | succ n ih =>
    unfold whileIterM
    split_ifs with hc
    · obtain ⟨t, ht, hI⟩ := hb s hs
      obtain ⟨r, hr, hIr⟩ := ih t hI
      exact ⟨r, by rw [PyM.bind_res_of_ok ht, hr], hIr⟩
    · exact ⟨s, rfl, hs⟩

end
