import Verif.SpecIter
import Verif.Lemmas.ArrayLoop

/-! # Loops with a limit and a tolerance -/

open Classical
open Iteration
noncomputable section
namespace IterProof

theorem gt_not_nan {x : PF} {t : PF} (h : x > t) : ¬ x.isnan := by
  intro hn
  cases x <;> first | exact hn.elim | skip
  exact (show ¬ (t < PF.nan) by intro h; cases t <;> exact h) h

/-- `last` is the change made by the pass that led to a state, `val` the estimate -/
theorem stops {σ : Type} (body : σ → σ) (s0 : σ) (last val : σ → PF) (out : ℕ → σ → PyM PF)
    (start : PF) (h0 : ∀ t : ℝ, last s0 > .fin t)
    (hone : ∀ k N s, (out k s).res = (out N s).res)
    (hout : ∀ N s, (out N (body s)).res = .ok (val (body s)))
    (h1 : last (body s0) = PF.abs (val (body s0) - start))
    (hlast : ∀ s, last (body (body s)) = PF.abs (val (body (body s)) - val (body s))) :
    StopsAtFirst start fun N t => out N (whileIter N (fun s => last s > t) body s0) := by
  intro N t
  obtain ⟨K, hK, e, hc, hx⟩ := whileIter_spec (fun s => last s > .fin t) body N s0
  -- without tolerance
  have hfree : ∀ k ≤ K, whileIter k (fun s => last s > -1.0) body s0 = body^[k] s0 := by
    intro k hk
    refine whileIter_all _ _ _ _ fun j hj => ?_
    have hj' := hc j (by omega)
    cases j with
    | zero =>
      have := h0 (-1.0)
      have e : (-1.0 : PF) = .fin (-1.0) := by rw [PF.sci_eq, PF.neg_fin]
      rw [e]; exact this
    | succ j =>
      have hn := gt_not_nan hj'
      cases j with
      | zero =>
        rw [Function.iterate_succ_apply', Function.iterate_zero, id_eq] at hn ⊢
        rw [h1] at hn ⊢
        exact ArrProof.abs_gt_neg _ hn
      | succ j =>
        rw [Function.iterate_succ_apply', Function.iterate_succ_apply'] at hn ⊢
        rw [hlast] at hn ⊢
        exact ArrProof.abs_gt_neg _ hn
  -- the estimates of consecutive passes
  have hpair : ∀ k, 1 ≤ k → k ≤ K → ∃ x y,
      after start (fun N t => out N (whileIter N (fun s => last s > t) body s0)) k = .ok x ∧
      after start (fun N t => out N (whileIter N (fun s => last s > t) body s0)) (k - 1) = .ok y ∧
      last (body^[k] s0) = PF.abs (x - y) := by
    intro k hk1 hk
    obtain ⟨j, rfl⟩ : ∃ j, k = j + 1 := ⟨k - 1, by omega⟩
    have ea : after start (fun N t => out N (whileIter N (fun s => last s > t) body s0)) (j + 1)
        = .ok (val (body^[j + 1] s0)) := by
      unfold after
      rw [if_neg (by omega)]
      dsimp only
      rw [hfree _ hk, Function.iterate_succ_apply', hout]
    rw [Nat.add_sub_cancel]
    cases j with
    | zero =>
      exact ⟨_, _, ea, rfl, h1⟩
    | succ j =>
      refine ⟨_, val (body^[j + 1] s0), ea, ?_, ?_⟩
      · unfold after
        rw [if_neg (by omega)]
        dsimp only
        rw [hfree _ (by omega), Function.iterate_succ_apply', hout]
      · rw [Function.iterate_succ_apply', Function.iterate_succ_apply', hlast]
  refine ⟨K, hK, ?_, ?_, ?_⟩
  · dsimp only
    rw [e, hfree K le_rfl]
    exact hone _ _ _
  · intro j hj1 hj
    obtain ⟨x, y, hx, hy, he⟩ := hpair j hj1 hj.le
    exact ⟨x, y, hx, hy, by rw [← he]; exact hc j hj⟩
  · rcases hx with hx | hx
    · exact Or.inl hx
    · right
      have hK1 : 1 ≤ K := by
        rcases Nat.eq_zero_or_pos K with h | h
        · subst h
          exact absurd (h0 t) hx
        · exact h
      obtain ⟨x, y, hx', hy, he⟩ := hpair K hK1 le_rfl
      exact ⟨hK1, x, y, hx', hy, by rw [← he]; exact hx⟩

/-- arguments that are looked at before the loop -/
theorem stops_bind {start : PF} {m : PyM PF} {g : PF → ℕ → PF → PyM PF}
    (h : ∀ D, m.res = .ok D → StopsWhenSettled start (g D)) :
    StopsWhenSettled start fun N t => m >>= fun D => g D N t := by
  cases hm : m.res with
  | error e =>
    left
    refine ⟨e, fun N t => ?_⟩
    obtain ⟨w, r⟩ := m
    cases hm
    rfl
  | ok D =>
    have hb : ∀ N t, (m >>= fun D => g D N t).res = (g D N t).res := fun N t =>
      PyM.bind_res_of_ok hm _
    have e := h D hm
    unfold StopsWhenSettled StopsAtFirst Moved Settled after at e ⊢
    simpa only [hb] using e

theorem neg_one : (-1.0 : PF) = .fin (-1.0) := by rw [PF.sci_eq, PF.neg_fin]

theorem stops_congr {start : PF} {f g : ℕ → PF → PyM PF} (h : ∀ N (t : ℝ), (f N (.fin t)).res = (g N (.fin t)).res)
    (hf : StopsAtFirst start f) : StopsAtFirst start g := by
  have h' : ∀ N, (f N (-1.0)).res = (g N (-1.0)).res := fun N => by rw [neg_one]; exact h N _
  unfold StopsAtFirst Moved Settled after at hf ⊢
  simpa only [h, h'] using hf

end IterProof
end
