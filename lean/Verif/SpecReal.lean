import Verif.Spec

/-! # Vocabulary for quantities that may be negative (crest freeboards) -/

open PF
noncomputable section

/-- every number put into `f` gives a positive number that `g` sends back, every positive number put
into `g` gives a number that `f` sends back; no call raises -/
def InverseOnReals (f g : PF → PyM PF) : Prop :=
  (∀ x : ℝ, ∃ y : ℝ, 0 < y ∧ (f (fin x)).res = .ok (fin y) ∧ (g (fin y)).res = .ok (fin x)) ∧
  (∀ y : ℝ, 0 < y → ∃ x : ℝ, (g (fin y)).res = .ok (fin x) ∧ (f (fin x)).res = .ok (fin y))

/-- the function returns a number for every number and a larger input gives a smaller output -/
def StrictlyDecreasingOnReals (f : PF → PyM PF) : Prop :=
  ∀ x y : ℝ, x < y → ∃ a b : ℝ, (f (fin x)).res = .ok (fin a) ∧ (f (fin y)).res = .ok (fin b) ∧ b < a

/-- proof helper: inverse real formulas -/
theorem InverseOnReals.of_real {f g : PF → PyM PF} (F G : ℝ → ℝ)
    (hf : ∀ x, (f (fin x)).res = .ok (fin (F x)))
    (hg : ∀ y, 0 < y → (g (fin y)).res = .ok (fin (G y)))
    (hF : ∀ x, 0 < F x) (hGF : ∀ x, G (F x) = x) (hFG : ∀ y, 0 < y → F (G y) = y) :
    InverseOnReals f g :=
  ⟨fun x => ⟨F x, hF x, hf x, by rw [hg _ (hF x), hGF x]⟩,
   fun y hy => ⟨G y, hg y hy, by rw [hf _, hFG y hy]⟩⟩

/-- an inverse pair whose second function is strictly decreasing has a strictly decreasing first one -/
theorem StrictlyDecreasingOnReals.of_real {f : PF → PyM PF} (F : ℝ → ℝ)
    (hf : ∀ x, (f (fin x)).res = .ok (fin (F x))) (hF : ∀ x y, x < y → F y < F x) :
    StrictlyDecreasingOnReals f :=
  fun x y h => ⟨F x, F y, hf x, hf y, hF x y h⟩

end
