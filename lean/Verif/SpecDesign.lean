import Verif.Spec
import Verif.SpecReal

/-! # Design values as limits

A design function (rock size, wave height, crest level) is used as a limit: what is on the safe side of the
returned value meets the requirement, what is on the other side does not. -/

open Classical
open PF
noncomputable section

/-- every positive value of the design parameter gives a result, and the result meets the limit `allowed`
exactly from the returned value upwards -/
def SafeFrom (outcome : PF → PyM PF) (allowed : ℝ) (design : PyM PF) : Prop :=
  ∃ d : ℝ, design.res = .ok (fin d) ∧
    ∀ x : ℝ, 0 < x → ∃ v : ℝ, (outcome (fin x)).res = .ok (fin v) ∧ (v ≤ allowed ↔ d ≤ x)

/-- every positive value of the design parameter gives a result, and the result meets the limit `allowed`
exactly up to the returned value -/
def SafeUpTo (outcome : PF → PyM PF) (allowed : ℝ) (design : PyM PF) : Prop :=
  ∃ d : ℝ, design.res = .ok (fin d) ∧
    ∀ x : ℝ, 0 < x → ∃ v : ℝ, (outcome (fin x)).res = .ok (fin v) ∧ (v ≤ allowed ↔ x ≤ d)

/-- as `SafeFrom` for a parameter that may also be zero or negative, such as a level -/
def SafeFromLevel (outcome : PF → PyM PF) (allowed : ℝ) (design : PyM PF) : Prop :=
  ∃ d : ℝ, design.res = .ok (fin d) ∧
    ∀ x : ℝ, ∃ v : ℝ, (outcome (fin x)).res = .ok (fin v) ∧ (v ≤ allowed ↔ d ≤ x)

/-- the same for functions that return a number and a flag, wherever they return: the design function
returned `d`, so the outcome exists from `d` upwards, and it meets the limit exactly there -/
def CrestLimit (outcome : PF → PyM (PF × Bool)) (allowed d : ℝ) : Prop :=
  (∀ x : ℝ, d ≤ x → ∃ (v : ℝ) (m : Bool), (outcome (fin x)).res = .ok (fin v, m)) ∧
  ∀ (x v : ℝ) (m : Bool), (outcome (fin x)).res = .ok (fin v, m) → (v ≤ allowed ↔ d ≤ x)

/-- two functions answer the same question from both sides: the size needed for `x` does not exceed `y`
exactly if `x` does not exceed what size `y` can stand -/
def SameLimit (needed capacity : PF → PyM PF) : Prop :=
  ∀ x y : ℝ, 0 < x → 0 < y → ∃ a b : ℝ, (needed (fin x)).res = .ok (fin a) ∧
    (capacity (fin y)).res = .ok (fin b) ∧ (a ≤ y ↔ x ≤ b)

namespace DesignProof
variable {f g : PF → PyM PF} {S : ℝ}

theorem from_inverse (hi : MutuallyInverse f g) (hm : StrictlyDecreasing g) (hS : 0 < S) :
    SafeFrom g S (f (fin S)) := by
  obtain ⟨d, hd, e, e'⟩ := hi.1 S hS
  refine ⟨d, e, fun x hx => ?_⟩
  rcases lt_trichotomy x d with h | rfl | h
  · obtain ⟨a, b, ha, hb, hab⟩ := hm x d hx h
    rw [e'] at hb
    cases hb
    exact ⟨a, ha, ⟨fun h' => absurd h' (not_le.mpr hab), fun h' => absurd h' (not_le.mpr h)⟩⟩
  · exact ⟨S, e', by simp⟩
  · obtain ⟨a, b, ha, hb, hab⟩ := hm d x hd h
    rw [e'] at ha
    cases ha
    exact ⟨b, hb, by simp [hab.le, h.le]⟩

theorem upto_inverse (hi : MutuallyInverse f g) (hm : StrictlyIncreasing g) (hS : 0 < S) :
    SafeUpTo g S (f (fin S)) := by
  obtain ⟨d, hd, e, e'⟩ := hi.1 S hS
  refine ⟨d, e, fun x hx => ?_⟩
  rcases lt_trichotomy x d with h | rfl | h
  · obtain ⟨a, b, ha, hb, hab⟩ := hm x d hx h
    rw [e'] at hb
    cases hb
    exact ⟨a, ha, by simp [hab.le, h.le]⟩
  · exact ⟨S, e', by simp⟩
  · obtain ⟨a, b, ha, hb, hab⟩ := hm d x hd h
    rw [e'] at ha
    cases ha
    exact ⟨b, hb, ⟨fun h' => absurd h' (not_le.mpr hab), fun h' => absurd h' (not_le.mpr h)⟩⟩

/-- one point on the limit suffices if the outcome falls strictly -/
theorem from_root {design : PyM PF} {d : ℝ} (hd : 0 < d) (e : design.res = .ok (fin d))
    (e' : (g (fin d)).res = .ok (fin S)) (hm : StrictlyDecreasing g) : SafeFrom g S design := by
  refine ⟨d, e, fun x hx => ?_⟩
  rcases lt_trichotomy x d with h | rfl | h
  · obtain ⟨a, b, ha, hb, hab⟩ := hm x d hx h
    rw [e'] at hb
    cases hb
    exact ⟨a, ha, ⟨fun h' => absurd h' (not_le.mpr hab), fun h' => absurd h' (not_le.mpr h)⟩⟩
  · exact ⟨S, e', by simp⟩
  · obtain ⟨a, b, ha, hb, hab⟩ := hm d x hd h
    rw [e'] at ha
    cases ha
    exact ⟨b, hb, by simp [hab.le, h.le]⟩

theorem level_inverse (hi : InverseOnReals f g) (hm : StrictlyDecreasingOnReals f) (hS : 0 < S) :
    SafeFromLevel f S (g (fin S)) := by
  obtain ⟨d, e, e'⟩ := hi.2 S hS
  refine ⟨d, e, fun x => ?_⟩
  rcases lt_trichotomy x d with h | rfl | h
  · obtain ⟨a, b, ha, hb, hab⟩ := hm x d h
    rw [e'] at hb
    cases hb
    exact ⟨a, ha, ⟨fun h' => absurd h' (not_le.mpr hab), fun h' => absurd h' (not_le.mpr h)⟩⟩
  · exact ⟨S, e', by simp⟩
  · obtain ⟨a, b, ha, hb, hab⟩ := hm d x h
    rw [e'] at ha
    cases ha
    exact ⟨b, hb, by simp [hab.le, h.le]⟩

theorem crest_limit {o : PF → PyM (PF × Bool)} {d : ℝ} {m : Bool} (e : (o (fin d)).res = .ok (fin S, m))
    (h : ∀ (x y v : ℝ) (m : Bool), x < y → (o (fin x)).res = .ok (fin v, m) →
      ∃ (v' : ℝ) (m' : Bool), v' < v ∧ (o (fin y)).res = .ok (fin v', m')) : CrestLimit o S d := by
  constructor
  · intro x hx
    rcases hx.eq_or_lt with rfl | hx
    · exact ⟨_, _, e⟩
    · obtain ⟨v, m', -, e'⟩ := h _ _ _ _ hx e
      exact ⟨_, _, e'⟩
  · intro x v m' e'
    rcases lt_trichotomy x d with hx | rfl | hx
    · obtain ⟨a, n, ha, ea⟩ := h _ _ _ _ hx e'
      rw [e] at ea
      cases ea
      exact ⟨fun h' => absurd h' (not_le.mpr ha), fun h' => absurd h' (not_le.mpr hx)⟩
    · rw [e] at e'
      cases e'
      simp
    · obtain ⟨a, n, ha, ea⟩ := h _ _ _ _ hx e
      rw [e'] at ea
      cases ea
      simp [ha.le, hx.le]

theorem from_formula {design : PyM PF} {d : ℝ} (F : ℝ → ℝ) (e : design.res = .ok (fin d))
    (h : ∀ x, 0 < x → (g (fin x)).res = .ok (fin (F x))) (hF : ∀ x, 0 < x → (F x ≤ S ↔ d ≤ x)) :
    SafeFrom g S design := ⟨d, e, fun x hx => ⟨F x, h x hx, hF x hx⟩⟩

theorem upto_formula {design : PyM PF} {d : ℝ} (F : ℝ → ℝ) (e : design.res = .ok (fin d))
    (h : ∀ x, 0 < x → (g (fin x)).res = .ok (fin (F x))) (hF : ∀ x, 0 < x → (F x ≤ S ↔ x ≤ d)) :
    SafeUpTo g S design := ⟨d, e, fun x hx => ⟨F x, h x hx, hF x hx⟩⟩

theorem level_formula {design : PyM PF} {d : ℝ} (F : ℝ → ℝ) (e : design.res = .ok (fin d))
    (h : ∀ x, (g (fin x)).res = .ok (fin (F x))) (hF : ∀ x, (F x ≤ S ↔ d ≤ x)) :
    SafeFromLevel g S design := ⟨d, e, fun x => ⟨F x, h x, hF x⟩⟩

/-- a strictly falling formula that attains the limit at `d` -/
theorem anti_iff {F : ℝ → ℝ} {d : ℝ} {s : Set ℝ} (hF : ∀ x ∈ s, ∀ y ∈ s, x < y → F y < F x) (hd : d ∈ s)
    (e : F d = S) {x : ℝ} (hx : x ∈ s) : F x ≤ S ↔ d ≤ x := by
  subst e
  constructor
  · intro h
    by_contra hc
    exact absurd (hF x hx d hd (not_le.mp hc)) (not_lt.mpr h)
  · intro h
    rcases h.eq_or_lt with rfl | h
    · exact le_rfl
    · exact (hF d hd x hx h).le

/-- a strictly rising formula that attains the limit at `d` -/
theorem mono_iff {F : ℝ → ℝ} {d : ℝ} {s : Set ℝ} (hF : ∀ x ∈ s, ∀ y ∈ s, x < y → F x < F y) (hd : d ∈ s)
    (e : F d = S) {x : ℝ} (hx : x ∈ s) : F x ≤ S ↔ x ≤ d := by
  subst e
  constructor
  · intro h
    by_contra hc
    exact absurd (hF d hd x hx (not_le.mp hc)) (not_lt.mpr h)
  · intro h
    rcases h.eq_or_lt with rfl | h
    · exact le_rfl
    · exact (hF x hx d hd h).le

theorem same_inverse (hi : MutuallyInverse f g) (hm : StrictlyIncreasing f) : SameLimit f g := by
  intro x y hx hy
  obtain ⟨b, hb, eb, eb'⟩ := hi.2 y hy
  obtain ⟨a, ha, ea, -⟩ := hi.1 x hx
  refine ⟨a, b, ea, eb, ?_⟩
  rcases lt_trichotomy x b with h | rfl | h
  · obtain ⟨u, v, hu, hv, huv⟩ := hm x b hx h
    rw [ea] at hu; rw [eb'] at hv
    cases hu; cases hv
    simp [huv.le, h.le]
  · rw [ea] at eb'; cases eb'; simp
  · obtain ⟨u, v, hu, hv, huv⟩ := hm b x hb h
    rw [ea] at hv; rw [eb'] at hu
    cases hu; cases hv
    exact ⟨fun h' => absurd h' (not_le.mpr huv), fun h' => absurd h' (not_le.mpr h)⟩

end DesignProof
end
