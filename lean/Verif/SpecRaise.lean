import Verif.Spec

/-! # What raising the crest buys

`q x v` says that a crest at level `x` overtops `v`.  `FurtherRaisesPay q low`: raising the higher of two crests by
`d` reduces its discharge by at least the factor by which raising the lower one by `d` does, for all crests from
`low` upwards.  `EachRaisePaysTheSame`: by exactly the same factor. -/

open Classical
open PF
noncomputable section

def FurtherRaisesPay (q : ℝ → ℝ → Prop) (low : ℝ → Prop) : Prop :=
  ∀ x y d : ℝ, low x → x ≤ y → 0 ≤ d → ∃ a a' b b' : ℝ, 0 < a ∧ 0 < a' ∧ 0 < b ∧ 0 < b' ∧
    q x a ∧ q (x + d) a' ∧ q y b ∧ q (y + d) b' ∧ b' / b ≤ a' / a

def EachRaisePaysTheSame (q : ℝ → ℝ → Prop) : Prop :=
  ∀ x y d : ℝ, ∃ a a' b b' : ℝ, 0 < a ∧ 0 < a' ∧ 0 < b ∧ 0 < b' ∧
    q x a ∧ q (x + d) a' ∧ q y b ∧ q (y + d) b' ∧ b' / b = a' / a

/-- the call at crest level `x` returned the discharge `v` -/
def Overtops (f : PF → PyM PF) (x v : ℝ) : Prop := (f (fin x)).res = .ok (fin v)

/-- the same for functions that also return a flag -/
def OvertopsWithFlag (f : PF → PyM (PF × Bool)) (x v : ℝ) : Prop := ∃ m : Bool, (f (fin x)).res = .ok (fin v, m)
