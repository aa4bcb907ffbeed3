import Verif.Props.NotANumberSilent

/-! # C103: damage of rear slopes with crest elements by Van Gent (2007) -/

open Classical
open PF CoreUtility CorePhysics
noncomputable section

section
open RearProof RunupProof VdMProof NumberProof

/-- C103: damage of a rear slope by Van Gent (2007), for every crest, every crest element and every reduction factor. Where
the formula has no finite value (a crest under water, a rear element exactly as high as the crest, a front element that
makes the factor for it vanish) some check reports it. -/
theorem C103_rear2007_damage {ca cp gm H T Rc Rf Rr N D : ℝ} (M ra : PF) (hca : 0 < ca) (hcp : 0 < cp) (hH : 0 < H)
    (hT : 0 < T) (hD : 0 < D) :
    NoNumberIsReported (VanGent2007Rear.calculate_damage_number_S (fin ca) (fin cp) (fin gm) (fin H) (fin T) (fin Rc)
      (fin Rf) (fin Rr) (fin N) (fin D) M ra) := by
  refine of_silent fun hs => ?_
  obtain ⟨z, hz⟩ := z1p_fin (gm := gm) hT hca hH
  unfold VanGent2007Rear.calculate_damage_number_S at hs ⊢
  rw [hz, use_Dn50, RangeProof.bind_nil] at hs
  rw [hz, use_Dn50, PyM.bind_ok]
  dsimp only at hs ⊢
  rw [PyM.bind_warns_of_ok (check07_res ..), List.append_eq_nil_iff] at hs
  rw [PyM.bind_res_of_ok (check07_res ..)]
  have h := hs.1
  clear hs
  simp only [VanGent2007Rear.check_validity_range, check_bind_warns, List.append_eq_nil_iff, check_if_given_warns,
    ite_eq_right_iff, reduceCtorEq, imp_false] at h
  obtain ⟨-, -, hN, h1, -, h2, h3, -, -, -, -, hS⟩ := h
  have key : ∀ {x lo hi : ℝ}, ¬ OutOfRange (fin lo) (fin hi) (fin x) → lo ≤ x ∧ x ≤ hi := by
    intro x lo hi h
    exact ⟨not_lt.mp fun h' => h (Or.inl h'), not_lt.mp fun h' => h (Or.inr h')⟩
  have gv : ∀ {p q : Prop}, ¬ (p ∧ q) → p → ¬ q := fun h a b => h ⟨a, b⟩
  have hN := (key (by simpa only [sci_eq, ofNat_eq] using gv hN (by simp))).1
  have h1 := (key (by simpa only [sci_eq, ofNat_eq, div_fin hH.ne'] using gv h1 (by simp))).1
  have h2 := (key (by simpa only [sci_eq, ofNat_eq, sub_fin, div_fin hH.ne'] using gv h2 (by simp))).1
  have h3 := (key (by simpa only [sci_eq, ofNat_eq, div_fin hH.ne'] using gv h3 (by simp))).1
  have hRc : 0 < Rc := by
    rw [le_div_iff₀ hH] at h1
    exact lt_of_lt_of_le (mul_pos (by norm_num) hH) h1
  have hzR : 0 < z - Rc := by
    rw [le_div_iff₀ hH] at h2
    exact lt_of_lt_of_le (mul_pos (by norm_num) hH) h2
  have hN0 : 0 < N := lt_of_lt_of_le (by norm_num) hN
  have hF : 0 < 1 + Rf / H := by norm_num at h3; linarith
  have e1 : npow (1 + fin Rf / fin H) (-1) = fin ((1 + Rf / H) ^ (-1 : ℝ)) := by
    rw [div_fin hH.ne', one_eq, add_fin, neg_fin, npow_fin hF]
  have e2 : npow ((fin z - fin Rc) / fin D) 2 = fin (((z - Rc) / D) ^ (2 : ℝ)) := by
    rw [sub_fin, div_fin hD.ne', ofNat_eq, npow_fin (by positivity)]
  have e3 : npow (fin Rc / fin D) 0.5 = fin ((Rc / D) ^ (0.5 : ℝ)) := by
    rw [div_fin hD.ne', sci_eq, npow_fin (by positivity)]
  have e4 : npow (fin cp) 1.25 = fin (cp ^ (1.25 : ℝ)) := by rw [sci_eq, npow_fin hcp]
  rw [e1, e2, e3, e4, sqrt_fin hN0.le] at hS ⊢
  simp only [PyM.pure_def, Except.ok.injEq]
  rcases eq_or_ne Rc Rr with hR | hR
  · exfalso
    subst hR
    have i1 : (5 * fin Rc / (fin Rc - fin Rc) : PF) = pinf := by
      rw [ofNat_eq, mul_fin, sub_fin, sub_self, div_zero_fin, mulInf, if_pos (by norm_num; exact hRc)]
    have pm : ∀ {x : ℝ}, 0 < x → fin x * pinf = pinf := fun {x} hx => by
      show PF.mul _ _ = _; simp [PF.mul, mulInf, hx]
    have mp : ∀ {x : ℝ}, 0 < x → pinf * fin x = pinf := fun {x} hx => by
      show PF.mul _ _ = _; simp [PF.mul, mulInf, hx]
    rw [i1, one_eq, show fin 1 + pinf = pinf from rfl, sci_eq, mul_fin, mul_fin, mul_fin, pm (by positivity),
      mp (by positivity), mp (Real.sqrt_pos.mpr hN0)] at hS
    exact hS ⟨by simp, Or.inr trivial⟩
  · rw [one_eq, ofNat_eq, mul_fin, sub_fin, div_fin (sub_ne_zero.mpr hR), add_fin, sci_eq]
    simp only [mul_fin]
    exact ⟨_, rfl⟩

/-- a rear element exactly as high as the crest, of 2 m -/
example := C103_rear2007_damage (ca := 2) (cp := 2) (gm := 0.5) (H := 2) (T := 8) (Rc := 2) (Rf := 0.5) (Rr := 2)
  (N := 3000) (D := 0.4) nan nan (by norm_num) (by norm_num) (by norm_num) (by norm_num) (by norm_num)

end

end
