import Verif.Props.RearSlope

/-! # The wave height solver of Van Gent (2007) for the rear slope (C63) -/

open Classical
open PF
open CorePhysics
noncomputable section

namespace RearProof
open VanGent2007Rear RunupProof VdMProof

/-- run-up level needed at wave height `x` -/
def Z07 (cp Rc E n D S Rf x : ℝ) : ℝ := w07 0.00025 cp Rc E (1 + Rf / x) n D S + Rc

section
variable {cp Rc E n D S Rf : ℝ} (hcp : 0 < cp) (hRc : 0 < Rc) (hE : 0 < E) (hn : 0 < n) (hD : 0 < D)
  (hS : 0 < S) (hRf : 0 ≤ Rf)
include hcp hRc hE hn hD hS hRf

theorem w07_sqrt : ∃ K : ℝ, 0 < K ∧ ∀ G : ℝ, w07 0.00025 cp Rc E G n D S = D * √(K * G) := by
  refine ⟨S / n * (1.0 / 0.00025) * cp ^ (-1.25 : ℝ) * (Rc / D) ^ (-0.5 : ℝ) * E ^ (-1.0 : ℝ),
    by positivity, fun G => ?_⟩
  unfold w07
  rw [Real.sqrt_eq_rpow, show (0.5 : ℝ) = 1 / 2 by norm_num]

theorem Z07_gt {x : ℝ} (hx : 0 < x) : Rc < Z07 cp Rc E n D S Rf x := by
  have : 0 < w07 0.00025 cp Rc E (1 + Rf / x) n D S :=
    w07_pos (by norm_num) hcp hRc hE (by positivity) hn hD hS
  unfold Z07; linarith

theorem Z07_anti {x y : ℝ} (hx : 0 < x) (hxy : x ≤ y) :
    Z07 cp Rc E n D S Rf y ≤ Z07 cp Rc E n D S Rf x := by
  obtain ⟨K, hK, e⟩ := w07_sqrt hcp hRc hE hn hD hS hRf
  unfold Z07
  rw [e, e]
  gcongr

theorem Z07_sqrt {x y : ℝ} (hx : 0 < x) (hxy : x ≤ y) :
    Z07 cp Rc E n D S Rf x * √x ≤ Z07 cp Rc E n D S Rf y * √y := by
  obtain ⟨K, hK, e⟩ := w07_sqrt hcp hRc hE hn hD hS hRf
  have key : ∀ x, 0 < x → Z07 cp Rc E n D S Rf x * √x = D * √(K * (x + Rf)) + Rc * √x := by
    intro x hx
    unfold Z07
    rw [e, add_mul, mul_assoc, ← Real.sqrt_mul (by positivity)]
    congr 3
    field_simp
  rw [key x hx, key y (lt_of_lt_of_le hx hxy)]
  gcongr
end

section
variable {ca cp gm T Rc Rf Rr N D S : ℝ} (hca : 0 < ca) (hcp : 0 < cp) (hgm : 0 < gm) (hT : 0 < T)
  (hRc : 0 < Rc) (hRf : 0 ≤ Rf) (hRr : 0 ≤ Rr) (hR : Rr < Rc) (hN : 0 < N) (hD : 0 < D) (hS : 0 < S)

/-- one step of the solver on reals -/
def F07 (ca cp gm T Rc Rf Rr N D S x : ℝ) : ℝ :=
  Z07 cp Rc (1 + 5 * Rr / (Rc - Rr)) √N D S Rf x / (rf 1.45 5.1 (xi x T ca) * gm)

include hca hcp hgm hT hRc hRf hRr hR hN hD hS

theorem F07_pos (x : ℝ) (hx : 0 < x) : 0 < F07 ca cp gm T Rc Rf Rr N D S x :=
  div_pos (hRc.trans (Z07_gt hcp hRc (E_pos hRc hRr hR) (Real.sqrt_pos.mpr hN) hD hS hRf hx))
    (mul_pos (rfxi_pos hT hca (by norm_num) (by norm_num) hx) hgm)

theorem F07_lip (x y : ℝ) (hx : 0 < x) (hy : 0 < y) :
    |Real.log (F07 ca cp gm T Rc Rf Rr N D S x) - Real.log (F07 ca cp gm T Rc Rf Rr N D S y)| ≤
      1 / 2 * |Real.log x - Real.log y| := by
  have hE := E_pos hRc hRr hR
  have hn := Real.sqrt_pos.mpr hN
  refine log_half_lipschitz (F07_pos hca hcp hgm hT hRc hRf hRr hR hN hD hS) ?_ ?_ x y hx hy
  · intro x y hx hxy
    have hy := lt_of_lt_of_le hx hxy
    have a := rfxi_anti hT hca (c0 := 1.45) (c1 := 5.1) (by norm_num) (by norm_num) hx hxy
    have p1 := rfxi_pos hT hca (c0 := 1.45) (c1 := 5.1) (by norm_num) (by norm_num) hx
    have p2 := rfxi_pos hT hca (c0 := 1.45) (c1 := 5.1) (by norm_num) (by norm_num) hy
    have b := Z07_sqrt hcp hRc hE hn hD hS hRf hx hxy
    have z2 := hRc.trans (Z07_gt hcp hRc hE hn hD hS hRf hy)
    unfold F07
    rw [div_mul_eq_mul_div, div_mul_eq_mul_div]
    gcongr
  · intro x y hx hxy
    have hy := lt_of_lt_of_le hx hxy
    have a := rfxi_sqrt hT hca (c0 := 1.45) (c1 := 5.1) (by norm_num) (by norm_num) hx hxy
    have p1 := rfxi_pos hT hca (c0 := 1.45) (c1 := 5.1) (by norm_num) (by norm_num) hx
    have p2 := rfxi_pos hT hca (c0 := 1.45) (c1 := 5.1) (by norm_num) (by norm_num) hy
    have b := Z07_anti hcp hRc hE hn hD hS hRf hx hxy
    have z1 := hRc.trans (Z07_gt hcp hRc hE hn hD hS hRf hx)
    have z2 := hRc.trans (Z07_gt hcp hRc hE hn hD hS hRf hy)
    have s1 := Real.sqrt_pos.mpr hx
    have s2 := Real.sqrt_pos.mpr hy
    unfold F07
    rw [div_mul_eq_mul_div, div_mul_eq_mul_div, div_le_div_iff₀ (by positivity) (by positivity)]
    generalize rf 1.45 5.1 (xi x T ca) = A at *
    generalize rf 1.45 5.1 (xi y T ca) = B at *
    have := mul_le_mul b a (by positivity) z1.le
    nlinarith

theorem step07_eval (k : ℕ) (i0 : PF) (z : Option PF) (x : ℝ) (hx : 0 < x) :
    height_step (fin ca) (fin cp) (fin gm) (fin S) (fin T) (fin Rc) (fin Rf) (fin Rr) (fin N) (fin D)
      ⟨k, fin x, i0, z⟩ = ⟨k + 1, fin (F07 ca cp gm T Rc Rf Rr N D S x), fin x,
        some (fin (Z07 cp Rc (1 + 5 * Rr / (Rc - Rr)) √N D S Rf x))⟩ := by
  unfold height_step
  dsimp only
  rw [w07_eval hcp hx hRc hRf hRr hR hN hD hS]
  simp only [sci_eq]
  rw [invH_eval hT hca (by norm_num) (by norm_num) hx hgm]
  rfl

/-- what the solver returns -/
theorem height07_eval {n : ℕ} {t : ℝ} (M rho : PF) (hRf' : 0 < Rf) (hn : 1 ≤ n) : ∃ k < n,
    (calculate_maximum_significant_wave_height_Hs (fin ca) (fin cp) (fin gm) (fin S) (fin T) (fin Rc)
      (fin Rf) (fin Rr) (fin N) (fin D) M rho (fin t) n).res =
        .ok (fin ((F07 ca cp gm T Rc Rf Rr N D S)^[k + 1] Rf)) ∧
    (nonconv ∈ (calculate_maximum_significant_wave_height_Hs (fin ca) (fin cp) (fin gm) (fin S)
      (fin T) (fin Rc) (fin Rf) (fin Rr) (fin N) (fin D) M rho (fin t) n).warns ↔ k + 1 = n) ∧
    (k + 1 = n ∨ |(F07 ca cp gm T Rc Rf Rr N D S)^[k + 1] Rf -
      (F07 ca cp gm T Rc Rf Rr N D S)^[k] Rf| ≤ t) ∧
    ∀ j < k, t < |(F07 ca cp gm T Rc Rf Rr N D S)^[j + 1] Rf -
      (F07 ca cp gm T Rc Rf Rr N D S)^[j] Rf| := by
  obtain ⟨k, hk, e, h1, h2⟩ := rear_loop (t := t) hRf'
    (F07_pos hca hcp hgm hT hRc hRf hRr hR hN hD hS)
    (step07_eval hca hcp hgm hT hRc hRf hRr hR hN hD hS) hn
  refine ⟨k, hk, ?_, ?_, h1, h2⟩
  · unfold calculate_maximum_significant_wave_height_Hs
    rw [use_Dn50, PyM.bind_ok]
    dsimp only
    rw [e]
    by_cases hw : k + 1 ≥ n
    · simp [hw]
    · simp [hw]
  · unfold calculate_maximum_significant_wave_height_Hs
    rw [use_Dn50, PyM.bind_ok]
    dsimp only
    rw [e]
    by_cases hw : k + 1 ≥ n
    · have : k + 1 = n := by omega
      simp [hw, this, nonconv]
    · have h3 : ¬ (k + 1 = n) := by omega
      simp only [hw, if_false, h3, iff_false]
      rw [PyM.bind_warns_of_ok (check07_res ..)]
      simp only [PyM.pure_def, List.append_nil, List.nil_append]
      exact check07_no_text _ _ _ _ _ _ _ _ _ _ _ _

/-- fixed points of the step are the wave heights with the requested damage -/
theorem fixed07_iff {x : ℝ} (M rho : PF) (hx : 0 < x) : F07 ca cp gm T Rc Rf Rr N D S x = x ↔
    ∃ z : ℝ, Rc < z ∧
      VanGent2001.calculate_wave_runup_height_z1p (fin x) (fin T) (fin gm) (fin ca) = fin z ∧
      (calculate_damage_number_S (fin ca) (fin cp) (fin gm) (fin x) (fin T) (fin Rc) (fin Rf)
        (fin Rr) (fin N) (fin D) M rho).res = .ok (fin S) := by
  have hE := E_pos hRc hRr hR
  have hn := Real.sqrt_pos.mpr hN
  have hp := rfxi_pos hT hca (c0 := 1.45) (c1 := 5.1) (by norm_num) (by norm_num) hx
  have hz : VanGent2001.calculate_wave_runup_height_z1p (fin x) (fin T) (fin gm) (fin ca) =
      fin (rf 1.45 5.1 (xi x T ca) * gm * x) := by
    unfold VanGent2001.calculate_wave_runup_height_z1p
    simp only [sci_eq]
    exact zX_eval hT hca (by norm_num) (by norm_num) hx
  have h3 := Z07_gt hcp hRc hE hn hD hS hRf hx
  have e : F07 ca cp gm T Rc Rf Rr N D S x = x ↔
      Z07 cp Rc (1 + 5 * Rr / (Rc - Rr)) √N D S Rf x = rf 1.45 5.1 (xi x T ca) * gm * x := by
    unfold F07; rw [div_eq_iff (mul_pos hp hgm).ne', mul_comm x]
  rw [e]
  constructor
  · intro h
    refine ⟨_, by rw [← h]; exact h3, hz, ?_⟩
    rw [C33_damage_of_level ca cp gm x T Rc Rf Rr N _ M rho hcp hx hRc hRf hRr hR hN hz
      (by rw [← h]; exact h3) D S hD hS, w07_eval hcp hx hRc hRf hRr hR hN hD hS, fin_inj]
    exact h
  · rintro ⟨z, hzR, hz2, hd⟩
    rw [C33_damage_of_level ca cp gm x T Rc Rf Rr N _ M rho hcp hx hRc hRf hRr hR hN hz2 hzR D S hD
      hS, w07_eval hcp hx hRc hRf hRr hR hN hD hS, fin_inj] at hd
    rw [hz, fin_inj] at hz2
    rw [hz2]; exact hd
end
end RearProof

section
open VanGent2007Rear RearProof
variable (ca cp gm T Rc Rf Rr N D S : ℝ) (M rho : PF) (hca : 0 < ca) (hcp : 0 < cp) (hgm : 0 < gm)
  (hT : 0 < T) (hRc : 0 < Rc) (hRf : 0 < Rf) (hRr : 0 ≤ Rr) (hR : Rr < Rc) (hN : 0 < N) (hD : 0 < D)
  (hS : 0 < S)
include hca hcp hgm hT hRc hRf hRr hR hN hD hS

/-- C63: there is exactly one wave height `p` with the requested damage (among those whose run-up
passes the crest), and the solver returns a wave height that is

* within `t / (H - t)` of it in logarithms, if it does not warn about convergence,
* within `1 / 2 ^ n` of the starting distance, if it does. -/
theorem C63_solves : ∃ p : ℝ, 0 < p ∧
    (∀ H : ℝ, 0 < H → ((∃ z : ℝ, Rc < z ∧
      VanGent2001.calculate_wave_runup_height_z1p (fin H) (fin T) (fin gm) (fin ca) = fin z ∧
      (calculate_damage_number_S (fin ca) (fin cp) (fin gm) (fin H) (fin T) (fin Rc) (fin Rf)
        (fin Rr) (fin N) (fin D) M rho).res = .ok (fin S)) ↔ H = p)) ∧
    ∀ (t : ℝ) (n : ℕ), 0 ≤ t → 1 ≤ n → ∃ H : ℝ, 0 < H ∧
      (calculate_maximum_significant_wave_height_Hs (fin ca) (fin cp) (fin gm) (fin S) (fin T)
        (fin Rc) (fin Rf) (fin Rr) (fin N) (fin D) M rho (fin t) n).res = .ok (fin H) ∧
      (.text "Maximum number of iterations reached, convergence not achieved" ∉
        (calculate_maximum_significant_wave_height_Hs (fin ca) (fin cp) (fin gm) (fin S) (fin T)
        (fin Rc) (fin Rf) (fin Rr) (fin N) (fin D) M rho (fin t) n).warns → t < H →
        |Real.log H - Real.log p| ≤ t / (H - t)) ∧
      (.text "Maximum number of iterations reached, convergence not achieved" ∈
        (calculate_maximum_significant_wave_height_Hs (fin ca) (fin cp) (fin gm) (fin S) (fin T)
        (fin Rc) (fin Rf) (fin Rr) (fin N) (fin D) M rho (fin t) n).warns →
        |Real.log H - Real.log p| ≤ (1 / 2) ^ n * |Real.log Rf - Real.log p|) := by
  have hpos := F07_pos hca hcp hgm hT hRc hRf.le hRr hR hN hD hS
  have hlip := F07_lip hca hcp hgm hT hRc hRf.le hRr hR hN hD hS
  obtain ⟨p, hp, hfix, huniq, hgeo⟩ := log_contraction _ (1 / 2) (by norm_num) (by norm_num) hpos hlip
  refine ⟨p, hp, fun H hH => ?_, fun t n ht hn => ?_⟩
  · rw [← fixed07_iff hca hcp hgm hT hRc hRf.le hRr hR hN hD hS M rho hH]
    exact ⟨huniq H hH, fun h => by rw [h]; exact hfix⟩
  · obtain ⟨k, hk, h1, h2, h3, h4⟩ := height07_eval (n := n) (t := t) hca hcp hgm hT hRc hRf.le hRr hR
      hN hD hS M rho hRf hn
    have hHk := it_pos hRf hpos k
    have hH := it_pos hRf hpos (k + 1)
    refine ⟨_, hH, h1, fun hw htH => ?_, fun hw => ?_⟩
    · have h5 : |(F07 ca cp gm T Rc Rf Rr N D S)^[k + 1] Rf -
          (F07 ca cp gm T Rc Rf Rr N D S)^[k] Rf| ≤ t := by
        rcases h3 with h3 | h3
        · exact absurd (h2.mpr h3) hw
        · exact h3
      have h6 := abs_log_sub_le ht htH hHk h5
      have h7 := log_a_posteriori _ (1 / 2) p _ (by norm_num) hHk hp hfix hlip
      rw [← Function.iterate_succ_apply' (F07 ca cp gm T Rc Rf Rr N D S) k] at h7
      refine h7.trans (le_trans (le_of_eq ?_) h6)
      norm_num
    · have := (hgeo Rf hRf (k + 1)).2
      rwa [h2.mp hw] at this ⊢

example := C63_solves (ca := 3) (cp := 1) (gm := 0.5) (T := 8) (Rc := 3) (Rf := 1) (Rr := 1) (N := 3000)
  (D := 1) (S := 2) (M := .fin 5000) (rho := .fin 2650) (by norm_num) (by norm_num) (by norm_num)
  (by norm_num) (by norm_num) (by norm_num) (by norm_num) (by norm_num) (by norm_num) (by norm_num)
  (by norm_num)

/-- C63: with a positive tolerance the convergence warning disappears once the iteration limit is
large enough, and the answer no longer depends on the limit -/
theorem C63_terminates (t : ℝ) (ht : 0 < t) : ∃ (n0 : ℕ) (H : ℝ), ∀ n ≥ n0,
      (calculate_maximum_significant_wave_height_Hs (fin ca) (fin cp) (fin gm) (fin S) (fin T)
        (fin Rc) (fin Rf) (fin Rr) (fin N) (fin D) M rho (fin t) n).res = .ok (fin H) ∧
      .text "Maximum number of iterations reached, convergence not achieved" ∉
        (calculate_maximum_significant_wave_height_Hs (fin ca) (fin cp) (fin gm) (fin S) (fin T)
        (fin Rc) (fin Rf) (fin Rr) (fin N) (fin D) M rho (fin t) n).warns := by
  have hpos := F07_pos hca hcp hgm hT hRc hRf.le hRr hR hN hD hS
  have hlip := F07_lip hca hcp hgm hT hRc hRf.le hRr hR hN hD hS
  obtain ⟨p, hp, hfix, huniq, hgeo⟩ := log_contraction _ (1 / 2) (by norm_num) (by norm_num) hpos hlip
  have htend := log_contraction_tendsto _ (1 / 2) p Rf (by norm_num) (by norm_num) hp (hgeo Rf hRf)
  have hex := exists_close _ p Rf t ht htend
  refine ⟨Nat.find hex + 2, (F07 ca cp gm T Rc Rf Rr N D S)^[Nat.find hex + 1] Rf, fun n hn => ?_⟩
  obtain ⟨k, hk, h1, h2, h3, h4⟩ := height07_eval (n := n) (t := t) hca hcp hgm hT hRc hRf.le hRr hR
      hN hD hS M rho hRf (by omega)
  have hle : k ≤ Nat.find hex := by
    by_contra h
    exact absurd (Nat.find_spec hex) (not_le.mpr (h4 _ (not_le.mp h)))
  have hne : k + 1 ≠ n := by omega
  have hge : Nat.find hex ≤ k := Nat.find_min' hex (h3.resolve_left hne)
  obtain rfl : k = Nat.find hex := le_antisymm hle hge
  exact ⟨h1, fun h => hne (h2.mp h)⟩
end

/-- C63 refuted without a crest element: `Rc2_front = 0` is inside the documented range but makes the
solver return NaN for every configuration -/
theorem C63_no_crest_element_refuted (ca cp gm S T Rc Rr N D t : ℝ) (M rho : PF) (n : ℕ) :
    (VanGent2007Rear.calculate_maximum_significant_wave_height_Hs (fin ca) (fin cp) (fin gm) (fin S)
      (fin T) (fin Rc) (fin 0) (fin Rr) (fin N) (fin D) M rho (fin t) (n + 1)).res = .ok nan := by
  have e0 : (fin 0 / fin 0 : PF) = nan := by rw [div_zero_fin]; simp [mulInf]
  have step : ∀ k i0 z, VanGent2007Rear.height_step (fin ca) (fin cp) (fin gm) (fin S) (fin T)
      (fin Rc) (fin 0) (fin Rr) (fin N) (fin D) ⟨k, fin 0, i0, z⟩ = ⟨k + 1, nan, fin 0, some nan⟩ := by
    intro k i0 z
    have hz : VanGent2007Rear._invert_for_z1p (fin cp) (fin S) (fin D) (fin 0) (fin Rc) (fin 0)
        (fin Rr) (fin N) = nan := by
      unfold VanGent2007Rear._invert_for_z1p
      rw [e0, add_nan, mul_nan, npow_nan_sci (by norm_num), mul_nan, nan_add]
    unfold VanGent2007Rear.height_step VanGent2001._invert_for_Hs
    dsimp only
    rw [hz, nan_div, nan_div]
    unfold whr
    rw [ite_self]
  unfold VanGent2007Rear.calculate_maximum_significant_wave_height_Hs
  rw [VdMProof.use_Dn50, PyM.bind_ok]
  dsimp only
  have hl : whileIter (n + 1) (RearState.go (fin t)) (VanGent2007Rear.height_step (fin ca) (fin cp)
      (fin gm) (fin S) (fin T) (fin Rc) (fin 0) (fin Rr) (fin N) (fin D))
      ⟨0, fin 0, fin 0 + pinf, none⟩ = ⟨1, nan, fin 0, some nan⟩ := by
    rw [whileIter, if_pos (show RearState.go (fin t) ⟨0, fin 0, fin 0 + pinf, none⟩ from trivial), step]
    cases n with
    | zero => rfl
    | succ n => rw [whileIter, if_neg]; exact fun h => h
  rw [hl]
  by_cases hw : 1 ≥ n + 1
  · simp [hw]
  · simp [hw]

/-- C63 limit: without iterations the function fails on an unbound variable -/
theorem C63_no_iterations (ca cp gm S T Rc Rf Rr N t : PF) (D : ℝ) (M rho : PF) :
    (VanGent2007Rear.calculate_maximum_significant_wave_height_Hs ca cp gm S T Rc Rf Rr N (fin D) M
      rho t 0).res = .error .unboundLocal := by
  unfold VanGent2007Rear.calculate_maximum_significant_wave_height_Hs
  rw [VdMProof.use_Dn50, PyM.bind_ok]
  rfl

-- an ordinary rear slope
example : ∃ (n0 : ℕ) (H : ℝ), ∀ n ≥ n0,
      (VanGent2007Rear.calculate_maximum_significant_wave_height_Hs (fin 2) (fin 2) (fin 0.5) (fin 4)
        (fin 8) (fin 3) (fin 0.5) (fin 0.5) (fin 3000) (fin 0.4) nan nan (fin 0.001) n).res =
          .ok (fin H) ∧
      .text "Maximum number of iterations reached, convergence not achieved" ∉
        (VanGent2007Rear.calculate_maximum_significant_wave_height_Hs (fin 2) (fin 2) (fin 0.5)
        (fin 4) (fin 8) (fin 3) (fin 0.5) (fin 0.5) (fin 3000) (fin 0.4) nan nan (fin 0.001)
        n).warns :=
  C63_terminates 2 2 0.5 8 3 0.5 0.5 3000 0.4 4 nan nan (by norm_num) (by norm_num) (by norm_num)
    (by norm_num) (by norm_num) (by norm_num) (by norm_num) (by norm_num) (by norm_num)
    (by norm_num) (by norm_num) 0.001 (by norm_num)

end
