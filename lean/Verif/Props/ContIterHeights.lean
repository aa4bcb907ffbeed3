import Verif.Props.ContComposite
import Verif.Props.ContinuousStructures
import Verif.Props.RearHeight
import Verif.Props.RearPozuetaHeight
import Verif.Props.ToeEtemad

/-! # C95: wave heights found by iteration, up to the tolerance -/

open Classical
open PF ContProof
noncomputable section

/-- C95, toe wave height by Etemad-Shahidi et al. (2021): the returned height stays within what the tolerance of 1 mm
leaves (relative, q = |c4 - c6|, 0.27 by default) of a height that changes continuously with all inputs together,
whatever the start of the iteration.
Missing: coefficients with q of 1 or more; continuity itself, which the tolerance rules out. -/
theorem C95_etemad_toe_height_partial {X : Type} [TopologicalSpace X] {D T h ht B N m ra rw g s0 : X → ℝ}
    {c1 c2 c3 c4 c5 c6 c7 : ℝ} (kD : PositiveInput D) (kT : PositiveInput T) (kh : PositiveInput h)
    (kht : PositiveInput ht) (kB : PositiveInput B) (kN : PositiveInput N) (km : Continuous m)
    (hm : ∀ x, c7 * m x < 1) (ka : Continuous ra) (kw : PositiveInput rw) (hr : ∀ x, rw x < ra x)
    (kg : PositiveInput g) (hc1 : 0 ≤ c1) (hc2 : 0 < c2) (hc5 : c5 ≠ 0) (hq : |c4 - c6| < 1) (hs : ∀ x, 0 < s0 x)
    (n : ℕ) (hn : 0 < n) :
    ∃ p : X → ℝ, Continuous p ∧ ∀ x, 0 < p x ∧ ∃ (r : PyM PF) (H : ℝ),
      EtemadShahidi2021.calculate_significant_wave_height_Hs (fin (T x)) (fin (h x)) (fin (ht x)) (fin (B x))
        (fin (N x)) (fin (m x)) (fin (D x)) (fin (ra x)) (fin (rw x)) (fin (g x)) (fin c1) (fin c2) (fin c3) (fin c4)
        (fin c5) (fin c6) (fin c7) (fin (s0 x)) n = some r ∧ r.res = .ok (fin H) ∧ 0 < H ∧
      (1e-3 < H → |Real.log H - Real.log (p x)| ≤ |c4 - c6| / (1 - |c4 - c6|) * (1e-3 / (H - 1e-3))) := by
  have hm' := fun x => sub_pos.mpr (hm x)
  have hDe := fun x => div_pos (sub_pos.mpr (hr x)) (kw.2 x)
  choose r H p a1 a2 a3 a4 a5 a6 using fun x => C31_terminates_partial (D x) (T x) (h x) (ht x) (B x)
    (N x) (m x) (ra x) (rw x) (g x) c1 c2 c3 c4 c5 c6 c7 (s0 x) (kD.2 x) (kT.2 x) (kh.2 x) (kht.2 x) (kB.2 x) (kN.2 x)
    (kg.2 x) (kw.2 x) (hr x) hc1 hc2 (hm' x) (hs x) hq hc5 n hn
  have pi := Real.pi_pos
  have hS : ∀ x y, 0 < y → 0 < Et21Proof.S c2 c3 c4 c7 (ht x) (h x) (2 * Real.pi * y / (g x * T x ^ 2)) (m x) := by
    intro x y hy
    inputs [kT, kh, kht, kg] x
    have := hm' x
    unfold Et21Proof.S; positivity
  refine ⟨p, fixed_cont (f := fun x => Et21Proof.G ((ra x - rw x) / rw x) (D x) (T x) (h x) (ht x) (B x) (N x) (m x)
    (g x) c1 c2 c3 c4 c5 c6 c7) hq a4 (fun x => ?_) (fun x y z hy hz => ?_) (fun x => ?_),
    fun x => ⟨a4 x, r x, H x, a1 x, a2 x, a3 x, a6 x⟩⟩
  · obtain ⟨k1, k2⟩ := (a5 x (p x) (a4 x)).mpr rfl
    rw [Et21Proof.Nod_eval (a4 x) (kT.2 x) (kh.2 x) (kht.2 x) (kB.2 x) (kg.2 x) (kw.2 x) (hr x) hc2 hc5 (hm' x)
      (kD.2 x)] at k1
    have hb : 0 < (B x / p x) ^ c6 := Real.rpow_pos_of_pos (div_pos (kB.2 x) (a4 x)) _
    have hS' := hS x (p x) (a4 x)
    have hX := div_pos (sub_pos.mpr k2) (mul_pos hS' hb)
    rw [npow_fin hX, Except.ok.injEq, fin_inj] at k1
    have k3 := congrArg (· ^ c5) k1
    rw [← Real.rpow_mul hX.le, one_div_mul_cancel hc5, Real.rpow_one, div_eq_iff (by positivity)] at k3
    have hD := kD.2 x
    have hDx := hDe x
    unfold Et21Proof.G
    have k4 : p x / ((ra x - rw x) / rw x * D x) = c1 + Et21Proof.S c2 c3 c4 c7 (ht x) (h x)
        (2 * Real.pi * p x / (g x * T x ^ 2)) (m x) * (B x / p x) ^ c6 * N x ^ c5 := by linarith
    rw [← k4, mul_div_cancel₀ _ (by positivity)]
  · exact Et21Proof.G_lip (hDe x) (kD.2 x) (kT.2 x) (kh.2 x) (kht.2 x) (kB.2 x) (kN.2 x) (kg.2 x) hc1 hc2 (hm' x) hy hz
  · have hp := a4 x
    generalize p x = y at hp
    have := hS x y hp
    inputs [kD, kT, kh, kht, kB, kN, kw, kg] x
    have := sub_pos.mpr (hr x)
    have k : ContinuousAt (fun x => Et21Proof.S c2 c3 c4 c7 (ht x) (h x)
        (2 * Real.pi * y / (g x * T x ^ 2)) (m x)) x := by
      unfold Et21Proof.S
      cont
    unfold Et21Proof.G
    cont

/-- a case meeting the hypotheses: all rock sizes, q = 0.27 -/
example := C95_etemad_toe_height_partial (c1 := 1.2) (c2 := 11.2) (c3 := 7 / 4) (c4 := 1 / 6) (c5 := 2 / 5)
  (c6 := -1 / 10) (c7 := 3.7) (s0 := fun _ => 0.03) id_input (const_input (a := 8) (by norm_num))
  (const_input (a := 8) (by norm_num)) (const_input (a := 5) (by norm_num)) (const_input (a := 3) (by norm_num))
  (const_input (a := 1) (by norm_num)) (continuous_const (y := (0.02 : ℝ))) (fun _ => by norm_num)
  (continuous_const (y := (2650 : ℝ))) (const_input (a := 1025) (by norm_num)) (fun _ => by norm_num)
  (const_input (a := 9.81) (by norm_num)) (by norm_num) (by norm_num) (by norm_num)
  (by rw [abs_of_nonneg] <;> norm_num) (fun _ => by norm_num) 100 (by norm_num)

section
open RearProof
/-- C95, the largest wave height for a rear slope by Van Gent & Pozueta (2004): unless the iteration limit is reported,
the returned height stays within what the chosen tolerance leaves of a height that changes continuously with all inputs
together; if it is, within `0.99 ^ n` of the starting distance.
Missing: crests wider than `0.75 * Rc / gamma_f`, as in C66; continuity itself, which the tolerance rules out. -/
theorem C95_rear_pozueta_height_partial {X : Type} [TopologicalSpace X] {ca cp gf gc T Rc Rr B N D S rr rw cs : X → ℝ}
    (M : X → PF) (kca : PositiveInput ca) (kcp : PositiveInput cp) (kf : PositiveInput gf) (kgc : PositiveInput gc)
    (kT : PositiveInput T) (kR : PositiveInput Rc) (kr : Continuous Rr) (hRr : ∀ x, 0 ≤ Rr x) (kB : Continuous B)
    (hB : ∀ x, 0 ≤ B x) (kN : PositiveInput N) (kD : PositiveInput D) (kS : PositiveInput S) (ka : Continuous rr)
    (kw : PositiveInput rw) (hr : ∀ x, rw x < rr x) (kcs : PositiveInput cs)
    (hBc : ∀ x, B x * gf x ≤ 0.75 * Rc x) :
    ∃ p : X → ℝ, Continuous p ∧ ∀ x, 0 < p x ∧ ∀ (t : ℝ) (n : ℕ), 0 ≤ t → 1 ≤ n → ∃ H : ℝ, 0 < H ∧
      (VanGentPozueta2004.calculate_maximum_significant_wave_height_Hs (fin (ca x)) (fin (cp x)) (fin (gf x))
        (fin (gc x)) (fin (S x)) (fin (T x)) (fin (Rc x)) (fin (Rr x)) (fin (B x)) (fin (N x)) (fin (D x)) (M x)
        (fin (rr x)) (fin (rw x)) (fin (cs x)) (fin t) n).res = .ok (fin H) ∧
      (.text "Maximum number of iterations reached, convergence not achieved" ∉
        (VanGentPozueta2004.calculate_maximum_significant_wave_height_Hs (fin (ca x)) (fin (cp x)) (fin (gf x))
        (fin (gc x)) (fin (S x)) (fin (T x)) (fin (Rc x)) (fin (Rr x)) (fin (B x)) (fin (N x)) (fin (D x)) (M x)
        (fin (rr x)) (fin (rw x)) (fin (cs x)) (fin t) n).warns →
        t < H → |Real.log H - Real.log (p x)| ≤ 99 * (t / (H - t))) ∧
      (.text "Maximum number of iterations reached, convergence not achieved" ∈
        (VanGentPozueta2004.calculate_maximum_significant_wave_height_Hs (fin (ca x)) (fin (cp x)) (fin (gf x))
        (fin (gc x)) (fin (S x)) (fin (T x)) (fin (Rc x)) (fin (Rr x)) (fin (B x)) (fin (N x)) (fin (D x)) (M x)
        (fin (rr x)) (fin (rw x)) (fin (cs x)) (fin t) n).warns →
        |Real.log H - Real.log (p x)| ≤
          0.99 ^ n * |Real.log ((Rc x + 0.5) / (2.552 * gf x)) - Real.log (p x)|) := by
  have hd : ∀ x, 0 < √((rr x - rw x) / rw x) := fun x =>
    Real.sqrt_pos.mpr (div_pos (sub_pos.mpr (hr x)) (kw.2 x))
  have hsn := fun x => Real.sqrt_pos.mpr (kN.2 x)
  choose p hp hpu hH using fun x => C66_solves_partial (ca x) (cp x) (gf x) (gc x) (T x) (Rc x) (Rr x) (B x) (N x) (D x)
    (S x) (rr x) (rw x) (cs x) (M x) (kca.2 x) (kcp.2 x) (kf.2 x) (kgc.2 x) (kT.2 x) (kR.2 x) (hRr x) (hB x) (kN.2 x)
    (kw.2 x) (hr x) (kcs.2 x) (kD.2 x) (kS.2 x) (hBc x)
  have hfix : ∀ x, F04 (cs x) (ca x) (T x) √((rr x - rw x) / rw x) (cp x) √(N x) (D x) (S x) (Rc x) (Rr x) (B x) (gf x)
      (gc x) (p x) = p x := fun x =>
    (fixed04_iff (kca.2 x) (kcp.2 x) (kf.2 x) (kgc.2 x) (kT.2 x) (hB x) (kN.2 x) (kw.2 x) (hr x) (kcs.2 x) (kD.2 x)
      (kS.2 x) (M x) (kR.2 x) (hp x)).mpr ((hpu x (p x) (hp x)).mpr rfl)
  refine ⟨p, fixed_cont (q := 0.99) (f := fun x y => F04 (cs x) (ca x) (T x) √((rr x - rw x) / rw x) (cp x) √(N x) (D x)
    (S x) (Rc x) (Rr x) (B x) (gf x) (gc x) (max y (Rc x / (5.1 * gf x)))) (by norm_num) hp (fun x => ?_)
    (fun x y z hy hz => ?_) (fun x0 => ?_), fun x => ⟨hp x, hH x⟩⟩
  · have := F04_ge (x := p x) (Rr := Rr x) (kcs.2 x) (kca.2 x) (kT.2 x) (hd x) (kcp.2 x) (hsn x) (kD.2 x) (kS.2 x) (kR.2 x)
      (hB x) (kf.2 x) (kgc.2 x) (hp x)
    rw [hfix] at this
    simp only [max_eq_left this, hfix]
  · exact G04_lip (kcs.2 x) (kca.2 x) (kT.2 x) (hd x) (kcp.2 x) (hsn x) (kD.2 x) (kS.2 x) (kR.2 x) (hRr x) (hB x) (kf.2 x)
      (kgc.2 x) (hBc x) y z hy hz
  · have ky : PositiveInput fun x => max (p x0) (Rc x / (5.1 * gf x)) := by
      refine ⟨?_, fun x => lt_max_of_lt_left (hp x0)⟩
      have k1 := kR.1
      have k2 := kf.1
      exact continuous_const.max (Continuous.div k1 (by fun_prop) fun x => by have := kf.2 x; positivity)
    suffices h : ∀ y : X → ℝ, PositiveInput y → ContinuousAt (fun x => F04 (cs x) (ca x) (T x) √((rr x - rw x) / rw x)
        (cp x) √(N x) (D x) (S x) (Rc x) (Rr x) (B x) (gf x) (gc x) (y x)) x0 from h _ ky
    intro y ky
    have kz := rf_input ky kT kca (const_input (a := 1.45) (by norm_num)) (const_input (a := 5.1) (by norm_num))
    have kz' := kz.1.continuousAt (x := x0)
    inputs [kca, kcp, kf, kgc, kT, kR, kN, kD, kS, kw, kcs, ky, kz] x0
    have := sub_pos.mpr (hr x0)
    have := hd x0
    have := hsn x0
    have k1 : ContinuousAt (fun x => u04 (cs x) (T x) √((rr x - rw x) / rw x) (cp x) (1 + 10 * Real.exp (-Rr x / y x)) √(N x)
        (D x) (S x)) x0 := by
      unfold u04
      cont
    have : √(9.81 * y x0) ≠ 0 := by positivity
    have : √(gc x0) ≠ 0 := by positivity
    have k2 : ContinuousAt (fun x => W04 (cs x) (T x) √((rr x - rw x) / rw x) (cp x) √(N x) (D x) (S x) (Rr x) (B x) (gf x)
        (gc x) (y x)) x0 := by
      unfold W04
      cont
    unfold F04
    cont

/-- a case meeting the hypotheses: all damage numbers -/
example := C95_rear_pozueta_height_partial (fun _ => nan) (const_input (a := 3) (by norm_num))
  (const_input (a := 1) (by norm_num)) (const_input (a := 0.5) (by norm_num)) (const_input (a := 1) (by norm_num))
  (const_input (a := 8) (by norm_num)) (const_input (a := 3) (by norm_num)) (continuous_const (y := (1 : ℝ)))
  (fun _ => by norm_num) (continuous_const (y := (4 : ℝ))) (fun _ => by norm_num)
  (const_input (a := 3000) (by norm_num)) (const_input (a := 1) (by norm_num)) id_input
  (continuous_const (y := (2650 : ℝ))) (const_input (a := 1025) (by norm_num)) (fun _ => by norm_num)
  (const_input (a := 1) (by norm_num)) (fun _ => by norm_num)

/-- C95, the largest wave height for a rear slope by Van Gent (2007): unless the iteration limit is reported, the
returned height stays within what the chosen tolerance leaves of a height that changes continuously with all inputs
together; if it is, within `1 / 2 ^ n` of the starting distance (missing: continuity itself, which the tolerance rules
out) -/
theorem C95_rear2007_height_partial {X : Type} [TopologicalSpace X] {ca cp gf T Rc Rf Rr N D S : X → ℝ}
    (M rho : X → PF) (kca : PositiveInput ca) (kcp : PositiveInput cp) (kf : PositiveInput gf)
    (kT : PositiveInput T) (kR : PositiveInput Rc) (kRf : PositiveInput Rf) (kr : Continuous Rr) (hRr : ∀ x, 0 ≤ Rr x)
    (hR : ∀ x, Rr x < Rc x) (kN : PositiveInput N) (kD : PositiveInput D) (kS : PositiveInput S) :
    ∃ p : X → ℝ, Continuous p ∧ ∀ x, 0 < p x ∧ ∀ (t : ℝ) (n : ℕ), 0 ≤ t → 1 ≤ n → ∃ H : ℝ, 0 < H ∧
      (VanGent2007Rear.calculate_maximum_significant_wave_height_Hs (fin (ca x)) (fin (cp x)) (fin (gf x)) (fin (S x))
        (fin (T x)) (fin (Rc x)) (fin (Rf x)) (fin (Rr x)) (fin (N x)) (fin (D x)) (M x) (rho x) (fin t) n).res = .ok (fin H) ∧
      (.text "Maximum number of iterations reached, convergence not achieved" ∉
        (VanGent2007Rear.calculate_maximum_significant_wave_height_Hs (fin (ca x)) (fin (cp x)) (fin (gf x)) (fin (S x))
        (fin (T x)) (fin (Rc x)) (fin (Rf x)) (fin (Rr x)) (fin (N x)) (fin (D x)) (M x) (rho x) (fin t) n).warns →
        t < H → |Real.log H - Real.log (p x)| ≤ t / (H - t)) ∧
      (.text "Maximum number of iterations reached, convergence not achieved" ∈
        (VanGent2007Rear.calculate_maximum_significant_wave_height_Hs (fin (ca x)) (fin (cp x)) (fin (gf x)) (fin (S x))
        (fin (T x)) (fin (Rc x)) (fin (Rf x)) (fin (Rr x)) (fin (N x)) (fin (D x)) (M x) (rho x) (fin t) n).warns →
        |Real.log H - Real.log (p x)| ≤ (1 / 2) ^ n * |Real.log (Rf x) - Real.log (p x)|) := by
  choose p hp hpu hH using fun x => C63_solves (ca x) (cp x) (gf x) (T x) (Rc x) (Rf x) (Rr x) (N x) (D x) (S x) (M x)
    (rho x) (kca.2 x) (kcp.2 x) (kf.2 x) (kT.2 x) (kR.2 x) (kRf.2 x) (hRr x) (hR x) (kN.2 x) (kD.2 x) (kS.2 x)
  refine ⟨p, fixed_cont (q := 1 / 2) (f := fun x => F07 (ca x) (cp x) (gf x) (T x) (Rc x) (Rf x) (Rr x) (N x) (D x)
    (S x)) (by norm_num) hp (fun x => ?_) (fun x y z hy hz => ?_) (fun x0 => ?_), fun x => ⟨hp x, hH x⟩⟩
  · exact (fixed07_iff (kca.2 x) (kcp.2 x) (kf.2 x) (kT.2 x) (kR.2 x) (kRf.2 x).le (hRr x) (hR x) (kN.2 x) (kD.2 x)
      (kS.2 x) (M x) (rho x) (hp x)).mpr ((hpu x (p x) (hp x)).mpr rfl)
  · exact F07_lip (kca.2 x) (kcp.2 x) (kf.2 x) (kT.2 x) (kR.2 x) (kRf.2 x).le (hRr x) (hR x) (kN.2 x) (kD.2 x)
      (kS.2 x) y z hy hz
  · have hy := hp x0
    generalize p x0 = y at hy
    have kz := rf_input (const_input hy) kT kca (const_input (a := 1.45) (by norm_num))
      (const_input (a := 5.1) (by norm_num))
    have kz' := kz.1.continuousAt (x := x0)
    inputs [kcp, kf, kR, kRf, kN, kD, kS, kz] x0
    have := sub_pos.mpr (hR x0)
    have := hRr x0
    have kw : ContinuousAt (fun x => w07 0.00025 (cp x) (Rc x) (1 + 5 * Rr x / (Rc x - Rr x)) (1 + Rf x / y) √(N x) (D x)
        (S x)) x0 := by
      unfold w07
      cont
    unfold F07 Z07
    cont

/-- a case meeting the hypotheses: all rock sizes -/
example := C95_rear2007_height_partial (fun _ => nan) (fun _ => nan) (const_input (a := 3) (by norm_num))
  (const_input (a := 1) (by norm_num)) (const_input (a := 0.5) (by norm_num)) (const_input (a := 8) (by norm_num))
  (const_input (a := 3) (by norm_num)) (const_input (a := 1) (by norm_num)) (continuous_const (y := (1 : ℝ)))
  (fun _ => by norm_num) (fun _ => by norm_num) (const_input (a := 3000) (by norm_num)) id_input
  (const_input (a := 2) (by norm_num))
end
end
