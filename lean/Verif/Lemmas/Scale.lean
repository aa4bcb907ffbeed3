import Verif.SpecScale
import Verif.Py.Lemmas
import Verif.Lemmas.Check
import Verif.Model.CorePhysics
import Verif.Model.CoreUtility
import Verif.Py.Loop

/-! # Calculus of dimensions

`sc l a x` is `x` times `l^a`. The rules move the factors outward through every operation of the
model, so that a formula whose dimensions do not fit leaves a factor behind. They hold for all numbers,
including NaN and the infinities. -/

open Classical
open PF
noncomputable section

namespace ScaleProof

def sc (l : {x : ℝ // 0 < x}) (a : ℝ) (x : PF) : PF := fin (l.1 ^ a) * x

variable {l : {x : ℝ // 0 < x}} {a a' : ℝ} {x y : PF}

theorem k_pos : 0 < l.1 ^ a := Real.rpow_pos_of_pos l.2 _

theorem k_mul : l.1 ^ a * l.1 ^ a' = l.1 ^ (a + a') := (Real.rpow_add l.2 _ _).symm

theorem k_inv : (l.1 ^ a)⁻¹ = l.1 ^ (-a) := (Real.rpow_neg l.2.le _).symm

theorem mulInf_pos {k : ℝ} (hk : 0 < k) : mulInf k = pinf := by simp [mulInf, hk]
theorem mul_pinf {k : ℝ} (hk : 0 < k) : fin k * pinf = pinf := mulInf_pos hk
theorem mul_ninf {k : ℝ} (hk : 0 < k) : fin k * ninf = ninf := by
  show neg (mulInf k) = _; rw [mulInf_pos hk]; rfl
theorem mulInf_mul {k : ℝ} (hk : 0 < k) (x : ℝ) : mulInf (k * x) = mulInf x := by
  unfold mulInf
  simp only [mul_pos_iff_of_pos_left hk, mul_neg_iff, hk, not_lt_of_gt hk, true_and, false_and, or_false]
theorem mul_mulInf {k : ℝ} (hk : 0 < k) (x : ℝ) : fin k * mulInf x = mulInf x := by
  unfold mulInf
  split_ifs
  · exact mul_pinf hk
  · exact mul_ninf hk
  · rfl

theorem sc_fin (x : ℝ) : sc l a (fin x) = fin (l.1 ^ a * x) := rfl
theorem sc_nan : sc l a nan = nan := rfl
theorem sc_pinf : sc l a pinf = pinf := mul_pinf k_pos
theorem sc_ninf : sc l a ninf = ninf := mul_ninf k_pos
theorem sc_mulInf (x : ℝ) : sc l a (mulInf x) = mulInf x := mul_mulInf k_pos x

theorem sc_zero : sc l 0 x = x := by
  unfold sc
  rw [Real.rpow_zero]
  cases x
  · rfl
  · exact mul_ninf one_pos
  · exact mul_pinf one_pos
  · rw [mul_fin, one_mul]

theorem sc_sc : sc l a (sc l a' x) = sc l (a + a') x := by
  cases x
  · rfl
  · simp only [sc_ninf]
  · simp only [sc_pinf]
  · rw [sc_fin, sc_fin, sc_fin, ← mul_assoc, k_mul]

theorem sc_neg : -(sc l a x) = sc l a (-x) := by
  cases x
  · rfl
  · rw [sc_ninf]; exact sc_pinf.symm
  · rw [sc_pinf]; exact sc_ninf.symm
  · rw [sc_fin, neg_fin, neg_fin, sc_fin, mul_neg]

theorem sc_add : sc l a x + sc l a y = sc l a (x + y) := by
  cases x <;> cases y <;> simp only [sc_nan, sc_ninf, sc_pinf, sc_fin] <;>
    first
    | rfl
    | exact sc_pinf.symm
    | exact sc_ninf.symm
    | (rw [add_fin, add_fin, sc_fin, mul_add])

theorem sc_sub : sc l a x - sc l a y = sc l a (x - y) := by
  show _ + -_ = sc l a (x + -y)
  rw [sc_neg, sc_add]

theorem mul_comm' (x y : PF) : x * y = y * x := by
  cases x <;> cases y <;> first | rfl | (rw [mul_fin, mul_fin, mul_comm])

theorem sc_mul : sc l a x * y = sc l a (x * y) := by
  cases x <;> cases y <;> simp only [sc_nan, sc_ninf, sc_pinf, sc_fin] <;>
    first
    | rfl
    | exact sc_pinf.symm
    | exact sc_ninf.symm
    | exact (sc_mulInf _).symm
    | (show mulInf _ = sc l a (mulInf _); rw [sc_mulInf, mulInf_mul k_pos])
    | (show neg (mulInf _) = sc l a (neg (mulInf _))
       rw [mulInf_mul k_pos, show neg (mulInf _) = -(mulInf _) from rfl, ← sc_neg, sc_mulInf])
    | (show neg (mulInf _) = sc l a (neg (mulInf _))
       rw [show neg (mulInf _) = -(mulInf _) from rfl, ← sc_neg, sc_mulInf])
    | (rw [mul_fin, mul_fin, sc_fin, mul_assoc])

theorem mul_sc : x * sc l a y = sc l a (x * y) := by
  rw [mul_comm', sc_mul, mul_comm']

theorem sc_div : sc l a x / y = sc l a (x / y) := by
  have hk : 0 < l.1 ^ a := k_pos
  cases x <;> cases y <;> simp only [sc_nan, sc_ninf, sc_pinf, sc_fin] <;>
    first
    | rfl
    | (show (fin 0 : PF) = sc l a (fin 0); rw [sc_fin, mul_zero])
    | (show (if _ then ninf else pinf) = sc l a (if _ then ninf else pinf)
       split_ifs
       · exact sc_ninf.symm
       · exact sc_pinf.symm)
    | (show (if _ then pinf else ninf) = sc l a (if _ then pinf else ninf)
       split_ifs
       · exact sc_pinf.symm
       · exact sc_ninf.symm)
    | (show (if _ then mulInf _ else fin _) = sc l a (if _ then mulInf _ else fin _)
       split_ifs
       · rw [sc_mulInf, mulInf_mul hk]
       · rw [sc_fin, mul_div_assoc])

theorem div_sc : x / sc l a y = sc l (-a) (x / y) := by
  have hk : 0 < l.1 ^ a := k_pos
  cases x <;> cases y <;> simp only [sc_nan, sc_ninf, sc_pinf, sc_fin] <;>
    first
    | rfl
    | (show (fin 0 : PF) = sc l _ (fin 0); rw [sc_fin, mul_zero])
    | (show (if _ then ninf else pinf) = sc l _ (if _ then ninf else pinf)
       simp only [mul_neg_iff, hk, not_lt_of_gt hk, true_and, false_and, or_false]
       split_ifs
       · exact sc_ninf.symm
       · exact sc_pinf.symm)
    | (show (if _ then pinf else ninf) = sc l _ (if _ then pinf else ninf)
       simp only [mul_neg_iff, hk, not_lt_of_gt hk, true_and, false_and, or_false]
       split_ifs
       · exact sc_pinf.symm
       · exact sc_ninf.symm)
    | (show (if _ then mulInf _ else fin _) = sc l _ (if _ then mulInf _ else fin _)
       simp only [mul_eq_zero, hk.ne', false_or]
       split_ifs
       · rw [sc_mulInf]
       · rw [sc_fin, ← k_inv]; congr 1; rw [div_eq_mul_inv, mul_inv]; ring)

theorem sc_npow (e : ℝ) : npow (sc l a x) (fin e) = sc l (a * e) (npow x (fin e)) := by
  have hk : 0 < l.1 ^ a := k_pos
  have hke : (l.1 ^ a) ^ e = l.1 ^ (a * e) := (Real.rpow_mul l.2.le _ _).symm
  cases x
  · show (if _ then fin 1 else nan) = sc _ _ (if _ then fin 1 else nan)
    split_ifs with h1
    · subst h1; rw [mul_zero, sc_zero]
    · rfl
  · rw [sc_ninf]
    show (if _ then (if _ then ninf else pinf) else if _ then fin 1 else fin 0) =
      sc _ _ (if _ then (if _ then ninf else pinf) else if _ then fin 1 else fin 0)
    split_ifs with h1 h2 h3
    · exact sc_ninf.symm
    · exact sc_pinf.symm
    · subst h3; rw [mul_zero, sc_zero]
    · rw [sc_fin, mul_zero]
  · rw [sc_pinf]
    show (if _ then pinf else if _ then fin 1 else fin 0) = sc _ _ (if _ then pinf else if _ then fin 1 else fin 0)
    split_ifs with h1 h2
    · exact sc_pinf.symm
    · subst h2; rw [mul_zero, sc_zero]
    · rw [sc_fin, mul_zero]
  · rename_i x
    rw [sc_fin]
    show powFin _ _ = sc l _ (powFin _ _)
    unfold powFin
    rcases lt_trichotomy x 0 with h | h | h
    · have h1 : l.1 ^ a * x < 0 := mul_neg_of_pos_of_neg hk h
      rw [if_neg h1.not_gt, if_neg h1.ne, if_neg h.not_gt, if_neg h.ne]
      split_ifs with hn
      · obtain ⟨n, rfl⟩ := hn
        rw [Int.floor_intCast, sc_fin, mul_zpow, ← hke, Real.rpow_intCast]
      · rfl
    · subst h
      rw [mul_zero, if_neg (lt_irrefl _), if_pos rfl]
      split_ifs with h1 h2
      · rw [sc_fin, mul_zero]
      · subst h2; rw [mul_zero, sc_zero]
      · exact sc_pinf.symm
    · rw [if_pos (mul_pos hk h), if_pos h, sc_fin, Real.mul_rpow hk.le h.le, hke]

theorem sc_sqrt : PF.sqrt (sc l a x) = sc l (a / 2) (PF.sqrt x) := by
  have hk : 0 < l.1 ^ a := k_pos
  cases x
  · rfl
  · rw [sc_ninf]; rfl
  · rw [sc_pinf]; exact sc_pinf.symm
  · rename_i x
    rw [sc_fin]
    show (if _ then nan else fin _) = sc l _ (if _ then nan else fin _)
    simp only [mul_neg_iff, hk, not_lt_of_gt hk, true_and, false_and, or_false]
    split_ifs
    · rfl
    · rw [sc_fin, Real.sqrt_mul hk.le]
      congr 2
      rw [Real.sqrt_eq_rpow, ← Real.rpow_mul l.2.le]; ring_nf

theorem sc_abs : PF.abs (sc l a x) = sc l a (PF.abs x) := by
  have hk : 0 < l.1 ^ a := k_pos
  cases x
  · rfl
  · rw [sc_ninf]; exact sc_pinf.symm
  · rw [sc_pinf]; exact sc_pinf.symm
  · rw [sc_fin, abs_fin, abs_fin, sc_fin, abs_mul, abs_of_pos hk]

theorem sc_isnan : isnan (sc l a x) = isnan x := by
  cases x
  · rfl
  · rw [sc_ninf]
  · rw [sc_pinf]
  · rfl

theorem sc_lt : (sc l a x < sc l a y) = (x < y) := by
  have hk : 0 < l.1 ^ a := k_pos
  cases x <;> cases y <;> simp only [sc_nan, sc_ninf, sc_pinf, sc_fin, lt_fin, mul_lt_mul_iff_right₀ hk] <;> rfl

theorem sc_le : (sc l a x ≤ sc l a y) = (x ≤ y) := by
  have hk : 0 < l.1 ^ a := k_pos
  cases x <;> cases y <;> simp only [sc_nan, sc_ninf, sc_pinf, sc_fin, le_fin, mul_le_mul_iff_right₀ hk] <;> rfl

theorem zero_sc : fin 0 = sc l a (fin 0) := by rw [sc_fin, mul_zero]

theorem sc_lt_zero : (sc l a x < fin 0) = (x < fin 0) := by rw [zero_sc (l := l) (a := a), sc_lt, ← zero_sc]
theorem sc_le_zero : (sc l a x ≤ fin 0) = (x ≤ fin 0) := by rw [zero_sc (l := l) (a := a), sc_le, ← zero_sc]
theorem zero_lt_sc : (fin 0 < sc l a x) = (fin 0 < x) := by rw [zero_sc (l := l) (a := a), sc_lt, ← zero_sc]
theorem zero_le_sc : (fin 0 ≤ sc l a x) = (fin 0 ≤ x) := by rw [zero_sc (l := l) (a := a), sc_le, ← zero_sc]
theorem sc_eqF_zero : eqF (sc l a x) (fin 0) = eqF x (fin 0) := by
  have hk : 0 < l.1 ^ a := k_pos
  cases x <;> simp only [sc_nan, sc_ninf, sc_pinf, sc_fin, eqF_fin, mul_eq_zero, hk.ne', false_or]

theorem sc_min : PF.min (sc l a x) (sc l a y) = sc l a (PF.min x y) := by
  unfold PF.min
  simp only [sc_isnan, sc_le]
  split_ifs <;> rfl
theorem sc_max : PF.max (sc l a x) (sc l a y) = sc l a (PF.max x y) := by
  unfold PF.max
  simp only [sc_isnan, sc_le]
  split_ifs <;> rfl
theorem sc_whr (c : Prop) : whr c (sc l a x) (sc l a y) = sc l a (whr c x y) := by
  unfold whr
  split_ifs <;> rfl
theorem sc_ite (c : Prop) [Decidable c] : (if c then sc l a x else sc l a y) = sc l a (if c then x else y) := by
  split_ifs <;> rfl

theorem sc_ite_nan (c : Prop) [Decidable c] : (if c then sc l a x else nan) = sc l a (if c then x else nan) := by
  split_ifs <;> rfl
theorem sc_nan_ite (c : Prop) [Decidable c] : (if c then nan else sc l a x) = sc l a (if c then nan else x) := by
  split_ifs <;> rfl
theorem sc_whr_nan (c : Prop) : whr c (sc l a x) nan = sc l a (whr c x nan) := by
  unfold whr
  split_ifs <;> rfl
theorem sc_nan_whr (c : Prop) : whr c nan (sc l a x) = sc l a (whr c nan x) := by
  unfold whr
  split_ifs <;> rfl
theorem sc_max_zero : PF.max (sc l a x) (fin 0) = sc l a (PF.max x (fin 0)) := by
  rw [zero_sc (l := l) (a := a), sc_max, ← zero_sc]
theorem zero_max_sc : PF.max (fin 0) (sc l a x) = sc l a (PF.max (fin 0) x) := by
  rw [zero_sc (l := l) (a := a), sc_max, ← zero_sc]
theorem sc_ite_zero (c : Prop) [Decidable c] : (if c then sc l a x else fin 0) = sc l a (if c then x else fin 0) := by
  split_ifs
  · rfl
  · exact zero_sc
theorem map_ite (f : PF → PF) (c : Prop) [Decidable c] (m m' : PyM PF) :
    f <$> (if c then m else m') = if c then f <$> m else f <$> m' := by
  split_ifs <;> rfl
theorem map_raise (f : PF → PF) (e : PyErr) : f <$> (PyM.raise e : PyM PF) = PyM.raise e := rfl

/-! ### The quantities of the statements -/

variable {lam : ℝ} (hl : 0 < lam)

theorem len_eq : Scale.len lam = sc ⟨lam, hl⟩ 1 := by
  funext x; simp [Scale.len, Scale.times, sc]
theorem time_eq : Scale.time lam = sc ⟨lam, hl⟩ (1 / 2) := by
  funext x; simp only [Scale.time, Scale.times, sc, Real.sqrt_eq_rpow]
theorem vel_eq : Scale.vel lam = sc ⟨lam, hl⟩ (1 / 2) := time_eq hl
theorem area_eq : Scale.area lam = sc ⟨lam, hl⟩ 2 := by
  funext x; simp only [Scale.area, Scale.times, sc]
  rw [show (2 : ℝ) = (2 : ℕ) by norm_num, Real.rpow_natCast]
theorem disch_eq : Scale.disch lam = sc ⟨lam, hl⟩ (3 / 2) := by
  funext x; simp only [Scale.disch, Scale.times, sc, Real.sqrt_eq_rpow]
  rw [show (3 / 2 : ℝ) = 1 + 1 / 2 by norm_num, Real.rpow_add hl, Real.rpow_one]
theorem vol_eq : Scale.vol lam = sc ⟨lam, hl⟩ 3 := by
  funext x; simp only [Scale.vol, Scale.times, sc]
  rw [show (3 : ℝ) = (3 : ℕ) by norm_num, Real.rpow_natCast]

theorem inv_time_eq : Scale.times (1 / √lam) = sc ⟨lam, hl⟩ (-(1 / 2)) := by
  funext x; simp only [Scale.times, sc, Real.sqrt_eq_rpow, one_div, Real.rpow_neg hl.le]
theorem inv_len_eq : Scale.times (1 / lam) = sc ⟨lam, hl⟩ (-1) := by
  funext x; simp only [Scale.times, sc, one_div, Real.rpow_neg hl.le, Real.rpow_one]
theorem hdw {disper : PF → PF → PF → PF} (hd : Scale.Dispersion disper) (w h g : PF) :
    disper (sc ⟨lam, hl⟩ (-(1 / 2)) w) (sc ⟨lam, hl⟩ 1 h) g = sc ⟨lam, hl⟩ (-1) (disper w h g) := by
  rw [← inv_time_eq hl, ← inv_len_eq hl, ← len_eq hl]; exact hd lam hl w h g
theorem hdd {disper : PF → PF → PF → PF} (hd : Scale.DeepDispersion disper) (w : PF) :
    disper (sc ⟨lam, hl⟩ (-(1 / 2)) w) 1e100 9.81 = sc ⟨lam, hl⟩ (-1) (disper w 1e100 9.81) := by
  rw [← inv_time_eq hl, ← inv_len_eq hl]; exact hd lam hl w

/-! ### The basic quantities -/

open CorePhysics CoreUtility

theorem two_eq : (2 : PF) = fin 2 := ofNat_eq 2
theorem three_eq : (3 : PF) = fin 3 := ofNat_eq 3

theorem check_given (n f : String) (gs : List PF) (v lo hi : PF) (g : PF) :
    check_if_given (sc l a g :: gs) n f v lo hi = check_if_given (g :: gs) n f v lo hi := by
  unfold check_if_given
  simp only [List.forall_mem_cons, sc_isnan]
theorem check_given2 (n f : String) (gs : List PF) (v lo hi : PF) (g g' : PF) :
    check_if_given (g' :: sc l a g :: gs) n f v lo hi = check_if_given (g' :: g :: gs) n f v lo hi := by
  unfold check_if_given
  simp only [List.forall_mem_cons, sc_isnan]
theorem check_given3 (n f : String) (gs : List PF) (v lo hi : PF) (g g' g'' : PF) :
    check_if_given (g' :: g'' :: sc l a g :: gs) n f v lo hi = check_if_given (g' :: g'' :: g :: gs) n f v lo hi := by
  unfold check_if_given
  simp only [List.forall_mem_cons, sc_isnan]
theorem check_given4 (n f : String) (gs : List PF) (v lo hi : PF) (g g' g'' g3 : PF) :
    check_if_given (g' :: g'' :: g3 :: sc l a g :: gs) n f v lo hi = check_if_given (g' :: g'' :: g3 :: g :: gs) n f v lo hi := by
  unfold check_if_given
  simp only [List.forall_mem_cons, sc_isnan]

/-- the rules, then equal exponents -/
macro "dims" "[" ls:Lean.Parser.Tactic.simpLemma,* "]" : tactic =>
  `(tactic|
    (try simp only [ofNat_eq, one_eq, sci_eq, zero_eq, neg_fin]) <;>
    norm_num only [sc_nan, sc_sub, sc_add, sc_neg, mul_sc, sc_mul, sc_div, div_sc, sc_npow,
      sc_sqrt, sc_abs, sc_isnan, sc_lt, sc_le, gt_iff_lt, ge_iff_le, sc_lt_zero, sc_le_zero, zero_lt_sc,
      zero_le_sc, sc_eqF_zero, sc_min, sc_max, sc_whr, sc_ite, sc_ite_nan, sc_nan_ite, sc_whr_nan, sc_nan_whr, sc_max_zero, zero_max_sc, sc_ite_zero, map_ite, map_raise, sc_sc, sc_zero, check_given, check_given2,
      check_given3, check_given4, div_fin, nan_div, div_nan,
      nan_mul, mul_nan, nan_sub, sub_nan, nan_add, add_nan, $ls,*])

theorem steep (H T g : PF) : calculate_wave_steepness_s (sc l 1 H) (sc l (1 / 2) T) g =
    calculate_wave_steepness_s H T g := by
  unfold calculate_wave_steepness_s
  dims []

theorem steep_nan (H g : PF) : calculate_wave_steepness_s H nan g = nan := by
  unfold calculate_wave_steepness_s
  rw [npow_nan_left (by rw [ofNat_eq]; simp [fin_inj]), div_nan]
theorem steep_nan' (T g : PF) : calculate_wave_steepness_s nan T g = nan := by
  unfold calculate_wave_steepness_s
  rw [mul_nan, nan_div]
theorem irib_nan (H c : PF) : calculate_Iribarren_number_ksi H nan c = nan := by
  unfold calculate_Iribarren_number_ksi
  dsimp only
  rw [steep_nan]; exact div_nan _
theorem irib_nan' (T c : PF) : calculate_Iribarren_number_ksi nan T c = nan := by
  unfold calculate_Iribarren_number_ksi
  dsimp only
  rw [steep_nan']; exact div_nan _
theorem stab_nan (H r w : PF) : calculate_stability_number_Ns H nan r w = nan := by
  unfold calculate_stability_number_Ns
  dsimp only
  rw [mul_nan, div_nan]
theorem stab_nan' (D r w : PF) : calculate_stability_number_Ns nan D r w = nan := by
  unfold calculate_stability_number_Ns
  dsimp only
  rw [nan_div]

theorem irib (H T c : PF) : calculate_Iribarren_number_ksi (sc l 1 H) (sc l (1 / 2) T) c =
    calculate_Iribarren_number_ksi H T c := by
  unfold calculate_Iribarren_number_ksi
  rw [steep]

theorem stab (H D r w : PF) : calculate_stability_number_Ns (sc l 1 H) (sc l 1 D) r w =
    calculate_stability_number_Ns H D r w := by
  unfold calculate_stability_number_Ns
  dims []

theorem size (D M r : PF) : check_usage_Dn50_or_M50 (sc l 1 D) (sc l 3 M) r =
    sc l 1 <$> check_usage_Dn50_or_M50 D M r := by
  unfold check_usage_Dn50_or_M50 calculate_Dn50_from_M50
  dims []
  split_ifs <;> rfl

theorem stabnum_Dn (H d n : PF) :
    check_usage_stabilitynumber (some (sc l 1 H)) none (some d) (some n) =
      (fun r => (sc l 1 r.1, r.2)) <$> check_usage_stabilitynumber (some H) none (some d) (some n) := by
  show (pure _ : PyM _) = (_ <$> pure _ : PyM _)
  rw [sc_div, sc_div, map_pure]
theorem stabnum_Hs (D d n : PF) :
    check_usage_stabilitynumber none (some (sc l 1 D)) (some d) (some n) =
      (fun r => (sc l 1 r.1, r.2)) <$> check_usage_stabilitynumber none (some D) (some d) (some n) := by
  show (pure _ : PyM _) = (_ <$> pure _ : PyM _)
  rw [sc_mul, sc_mul, map_pure]
theorem stabnum_Ns (H D d : PF) :
    check_usage_stabilitynumber (some (sc l 1 H)) (some (sc l 1 D)) (some d) none =
      check_usage_stabilitynumber (some H) (some D) (some d) none := by
  show (pure _ : PyM _) = (pure _ : PyM _)
  dims []

theorem mass (D r : PF) : calculate_M50_from_Dn50 (sc l 1 D) r = sc l 3 (calculate_M50_from_Dn50 D r) := by
  unfold calculate_M50_from_Dn50
  dims []
theorem diameter (M r : PF) : calculate_Dn50_from_M50 (sc l 3 M) r = sc l 1 (calculate_Dn50_from_M50 M r) := by
  unfold calculate_Dn50_from_M50
  dims []

/-! ### Loops -/

theorem loop_map {σ τ : Type} (f : σ → τ) {c : σ → Prop} {c' : τ → Prop} {b : σ → σ} {b' : τ → τ}
    (hc : ∀ s, c' (f s) = c s) (hb : ∀ s, b' (f s) = f (b s)) (n : ℕ) (s : σ) :
    whileIter n c' b' (f s) = f (whileIter n c b s) := by
  induction n generalizing s with
  | zero => rfl
  | succ n ih =>
    unfold whileIter
    rw [hc, hb, ih]
    split_ifs <;> rfl
theorem loopM_map {σ τ : Type} (f : σ → τ) {c : σ → Prop} {c' : τ → Prop} {b : σ → PyM σ} {b' : τ → PyM τ}
    (hc : ∀ s, c' (f s) = c s) (hb : ∀ s, b' (f s) = f <$> b s) (n : ℕ) (s : σ) :
    whileIterM n c' b' (f s) = f <$> whileIterM n c b s := by
  induction n generalizing s with
  | zero => rfl
  | succ n ih =>
    unfold whileIterM
    rw [hc, hb]
    split_ifs
    · rw [bind_map_left, map_bind]
      congr 1
      funext x
      exact ih x
    · exact (map_pure _ _).symm

/-! ### Results without the warnings -/

theorem res_bind {α β : Type} (m : PyM α) (f : α → PyM β) :
    (m >>= f).res = m.res.bind (fun x => (f x).res) := by
  rcases m with ⟨w, e | a⟩ <;> rfl
theorem res_check (gs : List PF) (n f : String) (v lo hi : PF) : (check_if_given gs n f v lo hi).res = .ok () :=
  check_if_given_res gs n f v lo hi
theorem res_pure {α : Type} (x : α) : (pure x : PyM α).res = .ok x := rfl
theorem ok_bind {α β : Type} (x : α) (f : α → Except PyErr β) : (Except.ok x : Except PyErr α).bind f = f x := rfl

/-! ### The wavelength -/

theorem wavelength {disper : PF → PF → PF → PF}
    (hd : ∀ w h g, disper (sc l (-(1 / 2)) w) (sc l 1 h) g = sc l (-1) (disper w h g)) (T h g : PF) :
    calculate_local_wavelength disper (sc l (1 / 2) T) (sc l 1 h) g =
      sc l 1 (calculate_local_wavelength disper T h g) := by
  unfold calculate_local_wavelength
  dsimp only
  rw [div_sc, hd, div_sc, neg_neg]

end ScaleProof
end
