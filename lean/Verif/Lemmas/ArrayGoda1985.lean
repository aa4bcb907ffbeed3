import Verif.Lemmas.ArrayTac
import Verif.Array.Goda1985
import Verif.Model.Goda1985
import Verif.Lemmas.ArrayCore

/-! # One case of a call on arrays: `Array/Goda1985.lean` -/

open Classical
open Arrays
noncomputable section
namespace ArrProof
variable {n : ℕ}

@[num_simp] theorem num_sinh (x : PF) : Val.sinh (.num x : Val n) = .num (PF.sinh x) := rfl
@[num_simp] theorem num_cosh (x : PF) : Val.cosh (.num x : Val n) = .num (PF.cosh x) := rfl
@[num_simp] theorem num_Wup (hacc Rc Bup a b c g : PF) :
    Arr.Goda1985.calculate_Wup (.num hacc : Val n) (.num Rc) (.num Bup) (.num a) (.num b) (.num c) g =
      .num (Goda1985.calculate_Wup hacc Rc Bup a b c g) := rfl

theorem Goda1985_check_validity_range [NeZero n] {U : Prop} (beta cota_seabed Tmax tup Bup h_s B1 : Val n)
    (hU : U → ∀ x ∈ [beta, cota_seabed, Tmax, tup, Bup, h_s, B1], Val.Uniform x) :
    Rel U (Arr.Goda1985.check_validity_range beta cota_seabed Tmax tup Bup h_s B1)
      (fun i => Goda1985.check_validity_range (beta.get i) (cota_seabed.get i) (Tmax.get i) (tup.get i)
        (Bup.get i) (h_s.get i) (B1.get i)) := by
  unfold Arr.Goda1985.check_validity_range Goda1985.check_validity_range
  arr_rel [] hU

@[cases_simp] theorem Goda1985_calculate_Wup (hacc Rc Bup a b c : Val n) (g : PF) (i : Fin n) :
    (Arr.Goda1985.calculate_Wup hacc Rc Bup a b c g).get i =
      Goda1985.calculate_Wup (hacc.get i) (Rc.get i) (Bup.get i) (a.get i) (b.get i) (c.get i) g := by
  unfold Arr.Goda1985.calculate_Wup Goda1985.calculate_Wup
  arr_pure

@[cases_simp] theorem Goda1985_calculate_safety_factors_1 (FU FH Wup muf tup MH MU : Val n) (i : Fin n) :
    (Arr.Goda1985.calculate_safety_factors FU FH Wup muf tup MH MU).1.get i =
      (Goda1985.calculate_safety_factors (FU.get i) (FH.get i) (Wup.get i) (muf.get i) (tup.get i)
        (MH.get i) (MU.get i)).1 := by
  unfold Arr.Goda1985.calculate_safety_factors Goda1985.calculate_safety_factors
  arr_pure

@[cases_simp] theorem Goda1985_calculate_safety_factors_2 (FU FH Wup muf tup MH MU : Val n) (i : Fin n) :
    (Arr.Goda1985.calculate_safety_factors FU FH Wup muf tup MH MU).2.get i =
      (Goda1985.calculate_safety_factors (FU.get i) (FH.get i) (Wup.get i) (muf.get i) (tup.get i)
        (MH.get i) (MU.get i)).2 := by
  unfold Arr.Goda1985.calculate_safety_factors Goda1985.calculate_safety_factors
  arr_pure

theorem rotate_num (beta : PF) :
    Arr.Goda1985.rotate_angle (.num beta : Val n) =
      (Goda1985.rotate_angle beta >>= fun b => pure (.num b)) := by
  unfold Arr.Goda1985.rotate_angle Goda1985.rotate_angle
  simp only [num_simp]
  by_cases h1 : beta ≥ 15
  · simp only [if_pos h1, BVal.truth, decide_eq_true h1]
    rfl
  · by_cases h2 : beta < 15
    · simp only [if_neg h1, if_pos h2, BVal.truth, decide_eq_true h2, decide_eq_false h1]
      rfl
    · simp only [if_neg h1, if_neg h2, BVal.truth, decide_eq_false h2, decide_eq_false h1]
      rfl

theorem anyOf_num (l : List PF) :
    Arr.Goda1985.anyOf (l.map (Val.num (n := n))) = pure (decide (∃ x ∈ l, x.isnan)) := by
  induction l with
  | nil => simp [Arr.Goda1985.anyOf]
  | cons x xs ih =>
    show PyM.or (Val.num x : Val n).isnan.truth (Arr.Goda1985.anyOf (xs.map (Val.num (n := n)))) = _
    rw [ih, Val.num_isnan]
    show PyM.or (pure (decide x.isnan)) _ = _
    by_cases h : x.isnan
    · have : ∃ y ∈ x :: xs, y.isnan := ⟨x, List.mem_cons_self, h⟩
      rw [decide_eq_true h, decide_eq_true this]; rfl
    · rw [decide_eq_false h]
      show (pure (decide (∃ y ∈ xs, y.isnan)) : PyM Bool) = _
      congr 1
      simp [h]

theorem not_anyOf_num (l : List PF) :
    PyM.not (Arr.Goda1985.anyOf (l.map (Val.num (n := n)))) = (BVal.num (n := n) (∀ x ∈ l, ¬ x.isnan)).truth := by
  rw [anyOf_num]
  by_cases h : ∃ x ∈ l, x.isnan
  · have h' : ¬ ∀ x ∈ l, ¬ x.isnan := by push Not; exact h
    unfold BVal.truth
    dsimp only
    rw [decide_eq_true h]
    exact congrArg (pure : Bool → PyM Bool) (@decide_eq_false _ (propDecidable _) h').symm
  · have h' : ∀ x ∈ l, ¬ x.isnan := by push Not at h; exact h
    unfold BVal.truth
    dsimp only
    rw [decide_eq_false h]
    exact congrArg (pure : Bool → PyM Bool) (@decide_eq_true _ (propDecidable _) h').symm

theorem cond_truth {α : Type} (p : Prop) (a b : PyM α) :
    PyM.cond (BVal.num (n := n) p).truth a b = if p then a else b := by
  unfold BVal.truth PyM.cond
  by_cases h : p
  · rw [if_pos h]
    show (if @decide p (propDecidable p) = true then a else b) = a
    rw [if_pos (@decide_eq_true _ (propDecidable _) h)]
  · rw [if_neg h]
    show (if @decide p (propDecidable p) = true then a else b) = b
    rw [if_neg (fun hc => h (@of_decide_eq_true _ (propDecidable _) hc))]

theorem impulsive_num (beta B1 L cota_seabed offshore_wave_steepness Rc Hsi d h_s : PF) :
    Arr.Goda1985.check_impulsive_breaking (n := n) (.num beta) (.num B1) (.num L) (.num cota_seabed)
        (.num offshore_wave_steepness) (.num Rc) (.num Hsi) (.num d) (.num h_s) =
      Goda1985.check_impulsive_breaking beta B1 L cota_seabed offshore_wave_steepness Rc Hsi d h_s := by
  unfold Arr.Goda1985.check_impulsive_breaking Goda1985.check_impulsive_breaking
  have h1 := not_anyOf_num (n := n) [beta, B1, L, cota_seabed, offshore_wave_steepness, Rc, Hsi]
  have h2 := not_anyOf_num (n := n) [beta, B1, L, d, h_s, Rc, Hsi]
  simp only [List.map] at h1 h2
  rw [h1, h2]
  simp only [num_simp, cond_truth]
  split_ifs <;> rfl

theorem Goda1985_check_impulsive_breaking [NeZero n] {U : Prop}
    (beta B1 L cota_seabed offshore_wave_steepness Rc Hsi d h_s : PF) :
    Rel U (Arr.Goda1985.check_impulsive_breaking (n := n) (.num beta) (.num B1) (.num L) (.num cota_seabed)
        (.num offshore_wave_steepness) (.num Rc) (.num Hsi) (.num d) (.num h_s))
      (fun _ : Fin n => Goda1985.check_impulsive_breaking beta B1 L cota_seabed offshore_wave_steepness Rc Hsi
        d h_s) := by
  rw [impulsive_num]
  exact Rel.const fun _ _ => rfl

theorem Goda1985_calculate_bearing_pressures [NeZero n] {U : Prop} (Wup tup MH MU FU Bup : PF) :
    Rel U (Arr.Goda1985.calculate_bearing_pressures (.num Wup : Val n) (.num tup) (.num MH) (.num MU)
        (.num FU) (.num Bup))
      (fun _ : Fin n => pure (Goda1985.calculate_bearing_pressures Wup tup MH MU FU Bup)) := by
  unfold Arr.Goda1985.calculate_bearing_pressures Goda1985.calculate_bearing_pressures
  simp only [num_simp]
  exact Rel.pure fun i => rfl

theorem Goda1985_calculate_pressures_and_forces [NeZero n] {U : Prop} (disper : PF → PF → PF → PF)
    (HD Hsi Tmax beta h_s d B1 cota_seabed : PF) (rho_water hacc : Val n) (Rc : PF) (Bup : Val n)
    (offshore_wave_steepness g : PF) :
    Rel U (Arr.Goda1985.calculate_pressures_and_forces disper (.num HD) (.num Hsi) (.num Tmax)
        (.num beta) (.num h_s) (.num d) (.num B1) (.num cota_seabed) rho_water hacc (.num Rc) Bup
        (.num offshore_wave_steepness) g)
      (fun i => Goda1985.calculate_pressures_and_forces disper HD Hsi Tmax beta h_s d B1 cota_seabed
        (rho_water.get i) (hacc.get i) Rc (Bup.get i) offshore_wave_steepness g) := by
  unfold Arr.Goda1985.calculate_pressures_and_forces Goda1985.calculate_pressures_and_forces
  dsimp only
  rw [Val.num_abs, rotate_num]
  have hw : Arr.CorePhysics.calculate_local_wavelength disper (T := (.num Tmax : Val n)) (h := .num h_s)
      (g := g) = pure (.num (CorePhysics.calculate_local_wavelength disper (T := Tmax) (h := h_s)
        (g := g))) := rfl
  rw [hw]
  generalize CorePhysics.calculate_local_wavelength disper (T := Tmax) (h := h_s) (g := g) = L
  generalize Goda1985.rotate_angle (PF.abs beta) = ro
  rw [bind_assoc]
  refine Rel.bind (f := fun _ => ro) (Rel.const fun _ _ => rfl) fun b => ?_
  simp only [num_simp]
  refine Rel.bind (Goda1985_check_impulsive_breaking ..) fun v => ?_
  refine Rel.pure fun i => ?_
  simp only [Cases.case, cases_simp]

/-- numbers throughout -/
def numLoads (l : Goda1985.Loads) : Arr.Goda1985.Loads n :=
  { FH := .num l.FH, FU := .num l.FU, MH := .num l.MH, MU := .num l.MU, p1 := .num l.p1,
    p2 := .num l.p2, p3 := .num l.p3, p4 := .num l.p4, hstar_c := .num l.hstar_c, pu := .num l.pu,
    h_5Hs := .num l.h_5Hs, etastar := .num l.etastar, L := .num l.L, alpha_1 := .num l.alpha_1,
    alpha_2 := .num l.alpha_2, alpha_3 := .num l.alpha_3, impulsive_breaking := l.impulsive_breaking }

theorem pressures_num [NeZero n] (disper : PF → PF → PF → PF)
    (HD Hsi Tmax beta h_s d B1 cota_seabed rho_water hacc Rc Bup offshore_wave_steepness g : PF) :
    Arr.Goda1985.calculate_pressures_and_forces (n := n) disper (.num HD) (.num Hsi) (.num Tmax)
        (.num beta) (.num h_s) (.num d) (.num B1) (.num cota_seabed) (.num rho_water) (.num hacc)
        (.num Rc) (.num Bup) (.num offshore_wave_steepness) g =
      (Goda1985.calculate_pressures_and_forces disper HD Hsi Tmax beta h_s d B1 cota_seabed
        rho_water hacc Rc Bup offshore_wave_steepness g >>= fun l => pure (numLoads l)) := by
  unfold Arr.Goda1985.calculate_pressures_and_forces Goda1985.calculate_pressures_and_forces
  dsimp only
  rw [Val.num_abs, rotate_num]
  have hw : Arr.CorePhysics.calculate_local_wavelength disper (T := (.num Tmax : Val n)) (h := .num h_s)
      (g := g) = pure (.num (CorePhysics.calculate_local_wavelength disper (T := Tmax) (h := h_s)
        (g := g))) := rfl
  rw [hw]
  generalize CorePhysics.calculate_local_wavelength disper (T := Tmax) (h := h_s) (g := g) = L
  generalize Goda1985.rotate_angle (PF.abs beta) = ro
  rw [bind_assoc, bind_assoc]
  congr 1
  funext b
  rw [bind_assoc]
  simp only [num_simp, impulsive_num]
  rfl

instance : Cases n Goda1985.Loads Goda1985.Loads := ⟨fun l _ => l⟩

/-- only the friction factor may be an array -/
theorem Goda1985_calculate_forces_and_reactions [NeZero n] {U : Prop} (disper : PF → PF → PF → PF)
    (HD Hsi Tmax beta h_s d B1 cota_seabed rho_water hacc Rc Bup rho_fill_above_SWL
      rho_fill_below_SWL offshore_wave_steepness : PF) (muf : Val n) (tup_over_Bup g : PF) :
    Rel U (Arr.Goda1985.calculate_forces_and_reactions disper (.num HD) (.num Hsi) (.num Tmax)
        (.num beta) (.num h_s) (.num d) (.num B1) (.num cota_seabed) (.num rho_water) (.num hacc)
        (.num Rc) (.num Bup) (.num rho_fill_above_SWL) (.num rho_fill_below_SWL)
        (.num offshore_wave_steepness) muf (.num tup_over_Bup) g)
      (fun i => Goda1985.calculate_forces_and_reactions disper HD Hsi Tmax beta h_s d B1 cota_seabed
        rho_water hacc Rc Bup rho_fill_above_SWL rho_fill_below_SWL offshore_wave_steepness (muf.get i)
        tup_over_Bup g) := by
  unfold Arr.Goda1985.calculate_forces_and_reactions Goda1985.calculate_forces_and_reactions
  dsimp only
  rw [pressures_num, bind_assoc]
  refine Rel.bind (α := Goda1985.Loads) (f := fun _ => Goda1985.calculate_pressures_and_forces disper HD Hsi Tmax beta h_s d B1
    cota_seabed rho_water hacc Rc Bup offshore_wave_steepness g) (Rel.const fun _ _ => rfl) fun l => ?_
  have hb : Arr.Goda1985.calculate_bearing_pressures (n := n)
      (.num (Goda1985.calculate_Wup hacc Rc Bup rho_fill_below_SWL rho_water rho_fill_above_SWL g))
      (.num (tup_over_Bup * Bup)) (.num l.MH) (.num l.MU) (.num l.FU) (.num Bup) = pure
      { pe := .num (Goda1985.calculate_bearing_pressures (Goda1985.calculate_Wup hacc Rc Bup
          rho_fill_below_SWL rho_water rho_fill_above_SWL g) (tup_over_Bup * Bup) l.MH l.MU l.FU Bup).pe
        Me := .num (Goda1985.calculate_bearing_pressures (Goda1985.calculate_Wup hacc Rc Bup
          rho_fill_below_SWL rho_water rho_fill_above_SWL g) (tup_over_Bup * Bup) l.MH l.MU l.FU Bup).Me
        We := .num (Goda1985.calculate_bearing_pressures (Goda1985.calculate_Wup hacc Rc Bup
          rho_fill_below_SWL rho_water rho_fill_above_SWL g) (tup_over_Bup * Bup) l.MH l.MU l.FU Bup).We
        te := .num (Goda1985.calculate_bearing_pressures (Goda1985.calculate_Wup hacc Rc Bup
          rho_fill_below_SWL rho_water rho_fill_above_SWL g) (tup_over_Bup * Bup) l.MH l.MU l.FU Bup).te } := by
    unfold Arr.Goda1985.calculate_bearing_pressures Goda1985.calculate_bearing_pressures
    simp only [num_simp]
  simp only [Val.pure_bind]
  unfold numLoads
  simp only [num_simp]
  rw [hb, Val.pure_bind]
  refine Rel.bind (Goda1985_check_validity_range _ _ _ _ _ _ _ fun _ x hx => ?_) fun u =>
    Rel.pure fun i => ?_
  · simp only [List.mem_cons, List.not_mem_nil, or_false] at hx
    rcases hx with rfl | rfl | rfl | rfl | rfl | rfl | rfl <;> exact Val.Uniform.num _
  · simp only [Cases.case, cases_simp]

end ArrProof
end
