import Verif.Lemmas.ArrayTac
import Verif.Array.Core
import Verif.Model.CorePhysics

/-! # One case of a call on arrays: `Array/Core.lean` -/

open Classical
open Arrays
noncomputable section
namespace ArrProof
variable {n : ℕ}

theorem CorePhysics_check_usage_Dn50_or_M50 [NeZero n] {U : Prop} (Dn50 M50 rho_rock : Val n)
    (h_Dn50 : Dn50.Uniform) (h_M50 : M50.Uniform) (h_rho_rock : rho_rock.Uniform) :
    Rel U (Arr.CorePhysics.check_usage_Dn50_or_M50 Dn50 M50 rho_rock)
      (fun i => CorePhysics.check_usage_Dn50_or_M50 (Dn50.get i) (M50.get i) (rho_rock.get i)) := by
  unfold Arr.CorePhysics.check_usage_Dn50_or_M50 CorePhysics.check_usage_Dn50_or_M50
  refine Rel.ite (fun i => by rw [h_Dn50.all_iff i, h_M50.all_iff i]) (fun _ => Rel.raise) fun _ => ?_
  refine Rel.ite (fun i => by rw [h_Dn50.all_iff i, h_M50.all_iff i]) (fun _ => ?_)
    fun _ => Rel.pure fun i => rfl
  refine Rel.ite (fun i => by rw [h_rho_rock.all_iff i]) (fun _ => ?_) fun _ => Rel.pure fun i => ?_
  · refine Rel.bind Rel.warn fun _ => Rel.pure fun i => ?_
    simp only [Val.case_val]
    unfold Arr.CorePhysics.calculate_Dn50_from_M50 CorePhysics.calculate_Dn50_from_M50
    arr_pure
  · simp only [Val.case_val]
    unfold Arr.CorePhysics.calculate_Dn50_from_M50 CorePhysics.calculate_Dn50_from_M50
    arr_pure

theorem CorePhysics_check_usage_stabilitynumber [NeZero n] {U : Prop}
    (Hs Dn Delta Ns : Option (Val n)) :
    Rel U (Arr.CorePhysics.check_usage_stabilitynumber Hs Dn Delta Ns)
      (fun i => CorePhysics.check_usage_stabilitynumber (Hs.map (·.get i)) (Dn.map (·.get i))
        (Delta.map (·.get i)) (Ns.map (·.get i))) := by
  unfold Arr.CorePhysics.check_usage_stabilitynumber CorePhysics.check_usage_stabilitynumber
  rcases Hs with _ | Hs <;> rcases Dn with _ | Dn <;> rcases Delta with _ | Delta <;>
    rcases Ns with _ | Ns <;>
    simp only [Option.map_none, Option.map_some, Option.isNone_none, Option.isNone_some,
      if_true, Bool.false_eq_true, if_false] <;> norm_num <;>
    first
    | exact Rel.raise
    | (refine Rel.pure ?_; intro i; simp only [cases_simp])

@[num_simp] theorem num_buoyant_density (a b : PF) :
    Arr.CorePhysics.calculate_buoyant_density_Delta (.num a : Val n) (.num b) =
      .num (CorePhysics.calculate_buoyant_density_Delta a b) := rfl

@[shape_simp] theorem shape_CorePhysics_calculate_wave_steepness_s (H T g : Val n) :
    (Arr.CorePhysics.calculate_wave_steepness_s H T g).isArray = (H.isArray || T.isArray || g.isArray) := by
  unfold Arr.CorePhysics.calculate_wave_steepness_s
  simp only [shape_simp]
  try grind

@[cases_simp] theorem CorePhysics_calculate_wave_steepness_s (H T g : Val n) (i : Fin n) :
    (Arr.CorePhysics.calculate_wave_steepness_s H T g).get i =
      CorePhysics.calculate_wave_steepness_s (H.get i) (T.get i) (g.get i) := by
  unfold Arr.CorePhysics.calculate_wave_steepness_s CorePhysics.calculate_wave_steepness_s
  arr_pure

@[shape_simp] theorem shape_CorePhysics_calculate_Iribarren_number_ksi (H T cot_alpha : Val n) :
    (Arr.CorePhysics.calculate_Iribarren_number_ksi H T cot_alpha).isArray = (H.isArray || T.isArray || cot_alpha.isArray) := by
  unfold Arr.CorePhysics.calculate_Iribarren_number_ksi
  simp only [shape_simp]
  try grind

@[cases_simp] theorem CorePhysics_calculate_Iribarren_number_ksi (H T cot_alpha : Val n) (i : Fin n) :
    (Arr.CorePhysics.calculate_Iribarren_number_ksi H T cot_alpha).get i =
      CorePhysics.calculate_Iribarren_number_ksi (H.get i) (T.get i) (cot_alpha.get i) := by
  unfold Arr.CorePhysics.calculate_Iribarren_number_ksi CorePhysics.calculate_Iribarren_number_ksi
  arr_pure

@[cases_simp] theorem CorePhysics_calculate_critical_Iribarren_number_ksi_mc (c_pl c_s P cot_alpha : Val n) (i : Fin n) :
    (Arr.CorePhysics.calculate_critical_Iribarren_number_ksi_mc c_pl c_s P cot_alpha).get i =
      CorePhysics.calculate_critical_Iribarren_number_ksi_mc (c_pl.get i) (c_s.get i) (P.get i) (cot_alpha.get i) := by
  unfold Arr.CorePhysics.calculate_critical_Iribarren_number_ksi_mc CorePhysics.calculate_critical_Iribarren_number_ksi_mc
  arr_pure

@[cases_simp] theorem CorePhysics_calculate_buoyant_density_Delta (rho_rock rho_water : Val n) (i : Fin n) :
    (Arr.CorePhysics.calculate_buoyant_density_Delta rho_rock rho_water).get i =
      CorePhysics.calculate_buoyant_density_Delta (rho_rock.get i) (rho_water.get i) := by
  unfold Arr.CorePhysics.calculate_buoyant_density_Delta CorePhysics.calculate_buoyant_density_Delta
  arr_pure

@[cases_simp] theorem CorePhysics_calculate_stability_number_Ns (H D rho_rock rho_water : Val n) (i : Fin n) :
    (Arr.CorePhysics.calculate_stability_number_Ns H D rho_rock rho_water).get i =
      CorePhysics.calculate_stability_number_Ns (H.get i) (D.get i) (rho_rock.get i) (rho_water.get i) := by
  unfold Arr.CorePhysics.calculate_stability_number_Ns CorePhysics.calculate_stability_number_Ns
  arr_pure

@[cases_simp] theorem CorePhysics_calculate_M50_from_Dn50 (Dn50 rho_rock : Val n) (i : Fin n) :
    (Arr.CorePhysics.calculate_M50_from_Dn50 Dn50 rho_rock).get i =
      CorePhysics.calculate_M50_from_Dn50 (Dn50.get i) (rho_rock.get i) := by
  unfold Arr.CorePhysics.calculate_M50_from_Dn50 CorePhysics.calculate_M50_from_Dn50
  arr_pure

@[cases_simp] theorem CorePhysics_calculate_Dn50_from_M50 (M50 rho_rock : Val n) (i : Fin n) :
    (Arr.CorePhysics.calculate_Dn50_from_M50 M50 rho_rock).get i =
      CorePhysics.calculate_Dn50_from_M50 (M50.get i) (rho_rock.get i) := by
  unfold Arr.CorePhysics.calculate_Dn50_from_M50 CorePhysics.calculate_Dn50_from_M50
  arr_pure

@[cases_simp] theorem CorePhysics_calculate_S_from_Nod (Nod G nv : Val n) (i : Fin n) :
    (Arr.CorePhysics.calculate_S_from_Nod Nod G nv).get i =
      CorePhysics.calculate_S_from_Nod (Nod.get i) (G.get i) (nv.get i) := by
  unfold Arr.CorePhysics.calculate_S_from_Nod CorePhysics.calculate_S_from_Nod
  arr_pure

@[cases_simp] theorem CorePhysics_calculate_Nod_from_S (S G nv : Val n) (i : Fin n) :
    (Arr.CorePhysics.calculate_Nod_from_S S G nv).get i =
      CorePhysics.calculate_Nod_from_S (S.get i) (G.get i) (nv.get i) := by
  unfold Arr.CorePhysics.calculate_Nod_from_S CorePhysics.calculate_Nod_from_S
  arr_pure

theorem local_wavelength [NeZero n] (disper : PF → PF → PF → PF) (T h : Val n) (g : PF)
    (hT : T.isArray = true → h.isArray = true) (hh : h.isArray = true → 1 < n) :
    ∃ L : Val n, Arr.CorePhysics.calculate_local_wavelength disper T h g = pure L ∧
      ∀ i, L.get i = CorePhysics.calculate_local_wavelength disper (T.get i) (h.get i) g := by
  unfold Arr.CorePhysics.calculate_local_wavelength CorePhysics.calculate_local_wavelength
  cases h with
  | num h =>
    cases T with
    | num T => exact ⟨_, rfl, fun i => rfl⟩
    | arr T => exact absurd (hT rfl) (by simp [Val.isArray])
  | arr h =>
    refine ⟨_, if_pos (hh rfl), fun i => ?_⟩
    simp only [cases_simp]

theorem CorePhysics_calculate_local_wavelength [NeZero n] {U : Prop} (disper : PF → PF → PF → PF)
    (T h : Val n) (g : PF) (hT : T.isArray = true → h.isArray = true)
    (hh : h.isArray = true → 1 < n) :
    Rel U (Arr.CorePhysics.calculate_local_wavelength disper T h g)
      (fun i => pure (CorePhysics.calculate_local_wavelength disper (T.get i) (h.get i) g)) := by
  obtain ⟨L, hL, hi⟩ := local_wavelength disper T h g hT hh
  rw [hL]
  exact Rel.pure hi

end ArrProof
end
