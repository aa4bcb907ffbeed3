import Verif.Lemmas.IterLimit
import Verif.Lemmas.ArrayIter
import Verif.Lemmas.ArrayIterEtemad
import Verif.Model.OvertoppingMore

/-! # Iterating functions stop at the first settled estimate (C86) -/

open Classical
open Iteration IterProof
open PF (fin nan pinf)
noncomputable section

namespace IterProof

theorem kramer_out (C : PF → PyM Unit) (hC : ∀ x, (C x).res = .ok ()) (body : KramerBurcharth.LoopState → KramerBurcharth.LoopState)
    (x0 : PF) (hd : ∀ s, (body s).diff = PF.abs ((body s).cur - s.prev))
    (hp : ∀ s, (body s).prev = (body s).cur) :
    StopsWhenSettled pinf fun N t => (do
      let s := whileIter N (fun s => s.diff > t) body { diff := pinf, prev := pinf, cur := x0 }
      C s.cur
      pure s.cur) := by
  refine Or.inr <| stops body _ (fun s => s.diff) (fun s => s.cur) (fun _ s => do C s.cur; pure s.cur) pinf
    (fun t => trivial) (fun _ _ _ => rfl) (fun N s => ArrProof.res_of_check (hC _)) (hd _) (fun s => ?_)
  rw [hd, hp]

end IterProof

/-- C86: rock size by Kramer & Burcharth (the first estimate is not compared with the initial one) -/
theorem C86_kramer_size (Hs Rc rho_armour Ns_init : PF) :
    StopsWhenSettled pinf
      fun N t => KramerBurcharth.calculate_nominal_rock_diameter_Dn50 Hs Rc rho_armour Ns_init N t :=
  kramer_out (fun x => KramerBurcharth.check_validity_range (Rc := Rc) (Dn50 := x))
    (fun _ => ArrProof.kramer_check ..) (KramerBurcharth.size_step Hs Rc _) _ (fun _ => rfl)
    (fun _ => rfl)

/-- C86: crest freeboard by Kramer & Burcharth -/
theorem C86_kramer_freeboard (Hs rho_armour Dn50 M50 Rc_Dn50_init : PF) :
    StopsWhenSettled pinf
      fun N t => KramerBurcharth.calculate_crest_freeboard_Rc Hs rho_armour Dn50 M50 Rc_Dn50_init N t :=
  stops_bind fun D _ => kramer_out (fun x => KramerBurcharth.check_validity_range (Rc := x) (Dn50 := D))
    (fun _ => ArrProof.kramer_check ..) (KramerBurcharth.freeboard_step Hs D _) _ (fun _ => rfl) (fun _ => rfl)

/-- C86: wave height by Jumelet et al.; the first estimate is compared with the wave height that
belongs to the initial steepness -/
theorem C86_jumelet_height (Tmm10 N_waves cot_alpha rho_armour S Dn50 M50 c_pl g smm10_init : PF) :
    StopsWhenSettled (smm10_init * PF.npow Tmm10 2 * g / (2 * PF.pi))
      fun N t => Jumelet2024.calculate_significant_wave_height_Hs Tmm10 N_waves cot_alpha rho_armour S Dn50
        M50 c_pl g smm10_init N t :=
  stops_bind fun D _ => Or.inr <| stops
    (Jumelet2024.height_step Tmm10 N_waves cot_alpha S D c_pl g
      (CorePhysics.calculate_buoyant_density_Delta rho_armour 1025))
    { diff := pinf, prev := smm10_init * PF.npow Tmm10 2 * g / (2 * PF.pi),
      ksi := CorePhysics.calculate_Iribarren_number_ksi (smm10_init * PF.npow Tmm10 2 * g / (2 * PF.pi)) Tmm10
        cot_alpha,
      Hs := none }
    (fun s => s.diff) (fun s => s.prev) (fun _ s => ArrProof.jumeletEnd Tmm10 N_waves cot_alpha s) _
    (fun _ => trivial) (fun _ _ _ => rfl) (fun _ _ => ArrProof.res_of_check (ArrProof.jumelet_check ..)) rfl
    (fun _ => rfl)

namespace IterProof

theorem rear_out (C : PF → PF → PyM Unit) (hC : ∀ x y, (C x y).res = .ok ()) (body : RearState → RearState)
    (x0 : ℝ) (h0 : ∀ s, (body s).Hs_i0 = s.Hs_i1) (hz : ∀ s, (body s).z1p.isSome) :
    StopsWhenSettled (fin x0) fun N t => ArrProof.rearEnd C N (whileIter N (RearState.go t) body
      { iteration := 0, Hs_i1 := fin x0, Hs_i0 := fin x0 + pinf, z1p := none }) := by
  refine Or.inr <| stops body _ (fun s => PF.abs (s.Hs_i1 - s.Hs_i0)) (fun s => s.Hs_i1) (ArrProof.rearEnd C) _
    (fun t => trivial) (fun k N s => ?_) (fun N s => ?_) ?_ (fun s => ?_)
  · rw [ArrProof.rearEnd_res _ hC, ArrProof.rearEnd_res _ hC]
  · rw [ArrProof.rearEnd_res _ hC, if_pos (hz _)]
  · rw [h0]
  · rw [h0]

end IterProof

/-- C86: wave height for the rear slope by Van Gent (2007) -/
theorem C86_rear2007_height (cot_alpha cot_phi gamma S Tmm10 Rc Rc2_rear N_waves Dn50 M50 rho_rock : PF)
    (R : ℝ) :
    StopsWhenSettled (fin R) fun N t => VanGent2007Rear.calculate_maximum_significant_wave_height_Hs cot_alpha
      cot_phi gamma S Tmm10 Rc (fin R) Rc2_rear N_waves Dn50 M50 rho_rock t N :=
  stops_bind fun D _ => rear_out (fun Hs z1p => VanGent2007Rear.check_validity_range (S := S)
      (Hs := Hs) (Rc := Rc) (z1p := z1p) (Rc2_front := fin R) (Rc2_rear := Rc2_rear) (N_waves := N_waves)
      (Dn50 := D)) (fun _ _ => ArrProof.rear2007_check ..)
    (VanGent2007Rear.height_step cot_alpha cot_phi gamma S Tmm10 Rc (fin R) Rc2_rear N_waves D) R
    (fun _ => rfl) (fun _ => rfl)

/-- C86: wave height for the rear slope by Van Gent & Pozueta (2004) -/
theorem C86_pozueta_height (cot_alpha cot_phi gamma_f_Crest S Tmm10 Rc_rear Bc N_waves Dn50 M50 rho_rock
    rho_water cs : PF) (R f : ℝ) (hf : f ≠ 0) :
    StopsWhenSettled (fin ((R + 0.5) / (2.552 * f))) fun N t =>
      VanGentPozueta2004.calculate_maximum_significant_wave_height_Hs cot_alpha cot_phi (fin f) gamma_f_Crest S
        Tmm10 (fin R) Rc_rear Bc N_waves Dn50 M50 rho_rock rho_water cs t N := by
  have e : (fin R + 0.5) / (2.552 * fin f) = fin ((R + 0.5) / (2.552 * f)) := by
    have : (2.552 * f : ℝ) ≠ 0 := mul_ne_zero (by norm_num) hf
    rw [PF.sci_eq, PF.sci_eq, PF.mul_fin, PF.add_fin, PF.div_fin this]
  have h := fun D => rear_out (fun Hs z1p => VanGentPozueta2004.check_validity_range (Rc := fin R)
      (Rc_rear := Rc_rear) (cot_phi := cot_phi) (gamma_f := fin f) (Dn50 := D) (rho_rock := rho_rock)
      (rho_water := rho_water) (Bc := Bc) (Hs := Hs) (Tmm10 := Tmm10) (z1p := z1p) (S := S)
      (N_waves := N_waves)) (fun _ _ => ArrProof.pozueta_check ..)
    (VanGentPozueta2004.height_step cot_alpha cot_phi (fin f) gamma_f_Crest S Tmm10 (fin R) Rc_rear Bc N_waves D
      (CorePhysics.calculate_buoyant_density_Delta rho_rock rho_water) cs) ((R + 0.5) / (2.552 * f))
    (fun _ => rfl) (fun _ => rfl)
  simp only [← e] at h ⊢
  exact stops_bind fun D _ => h D

example := C86_pozueta_height (cot_alpha := .fin 1) (cot_phi := .fin 1) (gamma_f_Crest := .fin 1)
  (S := .fin 2) (Tmm10 := .fin 8) (Rc_rear := .fin 1) (Bc := .fin 1) (N_waves := .fin 1) (Dn50 := .fin 1)
  (M50 := .fin 1) (rho_rock := .fin 1) (rho_water := .fin 1) (cs := .fin 1) (R := 1) (f := 1) (by norm_num)

namespace IterProof
open Etemad2020

theorem size_loop_some (c e Hs Delta N_waves S ksi I core Cp : PF) (N : ℕ) (t : ℝ) :
    (N = 0 ∧ (size_loop c e Hs Delta N_waves S ksi I core Cp N (fin t)).Dn50 = none) ∨
    (N ≠ 0 ∧ (size_loop c e Hs Delta N_waves S ksi I core Cp N (fin t)).Dn50 =
      some (size_loop c e Hs Delta N_waves S ksi I core Cp N (fin t)).prev) := by
  unfold size_loop
  cases N with
  | zero => exact Or.inl ⟨rfl, rfl⟩
  | succ N =>
    right
    refine ⟨by omega, ?_⟩
    rw [whileIter, if_pos (show pinf > fin t from trivial)]
    exact whileIter_inv _ _ (fun s : LoopState => s.Dn50 = some s.prev) (fun s _ => rfl) _ rfl

theorem size_loop_stops (c e Hs Delta N_waves S ksi I core Cp : PF) :
    StopsAtFirst pinf fun N t => bound (size_loop c e Hs Delta N_waves S ksi I core Cp N t).Dn50 :=
  stops (size_step c e Hs Delta N_waves S ksi I core) { diff := pinf, prev := pinf, Cp := Cp, Dn50 := none }
    (fun s => s.diff) (fun s => s.prev) (fun _ s => bound s.Dn50) pinf (fun _ => trivial)
    (fun _ _ _ => rfl) (fun _ _ => rfl) rfl (fun _ => rfl)

theorem check_res (a b c d e f g h i : PF) :
    (check_validity_range a b c d e f g h i).res = .ok () := by
  simp [check_validity_range]

end IterProof

/-- C86: rock size by Etemad-Shahidi et al. (2020) -/
theorem C86_etemad_size (Hs Tmm10 N_waves cot_alpha rho_armour S Dn50_core M50_core rho_core m Cp_init : PF)
    (dl : Bool) :
    StopsWhenSettled pinf fun N t => Etemad2020.calculate_nominal_rock_diameter_Dn50 Hs Tmm10 N_waves cot_alpha
      rho_armour S Dn50_core M50_core rho_core m dl Cp_init N t := by
  unfold Etemad2020.calculate_nominal_rock_diameter_Dn50
  refine stops_bind fun I _ => stops_bind fun core _ => Or.inr ?_
  dsimp only
  generalize CorePhysics.calculate_Iribarren_number_ksi Hs Tmm10 cot_alpha = ksi
  generalize CorePhysics.calculate_buoyant_density_Delta rho_armour 1025 = De
  have hA := size_loop_some 3.9 (1.0 / 3.0) Hs De N_waves S ksi I core Cp_init
  have hB := size_loop_some 4.5 (7.0 / 12.0) Hs De N_waves S ksi I core Cp_init
  by_cases hk : ksi ≥ 1.8
  · refine stops_congr (fun N t => ?_)
      (size_loop_stops 3.9 (1.0 / 3.0) Hs De N_waves S ksi I core Cp_init)
    rcases hA N t with ⟨h0, ha⟩ | ⟨h0, ha⟩ <;> rcases hB N t with ⟨h0', hb⟩ | ⟨h0', hb⟩
    · simp only [ha, hb]; rfl
    · exact absurd h0 h0'
    · exact absurd h0' h0
    · simp only [ha, hb, Etemad2020.bound, PyM.pure_def, PyM.bind_ok, PF.whr, if_pos hk]
      rw [PyM.bind_res_of_ok (check_res ..)]
  · refine stops_congr (fun N t => ?_)
      (size_loop_stops 4.5 (7.0 / 12.0) Hs De N_waves S ksi I core Cp_init)
    rcases hA N t with ⟨h0, ha⟩ | ⟨h0, ha⟩ <;> rcases hB N t with ⟨h0', hb⟩ | ⟨h0', hb⟩
    · simp only [ha, hb]; rfl
    · exact absurd h0 h0'
    · exact absurd h0' h0
    · simp only [ha, hb, Etemad2020.bound, PyM.pure_def, PyM.bind_ok, PF.whr, if_neg hk]
      rw [PyM.bind_res_of_ok (check_res ..)]

namespace IterProof
open VanGent2025

theorem vg2025_check (a b c d e f g h i j k l : PF) :
    (check_validity_range a b c d e f g h i j k l).res = .ok () := by
  simp [check_validity_range]

/-- a limit on both estimates does not increase their difference -/
theorem min_close {x y m : PF} {t : ℝ} (ht : 0 ≤ t) (h : ¬ PF.abs (x - y) > fin t) :
    ¬ PF.abs (PF.min x m - PF.min y m) > fin t := by
  have hself : ∀ z : PF, ¬ PF.abs (z - z) > fin t := by
    intro z
    cases z with
    | fin z =>
      rw [PF.sub_fin, PF.abs_fin, sub_self, abs_zero]
      exact not_lt.mpr ht
    | _ => exact fun h => h
  have nl : ∀ z : PF, PF.nan - z = PF.nan := fun z => by cases z <;> rfl
  have nr : ∀ z : PF, z - PF.nan = PF.nan := fun z => by cases z <;> rfl
  have hN : ¬ PF.abs PF.nan > fin t := fun h => h
  have mnan : ∀ z : PF, PF.min PF.nan z = PF.nan := fun z => by
    unfold PF.min; exact if_pos trivial
  have nanm : ∀ z : PF, PF.min z PF.nan = PF.nan := fun z => by
    cases z <;> unfold PF.min <;> simp [PF.isnan]
  have mninf : ∀ z : PF, PF.min z PF.ninf = PF.nan ∨ PF.min z PF.ninf = PF.ninf := fun z => by
    unfold PF.min
    split_ifs with h1 h2 h3
    · cases z <;> first | exact h1.elim | exact Or.inl rfl
    · exact h2.elim
    · cases z <;> first | exact h3.elim | exact Or.inr rfl
    · exact Or.inr rfl
  have mpinf : ∀ z : PF, PF.min z pinf = z := fun z => by
    unfold PF.min
    split_ifs with h1 h2 h3
    · rfl
    · exact h2.elim
    · rfl
    · cases z <;> first | exact absurd trivial h1 | exact absurd trivial h3 | rfl
  cases m with
  | nan => rw [nanm, nanm]; exact hself _
  | ninf => rcases mninf x with e | e <;> rcases mninf y with e' | e' <;> rw [e, e'] <;> exact fun h => h
  | pinf => rwa [mpinf, mpinf]
  | fin m =>
    cases x with
    | nan => rw [mnan, nl]; exact hN
    | pinf =>
      cases y with
      | nan => rw [mnan, nr]; exact hN
      | pinf => exact hself _
      | ninf => exact absurd trivial h
      | fin y => exact absurd trivial h
    | ninf =>
      cases y with
      | nan => rw [mnan, nr]; exact hN
      | ninf => exact hself _
      | pinf => exact absurd trivial h
      | fin y => exact absurd trivial h
    | fin x =>
      cases y with
      | nan => rw [mnan, nr]; exact hN
      | pinf => exact absurd trivial h
      | ninf => exact absurd trivial h
      | fin y =>
        rw [PF.min_fin, PF.min_fin, PF.sub_fin, PF.abs_fin]
        rw [PF.sub_fin, PF.abs_fin] at h
        exact not_lt.mpr ((abs_inf_sub_inf_le_abs x y m).trans (not_lt.mp h))

/-- the wind loop -/
def windLoop (R0 : PF) (next : PF → PF) (N : ℕ) (t : PF) : PF :=
  (whileIter N (fun s : WindState => s.diff > t) (fun s => ⟨next s.Rc_diml, PF.abs (next s.Rc_diml - s.Rc_diml)⟩)
    ⟨R0, pinf⟩).Rc_diml

theorem windLoop_stops (R0 : PF) (next : PF → PF) :
    StopsAtFirst R0 fun N t => pure (windLoop R0 next N t) :=
  stops (fun s : WindState => ⟨next s.Rc_diml, PF.abs (next s.Rc_diml - s.Rc_diml)⟩) ⟨R0, pinf⟩
    (fun s => s.diff) (fun s => s.Rc_diml) (fun _ s => pure s.Rc_diml) R0 (fun _ => trivial)
    (fun _ _ _ => rfl) (fun _ _ => rfl) rfl (fun _ => rfl)

theorem windLoop_cut (R0 : PF) (next : PF → PF) (m : PF) (N : ℕ) (t : ℝ) (ht : 0 ≤ t) :
    ∃ K ≤ N, windLoop R0 next N (fin t) = windLoop R0 next K (-1.0) ∧ (K = N ∨ 1 ≤ K ∧
      ¬ PF.abs (PF.min (windLoop R0 next K (-1.0)) m - PF.min (windLoop R0 next (K - 1) (-1.0)) m) >
        fin t) := by
  obtain ⟨K, hK, e, -, h⟩ := windLoop_stops R0 next N t
  have ha : ∀ k, after R0 (fun N t => pure (windLoop R0 next N t)) k = .ok (windLoop R0 next k (-1.0)) := by
    intro k
    unfold after
    split_ifs with hk
    · subst hk; rfl
    · rfl
  refine ⟨K, hK, Except.ok.inj e, h.imp id ?_⟩
  rintro ⟨h1, x, y, hx, hy, hn⟩
  rw [ha, Except.ok.injEq] at hx hy
  subst hx; subst hy
  exact ⟨h1, min_close ht hn⟩

end IterProof

/-- C86: freeboard by Van Gent et al. (2025) with wind.  Missing: that no earlier pass had settled; the
returned estimates are cut off at the maximum, so the change that the loop looks at does not show in
them. -/
theorem C86_wind_freeboard_partial (Hm0 Hm0_swell Tmm10 q Ac cot_alpha beta B_berm db Dn50 gamma_f gamma_b
    gamma_v gamma_beta g : PF) (dc : Bool) (N : ℕ) (t : ℝ) (ht : 0 ≤ t) :
    let f : ℕ → PF → PyM (PF × Bool) := fun N t => VanGent2025.calculate_dimensionless_crest_freeboard Hm0
      Hm0_swell Tmm10 q Ac cot_alpha beta B_berm db Dn50 gamma_f gamma_b gamma_v gamma_beta g dc true N t
    ∃ K ≤ N, (f N (fin t)).res = (f K (-1.0)).res ∧
      (K = N ∨ 1 ≤ K ∧ ∃ x y b c, (f K (-1.0)).res = .ok (x, b) ∧ (f (K - 1) (-1.0)).res = .ok (y, c) ∧
        ¬ PF.abs (x - y) > fin t) := by
  intro f
  cases hm : (VanGent2025.friction_or_raise Hm0 Tmm10 Dn50 gamma_f).res with
  | error e =>
    have hf : ∀ N t, (f N t).res = .error e := fun N t => PyM.bind_res_of_error hm _
    exact ⟨N, le_rfl, by rw [hf, hf], Or.inl rfl⟩
  | ok gf =>
    obtain ⟨R0, next, m, hf⟩ : ∃ R0 next m, ∀ N t, (f N t).res = .ok (PF.min (windLoop R0 next N t) m,
        decide (PF.eqF (PF.min (PF.min (windLoop R0 next N t) m) m) m)) := by
      let gB := if gamma_beta.isnan then VanGent2025.calculate_influence_oblique_waves_gamma_beta beta
        else gamma_beta
      let ksi := CorePhysics.calculate_Iribarren_number_ksi Hm0 Tmm10 cot_alpha
      let gb := if gamma_b.isnan then
          VanGent2025.calculate_influence_berm_gamma_b (Hm0 := Hm0)
            (smm10 := CorePhysics.calculate_wave_steepness_s Hm0 Tmm10) (Ac := Ac) (B_berm := B_berm)
            (BL := Ac - db)
        else gamma_b
      let qd := q / PF.sqrt (g * PF.npow Hm0 3)
      let qd := if dc then PF.npow qd (1.0 / 0.857) else qd
      refine ⟨VanGent2025.Rc_diml_eqB1 Hm0 Hm0_swell qd cot_alpha ksi gf gb gamma_v gB,
        fun R => VanGent2025.Rc_diml_eqB1 Hm0 Hm0_swell (qd / VanGent2025.calculate_influence_wind_gamma_w
          (Rc := R * Hm0) (Ac := Ac) (Hm0 := Hm0) (q_diml := qd)) cot_alpha ksi gf gb gamma_v gB,
        VanGent2025.Rc_diml_max_equation (Hm0 := Hm0) (Hm0_swell := Hm0_swell) (q := q)
          (cot_alpha := cot_alpha) (ksi_mm10 := ksi) (gamma_f := gf) (gamma_b := gb) (gamma_v := gamma_v)
          (gamma_beta := gB), fun N t => ?_⟩
      show (VanGent2025.calculate_dimensionless_crest_freeboard Hm0 Hm0_swell Tmm10 q Ac cot_alpha beta B_berm
        db Dn50 gamma_f gamma_b gamma_v gamma_beta g dc true N t).res = _
      unfold VanGent2025.calculate_dimensionless_crest_freeboard
      rw [PyM.bind_res_of_ok hm]
      dsimp only
      rw [PyM.bind_res_of_ok (vg2025_check ..)]
      rfl
    obtain ⟨K, hK, e, h⟩ := windLoop_cut R0 next m N t ht
    refine ⟨K, hK, by rw [hf, hf, e], h.imp id fun ⟨h1, h⟩ => ⟨h1, _, _, _, _, hf _ _, hf _ _, h⟩⟩

example := C86_wind_freeboard_partial (Hm0 := .fin 1) (Hm0_swell := .fin 1) (Tmm10 := .fin 8)
  (q := .fin 0.01) (Ac := .fin 1) (cot_alpha := .fin 1) (beta := .fin 20) (B_berm := .fin 1) (db := .fin 1)
  (Dn50 := .fin 1) (gamma_f := .fin 1) (gamma_b := .fin 1) (gamma_v := .fin 1) (gamma_beta := .fin 1)
  (g := .fin 9.81) (dc := true) (N := 10) (t := 1) (by norm_num)

/-! ## Consequences -/

/-- C86: once a pass within the limit has settled, a larger limit makes no difference -/
theorem C86_larger_limit {start : PF} {f : ℕ → PF → PyM PF} (h : StopsWhenSettled start f) (N M K : ℕ)
    (t : ℝ) (hM : N ≤ M) (hK : K ≤ N) (hK1 : 1 ≤ K) (hs : Settled start f (fin t) K) :
    (f M (fin t)).res = (f N (fin t)).res := by
  rcases h with ⟨e, h⟩ | h
  · rw [h, h]
  have key : ∀ k, Settled start f (fin t) k → ¬ Moved start f (fin t) k := by
    rintro k ⟨x, y, hx, hy, hn⟩ ⟨x', y', hx', hy', hm⟩
    rw [hx, Except.ok.injEq] at hx'
    rw [hy, Except.ok.injEq] at hy'
    subst hx'; subst hy'
    exact hn hm
  obtain ⟨K1, hK1N, e1, m1, s1⟩ := h N t
  obtain ⟨K2, hK2M, e2, m2, s2⟩ := h M t
  have l1 : K1 ≤ K := by
    by_contra hc
    exact key K hs (m1 K hK1 (by omega))
  have l2 : K2 ≤ K := by
    by_contra hc
    exact key K hs (m2 K hK1 (by omega))
  have : K1 = K2 := by
    rcases lt_trichotomy K1 K2 with hlt | heq | hgt
    · rcases s1 with s1 | ⟨h1, s1⟩
      · omega
      · exact absurd (m2 K1 h1 hlt) (key K1 s1)
    · exact heq
    · rcases s2 with s2 | ⟨h1, s2⟩
      · omega
      · exact absurd (m1 K2 h1 hgt) (key K2 s2)
  rw [e1, e2, this]

/-- C86: a smaller tolerance never stops earlier -/
theorem C86_smaller_tolerance {start : PF} {f : ℕ → PF → PyM PF} (h : StopsWhenSettled start f) (N : ℕ)
    (t t' : ℝ) (ht : t' ≤ t) : ∃ K K', K ≤ K' ∧ K' ≤ N ∧ (f N (fin t)).res = (f K (-1.0)).res ∧
      (f N (fin t')).res = (f K' (-1.0)).res := by
  rcases h with ⟨e, h⟩ | h
  · exact ⟨N, N, le_rfl, le_rfl, by rw [h, h], by rw [h, h]⟩
  obtain ⟨K, hK, e1, m1, s1⟩ := h N t
  obtain ⟨K', hK', e2, m2, s2⟩ := h N t'
  refine ⟨K, K', ?_, hK', e1, e2⟩
  by_contra hc
  rcases s2 with s2 | ⟨h1, x, y, hx, hy, hn⟩
  · omega
  · obtain ⟨x', y', hx', hy', hm⟩ := m1 K' h1 (by omega)
    rw [hx, Except.ok.injEq] at hx'
    rw [hy, Except.ok.injEq] at hy'
    subst hx'; subst hy'
    apply hn
    generalize PF.abs (x - y) = d at hm
    cases d with
    | nan => exact hm.elim
    | ninf => exact hm.elim
    | pinf => trivial
    | fin d => exact lt_of_le_of_lt ht (show t < d from hm)

/-- the hypotheses are satisfiable: with the crest at the still-water level the second pass repeats the
first, and any limit from two on gives the same size -/
example (M : ℕ) (hM : 2 ≤ M) :
    (KramerBurcharth.calculate_nominal_rock_diameter_Dn50 (fin 1) (fin 0) (fin 2050) (fin 2) M (fin 0.1)).res =
    (KramerBurcharth.calculate_nominal_rock_diameter_Dn50 (fin 1) (fin 0) (fin 2050) (fin 2) 2
      (fin 0.1)).res := by
  refine C86_larger_limit (C86_kramer_size (fin 1) (fin 0) (fin 2050) (fin 2)) 2 M 2 0.1 hM le_rfl
    (by norm_num) ?_
  have hD : CorePhysics.calculate_buoyant_density_Delta (fin 2050) 1025 = fin 1 := by
    unfold CorePhysics.calculate_buoyant_density_Delta
    rw [PF.ofNat_eq, PF.sub_fin, PF.div_fin (by norm_num)]; norm_num
  have hstep : ∀ d p (x : ℝ), x ≠ 0 → KramerBurcharth.size_step (fin 1) (fin 0) (fin 1) ⟨d, p, fin x⟩ =
      ⟨PF.abs (fin (1.0 / 1.36) - p), fin (1.0 / 1.36), fin (1.0 / 1.36)⟩ := by
    intro d p x hx
    have : (1.0 / 1.36 : PF) * ((fin 1 / fin 1) - fin 0 * (0.06 * (fin 0 / fin x) - 0.23)) =
        fin (1.0 / 1.36) := by
      rw [PF.div_fin hx, PF.div_fin one_ne_zero, PF.sci_eq, PF.sci_eq, PF.sci_eq, PF.sci_eq, PF.mul_fin,
        PF.sub_fin, PF.mul_fin, PF.sub_fin, PF.div_fin (by norm_num), PF.mul_fin]
      norm_num
    unfold KramerBurcharth.size_step
    simp only [this]
  have h0 : (1.0 / 1.36 : ℝ) ≠ 0 := by norm_num
  have hloop : ∀ k : ℕ, 1 ≤ k → k ≤ 2 → (KramerBurcharth.calculate_nominal_rock_diameter_Dn50 (fin 1) (fin 0)
      (fin 2050) (fin 2) k (-1.0)).res = .ok (fin (1.0 / 1.36)) := by
    intro k h1 h2
    unfold KramerBurcharth.calculate_nominal_rock_diameter_Dn50
    dsimp only
    rw [hD, PF.mul_fin, PF.div_fin (by norm_num), PyM.bind_res_of_ok (ArrProof.kramer_check ..)]
    have hp : pinf > (-1.0 : PF) := by rw [neg_one]; trivial
    obtain rfl | rfl : k = 1 ∨ k = 2 := by omega
    · rw [whileIter, if_pos hp, hstep _ _ _ (by norm_num)]
      rfl
    · rw [whileIter, if_pos hp, hstep _ _ _ (by norm_num), whileIter]
      split_ifs
      · rw [hstep _ _ _ h0]; rfl
      · rfl
  refine ⟨fin (1.0 / 1.36), fin (1.0 / 1.36), hloop 2 (by norm_num) le_rfl, hloop 1 le_rfl (by norm_num), ?_⟩
  rw [PF.sub_fin, PF.abs_fin, sub_self, abs_zero]
  show ¬ ((0.1 : ℝ) < 0)
  norm_num
