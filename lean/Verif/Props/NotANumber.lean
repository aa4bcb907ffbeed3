import Verif.SpecWarned
import Verif.Props.Transmission
import Verif.Props.RangeArmour
import Verif.Props.RangeHydraulics
import Verif.Props.RearPozuetaHeight
import Verif.Props.JumeletScaravaglione
import Verif.Props.RearHeight
import Verif.Model.Cubes

/-! # C103: a result that is no number comes with a warning -/

open Classical
open PF CoreUtility CorePhysics
noncomputable section

namespace NumberProof

theorem of_silent {m : PyM PF} (h : m.warns = [] → ∃ r : ℝ, m.res = .ok (fin r)) : NoNumberIsReported m := by
  intro v e hv hw
  obtain ⟨r, e'⟩ := h hw
  rw [e, Except.ok.injEq] at e'
  exact hv r e'

theorem always {m : PyM PF} {r : ℝ} (h : m.res = .ok (fin r)) : NoNumberIsReported m := of_silent fun _ => ⟨r, h⟩

/-- what silence says about a quantity that is always checked -/
theorem inside {α : Type} {m : PyM α} {f : String} {ls : List Limit} (h : WarnsExactly m f ls) (hw : m.warns = [])
    {n : String} {x lo hi : ℝ} (hl : (⟨n, fin x, fin lo, fin hi⟩ : Limit) ∈ ls) : lo ≤ x ∧ x ≤ hi := by
  have h1 : ¬ Limit.Violated ⟨n, fin x, fin lo, fin hi⟩ := fun hv => by
    have := (h.2 _).mpr ⟨_, hl, hv, rfl⟩
    rw [hw] at this
    cases this
  exact ⟨not_lt.mp fun h' => h1 (Or.inl h'), not_lt.mp fun h' => h1 (Or.inr h')⟩

/-- within the published range of Jumelet et al. (2024) there are plunging waves -/
theorem plunging {x N : ℝ} (h1 : 0.42 ≤ x) (h2 : x ≤ 1.66) (hN : 250 ≤ N) : 1 / 2 < (-1.7 * x ^ 2 + 3.2 * x - 0.5) * N := by
  have : 0.1 < -1.7 * x ^ 2 + 3.2 * x - 0.5 := by nlinarith
  nlinarith

theorem some_plunging {H T N c : ℝ} (hH : 0 < H) (hT : 0 < T) (hc : 0 < c) {α : Type} {m : PyM α}
    (h : WarnsExactly m "Jumelet et al., 2024"
      [⟨"Wave steepness sm-1,0", fin (Textbook.steepness H T), 0.009, 0.057⟩,
       ⟨"Iribarren number ksi_m-1,0", fin (Textbook.iribarren H T c), 0.42, 1.66⟩,
       ⟨"Cotangent of outer structure slope cot_alpha", fin c, 6.0, 10.0⟩,
       ⟨"Number of waves N_waves", fin N, 250, 20000⟩]) (hw : m.warns = []) :
    0 < JumScaProof.Np H T N c := by
  simp only [sci_eq, ofNat_eq] at h
  have h1 := inside h hw (n := "Iribarren number ksi_m-1,0") (x := Textbook.iribarren H T c) (lo := 0.42) (hi := 1.66)
    (by simp)
  have h2 := inside h hw (n := "Number of waves N_waves") (x := N) (lo := 250) (hi := 20000) (by simp)
  exact JumScaProof.np_pos hH hT hc ⟨_, RangeProof.irib_eval hH hT hc, plunging h1.1 h1.2 h2.1⟩

end NumberProof
open NumberProof

/-! ## Rock armour -/

/-- C103: damage by Jumelet et al. (2024); without plunging waves the damage is NaN, and then the Iribarren number or the
number of waves is out of range -/
theorem C103_jumelet_damage {H T N c ra rw D cp : ℝ} (M : PF) (hH : 0 < H) (hT : 0 < T) (hc : 0 < c) (hw : 0 < rw)
    (hr : rw < ra) (hD : 0 < D) (hcp : 0 < cp) :
    NoNumberIsReported (Jumelet2024.calculate_damage_number_S (fin H) (fin T) (fin N) (fin c) (fin ra) (fin D) M (fin cp)
      (fin rw)) :=
  of_silent fun hs => ⟨_, JumScaProof.jumS_eval M hH hT hc hw hr hD hcp
    (some_plunging hH hT hc (RangeArmour.C60_jumelet_damage _ M _ _ hH hT hc) hs)⟩

example := C103_jumelet_damage (H := 2) (T := 8) (N := 100) (c := 8) (ra := 2650) (rw := 1025) (D := 1) (cp := 4.3) nan
  (by norm_num) (by norm_num) (by norm_num) (by norm_num) (by norm_num) (by norm_num) (by norm_num)

/-- C103: rock size by Jumelet et al. (2024) -/
theorem C103_jumelet_size {H T N c ra S cp : ℝ} (hH : 0 < H) (hT : 0 < T) (hc : 0 < c) (hr : 1025 < ra) (hS : 0 < S)
    (hcp : 0 < cp) :
    NoNumberIsReported (Jumelet2024.calculate_nominal_rock_diameter_Dn50 (fin H) (fin T) (fin N) (fin c) (fin ra) (fin S)
      (fin cp)) :=
  of_silent fun hs => ⟨_, JumScaProof.jumD_eval hH hT hc hr hS hcp
    (some_plunging hH hT hc (RangeArmour.C60_jumelet_size _ _ _ hH hT hc) hs)⟩

example := C103_jumelet_size (H := 2) (T := 8) (N := 100) (c := 8) (ra := 2650) (S := 2) (cp := 4.3) (by norm_num)
  (by norm_num) (by norm_num) (by norm_num) (by norm_num) (by norm_num)

/-! ## Set-up -/

/-- C103: set-up behind an impermeable structure, for every crest level -/
theorem C103_setup_impermeable {H T Rc : ℝ} (hH : 0 < H) (hT : 0 < T) :
    NoNumberIsReported (VanGent2024.calculate_structure_induced_setup_delta_impermeable (fin H) (fin T) (fin Rc)) := by
  refine of_silent fun hs => ?_
  have h := RangeHydraulics.C60_setup_impermeable (Rc := Rc) hH hT
  simp only [sci_eq, neg_fin] at h
  have h1 := (inside h hs (n := "Dimensionless freeboard Rc/Hm0") (x := Rc / H) (lo := -1.0) (hi := 0.0) (by simp)).1
  rw [le_div_iff₀ hH] at h1
  norm_num at h1
  obtain ⟨d, d', e, -⟩ := C43_impermeable (H := H) (T := T) hH hT Rc (Rc + 1) (by norm_num; linarith) (by linarith)
  exact ⟨d, e⟩

example := C103_setup_impermeable (H := 2) (T := 8) (Rc := -4) (by norm_num) (by norm_num)

/-- C103: set-up behind a permeable structure, for every crest level and structure height -/
theorem C103_setup_permeable {H T Rc hc : ℝ} (hH : 0 < H) (hT : 0 < T) :
    NoNumberIsReported (VanGent2024.calculate_structure_induced_setup_delta_permeable (fin H) (fin T) (fin Rc)
      (fin hc)) := by
  refine of_silent fun hs => ?_
  have h := RangeHydraulics.C60_setup_permeable_partial (Rc := Rc) (hc := hc) hH hT
  simp only [sci_eq, neg_fin] at h
  have h1 := (inside h hs (n := "Dimensionless freeboard Rc/Hm0") (x := Rc / H) (lo := -0.8) (hi := 0.0) (by simp)).1
  have h2 := (inside h hs (n := "Dimensionless submerged structure height hc/Hm0") (x := hc / H) (lo := 1.5) (hi := 3.0)
    (by simp)).1
  rw [le_div_iff₀ hH] at h1 h2
  norm_num at h1 h2
  obtain ⟨d, d', d'', e, -⟩ := C43_permeable (H := H) (T := T) hH hT Rc (Rc + 1) hc (hc + 1) (by norm_num; linarith)
    (by linarith) (by nlinarith) (by linarith)
  exact ⟨d, e⟩

example := C103_setup_permeable (H := 2) (T := 8) (Rc := -4) (hc := -1) (by norm_num) (by norm_num)

/-! ## Rear slopes -/

section
open RearProof RunupProof VdMProof

theorem NumberProof.z1p_fin {H T gm ca : ℝ} (hT : 0 < T) (hca : 0 < ca) (hH : 0 < H) : ∃ z : ℝ,
    VanGent2001.calculate_wave_runup_height_z1p (fin H) (fin T) (fin gm) (fin ca) = fin z := by
  unfold VanGent2001.calculate_wave_runup_height_z1p
  simp only [sci_eq]
  exact ⟨_, zX_eval hT hca (by norm_num) (by norm_num) hH⟩

/-- C103: rock size of a rear slope by Van Gent (2007). Where the run-up does not reach the crest the size is NaN, and the
overtopped height is reported. (Missing: crest elements as high as the crest, see `C103_rear2007_size_refuted`.) -/
theorem C103_rear2007_size_partial {ca cp gm H T Rc Rf Rr N S : ℝ} (hca : 0 < ca) (hcp : 0 < cp) (hH : 0 < H) (hT : 0 < T)
    (hRc : 0 < Rc) (hRf : 0 ≤ Rf) (hRr : 0 ≤ Rr) (hR : Rr < Rc) (hN : 0 < N) (hS : 0 < S) :
    NoNumberIsReported (VanGent2007Rear.calculate_nominal_rock_diameter_Dn50 (fin ca) (fin cp) (fin gm) (fin S) (fin H)
      (fin T) (fin Rc) (fin Rf) (fin Rr) (fin N)) := by
  refine of_silent fun hs => ?_
  obtain ⟨z, hz⟩ := z1p_fin (gm := gm) hT hca hH
  refine ⟨_, D07_eval hcp hH hRc hRf hRr hR hN hS hz ?_⟩
  unfold VanGent2007Rear.calculate_nominal_rock_diameter_Dn50 at hs
  rw [hz] at hs
  dsimp only at hs
  rw [PyM.bind_warns_of_ok (check07_res ..), List.append_eq_nil_iff] at hs
  have h := hs.1
  simp only [VanGent2007Rear.check_validity_range, check_bind_warns, List.append_eq_nil_iff, check_if_given_warns,
    ite_eq_right_iff, reduceCtorEq, imp_false] at h
  have h6 := h.2.2.2.2.2.1
  by_contra hzR
  refine h6 ⟨by simp, Or.inl ?_⟩
  rw [sub_fin, div_fin hH.ne', sci_eq, lt_fin]
  exact (div_nonpos_of_nonpos_of_nonneg (by linarith) hH.le).trans_lt (by norm_num)

example := C103_rear2007_size_partial (ca := 2) (cp := 2) (gm := 0.5) (H := 2) (T := 8) (Rc := 20) (Rf := 0.5) (Rr := 0.5)
  (N := 3000) (S := 4) (by norm_num) (by norm_num) (by norm_num) (by norm_num) (by norm_num) (by norm_num) (by norm_num)
  (by norm_num) (by norm_num) (by norm_num)

/-- C103: rock size of a rear slope by Van Gent & Pozueta (2004) -/
theorem C103_pozueta_size {ca cp gf gc H T Rc Rr B N S rr rw cs : ℝ} (hca : 0 < ca) (hcp : 0 < cp) (hgf : 0 < gf)
    (hgc : 0 < gc) (hH : 0 < H) (hT : 0 < T) (hB : 0 ≤ B) (hN : 0 < N) (hw : 0 < rw) (hr : rw < rr) (hcs : 0 < cs)
    (hS : 0 < S) :
    NoNumberIsReported (VanGentPozueta2004.calculate_nominal_rock_diameter_Dn50 (fin ca) (fin cp) (fin gf) (fin gc) (fin S)
      (fin H) (fin T) (fin Rc) (fin Rr) (fin B) (fin rr) (fin N) (fin rw) (fin cs)) := by
  refine of_silent fun hs => ?_
  obtain ⟨z, hz⟩ := z1p_fin (gm := gf) hT hca hH
  have hzR : Rc ≤ z := by
    unfold VanGentPozueta2004.calculate_nominal_rock_diameter_Dn50 at hs
    rw [hz] at hs
    dsimp only at hs
    rw [PyM.bind_warns_of_ok (a := ()) (by simp [VanGentPozueta2004.check_validity_range]), List.append_eq_nil_iff] at hs
    have h := hs.1
    simp only [VanGentPozueta2004.check_validity_range, check_bind_warns, List.append_eq_nil_iff, check_if_given_warns,
      ite_eq_right_iff, reduceCtorEq, imp_false] at h
    have h6 := h.2.2.2.2.2.1
    by_contra hzR
    refine h6 ⟨by simp, Or.inl ?_⟩
    rw [sub_fin, mul_fin, div_fin (by positivity), sci_eq, lt_fin]
    have := div_neg_of_neg_of_pos (sub_neg.mpr (not_le.mp hzR)) (mul_pos hgf hH)
    norm_num
    linarith
  obtain ⟨De, hDe, hDD, e⟩ := Delta_eval hw hr
  have hX : 0 < 1 + 10 * Real.exp (-Rr / H) := by positivity
  refine ⟨D04 cs T √((rr - rw) / rw) cp (1 + 10 * Real.exp (-Rr / H)) √N (uX H Rc B gf gc z) S, ?_⟩
  unfold VanGentPozueta2004.calculate_nominal_rock_diameter_Dn50
  dsimp only
  rw [hz, uX_eval hgf hgc hH hB hzR, e, ← hDD]
  rw [check04_bind]
  simp only [PyM.pure_def]
  unfold D04
  pf_eval [Except.ok.injEq]

/-- C103: damage of a rear slope by Van Gent & Pozueta (2004) -/
theorem C103_pozueta_damage {ca cp gf gc H T Rc Rr B N D rr rw cs : ℝ} (M : PF) (hca : 0 < ca) (hcp : 0 < cp)
    (hgf : 0 < gf) (hgc : 0 < gc) (hH : 0 < H) (hT : 0 < T) (hB : 0 ≤ B) (hN : 0 < N) (hw : 0 < rw) (hr : rw < rr)
    (hD : 0 < D) :
    NoNumberIsReported (VanGentPozueta2004.calculate_damage_number_S (fin ca) (fin cp) (fin gf) (fin gc) (fin H) (fin T)
      (fin Rc) (fin Rr) (fin B) (fin N) (fin D) M (fin rr) (fin rw) (fin cs)) := by
  refine of_silent fun hs => ?_
  obtain ⟨z, hz⟩ := z1p_fin (gm := gf) hT hca hH
  have hzR : Rc ≤ z := by
    unfold VanGentPozueta2004.calculate_damage_number_S at hs
    rw [hz, use_Dn50, RangeProof.bind_nil] at hs
    dsimp only at hs
    rw [PyM.bind_warns_of_ok (a := ()) (by simp [VanGentPozueta2004.check_validity_range]), List.append_eq_nil_iff] at hs
    have h := hs.1
    simp only [VanGentPozueta2004.check_validity_range, check_bind_warns, List.append_eq_nil_iff, check_if_given_warns,
      ite_eq_right_iff, reduceCtorEq, imp_false] at h
    have h6 := h.2.2.2.2.2.1
    by_contra hzR
    refine h6 ⟨by simp, Or.inl ?_⟩
    rw [sub_fin, mul_fin, div_fin (by positivity), sci_eq, lt_fin]
    have := div_neg_of_neg_of_pos (sub_neg.mpr (not_le.mp hzR)) (mul_pos hgf hH)
    norm_num
    linarith
  obtain ⟨De, hDe, hDD, e⟩ := Delta_eval hw hr
  have hX : 0 < 1 + 10 * Real.exp (-Rr / H) := by positivity
  have hu : 0 ≤ uX H Rc B gf gc z := by
    have := sub_nonneg.mpr hzR
    unfold uX; positivity
  have hb : 0 ≤ uX H Rc B gf gc z * T / (√De * D) := by positivity
  have hp : npow (fin (uX H Rc B gf gc z) * fin T / (PF.sqrt (fin De) * fin D)) 6.0 =
      fin ((uX H Rc B gf gc z * T / (√De * D)) ^ (6.0 : ℝ)) := by
    rw [sqrt_fin hDe.le, mul_fin, mul_fin, div_fin (by positivity), sci_eq, npow_fin_nonneg hb (by norm_num)]
  refine ⟨cs * (uX H Rc B gf gc z * T / (√De * D)) ^ (6.0 : ℝ) * cp ^ (-2.5 : ℝ) * (1 + 10 * Real.exp (-Rr / H)) * √N, ?_⟩
  unfold VanGentPozueta2004.calculate_damage_number_S
  dsimp only
  rw [hz, uX_eval hgf hgc hH hB hzR, e, use_Dn50, PyM.bind_ok]
  rw [check04_bind, hp]
  simp only [PyM.pure_def]
  pf_eval [Except.ok.injEq]

example := C103_pozueta_damage (ca := 2) (cp := 2) (gf := 0.5) (gc := 0.5) (H := 2) (T := 8) (Rc := 20) (Rr := 3) (B := 4)
  (N := 2000) (D := 0.5) (rr := 2650) (rw := 1025) (cs := 1e-12) nan (by norm_num) (by norm_num) (by norm_num)
  (by norm_num) (by norm_num) (by norm_num) (by norm_num) (by norm_num) (by norm_num) (by norm_num) (by norm_num)

example := C103_pozueta_size (ca := 2) (cp := 2) (gf := 0.5) (gc := 0.5) (H := 2) (T := 8) (Rc := 20) (Rr := 3) (B := 4)
  (N := 2000) (S := 5) (rr := 2650) (rw := 1025) (cs := 1e-12) (by norm_num) (by norm_num) (by norm_num)
  (by norm_num) (by norm_num) (by norm_num) (by norm_num) (by norm_num) (by norm_num) (by norm_num) (by norm_num)
  (by norm_num)
end

end
