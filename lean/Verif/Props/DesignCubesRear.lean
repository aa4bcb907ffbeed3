import Verif.SpecDesign
import Verif.Props.FormulasRock
import Verif.Props.Concrete
import Verif.Props.RearSlope
import Verif.Props.RearPozueta
import Verif.Props.JumeletScaravaglione
import Verif.Props.DesignArmour

/-! # Property C96: design values are limits: double layers of cubes, rear slopes -/

open Classical
open PF
open CorePhysics
noncomputable section

namespace DesignProof
/-- the published formula orders stability numbers as damages -/
theorem cubes_iff {a b n m N s : ℝ} (hn : 0 < n) (hm : 0 < m) (hN : 0 < N) (hs : 0 < s)
    (ha : Published.CubesDouble a n N s) (hb : Published.CubesDouble b m N s) : n ≤ m ↔ a ≤ b := by
  unfold Published.CubesDouble at ha hb
  have hp : 0 < N ^ (0.3 : ℝ) := by positivity
  have hs' : 0 < s ^ (-0.1 : ℝ) := by positivity
  rw [ha, hb]
  generalize N ^ (0.3 : ℝ) = M at *
  generalize s ^ (-0.1 : ℝ) = t at *
  rw [mul_le_mul_iff_of_pos_right hs', add_le_add_iff_right, div_le_div_iff_of_pos_right hp,
    mul_le_mul_iff_of_pos_left (by norm_num), Real.rpow_le_rpow_iff hn.le hm.le (by norm_num)]

theorem Ns_le_size {H d x ra rw : ℝ} (hH : 0 < H) (hd : 0 < d) (hx : 0 < x) (hw : 0 < rw) (hr : rw < ra) :
    Textbook.Ns H x ra rw ≤ Textbook.Ns H d ra rw ↔ d ≤ x := by
  have hD : 0 < Textbook.Delta ra rw := div_pos (sub_pos.mpr hr) hw
  unfold Textbook.Ns
  rw [div_le_div_iff_of_pos_left hH (by positivity) (by positivity), mul_le_mul_iff_of_pos_left hD]

theorem Ns_le_height {x h D ra rw : ℝ} (hD : 0 < D) (hw : 0 < rw) (hr : rw < ra) :
    Textbook.Ns x D ra rw ≤ Textbook.Ns h D ra rw ↔ x ≤ h := by
  have hDe : 0 < Textbook.Delta ra rw := div_pos (sub_pos.mpr hr) hw
  unfold Textbook.Ns
  rw [div_le_div_iff_of_pos_right (by positivity)]
end DesignProof

section
variable (rw ra N c : ℝ) (hw : 0 < rw) (hr : rw < ra) (hN : 0 < N)
include hw hr hN

/-- C96, double layer of cubes, size: among the cubes that are damaged at all (stability number above
`s ^ -0.1`) the damage stays within the limit exactly from the returned size -/
theorem C96_cubes_double_size_partial (H T Nod : ℝ) (hH : 0 < H) (hT : 0 < T) (hNod : 0 < Nod) : ∃ d : ℝ, 0 < d ∧
    (CubesVdM.calculate_nominal_diameter_Dn_vanDerMeer1988 (fin H) (fin T) (fin rw) (fin ra)
      (fin N) (fin c) (fin Nod)).res = .ok (fin d) ∧
    ∀ x : ℝ, 0 < x → Textbook.steepness H T ^ (-0.1 : ℝ) < Textbook.Ns H x ra rw → ∃ v : ℝ,
      (CubesVdM.calculate_damage_Nod_vanDerMeer1988 (fin H) (fin x) (fin (Textbook.steepness H T)) (fin rw) (fin ra)
        (fin N) (fin c)).res = .ok (fin v) ∧ (v ≤ Nod ↔ d ≤ x) := by
  have hs : 0 < Textbook.steepness H T := by
    have := Real.pi_pos; unfold Textbook.steepness; positivity
  obtain ⟨d, hd, e, p⟩ := C78_cubes_double_size rw ra N c hw hr hN H T Nod hH hT hNod
  refine ⟨d, hd, e, fun x hx hxs => ?_⟩
  obtain ⟨v, hv, ev, pv⟩ := C78_cubes_double_damage rw ra N c _ hw hr hN hs H x hH hx hxs
  exact ⟨v, ev, by rw [DesignProof.cubes_iff hv hNod hN hs pv p, DesignProof.Ns_le_size hH hd hx hw hr]⟩

example := C96_cubes_double_size_partial (rw := 1025) (ra := 2650) (N := 3000) (c := 1.5) (H := 2) (T := 8)
  (Nod := 0.5) (by norm_num) (by norm_num) (by norm_num) (by norm_num) (by norm_num) (by norm_num)

/-- C96, double layer of cubes, wave height (for a given wave steepness) -/
theorem C96_cubes_double_height_partial (s D Nod : ℝ) (hs : 0 < s) (hD : 0 < D) (hNod : 0 < Nod) : ∃ d : ℝ, 0 < d ∧
    (CubesVdM.calculate_wave_height_Hs_vanDerMeer1988 (fin D) (fin s) (fin rw) (fin ra)
      (fin N) (fin c) (fin Nod)).res = .ok (fin d) ∧
    ∀ x : ℝ, 0 < x → s ^ (-0.1 : ℝ) < Textbook.Ns x D ra rw → ∃ v : ℝ,
      (CubesVdM.calculate_damage_Nod_vanDerMeer1988 (fin x) (fin D) (fin s) (fin rw) (fin ra)
        (fin N) (fin c)).res = .ok (fin v) ∧ (v ≤ Nod ↔ x ≤ d) := by
  obtain ⟨d, hd, e, p⟩ := C78_cubes_double_height rw ra N c s hw hr hN hs D Nod hD hNod
  refine ⟨d, hd, e, fun x hx hxs => ?_⟩
  obtain ⟨v, hv, ev, pv⟩ := C78_cubes_double_damage rw ra N c s hw hr hN hs x D hx hD hxs
  exact ⟨v, ev, by rw [DesignProof.cubes_iff hv hNod hN hs pv p, DesignProof.Ns_le_height hD hw hr]⟩

example := C96_cubes_double_height_partial (rw := 1025) (ra := 2650) (N := 3000) (c := 1.5) (s := 0.03) (D := 1)
  (Nod := 0.5) (by norm_num) (by norm_num) (by norm_num) (by norm_num) (by norm_num) (by norm_num)

/-- C96 refuted for double layers of cubes: cubes much larger than the returned size give NaN, not a damage within
the limit -/
theorem C96_cubes_double_size_refuted (H T Nod : ℝ) (hH : 0 < H) (hT : 0 < T) : ¬ SafeFrom
    (fun D => CubesVdM.calculate_damage_Nod_vanDerMeer1988 (fin H) D (fin (Textbook.steepness H T)) (fin rw) (fin ra)
        (fin N) (fin c)) Nod
    (CubesVdM.calculate_nominal_diameter_Dn_vanDerMeer1988 (fin H) (fin T) (fin rw) (fin ra)
      (fin N) (fin c) (fin Nod)) := by
  have hs : 0 < Textbook.steepness H T := by
    have := Real.pi_pos; unfold Textbook.steepness; positivity
  have hDe : 0 < (ra - rw) / rw := div_pos (sub_pos.mpr hr) hw
  have hp : 0 < Textbook.steepness H T ^ (0.1 : ℝ) := by positivity
  rintro ⟨d, -, h⟩
  obtain ⟨v, ev, -⟩ := h (2 * (H / ((ra - rw) / rw) * Textbook.steepness H T ^ (0.1 : ℝ))) (by positivity)
  simp only [] at ev
  rw [C15_below_start_of_damage rw ra N H _ _ c hw hr hN hH (by positivity) hs ?_] at ev
  · cases ev
  · generalize Textbook.steepness H T ^ (0.1 : ℝ) = t at *
    generalize (ra - rw) / rw = De at *
    have : H / (De * (2 * (H / De * t))) * t = 1 / 2 := by field_simp
    rw [this]; norm_num

example := C96_cubes_double_size_refuted (rw := 1025) (ra := 2650) (N := 3000) (c := 1.5) (H := 2) (T := 8)
  (Nod := 0.5) (by norm_num) (by norm_num) (by norm_num) (by norm_num) (by norm_num)
end

section
open VanGentPozueta2004 RearProof
variable (ca cp gf gc H T Rc Rr B N z rr rw cs : ℝ) (M : PF) (hcp : 0 < cp) (hgf : 0 < gf)
  (hgc : 0 < gc) (hH : 0 < H) (hT : 0 < T) (hB : 0 ≤ B) (hN : 0 < N) (hw : 0 < rw) (hr : rw < rr)
  (hcs : 0 < cs)
  (hz : VanGent2001.calculate_wave_runup_height_z1p (fin H) (fin T) (fin gf) (fin ca) = fin z)
  (hzR : Rc < z)
include hcp hgf hgc hH hT hB hN hw hr hcs hz hzR

/-- C96, rear slopes by Van Gent & Pozueta (2004): rock size, when the run-up exceeds the crest -/
theorem C96_pozueta_size (S : ℝ) (hS : 0 < S) : SafeFrom
    (fun D => calculate_damage_number_S (fin ca) (fin cp) (fin gf) (fin gc) (fin H) (fin T) (fin Rc)
      (fin Rr) (fin B) (fin N) D M (fin rr) (fin rw) (fin cs)) S
    (calculate_nominal_rock_diameter_Dn50 (fin ca) (fin cp) (fin gf) (fin gc) (fin S) (fin H)
      (fin T) (fin Rc) (fin Rr) (fin B) (fin rr) (fin N) (fin rw) (fin cs)) := by
  have hX : 0 < 1 + 10 * Real.exp (-Rr / H) := by positivity
  have hn := Real.sqrt_pos.mpr hN
  have hu := uX_pos hgf hgc hH hB hzR
  have hd : 0 < √((rr - rw) / rw) := Real.sqrt_pos.mpr (div_pos (sub_pos.mpr hr) hw)
  obtain ⟨h1, h2⟩ := C34_damage_size_inverse ca cp gf gc H T Rc Rr B N z rr rw cs M hcp hgf hgc hH hT hB hN hw hr hcs
    hz hzR
  refine DesignProof.from_inverse (f := fun S => calculate_nominal_rock_diameter_Dn50 (fin ca) (fin cp) (fin gf)
    (fin gc) S (fin H) (fin T) (fin Rc) (fin Rr) (fin B) (fin rr) (fin N) (fin rw) (fin cs)) ⟨h2, h1⟩
    (fun x y hx hxy => ⟨_, _, S04_eval M hcp hgf hgc hH hT hB hN hw hr hcs hx hz hzR,
      S04_eval M hcp hgf hgc hH hT hB hN hw hr hcs (hx.trans hxy) hz hzR, ?_⟩) hS
  have hy := hx.trans hxy
  unfold S04
  gcongr

end

section
open VanGent2007Rear RearProof
variable (ca cp gm H T Rc Rf Rr N z : ℝ) (M rho : PF) (hcp : 0 < cp) (hH : 0 < H)
  (hRc : 0 < Rc) (hRf : 0 ≤ Rf) (hRr : 0 ≤ Rr) (hR : Rr < Rc) (hN : 0 < N)
  (hz : VanGent2001.calculate_wave_runup_height_z1p (fin H) (fin T) (fin gm) (fin ca) = fin z)
  (hzR : Rc < z)
include hcp hH hRc hRf hRr hR hN hz hzR

/-- C96, rear slopes by Van Gent (2007): the limit is `k ^ 0.4` (0.6 to 0.7 %) above the returned size: the
returned size itself has 1.6 to 1.7 % more damage than asked -/
theorem C96_vangent2007_size_partial (S : ℝ) (hS : 0 < S) : ∃ k d : ℝ, 1.016 < k ∧ k < 1.017 ∧ 0 < d ∧
    (calculate_nominal_rock_diameter_Dn50 (fin ca) (fin cp) (fin gm) (fin S) (fin H) (fin T)
        (fin Rc) (fin Rf) (fin Rr) (fin N)).res = .ok (fin d) ∧
    ∀ x : ℝ, 0 < x → ∃ v : ℝ, (calculate_damage_number_S (fin ca) (fin cp) (fin gm) (fin H) (fin T) (fin Rc) (fin Rf)
        (fin Rr) (fin N) (fin x) M rho).res = .ok (fin v) ∧ (v ≤ S ↔ k ^ (0.4 : ℝ) * d ≤ x) := by
  have hE := E_pos hRc hRr hR
  have hG : 0 < 1 + Rf / H := by positivity
  have hn := Real.sqrt_pos.mpr hN
  have hw := sub_pos.mpr hzR
  have hk : (0 : ℝ) < 0.00025 * 0.036 ^ (-2.5 : ℝ) := by positivity
  have hd := D07_pos (k := 0.036) (by norm_num) hcp hw hRc hE hG hn hS
  refine ⟨_, _, k07_bounds.1, k07_bounds.2, hd, D07_eval hcp hH hRc hRf hRr hR hN hS hz hzR, fun x hx =>
    ⟨_, S07_eval M rho hcp hH hRc hRf hRr hR hN hx hz, ?_⟩⟩
  refine DesignProof.anti_iff (F := fun x => S07 0.00025 cp (z - Rc) Rc (1 + 5 * Rr / (Rc - Rr)) (1 + Rf / H) √N x)
    (s := {x | 0 < x}) ?_ ?_ ?_ hx
  · intro a ha b hb hab
    have ha : 0 < a := ha
    have hb : 0 < b := hb
    unfold S07
    gcongr
  · exact mul_pos (Real.rpow_pos_of_pos hk _) hd
  · have h1 := S07_D07 (k := 0.00025) (k' := 0.036) (by norm_num) (by norm_num) hcp hw hRc hE hG hn hS
    have h2 : ∀ (k a w R E G n D r : ℝ), 0 < R → 0 < D → 0 < r →
        S07 k a w R E G n (r ^ (0.4 : ℝ) * D) = S07 k a w R E G n D / r := by
      intro k a w R E G n D r hR hD hr
      unfold S07
      have hp : 0 < r ^ (0.4 : ℝ) := by positivity
      have e1 : (r ^ (0.4 : ℝ)) ^ 2 * (r ^ (0.4 : ℝ)) ^ (0.5 : ℝ) = r := by
        rw [← Real.rpow_natCast, ← Real.rpow_mul hr.le, ← Real.rpow_mul hr.le, ← Real.rpow_add hr]
        norm_num
      have e2 : R / (r ^ (0.4 : ℝ) * D) = R / D / r ^ (0.4 : ℝ) := by field_simp
      have hp2 : 0 < (r ^ (0.4 : ℝ)) ^ (0.5 : ℝ) := by positivity
      rw [e2, Real.div_rpow (by positivity) hp.le]
      generalize (R / D) ^ (0.5 : ℝ) = y
      generalize (r ^ (0.4 : ℝ)) ^ (0.5 : ℝ) = q at *
      generalize r ^ (0.4 : ℝ) = p at *
      subst e1
      field_simp
    rw [h2 _ _ _ _ _ _ _ _ _ hRc hd hk, h1]
    field_simp

/-- C96 refuted for the rear slope by Van Gent (2007): the returned size does not meet the requirement -/
theorem C96_vangent2007_size_refuted (S : ℝ) (hS : 0 < S) : ¬ SafeFrom
    (fun D => calculate_damage_number_S (fin ca) (fin cp) (fin gm) (fin H) (fin T) (fin Rc) (fin Rf)
        (fin Rr) (fin N) D M rho) S
    (calculate_nominal_rock_diameter_Dn50 (fin ca) (fin cp) (fin gm) (fin S) (fin H) (fin T)
        (fin Rc) (fin Rf) (fin Rr) (fin N)) := by
  obtain ⟨k, d, hk, -, hd, e, h⟩ := C96_vangent2007_size_partial ca cp gm H T Rc Rf Rr N z M rho hcp hH hRc hRf hRr
    hR hN hz hzR S hS
  rintro ⟨d', e', h'⟩
  rw [e, Except.ok.injEq, fin_inj] at e'
  subst e'
  obtain ⟨v, ev, hv⟩ := h d hd
  obtain ⟨v', ev', hv'⟩ := h' d hd
  simp only [] at ev'
  rw [ev, Except.ok.injEq, fin_inj] at ev'
  subst ev'
  have h1 := hv.mp (hv'.mpr le_rfl)
  have h2 : 1 < k ^ (0.4 : ℝ) := Real.one_lt_rpow (by linarith) (by norm_num)
  nlinarith
end

example : ∃ k d : ℝ, 1.016 < k ∧ k < 1.017 ∧ 0 < d ∧
    (VanGent2007Rear.calculate_nominal_rock_diameter_Dn50 (fin 2) (fin 2) (fin 0.5) (fin 4) (fin 4) (fin 10)
        (fin 2) (fin 0.5) (fin 0.5) (fin 3000)).res = .ok (fin d) := by
  obtain ⟨z, hz, e⟩ := RearProof.sample_runup
  obtain ⟨k, d, h1, h2, h3, h4, -⟩ := C96_vangent2007_size_partial 2 2 0.5 4 10 2 0.5 0.5 3000 z nan nan
    (by norm_num) (by norm_num) (by norm_num) (by norm_num) (by norm_num) (by norm_num) (by norm_num) e hz 4
    (by norm_num)
  exact ⟨k, d, h1, h2, h3, h4⟩

example : ¬ SafeFrom
    (fun D => VanGent2007Rear.calculate_damage_number_S (fin 2) (fin 2) (fin 0.5) (fin 4) (fin 10) (fin 2) (fin 0.5)
        (fin 0.5) (fin 3000) D nan nan) 4
    (VanGent2007Rear.calculate_nominal_rock_diameter_Dn50 (fin 2) (fin 2) (fin 0.5) (fin 4) (fin 4) (fin 10)
        (fin 2) (fin 0.5) (fin 0.5) (fin 3000)) := by
  obtain ⟨z, hz, e⟩ := RearProof.sample_runup
  exact C96_vangent2007_size_refuted 2 2 0.5 4 10 2 0.5 0.5 3000 z nan nan
    (by norm_num) (by norm_num) (by norm_num) (by norm_num) (by norm_num) (by norm_num) (by norm_num) e hz 4
    (by norm_num)

example : SafeFrom
    (fun D => VanGentPozueta2004.calculate_damage_number_S (fin 2) (fin 2) (fin 0.5) (fin 0.6) (fin 4) (fin 10)
      (fin 2) (fin 3) (fin 4) (fin 2000) D nan (fin 2650) (fin 1025) (fin 0.008)) 4
    (VanGentPozueta2004.calculate_nominal_rock_diameter_Dn50 (fin 2) (fin 2) (fin 0.5) (fin 0.6) (fin 4) (fin 4)
      (fin 10) (fin 2) (fin 3) (fin 4) (fin 2650) (fin 2000) (fin 1025) (fin 0.008)) := by
  obtain ⟨z, hz, e⟩ := RearProof.sample_runup
  exact C96_pozueta_size 2 2 0.5 0.6 4 10 2 3 4 2000 z 2650 1025 0.008 nan (by norm_num)
    (by norm_num) (by norm_num) (by norm_num) (by norm_num) (by norm_num) (by norm_num) (by norm_num) (by norm_num)
    (by norm_num) e hz 4 (by norm_num)
end
