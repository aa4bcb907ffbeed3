import Verif.Lemmas.Goda

/-! # Goda (1985) wave loads on caissons (C35-C37, C67-C71) -/

open Classical
open PF
open CorePhysics
open Goda1985
open GodaProof
noncomputable section

section
variable (disper : PF → PF → PF → PF) (T B1 sop : PF) (HD Hsi β h d cot ρ hacc Rc Bup g L : ℝ)
  (hHD : 0 < HD) (hHsi : 0 ≤ Hsi) (hh : 0 < h) (hd : 0 < d) (hdh : d ≤ h) (hcot : 0 < cot)
  (hρ : 0 < ρ) (hg : 0 < g) (hacc0 : 0 < hacc) (hacch : hacc ≤ h) (hRc : 0 ≤ Rc) (hB : 0 < Bup)
  (hL : 0 < L) (hw : calculate_local_wavelength disper T (fin h) (fin g) = fin L)
include hHD hHsi hh hd hdh hcot hρ hg hacc0 hacch hRc hB hL hw

/-- C35: for every angle of incidence and every positive wavelength all pressures, forces and moments
are non-negative numbers; the pressure is largest at the still-water line, decreases downwards to the
base of the wall and further to the sea bed, and upwards to the crest; the uplift pressure does not
exceed the wave pressure at the base of the wall. -/
theorem C35_pressures : ∃ l : Loads, (calculate_pressures_and_forces disper (fin HD) (fin Hsi) T
      (fin β) (fin h) (fin d) B1 (fin cot) (fin ρ) (fin hacc) (fin Rc) (fin Bup) sop (fin g)).res =
      .ok l ∧
    ∃ p1 p2 p3 p4 pu FH FU MH MU : ℝ, l.p1 = fin p1 ∧ l.p2 = fin p2 ∧ l.p3 = fin p3 ∧
      l.p4 = fin p4 ∧ l.pu = fin pu ∧ l.FH = fin FH ∧ l.FU = fin FU ∧ l.MH = fin MH ∧
      l.MU = fin MU ∧
      0 ≤ p4 ∧ p4 ≤ p1 ∧ 0 ≤ p2 ∧ p2 ≤ p3 ∧ p3 ≤ p1 ∧ 0 ≤ pu ∧ pu ≤ p3 ∧
      0 ≤ FH ∧ 0 ≤ FU ∧ 0 ≤ MH ∧ 0 ≤ MU ∧
      (|β| < 180 → 0 < p1 ∧ 0 < FH ∧ 0 < MH ∧ 0 < FU ∧ 0 < MU) := by
  obtain ⟨b, hb⟩ := loads_eval (disper := disper) (T := T) (HD := HD) (Hsi := Hsi) (β := β) (h := h)
    (d := d) (cot := cot) (ρ := ρ) (hacc := hacc) (Rc := Rc) (Bup := Bup) (g := g) (L := L)
    hHD hHsi hh hd hcot hRc hL hw B1 sop
  refine ⟨_, hb, _, _, _, _, _, _, _, _, _, rfl, rfl, rfl, rfl, rfl, rfl, rfl, rfl, rfl, ?_⟩
  have h1 := A1_bounds hh hL
  have hf : d ≤ h5 Hsi h cot := by
    unfold h5
    have : 0 ≤ Hsi * 5 / cot := by positivity
    linarith
  have h2 := A2_nonneg hHD hd hf
  have h3 := A3_bounds (L := L) hh hacc0.le hacch
  have hq := cosh_pos_one (x := 2 * Real.pi * h / L)
  have hc := cb_ge β
  have ha1 : 0 < A1 h L := by linarith [h1.1]
  have ha3 : 0 < A3 hacc h L := by linarith [h3.1]
  have h1c : 0 ≤ 1 + cb β := by linarith
  have hp1 : 0 ≤ P1 (cb β) (A1 h L) (A2 HD d (h5 Hsi h cot)) ρ g HD := by
    unfold P1; positivity
  have hpu : 0 ≤ PU (cb β) (A1 h L) (A3 hacc h L) ρ g HD := by unfold PU; positivity
  have hpu' : PU (cb β) (A1 h L) (A3 hacc h L) ρ g HD ≤
      A3 hacc h L * P1 (cb β) (A1 h L) (A2 HD d (h5 Hsi h cot)) ρ g HD := by
    have : 0 ≤ 0.5 * (1 + cb β) * (A2 HD d (h5 Hsi h cot) * cb β ^ 2) * ρ * g * HD *
      A3 hacc h L := by positivity
    unfold PU P1
    linarith
  have he : 0 ≤ eta (cb β) HD := by unfold eta; positivity
  have hstrict : |β| < 180 → 0 < 1 + cb β := by
    intro hβ
    have : -1 < cb β := by
      unfold cb
      rw [← Real.cos_pi]
      have hbu : 0 ≤ bu β ∧ bu β < 180 := by
        unfold bu
        split
        · constructor <;> linarith
        · exact ⟨le_rfl, by norm_num⟩
      apply Real.cos_lt_cos_of_nonneg_of_le_pi
      · have := Real.pi_pos
        have := hbu.1
        positivity
      · exact le_rfl
      · have := Real.pi_pos
        nlinarith [hbu.2]
    linarith
  have hp1' : |β| < 180 → 0 < P1 (cb β) (A1 h L) (A2 HD d (h5 Hsi h cot)) ρ g HD := by
    intro hβ
    have := hstrict hβ
    unfold P1; positivity
  have hpu'' : |β| < 180 → 0 < PU (cb β) (A1 h L) (A3 hacc h L) ρ g HD := by
    intro hβ
    have := hstrict hβ
    unfold PU; positivity
  generalize P1 (cb β) (A1 h L) (A2 HD d (h5 Hsi h cot)) ρ g HD = p1 at *
  generalize PU (cb β) (A1 h L) (A3 hacc h L) ρ g HD = pu at *
  have hp4 := P4_bounds (p1 := p1) (e := eta (cb β) HD) (Rc := Rc) hp1 hRc
  have hc0 : 0 ≤ eta (cb β) HD ⊓ Rc := le_min he hRc
  generalize P4 p1 (eta (cb β) HD) Rc = p4 at *
  generalize eta (cb β) HD ⊓ Rc = hc' at *
  generalize A3 hacc h L = a3 at *
  have hp3 : 0 ≤ a3 * p1 := by positivity
  refine ⟨hp4.1, hp4.2, ?_, ?_, ?_, hpu, hpu', ?_, by positivity, ?_, by positivity, fun hβ => ?_⟩
  · have := Real.cosh_pos (2 * Real.pi * h / L); positivity
  · have := mul_le_mul_of_nonneg_right h3.1 hp1
    rwa [div_mul_eq_mul_div, one_mul] at this
  · nlinarith [h3.2]
  · unfold FHr; have := hp4.1; positivity
  · unfold MHr; have := hp4.1; positivity
  · have e1 := hp1' hβ
    have e2 := hpu'' hβ
    have := hp4.1
    refine ⟨e1, ?_, ?_, by positivity, by positivity⟩
    · unfold FHr; positivity
    · unfold MHr; positivity

/-- C67: horizontal force and moment about the heel level are those of the pressure diagram: linear
from `p3` at the base of the wall to `p1` at the still-water line, then linear towards zero at
`etastar` above it and cut off at the crest; uplift force and moment are those of the triangle with
`pu` at the seaward edge and zero at the heel. -/
theorem C67_forces_are_integrals : ∃ l : Loads, (calculate_pressures_and_forces disper (fin HD)
      (fin Hsi) T (fin β) (fin h) (fin d) B1 (fin cot) (fin ρ) (fin hacc) (fin Rc) (fin Bup) sop
      (fin g)).res = .ok l ∧
    ∃ p1 p3 pu e : ℝ, l.p1 = fin p1 ∧ l.p3 = fin p3 ∧ l.pu = fin pu ∧ l.etastar = fin e ∧
      l.hstar_c = fin (Min.min Rc e) ∧
      l.FH = fin ((∫ z in (0 : ℝ)..hacc, (p3 + (p1 - p3) / hacc * z)) +
        ∫ z in (0 : ℝ)..Min.min Rc e, p1 * (1 - z / e)) ∧
      l.MH = fin ((∫ z in (0 : ℝ)..hacc, z * (p3 + (p1 - p3) / hacc * z)) +
        ∫ z in (0 : ℝ)..Min.min Rc e, (hacc + z) * (p1 * (1 - z / e))) ∧
      l.FU = fin (∫ x in (0 : ℝ)..Bup, pu * (x / Bup)) ∧
      l.MU = fin (∫ x in (0 : ℝ)..Bup, x * (pu * (x / Bup))) := by
  obtain ⟨b, hb⟩ := loads_eval (disper := disper) (T := T) (HD := HD) (Hsi := Hsi) (β := β) (h := h)
    (d := d) (cot := cot) (ρ := ρ) (hacc := hacc) (Rc := Rc) (Bup := Bup) (g := g) (L := L)
    hHD hHsi hh hd hcot hRc hL hw B1 sop
  refine ⟨_, hb, _, _, _, _, rfl, rfl, rfl, rfl, by rw [min_comm], ?_⟩
  dsimp only
  have he : 0 ≤ eta (cb β) HD := by
    have := cb_ge β
    have : 0 ≤ 1 + cb β := by linarith
    unfold eta; positivity
  generalize P1 (cb β) (A1 h L) (A2 HD d (h5 Hsi h cot)) ρ g HD = p1 at *
  generalize PU (cb β) (A1 h L) (A3 hacc h L) ρ g HD = pu at *
  generalize A3 hacc h L * p1 = p3 at *
  generalize eta (cb β) HD = e at *
  have up1 : (∫ z in (0 : ℝ)..Min.min Rc e, p1 * (1 - z / e)) =
      p1 * Min.min Rc e + (-(p1 / e)) * (Min.min Rc e) ^ 2 / 2 := by
    rw [← int_lin]; congr 1; ext z; ring
  have up2 : (∫ z in (0 : ℝ)..Min.min Rc e, (hacc + z) * (p1 * (1 - z / e))) =
      hacc * (p1 * Min.min Rc e + (-(p1 / e)) * (Min.min Rc e) ^ 2 / 2) +
      p1 * (Min.min Rc e) ^ 2 / 2 + (-(p1 / e)) * (Min.min Rc e) ^ 3 / 3 := by
    rw [← int_mom]; congr 1; ext z; ring
  have lo2 : (∫ z in (0 : ℝ)..hacc, z * (p3 + (p1 - p3) / hacc * z)) =
      0 * (p3 * hacc + (p1 - p3) / hacc * hacc ^ 2 / 2) + p3 * hacc ^ 2 / 2 +
        (p1 - p3) / hacc * hacc ^ 3 / 3 := by
    rw [← int_mom]; congr 1; ext z; ring
  have u1 : (∫ x in (0 : ℝ)..Bup, pu * (x / Bup)) = 0 * Bup + (pu / Bup) * Bup ^ 2 / 2 := by
    rw [← int_lin]; congr 1; ext z; ring
  have u2 : (∫ x in (0 : ℝ)..Bup, x * (pu * (x / Bup))) =
      0 * (0 * Bup + (pu / Bup) * Bup ^ 2 / 2) + 0 * Bup ^ 2 / 2 + (pu / Bup) * Bup ^ 3 / 3 := by
    rw [← int_mom]; congr 1; ext z; ring
  rw [up1, up2, lo2, int_lin, u1, u2]
  have h05 : (0.5 : ℝ) = 1 / 2 := by norm_num
  refine ⟨?_, ?_, ?_, ?_⟩
  · unfold FHr P4
    rw [fin_inj, h05]
    by_cases hlt : Rc < e
    · have : 0 < e := lt_of_le_of_lt hRc hlt
      rw [if_pos hlt, inf_eq_right.mpr hlt.le, min_eq_left hlt.le]
      field_simp; ring
    · rw [if_neg hlt, inf_eq_left.mpr (not_lt.mp hlt), min_eq_right (not_lt.mp hlt)]
      rcases he.eq_or_lt with h0 | h0
      · rw [← h0]; field_simp; ring
      · field_simp; ring
  · unfold MHr P4
    rw [fin_inj, h05]
    by_cases hlt : Rc < e
    · have : 0 < e := lt_of_le_of_lt hRc hlt
      rw [if_pos hlt, inf_eq_right.mpr hlt.le, min_eq_left hlt.le]
      field_simp; ring
    · rw [if_neg hlt, inf_eq_left.mpr (not_lt.mp hlt), min_eq_right (not_lt.mp hlt)]
      rcases he.eq_or_lt with h0 | h0
      · rw [← h0]; field_simp; ring
      · field_simp; ring
  · rw [fin_inj, h05]; field_simp; ring
  · rw [fin_inj, h05]; field_simp; ring

example := C67_forces_are_integrals (disper := fun _ _ _ => .fin 0.1) (T := .fin 8) (B1 := .fin 1)
  (sop := .fin 1) (HD := 4) (Hsi := 2) (β := 20) (h := 8) (d := 5) (cot := 50) (ρ := 1025) (hacc := 6)
  (Rc := 3) (Bup := 15) (g := 9.81) (L := (2 * Real.pi / 0.1)) (by norm_num) (by norm_num) (by norm_num)
  (by norm_num) (by norm_num) (by norm_num) (by norm_num) (by norm_num) (by norm_num) (by norm_num)
  (by norm_num) (by norm_num) (by positivity)
  (by unfold CorePhysics.calculate_local_wavelength; dsimp only; rw [PF.ofNat_eq, show PF.pi = .fin Real.pi from rfl, PF.mul_fin, PF.div_fin (by norm_num)])

/-- C68: turning the waves away from the normal (up to 105 degrees) increases none of the loads -/
theorem C68_obliqueness (β' : ℝ) (hβ : |β| ≤ |β'|) (hβ' : |β'| ≤ 105) :
    ∃ l l' : Loads, ∃ p1 p3 pu FH FU MH MU p1' p3' pu' FH' FU' MH' MU' : ℝ,
    (calculate_pressures_and_forces disper (fin HD) (fin Hsi) T (fin β) (fin h) (fin d) B1 (fin cot)
      (fin ρ) (fin hacc) (fin Rc) (fin Bup) sop (fin g)).res = .ok l ∧
    (calculate_pressures_and_forces disper (fin HD) (fin Hsi) T (fin β') (fin h) (fin d) B1
      (fin cot) (fin ρ) (fin hacc) (fin Rc) (fin Bup) sop (fin g)).res = .ok l' ∧
    l.p1 = fin p1 ∧ l.p3 = fin p3 ∧ l.pu = fin pu ∧ l.FH = fin FH ∧ l.FU = fin FU ∧
    l.MH = fin MH ∧ l.MU = fin MU ∧
    l'.p1 = fin p1' ∧ l'.p3 = fin p3' ∧ l'.pu = fin pu' ∧ l'.FH = fin FH' ∧ l'.FU = fin FU' ∧
    l'.MH = fin MH' ∧ l'.MU = fin MU' ∧
    p1' ≤ p1 ∧ p3' ≤ p3 ∧ pu' ≤ pu ∧ FH' ≤ FH ∧ FU' ≤ FU ∧ MH' ≤ MH ∧ MU' ≤ MU := by
  obtain ⟨b, hb⟩ := loads_eval (disper := disper) (T := T) (HD := HD) (Hsi := Hsi) (β := β) (h := h)
    (d := d) (cot := cot) (ρ := ρ) (hacc := hacc) (Rc := Rc) (Bup := Bup) (g := g) (L := L)
    hHD hHsi hh hd hcot hRc hL hw B1 sop
  obtain ⟨b', hb'⟩ := loads_eval (disper := disper) (T := T) (HD := HD) (Hsi := Hsi) (β := β')
    (h := h) (d := d) (cot := cot) (ρ := ρ) (hacc := hacc) (Rc := Rc) (Bup := Bup) (g := g) (L := L)
    hHD hHsi hh hd hcot hRc hL hw B1 sop
  refine ⟨_, _, _, _, _, _, _, _, _, _, _, _, _, _, _, _, hb, hb', rfl, rfl, rfl, rfl, rfl, rfl, rfl,
    rfl, rfl, rfl, rfl, rfl, rfl, rfl, ?_⟩
  have h1 := A1_bounds hh hL
  have hf : d ≤ h5 Hsi h cot := by
    unfold h5
    have : 0 ≤ Hsi * 5 / cot := by positivity
    linarith
  have h2 := A2_nonneg hHD hd hf
  have h3 := A3_bounds (L := L) hh hacc0.le hacch
  have hq := cosh_pos_one (x := 2 * Real.pi * h / L)
  have ha1 : 0 < A1 h L := by linarith [h1.1]
  have ha3 : 0 < A3 hacc h L := by linarith [h3.1]
  have hbu : bu β ≤ bu β' ∧ 0 ≤ bu β ∧ bu β' ≤ 90 := by
    unfold bu
    refine ⟨?_, ?_, ?_⟩ <;> split_ifs <;> linarith
  have hpi := Real.pi_pos
  have hc' : 0 ≤ cb β' := by
    apply Real.cos_nonneg_of_mem_Icc
    constructor <;> nlinarith [hbu.1, hbu.2.1, hbu.2.2]
  have hcc : cb β' ≤ cb β := by
    apply Real.cos_le_cos_of_nonneg_of_le_pi
    · have := hbu.2.1; positivity
    · nlinarith [hbu.2.2]
    · have := hbu.1
      gcongr
  have hc : 0 ≤ cb β := hc'.trans hcc
  generalize cb β' = c' at *
  generalize cb β = c at *
  generalize A1 h L = a1 at *
  generalize A2 HD d (h5 Hsi h cot) = a2 at *
  generalize A3 hacc h L = a3 at *
  have hp0 : 0 ≤ P1 c' a1 a2 ρ g HD := by unfold P1; positivity
  have hp : P1 c' a1 a2 ρ g HD ≤ P1 c a1 a2 ρ g HD := by unfold P1; gcongr
  have hu : PU c' a1 a3 ρ g HD ≤ PU c a1 a3 ρ g HD := by unfold PU; gcongr
  have he : eta c' HD ≤ eta c HD := by unfold eta; gcongr
  have he0 : 0 ≤ eta c' HD := by unfold eta; positivity
  generalize P1 c' a1 a2 ρ g HD = p' at *
  generalize P1 c a1 a2 ρ g HD = p at *
  generalize PU c' a1 a3 ρ g HD = u' at *
  generalize PU c a1 a3 ρ g HD = u at *
  have h4 := P4_mono hp0 hp he hRc
  have h40 := (P4_bounds (e := eta c' HD) hp0 hRc).1
  have h3' : a3 * p' ≤ a3 * p := by gcongr
  refine ⟨hp, h3', hu, ?_, ?_, ?_, ?_⟩
  · exact FHr_mono hacc0.le hp0 h40 (le_min he0 hRc) hp h3' h4 (inf_le_inf_right Rc he)
  · gcongr
  · exact MHr_mono hacc0.le hp0 h40 (le_min he0 hRc) hp h3' h4 (inf_le_inf_right Rc he)
  · gcongr

example := C68_obliqueness (disper := fun _ _ _ => .fin 0.1) (T := .fin 8) (B1 := .fin 1) (sop := .fin 1)
  (HD := 4) (Hsi := 2) (β := 20) (h := 8) (d := 5) (cot := 50) (ρ := 1025) (hacc := 6) (Rc := 3) (Bup := 15)
  (g := 9.81) (L := (2 * Real.pi / 0.1)) (β' := 40) (by norm_num) (by norm_num) (by norm_num) (by norm_num)
  (by norm_num) (by norm_num) (by norm_num) (by norm_num) (by norm_num) (by norm_num) (by norm_num)
  (by norm_num) (by positivity)
  (by unfold CorePhysics.calculate_local_wavelength; dsimp only; rw [PF.ofNat_eq, show PF.pi = .fin Real.pi from rfl, PF.mul_fin, PF.div_fin (by norm_num)])
  (by norm_num) (by norm_num)

/-- C69: a higher design wave decreases none of the loads -/
theorem C69_wave_height (HD' : ℝ) (hHH : HD ≤ HD') :
    ∃ l l' : Loads, ∃ p1 p3 pu FH FU MH MU p1' p3' pu' FH' FU' MH' MU' : ℝ,
    (calculate_pressures_and_forces disper (fin HD) (fin Hsi) T (fin β) (fin h) (fin d) B1 (fin cot)
      (fin ρ) (fin hacc) (fin Rc) (fin Bup) sop (fin g)).res = .ok l ∧
    (calculate_pressures_and_forces disper (fin HD') (fin Hsi) T (fin β) (fin h) (fin d) B1
      (fin cot) (fin ρ) (fin hacc) (fin Rc) (fin Bup) sop (fin g)).res = .ok l' ∧
    l.p1 = fin p1 ∧ l.p3 = fin p3 ∧ l.pu = fin pu ∧ l.FH = fin FH ∧ l.FU = fin FU ∧
    l.MH = fin MH ∧ l.MU = fin MU ∧
    l'.p1 = fin p1' ∧ l'.p3 = fin p3' ∧ l'.pu = fin pu' ∧ l'.FH = fin FH' ∧ l'.FU = fin FU' ∧
    l'.MH = fin MH' ∧ l'.MU = fin MU' ∧
    p1 ≤ p1' ∧ p3 ≤ p3' ∧ pu ≤ pu' ∧ FH ≤ FH' ∧ FU ≤ FU' ∧ MH ≤ MH' ∧ MU ≤ MU' := by
  have hHD' : 0 < HD' := hHD.trans_le hHH
  obtain ⟨b, hb⟩ := loads_eval (disper := disper) (T := T) (HD := HD) (Hsi := Hsi) (β := β) (h := h)
    (d := d) (cot := cot) (ρ := ρ) (hacc := hacc) (Rc := Rc) (Bup := Bup) (g := g) (L := L)
    hHD hHsi hh hd hcot hRc hL hw B1 sop
  obtain ⟨b', hb'⟩ := loads_eval (disper := disper) (T := T) (HD := HD') (Hsi := Hsi) (β := β)
    (h := h) (d := d) (cot := cot) (ρ := ρ) (hacc := hacc) (Rc := Rc) (Bup := Bup) (g := g) (L := L)
    hHD' hHsi hh hd hcot hRc hL hw B1 sop
  refine ⟨_, _, _, _, _, _, _, _, _, _, _, _, _, _, _, _, hb, hb', rfl, rfl, rfl, rfl, rfl, rfl, rfl,
    rfl, rfl, rfl, rfl, rfl, rfl, rfl, ?_⟩
  have h1 := A1_bounds hh hL
  have hf : d ≤ h5 Hsi h cot := by
    unfold h5
    have : 0 ≤ Hsi * 5 / cot := by positivity
    linarith
  have h3 := A3_bounds (L := L) hh hacc0.le hacch
  have hq := cosh_pos_one (x := 2 * Real.pi * h / L)
  have ha1 : 0 < A1 h L := by linarith [h1.1]
  have ha3 : 0 < A3 hacc h L := by linarith [h3.1]
  have h1c : 0 ≤ 1 + cb β := by linarith [cb_ge β]
  generalize h5 Hsi h cot = f at *
  have hf0 : 0 < f := hd.trans_le hf
  have h2 := A2_nonneg hHD hd hf
  have h22 : A2 HD d f * HD ≤ A2 HD' d f * HD' := by
    unfold A2
    have e : 0 ≤ (f - d) / (3 * f) := div_nonneg (sub_nonneg.mpr hf) (by positivity)
    generalize (f - d) / (3 * f) = q at *
    rw [min_mul_of_nonneg _ _ hHD.le, min_mul_of_nonneg _ _ hHD'.le, div_mul_cancel₀ _ hHD.ne',
      div_mul_cancel₀ _ hHD'.ne']
    apply inf_le_inf_right
    gcongr
  generalize cb β = c at *
  generalize A1 h L = a1 at *
  generalize A2 HD d f = a2 at *
  generalize A2 HD' d f = a2' at *
  generalize A3 hacc h L = a3 at *
  have hp0 : 0 ≤ P1 c a1 a2 ρ g HD := by unfold P1; positivity
  have hp : P1 c a1 a2 ρ g HD ≤ P1 c a1 a2' ρ g HD' := by
    have e : ∀ a H : ℝ, P1 c a1 a ρ g H = 0.5 * (1 + c) * ρ * g * (a1 * H + (a * H) * c ^ 2) := by
      intro a H; unfold P1; generalize (0.5 : ℝ) = r; ring
    rw [e, e]; gcongr
  have hu : PU c a1 a3 ρ g HD ≤ PU c a1 a3 ρ g HD' := by unfold PU; gcongr
  have he : eta c HD ≤ eta c HD' := by unfold eta; gcongr
  have he0 : 0 ≤ eta c HD := by unfold eta; positivity
  generalize P1 c a1 a2' ρ g HD' = p' at *
  generalize P1 c a1 a2 ρ g HD = p at *
  generalize PU c a1 a3 ρ g HD' = u' at *
  generalize PU c a1 a3 ρ g HD = u at *
  have h4 := P4_mono hp0 hp he hRc
  have h40 := (P4_bounds (e := eta c HD) hp0 hRc).1
  have h3' : a3 * p ≤ a3 * p' := by gcongr
  refine ⟨hp, h3', hu, ?_, ?_, ?_, ?_⟩
  · exact FHr_mono hacc0.le hp0 h40 (le_min he0 hRc) hp h3' h4 (inf_le_inf_right Rc he)
  · gcongr
  · exact MHr_mono hacc0.le hp0 h40 (le_min he0 hRc) hp h3' h4 (inf_le_inf_right Rc he)
  · gcongr

example := C69_wave_height (disper := fun _ _ _ => .fin 0.1) (T := .fin 8) (B1 := .fin 1) (sop := .fin 1)
  (HD := 4) (Hsi := 2) (β := 20) (h := 8) (d := 5) (cot := 50) (ρ := 1025) (hacc := 6) (Rc := 3) (Bup := 15)
  (g := 9.81) (L := (2 * Real.pi / 0.1)) (HD' := 5) (by norm_num) (by norm_num) (by norm_num) (by norm_num)
  (by norm_num) (by norm_num) (by norm_num) (by norm_num) (by norm_num) (by norm_num) (by norm_num)
  (by norm_num) (by positivity)
  (by unfold CorePhysics.calculate_local_wavelength; dsimp only; rw [PF.ofNat_eq, show PF.pi = .fin Real.pi from rfl, PF.mul_fin, PF.div_fin (by norm_num)])
  (by norm_num)

end

/-- C36: the sign of the angle of incidence has no effect on loads, impulsive-breaking flag or
warnings, whatever the other arguments are -/
theorem C36_symmetric (disper : PF → PF → PF → PF)
    (HD Hsi T β h d B1 cot ρ hacc Rc Bup sop g : PF) :
    calculate_pressures_and_forces disper HD Hsi T (-β) h d B1 cot ρ hacc Rc Bup sop g =
    calculate_pressures_and_forces disper HD Hsi T β h d B1 cot ρ hacc Rc Bup sop g := by
  have : PF.abs (-β) = PF.abs β := by
    cases β with
    | fin x => rw [neg_fin, abs_fin, abs_fin, abs_neg]
    | _ => rfl
  unfold calculate_pressures_and_forces
  rw [this]

/-- C36: angles up to 15 degrees give the loads, flag and warnings of perpendicular waves -/
theorem C36_within_15 (disper : PF → PF → PF → PF) (β : ℝ) (hβ : |β| ≤ 15)
    (HD Hsi T h d B1 cot ρ hacc Rc Bup sop g : PF) :
    calculate_pressures_and_forces disper HD Hsi T (fin β) h d B1 cot ρ hacc Rc Bup sop g =
    calculate_pressures_and_forces disper HD Hsi T 0 h d B1 cot ρ hacc Rc Bup sop g := by
  have hb : bu β = bu 0 := by
    unfold bu
    simp only [abs_zero]
    split_ifs <;> linarith
  have hi : ∀ L, check_impulsive_breaking (fin |β|) B1 L cot sop Rc Hsi d h =
      check_impulsive_breaking (fin |0|) B1 L cot sop Rc Hsi d h := by
    intro L
    have e1 : (fin |β| < 20) ↔ (fin |0| < 20) := by
      rw [ofNat_eq, lt_fin, lt_fin, abs_zero]
      constructor <;> intro <;> linarith
    unfold check_impulsive_breaking
    simp only [List.mem_cons, forall_eq_or_imp, isnan_fin, e1]
  unfold calculate_pressures_and_forces
  simp only [zero_eq, abs_fin, beta_eval, pure_bind, hi, hb]

/-- C36: the reactions, safety factors and bearing pressure follow -/
theorem C36_reactions (disper : PF → PF → PF → PF) (β : ℝ)
    (HD Hsi T h d B1 cot ρ hacc Rc Bup ra rb sop muf tB g : PF) :
    (calculate_forces_and_reactions disper HD Hsi T (-fin β) h d B1 cot ρ hacc Rc Bup ra rb sop muf
      tB g).res =
    (calculate_forces_and_reactions disper HD Hsi T (fin β) h d B1 cot ρ hacc Rc Bup ra rb sop muf
      tB g).res ∧
    (|β| ≤ 15 → (calculate_forces_and_reactions disper HD Hsi T (fin β) h d B1 cot ρ hacc Rc Bup ra
      rb sop muf tB g).res =
    (calculate_forces_and_reactions disper HD Hsi T 0 h d B1 cot ρ hacc Rc Bup ra rb sop muf
      tB g).res) := by
  have key : ∀ β β' : PF,
      calculate_pressures_and_forces disper HD Hsi T β h d B1 cot ρ hacc Rc Bup sop g =
      calculate_pressures_and_forces disper HD Hsi T β' h d B1 cot ρ hacc Rc Bup sop g →
      (calculate_forces_and_reactions disper HD Hsi T β h d B1 cot ρ hacc Rc Bup ra rb sop muf
        tB g).res =
      (calculate_forces_and_reactions disper HD Hsi T β' h d B1 cot ρ hacc Rc Bup ra rb sop muf
        tB g).res := by
    intro β β' e
    have hv : ∀ b t, (check_validity_range (beta := b) (cota_seabed := cot) (Tmax := T) (tup := t)
        (Bup := Bup) (h_s := h)).res = .ok () := by
      intro b t
      unfold check_validity_range
      simp [check_bind_res]
    unfold calculate_forces_and_reactions
    rw [e]
    rcases calculate_pressures_and_forces disper HD Hsi T β' h d B1 cot ρ hacc Rc Bup sop g with
      ⟨w, e | l⟩
    · rfl
    · simp only [PyM.bind_ok]
      rw [PyM.bind_res_of_ok (hv _ _), PyM.bind_res_of_ok (hv _ _)]
  exact ⟨key _ _ (C36_symmetric ..), fun hβ => key _ _ (C36_within_15 disper β hβ ..)⟩

/-- C36 limit: without an angle the function raises UnboundLocalError -/
theorem C36_nan_raises (disper : PF → PF → PF → PF)
    (HD Hsi T h d B1 cot ρ hacc Rc Bup sop g : PF) :
    (calculate_pressures_and_forces disper HD Hsi T nan h d B1 cot ρ hacc Rc Bup sop g).res =
      .error .unboundLocal := by
  unfold calculate_pressures_and_forces
  have : rotate_angle (PF.abs nan) = PyM.raise .unboundLocal := by
    show rotate_angle nan = _
    unfold rotate_angle
    rw [if_neg (le_nan _), if_neg (nan_lt _)]
  simp only [this]
  rfl

namespace GodaProof

theorem bearing_eval {W t MH MU FU B : ℝ} (hWe : 0 < W - FU) (hMe : W * t - MU - MH ≠ 0)
    (hB : 0 < B) :
    calculate_bearing_pressures (fin W) (fin t) (fin MH) (fin MU) (fin FU) (fin B) =
      { pe := fin (if (W * t - MU - MH) / (W - FU) ≤ 1 / 3 * B then
          2 * (W - FU) / (3 * ((W * t - MU - MH) / (W - FU)))
          else 2 * (W - FU) / B * (2 - 3 * ((W * t - MU - MH) / (W - FU) / B)))
        Me := fin (W * t - MU - MH), We := fin (W - FU),
        te := fin ((W * t - MU - MH) / (W - FU)) } := by
  have h3 : 3 * ((W * t - MU - MH) / (W - FU)) ≠ 0 :=
    mul_ne_zero (by norm_num) (div_ne_zero hMe hWe.ne')
  unfold calculate_bearing_pressures
  have e1 : (fin W * fin t - fin MU - fin MH) = fin (W * t - MU - MH) := by pf_eval []
  have e2 : (fin W - fin FU) = fin (W - FU) := by pf_eval []
  rw [e1, e2]
  generalize W * t - MU - MH = M at *
  generalize W - FU = V at *
  simp only [div_fin hWe.ne']
  generalize M / V = q at *
  have e3 : (if fin q ≤ 1 / 3 * fin B then 2 * fin V / (3 * fin q)
      else 2 * fin V / fin B * (2 - 3 * (fin q / fin B))) =
      fin (if q ≤ 1 / 3 * B then 2 * V / (3 * q) else 2 * V / B * (2 - 3 * (q / B))) := by
    have e4 : fin q ≤ 1 / 3 * fin B ↔ q ≤ 1 / 3 * B := by pf_eval []
    by_cases hq : q ≤ 1 / 3 * B
    · rw [if_pos (e4.mpr hq), if_pos hq]; pf_eval []
    · rw [if_neg (fun h => hq (e4.mp h)), if_neg hq]; pf_eval []
  rw [e3]

/-- the bearing pressure balances a resultant `V` at distance `M / V` from the heel -/
theorem pe_balance {M V B : ℝ} (hV : 0 < V) (hM : 0 < M) (hB : 0 < B) (h2 : M / V ≤ 2 / 3 * B) :
    let pe := if M / V ≤ 1 / 3 * B then 2 * V / (3 * (M / V)) else 2 * V / B * (2 - 3 * (M / V / B))
    0 ≤ pe ∧ ∃ s : ℝ, (∫ x in (0 : ℝ)..B, Max.max 0 (pe + s * x)) = V ∧
      (∫ x in (0 : ℝ)..B, x * Max.max 0 (pe + s * x)) = M := by
  intro pe
  have hq : 0 < M / V := div_pos hM hV
  have hMq : M = M / V * V := by field_simp
  by_cases h : M / V ≤ 1 / 3 * B
  · have e : pe = 2 * V / (3 * (M / V)) := if_pos h
    rw [e]
    generalize M / V = q at *
    have hp : 0 ≤ 2 * V / (3 * q) := by positivity
    have hl : (0 : ℝ) < 3 * q := by positivity
    obtain ⟨i1, i2⟩ := int_tri hp hl (B := B) (by linarith)
    refine ⟨hp, _, i1.trans ?_, i2.trans ?_⟩
    · field_simp
    · rw [hMq]; field_simp; ring
  · have e : pe = 2 * V / B * (2 - 3 * (M / V / B)) := if_neg h
    rw [e]
    generalize M / V = q at *
    have hqB : q / B ≤ 2 / 3 := (div_le_iff₀ hB).mpr h2
    have hqB' : 1 / 3 < q / B := (lt_div_iff₀ hB).mpr (not_le.mp h)
    have hp : 0 ≤ 2 * V / B * (2 - 3 * (q / B)) :=
      mul_nonneg (by positivity) (by linarith)
    have hq' : 0 ≤ 2 * V / B * (3 * (q / B) - 1) :=
      mul_nonneg (by positivity) (by linarith)
    obtain ⟨i1, i2⟩ := int_trap hp hq' hB
    refine ⟨hp, _, i1.trans ?_, i2.trans ?_⟩
    · field_simp; ring
    · rw [hMq]; field_simp; ring

end GodaProof

section
variable (W t MH MU FU B : ℝ) (hWe : FU < W) (hB : 0 < B)
include hWe hB

/-- C37: the heel pressure is that of a linear contact pressure which is nowhere negative and whose
resultant and moment about the heel are the effective weight and moment returned with it, provided
the resultant acts within two thirds of the base from the heel (`te ≤ 2/3 Bup`) -/
theorem C37_balance_partial (hMe : MU + MH < W * t) (hte : W * t - MU - MH ≤ 2 / 3 * B * (W - FU)) :
    ∃ pe Me We : ℝ,
    (calculate_bearing_pressures (fin W) (fin t) (fin MH) (fin MU) (fin FU) (fin B)).pe = fin pe ∧
    (calculate_bearing_pressures (fin W) (fin t) (fin MH) (fin MU) (fin FU) (fin B)).Me = fin Me ∧
    (calculate_bearing_pressures (fin W) (fin t) (fin MH) (fin MU) (fin FU) (fin B)).We = fin We ∧
    We = W - FU ∧ Me = W * t - MU - MH ∧
    0 ≤ pe ∧ ∃ s : ℝ, (∫ x in (0 : ℝ)..B, Max.max 0 (pe + s * x)) = We ∧
      (∫ x in (0 : ℝ)..B, x * Max.max 0 (pe + s * x)) = Me := by
  have h1 : 0 < W - FU := sub_pos.mpr hWe
  have h2 : 0 < W * t - MU - MH := by linarith
  rw [bearing_eval h1 h2.ne' hB]
  refine ⟨_, _, _, rfl, rfl, rfl, rfl, rfl, ?_⟩
  exact pe_balance h1 h2 hB ((div_le_iff₀ h1).mpr hte)

/-- C37: the heel pressure is a continuous function of the effective moment, across the change from
triangle to trapezoid included -/
theorem C37_continuous : ∃ r : ℝ → ℝ, ContinuousOn r (Set.Ioi 0) ∧ ∀ MH : ℝ, MU + MH < W * t →
    (calculate_bearing_pressures (fin W) (fin t) (fin MH) (fin MU) (fin FU) (fin B)).pe =
      fin (r (W * t - MU - MH)) := by
  have h1 : 0 < W - FU := sub_pos.mpr hWe
  refine ⟨fun M => if M / (W - FU) ≤ 1 / 3 * B then 2 * (W - FU) / (3 * (M / (W - FU)))
          else 2 * (W - FU) / B * (2 - 3 * (M / (W - FU) / B)), ?_, fun MH h => ?_⟩
  · generalize W - FU = V at h1
    have e : ∀ M : ℝ, 0 < M → (if M / V ≤ 1 / 3 * B then 2 * V / (3 * (M / V))
          else 2 * V / B * (2 - 3 * (M / V / B))) =
        if M ≤ 1 / 3 * B * V then 2 * V / (3 * (M / V)) else 2 * V / B * (2 - 3 * (M / V / B)) := by
      intro M hM
      simp only [div_le_iff₀ h1]
    apply ContinuousOn.congr _ (fun M hM => e M hM)
    apply ContinuousOn.if
    · rintro M ⟨hM, hf⟩
      have hM' : M = 1 / 3 * B * V := by
        have := frontier_le_subset_eq (f := fun M : ℝ => M) (g := fun _ => 1 / 3 * B * V)
          continuous_id continuous_const hf
        exact this
      subst hM'
      field_simp
      norm_num
    · apply ContinuousOn.mono (s := Set.Ioi 0) _ Set.inter_subset_left
      apply ContinuousOn.div continuousOn_const (by fun_prop)
      intro x hx
      have : (0 : ℝ) < x := hx
      positivity
    · fun_prop
  · have h2 : 0 < W * t - MU - MH := by linarith
    rw [bearing_eval h1 h2.ne' hB]

example := C37_continuous (W := 500) (t := 1) (MU := 1) (FU := 100) (B := 4) (by norm_num) (by norm_num)

/-- C37 limit: a resultant further than two thirds of the base from the heel gives a negative
(tensile) heel pressure -/
theorem C37_beyond_refuted (hte : 2 / 3 * B * (W - FU) < W * t - MU - MH) : ∃ pe : ℝ, pe < 0 ∧
    (calculate_bearing_pressures (fin W) (fin t) (fin MH) (fin MU) (fin FU) (fin B)).pe = fin pe := by
  have h1 : 0 < W - FU := sub_pos.mpr hWe
  have h2 : 0 < W * t - MU - MH := lt_trans (by positivity) hte
  rw [bearing_eval h1 h2.ne' hB]
  refine ⟨_, ?_, rfl⟩
  have h3 : 2 / 3 * B < (W * t - MU - MH) / (W - FU) := (lt_div_iff₀ h1).mpr hte
  rw [if_neg (by linarith)]
  apply mul_neg_of_pos_of_neg (by positivity)
  have : 2 / 3 < (W * t - MU - MH) / (W - FU) / B := (lt_div_iff₀ hB).mpr h3
  linarith

example := C37_beyond_refuted (W := 500) (t := 12) (MH := 100) (MU := 100) (FU := 100) (B := 15)
  (by norm_num) (by norm_num) (by norm_num)

end

section
variable (disper : PF → PF → PF → PF) (T B1 sop : PF) (HD Hsi β h d cot ρ hacc Rc Bup g L : ℝ)
  (ra rb muf tB : ℝ)
  (hHD : 0 < HD) (hHsi : 0 ≤ Hsi) (hh : 0 < h) (hd : 0 < d) (hdh : d ≤ h) (hcot : 0 < cot)
  (hρ : 0 < ρ) (hg : 0 < g) (hacc0 : 0 < hacc) (hacch : hacc ≤ h) (hRc : 0 ≤ Rc) (hB : 0 < Bup)
  (hL : 0 < L) (hw : calculate_local_wavelength disper T (fin h) (fin g) = fin L)
  (hβ : |β| < 180)
include hHD hHsi hh hd hdh hcot hρ hg hacc0 hacch hRc hB hL hw hβ

/-- C70: the reactions fit together.  With the submerged weight `Wup` exceeding the uplift, the
safety factors are numbers; the safety factor against overturning exceeds one exactly when the
resultant meets the base (`te > 0`); and then, for a centre of gravity within two thirds of the base
from the heel, the heel pressure is non-negative and balances effective weight and moment.  When the
safety factor is below one the reported heel pressure is negative. -/
theorem C70_reactions : ∃ r : Reactions,
    (calculate_forces_and_reactions disper (fin HD) (fin Hsi) T (fin β) (fin h) (fin d) B1 (fin cot)
      (fin ρ) (fin hacc) (fin Rc) (fin Bup) (fin ra) (fin rb) sop (fin muf) (fin tB) (fin g)).res =
      .ok r ∧
    ∃ W FU FH MH MU S : ℝ, r.Wup = fin W ∧ r.loads.FU = fin FU ∧ r.loads.FH = fin FH ∧
      r.loads.MH = fin MH ∧ r.loads.MU = fin MU ∧ r.SF_overturning = fin S ∧
      W = ((rb - ρ) * hacc + ra * Rc) * Bup * g ∧
      r.SF_sliding = fin (muf * (W - FU) / FH) ∧
      S * MH = W * (tB * Bup) - MU ∧
      (FU < W → 1 < S → ∃ te : ℝ, r.bearing.te = fin te ∧ 0 < te ∧
        (tB ≤ 2 / 3 → ∃ pe : ℝ, r.bearing.pe = fin pe ∧ 0 ≤ pe ∧
          ∃ s : ℝ, (∫ x in (0 : ℝ)..Bup, Max.max 0 (pe + s * x)) = W - FU ∧
            (∫ x in (0 : ℝ)..Bup, x * Max.max 0 (pe + s * x)) =
              W * (tB * Bup) - MU - MH)) ∧
      (FU < W → S < 1 → ∃ te pe : ℝ, r.bearing.te = fin te ∧ te < 0 ∧ r.bearing.pe = fin pe ∧
        pe < 0) := by
  obtain ⟨l, hl, p1, p2, p3, p4, pu, FH, FU, MH, MU, -, -, -, -, e5, e6, e7, e8, e9, -, -, -, -, -,
    hpu, -, -, hFU0, -, -, hpos⟩ :=
    C35_pressures disper T B1 sop HD Hsi β h d cot ρ hacc Rc Bup g L hHD hHsi hh hd hdh hcot hρ hg
      hacc0 hacch hRc hB hL hw
  have hMU : MU = 2 / 3 * FU * Bup := by
    obtain ⟨b, hb⟩ := loads_eval (disper := disper) (T := T) (HD := HD) (Hsi := Hsi) (β := β)
      (h := h) (d := d) (cot := cot) (ρ := ρ) (hacc := hacc) (Rc := Rc) (Bup := Bup) (g := g)
      (L := L) hHD hHsi hh hd hcot hRc hL hw B1 sop
    rw [hb] at hl
    injection hl with hl
    subst hl
    simp only [fin_inj] at e7 e9
    rw [← e9, ← e7]
  obtain ⟨-, hFH, hMH, hFUp, hMUp⟩ := hpos hβ
  have hW : calculate_Wup (fin hacc) (fin Rc) (fin Bup) (fin rb) (fin ρ) (fin ra) (fin g) =
      fin ((hacc * (rb - ρ) + Rc * ra) * Bup * g) := by
    unfold calculate_Wup; pf_eval []
  have hv : ∀ b t, (check_validity_range (beta := b) (cota_seabed := fin cot) (Tmax := T) (tup := t)
        (Bup := fin Bup) (h_s := fin h)).res = .ok () := by
    intro b t
    unfold check_validity_range
    simp [check_bind_res]
  unfold calculate_forces_and_reactions
  rw [PyM.bind_res_of_ok hl]
  dsimp only
  rw [PyM.bind_res_of_ok (hv _ _)]
  refine ⟨_, rfl, (hacc * (rb - ρ) + Rc * ra) * Bup * g, FU, FH, MH, MU,
    ((hacc * (rb - ρ) + Rc * ra) * Bup * g * (tB * Bup) - MU) / MH, hW, e7, e6, e8, e9, ?_, by ring,
    ?_, by field_simp, ?_⟩
  · dsimp only
    rw [hW, e6, e7, e8, e9]
    unfold calculate_safety_factors
    pf_eval []
  · dsimp only
    rw [hW, e6, e7, e8, e9]
    unfold calculate_safety_factors
    pf_eval []
  dsimp only
  rw [hW, e7, e8, e9, mul_fin]
  generalize (hacc * (rb - ρ) + Rc * ra) * Bup * g = W
  refine ⟨fun hFW hS => ?_, fun hFW hS => ?_⟩
  · have h1 : 0 < W - FU := sub_pos.mpr hFW
    rw [one_lt_div hMH] at hS
    have h2 : 0 < W * (tB * Bup) - MU - MH := by linarith
    rw [bearing_eval h1 h2.ne' hB]
    refine ⟨_, rfl, div_pos h2 h1, fun ht => ⟨_, rfl, ?_⟩⟩
    refine pe_balance h1 h2 hB ((div_le_iff₀ h1).mpr ?_)
    have hW0 : 0 < W := hFUp.trans hFW
    have := mul_le_mul_of_nonneg_right ht (mul_pos hW0 hB).le
    rw [hMU]
    linarith
  · have h1 : 0 < W - FU := sub_pos.mpr hFW
    rw [div_lt_one hMH] at hS
    have h2 : W * (tB * Bup) - MU - MH < 0 := by linarith
    rw [bearing_eval h1 h2.ne hB]
    have h3 := div_neg_of_neg_of_pos h2 h1
    refine ⟨_, _, rfl, h3, rfl, ?_⟩
    rw [if_pos (h3.le.trans (by positivity))]
    exact div_neg_of_pos_of_neg (by positivity) (by linarith)

example := C70_reactions (disper := fun _ _ _ => .fin 0.1) (T := .fin 8) (B1 := .fin 1) (sop := .fin 1)
  (HD := 4) (Hsi := 2) (β := 20) (h := 8) (d := 5) (cot := 50) (ρ := 1025) (hacc := 6) (Rc := 3) (Bup := 15)
  (g := 9.81) (L := (2 * Real.pi / 0.1)) (ra := 2650) (rb := 1900) (muf := 0.6) (tB := 12) (by norm_num)
  (by norm_num) (by norm_num) (by norm_num) (by norm_num) (by norm_num) (by norm_num) (by norm_num)
  (by norm_num) (by norm_num) (by norm_num) (by norm_num) (by positivity)
  (by unfold CorePhysics.calculate_local_wavelength; dsimp only; rw [PF.ofNat_eq, show PF.pi = .fin Real.pi from rfl, PF.mul_fin, PF.div_fin (by norm_num)])
  (by norm_num)

end

/-- C71: impulsive breaking is reported by exactly one warning when the flag is set, and by none when
it is not -/
theorem C71_flag_iff_warning (beta B1 L cot sop Rc Hsi d h : PF) :
    ∃ b : Bool, (check_impulsive_breaking beta B1 L cot sop Rc Hsi d h).res = .ok b ∧
      (check_impulsive_breaking beta B1 L cot sop Rc Hsi d h).warns.length = if b then 1 else 0 := by
  unfold check_impulsive_breaking
  have h1 : ∀ n f, CoreUtility.check_variable_validity_range n f 1 0 0 =
      ⟨[.range n f 1 0 0], .ok [false]⟩ := by
    intro n f
    rw [C01_scalar, if_pos]
    right
    show (0 : PF) < 1
    rw [zero_eq, one_eq, lt_fin]; norm_num
  split
  · exact ⟨true, by simp [h1], by simp [h1]⟩
  · split
    · exact ⟨true, by simp [h1], by simp [h1]⟩
    · exact ⟨false, by simp, by simp⟩

/-- C71: exactly when waves are flagged as breaking impulsively -/
theorem C71_flag_iff (β B1 L cot sop Rc Hsi d h : ℝ) (hL : 0 < L) (hHsi : 0 < Hsi) (hh : 0 < h) :
    (check_impulsive_breaking (fin β) (fin B1) (fin L) (fin cot) (fin sop) (fin Rc) (fin Hsi)
      (fin d) (fin h)).res = .ok true ↔
    β < 20 ∧ 0.3 * Hsi < Rc ∧ ((B1 < 0.02 * L ∧ cot < 50 ∧ sop < 0.03) ∨
      (0.02 * L < B1 ∧ B1 < 0.3 * L ∧ d < 0.6 * h)) := by
  unfold check_impulsive_breaking
  have h1 : ∀ n f, CoreUtility.check_variable_validity_range n f 1 0 0 =
      ⟨[.range n f 1 0 0], .ok [false]⟩ := by
    intro n f
    rw [C01_scalar, if_pos]
    right
    show (0 : PF) < 1
    rw [zero_eq, one_eq, lt_fin]; norm_num
  simp only [List.mem_cons, forall_eq_or_imp, isnan_fin, not_false_eq_true, true_and,
    List.not_mem_nil, false_imp_iff, implies_true, ofNat_eq, sci_eq, div_fin hL.ne', div_fin hHsi.ne',
    div_fin hh.ne', lt_fin, gt_iff_lt, div_lt_iff₀ hL, lt_div_iff₀ hL, lt_div_iff₀ hHsi,
    div_lt_iff₀ hh, h1, PyM.bind_ok, PyM.pure_def]
  split_ifs with c1 c2
  · simp only [true_iff]
    exact ⟨c1.1, c1.2.2.2.2, Or.inl ⟨c1.2.1, c1.2.2.1, c1.2.2.2.1⟩⟩
  · simp only [true_iff]
    exact ⟨c2.1, c2.2.2.2.2, Or.inr ⟨c2.2.1, c2.2.2.1, c2.2.2.2.1⟩⟩
  · simp only [Except.ok.injEq, Bool.false_eq_true, false_iff]
    rintro ⟨a, b, ⟨c, d, e⟩ | ⟨c, d, e⟩⟩
    · exact c1 ⟨a, c, d, e, b⟩
    · exact c2 ⟨a, c, d, e, b⟩

/-- C71 limit: a berm of exactly 2 % of the wavelength is never flagged -/
theorem C71_boundary_gap (β L cot sop Rc Hsi d h : ℝ) (hL : 0 < L) (hHsi : 0 < Hsi) (hh : 0 < h) :
    (check_impulsive_breaking (fin β) (fin (0.02 * L)) (fin L) (fin cot) (fin sop) (fin Rc) (fin Hsi)
      (fin d) (fin h)).res ≠ .ok true := by
  rw [Ne, C71_flag_iff β _ L cot sop Rc Hsi d h hL hHsi hh]
  rintro ⟨-, -, ⟨h, -⟩ | ⟨h, -⟩⟩ <;> exact lt_irrefl _ h

example := C71_boundary_gap (β := 20) (L := 60) (cot := 50) (sop := 1) (Rc := 3) (Hsi := 2) (d := 5)
  (h := 8) (by norm_num) (by norm_num) (by norm_num)

/-- C71 limit: when the offshore steepness is left out (its default), a narrow berm is never
flagged -/
theorem C71_default_steepness (β B1 L cot Rc Hsi d h : ℝ) (hL : 0 < L) (hB1 : B1 < 0.02 * L) :
    check_impulsive_breaking (fin β) (fin B1) (fin L) (fin cot) (Rc := fin Rc) (Hsi := fin Hsi)
      (d := fin d) (h_s := fin h) = pure false := by
  unfold check_impulsive_breaking
  rw [if_neg (by simp), if_neg]
  rintro ⟨-, -, h2, -⟩
  rw [sci_eq, div_fin hL.ne', lt_fin, lt_div_iff₀ hL] at h2
  linarith

-- a caisson in 10 m of water under 6 m waves, with a dispersion solver returning a 100 m wave
example : ∃ l : Loads, (calculate_pressures_and_forces (fun _ _ _ => 2 * PF.pi / 100) (fin 6) (fin 3.5)
    10 (fin 20) (fin 10) (fin 7) 3 (fin 50) (fin 1025) (fin 8) (fin 4) (fin 15) nan (fin 9.81)).res =
      .ok l ∧ ∃ p1, l.p1 = fin p1 ∧ 0 < p1 := by
  have hw : calculate_local_wavelength (fun _ _ _ => 2 * PF.pi / 100) 10 (fin 10) (fin 9.81) =
      fin 100 := by
    unfold calculate_local_wavelength
    have := Real.pi_pos
    pf_eval []
    field_simp
  obtain ⟨l, hl, p1, _, _, _, _, _, _, _, _, e, -, -, -, -, -, -, -, -, -, -, -, -, -, -, -, -, -, -,
    -, hp⟩ := C35_pressures (fun _ _ _ => 2 * PF.pi / 100) 10 3 nan 6 3.5 20 10 7 50 1025 8 4 15 9.81 100
      (by norm_num) (by norm_num) (by norm_num) (by norm_num) (by norm_num) (by norm_num)
      (by norm_num) (by norm_num) (by norm_num) (by norm_num) (by norm_num) (by norm_num)
      (by norm_num) hw
  exact ⟨l, hl, p1, e, (hp (by norm_num)).1⟩

-- triangle: resultant at 2.5 m of a 15 m base
example : ∃ pe : ℝ, 0 ≤ pe ∧
    (calculate_bearing_pressures (fin 1000) (fin 7.5) (fin 3000) (fin 2000) (fin 0) (fin 15)).pe =
      fin pe := by
  obtain ⟨pe, _, _, h, -, -, -, -, h0, -⟩ := C37_balance_partial 1000 7.5 3000 2000 0 15 (by norm_num)
    (by norm_num) (by norm_num) (by norm_num)
  exact ⟨pe, h0, h⟩

example : (check_impulsive_breaking (fin 10) (fin 10) (fin 100) (fin 30) (fin 0.02) (fin 2) (fin 4)
    (fin 5) (fin 10)).res = .ok true := by
  rw [C71_flag_iff _ _ _ _ _ _ _ _ _ (by norm_num) (by norm_num) (by norm_num)]
  norm_num

end
