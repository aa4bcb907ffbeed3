import Verif.Lemmas.Etemad
import Verif.Lemmas.Contraction

/-! # Properties C21 and C22: Etemad-Shahidi et al. 2020 -/

open Classical
open PF
open CorePhysics
noncomputable section
open Etemad2020
open EtemadProof
open VdMProof (xi xi_pos xi_anti)

namespace EtemadProof

section
variable {T N c De D C I : ℝ} (hT : 0 < T) (hN : 0 < N) (hc : 0 < c) (hDe : 0 < De) (hD : 0 < D)
  (hC : 0 < C) (hI : 0 < I)
include hT hN hc hDe hD hC hI

theorem xi_lt_iff {H H' : ℝ} (hH : 0 < H) (hH' : 0 < H') : xi H T c < xi H' T c ↔ H' < H := by
  constructor
  · intro h
    by_contra hh
    rcases (not_lt.mp hh).lt_or_eq with h1 | h1
    · have := xi_anti hH h1 hT hc; linarith
    · rw [h1] at h; exact lt_irrefl _ h
  · intro h; exact xi_anti hH' h hT hc

theorem Hsu_Ssu {H : ℝ} (hH : 0 < H) : Hsu T N c De D C I (Ssu H T N c De D C I) = H := by
  obtain ⟨a, b⟩ := Ssu_Hsu hT hN hc hDe hD hC hI (Ssu_pos hT hN hc hDe hD hC hI hH)
  rcases lt_trichotomy (Hsu T N c De D C I (Ssu H T N c De D C I)) H with h | h | h
  · have := Ssu_lt hT hN hc hDe hD hC hI a h; linarith
  · exact h
  · have := Ssu_lt hT hN hc hDe hD hC hI hH h; linarith

theorem Hpl_Spl {H : ℝ} (hH : 0 < H) : Hpl T N c De D C I (Spl H T N c De D C I) = H := by
  obtain ⟨a, b⟩ := Spl_Hpl hT hN hc hDe hD hC hI (Spl_pos hT hN hc hDe hD hC hI hH)
  rcases lt_trichotomy (Hpl T N c De D C I (Spl H T N c De D C I)) H with h | h | h
  · have := Spl_lt hT hN hc hDe hD hC hI a h; linarith
  · exact h
  · have := Spl_lt hT hN hc hDe hD hC hI hH h; linarith

theorem Sd_pos {H : ℝ} (hH : 0 < H) : 0 < Sd H T N c De D C I := by
  unfold Sd; split_ifs
  · exact Ssu_pos hT hN hc hDe hD hC hI hH
  · exact Spl_pos hT hN hc hDe hD hC hI hH

/-- in the plunging regime the surging expression is at most 1.024 … of the other -/
theorem Spl_le {H : ℝ} (hH : 0 < H) (h : xi H T c ≤ 1.8) :
    Spl H T N c De D C I < 1.024 * Ssu H T N c De D C I := by
  have hx := xi_pos hH hT hc
  rw [Spl_ratio hx]
  have h1 := Real.rpow_le_rpow hx.le h (by norm_num : (0 : ℝ) ≤ 1.5)
  have h2 := jump_bounds.2
  have h3 := Ssu_pos hT hN hc hDe hD hC hI hH
  refine mul_lt_mul_of_pos_right (lt_of_le_of_lt ?_ h2) h3
  exact mul_le_mul_of_nonneg_left h1 (by positivity)

/-- in the surging regime the plunging expression is larger -/
theorem Ssu_lt_Spl {H : ℝ} (hH : 0 < H) (h : 1.8 ≤ xi H T c) :
    Ssu H T N c De D C I < Spl H T N c De D C I := by
  have hx := xi_pos hH hT hc
  rw [Spl_ratio hx]
  have h1 := Real.rpow_le_rpow (by norm_num) h (by norm_num : (0 : ℝ) ≤ 1.5)
  have h2 := jump_bounds.1
  have h3 := Ssu_pos hT hN hc hDe hD hC hI hH
  have h4 : (3.9 / 4.5 : ℝ) ^ (6.0 : ℝ) * 1.8 ^ (1.5 : ℝ) ≤ (3.9 / 4.5 : ℝ) ^ (6.0 : ℝ) *
      xi H T c ^ (1.5 : ℝ) := mul_le_mul_of_nonneg_left h1 (by positivity)
  have h5 : 1 < (3.9 / 4.5 : ℝ) ^ (6.0 : ℝ) * xi H T c ^ (1.5 : ℝ) := lt_of_lt_of_le h2 h4
  exact lt_mul_of_one_lt_left h3 h5

theorem Hd_Sd {H : ℝ} (hH : 0 < H) : Hd T N c De D C I (Sd H T N c De D C I) = H := by
  obtain ⟨Hc, hHc, exc⟩ := exists_crit (T := T) (c := c) hT hN hc hDe hD hC hI
  unfold Sd
  split_ifs with h
  · unfold Hd
    rw [Hsu_Ssu hT hN hc hDe hD hC hI hH, if_neg (fun h2 => absurd h2.2 (not_lt.mpr h))]
  · have h := not_le.mp h
    unfold Hd
    rw [Hpl_Spl hT hN hc hDe hD hC hI hH, if_pos]
    refine ⟨h, ?_⟩
    have hS := Spl_pos hT hN hc hDe hD hC hI hH
    obtain ⟨a, b⟩ := Ssu_Hsu hT hN hc hDe hD hC hI hS
    rw [← exc] at h ⊢
    rw [xi_lt_iff hT hN hc hDe hD hC hI hH hHc] at h
    rw [xi_lt_iff hT hN hc hDe hD hC hI a hHc]
    -- the surging height for this damage exceeds the critical one
    by_contra hcon
    have h1 : Ssu (Hsu T N c De D C I (Spl H T N c De D C I)) T N c De D C I ≤
        Ssu Hc T N c De D C I := by
      rcases (not_lt.mp hcon).lt_or_eq with h2 | h2
      · exact (Ssu_lt hT hN hc hDe hD hC hI a h2).le
      · rw [h2]
    rw [b] at h1
    have h2 := Spl_lt hT hN hc hDe hD hC hI hHc h
    have h3 := Ssu_lt_Spl hT hN hc hDe hD hC hI hHc exc.ge
    linarith

theorem Sd_Hd {S : ℝ} (hS : 0 < S) : 0 < Hd T N c De D C I S ∧
    S ≤ Sd (Hd T N c De D C I S) T N c De D C I ∧
      Sd (Hd T N c De D C I S) T N c De D C I < 1.024 * S := by
  obtain ⟨Hc, hHc, exc⟩ := exists_crit (T := T) (c := c) hT hN hc hDe hD hC hI
  obtain ⟨a, b⟩ := Ssu_Hsu hT hN hc hDe hD hC hI hS
  obtain ⟨a', b'⟩ := Spl_Hpl hT hN hc hDe hD hC hI hS
  have ex : S < 1.024 * S := by linarith
  unfold Hd
  split_ifs with h
  · refine ⟨a', ?_⟩
    unfold Sd
    rw [if_neg (not_le.mpr h.1), b']
    exact ⟨le_rfl, ex⟩
  · refine ⟨a, ?_⟩
    unfold Sd
    split_ifs with h2
    · rw [b]; exact ⟨le_rfl, ex⟩
    · have h2 := not_le.mp h2
      have h3 : 1.8 ≤ xi (Hpl T N c De D C I S) T c := by
        by_contra h4; exact h ⟨not_le.mp h4, h2⟩
      constructor
      · -- Hpl ≤ Hc < Hsu
        have h5 : Hpl T N c De D C I S < Hsu T N c De D C I S := by
          rw [← xi_lt_iff hT hN hc hDe hD hC hI a a']; linarith
        have := Spl_lt hT hN hc hDe hD hC hI a' h5
        linarith
      · have := Spl_le hT hN hc hDe hD hC hI a h2.le
        rwa [b] at this

end
end EtemadProof

section
variable (T N c ra D Dc : ℝ) (m : PF) (b : Bool) (M Mc rc : PF) (hT : 0 < T) (hN : 0 < N)
  (hc : 0 < c) (hr : 1025 < ra) (hD : 0 < D) (hDc : 0 ≤ Dc)
  (hm : b = true → ∃ x : ℝ, x < 1 / 3 ∧ m = fin x)
include hT hN hc hr hD hDc hm

/-- C21: the wave height allowed for the damage predicted at a wave height is that wave height, in
water of 1025 kg/m³ -/
theorem C21_height_of_damage (H : ℝ) (hH : 0 < H) : ∃ S : ℝ, 0 < S ∧
    (calculate_damage_number_S (fin H) (fin T) (fin N) (fin c) (fin ra) (fin D) M (fin Dc) Mc rc
      (fin 1025) m b).res = .ok (fin S) ∧
    (calculate_significant_wave_height_Hs (fin T) (fin N) (fin c) (fin ra) (fin S) (fin D) M
      (fin Dc) Mc rc m b).res = .ok (fin H) := by
  obtain ⟨I, hI, e⟩ := dep_eval hm
  have hDe : 0 < (ra - 1025) / 1025 := div_pos (sub_pos.mpr hr) (by norm_num)
  have hC := cp_pos hD hDc
  have hp := Sd_pos hT hN hc hDe hD hC hI hH
  refine ⟨_, hp, S_eval M Mc rc hT hN hc (by norm_num) hr hD hDc hI e hH, ?_⟩
  rw [H_eval M Mc rc hT hN hc hr hD hDc hI e hp, Hd_Sd hT hN hc hDe hD hC hI hH]

example := C21_height_of_damage (T := 8) (N := 3000) (c := 2) (ra := 2650) (D := 1) (Dc := 0.3)
  (m := .fin 0.02) (b := true) (M := .fin 5000) (Mc := .fin 10) (rc := .fin 2650) (H := 2) (by norm_num)
  (by norm_num) (by norm_num) (by norm_num) (by norm_num) (by norm_num) (by norm_num) (by norm_num)

/-- C21: the damage at the wave height allowed for a damage level that occurs at all is that
level, in water of 1025 kg/m³ -/
theorem C21_damage_of_height (H S : ℝ) (hH : 0 < H)
    (hS : (calculate_damage_number_S (fin H) (fin T) (fin N) (fin c) (fin ra) (fin D) M (fin Dc) Mc
      rc (fin 1025) m b).res = .ok (fin S)) : ∃ H' : ℝ, 0 < H' ∧
    (calculate_significant_wave_height_Hs (fin T) (fin N) (fin c) (fin ra) (fin S) (fin D) M
      (fin Dc) Mc rc m b).res = .ok (fin H') ∧
    (calculate_damage_number_S (fin H') (fin T) (fin N) (fin c) (fin ra) (fin D) M (fin Dc) Mc
      rc (fin 1025) m b).res = .ok (fin S) := by
  obtain ⟨S', hS', h1, h2⟩ := C21_height_of_damage T N c ra D Dc m b M Mc rc hT hN hc hr hD hDc hm
    H hH
  rw [h1, Except.ok.injEq, fin_inj] at hS
  subst hS
  exact ⟨H, hH, h2, h1⟩

/-- C21, for every damage level: the full claim would be `S' = S`. The formula jumps by 2.3 % where
the surging and plunging branches meet, so what holds is that the damage is never less than the
requested level and exceeds it by less than 2.4 %. -/
theorem C21_damage_of_height_partial (S : ℝ) (hS : 0 < S) : ∃ H S' : ℝ, 0 < H ∧
    (calculate_significant_wave_height_Hs (fin T) (fin N) (fin c) (fin ra) (fin S) (fin D) M
      (fin Dc) Mc rc m b).res = .ok (fin H) ∧
    (calculate_damage_number_S (fin H) (fin T) (fin N) (fin c) (fin ra) (fin D) M (fin Dc) Mc
      rc (fin 1025) m b).res = .ok (fin S') ∧ S ≤ S' ∧ S' < 1.024 * S := by
  obtain ⟨I, hI, e⟩ := dep_eval hm
  have hDe : 0 < (ra - 1025) / 1025 := div_pos (sub_pos.mpr hr) (by norm_num)
  have hC := cp_pos hD hDc
  obtain ⟨h1, h2, h3⟩ := Sd_Hd hT hN hc hDe hD hC hI hS
  exact ⟨_, _, h1, H_eval M Mc rc hT hN hc hr hD hDc hI e hS,
    S_eval M Mc rc hT hN hc (by norm_num) hr hD hDc hI e h1, h2, h3⟩

example := C21_damage_of_height_partial (T := 8) (N := 3000) (c := 2) (ra := 2650) (D := 1) (Dc := 0.3)
  (m := .fin 0.02) (b := true) (M := .fin 5000) (Mc := .fin 10) (rc := .fin 2650) (S := 2) (by norm_num)
  (by norm_num) (by norm_num) (by norm_num) (by norm_num) (by norm_num) (by norm_num) (by norm_num)

/-- C21 limit: for every configuration there are damage levels for which the allowed wave height
gives more damage than requested -/
theorem C21_gap_refuted : ∃ S H S' : ℝ, 0 < S ∧ 0 < H ∧
    (calculate_significant_wave_height_Hs (fin T) (fin N) (fin c) (fin ra) (fin S) (fin D) M
      (fin Dc) Mc rc m b).res = .ok (fin H) ∧
    (calculate_damage_number_S (fin H) (fin T) (fin N) (fin c) (fin ra) (fin D) M (fin Dc) Mc
      rc (fin 1025) m b).res = .ok (fin S') ∧ S < S' := by
  obtain ⟨I, hI, e⟩ := dep_eval hm
  have hDe : 0 < (ra - 1025) / 1025 := div_pos (sub_pos.mpr hr) (by norm_num)
  have hC := cp_pos hD hDc
  obtain ⟨Hc, hHc, exc⟩ := exists_crit (T := T) (c := c) hT hN hc hDe hD hC hI
  -- the plunging damage at the boundary is never attained by the damage function
  have hS := Spl_pos hT hN hc hDe hD hC hI hHc
  obtain ⟨h1, h2, h3⟩ := Sd_Hd hT hN hc hDe hD hC hI hS
  refine ⟨_, _, _, hS, h1, H_eval M Mc rc hT hN hc hr hD hDc hI e hS,
    S_eval M Mc rc hT hN hc (by norm_num) hr hD hDc hI e h1, lt_of_le_of_ne h2 fun h4 => ?_⟩
  generalize Hd T N c ((ra - 1025) / 1025) D (cp D Dc) I (Spl Hc T N c ((ra - 1025) / 1025) D
    (cp D Dc) I) = H at h1 h4
  unfold Sd at h4
  split_ifs at h4 with h5
  · -- surging: H ≤ Hc, so the damage is below
    have h6 : H ≤ Hc := by
      by_contra h7
      have := xi_anti hHc (not_le.mp h7) hT hc
      linarith
    have h7 : Ssu H T N c ((ra - 1025) / 1025) D (cp D Dc) I ≤
        Ssu Hc T N c ((ra - 1025) / 1025) D (cp D Dc) I := by
      rcases h6.lt_or_eq with h8 | h8
      · exact (Ssu_lt hT hN hc hDe hD hC hI h1 h8).le
      · rw [h8]
    have := Ssu_lt_Spl hT hN hc hDe hD hC hI hHc exc.ge
    linarith
  · have h5 := not_le.mp h5
    rw [← exc, xi_lt_iff hT hN hc hDe hD hC hI h1 hHc] at h5
    have := Spl_lt hT hN hc hDe hD hC hI hHc h5
    linarith

example := C21_gap_refuted (T := 8) (N := 3000) (c := 2) (ra := 2650) (D := 1) (Dc := 0.3) (m := .fin 0.02)
  (b := true) (M := .fin 5000) (Mc := .fin 10) (rc := .fin 2650) (by norm_num) (by norm_num) (by norm_num)
  (by norm_num) (by norm_num) (by norm_num) (by norm_num)

/-- C21 limit: the wave height function fixes the water density at 1025 kg/m³; in any other water the
round trip from a wave height never returns it -/
theorem C21_water_density_refuted (H rw : ℝ) (hH : 0 < H) (hw : 0 < rw) (hrw : rw < ra)
    (hne : rw ≠ 1025) : ∃ S H' : ℝ, 0 < S ∧ 0 < H' ∧
    (calculate_damage_number_S (fin H) (fin T) (fin N) (fin c) (fin ra) (fin D) M (fin Dc) Mc rc
      (fin 1025) m b).res = .ok (fin S) ∧
    (calculate_significant_wave_height_Hs (fin T) (fin N) (fin c) (fin ra) (fin S) (fin D) M
      (fin Dc) Mc rc m b).res = .ok (fin H') ∧
    (calculate_damage_number_S (fin H') (fin T) (fin N) (fin c) (fin ra) (fin D) M (fin Dc) Mc rc
      (fin rw) m b).res ≠ .ok (fin S) := by
  obtain ⟨S, hS, h1, h2⟩ := C21_height_of_damage T N c ra D Dc m b M Mc rc hT hN hc hr hD hDc hm
    H hH
  refine ⟨S, H, hS, hH, h1, h2, ?_⟩
  obtain ⟨I, hI, e⟩ := dep_eval hm
  have hDe : 0 < (ra - 1025) / 1025 := div_pos (sub_pos.mpr hr) (by norm_num)
  have hDe' : 0 < (ra - rw) / rw := div_pos (sub_pos.mpr hrw) hw
  have hC := cp_pos hD hDc
  have hx := xi_pos hH hT hc
  rw [S_eval M Mc rc hT hN hc (by norm_num) hr hD hDc hI e hH, Except.ok.injEq, fin_inj] at h1
  rw [S_eval M Mc rc hT hN hc hw hrw hD hDc hI e hH, ne_eq, Except.ok.injEq, fin_inj, ← h1]
  have hdd : (ra - rw) / rw ≠ (ra - 1025) / 1025 := by
    intro h2
    rw [div_eq_div_iff hw.ne' (by norm_num)] at h2
    have : ra * (1025 - rw) = 0 := by linarith
    rcases mul_eq_zero.mp this with h3 | h3
    · linarith
    · exact hne (by linarith)
  have key : ∀ a b : ℝ, 0 < a → a < b → Sd H T N c b D (cp D Dc) I < Sd H T N c a D (cp D Dc) I := by
    intro a b ha hab
    have hb := ha.trans hab
    have h3 : (H / (b * D)) ^ (6.0 : ℝ) < (H / (a * D)) ^ (6.0 : ℝ) := by
      refine Real.rpow_lt_rpow (by positivity) ?_ (by norm_num)
      gcongr
    unfold Sd
    split_ifs
    · unfold Ssu
      gcongr
    · unfold Spl
      gcongr
  rcases lt_or_gt_of_ne hdd with h | h
  · have := key _ _ hDe' h; exact this.ne'
  · have := key _ _ hDe h; exact this.ne

end

/-- the hypotheses of the C21 theorems are met by an ordinary breakwater, with and without the
depth-limited version, with a permeable and an impermeable core -/
example : ∃ (T N c ra D : ℝ), 0 < T ∧ 0 < N ∧ 0 < c ∧ 1025 < ra ∧ 0 < D ∧
    ∀ b : Bool, b = true → ∃ x : ℝ, x < 1 / 3 ∧ fin 0.02 = fin x :=
  ⟨10, 3000, 2, 2650, 1.2, by norm_num, by norm_num, by norm_num, by norm_num, by norm_num,
    fun _ _ => ⟨0.02, by norm_num, rfl⟩⟩

namespace EtemadProof

theorem cp_mono {x y Dc : ℝ} (hx : 0 < x) (h : x ≤ y) (hDc : 0 ≤ Dc) :
    cp y Dc ≤ cp x Dc ∧ cp x Dc ≤ (y / x) ^ (0.18 : ℝ) * cp y Dc := by
  have hy := lt_of_lt_of_le hx h
  have h1 : (Dc / y) ^ (3.0 / 10.0 : ℝ) ≤ (Dc / x) ^ (3.0 / 10.0 : ℝ) := by
    refine Real.rpow_le_rpow (by positivity) ?_ (by norm_num)
    gcongr
  unfold cp
  refine ⟨Real.rpow_le_rpow (cp_base hy hDc).le (by linarith) (by norm_num), ?_⟩
  have hr : 1 ≤ y / x := (one_le_div hx).mpr h
  have hr3 : 1 ≤ (y / x) ^ (3.0 / 10.0 : ℝ) := Real.one_le_rpow hr (by norm_num)
  have e : (Dc / x) ^ (3.0 / 10.0 : ℝ) = (y / x) ^ (3.0 / 10.0 : ℝ) * (Dc / y) ^ (3.0 / 10.0 : ℝ) := by
    rw [← Real.mul_rpow (by positivity) (by positivity)]
    congr 1; field_simp
  have e2 : (y / x) ^ (0.18 : ℝ) = ((y / x) ^ (3.0 / 10.0 : ℝ)) ^ (3.0 / 5.0 : ℝ) := by
    rw [← Real.rpow_mul (by positivity)]; norm_num
  rw [e, e2, ← Real.mul_rpow (by positivity) (cp_base hy hDc).le]
  refine Real.rpow_le_rpow (by positivity) ?_ (by norm_num)
  linarith

theorem cp_log {x y Dc : ℝ} (hx : 0 < x) (hy : 0 < y) (hDc : 0 ≤ Dc) :
    |Real.log (cp x Dc) - Real.log (cp y Dc)| ≤ 0.18 * |Real.log x - Real.log y| := by
  have key : ∀ x y : ℝ, 0 < x → x ≤ y →
      |Real.log (cp x Dc) - Real.log (cp y Dc)| ≤ 0.18 * |Real.log x - Real.log y| := by
    intro x y hx h
    have hy := lt_of_lt_of_le hx h
    obtain ⟨h1, h2⟩ := cp_mono hx h hDc
    have c1 := cp_pos hx hDc
    have c2 := cp_pos hy hDc
    have h3 := Real.log_le_log c2 h1
    have h4 := Real.log_le_log c1 h2
    rw [Real.log_mul (by positivity) c2.ne', Real.log_rpow (by positivity),
      Real.log_div hy.ne' hx.ne'] at h4
    have h5 := Real.log_le_log hx h
    rw [abs_of_nonneg (by linarith), abs_sub_comm, abs_of_nonneg (by linarith)]
    linarith
  rcases le_total x y with h | h
  · exact key x y hx h
  · rw [abs_sub_comm, abs_sub_comm (Real.log x)]; exact key y x hy h

/-- one pass of the size iteration -/
def Fit (K Dc x : ℝ) : ℝ := K / cp x Dc

theorem Fit_pos {K Dc x : ℝ} (hK : 0 < K) (hDc : 0 ≤ Dc) (hx : 0 < x) : 0 < Fit K Dc x :=
  div_pos hK (cp_pos hx hDc)

theorem Fit_log {K Dc x y : ℝ} (hK : 0 < K) (hDc : 0 ≤ Dc) (hx : 0 < x) (hy : 0 < y) :
    |Real.log (Fit K Dc x) - Real.log (Fit K Dc y)| ≤ 0.18 * |Real.log x - Real.log y| := by
  unfold Fit
  rw [Real.log_div hK.ne' (cp_pos hx hDc).ne', Real.log_div hK.ne' (cp_pos hy hDc).ne']
  have := cp_log hx hy hDc
  rw [abs_sub_comm] at this
  convert this using 2; ring

section loop
variable (st : LoopState → LoopState) (K Dc C0 : ℝ) (hK : 0 < K) (hDc : 0 ≤ Dc) (hC0 : 0 < C0)
  (hst : ∀ d pr o (C : ℝ), 0 < C → st ⟨d, pr, fin C, o⟩ = ⟨PF.abs (fin (K / C) - pr), fin (K / C),
    fin (cp (K / C) Dc), some (fin (K / C))⟩)
include hK hDc hC0 hst

theorem it_pos (j : ℕ) : 0 < (Fit K Dc)^[j] (K / C0) := by
  induction j with
  | zero => exact div_pos hK hC0
  | succ j ih => rw [Function.iterate_succ_apply']; exact Fit_pos hK hDc ih

theorem it_state (j : ℕ) : ∃ d, st^[j + 1] ⟨pinf, pinf, fin C0, none⟩ =
      ⟨d, fin ((Fit K Dc)^[j] (K / C0)), fin (cp ((Fit K Dc)^[j] (K / C0)) Dc),
        some (fin ((Fit K Dc)^[j] (K / C0)))⟩ ∧
      (j = 0 → d = pinf) ∧
      ∀ i, j = i + 1 → d = fin |(Fit K Dc)^[i + 1] (K / C0) - (Fit K Dc)^[i] (K / C0)| := by
  induction j with
  | zero =>
    refine ⟨pinf, ?_, fun _ => rfl, fun i h => by omega⟩
    simp only [zero_add, Function.iterate_one, Function.iterate_zero, id]
    rw [hst _ _ _ _ hC0]
    rfl
  | succ j ih =>
    obtain ⟨d, e, -, -⟩ := ih
    rw [Function.iterate_succ_apply', e, hst _ _ _ _ (cp_pos (it_pos st K Dc C0 hK hDc hC0 hst j) hDc)]
    have e2 : K / cp ((Fit K Dc)^[j] (K / C0)) Dc = (Fit K Dc)^[j + 1] (K / C0) := by
      rw [Function.iterate_succ_apply']; rfl
    rw [e2]
    refine ⟨_, rfl, fun h => by omega, fun i h => ?_⟩
    obtain rfl : j = i := by omega
    rw [sub_fin, abs_fin]

theorem it_diff (t : ℝ) (j : ℕ) : (st^[j + 2] ⟨pinf, pinf, fin C0, none⟩).diff > fin t ↔
    t < |(Fit K Dc)^[j + 1] (K / C0) - (Fit K Dc)^[j] (K / C0)| := by
  obtain ⟨d, e, -, h⟩ := it_state st K Dc C0 hK hDc hC0 hst (j + 1)
  rw [e, h j rfl]
  exact lt_fin _ _

theorem it_diff0 (t : ℝ) : (st^[0] ⟨pinf, pinf, fin C0, none⟩).diff > fin t :=
  fin_lt_pinf t
theorem it_diff1 (t : ℝ) : (st^[1] ⟨pinf, pinf, fin C0, none⟩).diff > fin t := by
  obtain ⟨d, e, h, -⟩ := it_state st K Dc C0 hK hDc hC0 hst 0
  rw [e, h rfl]; exact fin_lt_pinf t

theorem it_out (j : ℕ) : (st^[j + 1] ⟨pinf, pinf, fin C0, none⟩).Dn50 =
    some (fin ((Fit K Dc)^[j] (K / C0))) := by
  obtain ⟨d, e, -⟩ := it_state st K Dc C0 hK hDc hC0 hst j
  rw [e]

/-- what the loop returns -/
theorem loop_spec (t : ℝ) (n : ℕ) : ∃ j ≤ n,
    (whileIter (n + 1) (fun s : LoopState => s.diff > fin t) st ⟨pinf, pinf, fin C0, none⟩).Dn50
      = some (fin ((Fit K Dc)^[j] (K / C0))) ∧
    ((∃ i, j = i + 1 ∧ |(Fit K Dc)^[i + 1] (K / C0) - (Fit K Dc)^[i] (K / C0)| ≤ t) ∨
      j = n ∧ ∀ i < n + 2, (st^[i] ⟨pinf, pinf, fin C0, none⟩).diff > fin t) := by
  obtain ⟨k, hk, e, hc, hx⟩ := whileIter_spec (fun s : LoopState => s.diff > fin t) st (n + 1)
    ⟨pinf, pinf, fin C0, none⟩
  have hk0 : k ≠ 0 := by
    rintro rfl
    rcases hx with h | h
    · omega
    · exact h (it_diff0 st K Dc C0 hK hDc hC0 hst t)
  obtain ⟨j, rfl⟩ := Nat.exists_eq_succ_of_ne_zero hk0
  refine ⟨j, by omega, by rw [e]; exact it_out st K Dc C0 hK hDc hC0 hst j, ?_⟩
  by_cases hcon : (st^[j.succ] ⟨pinf, pinf, fin C0, none⟩).diff > fin t
  · right
    have : j = n := by
      rcases hx with h | h
      · omega
      · exact absurd hcon h
    refine ⟨this, fun i hi => ?_⟩
    rcases Nat.lt_or_ge i j.succ with h | h
    · exact hc i h
    · obtain rfl : i = j.succ := by omega
      exact hcon
  · left
    cases j with
    | zero => exact absurd (it_diff1 st K Dc C0 hK hDc hC0 hst t) hcon
    | succ i => exact ⟨i, rfl, not_lt.mp fun h => hcon
        ((it_diff st K Dc C0 hK hDc hC0 hst t i).mpr h)⟩

/-- two equal results for consecutive limits come from two close iterates -/
theorem loop_settled (t D : ℝ) (ht : 0 ≤ t) (n : ℕ)
    (h1 : (whileIter (n + 1) (fun s : LoopState => s.diff > fin t) st
      ⟨pinf, pinf, fin C0, none⟩).Dn50 = some (fin D))
    (h2 : (whileIter (n + 2) (fun s : LoopState => s.diff > fin t) st
      ⟨pinf, pinf, fin C0, none⟩).Dn50 = some (fin D)) :
    ∃ P, 0 < P ∧ D = Fit K Dc P ∧ |D - P| ≤ t := by
  obtain ⟨j, hj, e, h | h⟩ := loop_spec st K Dc C0 hK hDc hC0 hst t n
  · obtain ⟨i, rfl, h⟩ := h
    rw [e, Option.some.injEq, fin_inj] at h1
    rw [← h1, Function.iterate_succ_apply']
    refine ⟨_, it_pos st K Dc C0 hK hDc hC0 hst i, rfl, ?_⟩
    rwa [Function.iterate_succ_apply'] at h
  · obtain ⟨rfl, h⟩ := h
    rw [e, Option.some.injEq, fin_inj] at h1
    rw [whileIter_all _ _ _ _ (fun i hi => h i hi), it_out st K Dc C0 hK hDc hC0 hst,
      Option.some.injEq, fin_inj] at h2
    refine ⟨D, by rw [← h1]; exact it_pos st K Dc C0 hK hDc hC0 hst j, ?_, by simpa⟩
    rw [Function.iterate_succ_apply', h1] at h2
    exact h2.symm

/-- from some limit on the loop stops on its tolerance -/
theorem loop_stops (t : ℝ) (ht : 0 < t) : ∃ N : ℕ, ∃ P : ℝ, 0 < P ∧ |Fit K Dc P - P| ≤ t ∧
    ∀ n ≥ N, (whileIter n (fun s : LoopState => s.diff > fin t) st
      ⟨pinf, pinf, fin C0, none⟩).Dn50 = some (fin (Fit K Dc P)) := by
  obtain ⟨p, hp, -, -, h⟩ := log_contraction (Fit K Dc) 0.18 (by norm_num) (by norm_num)
    (fun x hx => Fit_pos hK hDc hx) (fun x y hx hy => Fit_log hK hDc hx hy)
  have hcl := exists_close (Fit K Dc) p (K / C0) t ht (log_contraction_tendsto _ 0.18 p _
    (by norm_num) (by norm_num) hp (h _ (div_pos hK hC0)))
  let k := Nat.find hcl
  have hk := Nat.find_spec hcl
  have hmin : ∀ i < k, ¬ _ := fun i hi => Nat.find_min hcl hi
  refine ⟨k + 2, (Fit K Dc)^[k] (K / C0), it_pos st K Dc C0 hK hDc hC0 hst k, ?_, fun n hn => ?_⟩
  · have : |(Fit K Dc)^[k + 1] (K / C0) - (Fit K Dc)^[k] (K / C0)| ≤ t := hk
    rwa [Function.iterate_succ_apply'] at this
  · rw [whileIter_stop _ _ n (k + 2) _ hn]
    · rw [it_out st K Dc C0 hK hDc hC0 hst, Function.iterate_succ_apply']
    · intro j hj
      match j with
      | 0 => exact it_diff0 st K Dc C0 hK hDc hC0 hst t
      | 1 => exact it_diff1 st K Dc C0 hK hDc hC0 hst t
      | j + 2 =>
        refine (it_diff st K Dc C0 hK hDc hC0 hst t j).mpr (not_le.mp (hmin j (by omega)))
    · intro hcon
      exact absurd hk (not_le.mpr ((it_diff st K Dc C0 hK hDc hC0 hst t k).mp hcon))

end loop

/-- the constant of the iteration -/
def Kc (cc e H T N c De I S : ℝ) : ℝ :=
  H / De * (1.0 / cc) * N ^ (1.0 / 10.0 : ℝ) * S ^ (-1.0 / 6.0 : ℝ) * xi H T c ^ e * I ^ (-1.0 : ℝ)

section
variable {H T N c De I S Dc : ℝ} (hH : 0 < H) (hT : 0 < T) (hN : 0 < N) (hc : 0 < c) (hDe : 0 < De)
  (hI : 0 < I) (hS : 0 < S) (hDc : 0 ≤ Dc)
include hH hT hN hc hDe hI hS

theorem Kc_pos {cc e : ℝ} (hcc : 0 < cc) : 0 < Kc cc e H T N c De I S := by
  have := xi_pos hH hT hc
  unfold Kc; positivity

include hDc in
theorem step_eval {cc e : ℝ} (hcc : 0 < cc) (d pr : PF) (o : Option PF) (C : ℝ) (hC : 0 < C) :
    size_step (fin cc) (fin e) (fin H) (fin De) (fin N) (fin S) (fin (xi H T c)) (fin I) (fin Dc)
      ⟨d, pr, fin C, o⟩ = ⟨PF.abs (fin (Kc cc e H T N c De I S / C) - pr),
        fin (Kc cc e H T N c De I S / C), fin (cp (Kc cc e H T N c De I S / C) Dc),
        some (fin (Kc cc e H T N c De I S / C))⟩ := by
  have hx := xi_pos hH hT hc
  have hK := Kc_pos hH hT hN hc hDe hI hS (e := e) hcc
  have key : (fin H / fin De) * (1.0 / fin cc) * (1.0 / fin C) * npow (fin N) (1.0 / 10.0)
    * npow (fin S) (-1.0 / 6.0) * npow (fin (xi H T c)) (fin e) * npow (fin I) (-1.0) =
      fin (Kc cc e H T N c De I S / C) := by
    unfold Kc
    pf_eval []
    rw [VdMProof.one_sci]
    ring
  unfold size_step
  simp only [key, cp_eval (div_pos hK hC) hDc]

/-- damage in terms of the iteration -/
theorem Ssu_K {D C : ℝ} (hD : 0 < D) (hC : 0 < C) : Ssu H T N c De D C I =
    (Kc 3.9 (1.0 / 3.0) H T N c De I S / C / D) ^ (6 : ℝ) * S := by
  have hx := xi_pos hH hT hc
  unfold Ssu Kc
  obtain ⟨l, hl⟩ := exists_exp (show (0 : ℝ) < 1.0 / 3.9 by norm_num)
  obtain ⟨x, hx'⟩ := exists_exp hx
  rw [hl, hx']
  obtain ⟨n, rfl⟩ := exists_exp hN
  obtain ⟨de, rfl⟩ := exists_exp hDe
  obtain ⟨d, rfl⟩ := exists_exp hD
  obtain ⟨C', rfl⟩ := exists_exp hC
  obtain ⟨i, rfl⟩ := exists_exp hI
  obtain ⟨s, rfl⟩ := exists_exp hS
  obtain ⟨h, rfl⟩ := exists_exp hH
  exp_ring

theorem Spl_K {D C : ℝ} (hD : 0 < D) (hC : 0 < C) : Spl H T N c De D C I =
    (Kc 4.5 (7.0 / 12.0) H T N c De I S / C / D) ^ (6 : ℝ) * S := by
  have hx := xi_pos hH hT hc
  unfold Spl Kc
  obtain ⟨l, hl⟩ := exists_exp (show (0 : ℝ) < 1.0 / 4.5 by norm_num)
  obtain ⟨x, hx'⟩ := exists_exp hx
  rw [hl, hx']
  obtain ⟨n, rfl⟩ := exists_exp hN
  obtain ⟨de, rfl⟩ := exists_exp hDe
  obtain ⟨d, rfl⟩ := exists_exp hD
  obtain ⟨C', rfl⟩ := exists_exp hC
  obtain ⟨i, rfl⟩ := exists_exp hI
  obtain ⟨s, rfl⟩ := exists_exp hS
  obtain ⟨h, rfl⟩ := exists_exp hH
  exp_ring

/-- one constant for both regimes (the regime only depends on the given wave height) -/
theorem Sd_K : ∃ K : ℝ, K = (if 1.8 ≤ xi H T c then Kc 3.9 (1.0 / 3.0) H T N c De I S else
      Kc 4.5 (7.0 / 12.0) H T N c De I S) ∧ 0 < K ∧
    ∀ D C : ℝ, 0 < D → 0 < C → Sd H T N c De D C I = (K / C / D) ^ (6 : ℝ) * S := by
  by_cases h : 1.8 ≤ xi H T c
  · refine ⟨_, rfl, ?_, fun D C hD hC => ?_⟩
    · rw [if_pos h]; exact Kc_pos hH hT hN hc hDe hI hS (by norm_num)
    · rw [if_pos h]; unfold Sd; rw [if_pos h]; exact Ssu_K hH hT hN hc hDe hI hS hD hC
  · refine ⟨_, rfl, ?_, fun D C hD hC => ?_⟩
    · rw [if_neg h]; exact Kc_pos hH hT hN hc hDe hI hS (by norm_num)
    · rw [if_neg h]; unfold Sd; rw [if_neg h]; exact Spl_K hH hT hN hc hDe hI hS hD hC

end

/-- the size function returns the outcome of one loop -/
theorem size_eval {H T N c ra I S Dc : ℝ} {m : PF} {b : Bool} (Mc rc : PF) (hH : 0 < H)
    (hT : 0 < T) (hN : 0 < N) (hc : 0 < c) (hr : 1025 < ra) (hI : 0 < I)
    (hm : depth_limitation m b = ⟨[], .ok (fin I)⟩) (hS : 0 < S) (hDc : 0 ≤ Dc) :
    ∃ (K : ℝ) (st : LoopState → LoopState), 0 < K ∧
      (∀ D C : ℝ, 0 < D → 0 < C →
        Sd H T N c ((ra - 1025) / 1025) D C I = (K / C / D) ^ (6 : ℝ) * S) ∧
      (∀ d pr o (C : ℝ), 0 < C → st ⟨d, pr, fin C, o⟩ = ⟨PF.abs (fin (K / C) - pr), fin (K / C),
        fin (cp (K / C) Dc), some (fin (K / C))⟩) ∧
      ∀ (C0 t : ℝ) (n : ℕ), 0 < C0 → ∃ D : ℝ, (whileIter (n + 1) (fun s : LoopState => s.diff > fin t) st
          ⟨pinf, pinf, fin C0, none⟩).Dn50 = some (fin D) ∧
        (calculate_nominal_rock_diameter_Dn50 (fin H) (fin T) (fin N) (fin c) (fin ra) (fin S)
          (fin Dc) Mc rc m b (fin C0) (n + 1) (fin t)).res = .ok (fin D) := by
  obtain ⟨De, hDe, hDD, e⟩ := Delta_eval (by norm_num : (0 : ℝ) < 1025) hr
  rw [← hDD]
  obtain ⟨K, hKd, hK, hS'⟩ := Sd_K hH hT hN hc hDe hI hS
  have hx := xi_pos hH hT hc
  have st1 := step_eval hH hT hN hc hDe hI hS hDc (cc := 3.9) (e := 1.0 / 3.0) (by norm_num)
  have st2 := step_eval hH hT hN hc hDe hI hS hDc (cc := 4.5) (e := 7.0 / 12.0) (by norm_num)
  have k1 := Kc_pos hH hT hN hc hDe hI hS (cc := 3.9) (e := 1.0 / 3.0) (by norm_num)
  have k2 := Kc_pos hH hT hN hc hDe hI hS (cc := 4.5) (e := 7.0 / 12.0) (by norm_num)
  refine ⟨K, if 1.8 ≤ xi H T c then size_step (fin 3.9) (fin (1.0 / 3.0)) (fin H)
      (fin De) (fin N) (fin S) (fin (xi H T c)) (fin I) (fin Dc) else
    size_step (fin 4.5) (fin (7.0 / 12.0)) (fin H) (fin De) (fin N) (fin S)
      (fin (xi H T c)) (fin I) (fin Dc), hK, hS', ?_, fun C0 t n hC0 => ?_⟩
  · rw [hKd]
    split_ifs
    · exact st1
    · exact st2
  · obtain ⟨j1, -, r1, -⟩ := loop_spec _ _ Dc C0 k1 hDc hC0 st1 t n
    obtain ⟨j2, -, r2, -⟩ := loop_spec _ _ Dc C0 k2 hDc hC0 st2 t n
    have e1 : (1025 : PF) = fin 1025 := by rw [ofNat_eq]
    have c1 : (1.0 / 3.0 : PF) = fin (1.0 / 3.0) := by pf_eval []
    have c2 : (7.0 / 12.0 : PF) = fin (7.0 / 12.0) := by pf_eval []
    have c3 : (3.9 : PF) = fin 3.9 := sci_eq ..
    have c4 : (4.5 : PF) = fin 4.5 := sci_eq ..
    have c5 : (1.8 : PF) = fin 1.8 := sci_eq ..
    have main : (calculate_nominal_rock_diameter_Dn50 (fin H) (fin T) (fin N) (fin c) (fin ra)
        (fin S) (fin Dc) Mc rc m b (fin C0) (n + 1) (fin t)).res = .ok (whr (1.8 ≤ xi H T c)
          (fin ((Fit (Kc 3.9 (1.0 / 3.0) H T N c De I S) Dc)^[j1]
            (Kc 3.9 (1.0 / 3.0) H T N c De I S / C0)))
          (fin ((Fit (Kc 4.5 (7.0 / 12.0) H T N c De I S) Dc)^[j2]
            (Kc 4.5 (7.0 / 12.0) H T N c De I S / C0)))) := by
      unfold calculate_nominal_rock_diameter_Dn50
      rw [hm, VdMProof.use_Dn50]
      simp only [PyM.bind_ok, e1, e, VdMProof.xi_eval hH hT hc, c1, c2, c3, c4, c5, size_loop, r1,
        r2, bound, PyM.pure_def, ge_iff_le, le_fin]
      rw [PyM.bind_res_of_ok (check_res ..)]
    rw [main]
    unfold whr
    split_ifs
    · exact ⟨_, r1, rfl⟩
    · exact ⟨_, r2, rfl⟩

end EtemadProof
namespace EtemadProof
theorem dam_log {K C D S : ℝ} (hK : 0 < K) (hC : 0 < C) (hD : 0 < D) (hS : 0 < S) :
    Real.log ((K / C / D) ^ (6 : ℝ) * S / S) = 6 * (Real.log (K / C) - Real.log D) := by
  rw [mul_div_cancel_right₀ _ hS.ne', Real.log_rpow (by positivity),
    Real.log_div (by positivity) hD.ne']

theorem dam_bound {K Dc P t S : ℝ} (hK : 0 < K) (hDc : 0 ≤ Dc) (hP : 0 < P) (hS : 0 < S)
    (ht : 0 ≤ t) (h : |Fit K Dc P - P| ≤ t) (htD : t < Fit K Dc P) :
    |Real.log ((K / cp (Fit K Dc P) Dc / Fit K Dc P) ^ (6 : ℝ) * S / S)| ≤
      1.08 * t / (Fit K Dc P - t) := by
  have hD := Fit_pos hK hDc hP
  rw [dam_log hK (cp_pos hD hDc) hD hS]
  have h1 := Fit_log hK hDc hD hP
  have h2 := abs_log_sub_le ht htD hP h
  have h3 : 6 * |Real.log (Fit K Dc (Fit K Dc P)) - Real.log (Fit K Dc P)| ≤
      1.08 * (t / (Fit K Dc P - t)) := by linarith
  rw [abs_mul, abs_of_pos (by norm_num : (0 : ℝ) < 6)]
  calc _ ≤ _ := h3
    _ = _ := by ring

theorem fixed_iff {K Dc D S : ℝ} (hK : 0 < K) (hDc : 0 ≤ Dc) (hD : 0 < D) (hS : 0 < S) :
    (K / cp D Dc / D) ^ (6 : ℝ) * S = S ↔ Fit K Dc D = D := by
  have hp := Fit_pos hK hDc hD
  constructor
  · intro h
    have h1 := dam_log hK (cp_pos hD hDc) hD hS
    rw [h, div_self hS.ne', Real.log_one] at h1
    have : Real.log (Fit K Dc D) = Real.log D := by unfold Fit; linarith
    exact Real.log_injOn_pos hp hD this
  · intro h
    change (Fit K Dc D / D) ^ (6 : ℝ) * S = S
    rw [h, div_self hD.ne', Real.one_rpow, one_mul]

end EtemadProof

section
variable (H T N c ra S Dc : ℝ) (m : PF) (b : Bool) (M Mc rc : PF) (hH : 0 < H) (hT : 0 < T)
  (hN : 0 < N) (hc : 0 < c) (hr : 1025 < ra) (hS : 0 < S) (hDc : 0 ≤ Dc)
  (hm : b = true → ∃ x : ℝ, x < 1 / 3 ∧ m = fin x)
include hH hT hN hc hr hS hDc hm

/-- C22: exactly one rock size has the requested damage, and from every positive starting value the
size iteration approaches it geometrically: after `n` further passes the logarithmic error of the
first pass is reduced by `0.18 ^ n` (`t ≤ 0` means that the loop is only left at its limit, or at the
exact solution). -/
theorem C22_unique_and_geometric : ∃ p : ℝ, 0 < p ∧
    (∀ D : ℝ, 0 < D →
      ((calculate_damage_number_S (fin H) (fin T) (fin N) (fin c) (fin ra) (fin D) M (fin Dc) Mc rc
        (fin 1025) m b).res = .ok (fin S) ↔ D = p)) ∧
    ∀ (C0 t : ℝ), 0 < C0 → t ≤ 0 → ∃ D1 : ℝ, 0 < D1 ∧
      (calculate_nominal_rock_diameter_Dn50 (fin H) (fin T) (fin N) (fin c) (fin ra) (fin S)
        (fin Dc) Mc rc m b (fin C0) 1 (fin t)).res = .ok (fin D1) ∧
      ∀ n : ℕ, ∃ D : ℝ, 0 < D ∧
        (calculate_nominal_rock_diameter_Dn50 (fin H) (fin T) (fin N) (fin c) (fin ra) (fin S)
          (fin Dc) Mc rc m b (fin C0) (n + 1) (fin t)).res = .ok (fin D) ∧
        |Real.log D - Real.log p| ≤ 0.18 ^ n * |Real.log D1 - Real.log p| := by
  obtain ⟨I, hI, e⟩ := dep_eval hm
  obtain ⟨K, st, hK, hdam, hst, hsize⟩ := size_eval Mc rc hH hT hN hc hr hI e hS hDc
  obtain ⟨p, hp, hfix, huniq, hgeo⟩ := log_contraction (Fit K Dc) 0.18 (by norm_num) (by norm_num)
    (fun x hx => Fit_pos hK hDc hx) (fun x y hx hy => Fit_log hK hDc hx hy)
  refine ⟨p, hp, fun D hD => ?_, fun C0 t hC0 ht => ?_⟩
  · rw [S_eval M Mc rc hT hN hc (by norm_num) hr hD hDc hI e hH, Except.ok.injEq, fin_inj,
      hdam D _ hD (cp_pos hD hDc), fixed_iff hK hDc hD hS]
    exact ⟨huniq D hD, fun h => by rw [h]; exact hfix⟩
  · refine ⟨K / C0, div_pos hK hC0, ?_, fun n => ?_⟩
    · obtain ⟨D, h1, h2⟩ := hsize C0 t 0 hC0
      rw [h2]
      obtain ⟨j, hj, h3, -⟩ := loop_spec st K Dc C0 hK hDc hC0 hst t 0
      obtain rfl : j = 0 := by omega
      rw [h1, Option.some.injEq] at h3
      rw [h3]; rfl
    · obtain ⟨D, h1, h2⟩ := hsize C0 t n hC0
      obtain ⟨j, hj, h3, h4⟩ := loop_spec st K Dc C0 hK hDc hC0 hst t n
      rw [h1, Option.some.injEq, fin_inj] at h3
      refine ⟨D, by rw [h3]; exact it_pos st K Dc C0 hK hDc hC0 hst j, h2, ?_⟩
      rcases h4 with ⟨i, rfl, h5⟩ | ⟨rfl, -⟩
      · have hz : (Fit K Dc)^[i + 1] (K / C0) = (Fit K Dc)^[i] (K / C0) := by
          have := abs_nonneg ((Fit K Dc)^[i + 1] (K / C0) - (Fit K Dc)^[i] (K / C0))
          have h6 : |(Fit K Dc)^[i + 1] (K / C0) - (Fit K Dc)^[i] (K / C0)| = 0 := by linarith
          exact sub_eq_zero.mp (abs_eq_zero.mp h6)
        have hz2 : (Fit K Dc)^[i] (K / C0) = p := by
          rw [Function.iterate_succ_apply'] at hz
          exact huniq _ (it_pos st K Dc C0 hK hDc hC0 hst i) hz
        rw [h3, hz, hz2, sub_self, abs_zero]
        positivity
      · rw [h3]
        exact (hgeo _ (div_pos hK hC0) j).2

example := C22_unique_and_geometric (H := 2) (T := 8) (N := 3000) (c := 2) (ra := 2650) (S := 2) (Dc := 0.3)
  (m := .fin 0.02) (b := true) (M := .fin 5000) (Mc := .fin 10) (rc := .fin 2650) (by norm_num)
  (by norm_num) (by norm_num) (by norm_num) (by norm_num) (by norm_num) (by norm_num) (by norm_num)

/-- C22: for every positive tolerance the loop stops on it once the iteration limit is large enough,
and the damage of the returned size is the requested one up to a factor set by the tolerance -/
theorem C22_stops_on_tolerance (C0 t : ℝ) (hC0 : 0 < C0) (ht : 0 < t) : ∃ (n0 : ℕ) (D S' : ℝ),
    0 < D ∧ (∀ n ≥ n0, (calculate_nominal_rock_diameter_Dn50 (fin H) (fin T) (fin N) (fin c) (fin ra)
      (fin S) (fin Dc) Mc rc m b (fin C0) n (fin t)).res = .ok (fin D)) ∧
    (calculate_damage_number_S (fin H) (fin T) (fin N) (fin c) (fin ra) (fin D) M (fin Dc) Mc rc
      (fin 1025) m b).res = .ok (fin S') ∧
    (t < D → |Real.log (S' / S)| ≤ 1.08 * t / (D - t)) := by
  obtain ⟨I, hI, e⟩ := dep_eval hm
  obtain ⟨K, st, hK, hdam, hst, hsize⟩ := size_eval Mc rc hH hT hN hc hr hI e hS hDc
  obtain ⟨n0, P, hP, hcl, hres⟩ := loop_stops st K Dc C0 hK hDc hC0 hst t ht
  have hD := Fit_pos hK hDc hP
  refine ⟨n0 + 1, Fit K Dc P, _, hD, fun n hn => ?_,
    S_eval M Mc rc hT hN hc (by norm_num) hr hD hDc hI e hH, fun htD => ?_⟩
  · obtain ⟨n, rfl⟩ := Nat.exists_eq_succ_of_ne_zero (show n ≠ 0 by omega)
    obtain ⟨D, h1, h2⟩ := hsize C0 t n hC0
    rw [hres _ (by omega), Option.some.injEq] at h1
    rw [h1]; exact h2
  · rw [hdam _ _ hD (cp_pos hD hDc)]
    exact dam_bound hK hDc hP hS ht.le hcl htD

example := C22_stops_on_tolerance (H := 2) (T := 8) (N := 3000) (c := 2) (ra := 2650) (S := 2) (Dc := 0.3)
  (m := .fin 0.02) (b := true) (M := .fin 5000) (Mc := .fin 10) (rc := .fin 2650) (C0 := 1) (t := 1)
  (by norm_num) (by norm_num) (by norm_num) (by norm_num) (by norm_num) (by norm_num) (by norm_num)
  (by norm_num) (by norm_num) (by norm_num)

/-- C22: whenever one more allowed pass does not change the returned size, its damage is the
requested one up to a factor set by the tolerance -/
theorem C22_settled (C0 t D : ℝ) (n : ℕ) (hC0 : 0 < C0) (ht : 0 ≤ t) (htD : t < D)
    (h1 : (calculate_nominal_rock_diameter_Dn50 (fin H) (fin T) (fin N) (fin c) (fin ra)
      (fin S) (fin Dc) Mc rc m b (fin C0) (n + 1) (fin t)).res = .ok (fin D))
    (h2 : (calculate_nominal_rock_diameter_Dn50 (fin H) (fin T) (fin N) (fin c) (fin ra)
      (fin S) (fin Dc) Mc rc m b (fin C0) (n + 2) (fin t)).res = .ok (fin D)) : ∃ S' : ℝ,
    (calculate_damage_number_S (fin H) (fin T) (fin N) (fin c) (fin ra) (fin D) M (fin Dc) Mc rc
      (fin 1025) m b).res = .ok (fin S') ∧ |Real.log (S' / S)| ≤ 1.08 * t / (D - t) := by
  obtain ⟨I, hI, e⟩ := dep_eval hm
  obtain ⟨K, st, hK, hdam, hst, hsize⟩ := size_eval Mc rc hH hT hN hc hr hI e hS hDc
  obtain ⟨D1, a1, b1⟩ := hsize C0 t n hC0
  obtain ⟨D2, a2, b2⟩ := hsize C0 t (n + 1) hC0
  rw [h1, Except.ok.injEq] at b1
  rw [h2, Except.ok.injEq] at b2
  rw [← b1] at a1
  rw [← b2] at a2
  obtain ⟨P, hP, rfl, hcl⟩ := loop_settled st K Dc C0 hK hDc hC0 hst t D ht n a1 a2
  have hD := Fit_pos hK hDc hP
  refine ⟨_, S_eval M Mc rc hT hN hc (by norm_num) hr hD hDc hI e hH, ?_⟩
  rw [hdam _ _ hD (cp_pos hD hDc)]
  exact dam_bound hK hDc hP hS ht hcl htD

end

/-- the hypotheses of the C22 theorems are met by an ordinary breakwater; C22_stops_on_tolerance then
provides the settled results required by C22_settled -/
example : ∃ (H T N c ra S Dc C0 t : ℝ), 0 < H ∧ 0 < T ∧ 0 < N ∧ 0 < c ∧ 1025 < ra ∧ 0 < S ∧ 0 < Dc ∧
    0 < C0 ∧ 0 < t := ⟨2, 10, 3000, 2, 2650, 2, 0.4, 0.5, 1e-5, by norm_num⟩

end
