import Verif.Props.WorseRockMore
import Verif.Props.KramerBurcharth

/-! # C92, C96: the iterations of Kramer & Burcharth (2003)

The exact solution of the design equation is ordered. The returned numbers solve the equation for a wave height that
differs from the given one by what the tolerance leaves (C25), so they are ordered as soon as the wave heights differ by
more than that. -/

open Classical
open PF KramerBurcharth
noncomputable section

section
variable (R R' ra ra' D D' : ℝ) (M M' : PF) (hr' : 1025 < ra') (hrr : ra' ≤ ra)
include hr' hrr

/-- C92: a higher wave, lighter stones and a higher crest never need smaller stones, for crests up to 1.9 stone sizes
above and 4.7 below the water (the formula is meant for 1.5 above to 3.1 below) -/
theorem C92_kramer_required_size_partial {H H' : ℝ} (hD : 0 < D') (hHH : H ≤ H') (hRR : R ≤ R')
    (hlo : -4.7 * D' ≤ R') (hhi : R' ≤ 1.9 * D')
    (e : (calculate_significant_wave_height_Hs (fin R) (fin ra) (fin D) M).res = .ok (fin H))
    (e' : (calculate_significant_wave_height_Hs (fin R') (fin ra') (fin D') M').res = .ok (fin H')) :
    D ≤ D' ∧ (H < H' ∨ ra' < ra ∨ R < R' → D < D') := by
  have key : D' ≤ D → H' ≤ H ∧ (ra' < ra ∨ D' < D ∨ R < R' → H' < H) := by
    intro h
    obtain ⟨x, x', k, k', h1, h2⟩ := C92_kramer_height_partial R R' ra ra' D D' M M' hr' hrr hD h hRR hlo hhi
    rw [e', Except.ok.injEq, fin_inj] at k
    rw [e, Except.ok.injEq, fin_inj] at k'
    subst k k'
    exact ⟨h1, h2⟩
  refine ⟨?_, fun hs => ?_⟩
  · by_contra h
    push Not at h
    linarith [(key h.le).2 (Or.inr (Or.inl h))]
  · by_contra h
    push Not at h
    obtain ⟨k1, k2⟩ := key h
    rcases hs with a | a | a
    · linarith
    · linarith [k2 (Or.inl a)]
    · linarith [k2 (Or.inr (Or.inr a))]

/-- C92: the sizes on which the iteration settles, for any starting value, limit and tolerance, follow the same order
once the wave heights differ by more than what the tolerance leaves -/
theorem C92_kramer_size_partial {H H' ns ns' t t' : ℝ} (n n' : ℕ) (hD : 0 < D') (hRR : R ≤ R')
    (hlo : -4.7 * D' ≤ R') (hhi : R' ≤ 1.9 * D') (ht : 0 ≤ t) (htD : t < |D|) (ht' : 0 ≤ t') (htD' : t' < |D'|)
    (h1 : (calculate_nominal_rock_diameter_Dn50 (fin H) (fin R) (fin ra) (fin ns) n (fin t)).res = .ok (fin D))
    (h2 : (calculate_nominal_rock_diameter_Dn50 (fin H) (fin R) (fin ra) (fin ns) (n + 1) (fin t)).res = .ok (fin D))
    (h1' : (calculate_nominal_rock_diameter_Dn50 (fin H') (fin R') (fin ra') (fin ns') n' (fin t')).res
      = .ok (fin D'))
    (h2' : (calculate_nominal_rock_diameter_Dn50 (fin H') (fin R') (fin ra') (fin ns') (n' + 1) (fin t')).res
      = .ok (fin D'))
    (hHH : H + 0.06 * ((ra - 1025) / 1025) * R ^ 2 * t / (|D| * (|D| - t)) +
      0.06 * ((ra' - 1025) / 1025) * R' ^ 2 * t' / (|D'| * (|D'| - t')) ≤ H') :
    D ≤ D' ∧ (ra' < ra ∨ R < R' → D < D') := by
  obtain ⟨y, ey, b⟩ := C25_settled_size H R ra ns t D nan n (by linarith) h1 h2 ht htD
  obtain ⟨y', ey', b'⟩ := C25_settled_size H' R' ra' ns' t' D' nan n' hr' h1' h2' ht' htD'
  have hy : y ≤ y' := by linarith [(abs_le.mp b).2, (abs_le.mp b').1]
  obtain ⟨k1, k2⟩ := C92_kramer_required_size_partial R R' ra ra' D D' nan nan hr' hrr hD hy hRR hlo hhi ey ey'
  exact ⟨k1, fun h => k2 (Or.inr h)⟩

/-- C92: a higher wave, lighter and smaller stones never allow a higher crest, in the same range -/
theorem C92_kramer_allowed_crest_partial {H H' : ℝ} (hD : 0 < D') (hDD : D' ≤ D) (hHH : H ≤ H')
    (hlo : -4.7 * D' ≤ R') (hhi : R' ≤ 1.9 * D')
    (e : (calculate_significant_wave_height_Hs (fin R) (fin ra) (fin D) M).res = .ok (fin H))
    (e' : (calculate_significant_wave_height_Hs (fin R') (fin ra') (fin D') M').res = .ok (fin H')) :
    R' ≤ R ∧ (H < H' ∨ ra' < ra ∨ D' < D → R' < R) := by
  have key : R ≤ R' → H' ≤ H ∧ (ra' < ra ∨ D' < D ∨ R < R' → H' < H) := by
    intro h
    obtain ⟨x, x', k, k', h1, h2⟩ := C92_kramer_height_partial R R' ra ra' D D' M M' hr' hrr hD hDD h hlo hhi
    rw [e', Except.ok.injEq, fin_inj] at k
    rw [e, Except.ok.injEq, fin_inj] at k'
    subst k k'
    exact ⟨h1, h2⟩
  refine ⟨?_, fun hs => ?_⟩
  · by_contra h
    push Not at h
    linarith [(key h.le).2 (Or.inr (Or.inr h))]
  · by_contra h
    push Not at h
    obtain ⟨k1, k2⟩ := key h
    rcases hs with a | a | a
    · linarith
    · linarith [k2 (Or.inl a)]
    · linarith [k2 (Or.inr (Or.inl a))]

/-- C92: the crest levels on which the iteration settles follow the same order once the wave heights differ by more
than what the tolerance leaves -/
theorem C92_kramer_crest_partial {H H' i i' t t' : ℝ} (n n' : ℕ) (hD : 0 < D') (hDD : D' ≤ D)
    (hlo : -4.7 * D' ≤ R') (hhi : R' ≤ 1.9 * D') (ht : 0 ≤ t) (ht' : 0 ≤ t')
    (h1 : (calculate_crest_freeboard_Rc (fin H) (fin ra) (fin D) M (fin i) n (fin t)).res = .ok (fin R))
    (h2 : (calculate_crest_freeboard_Rc (fin H) (fin ra) (fin D) M (fin i) (n + 1) (fin t)).res = .ok (fin R))
    (h1' : (calculate_crest_freeboard_Rc (fin H') (fin ra') (fin D') M' (fin i') n' (fin t')).res = .ok (fin R'))
    (h2' : (calculate_crest_freeboard_Rc (fin H') (fin ra') (fin D') M' (fin i') (n' + 1) (fin t')).res
      = .ok (fin R'))
    (hHH : H + 0.06 * ((ra - 1025) / 1025) * |R| * t / D + 0.06 * ((ra' - 1025) / 1025) * |R'| * t' / D' ≤ H') :
    R' ≤ R ∧ (ra' < ra ∨ D' < D → R' < R) := by
  obtain ⟨y, ey, b⟩ := C25_settled_freeboard H D ra i t R M n (by linarith) (by linarith) h1 h2 ht
  obtain ⟨y', ey', b'⟩ := C25_settled_freeboard H' D' ra' i' t' R' M' n' hr' hD h1' h2' ht'
  have hy : y ≤ y' := by linarith [(abs_le.mp b).2, (abs_le.mp b').1]
  obtain ⟨k1, k2⟩ := C92_kramer_allowed_crest_partial R R' ra ra' D D' M M' hr' hrr hD hDD hy hlo hhi ey ey'
  exact ⟨k1, fun h => k2 (Or.inr h)⟩
end

/-! ## C96: the returned values are limits -/

/-- C96, Kramer & Burcharth: every size at least as large as the one on which the iteration settles withstands the given
wave height up to what the tolerance leaves; no smaller size withstands more than that. -/
theorem C96_kramer_size_partial {H R ra ns t D : ℝ} (M : PF) (n : ℕ) (hr : 1025 < ra) (ht : 0 ≤ t) (htD : t < D)
    (hhi : R ≤ 1.9 * D) (hlo : -4.7 * D ≤ R)
    (h1 : (calculate_nominal_rock_diameter_Dn50 (fin H) (fin R) (fin ra) (fin ns) n (fin t)).res = .ok (fin D))
    (h2 : (calculate_nominal_rock_diameter_Dn50 (fin H) (fin R) (fin ra) (fin ns) (n + 1) (fin t)).res = .ok (fin D)) :
    (∀ x, D ≤ x → ∃ y, (calculate_significant_wave_height_Hs (fin R) (fin ra) (fin x) M).res = .ok (fin y) ∧
      H - 0.06 * ((ra - 1025) / 1025) * R ^ 2 * t / (D * (D - t)) ≤ y) ∧
    (∀ x, 0 < x → x < D → -4.7 * x ≤ R → R ≤ 1.9 * x → ∃ y,
      (calculate_significant_wave_height_Hs (fin R) (fin ra) (fin x) M).res = .ok (fin y) ∧
      y < H + 0.06 * ((ra - 1025) / 1025) * R ^ 2 * t / (D * (D - t))) := by
  have hD : 0 < D := by linarith
  obtain ⟨y, ey, b⟩ := C25_settled_size H R ra ns t D M n hr h1 h2 ht (by rwa [abs_of_pos hD])
  rw [abs_of_pos hD] at b
  refine ⟨fun x hx => ?_, fun x hx hxD hl hh => ?_⟩
  · obtain ⟨u, v, k, k', h, -⟩ := C92_kramer_height_partial R R ra ra x D M M hr le_rfl hD hx le_rfl hlo hhi
    rw [ey, Except.ok.injEq, fin_inj] at k
    exact ⟨v, k', by linarith [(abs_le.mp b).1]⟩
  · obtain ⟨u, v, k, k', -, h⟩ := C92_kramer_height_partial R R ra ra D x M M hr le_rfl hx hxD.le le_rfl hl hh
    rw [ey, Except.ok.injEq, fin_inj] at k'
    exact ⟨u, k, by linarith [(abs_le.mp b).2, h (Or.inr (Or.inl hxD))]⟩

/-- C96, Kramer & Burcharth: every crest at or below the one on which the iteration settles withstands the given wave
height up to what the tolerance leaves; no higher crest, up to 1.9 stone sizes, withstands more than that. -/
theorem C96_kramer_crest_partial {H D ra i t R : ℝ} (M : PF) (n : ℕ) (hr : 1025 < ra) (hD : 0 < D) (ht : 0 ≤ t)
    (hhi : R ≤ 1.9 * D) (hlo : -4.7 * D ≤ R)
    (h1 : (calculate_crest_freeboard_Rc (fin H) (fin ra) (fin D) M (fin i) n (fin t)).res = .ok (fin R))
    (h2 : (calculate_crest_freeboard_Rc (fin H) (fin ra) (fin D) M (fin i) (n + 1) (fin t)).res = .ok (fin R)) :
    (∀ x ≤ R, ∃ y, (calculate_significant_wave_height_Hs (fin x) (fin ra) (fin D) M).res = .ok (fin y) ∧
      H - 0.06 * ((ra - 1025) / 1025) * |R| * t / D ≤ y) ∧
    (∀ x, R < x → x ≤ 1.9 * D → ∃ y,
      (calculate_significant_wave_height_Hs (fin x) (fin ra) (fin D) M).res = .ok (fin y) ∧
      y < H + 0.06 * ((ra - 1025) / 1025) * |R| * t / D) := by
  obtain ⟨y, ey, b⟩ := C25_settled_freeboard H D ra i t R M n hr hD h1 h2 ht
  refine ⟨fun x hx => ?_, fun x hx hxD => ?_⟩
  · obtain ⟨u, v, k, k', h, -⟩ := C92_kramer_height_partial x R ra ra D D M M hr le_rfl hD le_rfl hx hlo hhi
    rw [ey, Except.ok.injEq, fin_inj] at k
    exact ⟨v, k', by linarith [(abs_le.mp b).1]⟩
  · obtain ⟨u, v, k, k', -, h⟩ := C92_kramer_height_partial R x ra ra D D M M hr le_rfl hD le_rfl hx.le (by linarith) hxD
    rw [ey, Except.ok.injEq, fin_inj] at k'
    exact ⟨u, k, by linarith [(abs_le.mp b).2, h (Or.inr (Or.inr hx))]⟩

/-- a submerged crest and stones of one and of two metres -/
example : ∃ H H' : ℝ, H < H' ∧
    (calculate_significant_wave_height_Hs (fin (-1)) (fin 2650) (fin 1)).res = .ok (fin H) ∧
    (calculate_significant_wave_height_Hs (fin (-1)) (fin 2650) (fin 2)).res = .ok (fin H') := by
  refine ⟨_, _, ?_, KBProof.Hs_eval nan (by norm_num) rfl (by norm_num),
    KBProof.Hs_eval nan (by norm_num) rfl (by norm_num)⟩
  unfold KBProof.HsR; norm_num

/-- crests at the water level: the iteration settles for every limit above one, on any two wave heights -/
example (ns t : ℝ) (hns : 0 < ns) : ∃ D D' : ℝ, 0 < D ∧ 0 < D' ∧ ∀ n : ℕ,
    (calculate_nominal_rock_diameter_Dn50 (fin 2) (fin 0) (fin 2650) (fin ns) (n + 1) (fin t)).res = .ok (fin D) ∧
    (calculate_nominal_rock_diameter_Dn50 (fin 3) (fin 0) (fin 2650) (fin ns) (n + 1) (fin t)).res
      = .ok (fin D') := by
  have k : ∀ H : ℝ, 0 < H → ∃ D : ℝ, 0 < D ∧ ∀ n : ℕ,
      (calculate_nominal_rock_diameter_Dn50 (fin H) (fin 0) (fin 2650) (fin ns) (n + 1) (fin t)).res
        = .ok (fin D) := by
    intro H hH
    refine ⟨H / ((2650 - 1025) / 1025) / 1.36, by positivity, fun n => ?_⟩
    obtain ⟨D, hD, e, e'⟩ := C25_zero_freeboard H 2650 ns t nan n hH (by norm_num) hns
    rw [KBProof.Hs_eval nan (by norm_num) rfl hD.ne', Except.ok.injEq, fin_inj] at e'
    unfold KBProof.HsR at e'
    rw [e, Except.ok.injEq, fin_inj, ← e']
    field_simp; norm_num
  obtain ⟨D, h, e⟩ := k 2 (by norm_num)
  obtain ⟨D', h', e'⟩ := k 3 (by norm_num)
  exact ⟨D, D', h, h', fun n => ⟨e n, e' n⟩⟩
end
