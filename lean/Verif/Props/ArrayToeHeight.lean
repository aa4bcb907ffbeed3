import Verif.Lemmas.ArrayLoop
import Verif.Array.Toe
import Verif.Props.ToeEtemad

/-! # C84: the wave height of Etemad-Shahidi et al. (2021) for toes, called with arrays -/

open Classical
open PF Arrays
noncomputable section
namespace ArrProof
variable {n : ℕ}

/-- case `i` of the loop variables -/
def toeCase (s : Arr.EtemadShahidi2021.LoopState n) (i : Fin n) : EtemadShahidi2021.LoopState :=
  ⟨s.Hs.get i, s.diff.get i, s.prev.get i, s.smm10.get i⟩

theorem toe_case (De D T h ht Bt N m g c1 c2 c3 c4 c5 c6 c7 : Val n)
    (s : Arr.EtemadShahidi2021.LoopState n) (i : Fin n) :
    toeCase (Arr.EtemadShahidi2021.height_step De D T h ht Bt N m g c1 c2 c3 c4 c5 c6 c7 s) i =
      EtemadShahidi2021.height_step (De.get i) (D.get i) (T.get i) (h.get i) (ht.get i) (Bt.get i)
        (N.get i) (m.get i) (g.get i) (c1.get i) (c2.get i) (c3.get i) (c4.get i) (c5.get i)
        (c6.get i) (c7.get i) (toeCase s i) := by
  unfold toeCase Arr.EtemadShahidi2021.height_step EtemadShahidi2021.height_step
    Arr.CorePhysics.calculate_wave_steepness_s CorePhysics.calculate_wave_steepness_s
  simp only [cases_simp]

end ArrProof
open ArrProof Et21Proof

/-- C84: with arrays, the wave height of Etemad-Shahidi et al. (2021) is iterated for all cases together
until the last pass changed none of them by more than 1 mm.  The call ends, without warning, and every
case gets a wave height within the error bound of its own solution: the one wave height that gives the
damage of that case with the stones of that case.
Missing from the claim: coefficients with |c4 - c6| ≥ 1 (see C31). -/
theorem C84_toe_etemad2021_partial {n : ℕ} [NeZero n]
    (Tv hv htv Bv Nv mv Dv rav rwv gv v1 v2 v3 v4 v5 v6 v7 sv : Val n)
    (T h ht B N m D ra rw g c1 c2 c3 c4 c5 c6 c7 s0 : Fin n → ℝ)
    (e1 : ∀ i, Tv.get i = fin (T i) ∧ hv.get i = fin (h i) ∧ htv.get i = fin (ht i) ∧
      Bv.get i = fin (B i) ∧ Nv.get i = fin (N i) ∧ mv.get i = fin (m i) ∧ Dv.get i = fin (D i) ∧
      rav.get i = fin (ra i) ∧ rwv.get i = fin (rw i) ∧ gv.get i = fin (g i))
    (e2 : ∀ i, v1.get i = fin (c1 i) ∧ v2.get i = fin (c2 i) ∧ v3.get i = fin (c3 i) ∧
      v4.get i = fin (c4 i) ∧ v5.get i = fin (c5 i) ∧ v6.get i = fin (c6 i) ∧ v7.get i = fin (c7 i) ∧
      sv.get i = fin (s0 i))
    (hpos : ∀ i, 0 < T i ∧ 0 < h i ∧ 0 < ht i ∧ 0 < B i ∧ 0 < N i ∧ 0 < D i ∧ 0 < g i ∧ 0 < rw i ∧
      rw i < ra i ∧ 0 < s0 i)
    (hco : ∀ i, 0 ≤ c1 i ∧ 0 < c2 i ∧ 0 < 1 - c7 i * m i ∧ c5 i ≠ 0 ∧ |c4 i - c6 i| < 1)
    (M : ℕ) (hM : 0 < M) :
    ∃ (r : PyM (Val n)) (V : Val n),
      Arr.EtemadShahidi2021.calculate_significant_wave_height_Hs Tv hv htv Bv Nv mv Dv rav rwv gv
        v1 v2 v3 v4 v5 v6 v7 sv M = some r ∧ r.res = .ok V ∧ r.warns = [] ∧
      ∀ i, ∃ H p : ℝ, V.get i = fin H ∧ 0 < H ∧ 0 < p ∧
        (∀ x : ℝ, 0 < x →
          ((EtemadShahidi2021.calculate_damage_Nod (fin x) (fin (T i)) (fin (h i)) (fin (ht i))
            (fin (B i)) (fin (m i)) (fin (D i)) (fin (ra i)) (fin (rw i)) (fin (g i)) (fin (c1 i))
            (fin (c2 i)) (fin (c3 i)) (fin (c4 i)) (fin (c5 i)) (fin (c6 i)) (fin (c7 i))).res
            = .ok (fin (N i)) ∧ c1 i < x / ((ra i - rw i) / rw i * D i) ↔ x = p)) ∧
        (1e-3 < H →
          |Real.log H - Real.log p| ≤ |c4 i - c6 i| / (1 - |c4 i - c6 i|) * (1e-3 / (H - 1e-3))) := by
  have hpi := Real.pi_pos
  have hDex := fun i => Delta_eval (hpos i).2.2.2.2.2.2.2.1 (hpos i).2.2.2.2.2.2.2.2.1
  choose De hDe hDD hDev using hDex
  set F := fun i => G (De i) (D i) (T i) (h i) (ht i) (B i) (N i) (m i) (g i) (c1 i) (c2 i) (c3 i)
    (c4 i) (c5 i) (c6 i) (c7 i) with hF
  set x0 := fun i => s0 i * T i ^ 2 * g i / (2 * Real.pi) with hx0d
  have hx0 : ∀ i, 0 < x0 i := by
    intro i
    obtain ⟨hT, hh, hht, hB, hN, hD, hg, hw, hr, hs⟩ := hpos i
    simp only [hx0d]; positivity
  have hst : ∀ i k, _ := fun i k => state_eval (c3 := c3 i) (c4 := c4 i) (c5 := c5 i) (c6 := c6 i)
    (hDe i) (hpos i).2.2.2.2.2.1 (hpos i).1 (hpos i).2.1 (hpos i).2.2.1 (hpos i).2.2.2.1
    (hpos i).2.2.2.2.1 (hpos i).2.2.2.2.2.2.1 (hco i).1 (hco i).2.1 (hco i).2.2.1 (hx0 i) k
  have hlim : ∀ i, ∃ p, Filter.Tendsto (fun k => (F i)^[k] (x0 i)) Filter.atTop (nhds p) := by
    intro i
    obtain ⟨hT, hh, hht, hB, hN, hD, hg, hw, hr, hs⟩ := hpos i
    obtain ⟨h1, h2, h3, h4, h5⟩ := hco i
    obtain ⟨p, hp, hpF, hpu, hgeo⟩ := log_contraction (F i) _ (abs_nonneg (c4 i - c6 i)) h5
      (fun x hx => G_pos (hDe i) hD hT hh hht hB hN hg h1 h2 h3 hx)
      (fun x y hx hy => G_lip (hDe i) hD hT hh hht hB hN hg h1 h2 h3 hx hy)
    exact ⟨p, log_contraction_tendsto (F i) _ p _ (abs_nonneg _) h5 hp (hgeo _ (hx0 i))⟩
  have hclose : ∃ k, ∀ i, |(F i)^[k + 1] (x0 i) - (F i)^[k] (x0 i)| ≤ 1e-3 := by
    have : ∀ᶠ k in Filter.atTop, ∀ i, |(F i)^[k + 1] (x0 i) - (F i)^[k] (x0 i)| ≤ 1e-3 := by
      rw [Filter.eventually_all]
      intro i
      obtain ⟨p, hp⟩ := hlim i
      have h1 := (((Filter.tendsto_add_atTop_iff_nat 1).mpr hp).sub hp).abs
      rw [sub_self, abs_zero] at h1
      exact (h1.eventually (gt_mem_nhds (by norm_num : (0 : ℝ) < 1e-3))).mono fun k hk => hk.le
    exact this.exists
  set body := Arr.EtemadShahidi2021.height_step
    (Arr.CorePhysics.calculate_buoyant_density_Delta (rho_rock := rav) (rho_water := rwv)) Dv Tv hv htv
    Bv Nv mv gv v1 v2 v3 v4 v5 v6 v7 with hbody
  set S0 : Arr.EtemadShahidi2021.LoopState n :=
    ⟨sv * Val.npow Tv 2 * gv / (2 * Val.pi), Val.pinf, sv * Val.npow Tv 2 * gv / (2 * Val.pi), sv⟩ with hS0
  have hinit : ∀ i, toeCase S0 i =
      ⟨fin (x0 i), pinf, fin (x0 i), fin (2 * Real.pi * x0 i / (g i * T i ^ 2))⟩ := by
    intro i
    obtain ⟨hT, hh, hht, hB, hN, hD, hg, hw, hr, hs⟩ := hpos i
    have ei : (sv * Val.npow Tv 2 * gv / (2 * Val.pi)).get i = fin (x0 i) := by
      simp only [cases_simp, (e1 i).1, (e2 i).2.2.2.2.2.2.2, (e1 i).2.2.2.2.2.2.2.2.2, hx0d]
      pf_eval []
    have es : s0 i = 2 * Real.pi * x0 i / (g i * T i ^ 2) := by simp only [hx0d]; field_simp
    unfold toeCase
    rw [hS0]
    simp only [ei, (e2 i).2.2.2.2.2.2.2]
    rw [← es]; rfl
  have hit : ∀ i k, toeCase (body^[k + 1] S0) i =
      ⟨fin ((F i)^[k + 1] (x0 i)), fin |(F i)^[k + 1] (x0 i) - (F i)^[k] (x0 i)|,
        fin ((F i)^[k + 1] (x0 i)), fin (2 * Real.pi * (F i)^[k + 1] (x0 i) / (g i * T i ^ 2))⟩ := by
    intro i k
    rw [← (hst i k).1, ← hinit]
    have : ∀ j, toeCase (body^[j] S0) i = (EtemadShahidi2021.height_step (fin (De i)) (fin (D i))
        (fin (T i)) (fin (h i)) (fin (ht i)) (fin (B i)) (fin (N i)) (fin (m i)) (fin (g i)) (fin (c1 i))
        (fin (c2 i)) (fin (c3 i)) (fin (c4 i)) (fin (c5 i)) (fin (c6 i)) (fin (c7 i)))^[j]
        (toeCase S0 i) := by
      intro j
      induction j with
      | zero => rfl
      | succ j ih =>
        rw [Function.iterate_succ_apply', Function.iterate_succ_apply', ← ih, hbody, toe_case]
        have ed : (Arr.CorePhysics.calculate_buoyant_density_Delta (rho_rock := rav)
            (rho_water := rwv)).get i = fin (De i) := by
          rw [← hDev i]
          unfold Arr.CorePhysics.calculate_buoyant_density_Delta
            CorePhysics.calculate_buoyant_density_Delta
          simp only [cases_simp, (e1 i).2.2.2.2.2.2.2.1, (e1 i).2.2.2.2.2.2.2.2.1]
        obtain ⟨a1, a2, a3, a4, a5, a6, a7, a8, a9, a10⟩ := e1 i
        obtain ⟨b1, b2, b3, b4, b5, b6, b7, b8⟩ := e2 i
        rw [ed, a1, a2, a3, a4, a5, a6, a7, a10, b1, b2, b3, b4, b5, b6, b7]
    exact this (k + 1)
  have hget : ∀ i k, (body^[k + 1] S0).diff.get i = fin |(F i)^[k + 1] (x0 i) - (F i)^[k] (x0 i)| ∧
      (body^[k + 1] S0).Hs.get i = fin ((F i)^[k + 1] (x0 i)) := by
    intro i k
    have := hit i k
    unfold toeCase at this
    rw [EtemadShahidi2021.LoopState.mk.injEq] at this
    exact ⟨this.2.1, this.1⟩
  obtain ⟨s, hwl⟩ : ∃ s, whileUnb (fun s : Arr.EtemadShahidi2021.LoopState n =>
      s.diff.amax > 1e-3 ∧ 0 < M) body S0 = some s := by
    rcases hcase : whileUnb (fun s : Arr.EtemadShahidi2021.LoopState n =>
      s.diff.amax > 1e-3 ∧ 0 < M) body S0 with _ | s
    · exfalso
      obtain ⟨k, hk⟩ := hclose
      have := (whileUnb_none.mp hcase (k + 1)).1
      rw [sci_eq, amax_gt] at this
      obtain ⟨-, i, hi⟩ := this
      rw [(hget i k).1, gt_fin] at hi
      exact absurd (hk i) (not_le.mpr hi)
    · exact ⟨s, rfl⟩
  obtain ⟨j, hsj, hstop, -⟩ := whileUnb_some.mp hwl
  obtain ⟨j, rfl⟩ : ∃ i, j = i + 1 := by
    cases j with
    | zero =>
      exfalso
      apply hstop
      rw [hsj]
      refine ⟨?_, hM⟩
      rw [sci_eq, amax_gt]
      exact ⟨fun i hi => hi, 0, trivial⟩
    | succ i => exact ⟨i, rfl⟩
  have hdiff : ∀ i, |(F i)^[j + 1] (x0 i) - (F i)^[j] (x0 i)| ≤ 1e-3 := by
    intro i
    by_contra hc
    apply hstop
    refine ⟨?_, hM⟩
    rw [hsj, sci_eq, amax_gt]
    refine ⟨fun i => by rw [(hget i j).1]; exact fun h => h, i, ?_⟩
    rw [(hget i j).1, gt_fin]
    exact not_le.mp hc
  refine ⟨pure s.Hs, s.Hs, ?_, rfl, rfl, fun i => ?_⟩
  · unfold Arr.EtemadShahidi2021.calculate_significant_wave_height_Hs
    simp only [← hbody, ← hS0]
    rw [hwl]; rfl
  obtain ⟨hT, hh, hht, hB, hN, hD, hg, hw, hr, hs⟩ := hpos i
  obtain ⟨h1, h2, h3, h4, h5⟩ := hco i
  have hxj : 0 < (F i)^[j] (x0 i) := (hst i j).2
  set x := (F i)^[j] (x0 i) with hx
  have hFx : (F i)^[j + 1] (x0 i) = F i x := by rw [Function.iterate_succ_apply']
  obtain ⟨r, H, p, hcall, hres, hH, hp, huniq, herr⟩ := C31_terminates_partial (D i) (T i) (h i) (ht i)
    (B i) (N i) (m i) (ra i) (rw i) (g i) (c1 i) (c2 i) (c3 i) (c4 i) (c5 i) (c6 i) (c7 i)
    (2 * Real.pi * x / (g i * T i ^ 2)) hD hT hh hht hB hN hg hw hr h1 h2 h3 (by positivity) h5 h4 1
    one_pos
  have hHx : H = F i x := by
    unfold EtemadShahidi2021.calculate_significant_wave_height_Hs at hcall
    have hi2 : fin (2 * Real.pi * x / (g i * T i ^ 2)) * npow (fin (T i)) 2 * fin (g i) / (2 * PF.pi) =
        fin x := by
      pf_eval []
      field_simp
    simp only [hDev i, hi2] at hcall
    have : whileUnb (fun s : EtemadShahidi2021.LoopState => s.diff > 1e-3 ∧ 0 < 1)
      (EtemadShahidi2021.height_step (fin (De i)) (fin (D i)) (fin (T i)) (fin (h i)) (fin (ht i))
        (fin (B i)) (fin (N i)) (fin (m i)) (fin (g i))
        (fin (c1 i)) (fin (c2 i)) (fin (c3 i)) (fin (c4 i)) (fin (c5 i)) (fin (c6 i)) (fin (c7 i)))
      ⟨fin x, pinf, fin x, fin (2 * Real.pi * x / (g i * T i ^ 2))⟩ = some ⟨fin (F i x),
        fin |F i x - x|, fin (F i x), fin (2 * Real.pi * F i x / (g i * T i ^ 2))⟩ := by
      rw [whileUnb_some]
      refine ⟨1, ?_, ?_, ?_⟩
      · rw [Function.iterate_one, step_eval hT hh hht hB hN hg hxj pinf]
      · rintro ⟨hc, -⟩
        have := hdiff i
        rw [hFx] at this
        rw [sci_eq, gt_fin] at hc
        exact absurd this (not_le.mpr hc)
      · intro k hk
        obtain rfl : k = 0 := by omega
        exact ⟨by rw [sci_eq]; trivial, one_pos⟩
    rw [this] at hcall
    simp only [Option.map_some, Option.some.injEq] at hcall
    rw [← hcall] at hres
    simpa using (Except.ok.inj hres).symm
  refine ⟨H, p, ?_, hH, hp, huniq, herr⟩
  rw [hsj, (hget i j).2, hFx, hHx]

example := C84_toe_etemad2021_partial (n := 2) (.arr ![fin 8, fin 9]) (.num (fin 8)) (.num (fin 5))
  (.num (fin 6)) (.arr ![fin 0.5, fin 1]) (.num (fin 0.02)) (.num (fin 1)) (.num (fin 2650))
  (.num (fin 1025)) (.num (fin 9.81)) (.num (fin 1.2)) (.num (fin 11.2)) (.num (fin 1.75))
  (.num (fin 0.2)) (.num (fin 0.4)) (.num (fin (-0.1))) (.num (fin 3.7)) (.num (fin 0.03))
  ![8, 9] ![8, 8] ![5, 5] ![6, 6] ![0.5, 1] ![0.02, 0.02] ![1, 1] ![2650, 2650] ![1025, 1025]
  ![9.81, 9.81] ![1.2, 1.2] ![11.2, 11.2] ![1.75, 1.75] ![0.2, 0.2] ![0.4, 0.4] ![-0.1, -0.1]
  ![3.7, 3.7] ![0.03, 0.03]
  (by intro i; fin_cases i <;> simp [Val.get]) (by intro i; fin_cases i <;> simp [Val.get])
  (by intro i; fin_cases i <;> norm_num) (by intro i; fin_cases i <;> norm_num [abs_lt]) 1000
  (by norm_num)
