import Verif.Props.ScaleToeRear
import Verif.Props.RearPozuetaHeight

/-! # C82: the wave height at a rear slope by Van Gent & Pozueta (2004), solved by iteration from 0.5 m -/

open Classical
open PF VanGentPozueta2004
noncomputable section

/-- C82, wave height by Van Gent & Pozueta (2004): the wave heights with the requested damage follow the scale exactly,
and so do the wave heights returned in a scale model and in the prototype, up to what the tolerances leave at either,
although both iterations start from the same 0.5 m.
Missing: crests with `Bc * gamma_f` above `0.75 * Rc` (where the iteration need not settle, C66), results returned
with the warning about convergence. -/
theorem C82_rear_pozueta_height_partial {lam : ℝ} (hl : 0 < lam)
    (ca cp gf gc T Rc Rr B N D S rr rw cs : ℝ) (M : PF) (hca : 0 < ca) (hcp : 0 < cp)
    (hgf : 0 < gf) (hgc : 0 < gc) (hT : 0 < T) (hRc : 0 < Rc) (hRr : 0 ≤ Rr) (hB : 0 ≤ B) (hN : 0 < N)
    (hw : 0 < rw) (hr : rw < rr) (hcs : 0 < cs) (hD : 0 < D) (hS : 0 < S)
    (hBc : B * gf ≤ 0.75 * Rc) (t t' : ℝ) (n : ℕ) (ht : 0 ≤ t) (ht' : 0 ≤ t') (hn : 1 ≤ n) :
    let full := calculate_maximum_significant_wave_height_Hs (fin ca) (fin cp) (fin gf) (fin gc) (fin S)
        (fin T) (fin Rc) (fin Rr) (fin B) (fin N) (fin D) M (fin rr) (fin rw) (fin cs) (fin t) n
    let model := calculate_maximum_significant_wave_height_Hs (fin ca) (fin cp) (fin gf) (fin gc) (fin S)
        (Scale.time lam (fin T)) (Scale.len lam (fin Rc)) (Scale.len lam (fin Rr)) (Scale.len lam (fin B)) (fin N)
        (Scale.len lam (fin D)) (Scale.vol lam M) (fin rr) (fin rw) (fin cs) (fin t') n
    ∃ H H' : ℝ, 0 < H ∧ 0 < H' ∧ full.res = .ok (fin H) ∧ model.res = .ok (fin H') ∧
      (.text "Maximum number of iterations reached, convergence not achieved" ∉ full.warns →
       .text "Maximum number of iterations reached, convergence not achieved" ∉ model.warns →
       t < H → t' < H' → |Real.log (H' / (lam * H))| ≤ 99 * (t / (H - t) + t' / (H' - t'))) := by
  have hs := Real.sqrt_pos.mpr hl
  have el : ∀ x : ℝ, Scale.len lam (fin x) = fin (lam * x) := fun x => by
    unfold Scale.len Scale.times; rw [mul_fin]
  have et : ∀ x : ℝ, Scale.time lam (fin x) = fin (√lam * x) := fun x => by
    unfold Scale.time Scale.times; rw [mul_fin]
  obtain ⟨p, hp, a, c⟩ := C66_solves_partial ca cp gf gc T Rc Rr B N D S rr rw cs M hca hcp hgf hgc hT hRc hRr hB hN
    hw hr hcs hD hS hBc
  obtain ⟨p', hp', a', c'⟩ := C66_solves_partial ca cp gf gc (√lam * T) (lam * Rc) (lam * Rr) (lam * B) N (lam * D) S
    rr rw cs (Scale.vol lam M) hca hcp hgf hgc (by positivity) (by positivity) (by positivity) (by positivity) hN
    hw hr hcs (by positivity) hS (by nlinarith)
  have e : p' = lam * p := by
    refine ((a' (lam * p) (by positivity)).mp ?_).symm
    obtain ⟨z, k0, k1, k2⟩ := (a p hp).mpr rfl
    refine ⟨lam * z, mul_lt_mul_of_pos_left k0 hl, ?_, ?_⟩
    · have k := (C82_runup_vangent2001 hl).2.1 (fin p) (fin T) (fin gf) (fin ca) 1.45 5.1
      simp only [el, et] at k
      refine k.trans ?_
      rw [← el]; exact congrArg _ k1
    · have k := (C82_rear_vangentpozueta2004_partial hl).1 (fin ca) (fin cp) (fin gf) (fin gc) (fin p) (fin T) (fin Rc)
        (fin Rr) (fin B) (fin N) (fin D) M (fin rr) (fin rw) (fin cs)
      simp only [el, et] at k
      rw [k]; exact k2
  obtain ⟨H, hH, r, d, -⟩ := c t n ht hn
  obtain ⟨H', hH', r', d', -⟩ := c' t' n ht' hn
  simp only [el, et]
  refine ⟨H, H', hH, hH', r, r', fun w w' h h' => ?_⟩
  have e1 := d w h
  have e2 := d' w' h'
  rw [e, Real.log_mul hl.ne' hp.ne'] at e2
  rw [Real.log_div hH'.ne' (by positivity), Real.log_mul hl.ne' hH.ne', mul_add]
  rw [abs_le] at *
  constructor <;> linarith [e1.1, e1.2, e2.1, e2.2]

/-- a case meeting the hypotheses: a flume test at a scale of 1 to 25 -/
example := C82_rear_pozueta_height_partial (lam := 1 / 25) (by norm_num) (ca := 2) (cp := 2) (gf := 0.5) (gc := 0.6)
  (T := 8) (Rc := 3) (Rr := 3) (B := 4) (N := 2000) (D := 0.5) (S := 5) (rr := 2650) (rw := 1025) (cs := 1e-12) nan
  (by norm_num) (by norm_num) (by norm_num) (by norm_num) (by norm_num) (by norm_num) (by norm_num) (by norm_num)
  (by norm_num) (by norm_num) (by norm_num) (by norm_num) (by norm_num) (by norm_num) (by norm_num)
  (t := 1e-5) (t' := 4e-7) (n := 2000) (by norm_num) (by norm_num) (by norm_num)
end
