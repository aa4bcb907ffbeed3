import Verif.Model.WholeNumbers
import Verif.Py.Lemmas
import Verif.Array.Core
import Verif.Props.FormulasJumeletHeight

/-! # C87: numbers written without a decimal point -/

open Classical
open PF
noncomputable section

namespace WholeProof
open WholeNumbers

theorem loop_float (T N c S D cp g De : PF) (cond : Jumelet2024.LoopState → Prop) (n : ℕ)
    (s : Jumelet2024.LoopState) :
    whileIterM n cond (WholeNumbers.height_step (.float T) N c S D cp g De) s =
      pure (whileIter n cond (Jumelet2024.height_step T N c S D cp g De) s) := by
  induction n generalizing s with
  | zero => rfl
  | succ n ih =>
    unfold whileIterM whileIter
    split_ifs with h
    · have e : WholeNumbers.height_step (.float T) N c S D cp g De s =
          pure (Jumelet2024.height_step T N c S D cp g De s) := by
        unfold WholeNumbers.height_step Jumelet2024.height_step PyNum.power
        simp only [PyNum.toFloat]
        rw [show (fin ((-2 : ℤ) : ℝ)) = (-2 : PF) by rw [ofNat_eq, neg_fin]; norm_num]
        rfl
      rw [e]
      exact ih _
    · rfl

end WholeProof

open WholeProof

/-- The formula of Jumelet called with a period that is a `float` does what the model of that formula
in the other properties says. -/
theorem C87_jumelet_float (T N c ra S D M cp g s0 : PF) (mi : ℕ) (tol : PF) :
    WholeNumbers.calculate_significant_wave_height_Hs (.float T) N c ra S D M cp g s0 mi tol =
      Jumelet2024.calculate_significant_wave_height_Hs T N c ra S D M cp g s0 mi tol := by
  unfold WholeNumbers.calculate_significant_wave_height_Hs
    Jumelet2024.calculate_significant_wave_height_Hs
  congr 1
  funext D'
  have e : (PyNum.float T).power (.int 2) = pure (.float (npow T 2)) := by
    unfold PyNum.power
    simp only [PyNum.toFloat]
    rw [show (fin ((2 : ℤ) : ℝ)) = (2 : PF) by rw [ofNat_eq]; norm_num]
  rw [e, PyM.pure_def, PyM.bind_ok]
  dsimp only
  rw [loop_float, PyM.pure_def, PyM.bind_ok]
  rfl

example := C87_jumelet_float (.fin 9) (.fin 1000) (.fin 8) (.fin 2650) (.fin 2) (.fin 1) .nan 4.3 9.81 0.03 10
  1e-3

/-- Called with a period that is an `int`, whatever the other arguments, it raises `ValueError`. -/
theorem C87_jumelet_whole_number (T : ℤ) (N c ra S D M cp g s0 : PF) (mi : ℕ) (hmi : 0 < mi) (tol : ℝ) :
    (WholeNumbers.calculate_significant_wave_height_Hs (.int T) N c ra S D M cp g s0 mi (.fin tol)).res =
      .error .valueError := by
  unfold WholeNumbers.calculate_significant_wave_height_Hs
  rcases hD : (CorePhysics.check_usage_Dn50_or_M50 D M ra).res with e | D'
  · rw [PyM.bind_res_of_error hD]
    congr 1
    unfold CorePhysics.check_usage_Dn50_or_M50 at hD
    split_ifs at hD
    · simpa [PyM.raise] using hD.symm
    all_goals simp [PyM.pure_def, PyM.bind_res_of_ok, PyM.warn_def] at hD
  · rw [PyM.bind_res_of_ok hD]
    obtain ⟨k, rfl⟩ : ∃ k, mi = k + 1 := ⟨mi - 1, by omega⟩
    have e : (PyNum.int T).power (.int 2) = pure (.int (T ^ 2)) := rfl
    have e' : ∀ s, (WholeNumbers.height_step (.int T) N c S D' cp g
        (CorePhysics.calculate_buoyant_density_Delta ra 1025) s).res = .error .valueError := fun s =>
      PyM.bind_res_of_error (e := .valueError) (by
        unfold PyNum.power
        dsimp only
        rw [if_pos (by norm_num)]
        rfl) _
    rw [e, PyM.bind_res_of_ok (a := PyNum.int (T ^ 2)) rfl]
    dsimp only
    refine PyM.bind_res_of_error ?_ _
    unfold whileIterM
    rw [if_pos (show pinf > fin tol from trivial)]
    exact PyM.bind_res_of_error (e' _) _

example := C87_jumelet_whole_number 9 (.fin 1000) (.fin 8) (.fin 2650) (.fin 2) (.fin 1) .nan 4.3 9.81 0.03 10
  (by norm_num) 0.001

/-- So a period of 1 s gives a wave height if it is written `1.0` and an exception if it is written `1`. -/
theorem C87_jumelet_refuted : ¬ ∀ (T : ℤ) (N c ra S D M cp g s0 : PF) (mi : ℕ) (tol : PF),
    (WholeNumbers.calculate_significant_wave_height_Hs (.int T) N c ra S D M cp g s0 mi tol).res =
      (WholeNumbers.calculate_significant_wave_height_Hs (.float (.fin T)) N c ra S D M cp g s0 mi tol).res := by
  intro h
  obtain ⟨H, hH⟩ := JumHeightProof.case_met
  have h1 := h 1 (fin 1000) (fin 1) (fin 2050) (fin 2) (fin 1) nan (fin 4) 9.81 (fin 1) 1 (fin 0.001)
  rw [C87_jumelet_whole_number _ _ _ _ _ _ _ _ _ _ _ (by norm_num), C87_jumelet_float, Int.cast_one, hH] at h1
  cases h1

/-- The wave length at several depths for one period that is a `float` is what the model of calls with
arrays says. -/
theorem C87_wavelength_float {n : ℕ} [NeZero n] (disper : PF → PF → PF → PF) (T : PF) (h : Fin n → PF) (g : PF) :
    WholeNumbers.calculate_local_wavelength disper (.float T) h g =
      Arr.CorePhysics.calculate_local_wavelength disper (.num T) (.arr h) g := by
  unfold WholeNumbers.calculate_local_wavelength Arr.CorePhysics.calculate_local_wavelength
  rfl

example := C87_wavelength_float (n := 2) (fun _ _ _ => .fin 1) (.fin 8) ![.fin 5, .fin 6] 9.81

/-- For a period that is an `int` the wave length at several depths raises `TypeError`. -/
theorem C87_wavelength_whole_number {n : ℕ} (hn : 1 < n) (disper : PF → PF → PF → PF) (T : ℤ) (h : Fin n → PF)
    (g : PF) : (WholeNumbers.calculate_local_wavelength disper (.int T) h g).res = .error .typeError := by
  unfold WholeNumbers.calculate_local_wavelength
  rw [if_pos hn]
  rfl

example := C87_wavelength_whole_number (n := 2) (by norm_num) (fun _ _ _ => .fin 1) 8 ![.fin 5, .fin 6] 9.81

end
