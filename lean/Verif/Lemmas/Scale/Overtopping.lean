import Verif.Lemmas.Scale
import Verif.Model.Overtopping
/-! Dimensions of the quantities of `Verif/Model/Overtopping.lean`. -/

open Classical
open PF
open CorePhysics CoreUtility
noncomputable section

namespace ScaleProof

variable {l : {x : ℝ // 0 < x}}
set_option maxHeartbeats 1000000

theorem OvertoppingTaw2002_check_validity_range (Hm0 Tmm10 beta cot_alpha cot_alpha_down cot_alpha_up gamma_f
    gamma_b gamma_beta gamma_v : PF) :
    OvertoppingTaw2002.check_validity_range (sc l 1 Hm0) (sc l (1 / 2) Tmm10) beta cot_alpha cot_alpha_down
        cot_alpha_up gamma_f gamma_b gamma_beta gamma_v =
      OvertoppingTaw2002.check_validity_range Hm0 Tmm10 beta cot_alpha cot_alpha_down cot_alpha_up gamma_f
          gamma_b gamma_beta gamma_v := by
  unfold OvertoppingTaw2002.check_validity_range
  dims [steep, steep_nan, steep_nan', irib, irib_nan, irib_nan', map_bind, map_pure, bind_map_left]

theorem OvertoppingTaw2002_q_diml_max_equation (Hm0 Rc gamma_beta gamma_f c3 cor3 c2 : PF) :
    OvertoppingTaw2002.q_diml_max_equation (sc l 1 Hm0) (sc l 1 Rc) gamma_beta gamma_f c3 cor3 c2 =
      OvertoppingTaw2002.q_diml_max_equation Hm0 Rc gamma_beta gamma_f c3 cor3 c2 := by
  unfold OvertoppingTaw2002.q_diml_max_equation
  dims []

theorem OvertoppingTaw2002_Rc_diml_max_equation (Hm0 q gamma_beta gamma_f c3 cor3 c2 g : PF) :
    OvertoppingTaw2002.Rc_diml_max_equation (sc l 1 Hm0) (sc l (3 / 2) q) gamma_beta gamma_f c3 cor3 c2 g =
      OvertoppingTaw2002.Rc_diml_max_equation Hm0 q gamma_beta gamma_f c3 cor3 c2 g := by
  unfold OvertoppingTaw2002.Rc_diml_max_equation
  dims []

theorem OvertoppingEurOtop2007_calculate_dimensionless_overtopping_discharge_q_rubble_mound (Hm0 Tmm10 Rc beta
    gamma_beta gamma_f cot_alpha c2 c3 : PF) (use_best_fit : Bool) :
    OvertoppingEurOtop2007.calculate_dimensionless_overtopping_discharge_q_rubble_mound (sc l 1 Hm0) (sc l (1
        / 2) Tmm10) (sc l 1 Rc) beta gamma_beta gamma_f cot_alpha c2 c3 use_best_fit =
      OvertoppingEurOtop2007.calculate_dimensionless_overtopping_discharge_q_rubble_mound Hm0 Tmm10 Rc beta
          gamma_beta gamma_f cot_alpha c2 c3 use_best_fit := by
  unfold OvertoppingEurOtop2007.calculate_dimensionless_overtopping_discharge_q_rubble_mound
  dims [irib, irib_nan, irib_nan', map_bind, map_pure, bind_map_left, OvertoppingTaw2002_q_diml_max_equation]

theorem OvertoppingEurOtop2007_calculate_overtopping_discharge_q_rubble_mound (Hm0 Tmm10 Rc beta gamma_beta
    gamma_f cot_alpha c2 c3 : PF) (use_best_fit : Bool) (g : PF) :
    OvertoppingEurOtop2007.calculate_overtopping_discharge_q_rubble_mound (sc l 1 Hm0) (sc l (1 / 2) Tmm10)
        (sc l 1 Rc) beta gamma_beta gamma_f cot_alpha c2 c3 use_best_fit g =
      sc l (3 / 2) <$> OvertoppingEurOtop2007.calculate_overtopping_discharge_q_rubble_mound Hm0 Tmm10 Rc beta
          gamma_beta gamma_f cot_alpha c2 c3 use_best_fit g := by
  unfold OvertoppingEurOtop2007.calculate_overtopping_discharge_q_rubble_mound
  dims [map_bind, map_pure, bind_map_left,
      OvertoppingEurOtop2007_calculate_dimensionless_overtopping_discharge_q_rubble_mound]

theorem OvertoppingEurOtop2007_calculate_dimensionless_crest_freeboard_rubble_mound (Hm0 Tmm10 q beta
    gamma_beta gamma_f cot_alpha c2 c3 : PF) (use_best_fit : Bool) :
    OvertoppingEurOtop2007.calculate_dimensionless_crest_freeboard_rubble_mound (sc l 1 Hm0) (sc l (1 / 2)
        Tmm10) (sc l (3 / 2) q) beta gamma_beta gamma_f cot_alpha c2 c3 use_best_fit =
      OvertoppingEurOtop2007.calculate_dimensionless_crest_freeboard_rubble_mound Hm0 Tmm10 q beta gamma_beta
          gamma_f cot_alpha c2 c3 use_best_fit := by
  unfold OvertoppingEurOtop2007.calculate_dimensionless_crest_freeboard_rubble_mound
  dims [irib, irib_nan, irib_nan', map_bind, map_pure, bind_map_left, OvertoppingTaw2002_Rc_diml_max_equation]

theorem OvertoppingEurOtop2007_calculate_crest_freeboard_Rc_rubble_mound (Hm0 Tmm10 q beta gamma_beta gamma_f
    cot_alpha c2 c3 : PF) (use_best_fit : Bool) :
    OvertoppingEurOtop2007.calculate_crest_freeboard_Rc_rubble_mound (sc l 1 Hm0) (sc l (1 / 2) Tmm10) (sc l
        (3 / 2) q) beta gamma_beta gamma_f cot_alpha c2 c3 use_best_fit =
      sc l 1 <$> OvertoppingEurOtop2007.calculate_crest_freeboard_Rc_rubble_mound Hm0 Tmm10 q beta gamma_beta
          gamma_f cot_alpha c2 c3 use_best_fit := by
  unfold OvertoppingEurOtop2007.calculate_crest_freeboard_Rc_rubble_mound
  dims [map_bind, map_pure, bind_map_left,
      OvertoppingEurOtop2007_calculate_dimensionless_crest_freeboard_rubble_mound]

theorem OvertoppingEurOtop2018_q_diml_max_equation (Hm0 Rc gamma_beta gamma_f gamma_star c2 c3 : PF) :
    OvertoppingEurOtop2018.q_diml_max_equation (sc l 1 Hm0) (sc l 1 Rc) gamma_beta gamma_f gamma_star c2 c3 =
      OvertoppingEurOtop2018.q_diml_max_equation Hm0 Rc gamma_beta gamma_f gamma_star c2 c3 := by
  unfold OvertoppingEurOtop2018.q_diml_max_equation
  dims []

theorem OvertoppingEurOtop2018_Rc_diml_max_equation (Hm0 q gamma_beta gamma_f gamma_star c2 c3 g : PF) :
    OvertoppingEurOtop2018.Rc_diml_max_equation (sc l 1 Hm0) (sc l (3 / 2) q) gamma_beta gamma_f gamma_star c2
        c3 g =
      OvertoppingEurOtop2018.Rc_diml_max_equation Hm0 q gamma_beta gamma_f gamma_star c2 c3 g := by
  unfold OvertoppingEurOtop2018.Rc_diml_max_equation
  dims []

open RunupTaw2002

def runupArgs (l : {x : ℝ // 0 < x}) (a : Args) : Args :=
  { a with Hm0 := sc l 1 a.Hm0, Tmm10 := sc l (1 / 2) a.Tmm10, B_berm := sc l 1 a.B_berm, db := sc l 1 a.db }

def first (l : {x : ℝ // 0 < x}) (e : ℝ) (r : PF × Bool) : PF × Bool := (sc l e r.1, r.2)

theorem slopeAvg (Hm0 z2p cot_alpha_down cot_alpha_up B_berm db : PF) :
    determine_average_slope (sc l 1 Hm0) (sc l 1 z2p) cot_alpha_down cot_alpha_up (sc l 1 B_berm) (sc l 1 db) =
      determine_average_slope Hm0 z2p cot_alpha_down cot_alpha_up B_berm db := by
  unfold determine_average_slope
  dims []

theorem bermLen (Hm0 B_berm cot_alpha cot_alpha_down cot_alpha_up : PF) :
    calculate_berm_length (sc l 1 Hm0) (sc l 1 B_berm) cot_alpha cot_alpha_down cot_alpha_up =
      sc l 1 <$> calculate_berm_length Hm0 B_berm cot_alpha cot_alpha_down cot_alpha_up := by
  unfold calculate_berm_length
  dims [map_bind, map_pure]

theorem bermFactor (Hm0 z2p db B_berm L_berm : PF) :
    calculate_influence_berm_gamma_b (sc l 1 Hm0) (sc l 1 z2p) (sc l 1 db) (sc l 1 B_berm) (sc l 1 L_berm) =
      calculate_influence_berm_gamma_b Hm0 z2p db B_berm L_berm := by
  unfold calculate_influence_berm_gamma_b
  dims []

/-- not a composite slope -/

def Uniform (down up : PF) : Prop := down.isnan ∨ up.isnan

theorem composite_uniform {down up : PF} (hu : Uniform down up) (c : PF) :
    check_composite_slope c down up = PyM.raise .valueError ∨ check_composite_slope c down up = pure false := by
  unfold check_composite_slope
  split_ifs with h1 h2
  · exact Or.inl rfl
  · rcases hu with h | h
    · exact absurd h h2.1
    · exact absurd h h2.2
  · exact Or.inr rfl

theorem gammaB_rec {f f' : Args → PyM (PF × Bool)}
    (hf : ∀ a, Uniform a.cot_alpha_down a.cot_alpha_up → f' (runupArgs l a) = first l 1 <$> f a)
    (Hm0 Tmm10 cot B_berm L_berm db gamma_beta c1 c2 c3 c4 : PF) (b : Bool) (gamma_f : PF) :
    iteration_procedure_gamma_b_rec f' (sc l 1 Hm0) (sc l (1 / 2) Tmm10) cot (sc l 1 B_berm) (sc l 1 L_berm) (sc l 1 db) gamma_beta c1 c2 c3 c4 b gamma_f =
      iteration_procedure_gamma_b_rec f Hm0 Tmm10 cot B_berm L_berm db gamma_beta c1 c2 c3 c4 b gamma_f := by
  have hf' : ∀ gb, f' { Hm0 := sc l 1 Hm0, Tmm10 := sc l (1 / 2) Tmm10, cot_alpha := cot, gamma_b := gb, gamma_f := gamma_f, gamma_beta := gamma_beta, c1 := c1, c2 := c2, c3 := c3, c4 := c4, use_best_fit := b } =
      first l 1 <$> f { Hm0 := Hm0, Tmm10 := Tmm10, cot_alpha := cot, gamma_b := gb, gamma_f := gamma_f, gamma_beta := gamma_beta, c1 := c1, c2 := c2, c3 := c3, c4 := c4, use_best_fit := b } := by
    intro gb
    refine Eq.trans ?_ (hf { Hm0 := Hm0, Tmm10 := Tmm10, cot_alpha := cot, gamma_b := gb, gamma_f := gamma_f, gamma_beta := gamma_beta, c1 := c1, c2 := c2, c3 := c3, c4 := c4, use_best_fit := b } (Or.inl trivial))
    congr 1
    simp only [runupArgs]
    congr 1 <;> (rw [sci_eq]; norm_num only []; exact zero_sc)
  unfold iteration_procedure_gamma_b_rec
  have z : ∀ x, PF.eqF (sc l 1 x) 0.0 = PF.eqF x 0.0 := fun x => by
    rw [show (0.0 : PF) = fin 0 by rw [sci_eq]; norm_num, sc_eqF_zero]
  rw [hf', z, z]
  split_ifs
  · rfl
  · rw [bind_map_left]
    congr 1
    funext r
    dsimp only [first]
    rw [bermFactor, hf', bind_map_left]
    dsimp only [first]
    congr 1
    funext r
    rw [bermFactor]

theorem diml_scale (n : ℕ) (a : Args) (hu : Uniform a.cot_alpha_down a.cot_alpha_up) :
    diml_depth n (runupArgs l a) = diml_depth n a := by
  induction n generalizing a with
  | zero => rfl
  | succ n ih =>
    have hh : ∀ a, Uniform a.cot_alpha_down a.cot_alpha_up →
        height_of (diml_depth n) (runupArgs l a) = first l 1 <$> height_of (diml_depth n) a := by
      intro a hu
      unfold height_of
      rw [ih a hu, map_bind]
      simp only [map_pure, first, runupArgs, mul_sc]
    have hb : ∀ cot gb c1 c2 c3 c4, berm_rec (height_of (diml_depth n)) (runupArgs l a) cot gb c1 c2 c3 c4 =
        berm_rec (height_of (diml_depth n)) a cot gb c1 c2 c3 c4 := by
      intro cot gb c1 c2 c3 c4
      unfold berm_rec
      simp only [runupArgs, bermLen, bind_map_left, gammaB_rec hh]
    have hs : ∀ gb c1 c2 c3 c4, slope_rec (height_of (diml_depth n)) (runupArgs l a) gb c1 c2 c3 c4 =
        slope_rec (height_of (diml_depth n)) a gb c1 c2 c3 c4 := by
      intro gb c1 c2 c3 c4
      unfold slope_rec
      simp only [runupArgs]
      rcases composite_uniform hu a.cot_alpha with h | h <;> rw [h]
      · rfl
      · simp
    show diml_rec _ _ = diml_rec _ _
    unfold diml_rec
    simp only [hb, hs]
    simp only [runupArgs, irib]
    unfold check_validity_range
    simp only [steep, irib, check_given, check_given2]
    rfl

theorem diml_z2p (a : Args) (hu : Uniform a.cot_alpha_down a.cot_alpha_up) :
    calculate_dimensionless_wave_runup_height_z2p (runupArgs l a) = calculate_dimensionless_wave_runup_height_z2p a :=
  diml_scale 2 a hu

theorem height_z2p (a : Args) (hu : Uniform a.cot_alpha_down a.cot_alpha_up) :
    calculate_wave_runup_height_z2p (runupArgs l a) = first l 1 <$> calculate_wave_runup_height_z2p a := by
  unfold calculate_wave_runup_height_z2p height_of
  rw [diml_z2p a hu, map_bind]
  simp only [map_pure, first, runupArgs, mul_sc]

theorem gammaB (Hm0 Tmm10 cot B_berm L_berm db gamma_beta c1 c2 c3 c4 : PF) (b : Bool) (gamma_f : PF) :
    iteration_procedure_gamma_b (sc l 1 Hm0) (sc l (1 / 2) Tmm10) cot (sc l 1 B_berm) (sc l 1 L_berm) (sc l 1 db) gamma_beta c1 c2 c3 c4 b gamma_f =
      iteration_procedure_gamma_b Hm0 Tmm10 cot B_berm L_berm db gamma_beta c1 c2 c3 c4 b gamma_f :=
  gammaB_rec (fun a hu => height_z2p a hu) ..

theorem z2pIter (Hm0 Tmm10 cot_alpha_down cot_alpha_up B_berm db gamma_f gamma_beta c1 c2 c3 c4 : PF) (b : Bool) (tol : PF) (n : ℤ) :
    iteration_procedure_z2p (sc l 1 Hm0) (sc l (1 / 2) Tmm10) cot_alpha_down cot_alpha_up (sc l 1 B_berm) (sc l 1 db) gamma_f gamma_beta c1 c2 c3 c4 b (sc l 1 tol) n =
      sc l 1 <$> iteration_procedure_z2p Hm0 Tmm10 cot_alpha_down cot_alpha_up B_berm db gamma_f gamma_beta c1 c2 c3 c4 b tol n := by
  have hf' : ∀ gb cot, calculate_wave_runup_height_z2p { Hm0 := sc l 1 Hm0, Tmm10 := sc l (1 / 2) Tmm10, cot_alpha := cot, gamma_b := gb, gamma_f := gamma_f, gamma_beta := gamma_beta, c1 := c1, c2 := c2, c3 := c3, c4 := c4, use_best_fit := b } =
      first l 1 <$> calculate_wave_runup_height_z2p { Hm0 := Hm0, Tmm10 := Tmm10, cot_alpha := cot, gamma_b := gb, gamma_f := gamma_f, gamma_beta := gamma_beta, c1 := c1, c2 := c2, c3 := c3, c4 := c4, use_best_fit := b } := by
    intro gb cot
    refine Eq.trans ?_ (height_z2p { Hm0 := Hm0, Tmm10 := Tmm10, cot_alpha := cot, gamma_b := gb, gamma_f := gamma_f, gamma_beta := gamma_beta, c1 := c1, c2 := c2, c3 := c3, c4 := c4, use_best_fit := b } (Or.inl trivial))
    congr 1
    simp only [runupArgs]
    congr 1 <;> (rw [sci_eq]; norm_num only []; exact zero_sc)
  unfold iteration_procedure_z2p iteration_procedure_z2p_rec
  dsimp only
  have e1 : 1.5 * sc l 1 Hm0 + 2 * sc l 1 tol = sc l 1 (1.5 * Hm0 + 2 * tol) := by rw [mul_sc, mul_sc, sc_add]
  rw [e1, mul_sc]
  have h := loopM_map (fun s : PF × PF => (sc l 1 s.1, sc l 1 s.2))
    (c := fun s : PF × PF => PF.abs (s.1 - s.2) > tol) (c' := fun s : PF × PF => PF.abs (s.1 - s.2) > sc l 1 tol)
    (b := fun s => do
      let L_berm ← calculate_berm_length Hm0 B_berm (cot_alpha_down := cot_alpha_down) (cot_alpha_up := cot_alpha_up)
      let r ← calculate_wave_runup_height_z2p { Hm0 := Hm0, Tmm10 := Tmm10, cot_alpha := determine_average_slope Hm0 s.1 cot_alpha_down cot_alpha_up B_berm db, gamma_b := calculate_influence_berm_gamma_b Hm0 s.1 db B_berm L_berm, gamma_f := gamma_f, gamma_beta := gamma_beta, c1 := c1, c2 := c2, c3 := c3, c4 := c4, use_best_fit := b }
      pure (r.1, s.1))
    (b' := fun s => do
      let L_berm ← calculate_berm_length (sc l 1 Hm0) (sc l 1 B_berm) (cot_alpha_down := cot_alpha_down) (cot_alpha_up := cot_alpha_up)
      let r ← calculate_wave_runup_height_z2p { Hm0 := sc l 1 Hm0, Tmm10 := sc l (1 / 2) Tmm10, cot_alpha := determine_average_slope (sc l 1 Hm0) s.1 cot_alpha_down cot_alpha_up (sc l 1 B_berm) (sc l 1 db), gamma_b := calculate_influence_berm_gamma_b (sc l 1 Hm0) s.1 (sc l 1 db) (sc l 1 B_berm) L_berm, gamma_f := gamma_f, gamma_beta := gamma_beta, c1 := c1, c2 := c2, c3 := c3, c4 := c4, use_best_fit := b }
      pure (r.1, s.1))
    (fun s => by dims [])
    (fun s => by
      simp only [bermLen, bind_map_left, slopeAvg, bermFactor, hf', map_bind, map_pure, first])
    (n + 1).toNat (1.5 * Hm0, 1.5 * Hm0 + 2 * tol)
  dsimp only at h
  rw [h, bind_map_left, map_bind]
  rfl

theorem raise_bind {α β : Type} (e : PyErr) (f : α → PyM β) : ((PyM.raise e : PyM α) >>= f) = PyM.raise e := rfl

theorem qmaxTaw (Hm0 Rc gb gf c3 cor3 c2 : PF) :
    OvertoppingTaw2002.q_diml_max_equation (sc l 1 Hm0) (sc l 1 Rc) gb gf c3 cor3 c2 =
      OvertoppingTaw2002.q_diml_max_equation Hm0 Rc gb gf c3 cor3 c2 := by
  unfold OvertoppingTaw2002.q_diml_max_equation
  dims []

theorem RcmaxTaw (Hm0 q gb gf c3 cor3 c2 g : PF) :
    OvertoppingTaw2002.Rc_diml_max_equation (sc l 1 Hm0) (sc l (3 / 2) q) gb gf c3 cor3 c2 g =
      OvertoppingTaw2002.Rc_diml_max_equation Hm0 q gb gf c3 cor3 c2 g := by
  unfold OvertoppingTaw2002.Rc_diml_max_equation
  dims []

theorem rootq (Hm0 g : PF) : PF.sqrt (g * npow (sc l 1 Hm0) 3) = sc l (3 / 2) (PF.sqrt (g * npow Hm0 3)) := by
  dims []

theorem ratioR (Rc Hm0 : PF) : sc l 1 Rc / sc l 1 Hm0 = Rc / Hm0 := by dims []

theorem ratioq (q x : PF) : sc l (3 / 2) q / sc l (3 / 2) x = q / x := by dims []

theorem checkTaw (Hm0 Tmm10 beta c d u gf gb gbe gv : PF) :
    OvertoppingTaw2002.check_validity_range (sc l 1 Hm0) (sc l (1 / 2) Tmm10) beta c d u gf gb gbe gv =
      OvertoppingTaw2002.check_validity_range Hm0 Tmm10 beta c d u gf gb gbe gv := by
  unfold OvertoppingTaw2002.check_validity_range
  simp only [steep, irib, check_given, check_given2]

theorem OvertoppingTaw2002_calculate_dimensionless_overtopping_discharge_q (Hm0 Tmm10 Rc cot_alpha cot_alpha_down cot_alpha_up beta B_berm db gamma_beta gamma_b gamma_f gamma_v sigma : PF) (use_best_fit : Bool)
    (hu : Uniform cot_alpha_down cot_alpha_up) :
    OvertoppingTaw2002.calculate_dimensionless_overtopping_discharge_q (sc l 1 Hm0) (sc l (1 / 2) Tmm10) (sc l 1 Rc) cot_alpha cot_alpha_down cot_alpha_up beta (sc l 1 B_berm) (sc l 1 db) gamma_beta gamma_b gamma_f gamma_v sigma use_best_fit =
      OvertoppingTaw2002.calculate_dimensionless_overtopping_discharge_q Hm0 Tmm10 Rc cot_alpha cot_alpha_down cot_alpha_up beta B_berm db gamma_beta gamma_b gamma_f gamma_v sigma use_best_fit := by
  unfold OvertoppingTaw2002.calculate_dimensionless_overtopping_discharge_q
  rcases composite_uniform hu cot_alpha with h | h <;> rw [h]
  · simp only [raise_bind]
  · simp only [Bool.false_eq_true, if_false, pure_bind, irib, bermLen, bind_map_left, gammaB, qmaxTaw, ratioR, checkTaw]

theorem OvertoppingTaw2002_calculate_overtopping_discharge_q (Hm0 Tmm10 Rc cot_alpha cot_alpha_down cot_alpha_up beta B_berm db gamma_beta gamma_b gamma_f gamma_v sigma g : PF) (use_best_fit : Bool)
    (hu : Uniform cot_alpha_down cot_alpha_up) :
    OvertoppingTaw2002.calculate_overtopping_discharge_q (sc l 1 Hm0) (sc l (1 / 2) Tmm10) (sc l 1 Rc) cot_alpha cot_alpha_down cot_alpha_up beta (sc l 1 B_berm) (sc l 1 db) gamma_beta gamma_b gamma_f gamma_v sigma g use_best_fit =
      first l (3 / 2) <$> OvertoppingTaw2002.calculate_overtopping_discharge_q Hm0 Tmm10 Rc cot_alpha cot_alpha_down cot_alpha_up beta B_berm db gamma_beta gamma_b gamma_f gamma_v sigma g use_best_fit := by
  unfold OvertoppingTaw2002.calculate_overtopping_discharge_q
  rw [OvertoppingTaw2002_calculate_dimensionless_overtopping_discharge_q _ _ _ _ _ _ _ _ _ _ _ _ _ _ _ hu]
  simp only [map_bind, map_pure, first, rootq, mul_sc]

theorem OvertoppingTaw2002_calculate_dimensionless_crest_freeboard (Hm0 Tmm10 q cot_alpha cot_alpha_down cot_alpha_up beta B_berm db gamma_beta gamma_b gamma_f gamma_v sigma g : PF) (use_best_fit : Bool)
    (hu : Uniform cot_alpha_down cot_alpha_up) :
    OvertoppingTaw2002.calculate_dimensionless_crest_freeboard (sc l 1 Hm0) (sc l (1 / 2) Tmm10) (sc l (3 / 2) q) cot_alpha cot_alpha_down cot_alpha_up beta (sc l 1 B_berm) (sc l 1 db) gamma_beta gamma_b gamma_f gamma_v sigma g use_best_fit =
      OvertoppingTaw2002.calculate_dimensionless_crest_freeboard Hm0 Tmm10 q cot_alpha cot_alpha_down cot_alpha_up beta B_berm db gamma_beta gamma_b gamma_f gamma_v sigma g use_best_fit := by
  unfold OvertoppingTaw2002.calculate_dimensionless_crest_freeboard
  rcases composite_uniform hu cot_alpha with h | h <;> rw [h]
  · simp only [raise_bind]
  · simp only [Bool.false_eq_true, if_false, pure_bind, irib, bermLen, bind_map_left, gammaB, RcmaxTaw, rootq, mul_sc, ratioq, checkTaw]

theorem OvertoppingTaw2002_calculate_crest_freeboard_Rc (Hm0 Tmm10 q cot_alpha cot_alpha_down cot_alpha_up beta B_berm db gamma_beta gamma_b gamma_f gamma_v sigma g : PF) (use_best_fit : Bool)
    (hu : Uniform cot_alpha_down cot_alpha_up) :
    OvertoppingTaw2002.calculate_crest_freeboard_Rc (sc l 1 Hm0) (sc l (1 / 2) Tmm10) (sc l (3 / 2) q) cot_alpha cot_alpha_down cot_alpha_up beta (sc l 1 B_berm) (sc l 1 db) gamma_beta gamma_b gamma_f gamma_v sigma g use_best_fit =
      first l 1 <$> OvertoppingTaw2002.calculate_crest_freeboard_Rc Hm0 Tmm10 q cot_alpha cot_alpha_down cot_alpha_up beta B_berm db gamma_beta gamma_b gamma_f gamma_v sigma g use_best_fit := by
  unfold OvertoppingTaw2002.calculate_crest_freeboard_Rc
  rw [OvertoppingTaw2002_calculate_dimensionless_crest_freeboard _ _ _ _ _ _ _ _ _ _ _ _ _ _ _ _ hu]
  simp only [map_bind, map_pure, first, mul_sc]

theorem gammaB18 (Hm0 Tmm10 cot B_berm L_berm db gamma_beta c1 c2 c3 c4 : PF) (b : Bool) (gamma_f : PF) :
    RunupEurOtop2018.iteration_procedure_gamma_b (sc l 1 Hm0) (sc l (1 / 2) Tmm10) cot (sc l 1 B_berm) (sc l 1 L_berm) (sc l 1 db) gamma_beta c1 c2 c3 c4 b gamma_f =
      RunupEurOtop2018.iteration_procedure_gamma_b Hm0 Tmm10 cot B_berm L_berm db gamma_beta c1 c2 c3 c4 b gamma_f :=
  gammaB ..

theorem z2pIter18 (Hm0 Tmm10 cot_alpha_down cot_alpha_up B_berm db gamma_f gamma_beta c1 c2 c3 c4 : PF) (b : Bool) (tol : PF) (n : ℤ) :
    RunupEurOtop2018.iteration_procedure_z2p (sc l 1 Hm0) (sc l (1 / 2) Tmm10) cot_alpha_down cot_alpha_up (sc l 1 B_berm) (sc l 1 db) gamma_f gamma_beta c1 c2 c3 c4 b (sc l 1 tol) n =
      sc l 1 <$> RunupEurOtop2018.iteration_procedure_z2p Hm0 Tmm10 cot_alpha_down cot_alpha_up B_berm db gamma_f gamma_beta c1 c2 c3 c4 b tol n :=
  z2pIter ..

theorem runup18 (Hm0 Tmm10 beta gamma_beta gamma_b gamma_f B_berm db cot_alpha cot_alpha_down cot_alpha_up c1 c2 c3 c4 : PF) (b : Bool)
    (hu : Uniform cot_alpha_down cot_alpha_up) :
    RunupEurOtop2018.calculate_dimensionless_wave_runup_height_z2p (sc l 1 Hm0) (sc l (1 / 2) Tmm10) beta gamma_beta gamma_b gamma_f (sc l 1 B_berm) (sc l 1 db) cot_alpha cot_alpha_down cot_alpha_up c1 c2 c3 c4 b =
      RunupEurOtop2018.calculate_dimensionless_wave_runup_height_z2p Hm0 Tmm10 beta gamma_beta gamma_b gamma_f B_berm db cot_alpha cot_alpha_down cot_alpha_up c1 c2 c3 c4 b := by
  unfold RunupEurOtop2018.calculate_dimensionless_wave_runup_height_z2p
  exact diml_z2p (l := l) { Hm0 := Hm0, Tmm10 := Tmm10, gamma_beta := RunupEurOtop2018.calculate_influence_oblique_waves_gamma_beta beta gamma_f, gamma_b := gamma_b, gamma_f := gamma_f, B_berm := B_berm, db := db, cot_alpha := cot_alpha, cot_alpha_down := cot_alpha_down, cot_alpha_up := cot_alpha_up, c1 := (RunupEurOtop2018.check_best_fit c1 c2 c3 c4 b).1, c2 := (RunupEurOtop2018.check_best_fit c1 c2 c3 c4 b).2.1, c3 := (RunupEurOtop2018.check_best_fit c1 c2 c3 c4 b).2.2.1, c4 := (RunupEurOtop2018.check_best_fit c1 c2 c3 c4 b).2.2.2 } hu

theorem height18 (Hm0 Tmm10 beta gamma_beta gamma_b gamma_f B_berm db cot_alpha cot_alpha_down cot_alpha_up c1 c2 c3 c4 : PF) (b : Bool)
    (hu : Uniform cot_alpha_down cot_alpha_up) :
    RunupEurOtop2018.calculate_wave_runup_height_z2p (sc l 1 Hm0) (sc l (1 / 2) Tmm10) beta gamma_beta gamma_b gamma_f (sc l 1 B_berm) (sc l 1 db) cot_alpha cot_alpha_down cot_alpha_up c1 c2 c3 c4 b =
      first l 1 <$> RunupEurOtop2018.calculate_wave_runup_height_z2p Hm0 Tmm10 beta gamma_beta gamma_b gamma_f B_berm db cot_alpha cot_alpha_down cot_alpha_up c1 c2 c3 c4 b := by
  unfold RunupEurOtop2018.calculate_wave_runup_height_z2p
  rw [runup18 _ _ _ _ _ _ _ _ _ _ _ _ _ _ _ _ hu]
  simp only [map_bind, map_pure, first, mul_sc]

theorem qmax18 (Hm0 Rc gb gf gs c2 c3 : PF) :
    OvertoppingEurOtop2018.q_diml_max_equation (sc l 1 Hm0) (sc l 1 Rc) gb gf gs c2 c3 =
      OvertoppingEurOtop2018.q_diml_max_equation Hm0 Rc gb gf gs c2 c3 := by
  unfold OvertoppingEurOtop2018.q_diml_max_equation
  dims []

theorem Rcmax18 (Hm0 q gb gf gs c2 c3 g : PF) :
    OvertoppingEurOtop2018.Rc_diml_max_equation (sc l 1 Hm0) (sc l (3 / 2) q) gb gf gs c2 c3 g =
      OvertoppingEurOtop2018.Rc_diml_max_equation Hm0 q gb gf gs c2 c3 g := by
  unfold OvertoppingEurOtop2018.Rc_diml_max_equation
  dims []

theorem E18_q (Hm0 Tmm10 Rc beta gamma_beta gamma_b gamma_f gamma_v gamma_star B_berm db cot_alpha cot_alpha_down cot_alpha_up c1 c2 c3 c4 : PF) (use_best_fit : Bool)
    (hu : Uniform cot_alpha_down cot_alpha_up) :
    OvertoppingEurOtop2018.calculate_dimensionless_overtopping_discharge_q (sc l 1 Hm0) (sc l (1 / 2) Tmm10) (sc l 1 Rc) beta gamma_beta gamma_b gamma_f gamma_v gamma_star (sc l 1 B_berm) (sc l 1 db) cot_alpha cot_alpha_down cot_alpha_up c1 c2 c3 c4 use_best_fit =
      OvertoppingEurOtop2018.calculate_dimensionless_overtopping_discharge_q Hm0 Tmm10 Rc beta gamma_beta gamma_b gamma_f gamma_v gamma_star B_berm db cot_alpha cot_alpha_down cot_alpha_up c1 c2 c3 c4 use_best_fit := by
  unfold OvertoppingEurOtop2018.calculate_dimensionless_overtopping_discharge_q
  rcases composite_uniform hu cot_alpha with h | h <;> rw [h]
  · simp only [raise_bind]
  · simp only [Bool.false_eq_true, if_false, pure_bind, irib, bermLen, bind_map_left, gammaB18, qmax18, ratioR]

theorem E18_Q (Hm0 Tmm10 Rc beta gamma_beta gamma_b gamma_f gamma_v gamma_star B_berm db cot_alpha cot_alpha_down cot_alpha_up c1 c2 c3 c4 : PF) (use_best_fit : Bool) (g : PF)
    (hu : Uniform cot_alpha_down cot_alpha_up) :
    OvertoppingEurOtop2018.calculate_overtopping_discharge_q (sc l 1 Hm0) (sc l (1 / 2) Tmm10) (sc l 1 Rc) beta gamma_beta gamma_b gamma_f gamma_v gamma_star (sc l 1 B_berm) (sc l 1 db) cot_alpha cot_alpha_down cot_alpha_up c1 c2 c3 c4 use_best_fit g =
      first l (3 / 2) <$> OvertoppingEurOtop2018.calculate_overtopping_discharge_q Hm0 Tmm10 Rc beta gamma_beta gamma_b gamma_f gamma_v gamma_star B_berm db cot_alpha cot_alpha_down cot_alpha_up c1 c2 c3 c4 use_best_fit g := by
  unfold OvertoppingEurOtop2018.calculate_overtopping_discharge_q
  rw [E18_q _ _ _ _ _ _ _ _ _ _ _ _ _ _ _ _ _ _ _ hu]
  simp only [map_bind, map_pure, first, rootq, mul_sc]

theorem E18_rc (Hm0 Tmm10 q beta gamma_beta gamma_b gamma_f gamma_v gamma_star B_berm db cot_alpha cot_alpha_down cot_alpha_up c1 c2 c3 c4 : PF) (use_best_fit : Bool) (g : PF)
    (hu : Uniform cot_alpha_down cot_alpha_up) :
    OvertoppingEurOtop2018.calculate_dimensionless_crest_freeboard (sc l 1 Hm0) (sc l (1 / 2) Tmm10) (sc l (3 / 2) q) beta gamma_beta gamma_b gamma_f gamma_v gamma_star (sc l 1 B_berm) (sc l 1 db) cot_alpha cot_alpha_down cot_alpha_up c1 c2 c3 c4 use_best_fit g =
      OvertoppingEurOtop2018.calculate_dimensionless_crest_freeboard Hm0 Tmm10 q beta gamma_beta gamma_b gamma_f gamma_v gamma_star B_berm db cot_alpha cot_alpha_down cot_alpha_up c1 c2 c3 c4 use_best_fit g := by
  unfold OvertoppingEurOtop2018.calculate_dimensionless_crest_freeboard
  rcases composite_uniform hu cot_alpha with h | h <;> rw [h]
  · simp only [raise_bind]
  · simp only [Bool.false_eq_true, if_false, pure_bind, irib, bermLen, bind_map_left, gammaB18, Rcmax18, rootq, ratioq]

theorem E18_Rc (Hm0 Tmm10 q beta gamma_beta gamma_b gamma_f gamma_v gamma_star B_berm db cot_alpha cot_alpha_down cot_alpha_up c1 c2 c3 c4 : PF) (use_best_fit : Bool) (g : PF)
    (hu : Uniform cot_alpha_down cot_alpha_up) :
    OvertoppingEurOtop2018.calculate_crest_freeboard_Rc (sc l 1 Hm0) (sc l (1 / 2) Tmm10) (sc l (3 / 2) q) beta gamma_beta gamma_b gamma_f gamma_v gamma_star (sc l 1 B_berm) (sc l 1 db) cot_alpha cot_alpha_down cot_alpha_up c1 c2 c3 c4 use_best_fit g =
      first l 1 <$> OvertoppingEurOtop2018.calculate_crest_freeboard_Rc Hm0 Tmm10 q beta gamma_beta gamma_b gamma_f gamma_v gamma_star B_berm db cot_alpha cot_alpha_down cot_alpha_up c1 c2 c3 c4 use_best_fit g := by
  unfold OvertoppingEurOtop2018.calculate_crest_freeboard_Rc
  rw [E18_rc _ _ _ _ _ _ _ _ _ _ _ _ _ _ _ _ _ _ _ _ hu]
  simp only [map_bind, map_pure, first, mul_sc]

theorem E18_qr (Hm0 Tmm10 Rc beta gamma_beta gamma_f B_berm db cot_alpha cot_alpha_down cot_alpha_up c2 c3 : PF) (use_best_fit : Bool)
    (hu : Uniform cot_alpha_down cot_alpha_up) :
    OvertoppingEurOtop2018.calculate_dimensionless_overtopping_discharge_q_rubble_mound (sc l 1 Hm0) (sc l (1 / 2) Tmm10) (sc l 1 Rc) beta gamma_beta gamma_f (sc l 1 B_berm) (sc l 1 db) cot_alpha cot_alpha_down cot_alpha_up c2 c3 use_best_fit =
      OvertoppingEurOtop2018.calculate_dimensionless_overtopping_discharge_q_rubble_mound Hm0 Tmm10 Rc beta gamma_beta gamma_f B_berm db cot_alpha cot_alpha_down cot_alpha_up c2 c3 use_best_fit := by
  unfold OvertoppingEurOtop2018.calculate_dimensionless_overtopping_discharge_q_rubble_mound
  rcases composite_uniform hu cot_alpha with h | h <;> rw [h]
  · simp only [raise_bind]
  · simp only [Bool.false_eq_true, if_false, pure_bind, irib, qmax18]

theorem E18_Qr (Hm0 Tmm10 Rc beta gamma_beta gamma_f B_berm db cot_alpha cot_alpha_down cot_alpha_up c2 c3 : PF) (use_best_fit : Bool) (g : PF)
    (hu : Uniform cot_alpha_down cot_alpha_up) :
    OvertoppingEurOtop2018.calculate_overtopping_discharge_q_rubble_mound (sc l 1 Hm0) (sc l (1 / 2) Tmm10) (sc l 1 Rc) beta gamma_beta gamma_f (sc l 1 B_berm) (sc l 1 db) cot_alpha cot_alpha_down cot_alpha_up c2 c3 use_best_fit g =
      sc l (3 / 2) <$> OvertoppingEurOtop2018.calculate_overtopping_discharge_q_rubble_mound Hm0 Tmm10 Rc beta gamma_beta gamma_f B_berm db cot_alpha cot_alpha_down cot_alpha_up c2 c3 use_best_fit g := by
  unfold OvertoppingEurOtop2018.calculate_overtopping_discharge_q_rubble_mound
  rw [E18_qr _ _ _ _ _ _ _ _ _ _ _ _ _ _ hu]
  simp only [map_bind, map_pure, rootq, mul_sc]

theorem E18_rcr (Hm0 Tmm10 q beta gamma_beta gamma_f B_berm db cot_alpha cot_alpha_down cot_alpha_up c2 c3 : PF) (use_best_fit : Bool) (g : PF)
    (hu : Uniform cot_alpha_down cot_alpha_up) :
    OvertoppingEurOtop2018.calculate_dimensionless_crest_freeboard_rubble_mound (sc l 1 Hm0) (sc l (1 / 2) Tmm10) (sc l (3 / 2) q) beta gamma_beta gamma_f (sc l 1 B_berm) (sc l 1 db) cot_alpha cot_alpha_down cot_alpha_up c2 c3 use_best_fit g =
      OvertoppingEurOtop2018.calculate_dimensionless_crest_freeboard_rubble_mound Hm0 Tmm10 q beta gamma_beta gamma_f B_berm db cot_alpha cot_alpha_down cot_alpha_up c2 c3 use_best_fit g := by
  unfold OvertoppingEurOtop2018.calculate_dimensionless_crest_freeboard_rubble_mound
  rcases composite_uniform hu cot_alpha with h | h <;> rw [h]
  · simp only [raise_bind]
  · simp only [Bool.false_eq_true, if_false, pure_bind, irib, Rcmax18]

theorem E18_Rcr (Hm0 Tmm10 q beta gamma_beta gamma_f B_berm db cot_alpha cot_alpha_down cot_alpha_up c2 c3 : PF) (use_best_fit : Bool) (g : PF)
    (hu : Uniform cot_alpha_down cot_alpha_up) :
    OvertoppingEurOtop2018.calculate_crest_freeboard_Rc_rubble_mound (sc l 1 Hm0) (sc l (1 / 2) Tmm10) (sc l (3 / 2) q) beta gamma_beta gamma_f (sc l 1 B_berm) (sc l 1 db) cot_alpha cot_alpha_down cot_alpha_up c2 c3 use_best_fit g =
      sc l 1 <$> OvertoppingEurOtop2018.calculate_crest_freeboard_Rc_rubble_mound Hm0 Tmm10 q beta gamma_beta gamma_f B_berm db cot_alpha cot_alpha_down cot_alpha_up c2 c3 use_best_fit g := by
  unfold OvertoppingEurOtop2018.calculate_crest_freeboard_Rc_rubble_mound
  rw [E18_rcr _ _ _ _ _ _ _ _ _ _ _ _ _ _ _ hu]
  simp only [map_bind, map_pure, mul_sc]


end ScaleProof
end
