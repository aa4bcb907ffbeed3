import Verif.Array.Toe
import Verif.Model.Toe

/-! # The two functions of takahashi1990_caisson.py that search, called with arrays -/

open Classical
open Val (npow)
open Arr.CorePhysics
noncomputable section
namespace Arr
variable {n : ℕ} [NeZero n]
namespace Takahashi1990

/-- `a == b` for two outcomes of comparisons -/
def same : BVal n → BVal n → BVal n
  | .num a, .num b => .num (a ↔ b)
  | a, b => .arr fun i => (a.get i ↔ b.get i)

/-- `np.arange` with arrays: each argument must be convertible to a Python number, which an array with
more than one entry is not (`TypeError`) -/
def arange (start stop step : Val n) : PyM (List PF) :=
  if (start.isArray || stop.isArray || step.isArray) ∧ n ≠ 1 then PyM.raise .typeError
  else PF.arange (start.get 0) (stop.get 0) (step.get 0)

/-- takahashi1990_caisson.py 118-225.  When the first table could be made (182-186) every argument but
`Tp` is a number or an array with a single entry, and of `Tp` only the first entry is used
(`calculate_local_wavelength` at a depth that is a number); `np.append` makes plain lists of numbers of
the outcomes.  So the rest of the function (187-223) is as for numbers.  `g` is a number. -/
def calculate_significant_wave_height_Hs (disper : PF → PF → PF → PF)
    (Dn50 Tp hacc Bt rho_rock rho_water beta : Val n) (g : PF := 9.81) : PyM (Val n) := do
  let Delta := calculate_buoyant_density_Delta (rho_rock := rho_rock) (rho_water := rho_water)
  let Hs_start := (← check_usage_stabilitynumber (Dn := Dn50) (Ns := some 1.8) (Delta := Delta)).1
  let Ns ← calculate_stability_number_Ns disper Hs_start Tp hacc Bt beta g
  let Hs_new := (← check_usage_stabilitynumber (Dn := Dn50) (Ns := Ns) (Delta := Delta)).1
  let Hs_table_in ← arange (Val.min Hs_start Hs_new) (Val.max Hs_start Hs_new) (Hs_start / 20)
  let table_out := _root_.Takahashi1990.table_out disper (Dn50.get 0) (Tp.get 0) (hacc.get 0) (Bt.get 0)
    (Delta.get 0) (beta.get 0) g
  let Hs_table_out ← table_out Hs_table_in
  let ind ← PF.argmin (_root_.Takahashi1990.abs_diff Hs_table_in Hs_table_out)
  let from_ := PF.min (← PF.pyGet Hs_table_in (ind - 1)) (← PF.pyGet Hs_table_out (ind - 1))
  let to_ := PF.max (← PF.pyGet Hs_table_in (ind + 1)) (← PF.pyGet Hs_table_out (ind + 1))
  let Hs_table_in ← PF.arange from_ to_ 0.0005
  let Hs_table_out ← table_out Hs_table_in
  let ind ← PF.argmin (_root_.Takahashi1990.abs_diff Hs_table_in Hs_table_out)
  let absdiff := PF.abs ((← PF.pyGet Hs_table_in ind) - (← PF.pyGet Hs_table_out ind))
  if ¬ absdiff < 0.001 then PyM.warn (.text "Hs precision is not better than")
  let Hs ← PF.pyGet Hs_table_out ind
  pure (.num Hs)

/-- variables of the loops at 295-302 and 317-324, see the model for numbers -/
structure DepthState (n : ℕ) where
  hacc_in : PF
  Ns_out : Val n
  warns : List Warn

/-- one pass, 296-302 and 318-324.  The depth is a number here, so the call at 297 does not raise. -/
def depth_step (disper : PF → PF → PF → PF) (Hs Tp Bt beta : Val n) (g dht : PF) (s : DepthState n) :
    DepthState n :=
  let hacc_in := s.hacc_in + dht
  let m := calculate_stability_number_Ns disper Hs Tp (.num hacc_in) Bt beta g
  { hacc_in := hacc_in
    Ns_out := m.res.toOption.getD Val.nan
    warns := s.warns ++ m.warns }

/-- the loops at 295-302 and 317-324, reached only when their condition is a number or an array with a
single entry; `none` when the loop does not end -/
def depth_search (disper : PF → PF → PF → PF) (Hs Tp Bt beta : Val n) (g : PF) (Ns : Val n)
    (dht hacc_in : PF) (Ns_out : Val n) (warns : List Warn) : Option (DepthState n) :=
  whileUnb (fun s : DepthState n => (same (Ns <. Ns_out) (Ns <. s.Ns_out)).get 0)
    (depth_step disper Hs Tp Bt beta g dht) { hacc_in, Ns_out, warns }

/-- 277-293 with the first test of the loop condition at 295: stability numbers of the stones and at the
depth `hacc_in` -/
def depth_start (disper : PF → PF → PF → PF) (Dn50 Tp Hs Bt rho_rock rho_water beta : Val n) (g : PF)
    (hacc_in : Val n) : PyM (Val n × Val n) := do
  let Delta := calculate_buoyant_density_Delta (rho_rock := rho_rock) (rho_water := rho_water)
  let Ns := (← check_usage_stabilitynumber (Dn := Dn50) (Hs := Hs) (Delta := Delta)).1
  let Ns_out ← calculate_stability_number_Ns disper Hs Tp hacc_in Bt beta g
  let firsteval := Ns <. Ns_out
  let _ ← (same firsteval (Ns <. Ns_out)).truth
  pure (Ns, Ns_out)

/-- takahashi1990_caisson.py 228-327.  With an array `Hs` the function never gets past the first test of
the loop condition: the depth `Hs / 20` is an array, for which the wave length raises when it has a single
entry, and otherwise the condition has no truth value.  (So the update `hacc_in += dht` of line 296, which
would change `dht` as well, is never made on an array.) -/
def calculate_significant_depth_above_toe_hacc (disper : PF → PF → PF → PF)
    (Dn50 Tp Hs Bt rho_rock rho_water beta : Val n) (g : PF := 9.81) : Option (PyM (Val n)) :=
  let m := depth_start disper Dn50 Tp Hs Bt rho_rock rho_water beta g (Hs / 20)
  match Hs, m.res with
  | _, .error e => some ⟨m.warns, .error e⟩
  | .arr _, .ok _ => some ⟨m.warns, .error .valueError⟩
  | .num H, .ok (Ns, Ns_out) =>
    let dht := H / 20
    match depth_search disper (.num H) Tp Bt beta g Ns dht dht Ns_out m.warns with
    | none => none
    | some s =>
      if dht > 0.001 then
        let hacc_in := s.hacc_in - dht
        let m2 := calculate_stability_number_Ns disper (.num H) Tp (.num hacc_in) Bt beta g
        let Ns_out := m2.res.toOption.getD Val.nan
        match depth_search disper (.num H) Tp Bt beta g Ns 0.001 hacc_in Ns_out (s.warns ++ m2.warns) with
        | none => none
        | some s' => some ⟨s'.warns, .ok (.num s'.hacc_in)⟩
      else some ⟨s.warns, .ok (.num s.hacc_in)⟩

end Takahashi1990
end Arr
end
