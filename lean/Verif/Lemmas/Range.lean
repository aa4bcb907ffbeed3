import Verif.Lemmas.Check
import Verif.Lemmas.Basic
import Verif.Lemmas.VdM
import Verif.SpecRange

/-! # Helpers for the properties of the validity checks -/

open Classical
open PF CoreUtility CorePhysics
noncomputable section

namespace RangeProof

variable {α β : Type} {formula : String}

theorem done (a : α) : WarnsExactly (pure a : PyM α) formula [] :=
  ⟨⟨a, rfl⟩, fun w => by simp⟩

/-- a check that applies -/
theorem check {given : List PF} {n : String} {v lo hi x : PF} {f : Unit → PyM β} {ls : List Limit}
    (hg : ∀ y ∈ given, ¬ y.isnan) (hv : v = x) (h : WarnsExactly (f ()) formula ls) :
    WarnsExactly (check_if_given given n formula v lo hi >>= f) formula (⟨n, x, lo, hi⟩ :: ls) := by
  subst hv
  refine ⟨by rw [check_bind_res]; exact h.1, fun w => ?_⟩
  rw [check_bind_warns, List.mem_append, h.2, check_if_given_warns, List.exists_mem_cons_iff]
  refine or_congr ?_ Iff.rfl
  by_cases h2 : OutOfRange lo hi v
  · rw [if_pos ⟨hg, h2⟩, List.mem_singleton]
    exact ⟨fun e => ⟨h2, e⟩, fun e => e.2⟩
  · rw [if_neg (fun h3 => h2 h3.2)]
    exact ⟨fun e => (by cases e), fun e => absurd e.1 h2⟩

/-- a check that does not apply because an argument is missing -/
theorem skip {given : List PF} {n : String} {v lo hi : PF} {f : Unit → PyM β} {ls : List Limit}
    (hg : ¬ ∀ y ∈ given, ¬ y.isnan) (h : WarnsExactly (f ()) formula ls) :
    WarnsExactly (check_if_given given n formula v lo hi >>= f) formula ls := by
  refine ⟨by rw [check_bind_res]; exact h.1, fun w => ?_⟩
  rw [check_bind_warns, List.mem_append, h.2, check_if_given_warns, if_neg (fun h3 => hg h3.1)]
  simp

/-- the last check -/
theorem last {given : List PF} {n : String} {v lo hi x : PF}
    (hg : ∀ y ∈ given, ¬ y.isnan) (hv : v = x) :
    WarnsExactly (check_if_given given n formula v lo hi) formula [⟨n, x, lo, hi⟩] := by
  have := check (formula := formula) (n := n) (lo := lo) (hi := hi) (f := fun _ => (pure () : PyM Unit))
    hg hv (done ())
  rwa [bind_pure] at this

theorem skip_last {given : List PF} {n : String} {v lo hi : PF}
    (hg : ¬ ∀ y ∈ given, ¬ y.isnan) :
    WarnsExactly (check_if_given given n formula v lo hi) formula [] := by
  have := skip (formula := formula) (n := n) (v := v) (lo := lo) (hi := hi)
    (f := fun _ => (pure () : PyM Unit)) hg (done ())
  rwa [bind_pure] at this

/-- a skipped check of another formula name -/
theorem skip_formula {given : List PF} {n f' : String} {v lo hi : PF}
    (hg : ¬ ∀ y ∈ given, ¬ y.isnan) :
    WarnsExactly (check_if_given given n f' v lo hi) formula [] := by
  refine ⟨⟨(), check_if_given_res ..⟩, fun w => ?_⟩
  rw [check_if_given_warns, if_neg (fun h3 => hg h3.1)]
  simp

/-- the checks are followed by returning the result -/
theorem ret {m : PyM α} {ls : List Limit} (b : α → β) (h : WarnsExactly m formula ls) :
    WarnsExactly (m >>= fun a => pure (b a)) formula ls := by
  obtain ⟨⟨a, ha⟩, h2⟩ := h
  refine ⟨⟨b a, by rw [PyM.bind_res_of_ok ha]; rfl⟩, fun w => ?_⟩
  rw [PyM.bind_warns_of_ok ha, PyM.pure_def, List.append_nil, h2]

/-- a step before the checks that returns silently -/
theorem after {m : PyM α} {a : α} {f : α → PyM β} {ls : List Limit} (hm : m = pure a)
    (h : WarnsExactly (f a) formula ls) : WarnsExactly (m >>= f) formula ls := by
  rw [hm, pure_bind]; exact h

/-- a silent step before the checks, in a call that returns -/
theorem step {m : PyM α} {f : α → PyM β} {ls : List Limit} {r : β} (hm : m.warns = [])
    (h : (m >>= f).res = .ok r)
    (k : ∀ a, m = pure a → (f a).res = .ok r → WarnsExactly (f a) formula ls) :
    WarnsExactly (m >>= f) formula ls := by
  obtain ⟨w, e | a⟩ := m
  · cases h
  · cases hm
    have := k a rfl h
    exact after rfl this

/-- the order of the quantities does not matter -/
theorem perm {m : PyM α} {ls ls' : List Limit} (h : WarnsExactly m formula ls)
    (hl : ∀ l, l ∈ ls ↔ l ∈ ls') : WarnsExactly m formula ls' :=
  ⟨h.1, fun w => by rw [h.2]; simp only [hl]⟩

/-- a check of a quantity that is not a number says nothing -/
theorem check_nan {given : List PF} {n : String} {v lo hi : PF} {f : Unit → PyM β} {ls : List Limit}
    (hv : v = nan) (h : WarnsExactly (f ()) formula ls) :
    WarnsExactly (check_if_given given n formula v lo hi >>= f) formula ls := by
  subst hv
  refine ⟨by rw [check_bind_res]; exact h.1, fun w => ?_⟩
  rw [check_bind_warns, List.mem_append, h.2, check_if_given_warns, if_neg]
  · simp
  · rintro ⟨-, h1 | h1⟩
    · exact nan_lt _ h1
    · exact lt_nan _ h1

/-- two rounds of checks -/
theorem both {m : PyM α} {f : α → PyM β} {ls ls' : List Limit} (h : WarnsExactly m formula ls)
    (h' : ∀ a, WarnsExactly (f a) formula ls') :
    WarnsExactly (m >>= f) formula (ls ++ ls') := by
  obtain ⟨⟨a, ha⟩, h2⟩ := h
  obtain ⟨⟨b, hb⟩, h3⟩ := h' a
  refine ⟨⟨b, by rw [PyM.bind_res_of_ok ha, hb]⟩, fun w => ?_⟩
  rw [PyM.bind_warns_of_ok ha, List.mem_append, h2, h3]
  simp only [List.mem_append, or_and_right, exists_or]

/-- checks that also look at the result -/
theorem with_result {m : PF → PyM Unit} {X r : PF} {ls : List Limit} (hm : (m X).res = .ok ())
    (hw : WarnsExactly (m r) formula ls)
    (h : (m X >>= fun _ => (pure X : PyM PF)).res = .ok r) :
    WarnsExactly (m X >>= fun _ => (pure X : PyM PF)) formula ls := by
  rw [PyM.bind_res_of_ok hm] at h
  have e : X = r := by simpa [PyM.pure_def] using h
  subst e
  exact ret _ hw

/-! ### quantities that are never mentioned -/

theorem never_pure {a : α} {n : String} : NeverWarnsAbout (pure a : PyM α) n := by
  intro f v lo hi h; cases h

theorem never_bind {m : PyM α} {f : α → PyM β} {n : String} (h1 : NeverWarnsAbout m n)
    (h2 : ∀ a, NeverWarnsAbout (f a) n) : NeverWarnsAbout (m >>= f) n := by
  intro fm v lo hi h
  obtain ⟨w, r⟩ := m
  cases r with
  | error e => exact h1 fm v lo hi h
  | ok a =>
    rw [PyM.bind_ok] at h
    rcases List.mem_append.mp h with h | h
    · exact h1 fm v lo hi h
    · exact h2 a fm v lo hi h

theorem never_other {given : List PF} {n n' f : String} {v lo hi : PF} (hn : n' ≠ n) :
    NeverWarnsAbout (check_if_given given n' f v lo hi) n := by
  intro fm v lo hi h
  rw [check_if_given_warns] at h
  split at h
  · rw [List.mem_singleton] at h
    injection h with h
    exact hn h.symm
  · cases h

theorem never_missing {given : List PF} {n n' f : String} {v lo hi : PF}
    (hg : ¬ ∀ y ∈ given, ¬ y.isnan) : NeverWarnsAbout (check_if_given given n' f v lo hi) n := by
  intro fm v lo hi h
  rw [check_if_given_warns, if_neg (fun h3 => hg h3.1)] at h
  cases h

theorem never_usage {D M r : PF} {n : String} :
    NeverWarnsAbout (check_usage_Dn50_or_M50 D M r) n := by
  intro f v lo hi h
  unfold check_usage_Dn50_or_M50 at h
  split_ifs at h
  · cases h
  · change _ ∈ [Warn.text _] ++ [] at h
    simp at h
  · cases h
  · cases h

theorem steep_eval {H T : ℝ} (hT : 0 < T) :
    calculate_wave_steepness_s (fin H) (fin T) = fin (Textbook.steepness H T) := by
  have := Real.pi_pos
  have e : Textbook.steepness H T = 2 * Real.pi / 9.81 * H / T ^ 2 := by
    unfold Textbook.steepness
    generalize (9.81 : ℝ) = g
    rw [div_div_eq_mul_div, div_mul_eq_mul_div, div_div, mul_comm H]
  rw [e]
  unfold calculate_wave_steepness_s
  pf_eval []

theorem irib_eq {H T c : ℝ} : Textbook.iribarren H T c = VdMProof.xi H T c := by
  have e : Textbook.steepness H T = 2 * Real.pi / 9.81 * H / T ^ 2 := by
    unfold Textbook.steepness
    generalize (9.81 : ℝ) = g
    rw [div_div_eq_mul_div, div_mul_eq_mul_div, div_div, mul_comm H]
  unfold Textbook.iribarren VdMProof.xi
  rw [e, VdMProof.one_sci, div_div]

theorem irib_eval {H T c : ℝ} (hH : 0 < H) (hT : 0 < T) (hc : 0 < c) :
    calculate_Iribarren_number_ksi (fin H) (fin T) (fin c) = fin (Textbook.iribarren H T c) := by
  rw [VdMProof.xi_eval hH hT hc, irib_eq]

theorem Ns_eval {H D rr rw : ℝ} (hD : 0 < D) (hw : 0 < rw) (hr : rw < rr) :
    calculate_stability_number_Ns (fin H) (fin D) (fin rr) (fin rw) = fin (Textbook.Ns H D rr rw) :=
  VdMProof.Ns_eval hD hw hr

theorem Delta_eval' {rr rw : ℝ} (hw : 0 < rw) (hr : rw < rr) :
    calculate_buoyant_density_Delta (fin rr) (fin rw) = fin (Textbook.Delta rr rw) := by
  obtain ⟨De, -, hDD, e⟩ := Delta_eval hw hr
  rw [e, hDD]; rfl

theorem water : (1025.0 : PF) = fin 1025 := by
  rw [sci_eq]; norm_num
theorem water' : (1025 : PF) = fin 1025 := by
  rw [ofNat_eq]

theorem bind_nil {x : α} {f : α → PyM β} : ((⟨[], .ok x⟩ : PyM α) >>= f) = f x := pure_bind x f

theorem ratio_eval {a b : ℝ} (hb : 0 < b) : (fin a / fin b : PF) = fin (a / b) := by
  exact div_fin hb.ne'

end RangeProof

end
