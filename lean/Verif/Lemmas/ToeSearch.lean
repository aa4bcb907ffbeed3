import Verif.Props.Takahashi

/-! # The two-stage table search for the wave height on a caisson toe -/

open Classical
open PF
open CorePhysics hiding calculate_stability_number_Ns
open Takahashi1990
noncomputable section

namespace TakahashiProof

/-! ### Tables -/

/-- a table of real numbers -/
def table (n : ℕ) (f : ℕ → ℝ) : List PF := (List.range n).map fun k => fin (f k)

theorem table_get (n : ℕ) (f : ℕ → ℝ) (k : ℕ) : (table n f)[k]? = if k < n then some (fin (f k)) else none := by
  unfold table
  rw [List.getElem?_map]
  split_ifs with h
  · rw [List.getElem?_range h]; rfl
  · rw [List.getElem?_eq_none (by simpa using h)]; rfl

theorem table_length (n : ℕ) (f : ℕ → ℝ) : (table n f).length = n := by simp [table]

theorem arange_eq (a b d : ℝ) (hd : d ≠ 0) :
    PF.arange (fin a) (fin b) (fin d) = pure (table ⌈(b - a) / d⌉₊ fun i => a + i * d) := by
  simp only [PF.arange, if_neg hd, table]
  congr 1
  rw [show (do let a : ℕ ← List.range ⌈(b - a) / d⌉₊; pure (a : ℝ)) =
    (List.range ⌈(b - a) / d⌉₊).map fun k : ℕ => (k : ℝ) from List.map_eq_flatMap.symm, List.map_map]
  rfl

theorem argminAux_spec (n : ℕ) (e : ℕ → ℝ) : ∀ (xs : List PF) (b : ℝ) (bi i : ℕ),
    bi < n → i ≤ n → b = e bi → (∀ k < i, b ≤ e k) → (∀ k, xs[k]? = (table n e)[i + k]?) →
    PF.argminAux (fin b) bi i xs < n ∧ ∀ k < n, e (PF.argminAux (fin b) bi i xs) ≤ e k := by
  intro xs
  induction xs with
  | nil =>
    intro b bi i hb hi he hk hx
    unfold PF.argminAux
    refine ⟨hb, fun k hkn => ?_⟩
    have h0 := hx 0
    rw [table_get] at h0
    have : ¬ i < n := by
      intro hin
      rw [add_zero, if_pos hin] at h0
      simp at h0
    rw [← he]
    exact hk k (by omega)
  | cons x xs ih =>
    intro b bi i hb hi he hk hx
    have h0 := hx 0
    rw [table_get, add_zero] at h0
    simp only [List.getElem?_cons_zero] at h0
    have hin : i < n := by
      by_contra hc
      rw [if_neg hc] at h0
      simp at h0
    rw [if_pos hin, Option.some.injEq] at h0
    have hx' : ∀ k, xs[k]? = (table n e)[i + 1 + k]? := by
      intro k
      have := hx (k + 1)
      rw [List.getElem?_cons_succ] at this
      rw [this, add_assoc, add_comm 1 k]
    unfold PF.argminAux
    rw [if_neg (by simp), h0]
    by_cases hlt : e i < b
    · rw [if_pos (Or.inr (show fin (e i) < fin b from hlt))]
      refine ih (e i) i (i + 1) hin hin rfl (fun k hki => ?_) hx'
      rcases Nat.lt_succ_iff_lt_or_eq.mp hki with h | h
      · exact hlt.le.trans (hk k h)
      · rw [h]
    · rw [if_neg (by simpa [lt_fin] using hlt)]
      refine ih b bi (i + 1) hb hin he (fun k hki => ?_) hx'
      rcases Nat.lt_succ_iff_lt_or_eq.mp hki with h | h
      · exact hk k h
      · rw [h]; exact not_lt.mp hlt

/-- `np.argmin` of a table of numbers: the index of a smallest one -/
theorem argmin_table (n : ℕ) (e : ℕ → ℝ) (hn : 0 < n) :
    ∃ i, PF.argmin (table n e) = pure i ∧ i < n ∧ ∀ k < n, e i ≤ e k := by
  have h0 := table_get n e 0
  rw [if_pos hn] at h0
  cases hl : table n e with
  | nil => rw [hl] at h0; simp at h0
  | cons x xs =>
    rw [hl, List.getElem?_cons_zero, Option.some.injEq] at h0
    subst h0
    refine ⟨_, rfl, ?_⟩
    refine argminAux_spec n e xs (e 0) 0 1 hn hn rfl (fun k hk => ?_) (fun k => ?_)
    · rw [Nat.lt_one_iff.mp hk]
    · rw [hl, add_comm, List.getElem?_cons_succ]

theorem argmin_empty (e : ℕ → ℝ) : (PF.argmin (table 0 e)).res = .error .valueError := rfl

theorem pyGet_nat {n : ℕ} (f : ℕ → ℝ) {k : ℕ} (hk : k < n) :
    PF.pyGet (table n f) (k : ℤ) = pure (fin (f k)) := by
  unfold PF.pyGet
  rw [if_pos (by omega), Int.toNat_natCast, table_get, if_pos hk]

theorem pyGet_beyond {n : ℕ} (f : ℕ → ℝ) {k : ℕ} (hk : n ≤ k) :
    PF.pyGet (table n f) (k : ℤ) = PyM.raise .indexError := by
  unfold PF.pyGet
  rw [if_pos (by omega), Int.toNat_natCast, table_get, if_neg (by omega)]

theorem pyGet_last {n : ℕ} (f : ℕ → ℝ) (hn : 0 < n) :
    PF.pyGet (table n f) (-1) = pure (fin (f (n - 1))) := by
  unfold PF.pyGet
  rw [if_neg (by omega), if_pos (by rw [table_length]; omega), table_length,
    show ((n : ℤ) + -1).toNat = n - 1 by omega, table_get, if_pos (by omega)]

/-- the entry before index `i`, which for the first one is the last of the table -/
def before (n i : ℕ) : ℕ := if i = 0 then n - 1 else i - 1

theorem pyGet_before {n i : ℕ} (f : ℕ → ℝ) (hi : i < n) :
    PF.pyGet (table n f) ((i : ℤ) - 1) = pure (fin (f (before n i))) := by
  unfold before
  split_ifs with h
  · subst h
    exact pyGet_last f hi
  · have := pyGet_nat (n := n) f (k := i - 1) (by omega)
    rwa [show ((i - 1 : ℕ) : ℤ) = (i : ℤ) - 1 by omega] at this

theorem abs_diff_table (n : ℕ) (x y : ℕ → ℝ) :
    abs_diff (table n x) (table n y) = table n fun k => |x k - y k| := by
  unfold abs_diff table
  rw [List.zipWith_map, List.zipWith_self]
  simp only [sub_fin, abs_fin]

/-! ### No warning about the precision comes from the checks -/

def NoText {α : Type} (m : PyM α) : Prop := ∀ t, Warn.text t ∉ m.warns

theorem noText_bind {α β : Type} {m : PyM α} {f : α → PyM β} (h : NoText m) (h' : ∀ a, NoText (f a)) :
    NoText (m >>= f) := by
  obtain ⟨w, e | a⟩ := m
  · exact h
  · intro t ht
    rw [PyM.bind_warns_of_ok rfl, List.mem_append] at ht
    exact ht.elim (h t) (h' a t)

theorem noText_pure {α : Type} (a : α) : NoText (pure a : PyM α) := fun _ h => (by cases h)

theorem noText_check (l : List PF) (n f : String) (v lo hi : PF) :
    NoText (CoreUtility.check_if_given l n f v lo hi) := by
  intro t ht
  rw [check_if_given_warns] at ht
  split_ifs at ht with hc
  · simp at ht
  · cases ht

theorem noText_Ns (disper) (H T h B b g : PF) : NoText (calculate_stability_number_Ns disper H T h B b g) := by
  unfold calculate_stability_number_Ns check_validity
  exact noText_bind (noText_bind (noText_check _ _ _ _ _ _) fun _ => noText_check _ _ _ _ _ _) fun _ => noText_pure _

theorem noText_table (disper) (D T h B De b g : PF) (xs : List PF) :
    NoText (table_out disper D T h B De b g xs) := by
  induction xs with
  | nil => exact noText_pure _
  | cons x xs ih =>
    unfold table_out table_entry
    exact noText_bind (noText_bind (noText_Ns _ _ _ _ _ _ _) fun _ => noText_pure _) fun _ =>
      noText_bind ih fun _ => noText_pure _

/-- same result, and the same warnings about the precision -/
def Eqv {α : Type} (m m' : PyM α) : Prop :=
  m.res = m'.res ∧ ∀ t, Warn.text t ∈ m.warns ↔ Warn.text t ∈ m'.warns

theorem Eqv.trans {α : Type} {m m' m'' : PyM α} (h : Eqv m m') (h' : Eqv m' m'') : Eqv m m'' :=
  ⟨h.1.trans h'.1, fun t => (h.2 t).trans (h'.2 t)⟩

theorem Eqv.refl {α : Type} (m : PyM α) : Eqv m m := ⟨rfl, fun _ => Iff.rfl⟩

theorem eqv_step {α β : Type} {m : PyM α} {f : α → PyM β} {a : α} (h : m.res = .ok a) (hn : NoText m) :
    Eqv (m >>= f) (f a) :=
  ⟨PyM.bind_res_of_ok h _, fun t => by
    rw [PyM.bind_warns_of_ok h, List.mem_append]
    exact ⟨fun hh => hh.resolve_left (hn t), Or.inr⟩⟩

theorem eqv_pure {α β : Type} {m : PyM α} {f : α → PyM β} {a : α} (h : m = pure a) :
    Eqv (m >>= f) (f a) := eqv_step (by rw [h]; rfl) (by rw [h]; exact noText_pure _)

theorem table_map (disper) (D De : ℝ) (T h B b g : PF) (N : ℝ → ℝ) (n : ℕ) (x : ℕ → ℝ)
    (hN : ∀ k, ns_value disper (fin (x k)) T h B b g = fin (N (x k))) :
    (table n x).map (fun x => fin D * fin De * ns_value disper x T h B b g) =
      table n fun k => D * De * N (x k) := by
  unfold table
  rw [List.map_map]
  refine List.map_congr_left fun k _ => ?_
  show fin D * fin De * ns_value disper (fin (x k)) T h B b g = _
  rw [hN, mul_fin, mul_fin]

section
variable {disper : PF → PF → PF → PF} {D De : ℝ} {T h B rr rw b g : PF} {N : ℝ → ℝ}

/-- the second half of the search -/
def fine (disper : PF → PF → PF → PF) (D De lo hi : ℝ) (T h B b g : PF) : PyM PF := do
  let Hs_table_in ← PF.arange (fin lo) (fin hi) 0.0005
  let Hs_table_out ← table_out disper (fin D) T h B (fin De) b g Hs_table_in
  let ind ← PF.argmin (abs_diff Hs_table_in Hs_table_out)
  let absdiff := PF.abs ((← PF.pyGet Hs_table_in ind) - (← PF.pyGet Hs_table_out ind))
  if ¬ absdiff < 0.001 then PyM.warn (.text "Hs precision is not better than")
  let Hs ← PF.pyGet Hs_table_out ind
  pure Hs

/-- what the second half does -/
theorem fine_eqv {lo hi s : ℝ} (hlo : s ≤ lo)
    (hN : ∀ x, s ≤ x → ns_value disper (fin x) T h B b g = fin (N x)) :
    (hi ≤ lo ∧ (fine disper D De lo hi T h B b g).res = .error .valueError) ∨
    lo < hi ∧ ∃ j < ⌈(hi - lo) / 0.0005⌉₊, (∀ k < ⌈(hi - lo) / 0.0005⌉₊,
        |lo + j * 0.0005 - D * De * N (lo + j * 0.0005)| ≤ |lo + k * 0.0005 - D * De * N (lo + k * 0.0005)|) ∧
      (fine disper D De lo hi T h B b g).res = .ok (fin (D * De * N (lo + j * 0.0005))) ∧
      (Warn.text "Hs precision is not better than" ∈ (fine disper D De lo hi T h B b g).warns ↔
        0.001 ≤ |lo + j * 0.0005 - D * De * N (lo + j * 0.0005)|) := by
  have hd : (0 : ℝ) < 0.0005 := by norm_num
  have ea : PF.arange (fin lo) (fin hi) 0.0005 = pure (table ⌈(hi - lo) / 0.0005⌉₊ fun i => lo + i * 0.0005) := by
    rw [sci_eq]; exact arange_eq _ _ _ hd.ne'
  have et := table_map disper D De T h B b g N ⌈(hi - lo) / 0.0005⌉₊ (fun i => lo + i * 0.0005)
    (fun k => hN _ (hlo.trans (le_add_of_nonneg_right (by positivity))))
  by_cases hlt : lo < hi
  · right
    refine ⟨hlt, ?_⟩
    have hm : 0 < ⌈(hi - lo) / 0.0005⌉₊ := Nat.ceil_pos.mpr (div_pos (sub_pos.mpr hlt) hd)
    obtain ⟨j, ej, hj, hbest⟩ := argmin_table _
      (fun k => |lo + k * 0.0005 - D * De * N (lo + k * 0.0005)|) hm
    refine ⟨j, hj, hbest, ?_⟩
    have key : Eqv (fine disper D De lo hi T h B b g) (do
        if ¬ fin |lo + j * 0.0005 - D * De * N (lo + j * 0.0005)| < 0.001 then
          PyM.warn (.text "Hs precision is not better than")
        pure (fin (D * De * N (lo + j * 0.0005)))) := by
      unfold fine
      refine (eqv_pure ea).trans ?_
      refine (eqv_step ((table_res ..).trans (congrArg Except.ok et)) (noText_table _ _ _ _ _ _ _ _ _)).trans ?_
      rw [abs_diff_table]
      refine (eqv_pure ej).trans ?_
      refine (eqv_pure (pyGet_nat _ hj)).trans ?_
      refine (eqv_pure (pyGet_nat _ hj)).trans ?_
      rw [sub_fin, abs_fin]
      dsimp only
      rw [pyGet_nat _ hj]
      exact Eqv.refl _
    rw [key.1, key.2]
    dsimp only
    by_cases h1 : 0.001 ≤ |lo + j * 0.0005 - D * De * N (lo + j * 0.0005)|
    · rw [if_pos (by rw [sci_eq, lt_fin, not_lt]; exact h1)]
      exact ⟨rfl, iff_of_true (by simp [PyM.warn_def, PyM.pure_def]) h1⟩
    · rw [if_neg (by rw [sci_eq, lt_fin]; exact not_not.mpr (not_le.mp h1))]
      exact ⟨rfl, iff_of_false (fun hh => by cases hh) h1⟩
  · left
    refine ⟨not_lt.mp hlt, ?_⟩
    have hm : ⌈(hi - lo) / 0.0005⌉₊ = 0 :=
      Nat.ceil_eq_zero.mpr (div_nonpos_of_nonpos_of_nonneg (by linarith [not_lt.mp hlt]) hd.le)
    unfold fine
    rw [(eqv_pure ea).1, (eqv_step ((table_res ..).trans (congrArg Except.ok et))
      (noText_table _ _ _ _ _ _ _ _ _)).1, abs_diff_table, hm]
    rfl

/-- misfit of a wave height: distance to the height that is stable according to the stability number -/
def misfit (D De : ℝ) (N : ℝ → ℝ) (x : ℝ) : ℝ := |x - D * De * N x|

/-- what the search does -/
theorem search_eqv (hD : 0 < D) (hDe : 0 < De)
    (eD : calculate_buoyant_density_Delta rr rw = fin De)
    (hN : ∀ x, D * De * 1.8 ≤ x → ns_value disper (fin x) T h B b g = fin (N x))
    (hN8 : ∀ x, D * De * 1.8 ≤ x → 1.8 ≤ N x) (s : ℝ) (hs : s = D * De * 1.8) (n : ℕ)
    (hn : n = ⌈(D * De * N s - s) / (s / 20)⌉₊) (x : ℕ → ℝ) (hx : ∀ k : ℕ, x k = s + k * (s / 20)) :
    (n = 0 ∧ (calculate_significant_wave_height_Hs disper (fin D) T h B rr rw b g).res = .error .valueError) ∨
    ∃ i < n, (∀ k < n, misfit D De N (x i) ≤ misfit D De N (x k)) ∧
      ((n ≤ i + 1 ∧
        (calculate_significant_wave_height_Hs disper (fin D) T h B rr rw b g).res = .error .indexError) ∨
      i + 1 < n ∧ Eqv (calculate_significant_wave_height_Hs disper (fin D) T h B rr rw b g)
        (fine disper D De (x (before n i) ⊓ D * De * N (x (before n i)))
          (x (i + 1) ⊔ D * De * N (x (i + 1))) T h B b g)) := by
  have hs0 : 0 < s := by rw [hs]; have : (0 : ℝ) < 1.8 := by norm_num
                         positivity
  have hDD : 0 < D * De := mul_pos hD hDe
  have e1 : fin D * fin De * 1.8 = fin s := by rw [hs]; pf_eval []
  have e2 : fin s / 20 = fin (s / 20) := by pf_eval []
  have hSs : s ≤ D * De * N s := by
    nth_rw 1 [hs]
    exact mul_le_mul_of_nonneg_left (hN8 s hs.ge) hDD.le
  have ea : PF.arange (fin s) (fin (D * De * N s)) (fin (s / 20)) = pure (table n x) := by
    rw [arange_eq _ _ _ (by positivity), hn]
    congr 2
    funext k
    exact (hx k).symm
  have hxs : ∀ k, D * De * 1.8 ≤ x k := fun k => by
    rw [hx, ← hs]; exact le_add_of_nonneg_right (by positivity)
  have et := table_map disper D De T h B b g N n x (fun k => hN _ (hxs k))
  have first : ∀ (f : ℕ → ℝ), f = (fun k => misfit D De N (x k)) →
      Eqv (calculate_significant_wave_height_Hs disper (fin D) T h B rr rw b g) (do
      let ind ← PF.argmin (table n f)
      let from_ := PF.min (← PF.pyGet (table n x) (ind - 1))
        (← PF.pyGet (table n fun k => D * De * N (x k)) (ind - 1))
      let to_ := PF.max (← PF.pyGet (table n x) (ind + 1))
        (← PF.pyGet (table n fun k => D * De * N (x k)) (ind + 1))
      let Hs_table_in ← PF.arange from_ to_ 0.0005
      let Hs_table_out ← table_out disper (fin D) T h B (fin De) b g Hs_table_in
      let ind ← PF.argmin (abs_diff Hs_table_in Hs_table_out)
      let absdiff := PF.abs ((← PF.pyGet Hs_table_in ind) - (← PF.pyGet Hs_table_out ind))
      if ¬ absdiff < 0.001 then PyM.warn (.text "Hs precision is not better than")
      let Hs ← PF.pyGet Hs_table_out ind
      pure Hs) := by
    rintro f rfl
    unfold calculate_significant_wave_height_Hs
    simp only [eD]
    refine (eqv_pure (stab_Hs ..)).trans ?_
    simp only [e1]
    refine (eqv_step (Ns_res ..) (noText_Ns _ _ _ _ _ _ _)).trans ?_
    rw [hN s hs.ge]
    refine (eqv_pure (stab_Hs ..)).trans ?_
    simp only [mul_fin, min_fin, max_fin, inf_eq_left.mpr hSs, sup_eq_right.mpr hSs, e2]
    refine (eqv_pure ea).trans ?_
    refine (eqv_step ((table_res ..).trans (congrArg Except.ok et)) (noText_table _ _ _ _ _ _ _ _ _)).trans ?_
    rw [abs_diff_table]
    exact Eqv.refl _
  rcases Nat.eq_zero_or_pos n with h0 | h0
  · left
    refine ⟨h0, ?_⟩
    rw [(first _ rfl).1, h0]
    rfl
  · right
    obtain ⟨i, ei, hi, hbest⟩ := argmin_table n (fun k => misfit D De N (x k)) h0
    refine ⟨i, hi, hbest, ?_⟩
    have second := (first _ rfl).trans ((eqv_pure ei).trans ((eqv_pure (pyGet_before x hi)).trans
      (eqv_pure (pyGet_before _ hi))))
    by_cases hlast : i + 1 < n
    · right
      refine ⟨hlast, second.trans ?_⟩
      have h1 := pyGet_nat x hlast
      have h2 := pyGet_nat (fun k => D * De * N (x k)) hlast
      push_cast at h1 h2
      refine (eqv_pure h1).trans ((eqv_pure h2).trans ?_)
      simp only [min_fin, max_fin]
      exact Eqv.refl _
    · left
      refine ⟨not_lt.mp hlast, ?_⟩
      have h1 := pyGet_beyond x (not_lt.mp hlast)
      push_cast at h1
      rw [second.1, h1]
      rfl

end

end TakahashiProof
