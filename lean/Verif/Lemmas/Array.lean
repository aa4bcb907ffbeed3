import Verif.Array.Attr
import Verif.Array.Core
import Verif.Model.CorePhysics
import Verif.SpecArray
import Verif.Lemmas.Check

/-! # Reading off one case of a call on arrays -/

open Classical
noncomputable section

namespace Val
variable {n : ℕ} (i : Fin n)

@[cases_simp] theorem get_num (x : PF) : (num x : Val n).get i = x := rfl
@[cases_simp] theorem get_arr (v : Fin n → PF) : (arr v).get i = v i := rfl
@[cases_simp] theorem get_lift1 (f : PF → PF) (a : Val n) : (lift1 f a).get i = f (a.get i) := by
  cases a <;> rfl
@[cases_simp] theorem get_lift2 (f : PF → PF → PF) (a b : Val n) :
    (lift2 f a b).get i = f (a.get i) (b.get i) := by cases a <;> cases b <;> rfl
@[cases_simp] theorem get_cmp (p : PF → PF → Prop) (a b : Val n) :
    (cmp p a b).get i = p (a.get i) (b.get i) := by cases a <;> cases b <;> rfl
@[cases_simp] theorem get_ofNat (k : ℕ) : (no_index (OfNat.ofNat k : Val n)).get i = (OfNat.ofNat k : PF) := rfl
@[cases_simp] theorem get_zero : (0 : Val n).get i = 0 := rfl
@[cases_simp] theorem get_one : (1 : Val n).get i = 1 := rfl
@[cases_simp] theorem get_sci (m : ℕ) (s : Bool) (e : ℕ) :
    (OfScientific.ofScientific m s e : Val n).get i = (OfScientific.ofScientific m s e : PF) := rfl
@[cases_simp] theorem get_neg (a : Val n) : (-a).get i = -a.get i := get_lift1 ..
@[cases_simp] theorem get_add (a b : Val n) : (a + b).get i = a.get i + b.get i := get_lift2 ..
@[cases_simp] theorem get_sub (a b : Val n) : (a - b).get i = a.get i - b.get i := get_lift2 ..
@[cases_simp] theorem get_mul (a b : Val n) : (a * b).get i = a.get i * b.get i := get_lift2 ..
@[cases_simp] theorem get_div (a b : Val n) : (a / b).get i = a.get i / b.get i := get_lift2 ..
@[cases_simp] theorem get_nan : (nan : Val n).get i = PF.nan := rfl
@[cases_simp] theorem get_pinf : (pinf : Val n).get i = PF.pinf := rfl
@[cases_simp] theorem get_pi : (pi : Val n).get i = PF.pi := rfl
@[cases_simp] theorem get_npow (a b : Val n) : (npow a b).get i = PF.npow (a.get i) (b.get i) :=
  get_lift2 ..
@[cases_simp] theorem get_min (a b : Val n) : (min a b).get i = PF.min (a.get i) (b.get i) :=
  get_lift2 ..
@[cases_simp] theorem get_max (a b : Val n) : (max a b).get i = PF.max (a.get i) (b.get i) :=
  get_lift2 ..
@[cases_simp] theorem get_sqrt (a : Val n) : (sqrt a).get i = PF.sqrt (a.get i) := get_lift1 ..
@[cases_simp] theorem get_exp (a : Val n) : (exp a).get i = PF.exp (a.get i) := get_lift1 ..
@[cases_simp] theorem get_log (a : Val n) : (log a).get i = PF.log (a.get i) := get_lift1 ..
@[cases_simp] theorem get_sin (a : Val n) : (sin a).get i = PF.sin (a.get i) := get_lift1 ..
@[cases_simp] theorem get_cos (a : Val n) : (cos a).get i = PF.cos (a.get i) := get_lift1 ..
@[cases_simp] theorem get_tan (a : Val n) : (tan a).get i = PF.tan (a.get i) := get_lift1 ..
@[cases_simp] theorem get_sinh (a : Val n) : (sinh a).get i = PF.sinh (a.get i) := get_lift1 ..
@[cases_simp] theorem get_cosh (a : Val n) : (cosh a).get i = PF.cosh (a.get i) := get_lift1 ..
@[cases_simp] theorem get_tanh (a : Val n) : (tanh a).get i = PF.tanh (a.get i) := get_lift1 ..
@[cases_simp] theorem get_abs (a : Val n) : (abs a).get i = PF.abs (a.get i) := get_lift1 ..
@[cases_simp] theorem get_floor (a : Val n) : (floor a).get i = PF.floor (a.get i) := get_lift1 ..
@[cases_simp] theorem get_round (a : Val n) : (round a).get i = PF.round (a.get i) := get_lift1 ..
@[cases_simp] theorem get_deg2rad (a : Val n) : (deg2rad a).get i = PF.deg2rad (a.get i) :=
  get_lift1 ..
@[cases_simp] theorem get_lt (a b : Val n) : (a <. b).get i = (a.get i < b.get i) := get_cmp ..
@[cases_simp] theorem get_le (a b : Val n) : (a ≤. b).get i = (a.get i ≤ b.get i) := get_cmp ..
@[cases_simp] theorem get_gt (a b : Val n) : (a >. b).get i = (a.get i > b.get i) := get_cmp ..
@[cases_simp] theorem get_ge (a b : Val n) : (a ≥. b).get i = (a.get i ≥ b.get i) := get_cmp ..
@[cases_simp] theorem get_eq (a b : Val n) : (a ==. b).get i = PF.eqF (a.get i) (b.get i) :=
  get_cmp ..
@[cases_simp] theorem get_isnan (a : Val n) : a.isnan.get i = (a.get i).isnan := by cases a <;> rfl
@[cases_simp] theorem get_or (a b : BVal n) : (a |. b).get i = (a.get i ∨ b.get i) := by
  cases a <;> cases b <;> rfl
@[cases_simp] theorem get_and (a b : BVal n) : (a &. b).get i = (a.get i ∧ b.get i) := by
  cases a <;> cases b <;> rfl
@[cases_simp] theorem get_whr (c : BVal n) (a b : Val n) :
    (whr c a b).get i = PF.whr (c.get i) (a.get i) (b.get i) := by
  cases c <;> cases a <;> cases b <;> rfl
@[cases_simp] theorem get_ite (p : Prop) (a b : Val n) :
    (if p then a else b).get i = if p then a.get i else b.get i := by split <;> rfl

@[cases_simp] theorem case_val (a : Val n) : Cases.case a i = a.get i := rfl
@[cases_simp] theorem case_bval (b : BVal n) : Cases.case b i = decide (b.get i) := rfl
@[cases_simp] theorem case_unit (u : Unit) : Cases.case u i = () := rfl
@[cases_simp] theorem case_bool (b : Bool) : Cases.case b i = b := rfl
@[cases_simp] theorem case_prod {α β γ δ : Type} [Cases n α β] [Cases n γ δ] (p : α × γ) :
    Cases.case p i = (Cases.case p.1 i, Cases.case p.2 i) := rfl

/-- an argument that is given for all cases or none is given for all if it is given for one -/
theorem Uniform.isnan_iff {x : Val n} (h : x.Uniform) (i j : Fin n) :
    (x.get i).isnan ↔ (x.get j).isnan := by
  rcases h with h | h
  · simp [h]
  · simp [h]

theorem Uniform.num (x : PF) : (Val.num x : Val n).Uniform := by
  by_cases h : x.isnan
  · left; intro i; exact h
  · right; intro i; exact h

theorem isnan_any (x : Val n) [NeZero n] : x.isnan.any ↔ ∃ i, (x.get i).isnan := by
  cases x with
  | num x => exact ⟨fun h => ⟨0, h⟩, fun ⟨_, h⟩ => h⟩
  | arr v => rfl

theorem isnan_all (x : Val n) [NeZero n] : x.isnan.all ↔ ∀ i, (x.get i).isnan := by
  cases x with
  | num x => exact ⟨fun h _ => h, fun h => h 0⟩
  | arr v => rfl

theorem Uniform.any_iff {x : Val n} [NeZero n] (h : x.Uniform) (i : Fin n) :
    x.isnan.any ↔ (x.get i).isnan := by
  rw [isnan_any]
  exact ⟨fun ⟨j, hj⟩ => (h.isnan_iff i j).mpr hj, fun hi => ⟨i, hi⟩⟩

theorem Uniform.all_iff {x : Val n} [NeZero n] (h : x.Uniform) (i : Fin n) :
    x.isnan.all ↔ (x.get i).isnan := by
  rw [isnan_all]
  exact ⟨fun h => h i, fun hi j => (h.isnan_iff i j).mp hi⟩

end Val

namespace Arrays
variable {n : ℕ} {α β γ δ : Type}

@[cases_simp] theorem case_pf (x : PF) (i : Fin n) : Cases.case x i = x := rfl
@[cases_simp] theorem case_string (x : String) (i : Fin n) : Cases.case x i = x := rfl

/-- What is proved of every function: the values of the single cases, no warning without reason, and,
under a condition `U`, all warnings of the single cases. -/
structure Rel [Cases n α β] (U : Prop) (call : PyM α) (one : Fin n → PyM β) : Prop where
  vals : CaseByCase call one
  sub : NoFalseAlarm call one
  sup : U → ∀ i, ∀ w ∈ (one i).warns, w ∈ call.warns

namespace Rel
variable {U : Prop}

theorem same [Cases n α β] {call : PyM α} {one : Fin n → PyM β} (h : Rel U call one) (hU : U) :
    SameWarnings call one := fun w => ⟨h.sub w, fun ⟨i, hi⟩ => h.sup hU i w hi⟩

theorem pure [Cases n α β] {v : α} {f : Fin n → β} (h : ∀ i, Cases.case v i = f i) :
    Rel U (Pure.pure v : PyM α) (fun i => (Pure.pure (f i) : PyM β)) := by
  refine ⟨fun i => by simp only [PyM.pure_def, Except.map, h], ?_, ?_⟩
  · intro w hw; simp [PyM.pure_def] at hw
  · intro _ i w hw; simp [PyM.pure_def] at hw

theorem raise [Cases n α β] {e : PyErr} :
    Rel U (PyM.raise e : PyM α) (fun _ : Fin n => (PyM.raise e : PyM β)) := by
  refine ⟨fun i => rfl, ?_, ?_⟩
  · intro w hw; simp [PyM.raise] at hw
  · intro _ i w hw; simp [PyM.raise] at hw

theorem warn [NeZero n] {t : Warn} :
    Rel U (PyM.warn t : PyM Unit) (fun _ : Fin n => (PyM.warn t : PyM Unit)) := by
  refine ⟨fun i => rfl, ?_, ?_⟩
  · intro w hw; exact ⟨0, hw⟩
  · intro _ i w hw; exact hw

theorem congr [Cases n α β] {call : PyM α} {one two : Fin n → PyM β}
    (h : Rel U call one) (e : ∀ i, one i = two i) : Rel U call two := by
  have : one = two := funext e
  rwa [this] at h

/-- something that does not depend on the arrays -/
theorem const [NeZero n] [Cases n α α] {x : PyM α} (h : ∀ (v : α) (i : Fin n), Cases.case v i = v) :
    Rel U x (fun _ : Fin n => x) := by
  refine ⟨fun i => ?_, fun w hw => ⟨0, hw⟩, fun _ _ w hw => hw⟩
  rcases x with ⟨w, e | v⟩
  · rfl
  · simp only [Except.map, h]

/-- sequencing -/
theorem bind' [NeZero n] [Cases n α β] [Cases n γ δ] {x : PyM α} {f : Fin n → PyM β}
    {g : α → PyM γ} {k : Fin n → β → PyM δ} (h : Rel U x f)
    (hg : ∀ v, x.res = .ok v → Rel U (g v) (fun i => k i (Cases.case v i))) :
    Rel U (x >>= g) (fun i => f i >>= k i) := by
  obtain ⟨hv, hs, hp⟩ := h
  rcases x with ⟨w, e | v⟩
  · have hf : ∀ i, (f i).res = .error e := fun i => (hv i).symm
    refine ⟨fun i => ?_, fun w hw => ?_, fun hU i w hw => ?_⟩
    · simp only [PyM.bind_error, Except.map]; rw [PyM.bind_res_of_error (hf i)]
    · simp only [PyM.bind_error] at hw
      obtain ⟨i, hi⟩ := hs w hw
      refine ⟨i, ?_⟩
      have := hf i
      generalize f i = fi at this hi ⊢
      rcases fi with ⟨w', r⟩
      simp only at this; subst this
      exact hi
    · have := hf i
      have hpi := hp hU i w
      generalize f i = fi at this hpi hw
      rcases fi with ⟨w', r⟩
      simp only at this; subst this
      exact hpi hw
  · have hf : ∀ i, (f i).res = .ok (Cases.case v i) := fun i => (hv i).symm
    obtain ⟨gv, gs, gp⟩ := hg v rfl
    have hw' : ∀ i, (f i >>= k i).warns = (f i).warns ++ (k i (Cases.case v i)).warns :=
      fun i => PyM.bind_warns_of_ok (hf i) _
    refine ⟨fun i => ?_, fun u hu => ?_, fun hU i u hu => ?_⟩
    · rw [PyM.bind_res_of_ok (hf i)]
      exact gv i
    · simp only [PyM.bind_ok, List.mem_append] at hu
      rcases hu with hu | hu
      · obtain ⟨i, hi⟩ := hs u hu
        exact ⟨i, by rw [hw' i]; exact List.mem_append_left _ hi⟩
      · obtain ⟨i, hi⟩ := gs u hu
        exact ⟨i, by rw [hw' i]; exact List.mem_append_right _ hi⟩
    · rw [hw' i, List.mem_append] at hu
      simp only [PyM.bind_ok, List.mem_append]
      rcases hu with hu | hu
      · exact .inl (hp hU i u hu)
      · exact .inr (gp hU i u hu)

theorem bind [NeZero n] [Cases n α β] [Cases n γ δ] {x : PyM α} {f : Fin n → PyM β}
    {g : α → PyM γ} {k : Fin n → β → PyM δ} (h : Rel U x f)
    (hg : ∀ v, Rel U (g v) (fun i => k i (Cases.case v i))) :
    Rel U (x >>= g) (fun i => f i >>= k i) := h.bind' fun v _ => hg v

/-- a branch taken in all cases alike -/
theorem ite [Cases n α β] {p : Prop} {q : Fin n → Prop} {x y : PyM α}
    {dp : Decidable p} {dq : ∀ i, Decidable (q i)}
    {f g : Fin n → PyM β} (hpq : ∀ i, p ↔ q i) (hx : p → Rel U x f)
    (hy : ¬ p → Rel U y g) :
    Rel U (@_root_.ite _ p dp x y) (fun i => @_root_.ite _ (q i) (dq i) (f i) (g i)) := by
  by_cases hp : p
  · rw [if_pos hp]
    exact (hx hp).congr fun i => (if_pos ((hpq i).mp hp)).symm
  · rw [if_neg hp]
    exact (hy hp).congr fun i => (if_neg (fun h => hp ((hpq i).mpr h))).symm

theorem cond_num [Cases n α β] {p : Prop} {q : Fin n → Prop} {x y : PyM α}
    {dq : ∀ i, Decidable (q i)}
    {f g : Fin n → PyM β} (hpq : ∀ i, p ↔ q i) (hx : p → Rel U x f) (hy : ¬ p → Rel U y g) :
    Rel U (PyM.cond (BVal.num p : BVal n).truth x y)
      (fun i => @_root_.ite _ (q i) (dq i) (f i) (g i)) := by
  have : PyM.cond (BVal.num p : BVal n).truth x y = if p then x else y := by
    simp only [PyM.cond, BVal.truth, PyM.pure_def, PyM.bind_ok, List.nil_append, decide_eq_true_eq]
  rw [this]
  exact ite hpq hx hy

end Rel

theorem check_list_res (nm fm : String) (l : List PF) (lo hi : PF) :
    ∃ b, (CoreUtility.check_list nm fm lo hi l).res = .ok b := by
  induction l with
  | nil => exact ⟨_, rfl⟩
  | cons a t ih =>
    obtain ⟨b, hb⟩ := ih
    unfold CoreUtility.check_list
    split_ifs
    · exact ⟨false :: b, by
        simp only [PyM.warn_def, PyM.bind_ok]; rw [PyM.bind_res_of_ok hb]; rfl⟩
    · exact ⟨true :: b, by rw [PyM.bind_res_of_ok hb]; rfl⟩

theorem mem_check_list (nm fm : String) (l : List PF) (lo hi : PF) (w : Warn) :
    w ∈ (CoreUtility.check_list nm fm lo hi l).warns ↔
      ∃ x ∈ l, w ∈ (CoreUtility.check_list nm fm lo hi [x]).warns := by
  induction l with
  | nil => simp [CoreUtility.check_list, PyM.pure_def]
  | cons a t ih =>
    obtain ⟨b, hb⟩ := check_list_res nm fm t lo hi
    have : (CoreUtility.check_list nm fm lo hi (a :: t)).warns =
        (CoreUtility.check_list nm fm lo hi [a]).warns
          ++ (CoreUtility.check_list nm fm lo hi t).warns := by
      conv_lhs => unfold CoreUtility.check_list
      conv_rhs => enter [1]; unfold CoreUtility.check_list
      simp only [CoreUtility.check_list]
      split_ifs
      · simp only [PyM.warn_def, PyM.bind_ok]
        simp only [PyM.pure_def, PyM.bind_ok, List.append_nil]
        rw [PyM.bind_warns_of_ok hb]; simp [PyM.pure_def]
      · simp only [PyM.pure_def, PyM.bind_ok, List.append_nil]
        rw [PyM.bind_warns_of_ok hb]; simp
    rw [this, List.mem_append, ih]
    simp

theorem mem_toList [NeZero n] (v : Val n) (x : PF) : x ∈ v.toList ↔ ∃ i, v.get i = x := by
  cases v with
  | num y => simp [Val.toList, Val.get_num, eq_comm]
  | arr v => simp [Val.toList, Val.get_arr, List.mem_ofFn]

theorem Rel.check [NeZero n] {U : Prop} {given : List (Val n)} {gi : Fin n → List PF} {nm fm : String}
    {v : Val n} {u : Fin n → PF} {l h : PF} {lo hi : Fin n → PF} (hv : ∀ i, v.get i = u i)
    (hg : ∀ i, given.map (fun x => x.get i) = gi i) (hl : ∀ i, l = lo i) (hh : ∀ i, h = hi i)
    (hU : U → ∀ x ∈ given, Val.Uniform x) :
    Rel U (Arr.CoreUtility.check_if_given given nm fm v l h)
      (fun i => CoreUtility.check_if_given (gi i) nm fm (u i) (lo i) (hi i)) := by
  have hu : u = fun i => v.get i := funext fun i => (hv i).symm
  have hgi : gi = fun i => given.map (fun x => x.get i) := funext fun i => (hg i).symm
  have hlo : lo = fun _ => l := funext fun i => (hl i).symm
  have hhi : hi = fun _ => h := funext fun i => (hh i).symm
  subst hu hgi hlo hhi
  have one : ∀ i w, w ∈ (CoreUtility.check_if_given (given.map fun x => x.get i) nm fm
      (v.get i) l h).warns ↔ (∀ x ∈ given, ¬ (x.get i).isnan) ∧
        w ∈ (CoreUtility.check_list nm fm l h [v.get i]).warns := by
    intro i w
    unfold CoreUtility.check_if_given CoreUtility.check_variable_validity_range
      CoreUtility.check_variable_validity_range_list
    by_cases hc : ∀ x ∈ given, ¬ (x.get i).isnan
    · rw [if_pos (by simpa using hc)]
      obtain ⟨b, hb⟩ := check_list_res nm fm [v.get i] l h
      rw [PyM.bind_warns_of_ok hb]
      simp only [PyM.pure_def, List.append_nil]
      exact ⟨fun hw => ⟨hc, hw⟩, fun hw => hw.2⟩
    · rw [if_neg (by simpa using hc)]
      simp [PyM.pure_def, hc]
  have all : ∀ w, w ∈ (Arr.CoreUtility.check_if_given given nm fm v l h).warns ↔
      (∀ x ∈ given, ¬ x.isnan.any) ∧
        ∃ i, w ∈ (CoreUtility.check_list nm fm l h [v.get i]).warns := by
    intro w
    unfold Arr.CoreUtility.check_if_given Arr.CoreUtility.check_variable_validity_range
    by_cases hc : ∀ x ∈ given, ¬ x.isnan.any
    · rw [if_pos hc]
      obtain ⟨b, hb⟩ := check_list_res nm fm v.toList l h
      rw [PyM.bind_warns_of_ok hb]
      simp only [PyM.pure_def, List.append_nil]
      rw [mem_check_list]
      constructor
      · rintro ⟨x, hx, hw⟩
        obtain ⟨i, rfl⟩ := (mem_toList v x).mp hx
        exact ⟨hc, i, hw⟩
      · rintro ⟨_, i, hw⟩
        exact ⟨_, (mem_toList v _).mpr ⟨i, rfl⟩, hw⟩
    · rw [if_neg hc]
      simp [PyM.pure_def, hc]
  refine ⟨fun i => ?_, fun w hw => ?_, fun hu i w hw => ?_⟩
  · rw [check_if_given_res]
    unfold Arr.CoreUtility.check_if_given Arr.CoreUtility.check_variable_validity_range
    split_ifs
    · obtain ⟨b, hb⟩ := check_list_res nm fm v.toList l h
      rw [PyM.bind_res_of_ok hb]; rfl
    · rfl
  · obtain ⟨hc, i, hi⟩ := (all w).mp hw
    refine ⟨i, (one i w).mpr ⟨fun x hx hn => hc x hx ?_, hi⟩⟩
    exact (Val.isnan_any x).mpr ⟨i, hn⟩
  · obtain ⟨hc, hi⟩ := (one i w).mp hw
    refine (all w).mpr ⟨fun x hx hn => hc x hx ?_, i, hi⟩
    exact ((hU hu x hx).any_iff i).mp hn

theorem uniform_nan : (Val.nan : Val n).Uniform := Val.Uniform.num _
theorem uniform_pinf : (Val.pinf : Val n).Uniform := Val.Uniform.num _
theorem uniform_ofNat (k : ℕ) : (no_index (OfNat.ofNat k : Val n)).Uniform := Val.Uniform.num _
theorem uniform_zero : (0 : Val n).Uniform := Val.Uniform.num _
theorem uniform_one : (1 : Val n).Uniform := Val.Uniform.num _
theorem uniform_sci (m : ℕ) (s : Bool) (e : ℕ) :
    (OfScientific.ofScientific m s e : Val n).Uniform := Val.Uniform.num _

end Arrays
end
