import Verif.Lemmas.ArrayTac
import Verif.Py.Loop

/-! # Loops over arrays: all cases are iterated together -/

open Classical
open Arrays
noncomputable section
namespace ArrProof
variable {n : ℕ}

theorem not_isnan_of_gt {x y : PF} (h : x > y) : ¬ x.isnan := by
  cases x with
  | nan => cases y <;> exact h.elim
  | _ => exact fun h => h

theorem max_gt {x y : PF} {t : ℝ} : PF.max x y > .fin t ↔
    (¬ x.isnan ∧ ¬ y.isnan) ∧ (x > .fin t ∨ y > .fin t) := by
  by_cases hx : x.isnan
  · have : PF.max x y = x := by unfold PF.max; rw [if_pos hx]
    rw [this]
    constructor
    · exact fun h => absurd hx (not_isnan_of_gt h)
    · exact fun h => absurd hx h.1.1
  by_cases hy : y.isnan
  · have : PF.max x y = y := by unfold PF.max; rw [if_neg hx, if_pos hy]
    rw [this]
    constructor
    · exact fun h => absurd hy (not_isnan_of_gt h)
    · exact fun h => absurd hy h.1.2
  rw [and_iff_right ⟨hx, hy⟩]
  have key : ∀ a b : PF, ¬ a.isnan → ¬ b.isnan → b ≤ a → b > .fin t → a > .fin t := by
    intro a b ha hb h1 h2
    cases a <;> cases b <;>
      first
        | exact absurd trivial ha
        | exact absurd trivial hb
        | exact trivial
        | exact False.elim h1
        | exact False.elim h2
        | exact lt_of_lt_of_le (α := ℝ) h2 h1
  have tot : ¬ y ≤ x → x ≤ y := by
    intro h
    cases x <;> cases y <;>
      first
        | exact absurd trivial hx
        | exact absurd trivial hy
        | exact trivial
        | exact absurd trivial h
        | exact (le_total (α := ℝ) _ _).resolve_right h
  unfold PF.max
  rw [if_neg hx, if_neg hy]
  split_ifs with h
  · exact ⟨Or.inl, fun h2 => h2.elim id (key x y hx hy h)⟩
  · exact ⟨Or.inr, fun h2 => h2.elim (key y x hy hx (tot h)) id⟩

theorem foldr_gt (t : ℝ) (l : List PF) : l.foldr PF.max PF.ninf > .fin t ↔
    (∀ x ∈ l, ¬ x.isnan) ∧ ∃ x ∈ l, x > .fin t := by
  have hnan : ∀ l : List PF, (l.foldr PF.max PF.ninf).isnan ↔ ∃ x ∈ l, x.isnan := by
    intro l
    induction l with
    | nil => simp [PF.isnan]
    | cons x xs ih =>
      rw [List.foldr_cons]
      have : (PF.max x (xs.foldr PF.max PF.ninf)).isnan ↔ x.isnan ∨ (xs.foldr PF.max PF.ninf).isnan := by
        unfold PF.max
        split_ifs with h1 h2 h3 <;> tauto
      rw [this, ih]
      simp
  induction l with
  | nil =>
    simp only [List.foldr_nil, List.not_mem_nil, false_and, exists_false, and_false, iff_false]
    exact fun h => h
  | cons x xs ih =>
    rw [List.foldr_cons, max_gt, propext ih, hnan]
    simp only [List.mem_cons, forall_eq_or_imp, exists_eq_or_imp]
    push Not
    tauto

theorem amax_gt [NeZero n] (v : Val n) (t : ℝ) : v.amax > .fin t ↔
    (∀ i, ¬ (v.get i).isnan) ∧ ∃ i, v.get i > .fin t := by
  cases v with
  | num x =>
    simp only [Val.amax, Val.get_num]
    constructor
    · intro h
      refine ⟨fun _ hn => ?_, ⟨0, h⟩⟩
      cases x <;> first | exact hn.elim | exact h.elim
    · rintro ⟨-, -, h⟩
      exact h
  | arr f =>
    simp only [Val.amax, Val.get_arr]
    rw [foldr_gt t]
    simp only [List.mem_ofFn, Set.mem_range, forall_exists_index, forall_apply_eq_imp_iff,
        exists_exists_eq_and]

theorem not_gt_fin {x : PF} {t : ℝ} (h : ¬ x > .fin t) (hn : ¬ x.isnan) : x ≤ .fin t := by
  cases x with
  | nan => exact absurd trivial hn
  | ninf => trivial
  | pinf => exact absurd trivial h
  | fin x => exact not_lt.mp (show ¬ t < x from h)

theorem abs_gt_neg (x : PF) (h : ¬ (PF.abs x).isnan) : PF.abs x > -1.0 := by
  rw [PF.sci_eq]
  cases x with
  | nan => exact absurd trivial h
  | ninf => trivial
  | pinf => trivial
  | fin x =>
    show -(OfScientific.ofScientific 10 true 1 : ℝ) < |x|
    have := abs_nonneg x
    norm_num
    linarith

/-- A loop that runs until the largest change is small: all cases are iterated together. -/
theorem loop_together [NeZero n] {S σ : Type} (cs : S → Fin n → σ) (body : S → S) (b : Fin n → σ → σ)
    (D : S → Val n) (d : σ → PF) (S0 : S) (N : ℕ) (t : ℝ)
    (hcase : ∀ s i, cs (body s) i = b i (cs s i)) (hd : ∀ s i, (D s).get i = d (cs s i))
    (hpos : ∀ i j, ¬ (d ((b i)^[j] (cs S0 i))).isnan → d ((b i)^[j] (cs S0 i)) > -1.0) :
    ∃ K ≤ N, whileIter N (fun s => (D s).amax > .fin t) body S0 = body^[K] S0 ∧
      (∀ i, cs (whileIter N (fun s => (D s).amax > .fin t) body S0) i = (b i)^[K] (cs S0 i)) ∧
      (∀ j ≤ K, ∀ i, whileIter j (fun s => d s > -1.0) (b i) (cs S0 i) = (b i)^[j] (cs S0 i)) ∧
      (∀ j < K, (∀ i, ¬ (d ((b i)^[j] (cs S0 i))).isnan) ∧ ∃ i, d ((b i)^[j] (cs S0 i)) > .fin t) ∧
      ((∃ i, (d ((b i)^[K] (cs S0 i))).isnan) ∨
        ((K = N ∨ ∀ i, d ((b i)^[K] (cs S0 i)) ≤ .fin t) ∧
          ∀ i, ∃ k ≤ K, whileIter N (fun s => d s > .fin t) (b i) (cs S0 i) = (b i)^[k] (cs S0 i))) := by
  have hit : ∀ j i, cs (body^[j] S0) i = (b i)^[j] (cs S0 i) := by
    intro j i
    induction j with
    | zero => rfl
    | succ j ih => rw [Function.iterate_succ_apply', Function.iterate_succ_apply', hcase, ih]
  obtain ⟨K, hK, hres, hlt, hend⟩ := whileIter_spec (fun s => (D s).amax > .fin t) body N S0
  simp only [amax_gt, hd, hit] at hlt hend
  refine ⟨K, hK, hres, fun i => by rw [hres, hit], ?_, fun j hj => hlt j hj, ?_⟩
  · intro j hj i
    exact whileIter_all _ _ _ _ fun m hm => hpos i m ((hlt m (by omega)).1 i)
  · by_cases hn : ∃ i, (d ((b i)^[K] (cs S0 i))).isnan
    · exact Or.inl hn
    · push Not at hn
      have hset : K = N ∨ ∀ i, d ((b i)^[K] (cs S0 i)) ≤ .fin t := by
        rcases hend with h | h
        · exact Or.inl h
        · right
          intro i
          exact not_gt_fin (fun hc => h ⟨hn, i, hc⟩) (hn i)
      refine Or.inr ⟨hset, fun i => ?_⟩
      obtain ⟨k, hk, hr, hc, hx⟩ := whileIter_spec (fun s => d s > .fin t) (b i) N (cs S0 i)
      refine ⟨k, ?_, hr⟩
      · rcases hset with h | h
        · omega
        · by_contra hlt'
          have h1 := hc K (by omega)
          have h2 := h i
          revert h1 h2
          cases d ((b i)^[K] (cs S0 i)) with
          | nan => exact fun h => h.elim
          | ninf => exact fun h => h.elim
          | pinf => exact fun _ h => h.elim
          | fin x => exact fun h1 h2 => absurd (show t < x from h1) (not_lt.mpr h2)

theorem iterate_case {S σ : Type} (cs : S → Fin n → σ) (body : S → S) (b : Fin n → σ → σ) (S0 : S)
    (hcase : ∀ s i, cs (body s) i = b i (cs s i)) (j : ℕ) (i : Fin n) :
    cs (body^[j] S0) i = (b i)^[j] (cs S0 i) := by
  induction j with
  | zero => rfl
  | succ j ih => rw [Function.iterate_succ_apply', Function.iterate_succ_apply', hcase, ih]

theorem together_bind [NeZero n] {x : PyM (Val n)} {y : Fin n → PyM PF} {f : Val n → PyM (Val n)}
    {g : Fin n → PF → PyM PF} {p : ℕ → Fin n → PF → PyM PF} {N : ℕ} {t : ℝ} (h : Rel False x y)
    (hk : ∀ v, IteratedTogether (f v) (fun i => g i (v.get i)) (fun k i => p k i (v.get i)) N t) :
    IteratedTogether (x >>= f) (fun i => y i >>= g i) (fun k i => y i >>= p k i) N t := by
  obtain ⟨hv, hs, -⟩ := h
  rcases x with ⟨w, e | v⟩
  · have hf : ∀ i, (y i).res = .error e := fun i => (hv i).symm
    refine ⟨0, Nat.zero_le _, ?_, ?_, fun j h1 h2 => absurd h2 (by omega), .inl ⟨0, fun a => ?_⟩⟩
    · intro i
      simp only [PyM.bind_error, Except.map]; rw [PyM.bind_res_of_error (hf i)]
    · intro w hw
      simp only [PyM.bind_error] at hw
      obtain ⟨i, hi⟩ := hs w hw
      refine ⟨i, ?_⟩
      dsimp only
      have := hf i
      generalize y i = fi at this hi ⊢
      rcases fi with ⟨w', r⟩
      simp only at this; subst this
      exact hi
    · rw [PyM.bind_res_of_error (hf 0)]; simp
  · have hf : ∀ i, (y i).res = .ok (v.get i) := fun i => (hv i).symm
    have hr : ∀ i (q : PF → PyM PF), (y i >>= q).res = (q (v.get i)).res :=
      fun i q => PyM.bind_res_of_ok (hf i) _
    have hw' : ∀ i (q : PF → PyM PF), (y i >>= q).warns = (y i).warns ++ (q (v.get i)).warns :=
      fun i q => PyM.bind_warns_of_ok (hf i) _
    obtain ⟨K, hK, h1, h2, h3, h4⟩ := hk v
    refine ⟨K, hK, ?_, ?_, ?_, ?_⟩
    · intro i; rw [hr]; exact h1 i
    · intro u hu
      simp only [PyM.bind_ok, List.mem_append] at hu
      rcases hu with hu | hu
      · obtain ⟨i, hi⟩ := hs u hu
        exact ⟨i, by rw [hw' i]; exact List.mem_append_left _ hi⟩
      · obtain ⟨i, hi⟩ := h2 u hu
        exact ⟨i, by rw [hw' i]; exact List.mem_append_right _ hi⟩
    · simpa only [hr] using h3
    · simpa only [hr] using h4

/-- from the loop to the call -/
theorem together_of_loop [NeZero n] {S σ : Type} (cs : S → Fin n → σ) (body : S → S)
    (b : Fin n → σ → σ) (D : S → Val n) (d : σ → PF) (S0 : S) {N : ℕ} {t : ℝ}
    (R : S → PyM (Val n)) (r : ℕ → Fin n → σ → PyM PF)
    (hcase : ∀ s i, cs (body s) i = b i (cs s i)) (hd : ∀ s i, (D s).get i = d (cs s i))
    (hpos : ∀ i j, ¬ (d ((b i)^[j] (cs S0 i))).isnan → d ((b i)^[j] (cs S0 i)) > -1.0)
    (hR : ∀ K ≤ N, Rel False (R (body^[K] S0)) (fun i => r K i (cs (body^[K] S0) i)))
    (hr : ∀ K N i s, (r K i s).res = (r N i s).res)
    (hchg : ∀ i j, ∃ x y, (r 0 i ((b i)^[j + 2] (cs S0 i))).res = .ok x ∧
      (r 0 i ((b i)^[j + 1] (cs S0 i))).res = .ok y ∧
      d ((b i)^[j + 2] (cs S0 i)) = PF.abs (x - y))
    (hnf : ∀ i j, (d ((b i)^[j] (cs S0 i))).isnan → (∀ m < j, ¬ (d ((b i)^[m] (cs S0 i))).isnan) →
      ∀ x : ℝ, (r 0 i ((b i)^[j] (cs S0 i))).res ≠ .ok (.fin x)) :
    IteratedTogether (R (whileIter N (fun s => (D s).amax > .fin t) body S0))
      (fun i => r N i (whileIter N (fun s => d s > .fin t) (b i) (cs S0 i)))
      (fun k i => r k i (whileIter k (fun s => d s > -1.0) (b i) (cs S0 i))) N t := by
  obtain ⟨K, hK, hres, -, hpass, hlt, hend⟩ := loop_together cs body b D d S0 N t hcase hd hpos
  have hRK := hR K hK
  simp only [iterate_case cs body b S0 hcase] at hRK
  refine ⟨K, hK, ?_, ?_, ?_, ?_⟩
  · intro i
    rw [hres]; dsimp only; rw [hpass K le_rfl i]
    exact hRK.vals i
  · intro w hw
    rw [hres] at hw
    obtain ⟨i, hi⟩ := hRK.sub w hw
    exact ⟨i, by dsimp only; rw [hpass K le_rfl i]; exact hi⟩
  · intro j h1 h2
    obtain ⟨i, hi⟩ := (hlt j h2).2
    obtain ⟨x, y, hx, hy, hxy⟩ := hchg i (j - 2)
    rw [show j - 2 + 2 = j by omega] at hx hxy
    rw [show j - 2 + 1 = j - 1 by omega] at hy
    refine ⟨i, x, y, ?_, ?_, hxy ▸ hi⟩
    · dsimp only; rw [hpass j h2.le i, hr j 0]; exact hx
    · dsimp only; rw [hpass (j - 1) (by omega) i, hr (j - 1) 0]; exact hy
  · rcases hend with ⟨i, hi⟩ | ⟨h1, h2⟩
    · left
      refine ⟨i, fun x => ?_⟩
      dsimp only; rw [hpass K le_rfl i, hr K 0]
      exact hnf i K hi (fun m hm => (hlt m hm).1 i) x
    · right
      refine ⟨fun i => ?_, ?_⟩
      · obtain ⟨k, hk, he⟩ := h2 i
        refine ⟨k, hk, ?_⟩
        dsimp only; rw [hpass k hk i, he, hr N k]
      · rcases h1 with h1 | h1
        · exact Or.inl h1
        · rcases Nat.lt_or_ge K 2 with h | h
          · exact Or.inr (Or.inl (by omega))
          · refine Or.inr (Or.inr fun i => ?_)
            obtain ⟨x, y, hx, hy, hxy⟩ := hchg i (K - 2)
            rw [show K - 2 + 2 = K by omega] at hx hxy
            rw [show K - 2 + 1 = K - 1 by omega] at hy
            refine ⟨x, y, ?_, ?_, hxy ▸ h1 i⟩
            · dsimp only; rw [hpass K le_rfl i, hr K 0]; exact hx
            · dsimp only; rw [hpass (K - 1) (by omega) i, hr (K - 1) 0]; exact hy

/-- a change that is not a number, coming from a number, goes to infinity or to no number -/
theorem change_nan {x y : PF} (h : (PF.abs (x - y)).isnan) (hy : ¬ y.isnan) (a : ℝ) : x ≠ .fin a := by
  rintro rfl
  cases y <;> first | exact hy trivial | exact h

theorem not_isnan_left {x y : PF} (h : ¬ (PF.abs (x - y)).isnan) : ¬ x.isnan := by
  intro hx
  cases x <;> first | exact hx.elim | skip
  apply h
  cases y <;> trivial

end ArrProof
end
