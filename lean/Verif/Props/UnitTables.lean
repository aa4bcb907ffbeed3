import Verif.Model.UnitTables
import Verif.Props.WorseUnits
import Verif.Props.Concrete

/-! # C93: the tables of concrete unit properties fit the formulas and graphs beside them -/

open Classical
open PF
noncomputable section

namespace UnitTables

theorem KD_value {d : List (String × TableItem)} {K : List (String × TableEntry)} {p : String} {x : ℝ} {y : PF}
    (h : d.lookup "KD" = some (.dict K)) (h2 : K.lookup p = some (.num y)) (e : y = fin x) :
    KD d p = pure (fin x) := by
  subst e
  unfold KD item
  rw [h]
  dsimp only [PyM.pure_def, PyM.bind_ok]
  rw [h2]
  rfl

/-- reading a number from a table -/
macro "kd" : tactic =>
  `(tactic| exact KD_value rfl rfl (by first | (rw [sci_eq] <;> norm_num <;> done) | (rw [ofNat_eq] <;> norm_num <;> done)))

theorem harder {d : List (String × TableItem)} {p q : String} {x y : ℝ} {m h : PF → PyM PF}
    (hx : KD d p = pure (fin x)) (hy : KD d q = pure (fin y))
    (k : NotLess (m (fin x)) (m (fin y)) True ∧ NotLess (h (fin y)) (h (fin x)) True) :
    NotLess (KD d p >>= m) (KD d q >>= m) True ∧ NotLess (KD d q >>= h) (KD d p >>= h) True := by
  rw [hx, hy, pure_bind, pure_bind, pure_bind, pure_bind]
  exact k

theorem notLess_true {m m' : PyM PF} {s : Prop} (hs : s) (h : NotLess m m' s) : NotLess m m' True := by
  obtain ⟨x, x', h1, h2, h3, h4⟩ := h
  exact ⟨x, x', h1, h2, h3, fun _ => h4 hs⟩

end UnitTables

open UnitTables

/-- the second of two places in a table needs a larger mass for the same wave, and resists only a lower wave with
the same unit; both entries are numbers -/
def HarderPlace (table : List (String × TableItem)) (mass height : PF → PyM PF) (easier harder : String) : Prop :=
  NotLess (KD table easier >>= mass) (KD table harder >>= mass) True ∧
    NotLess (KD table harder >>= height) (KD table easier >>= height) True

/-- trunk before head, non-breaking before breaking waves -/
def placePairs : List (String × String) := [("trunk_non_breaking", "trunk_breaking"),
  ("head_non_breaking", "head_breaking"), ("trunk_non_breaking", "head_non_breaking"),
  ("trunk_breaking", "head_breaking"), ("trunk_non_breaking", "head_breaking")]

section
variable (H M rw ra c a : ℝ) (hH : 0 < H) (hM : 0 < M) (hw : 0 < rw) (hr : rw < ra) (hc : 0 < c) (ha : 0 < a)
include hH hM hw hr hc ha

namespace UnitTables

theorem both (x y : ℝ) (hy : 0 < y) (hyx : y < x) :
    ∀ p ∈ [
      (fun K => Accropode.calculate_unit_mass_M (fin H) (fin rw) (fin ra) K (fin c) (fin a),
        fun K => Accropode.calculate_significant_wave_height_Hs (fin M) (fin rw) (fin ra) K (fin c) (fin a)),
      (fun K => Accropode2.calculate_unit_mass_M (fin H) (fin rw) (fin ra) K (fin c) (fin a),
        fun K => Accropode2.calculate_significant_wave_height_Hs (fin M) (fin rw) (fin ra) K (fin c) (fin a)),
      (fun K => pure (CoreLoc.calculate_unit_mass_M (fin H) (fin rw) (fin ra) K (fin c) (fin a)),
        fun K => pure (CoreLoc.calculate_significant_wave_height_Hs (fin M) (fin rw) (fin ra) K (fin c) (fin a))),
      (fun K => pure (CubesHudson.calculate_unit_mass_M (fin H) (fin rw) (fin ra) K (fin c) (fin a)),
        fun K => pure (CubesHudson.calculate_significant_wave_height_Hs (fin M) (fin rw) (fin ra) K (fin c) (fin a))),
      (fun K => pure (Cubipod.calculate_unit_mass_M (fin H) (fin rw) (fin ra) K (fin c) (fin a)),
        fun K => pure (Cubipod.calculate_significant_wave_height_Hs (fin M) (fin rw) (fin ra) K (fin c) (fin a))),
      (fun K => pure (Tetrapod.calculate_unit_mass_M (fin H) (fin rw) (fin ra) K (fin c) (fin a)),
        fun K => pure (Tetrapod.calculate_significant_wave_height_Hs (fin M) (fin rw) (fin ra) K (fin c) (fin a)))],
    NotLess (p.1 (fin x)) (p.1 (fin y)) True ∧ NotLess (p.2 (fin y)) (p.2 (fin x)) True := by
  have h1 := C92_hudson_mass hw le_rfl hr le_rfl x y c c a a hy hyx.le hc le_rfl ha le_rfl H H hH le_rfl
  have h2 := C92_hudson_height hw le_rfl hr le_rfl x y c c a a hy hyx.le hc le_rfl ha le_rfl M M hM le_rfl
  simp only [List.mem_cons, List.not_mem_nil, or_false, forall_eq_or_imp, forall_eq] at h1 h2 ⊢
  obtain ⟨-, a1, a2, a3, a4, a5, a6⟩ := h1
  obtain ⟨-, b1, b2, b3, b4, b5, b6⟩ := h2
  have s : ∀ u v w : Prop, u ∨ y < x ∨ v ∨ w := fun _ _ _ => .inr (.inl hyx)
  exact ⟨⟨notLess_true (s _ _ _) a1, notLess_true (s _ _ _) b1⟩, ⟨notLess_true (s _ _ _) a2, notLess_true (s _ _ _) b2⟩,
    ⟨notLess_true (s _ _ _) a3, notLess_true (s _ _ _) b3⟩, ⟨notLess_true (s _ _ _) a4, notLess_true (s _ _ _) b4⟩,
    ⟨notLess_true (s _ _ _) a5, notLess_true (s _ _ _) b5⟩, ⟨notLess_true (s _ _ _) a6, notLess_true (s _ _ _) b6⟩⟩

end UnitTables

/-- C93: Accropode -/
theorem C93_places_accropode : ∀ p ∈ placePairs, HarderPlace accropode
    (fun K => Accropode.calculate_unit_mass_M (fin H) (fin rw) (fin ra) K (fin c) (fin a))
    (fun K => Accropode.calculate_significant_wave_height_Hs (fin M) (fin rw) (fin ra) K (fin c) (fin a)) p.1 p.2 := by
  have h := both H M rw ra c a hH hM hw hr hc ha
  simp only [List.mem_cons, List.not_mem_nil, or_false, forall_eq_or_imp, forall_eq] at h
  have k1 : KD accropode "trunk_non_breaking" = pure (fin 15) := by kd
  have k2 : KD accropode "trunk_breaking" = pure (fin 12) := by kd
  have k3 : KD accropode "head_non_breaking" = pure (fin 11.5) := by kd
  have k4 : KD accropode "head_breaking" = pure (fin 9.5) := by kd
  simp only [placePairs, List.mem_cons, List.not_mem_nil, or_false, forall_eq_or_imp, forall_eq]
  exact ⟨harder k1 k2 (h _ _ (by norm_num) (by norm_num)).1, harder k3 k4 (h _ _ (by norm_num) (by norm_num)).1,
    harder k1 k3 (h _ _ (by norm_num) (by norm_num)).1, harder k2 k4 (h _ _ (by norm_num) (by norm_num)).1,
    harder k1 k4 (h _ _ (by norm_num) (by norm_num)).1⟩

/-- C93: Tetrapod -/
theorem C93_places_tetrapod : ∀ p ∈ placePairs, HarderPlace tetrapod
    (fun K => pure (Tetrapod.calculate_unit_mass_M (fin H) (fin rw) (fin ra) K (fin c) (fin a)))
    (fun K => pure (Tetrapod.calculate_significant_wave_height_Hs (fin M) (fin rw) (fin ra) K (fin c) (fin a)))
    p.1 p.2 := by
  have h := both H M rw ra c a hH hM hw hr hc ha
  simp only [List.mem_cons, List.not_mem_nil, or_false, forall_eq_or_imp, forall_eq] at h
  have k1 : KD tetrapod "trunk_non_breaking" = pure (fin 8) := by kd
  have k2 : KD tetrapod "trunk_breaking" = pure (fin 7) := by kd
  have k3 : KD tetrapod "head_non_breaking" = pure (fin 5.5) := by kd
  have k4 : KD tetrapod "head_breaking" = pure (fin 4.5) := by kd
  have g := fun x y u v => (h x y u v).2.2.2.2.2
  simp only [placePairs, List.mem_cons, List.not_mem_nil, or_false, forall_eq_or_imp, forall_eq]
  exact ⟨harder k1 k2 (g _ _ (by norm_num) (by norm_num)), harder k3 k4 (g _ _ (by norm_num) (by norm_num)),
    harder k1 k3 (g _ _ (by norm_num) (by norm_num)), harder k2 k4 (g _ _ (by norm_num) (by norm_num)),
    harder k1 k4 (g _ _ (by norm_num) (by norm_num))⟩

/-- C93: cubes in two layers; the head under breaking waves has no number: it cannot be computed with -/
theorem C93_places_cubes :
    (∀ p ∈ [("double_layer_trunk_non_breaking", "double_layer_trunk_breaking"),
      ("double_layer_trunk_non_breaking", "double_layer_head_non_breaking")], HarderPlace cubes_double_layer_hudson1959
      (fun K => pure (CubesHudson.calculate_unit_mass_M (fin H) (fin rw) (fin ra) K (fin c) (fin a)))
      (fun K => pure (CubesHudson.calculate_significant_wave_height_Hs (fin M) (fin rw) (fin ra) K (fin c) (fin a)))
      p.1 p.2) ∧
    (∀ f : PF → PyM PF,
      (KD cubes_double_layer_hudson1959 "double_layer_head_breaking" >>= f).res = .error .typeError) := by
  have h := both H M rw ra c a hH hM hw hr hc ha
  simp only [List.mem_cons, List.not_mem_nil, or_false, forall_eq_or_imp, forall_eq] at h ⊢
  have k1 : KD cubes_double_layer_hudson1959 "double_layer_trunk_non_breaking" = pure (fin 7.5) := by kd
  have k2 : KD cubes_double_layer_hudson1959 "double_layer_trunk_breaking" = pure (fin 6.5) := by kd
  have k3 : KD cubes_double_layer_hudson1959 "double_layer_head_non_breaking" = pure (fin 5) := by kd
  have g := fun x y u v => (h x y u v).2.2.2.1
  exact ⟨⟨harder k1 k2 (g _ _ (by norm_num) (by norm_num)), harder k1 k3 (g _ _ (by norm_num) (by norm_num))⟩,
    fun f => rfl⟩

/-- C93: Cubipod -/
theorem C93_places_cubipod : ∀ p ∈ [("trunk_double_layer", "trunk_single_layer"),
    ("head_double_layer", "head_single_layer"), ("trunk_double_layer", "head_double_layer"),
    ("trunk_single_layer", "head_single_layer")], HarderPlace cubipod
    (fun K => pure (Cubipod.calculate_unit_mass_M (fin H) (fin rw) (fin ra) K (fin c) (fin a)))
    (fun K => pure (Cubipod.calculate_significant_wave_height_Hs (fin M) (fin rw) (fin ra) K (fin c) (fin a)))
    p.1 p.2 := by
  have h := both H M rw ra c a hH hM hw hr hc ha
  simp only [List.mem_cons, List.not_mem_nil, or_false, forall_eq_or_imp, forall_eq] at h ⊢
  have k1 : KD cubipod "trunk_double_layer" = pure (fin 28) := by kd
  have k2 : KD cubipod "trunk_single_layer" = pure (fin 12) := by kd
  have k3 : KD cubipod "head_double_layer" = pure (fin 7) := by kd
  have k4 : KD cubipod "head_single_layer" = pure (fin 5) := by kd
  have g := fun x y u v => (h x y u v).2.2.2.2.1
  exact ⟨harder k1 k2 (g _ _ (by norm_num) (by norm_num)), harder k3 k4 (g _ _ (by norm_num) (by norm_num)),
    harder k1 k3 (g _ _ (by norm_num) (by norm_num)), harder k2 k4 (g _ _ (by norm_num) (by norm_num))⟩

/-- C93: Core-Loc -/
theorem C93_places_core_loc : HarderPlace core_loc
    (fun K => pure (CoreLoc.calculate_unit_mass_M (fin H) (fin rw) (fin ra) K (fin c) (fin a)))
    (fun K => pure (CoreLoc.calculate_significant_wave_height_Hs (fin M) (fin rw) (fin ra) K (fin c) (fin a)))
    "trunk" "head" := by
  have h := both H M rw ra c a hH hM hw hr hc ha
  simp only [List.mem_cons, List.not_mem_nil, or_false, forall_eq_or_imp, forall_eq] at h
  have k1 : KD core_loc "trunk" = pure (fin 16) := by kd
  have k2 : KD core_loc "head" = pure (fin 13) := by kd
  exact harder k1 k2 (h _ _ (by norm_num) (by norm_num)).2.2.1

end

example := C93_places_accropode (H := 4) (M := 9000) (rw := 1025) (ra := 2400) (c := 4 / 3) (a := 1) (by norm_num)
  (by norm_num) (by norm_num) (by norm_num) (by norm_num) (by norm_num)
example := C93_places_tetrapod (H := 4) (M := 9000) (rw := 1025) (ra := 2400) (c := 1.5) (a := 1) (by norm_num)
  (by norm_num) (by norm_num) (by norm_num) (by norm_num) (by norm_num)
example := C93_places_cubes (H := 4) (M := 9000) (rw := 1025) (ra := 2400) (c := 1.5) (a := 1) (by norm_num)
  (by norm_num) (by norm_num) (by norm_num) (by norm_num) (by norm_num)
example := C93_places_cubipod (H := 4) (M := 9000) (rw := 1025) (ra := 2400) (c := 1.5) (a := 1) (by norm_num)
  (by norm_num) (by norm_num) (by norm_num) (by norm_num) (by norm_num)
example := C93_places_core_loc (H := 4) (M := 9000) (rw := 1025) (ra := 2400) (c := 4 / 3) (a := 1) (by norm_num)
  (by norm_num) (by norm_num) (by norm_num) (by norm_num) (by norm_num)

/-! ## The seabed graphs and the tables -/

/-- C93: the coefficient for non-breaking waves the functions give is the one in the table -/
theorem C93_nonbreaking :
    KD accropode "trunk_non_breaking" = pure Accropode.calculate_KD_nonbreaking_trunk_from_seabed_slope ∧
    KD accropode2 "trunk_nonbreaking" = pure Accropode2.calculate_KD_nonbreaking_trunk_from_seabed_slope ∧
    KD core_loc "trunk" = pure CoreLoc.calculate_KD_nonbreaking_trunk_from_seabed_slope := by
  have e1 : (15.0 : PF) = fin 15 := by rw [sci_eq]; norm_num
  have e2 : (16.0 : PF) = fin 16 := by rw [sci_eq]; norm_num
  unfold Accropode.calculate_KD_nonbreaking_trunk_from_seabed_slope
    Accropode2.calculate_KD_nonbreaking_trunk_from_seabed_slope CoreLoc.calculate_KD_nonbreaking_trunk_from_seabed_slope
  rw [e1, e2]
  exact ⟨by kd, by kd, by kd⟩

/-- C93: Accropode II, breaking waves: the graph runs between the table's lowest and highest coefficient and reaches
both -/
theorem C93_accropode2_range :
    ∃ lo hi : ℝ, KD accropode2 "trunk_breaking_min" = pure (fin lo) ∧ KD accropode2 "trunk_breaking_max" = pure (fin hi) ∧
      (∀ x : ℝ, ∃ k, (Accropode2.calculate_KD_breaking_trunk_from_seabed_slope (fin x)).res = .ok (fin k) ∧
        lo ≤ k ∧ k ≤ hi) ∧
      (∀ x ≤ 1, (Accropode2.calculate_KD_breaking_trunk_from_seabed_slope (fin x)).res = .ok (fin hi)) ∧
      (∀ x ≥ 10, (Accropode2.calculate_KD_breaking_trunk_from_seabed_slope (fin x)).res = .ok (fin lo)) := by
  obtain ⟨r, h1, h2, h3, -, h5⟩ := C11_accropode2
  refine ⟨9, 16, by kd, by kd, fun x => ⟨_, h1 x, h5 x⟩, fun x hx => ?_, fun x hx => ?_⟩
  · rw [h1]
    have t : accropode2Table x = 16 := by unfold accropode2Table; rw [if_pos hx]
    obtain ⟨k, hk⟩ := h3 x
    obtain ⟨u, v⟩ := h2 x
    rw [t] at u v
    have w : (159 : ℝ) < k := by rw [hk] at v; linarith
    have w' : (160 : ℤ) ≤ k := by exact_mod_cast w
    have w2 : (160 : ℝ) ≤ k := by exact_mod_cast w'
    have : r x = 16 := le_antisymm u (by rw [hk]; linarith)
    rw [this]
  · rw [h1]
    have t : accropode2Table x ≤ 9 := by
      unfold accropode2Table
      rw [if_neg (by linarith), if_neg (by linarith)]
      split_ifs with h
      · have : x = 10 := le_antisymm h hx
        subst this; norm_num
      · norm_num
    have : r x = 9 := le_antisymm ((h2 x).1.trans t) (h5 x).1
    rw [this]

/-- C93, refuted: the Accropode table's coefficient for breaking waves is on the safe side only for seabed slopes up to
1 + 12/5.3 = 3.26 %; on a steeper seabed the graph beside it gives a lower one -/
theorem C93_accropode_breaking_refuted :
    ∃ K : ℝ, KD accropode "trunk_breaking" = pure (fin K) ∧
      ∀ x : ℝ, ∃ k, (Accropode.calculate_KD_breaking_trunk_from_seabed_slope (fin x)).res = .ok (fin k) ∧
        (K ≤ k ↔ x ≤ 1 + 12 / 5.3) := by
  obtain ⟨r, h1, h2, h3, -, h5⟩ := C11_accropode
  refine ⟨12, by kd, fun x => ⟨_, h1 x, ?_⟩⟩
  obtain ⟨u, v⟩ := h2 x
  obtain ⟨k, hk⟩ := h3 x
  have t : 12 ≤ accropodeTable x ↔ x ≤ 1 + 12 / 5.3 := by
    unfold accropodeTable
    split_ifs with c1 c2 c3
    · norm_num; linarith
    · rw [le_sub_iff_add_le, ← le_sub_iff_add_le', div_le_iff₀ (by norm_num)]
      constructor
      · intro h
        have : x - 1 ≤ 12 / 5.3 := by rw [le_div_iff₀ (by norm_num)]; linarith
        linarith
      · intro h
        have : x - 1 ≤ 12 / 5.3 := by linarith
        rw [le_div_iff₀ (by norm_num)] at this; linarith
    · have : (12 : ℝ) / 5.3 < 4 := by norm_num
      constructor <;> intro h <;> linarith
    · have : (12 : ℝ) / 5.3 < 4 := by norm_num
      constructor <;> intro h <;> linarith
  rw [← t]
  refine ⟨fun h => h.trans u, fun h => ?_⟩
  have w : (119 : ℝ) < k := by rw [hk] at v; linarith
  have w' : (120 : ℤ) ≤ k := by exact_mod_cast w
  have w2 : (120 : ℝ) ≤ k := by exact_mod_cast w'
  rw [hk]; linarith

/-- C93, refuted (in tonnes): so on every steeper seabed a unit sized with the table is too light by the graph -/
theorem C93_accropode_mass_refuted (H rw ra c a x : ℝ) (hH : 0 < H) (hw : 0 < rw) (hr : rw < ra) (hc : 0 < c)
    (ha : 0 < a) (hx : 1 + 12 / 5.3 < x) :
    NotLess
      (KD accropode "trunk_breaking" >>= fun K =>
        Accropode.calculate_unit_mass_M (fin H) (fin rw) (fin ra) K (fin c) (fin a))
      (Accropode.calculate_KD_breaking_trunk_from_seabed_slope (fin x) >>= fun K =>
        Accropode.calculate_unit_mass_M (fin H) (fin rw) (fin ra) K (fin c) (fin a)) True := by
  obtain ⟨K, hK, h⟩ := C93_accropode_breaking_refuted
  obtain ⟨k, hk, hiff⟩ := h x
  have hlt : k < K := not_le.mp fun h => absurd (hiff.mp h) (not_le.mpr hx)
  obtain ⟨r, h1, -, -, -, h5⟩ := C11_accropode
  have hk8 : 0 < k := by
    have : r x = k := by have := (h1 x).symm.trans hk; injection this with this; injection this
    linarith [(h5 x).1]
  have b := (both H 1 rw ra c a hH one_pos hw hr hc ha K k hk8 hlt _ (List.mem_cons_self ..)).1
  obtain ⟨y, y', e1, e2, e3, e4⟩ := b
  refine ⟨y, y', ?_, ?_, e3, e4⟩
  · rw [hK, pure_bind]; exact e1
  · rw [PyM.bind_res_of_ok hk]; exact e2

example := C93_accropode_mass_refuted (H := 4) (rw := 1025) (ra := 2400) (c := 4 / 3) (a := 1) (x := 5) (by norm_num)
  (by norm_num) (by norm_num) (by norm_num) (by norm_num) (by norm_num)

/-! ## Xbloc and XblocPlus -/

/-- C93: an Xbloc without corrections weighs what Hudson's formula gives with the table's coefficient on the usual
slope 1:1.33, or up to 0.13 % more; an XblocPlus up to 2.2 % more -/
theorem C93_xbloc_table (H rw ra : ℝ) (hH : 0 < H) (hw : 0 < rw) (hr : rw < ra) :
    ∀ p ∈ [(xbloc, Xbloc.calculate_unit_mass_M (fin H) (fin rw) (fin ra), (0.0013 : ℝ)),
      (xblocplus, XblocPlus.calculate_unit_mass_M (fin H) (fin rw) (fin ra), (0.022 : ℝ))],
    ∃ Mh M : ℝ, 0 < Mh ∧
      (KD p.1 "trunk_breaking" >>= fun K => pure (Hudson1959.calculate_median_rock_mass_M50_no_damage (fin H) (fin rw)
        (fin ra) K 1.33 1.0)).res = .ok (fin Mh) ∧
      p.2.1 = fin M ∧ Mh < M ∧ M < (1 + p.2.2) * Mh := by
  have hra := hw.trans hr
  have hD := WorseStrProof.delta_pos hw hr
  have c133 : (1.33 : PF) = fin 1.33 := by rw [sci_eq]
  have c1 : (1.0 : PF) = fin 1 := by rw [sci_eq]; norm_num
  have kx : KD xbloc "trunk_breaking" = pure (fin 16) := by kd
  have kp : KD xblocplus "trunk_breaking" = pure (fin 12) := by kd
  have key : ∀ (d : List (String × TableItem)) (K n e M : ℝ), KD d "trunk_breaking" = pure (fin K) → 0 < K → 0 < n →
      0 < M → Textbook.Ns H (Published.Dn M ra) ra rw = n → n ^ 3 < K * 1.33 → K * 1.33 < (1 + e) * n ^ 3 →
      ∃ Mh M' : ℝ, 0 < Mh ∧
        (KD d "trunk_breaking" >>= fun K => pure (Hudson1959.calculate_median_rock_mass_M50_no_damage (fin H) (fin rw)
          (fin ra) K 1.33 1.0)).res = .ok (fin Mh) ∧ fin M = fin M' ∧ Mh < M' ∧ M' < (1 + e) * Mh := by
    intro d K n e M hd hK hn hM h h1 h2
    unfold Published.Dn at h
    rw [WorseStrProof.ns_cube hw hr hM hra hH hn] at h
    have e0 := HudsonProof.M50_eval hH hw hr hK (by norm_num : (0 : ℝ) < 1.33) one_pos
    rw [← c133, ← c1] at e0
    refine ⟨_, M, ?_, by rw [hd, pure_bind, e0]; rfl, rfl, ?_⟩
    · have hD' : 0 < (ra - rw) / rw := hD
      positivity
    · change 0 < (ra - rw) / rw at hD
      change ((ra - rw) / rw) ^ 3 / ra * n ^ 3 * M = H ^ 3 at h
      generalize (ra - rw) / rw = D at *
      have q : H ^ 3 = D ^ 3 / ra * (n ^ 3 * M) := by rw [← h]; ring
      have m : ra * (H * 1) ^ 3 / (K * D ^ 3 * 1.33) = n ^ 3 * M / (K * 1.33) := by
        rw [mul_one, q]; field_simp
      rw [m]
      constructor
      · rw [div_lt_iff₀ (by positivity)]; nlinarith
      · rw [← mul_div_assoc, lt_div_iff₀ (by positivity)]; nlinarith
  obtain ⟨⟨M, m1, m2, m3⟩, ⟨M', m1', m2', m3'⟩⟩ := C78_xbloc_default H rw ra hH hw hr
  have g : ∀ {x : PF} {y : ℝ}, (pure x : PyM PF).res = .ok (fin y) → x = fin y := by
    intro x y h; injection h
  simp only [List.mem_cons, List.not_mem_nil, or_false, forall_eq_or_imp, forall_eq]
  rw [g m2, g m2']
  exact ⟨key _ _ _ _ _ kx (by norm_num) (by norm_num) m1 m3 (by norm_num) (by norm_num),
    key _ _ _ _ _ kp (by norm_num) (by norm_num) m1' m3' (by norm_num) (by norm_num)⟩

example := C93_xbloc_table (H := 4) (rw := 1025) (ra := 2400) (by norm_num) (by norm_num) (by norm_num)

/-! ## Layers of cubes -/

/-- C93: the two modules for cubes in two layers give the same void ratio, layer thickness coefficient, number of layers
and distances -/
theorem C93_cubes_agree (key : String) (h : key ≠ "KD") :
    item cubes_double_layer_hudson1959 key = item cubes_double_layer_vandermeer1988 key := by
  unfold item cubes_double_layer_hudson1959 cubes_double_layer_vandermeer1988
  have : (key == "KD") = false := by simpa using h
  simp only [List.lookup, this]

example := C93_cubes_agree (key := "nv") (by decide)
end
