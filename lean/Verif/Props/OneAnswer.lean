import Verif.SpecOneAnswer
import Verif.Props.SensitivityRock
import Verif.Props.SensitivityUnits
import Verif.Props.SensitivityStructures
import Verif.Props.SensitivityJumps
import Mathlib.Topology.Order.IntermediateValue

/-! # Property C98: questions with exactly one answer -/

open Classical
open PF
noncomputable section

namespace Sens

theorem as_between {f : PF → PyM PF} {a : ℝ} (h : ChangesAs f a) : ChangesBetween f a a := by
  intro x k hx hk
  obtain ⟨v, hv, e, e'⟩ := h x k hx hk
  exact ⟨v, _, hv, e, e', le_rfl, le_rfl⟩

theorem rising_answer {G : Set.Ioi (0 : ℝ) → ℝ} {a : ℝ} (ha : 0 < a) (hG : Continuous G) (hp : ∀ x, 0 < G x)
    (key : ∀ x y : Set.Ioi (0 : ℝ), (x : ℝ) ≤ y → (y / x : ℝ) ^ a * G x ≤ G y) {v : ℝ} (hv : 0 < v) :
    ∃! x, G x = v := by
  have : PreconnectedSpace (Set.Ioi (0 : ℝ)) := Subtype.preconnectedSpace isPreconnected_Ioi
  have big : ∀ r : ℝ, ∃ k : ℝ, 1 ≤ k ∧ r ≤ k ^ a := by
    intro r
    have h1 : (1 : ℝ) ≤ 1 ⊔ r := le_sup_left
    refine ⟨(1 ⊔ r) ^ (1 / a), Real.one_le_rpow h1 (by positivity), ?_⟩
    rw [← Real.rpow_mul (by linarith), one_div_mul_cancel ha.ne', Real.rpow_one]
    exact le_sup_right
  let o : Set.Ioi (0 : ℝ) := ⟨1, Set.mem_Ioi.mpr one_pos⟩
  have ho : (o : ℝ) = 1 := rfl
  have hg := hp o
  have hi : ∃ y, v ≤ G y := by
    obtain ⟨k, hk, h⟩ := big (v / G o)
    refine ⟨⟨k, by simp only [Set.mem_Ioi]; linarith⟩, ?_⟩
    have := key o ⟨k, by simp only [Set.mem_Ioi]; linarith⟩ hk
    rw [ho, div_one] at this
    exact ((div_le_iff₀ hg).mp h).trans this
  have lo : ∃ y, G y ≤ v := by
    obtain ⟨k, hk, h⟩ := big (G o / v)
    have hk0 : 0 < k := by linarith
    refine ⟨⟨1 / k, by simp only [Set.mem_Ioi]; positivity⟩, ?_⟩
    have := key ⟨1 / k, by simp only [Set.mem_Ioi]; positivity⟩ o (by rw [ho]; exact (div_le_one hk0).mpr hk)
    simp only [ho, one_div_one_div] at this
    have h' := (div_le_iff₀ hv).mp h
    have hka : 0 < k ^ a := by positivity
    exact le_of_mul_le_mul_left (this.trans h') hka
  obtain ⟨x, hx⟩ := mem_range_of_exists_le_of_exists_ge hG lo hi
  have lt : ∀ x y : Set.Ioi (0 : ℝ), (x : ℝ) < y → G x < G y := by
    intro x y hxy
    have hx : (0 : ℝ) < x := x.2
    refine lt_of_lt_of_le ?_ (key x y hxy.le)
    have : 1 < (y / x : ℝ) ^ a := Real.one_lt_rpow ((one_lt_div hx).mpr hxy) ha
    exact lt_mul_of_one_lt_left (hp x) this
  refine ⟨x, hx, fun y hy => ?_⟩
  rcases lt_trichotomy (x : ℝ) y with h | h | h
  · exact absurd (hx.trans hy.symm) (lt _ _ h).ne
  · exact Subtype.ext h.symm
  · exact absurd (hy.trans hx.symm) (lt _ _ h).ne

theorem total {f : PF → PyM PF} {a b : ℝ} (h : ChangesBetween f a b) :
    ∃ G : Set.Ioi (0 : ℝ) → ℝ, ∀ x : Set.Ioi (0 : ℝ), (f (fin x)).res = .ok (fin (G x)) := by
  have : ∀ x : Set.Ioi (0 : ℝ), ∃ v : ℝ, (f (fin x)).res = .ok (fin v) := by
    intro x
    obtain ⟨v, -, -, e, -⟩ := h x 1 x.2 le_rfl
    exact ⟨v, e⟩
  choose G hG using this
  exact ⟨G, hG⟩

theorem one_of_unique {f : PF → PyM PF} {G : Set.Ioi (0 : ℝ) → ℝ}
    (e : ∀ x : Set.Ioi (0 : ℝ), (f (fin x)).res = .ok (fin (G x))) (h : ∀ v : ℝ, 0 < v → ∃! x, G x = v) :
    OneAnswer f := by
  intro v hv
  obtain ⟨x, hx, hu⟩ := h v hv
  refine ⟨x, ⟨x.2, by rw [e x]; simp only [hx]⟩, ?_⟩
  rintro y ⟨hy, hy'⟩
  have := e ⟨y, hy⟩
  rw [hy', Except.ok.injEq, fin_inj] at this
  exact congrArg Subtype.val (hu ⟨y, hy⟩ this.symm)

theorem one_rising {f : PF → PyM PF} {a b : ℝ} (h : ChangesBetween f a b) (ha : 0 < a) : OneAnswer f := by
  obtain ⟨G, e⟩ := total h
  obtain ⟨hp, key⟩ := values h e
  exact one_of_unique e fun v hv => rising_answer ha (continuous_values h e) hp (fun x y hxy => (key x y hxy).1) hv

theorem one_falling {f : PF → PyM PF} {a b : ℝ} (h : ChangesBetween f a b) (hb : b < 0) : OneAnswer f := by
  obtain ⟨G, e⟩ := total h
  obtain ⟨hp, key⟩ := values h e
  refine one_of_unique e fun v hv => ?_
  obtain ⟨x, hx, hu⟩ := rising_answer (G := fun x => (G x)⁻¹) (a := -b) (by linarith)
    ((continuous_values h e).inv₀ fun x => (hp x).ne') (fun x => inv_pos.mpr (hp x)) (fun x y hxy => by
      have hx : (0 : ℝ) < x := x.2
      have hy : (0 : ℝ) < y := y.2
      rw [Real.rpow_neg (by positivity), ← mul_inv]
      exact inv_anti₀ (hp y) (key x y hxy).2) (inv_pos.mpr hv)
  exact ⟨x, inv_injective hx, fun y hy => hu y (by simp only [hy])⟩

theorem one_as {f : PF → PyM PF} {a : ℝ} (h : ChangesAs f a) (ha : a ≠ 0) : OneAnswer f := by
  rcases lt_or_gt_of_ne ha with h' | h'
  · exact one_falling (as_between h) h'
  · exact one_rising (as_between h) h'

end Sens
open Sens

namespace Sens
variable {F G : ℝ → ℝ} {a b c d : ℝ}

theorem el_pure (e : El F a b) :
    ChangesBetween (fun p => match p with | .fin x => pure (fin (F x)) | _ => pure nan) a b :=
  between (F := F) (fun _ _ => rfl) e

theorem el_answer (h : OneAnswer (fun p => match p with | .fin x => pure (fin (F x)) | _ => pure nan)) {v : ℝ}
    (hv : 0 < v) : ∃ x : ℝ, 0 < x ∧ F x = v := by
  obtain ⟨x, ⟨hx, e⟩, -⟩ := h v hv
  exact ⟨x, hx, by simpa [PyM.pure_def] using e⟩

/-- the smaller of a rising and a falling formula -/
theorem peak {f : PF → PyM PF} (e : El F a b) (ha : 0 < a) (e' : El G c d) (hd : d < 0)
    (h : ∀ x, 0 < x → (f (fin x)).res = .ok (fin (F x ⊓ G x))) :
    ∃ B : ℝ, 0 < B ∧ NoAnswerAbove f B ∧ TwoAnswersBelow f B ∧ ∃! x : ℝ, 0 < x ∧ (f (fin x)).res = .ok (fin B) := by
  have mono : ∀ x y, 0 < x → x < y → F x < F y := by
    intro x y hx hxy
    have := e.lo x (y / x) hx ((one_le_div hx).mpr hxy.le)
    rw [div_mul_cancel₀ _ hx.ne'] at this
    exact lt_of_lt_of_le (lt_mul_of_one_lt_left (e.pos x hx) (Real.one_lt_rpow ((one_lt_div hx).mpr hxy) ha)) this
  have anti : ∀ x y, 0 < x → x < y → G y < G x := by
    intro x y hx hxy
    have := e'.hi x (y / x) hx ((one_le_div hx).mpr hxy.le)
    rw [div_mul_cancel₀ _ hx.ne'] at this
    exact lt_of_le_of_lt this (mul_lt_of_lt_one_left (e'.pos x hx)
      (Real.rpow_lt_one_of_one_lt_of_neg ((one_lt_div hx).mpr hxy) hd))
  obtain ⟨z, hz, ez⟩ := el_answer (one_rising (el_pure (e.div e')) (by linarith)) one_pos
  have ez' : F z = G z := by rwa [div_eq_one_iff_eq (e'.pos z hz).ne'] at ez
  have le : ∀ x, 0 < x → F x ⊓ G x ≤ F z := by
    intro x hx
    rcases lt_trichotomy x z with h' | rfl | h'
    · exact inf_le_left.trans (mono x z hx h').le
    · exact inf_le_left
    · exact inf_le_right.trans ((anti z x hz h').le.trans_eq ez'.symm)
  refine ⟨F z, e.pos z hz, fun v x hx ex => ?_, fun v hv hvB => ?_, z, ⟨hz, ?_⟩, ?_⟩
  · rw [h x hx, Except.ok.injEq, fin_inj] at ex
    rw [← ex]
    exact le x hx
  · obtain ⟨x, hx, ex⟩ := el_answer (one_rising (el_pure e) ha) hv
    obtain ⟨y, hy, ey⟩ := el_answer (one_falling (el_pure e') hd) hv
    have hxz : x < z := by
      by_contra h'
      rcases (not_lt.mp h').eq_or_lt with rfl | h'
      · linarith
      · have := mono z x hz h'; linarith
    have hzy : z < y := by
      by_contra h'
      rcases (not_lt.mp h').eq_or_lt with rfl | h'
      · linarith
      · have := anti y z hy h'; linarith
    refine ⟨x, y, hx, hxz.trans hzy, ?_, ?_⟩
    · rw [h x hx, inf_eq_left.mpr (by have := anti x z hx hxz; linarith), ex]
    · rw [h y hy, inf_eq_right.mpr (by have := mono z y hz hzy; linarith), ey]
  · rw [h z hz, ← ez', inf_idem]
  · rintro y ⟨hy, ey⟩
    rw [h y hy, Except.ok.injEq, fin_inj] at ey
    rcases lt_trichotomy y z with h' | rfl | h'
    · have := mono y z hy h'
      have := inf_le_left (a := F y) (b := G y)
      linarith
    · rfl
    · have := anti z y hz h'
      have := inf_le_right (a := F y) (b := G y)
      linarith

end Sens

/-! ## rock armour -/
section
open VdMProof CorePhysics
variable (N c P ra rw cpl cs : ℝ) (M : PF) (hN : 0 < N) (hc : 0 < c) (hP : 0 < P)
  (hw : 0 < rw) (hr : rw < ra) (h1 : 0 < cpl) (h2 : 0 < cs)

namespace Sens
variable {c P cpl cs} {r H De D S w : ℝ}

/-- the damage of plunging and of surging waves -/
theorem dmg_split (h1 : 0 < cpl) (h2 : 0 < cs) (hP : 0 < P) (hc : 0 < c) (h4 : c < 4) (hr : 0 < r) (hDe : 0 < De)
    (hw : 0 < w) (hH : 0 < H) (hD : 0 < D) {T : ℝ} (hT : 0 < T) :
    dmg r H T c P cpl cs De D w = (H / (De * D) * r * kpl cpl P (xi H T c)) ^ 5 * w ⊓
      (H / (De * D) * r * ksu cs P c (xi H T c)) ^ 5 * w := by
  have hx := xi_pos hH hT hc
  have p1 := kpl_pos h1 hP hx
  have p2 := ksu_pos h2 hP hc hx
  have n4 : ¬ (4.0 : ℝ) ≤ c := by norm_num; exact h4
  unfold dmg
  rw [kf_min h1 h2 hP hc hx, if_neg n4]
  rcases le_total (kpl cpl P (xi H T c)) (ksu cs P c (xi H T c)) with h | h
  · rw [min_eq_left h, min_eq_left]
    gcongr
  · rw [min_eq_right h, min_eq_right]
    gcongr

theorem dmg_pl (h1 : 0 < cpl) (hP : 0 < P) (hc : 0 < c) (hr : 0 < r) (hDe : 0 < De)
    (hw : 0 < w) (hH : 0 < H) (hD : 0 < D) :
    El (fun T => (H / (De * D) * r * kpl cpl P (xi H T c)) ^ 5 * w) 2.5 2.5 := by
  refine (((kpl_el (xi_T hH hc) h1 hP).cmul (v := H / (De * D) * r) (by positivity)).pow 5 |>.mulc hw).of_eq ?_ ?_ <;>
    norm_num

theorem dmg_su (h2 : 0 < cs) (hP : 0 < P) (hc : 0 < c) (hr : 0 < r) (hDe : 0 < De)
    (hw : 0 < w) (hH : 0 < H) (hD : 0 < D) :
    El (fun T => (H / (De * D) * r * ksu cs P c (xi H T c)) ^ 5 * w) (-5 * P) (-5 * P) := by
  refine (((ksu_el (xi_T hH hc) h2 hP hc).cmul (v := H / (De * D) * r) (by positivity)).pow 5 |>.mulc hw).of_eq
    ?_ ?_ <;> (push_cast; ring)

/-- rock armour against the wave period -/
theorem dmg_peak {f : PF → PyM PF} (h1 : 0 < cpl) (h2 : 0 < cs) (hP : 0 < P) (hc : 0 < c) (h4 : c < 4) (hr : 0 < r)
    (hDe : 0 < De) (hw : 0 < w) (hH : 0 < H) (hD : 0 < D)
    (h : ∀ T, 0 < T → (f (fin T)).res = .ok (fin (dmg r H T c P cpl cs De D w))) :
    ∃ B : ℝ, 0 < B ∧ NoAnswerAbove f B ∧ TwoAnswersBelow f B ∧ ∃! x : ℝ, 0 < x ∧ (f (fin x)).res = .ok (fin B) :=
  peak (dmg_pl h1 hP hc hr hDe hw hH hD) (by norm_num) (dmg_su h2 hP hc hr hDe hw hH hD) (by linarith)
    fun T hT => by rw [h T hT, dmg_split h1 h2 hP hc h4 hr hDe hw hH hD hT]

/-- on slopes of 1:4 and gentler all waves count as plunging -/
theorem dmg_gentle {f : PF → PyM PF} (h1 : 0 < cpl) (hP : 0 < P) (h4 : 4 ≤ c) (hr : 0 < r)
    (hDe : 0 < De) (hw : 0 < w) (hH : 0 < H) (hD : 0 < D)
    (h : ∀ T, 0 < T → (f (fin T)).res = .ok (fin (dmg r H T c P cpl cs De D w))) : OneAnswer f := by
  have hc : 0 < c := by linarith
  refine one_rising (between (F := fun T => (H / (De * D) * r * kpl cpl P (xi H T c)) ^ 5 * w) (fun T hT => ?_)
    (dmg_pl h1 hP hc hr hDe hw hH hD)) (by norm_num)
  rw [h T hT]
  unfold dmg kf
  rw [if_pos (.inr (by norm_num; exact h4))]

end Sens

include hN hc hP hw hr h1 h2

/-- C98, Van der Meer (1988): every damage belongs to exactly one wave height and exactly one rock size, every rock
size to exactly one wave height and exactly one damage -/
theorem C98_vdm1988 (H T r D S : ℝ) (hH : 0 < H) (hT : 0 < T) (hr' : 0 < r) (hD : 0 < D) (hS : 0 < S) :
    OneAnswer (fun H => VdM1988.calculate_damage_number_S H (fin r * H) (fin T) (fin N) (fin c) (fin P)
      (fin ra) (fin D) M (fin cpl) (fin cs) (fin rw)) ∧
    OneAnswer (fun D => VdM1988.calculate_damage_number_S (fin H) (fin (r * H)) (fin T) (fin N) (fin c) (fin P)
      (fin ra) D M (fin cpl) (fin cs) (fin rw)) ∧
    OneAnswer (fun H => VdM1988.calculate_nominal_rock_diameter_Dn50 H (fin r * H) (fin T) (fin N) (fin c)
      (fin P) (fin ra) (fin S) (fin cpl) (fin cs) (fin rw)) ∧
    OneAnswer (fun S => VdM1988.calculate_nominal_rock_diameter_Dn50 (fin H) (fin (r * H)) (fin T) (fin N) (fin c)
      (fin P) (fin ra) S (fin cpl) (fin cs) (fin rw)) := by
  obtain ⟨a1, a2, -, -, a3, a4⟩ := C97_vdm1988 N c P ra rw cpl cs M hN hc hP hw hr h1 h2 H T r D S hH hT hr' hD hS
  exact ⟨one_rising a2 (by norm_num), one_as a4 (by norm_num), one_rising a1 (by norm_num), one_as a3 (by norm_num)⟩

/-- C98, Van der Meer (1988), wave period: on slopes steeper than 1:4 there is a largest damage, caused by one period
only, and every smaller damage is caused by two periods, a shorter one with plunging and a longer one with surging
waves; on gentler slopes every damage belongs to one period -/
theorem C98_vdm1988_period_refuted (H r D : ℝ) (hH : 0 < H) (hr' : 0 < r) (hD : 0 < D) :
    let f : PF → PyM PF := fun T => VdM1988.calculate_damage_number_S (fin H) (fin (r * H)) T (fin N) (fin c) (fin P)
      (fin ra) (fin D) M (fin cpl) (fin cs) (fin rw)
    (c < 4 → ∃ B : ℝ, 0 < B ∧ NoAnswerAbove f B ∧ TwoAnswersBelow f B ∧
      ∃! T : ℝ, 0 < T ∧ (f (fin T)).res = .ok (fin B)) ∧ (4 ≤ c → OneAnswer f) := by
  have hDe : 0 < (ra - rw) / rw := div_pos (sub_pos.mpr hr) hw
  have hwt : 0 < √N / gam N := div_pos (Real.sqrt_pos.mpr hN) (gam_pos hN)
  exact ⟨fun h4 => dmg_peak h1 h2 hP hc h4 hr' hDe hwt hH hD fun T hT => S1988_eval M hH hr' hT hN hc hP hw hr hD h1 h2,
    fun h4 => dmg_gentle h1 hP h4 hr' hDe hwt hH hD fun T hT => S1988_eval M hH hr' hT hN hc hP hw hr hD h1 h2⟩

/-- C98: the same with the modified formula, where also every number of waves belongs to one damage and one size -/
theorem C98_modified (H T r D S : ℝ) (hH : 0 < H) (hT : 0 < T) (hr' : 0 < r) (hD : 0 < D) (hS : 0 < S) :
    OneAnswer (fun H => VdMModified.calculate_damage_number_S H (fin r * H) (fin T) (fin N) (fin c) (fin P)
      (fin ra) (fin D) M (fin cpl) (fin cs) (fin rw)) ∧
    OneAnswer (fun D => VdMModified.calculate_damage_number_S (fin H) (fin (r * H)) (fin T) (fin N) (fin c) (fin P)
      (fin ra) D M (fin cpl) (fin cs) (fin rw)) ∧
    OneAnswer (fun N => VdMModified.calculate_damage_number_S (fin H) (fin (r * H)) (fin T) N (fin c) (fin P)
      (fin ra) (fin D) M (fin cpl) (fin cs) (fin rw)) ∧
    OneAnswer (fun H => VdMModified.calculate_nominal_rock_diameter_Dn50 H (fin r * H) (fin T) (fin N) (fin c)
      (fin P) (fin ra) (fin S) (fin cpl) (fin cs) (fin rw)) ∧
    OneAnswer (fun S => VdMModified.calculate_nominal_rock_diameter_Dn50 (fin H) (fin (r * H)) (fin T) (fin N) (fin c)
      (fin P) (fin ra) S (fin cpl) (fin cs) (fin rw)) ∧
    OneAnswer (fun N => VdMModified.calculate_nominal_rock_diameter_Dn50 (fin H) (fin (r * H)) (fin T) N (fin c)
      (fin P) (fin ra) (fin S) (fin cpl) (fin cs) (fin rw)) := by
  obtain ⟨a1, a2, -, -, a3, a4, a5, a6⟩ :=
    C97_modified N c P ra rw cpl cs M hN hc hP hw hr h1 h2 H T r D S hH hT hr' hD hS
  exact ⟨one_rising a2 (by norm_num), one_as a4 (by norm_num), one_as a6 (by norm_num), one_rising a1 (by norm_num),
    one_as a3 (by norm_num), one_as a5 (by norm_num)⟩

/-- C98: the same for the wave period with the modified formula -/
theorem C98_modified_period_refuted (H r D : ℝ) (hH : 0 < H) (hr' : 0 < r) (hD : 0 < D) :
    let f : PF → PyM PF := fun T => VdMModified.calculate_damage_number_S (fin H) (fin (r * H)) T (fin N) (fin c) (fin P)
      (fin ra) (fin D) M (fin cpl) (fin cs) (fin rw)
    (c < 4 → ∃ B : ℝ, 0 < B ∧ NoAnswerAbove f B ∧ TwoAnswersBelow f B ∧
      ∃! T : ℝ, 0 < T ∧ (f (fin T)).res = .ok (fin B)) ∧ (4 ≤ c → OneAnswer f) := by
  have hDe : 0 < (ra - rw) / rw := div_pos (sub_pos.mpr hr) hw
  have hwt : 0 < √N := Real.sqrt_pos.mpr hN
  exact ⟨fun h4 => dmg_peak h1 h2 hP hc h4 hr' hDe hwt hH hD fun T hT => Smod_eval M hH hr' hT hN hc hP hw hr hD h1 h2,
    fun h4 => dmg_gentle h1 hP h4 hr' hDe hwt hH hD fun T hT => Smod_eval M hH hr' hT hN hc hP hw hr hD h1 h2⟩

example := C98_vdm1988 (N := 3000) (c := 2) (P := 0.4) (ra := 2650) (rw := 1025) (cpl := 6.2)
  (cs := 1) (M := .fin 5000) (H := 2) (T := 8) (r := 1.4) (D := 1) (S := 2) (by norm_num) (by norm_num) (by norm_num)
  (by norm_num) (by norm_num) (by norm_num) (by norm_num) (by norm_num) (by norm_num) (by norm_num) (by norm_num)
  (by norm_num)
example := C98_modified (N := 3000) (c := 2) (P := 0.4) (ra := 2650) (rw := 1025) (cpl := 6.2)
  (cs := 1) (M := .fin 5000) (H := 2) (T := 8) (r := 1.4) (D := 1) (S := 2) (by norm_num) (by norm_num) (by norm_num)
  (by norm_num) (by norm_num) (by norm_num) (by norm_num) (by norm_num) (by norm_num) (by norm_num) (by norm_num)
  (by norm_num)
example := (C98_vdm1988_period_refuted (N := 3000) (c := 2) (P := 0.4) (ra := 2650) (rw := 1025) (cpl := 6.2)
  (cs := 1) (M := .fin 5000) (H := 2) (r := 1.4) (D := 1) (by norm_num) (by norm_num) (by norm_num) (by norm_num)
  (by norm_num) (by norm_num) (by norm_num) (by norm_num) (by norm_num) (by norm_num)).1 (by norm_num)
example := (C98_modified_period_refuted (N := 3000) (c := 2) (P := 0.4) (ra := 2650) (rw := 1025) (cpl := 6.2)
  (cs := 1) (M := .fin 5000) (H := 2) (r := 1.4) (D := 1) (by norm_num) (by norm_num) (by norm_num) (by norm_num)
  (by norm_num) (by norm_num) (by norm_num) (by norm_num) (by norm_num) (by norm_num)).1 (by norm_num)

omit hN in
/-- C98, Van der Meer (1988), number of waves: however long the storm, the damage stays below a bound -/
theorem C98_vdm1988_waves_refuted (H T r D : ℝ) (hH : 0 < H) (hT : 0 < T) (hr' : 0 < r) (hD : 0 < D) :
    ∃ B : ℝ, NoAnswerAbove (fun N => VdM1988.calculate_damage_number_S (fin H) (fin (r * H)) (fin T) N (fin c) (fin P)
      (fin ra) (fin D) M (fin cpl) (fin cs) (fin rw)) B := by
  have hDe : 0 < (ra - rw) / rw := div_pos (sub_pos.mpr hr) hw
  have hk := kf_pos h1 h2 hP hc (xi_pos hH hT hc)
  refine ⟨dmg r H T c P cpl cs ((ra - rw) / rw) D (1.3 * √5000), fun v N hN e => ?_⟩
  rw [S1988_eval M hH hr' hT hN hc hP hw hr hD h1 h2, Except.ok.injEq, fin_inj] at e
  rw [← e]
  unfold dmg
  have h0 : 0 < √(5000 : ℝ) := Real.sqrt_pos.mpr (by norm_num)
  have hs := Real.sqrt_pos.mpr hN
  have : √N / gam N ≤ 1.3 * √5000 := by
    rw [div_le_iff₀ (gam_pos hN)]
    unfold gam
    split_ifs with ha hb
    · have hx : Real.exp (-0.00031 * N) < 1 := by
        rw [← Real.exp_zero]; exact Real.exp_lt_exp.mpr (by nlinarith)
      have hx' := Real.exp_pos (-0.00031 * N)
      have hd : 0 < √5000 * (1.3 * (1 - Real.exp (-0.00031 * N))) := by
        have : 0 < 1 - Real.exp (-0.00031 * N) := by linarith
        positivity
      rw [← mul_div_assoc, le_div_iff₀ hd]
      have : √5000 * (1.3 * (1 - Real.exp (-0.00031 * N))) ≤ 1.3 * √5000 := by nlinarith
      nlinarith
    · have : √N ≤ √5000 := Real.sqrt_le_sqrt (not_lt.mp ha)
      have h1 : 1 ≤ √(1000 / N) := by
        rw [Real.one_le_sqrt, le_div_iff₀ hN]; linarith
      nlinarith
    · have : √N ≤ √5000 := Real.sqrt_le_sqrt (not_lt.mp ha)
      linarith
  gcongr

example := C98_vdm1988_waves_refuted (c := 2) (P := 0.4) (ra := 2650) (rw := 1025) (cpl := 6.2)
  (cs := 1) (M := .fin 5000) (H := 2) (T := 8) (r := 1.4) (D := 1) (by norm_num) (by norm_num) (by norm_num)
  (by norm_num) (by norm_num) (by norm_num) (by norm_num) (by norm_num) (by norm_num) (by norm_num)
end

section
variable (N c P ra cpl cs ml ms : ℝ) (M : PF) (hN : 0 < N) (hc : 0 < c) (hP : 0 < P)
  (hr : 1025 < ra) (h1 : 0 < cpl) (h2 : 0 < cs) (h3 : 0 < ml) (h4 : 0 < ms)
include hN hc hP hr h1 h2 h3 h4

/-- C98, Van der Meer (2021): one wave height, one rock size for every damage; one wave height, one damage for every
rock size -/
theorem C98_vdm2021 (H T D S : ℝ) (hH : 0 < H) (hT : 0 < T) (hD : 0 < D) (hS : 0 < S) :
    OneAnswer (fun H => VdM2021.calculate_damage_number_S H (fin T) (fin N) (fin c) (fin P)
      (fin ra) (fin D) M (fin cpl) (fin cs) (fin ml) (fin ms)) ∧
    OneAnswer (fun D => VdM2021.calculate_damage_number_S (fin H) (fin T) (fin N) (fin c) (fin P)
      (fin ra) D M (fin cpl) (fin cs) (fin ml) (fin ms)) ∧
    OneAnswer (fun H => VdM2021.calculate_nominal_rock_diameter_Dn50 H (fin T) (fin N) (fin c)
      (fin P) (fin ra) (fin S) (fin cpl) (fin cs) (fin ml) (fin ms)) ∧
    OneAnswer (fun S => VdM2021.calculate_nominal_rock_diameter_Dn50 (fin H) (fin T) (fin N) (fin c)
      (fin P) (fin ra) S (fin cpl) (fin cs) (fin ml) (fin ms)) := by
  obtain ⟨a1, a2, -, -, a3, a4⟩ := C97_vdm2021 N c P ra cpl cs ml ms M hN hc hP hr h1 h2 h3 h4 H T D S hH hT hD hS
  exact ⟨one_rising a2 (by norm_num), one_as a4 (by norm_num), one_rising a1 (by norm_num), one_as a3 (by norm_num)⟩

/-- C98, Van der Meer (2021), wave period: as for Van der Meer (1988) -/
theorem C98_vdm2021_period_refuted (H D : ℝ) (hH : 0 < H) (hD : 0 < D) :
    let f : PF → PyM PF := fun T => VdM2021.calculate_damage_number_S (fin H) T (fin N) (fin c) (fin P)
      (fin ra) (fin D) M (fin cpl) (fin cs) (fin ml) (fin ms)
    (c < 4 → ∃ B : ℝ, 0 < B ∧ NoAnswerAbove f B ∧ TwoAnswersBelow f B ∧
      ∃! T : ℝ, 0 < T ∧ (f (fin T)).res = .ok (fin B)) ∧ (4 ≤ c → OneAnswer f) := by
  have hDe : 0 < (ra - 1025) / 1025 := div_pos (sub_pos.mpr hr) (by norm_num)
  have hwt : 0 < √N := Real.sqrt_pos.mpr hN
  have p1 := mul_pos h1 h3
  have p2 := mul_pos h2 h4
  exact ⟨fun h => dmg_peak p1 p2 hP hc h one_pos hDe hwt hH hD fun T hT =>
      VdMProof.S2021_eval T N c P ra cpl cs ml ms M hT hN hc hP hr h1 h2 h3 h4 hH hD,
    fun h => dmg_gentle p1 hP h one_pos hDe hwt hH hD fun T hT =>
      VdMProof.S2021_eval T N c P ra cpl cs ml ms M hT hN hc hP hr h1 h2 h3 h4 hH hD⟩

example := C98_vdm2021 (N := 3000) (c := 2) (P := 0.4) (ra := 2650) (cpl := 6.49)
  (cs := 0.97) (ml := 1) (ms := 1) (M := .fin 5000) (H := 2) (T := 8) (D := 1) (S := 2) (by norm_num) (by norm_num)
  (by norm_num) (by norm_num) (by norm_num) (by norm_num) (by norm_num) (by norm_num) (by norm_num) (by norm_num)
  (by norm_num) (by norm_num)
example := (C98_vdm2021_period_refuted (N := 3000) (c := 2) (P := 0.4) (ra := 2650) (cpl := 6.49)
  (cs := 0.97) (ml := 1) (ms := 1) (M := .fin 5000) (H := 2) (D := 1) (by norm_num) (by norm_num)
  (by norm_num) (by norm_num) (by norm_num) (by norm_num) (by norm_num) (by norm_num) (by norm_num)
  (by norm_num)).1 (by norm_num)
end

/-- C98, Scaravaglione et al. (2025): every damage belongs to one wave height and one wave period -/
theorem C98_scaravaglione (N c ra rw cv : ℝ) (rc M Mc : PF) (hN : 0 < N) (hc : 0 < c) (hw : 0 < rw)
    (hr : rw < ra) (hcv : 0 < cv) (H T D Dc : ℝ) (hH : 0 < H) (hT : 0 < T) (hD : 0 < D) (hDc : 0 ≤ Dc) :
    OneAnswer (fun H => Scaravaglione2025.calculate_damage_number_S H (fin T) (fin N) (fin c) (fin ra) rc
      (fin D) (fin Dc) M Mc (fin cv) (fin rw)) ∧
    OneAnswer (fun T => Scaravaglione2025.calculate_damage_number_S (fin H) T (fin N) (fin c) (fin ra) rc
      (fin D) (fin Dc) M Mc (fin cv) (fin rw)) := by
  obtain ⟨-, -, a1, a2⟩ := C97_scaravaglione N c ra rw cv rc M Mc hN hc hw hr hcv H T D 1 Dc hH hT hD one_pos hDc
  exact ⟨one_as a1 (by norm_num), one_as a2 (by norm_num)⟩

example := C98_scaravaglione (N := 3000) (c := 2) (ra := 2650) (rw := 1025) (cv := 4.3) nan nan nan (H := 2) (T := 8)
  (D := 1) (Dc := 0.3) (by norm_num) (by norm_num) (by norm_num) (by norm_num) (by norm_num) (by norm_num)
  (by norm_num) (by norm_num) (by norm_num)

/-! ## Hudson and concrete units -/
section
variable (rw ra : ℝ) (hw : 0 < rw) (hr : rw < ra)
include hw hr

/-- C98: every unit mass belongs to exactly one wave height (Hudson, and the concrete units designed with it) -/
theorem C98_hudson_mass (KD c a : ℝ) (hK : 0 < KD) (hc : 0 < c) (ha : 0 < a) :
    ∀ f ∈ [
      (fun H => pure (Hudson1959.calculate_median_rock_mass_M50_no_damage H (fin rw) (fin ra) (fin KD) (fin c) (fin a))),
      (fun H => Accropode.calculate_unit_mass_M H (fin rw) (fin ra) (fin KD) (fin c) (fin a)),
      (fun H => Accropode2.calculate_unit_mass_M H (fin rw) (fin ra) (fin KD) (fin c) (fin a)),
      (fun H => pure (CoreLoc.calculate_unit_mass_M H (fin rw) (fin ra) (fin KD) (fin c) (fin a))),
      (fun H => pure (CubesHudson.calculate_unit_mass_M H (fin rw) (fin ra) (fin KD) (fin c) (fin a))),
      (fun H => pure (Cubipod.calculate_unit_mass_M H (fin rw) (fin ra) (fin KD) (fin c) (fin a))),
      (fun H => pure (Tetrapod.calculate_unit_mass_M H (fin rw) (fin ra) (fin KD) (fin c) (fin a)))],
    OneAnswer f := fun f hf =>
  one_as (C97_hudson_mass rw ra hw hr KD c a hK hc ha f hf) (by norm_num)

example := C98_hudson_mass (rw := 1025) (ra := 2400) (by norm_num) (by norm_num) (KD := 15) (c := 1.5) (a := 1)
  (by norm_num) (by norm_num) (by norm_num)

/-- C98: every unit volume and mass of Xbloc and XblocPlus belongs to exactly one wave height -/
theorem C98_xbloc (f : ℝ) (hf : 0 < f) :
    ∀ g ∈ [
      (fun H => Xbloc.calculate_unit_volume_V H (fin rw) (fin ra) (fin f)),
      (fun H => Xbloc.calculate_unit_mass_M H (fin rw) (fin ra) (fin f)),
      (fun H => XblocPlus.calculate_unit_volume_V H (fin rw) (fin ra) (fin f)),
      (fun H => XblocPlus.calculate_unit_mass_M H (fin rw) (fin ra) (fin f))],
    OneAnswer (fun H => pure (g H)) := fun g hg =>
  one_as (C97_xbloc rw ra hw hr f hf g hg) (by norm_num)

example := C98_xbloc (rw := 1025) (ra := 2400) (by norm_num) (by norm_num) (f := 1.25) (by norm_num)

/-- C98: every unit mass of cubes in a single layer belongs to exactly one wave height, and every size of cubes in a
double layer to exactly one wave height and one wave period -/
theorem C98_cubes (Ns H T N c Nod : ℝ) (hNs : 0 < Ns) (hH : 0 < H) (hT : 0 < T) (hN : 0 < N) (hd : 0 < Nod) :
    OneAnswer (fun H => CubesSingle.calculate_unit_mass_M_start_of_damage H (fin rw) (fin ra) (fin Ns)) ∧
    OneAnswer (fun H => CubesSingle.calculate_unit_mass_M_failure H (fin rw) (fin ra) (fin Ns)) ∧
    OneAnswer (fun H => CubesVdM.calculate_nominal_diameter_Dn_vanDerMeer1988 H (fin T) (fin rw) (fin ra) (fin N)
      (fin c) (fin Nod)) ∧
    OneAnswer (fun T => CubesVdM.calculate_nominal_diameter_Dn_vanDerMeer1988 (fin H) T (fin rw) (fin ra) (fin N)
      (fin c) (fin Nod)) := by
  obtain ⟨a1, a2⟩ := C97_cubes_single rw ra hw hr Ns hNs
  obtain ⟨a3, a4, -, -⟩ := C97_cubes_double rw ra hw hr H T N c Nod hH hT hN hd
  exact ⟨one_as a1 (by norm_num), one_as a2 (by norm_num), one_as a3 (by norm_num), one_as a4 (by norm_num)⟩

example := C98_cubes (rw := 1025) (ra := 2400) (by norm_num) (by norm_num) (Ns := 2.9) (H := 5) (T := 10) (N := 3000)
  (c := 1.5) (Nod := 0.5) (by norm_num) (by norm_num) (by norm_num) (by norm_num) (by norm_num)
end

/-! ## toes and rear slopes -/
section
variable (ra rw : ℝ) (hw : 0 < rw) (hr : rw < ra)
include hw hr

/-- C98, toes by Gerding (1993) and Van der Meer (1998): every damage belongs to exactly one wave height, with Van der
Meer (1998) also to exactly one size, and every size to one wave height and one damage -/
theorem C98_toes (h H ht D N : ℝ) (hH : 0 < H) (hht : 0 < ht) (hh : 0 < h) (hD : 0 < D) (hN : 0 < N) :
    OneAnswer (fun H => Gerding1993.calculate_damage_Nod H (fin ht) (fin h) (fin D) (fin ra) (fin rw)) ∧
    OneAnswer (fun N => Gerding1993.calculate_wave_height_Hs (fin D) (fin ht) (fin h) N (fin ra) (fin rw)) ∧
    OneAnswer (fun H => VanDerMeer1998.calculate_damage_Nod H (fin ht) (fin h) (fin D) (fin ra) (fin rw)) ∧
    OneAnswer (fun D => VanDerMeer1998.calculate_damage_Nod (fin H) (fin ht) (fin h) D (fin ra) (fin rw)) ∧
    OneAnswer (fun H => VanDerMeer1998.calculate_nominal_diameter_Dn50 H (fin ht) (fin h) (fin N) (fin ra) (fin rw)) ∧
    OneAnswer (fun N => VanDerMeer1998.calculate_nominal_diameter_Dn50 (fin H) (fin ht) (fin h) N (fin ra) (fin rw)) ∧
    OneAnswer (fun D => VanDerMeer1998.calculate_wave_height_Hs D (fin ht) (fin h) (fin N) (fin ra) (fin rw)) := by
  obtain ⟨a1, -, -, a2⟩ := C97_gerding ra rw hw hr (fin h) H ht D N hH hht hD hN
  obtain ⟨b1, b2, b3, b4, b5⟩ := C97_vdm1998 ra rw hw hr H ht h D N hH hht hh hD hN
  exact ⟨one_as a1 (by norm_num), one_as a2 (by norm_num), one_as b1 (by norm_num), one_as b2 (by norm_num),
    one_as b3 (by norm_num), one_as b4 (by norm_num), one_as b5 (by norm_num)⟩

example := C98_toes (ra := 2650) (rw := 1025) (by norm_num) (by norm_num) (H := 2) (ht := 5) (h := 8) (D := 1)
  (N := 1) (by norm_num) (by norm_num) (by norm_num) (by norm_num) (by norm_num)

/-- C98, toe by Gerding (1993), size of the stones: also the smallest stones have a damage below a bound, and also the
smallest stones stand a certain wave height (the term with the depth does not vanish with the stones) -/
theorem C98_gerding_size_refuted (h : PF) (H ht N : ℝ) (hH : 0 < H) (hht : 0 < ht) (hN : 0 < N) :
    (∃ B : ℝ, NoAnswerAbove (fun D => Gerding1993.calculate_damage_Nod (fin H) (fin ht) h D (fin ra) (fin rw)) B) ∧
    ∃ B : ℝ, 0 < B ∧ ∀ v D : ℝ, 0 < D →
      (Gerding1993.calculate_wave_height_Hs (fin D) (fin ht) h (fin N) (fin ra) (fin rw)).res = .ok (fin v) → B < v := by
  have hDe : 0 < (ra - rw) / rw := div_pos (sub_pos.mpr hr) hw
  have hK : ∀ D : ℝ, 0 < D → 0.24 * ht < GerdingProof.K D ht := by
    intro D hD; unfold GerdingProof.K; linarith
  have h0 : 0 < 0.24 * ht := by positivity
  refine ⟨⟨(H / ((ra - rw) / rw * (0.24 * ht))) ^ ((1 : ℝ) / 0.15), fun v D hD e => ?_⟩,
    ⟨N ^ (0.15 : ℝ) * ((ra - rw) / rw) * (0.24 * ht), by positivity, fun v D hD e => ?_⟩⟩
  · have hKD := hK D hD
    rw [GerdingProof.Nod_eval h hw hr hH hD (h0.trans hKD), Except.ok.injEq, fin_inj] at e
    rw [← e]
    have hKp := h0.trans hKD
    gcongr
  · rw [GerdingProof.Hs_eval h hw hr hD hN, Except.ok.injEq, fin_inj] at e
    rw [← e]
    exact mul_lt_mul_of_pos_left (hK D hD) (by positivity)

example := C98_gerding_size_refuted (ra := 2650) (rw := 1025) (by norm_num) (by norm_num) nan (H := 2) (ht := 5)
  (N := 1) (by norm_num) (by norm_num) (by norm_num)

/-- C98, toe by Van Gent & Van der Werf (2014): every damage belongs to exactly one wave height, size, width and
thickness, and every size to exactly one wave height and one damage -/
theorem C98_vangent_toe (cot : PF) (H T ht g B t D N c1 : ℝ) (hH : 0 < H) (hT : 0 < T) (hht : 0 < ht) (hg : 0 < g)
    (hB : 0 < B) (htt : 0 < t) (hD : 0 < D) (hN : 0 < N) (hc1 : 0 < c1) :
    OneAnswer (fun H => VanGentVanDerWerf2014.calculate_damage_Nod H (fin T) (fin ht) (fin B) (fin t) (fin D) (fin ra)
      (fin rw) cot (g := fin g) (c1 := fin c1)) ∧
    OneAnswer (fun D => VanGentVanDerWerf2014.calculate_damage_Nod (fin H) (fin T) (fin ht) (fin B) (fin t) D (fin ra)
      (fin rw) cot (g := fin g) (c1 := fin c1)) ∧
    OneAnswer (fun B => VanGentVanDerWerf2014.calculate_damage_Nod (fin H) (fin T) (fin ht) B (fin t) (fin D) (fin ra)
      (fin rw) cot (g := fin g) (c1 := fin c1)) ∧
    OneAnswer (fun t => VanGentVanDerWerf2014.calculate_damage_Nod (fin H) (fin T) (fin ht) (fin B) t (fin D) (fin ra)
      (fin rw) cot (g := fin g) (c1 := fin c1)) ∧
    OneAnswer (fun H => VanGentVanDerWerf2014.calculate_nominal_diameter_Dn50 H (fin T) (fin ht) (fin B) (fin t)
      (fin N) (fin ra) (fin rw) cot (g := fin g)) ∧
    OneAnswer (fun N => VanGentVanDerWerf2014.calculate_nominal_diameter_Dn50 (fin H) (fin T) (fin ht) (fin B) (fin t)
      N (fin ra) (fin rw) cot (g := fin g)) := by
  obtain ⟨a1, a2, a3, a4, a5, a6⟩ :=
    C97_vangent_toe ra rw hw hr cot H T ht g B t D N c1 hH hT hht hg hB htt hD hN hc1
  exact ⟨one_as a1 (by norm_num), one_as a2 (by norm_num), one_as a3 (by norm_num), one_as a4 (by norm_num),
    one_as a5 (by norm_num), one_as a6 (by norm_num)⟩

example := C98_vangent_toe (ra := 2650) (rw := 1025) (by norm_num) (by norm_num) nan (H := 2) (T := 8) (ht := 5)
  (g := 9.81) (B := 3) (t := 2) (D := 1) (N := 1) (c1 := 0.032) (by norm_num) (by norm_num) (by norm_num)
  (by norm_num) (by norm_num) (by norm_num) (by norm_num) (by norm_num) (by norm_num)
end

section
variable (M rho : PF) (ca cp f H T Rc Rr N : ℝ) (hcp : 0 < cp) (hH : 0 < H) (hT : 0 < T)
  (hz : ∃ z : ℝ, Rc < z ∧ VanGent2001.calculate_wave_runup_height_z1p (fin H) (fin T) (fin f) (fin ca) = fin z)
include hcp hH hz

/-- C98, rear slope by Van Gent (2007), for run-up above the crest: every damage belongs to exactly one size and one
number of waves, every size to exactly one damage and one number of waves -/
theorem C98_rear2007 (Rf D S : ℝ) (hRc : 0 < Rc) (hRf : 0 ≤ Rf) (hRr : 0 ≤ Rr) (hR : Rr < Rc) (hN : 0 < N)
    (hD : 0 < D) (hS : 0 < S) :
    OneAnswer (fun D => VanGent2007Rear.calculate_damage_number_S (fin ca) (fin cp) (fin f) (fin H) (fin T) (fin Rc)
      (fin Rf) (fin Rr) (fin N) D M rho) ∧
    OneAnswer (fun N => VanGent2007Rear.calculate_damage_number_S (fin ca) (fin cp) (fin f) (fin H) (fin T) (fin Rc)
      (fin Rf) (fin Rr) N (fin D) M rho) ∧
    OneAnswer (fun S => VanGent2007Rear.calculate_nominal_rock_diameter_Dn50 (fin ca) (fin cp) (fin f) S (fin H)
      (fin T) (fin Rc) (fin Rf) (fin Rr) (fin N)) ∧
    OneAnswer (fun N => VanGent2007Rear.calculate_nominal_rock_diameter_Dn50 (fin ca) (fin cp) (fin f) (fin S) (fin H)
      (fin T) (fin Rc) (fin Rf) (fin Rr) N) := by
  obtain ⟨a1, a2, a3, a4⟩ := C97_rear2007 M rho ca cp f H T Rc Rf Rr N hcp hH hRc hRf hRr hR hz D S hN hD hS
  exact ⟨one_as a1 (by norm_num), one_as a2 (by norm_num), one_as a3 (by norm_num), one_as a4 (by norm_num)⟩

include hT in
/-- C98, rear slope by Van Gent & Pozueta (2004), for run-up above the crest: every damage belongs to exactly one size
and one number of waves, every size to exactly one damage -/
theorem C98_pozueta (gc B rr rw cs D : ℝ) (hf : 0 < f) (hgc : 0 < gc) (hB : 0 ≤ B) (hw : 0 < rw) (hr : rw < rr)
    (hcs : 0 < cs) (hN : 0 < N) (hD : 0 < D) :
    OneAnswer (fun D => VanGentPozueta2004.calculate_damage_number_S (fin ca) (fin cp) (fin f) (fin gc) (fin H) (fin T)
      (fin Rc) (fin Rr) (fin B) (fin N) D M (fin rr) (fin rw) (fin cs)) ∧
    OneAnswer (fun N => VanGentPozueta2004.calculate_damage_number_S (fin ca) (fin cp) (fin f) (fin gc) (fin H) (fin T)
      (fin Rc) (fin Rr) (fin B) N (fin D) M (fin rr) (fin rw) (fin cs)) ∧
    OneAnswer (fun S => VanGentPozueta2004.calculate_nominal_rock_diameter_Dn50 (fin ca) (fin cp) (fin f) (fin gc) S
      (fin H) (fin T) (fin Rc) (fin Rr) (fin B) (fin rr) (fin N) (fin rw) (fin cs)) := by
  obtain ⟨a1, a2, a3⟩ := C97_pozueta M ca cp f H T Rc Rr N hcp hH hT hz gc B rr rw cs D hf hgc hB hw hr hcs hN hD
  exact ⟨one_as a1 (by norm_num), one_as a2 (by norm_num), one_as a3 (by norm_num)⟩
end
