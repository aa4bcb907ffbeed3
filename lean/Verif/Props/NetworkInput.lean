import Verif.Model.NetworkInput
import Verif.SpecTable

/-! # Input files for the overtopping networks (C59) -/

open Table Reader
noncomputable section

namespace NetworkInput

/-! ### Reading back what was joined -/

theorem fields_plain {sep : Char} {x : List Char} (h : sep ∉ x) : fields sep x = [x] := by
  induction x with
  | nil => rfl
  | cons c cs ih =>
    rw [List.mem_cons, not_or] at h
    rw [fields, if_neg (Ne.symm h.1), ih h.2]

theorem fields_append {sep : Char} {x : List Char} (h : sep ∉ x) (r : List Char) :
    fields sep (x ++ sep :: r) = x :: fields sep r := by
  induction x with
  | nil => rw [List.nil_append, fields, if_pos rfl]
  | cons c cs ih =>
    rw [List.mem_cons, not_or] at h
    rw [List.cons_append, fields, if_neg (Ne.symm h.1), ih h.2]

theorem fields_join {sep : Char} {xs : List (List Char)} (h : ∀ x ∈ xs, sep ∉ x) (h0 : xs ≠ []) :
    fields sep (join sep xs) = xs := by
  induction xs with
  | nil => exact absurd rfl h0
  | cons x xs ih =>
    cases xs with
    | nil => exact fields_plain (h x (by simp))
    | cons y ys =>
      rw [join, fields_append (h x (by simp)), ih (fun z hz => h z (by simp [hz])) (by simp)]

theorem digit_plain (n : ℕ) (c : Char) (hc : c ∈ (toString n).toList) : c.isDigit := by
  have : toString n = String.ofList (Nat.toDigits 10 n) := rfl
  rw [this, String.toList_ofList] at hc
  exact Nat.isDigit_of_mem_toDigits (by decide) (by decide) hc

/-- what stands in the file for a number: nothing for NaN -/
def shown (text : PF → List Char) (x : PF) : List Char := open Classical in
  if x.isnan then [] else text x

theorem shown_plain {text : PF → List Char} {sep : Char} (hp : PlainNumbers text sep) (x : PF) :
    sep ∉ shown text x := by
  unfold shown
  split
  · simp
  · exact hp.no_sep x

theorem shown_no_comment {text : PF → List Char} {sep : Char} (hp : PlainNumbers text sep) (x : PF) :
    '!' ∉ shown text x ∧ '*' ∉ shown text x := by
  unfold shown
  split
  · simp
  · exact hp.no_comment x

/-- a float or an array of `n` floats -/
def Fits (n : ℕ) : Value → Prop
  | .float _ => True
  | .int _ => False
  | .array xs => xs.length = n

/-- the number an argument contributes to record `i` -/
def entry : Value → ℕ → PF
  | .float x, _ => x
  | .int _, _ => PF.nan
  | .array xs, i => xs.getD i PF.nan

theorem cell_of_fits {text : PF → List Char} {n : ℕ} {v : Value} (h : Fits n v) (i : ℕ) :
    cellText text (v.at i) = shown text (entry v i) := by
  cases v with
  | float x => rfl
  | int k => exact h.elim
  | array xs => rfl

theorem lengths_of_fits {n : ℕ} {cols : List Value} (h : ∀ v ∈ cols, Fits n v) :
    ∀ m ∈ arrayLengths cols, m = n := by
  intro m hm
  unfold arrayLengths at hm
  rw [List.mem_filterMap] at hm
  obtain ⟨v, hv, e⟩ := hm
  have := h v hv
  cases v with
  | float x => cases e
  | int k => cases e
  | array xs => cases e; exact this

theorem frame_arrays {n : ℕ} {xs : List PF} {cols : List Value} (hx : xs.length = n)
    (h : ∀ v ∈ cols, Fits n v) : frame false (.array xs :: cols) = .ok n := by
  subst hx
  have e : arrayLengths (.array xs :: cols) = xs.length :: arrayLengths cols := rfl
  unfold frame
  rw [if_neg (by simp), e]
  exact if_pos (lengths_of_fits h)

theorem frame_scalars {cols : List Value} (h : ∀ v ∈ cols, Fits 1 v) : frame true cols = .ok 1 := by
  unfold frame
  rw [if_pos rfl, if_pos (lengths_of_fits h)]

/-- no array, and the first argument not a float: pandas refuses -/
theorem frame_no_array {cols : List Value} (h : ∀ v ∈ cols, ∀ xs, v ≠ .array xs) :
    frame false cols = .error .valueError := by
  have e : arrayLengths cols = [] := by
    unfold arrayLengths
    rw [List.filterMap_eq_nil_iff]
    intro v hv
    cases v with
    | float x => rfl
    | int k => rfl
    | array xs => exact absurd rfl (h _ hv xs)
  unfold frame
  rw [if_neg (by simp), e]

theorem read_record {text : PF → List Char} {sep : Char} (hp : PlainNumbers text sep) {n i : ℕ}
    {cols : List Value} (h : ∀ v ∈ cols, Fits n v) (h0 : cols ≠ []) :
    fields sep (join sep (cols.map fun v => cellText text (v.at i))) =
      cols.map fun v => shown text (entry v i) := by
  rw [fields_join]
  · exact List.map_congr_left fun v hv => cell_of_fits (h v hv) i
  · intro x hx
    rw [List.mem_map] at hx
    obtain ⟨v, hv, rfl⟩ := hx
    rw [cell_of_fits (h v hv)]
    exact shown_plain hp _
  · simpa using h0

theorem not_comment {text : PF → List Char} (hp : PlainNumbers text ' ') {n i : ℕ} {v w : Value}
    {cols : List Value} (h : Fits n v) :
    isComment (join ' ' ((v :: w :: cols).map fun v => cellText text (v.at i))) = false := by
  rw [List.map_cons, List.map_cons, join, cell_of_fits h]
  have := shown_no_comment hp (entry v i)
  cases hs : shown text (entry v i) with
  | nil => rfl
  | cons c cs =>
    rw [hs] at this
    simp only [List.mem_cons, not_or] at this
    rw [List.cons_append, isComment]
    simp [Ne.symm this.1.1, Ne.symm this.2.1]

/-! ### The file for the neural network (Van Gent et al. 2007) -/

open NNOvertopping (Input) in
/-- the columns as the file itself describes them -/
def documentedNN (α : Type) : List (String × (Input α → α)) :=
  [("! COLUMN#01  Angle of Wave attack", (·.beta)),
   ("! COLUMN#02  Water depth in front of structure", (·.h)),
   ("! COLUMN#03  Significant Wave Height at the toe of structure", (·.Hm0)),
   ("! COLUMN#04  Wave period", (·.Tmm10)),
   ("! COLUMN#05  Water depth at the toe of structure", (·.ht)),
   ("! COLUMN#06  Width of toe", (·.Bt)),
   ("! COLUMN#07  Roughness coefficient", (·.gamma_f)),
   ("! COLUMN#08  Angle of down slope", (·.cot_alpha_down)),
   ("! COLUMN#09  Angle of upper slope", (·.cot_alpha_up)),
   ("! COLUMN#10  Crest Freeboard in relation to SWL", (·.Rc)),
   ("! COLUMN#11  Berm Width", (·.B_berm)),
   ("! COLUMN#12  Water depth at the berm of the structure", (·.db)),
   ("! COLUMN#13  Berm slope", (·.tan_alpha_B)),
   ("! COLUMN#14  Armour Freeboard in relation to SWL", (·.Ac)),
   ("! COLUMN#15  Armour Width", (·.Gc))]

set_option maxRecDepth 8000 in
theorem header_comments (name : List Char) :
    (NNOvertopping.header name).filter (fun l => !isComment l) = [] := rfl

theorem header_columns (name : List Char) (r : List Line) :
    ((NNOvertopping.header name ++ r).drop 5).take 15 =
      (documentedNN PF).map fun c => c.1.toList := rfl

theorem columns_documented (a : NNOvertopping.Input Value) :
    NNOvertopping.columns a = (documentedNN Value).map fun c => c.2 a := rfl

/-- C59: with an array of angles, and every other argument an array of the same length or a single
number, the file says what its columns are, and has one record per angle, in which every argument stands
in its column -/
theorem C59_nn (text : PF → List Char) (hp : PlainNumbers text ' ') (a : NNOvertopping.Input Value)
    (name : List Char) (xs : List PF) (hb : a.beta = .array xs)
    (hfit : ∀ c ∈ documentedNN Value, Fits xs.length (c.2 a)) :
    ∃ file, NNOvertopping.write_input_file_NN_Overtopping text a name = ⟨some file, .ok ()⟩ ∧
      (file.drop 5).take 15 = (documentedNN PF).map (fun c => c.1.toList) ∧
      (file.filter fun l => !isComment l).map (fields ' ') =
        (List.range xs.length).map fun i =>
          (documentedNN Value).map fun c => shown text (entry (c.2 a) i) := by
  have hc : ∀ v ∈ NNOvertopping.columns a, Fits xs.length v := by
    rw [columns_documented]
    intro v hv
    rw [List.mem_map] at hv
    obtain ⟨c, hc, rfl⟩ := hv
    exact hfit c hc
  have hf : frame a.beta.isFloat (NNOvertopping.columns a) = .ok xs.length := by
    unfold NNOvertopping.columns at hc ⊢
    rw [hb]
    exact frame_arrays rfl fun v hv => hc v (List.mem_cons_of_mem _ hv)
  refine ⟨_, by unfold NNOvertopping.write_input_file_NN_Overtopping; rw [hf], header_columns .., ?_⟩
  rw [List.filter_append, header_comments, List.nil_append]
  have hall : ∀ l ∈ records text ' ' xs.length (NNOvertopping.columns a), (!isComment l) = true := by
    intro l hl
    unfold records at hl
    rw [List.mem_map] at hl
    obtain ⟨i, -, rfl⟩ := hl
    rw [Bool.not_eq_true']
    exact not_comment hp (hc _ (List.mem_cons_self ..))
  rw [List.filter_eq_self.mpr hall]
  unfold records
  rw [List.map_map]
  refine List.map_congr_left fun i _ => ?_
  rw [Function.comp_apply, read_record hp hc (by unfold NNOvertopping.columns; simp), columns_documented,
    List.map_map]
  rfl

/-- C59: a list of records, passed as arrays, is what the file contains -/
theorem C59_nn_records (text : PF → List Char) (hp : PlainNumbers text ' ') (name : List Char)
    (rs : List (NNOvertopping.Input PF)) :
    ∃ file, NNOvertopping.write_input_file_NN_Overtopping text
        { beta := .array (rs.map (·.beta)), h := .array (rs.map (·.h)), Hm0 := .array (rs.map (·.Hm0)),
          Tmm10 := .array (rs.map (·.Tmm10)), Bt := .array (rs.map (·.Bt)), ht := .array (rs.map (·.ht)),
          B_berm := .array (rs.map (·.B_berm)), db := .array (rs.map (·.db)),
          Rc := .array (rs.map (·.Rc)), Ac := .array (rs.map (·.Ac)), Gc := .array (rs.map (·.Gc)),
          cot_alpha_down := .array (rs.map (·.cot_alpha_down)),
          cot_alpha_up := .array (rs.map (·.cot_alpha_up)), gamma_f := .array (rs.map (·.gamma_f)),
          tan_alpha_B := .array (rs.map (·.tan_alpha_B)) } name = ⟨some file, .ok ()⟩ ∧
      (file.drop 5).take 15 = (documentedNN PF).map (fun c => c.1.toList) ∧
      (file.filter fun l => !isComment l).map (fields ' ') =
        rs.map fun r => (documentedNN PF).map fun c => shown text (c.2 r) := by
  obtain ⟨file, h1, h2, h3⟩ := C59_nn text hp
        { beta := .array (rs.map (·.beta)), h := .array (rs.map (·.h)), Hm0 := .array (rs.map (·.Hm0)),
          Tmm10 := .array (rs.map (·.Tmm10)), Bt := .array (rs.map (·.Bt)), ht := .array (rs.map (·.ht)),
          B_berm := .array (rs.map (·.B_berm)), db := .array (rs.map (·.db)),
          Rc := .array (rs.map (·.Rc)), Ac := .array (rs.map (·.Ac)), Gc := .array (rs.map (·.Gc)),
          cot_alpha_down := .array (rs.map (·.cot_alpha_down)),
          cot_alpha_up := .array (rs.map (·.cot_alpha_up)), gamma_f := .array (rs.map (·.gamma_f)),
          tan_alpha_B := .array (rs.map (·.tan_alpha_B)) } name (rs.map (·.beta)) rfl (by
    simp [documentedNN, Fits])
  refine ⟨file, h1, h2, h3.trans ?_⟩
  apply List.ext_getElem (by simp)
  intro i hi hi'
  simp at hi'
  simp [documentedNN, entry, hi']

/-- C59: single numbers give one record -/
theorem C59_nn_single (text : PF → List Char) (hp : PlainNumbers text ' ') (name : List Char)
    (r : NNOvertopping.Input PF) :
    ∃ file, NNOvertopping.write_input_file_NN_Overtopping text
        { beta := .float r.beta, h := .float r.h, Hm0 := .float r.Hm0, Tmm10 := .float r.Tmm10,
          Bt := .float r.Bt, ht := .float r.ht, B_berm := .float r.B_berm, db := .float r.db,
          Rc := .float r.Rc, Ac := .float r.Ac, Gc := .float r.Gc,
          cot_alpha_down := .float r.cot_alpha_down, cot_alpha_up := .float r.cot_alpha_up,
          gamma_f := .float r.gamma_f, tan_alpha_B := .float r.tan_alpha_B } name = ⟨some file, .ok ()⟩ ∧
      (file.drop 5).take 15 = (documentedNN PF).map (fun c => c.1.toList) ∧
      (file.filter fun l => !isComment l).map (fields ' ') =
        [(documentedNN PF).map fun c => shown text (c.2 r)] := by
  have hf : ∀ cols : List Value, (∀ v ∈ cols, Fits 1 v) → frame true cols = .ok 1 :=
    fun cols h => frame_scalars h
  refine ⟨_, by
    unfold NNOvertopping.write_input_file_NN_Overtopping
    rw [show Value.isFloat (Value.float r.beta) = true from rfl, hf _ (by
      simp [NNOvertopping.columns, Fits])], header_columns .., ?_⟩
  rw [List.filter_append, header_comments, List.nil_append]
  unfold records
  rw [show List.range 1 = [0] from rfl, List.map_cons, List.map_nil, List.filter_cons_of_pos,
    List.filter_nil, List.map_cons, List.map_nil, read_record (n := 1) hp (by
      simp [NNOvertopping.columns, Fits]) (by simp [NNOvertopping.columns])]
  · rfl
  · rw [Bool.not_eq_true']
    exact not_comment (n := 1) hp trivial

/-- C59 limit: an integer angle (`beta=0`) with single numbers raises ValueError, and leaves a file of
comments without a record -/
theorem C59_nn_integer_refuted (text : PF → List Char) (a : NNOvertopping.Input Value) (name : List Char)
    (k : ℤ) (hb : a.beta = .int k) (ha : ∀ c ∈ documentedNN Value, ∀ xs, c.2 a ≠ .array xs) :
    ∃ file, NNOvertopping.write_input_file_NN_Overtopping text a name =
        ⟨some file, .error .valueError⟩ ∧
      file.filter (fun l => !isComment l) = [] := by
  refine ⟨_, ?_, header_comments name⟩
  unfold NNOvertopping.write_input_file_NN_Overtopping
  rw [hb, show Value.isFloat (Value.int k) = false from rfl, frame_no_array]
  rw [columns_documented]
  intro v hv
  rw [List.mem_map] at hv
  obtain ⟨c, hc, rfl⟩ := hv
  exact ha c hc

/-- C59 limit: an array of two or more values next to a single angle raises ValueError, again after the
comments were written -/
theorem C59_nn_single_angle_refuted (text : PF → List Char) (a : NNOvertopping.Input Value)
    (name : List Char) (b : PF) (hb : a.beta = .float b) (xs : List PF) (hx : xs.length ≠ 1)
    (c : String × (NNOvertopping.Input Value → Value)) (hc : c ∈ documentedNN Value)
    (ha : c.2 a = .array xs) :
    ∃ file, NNOvertopping.write_input_file_NN_Overtopping text a name =
        ⟨some file, .error .valueError⟩ ∧
      file.filter (fun l => !isComment l) = [] := by
  refine ⟨_, ?_, header_comments name⟩
  have : frame true (NNOvertopping.columns a) = .error .valueError := by
    unfold frame
    rw [if_pos rfl, if_neg]
    intro h
    refine hx (h _ ?_)
    unfold arrayLengths
    rw [List.mem_filterMap]
    refine ⟨.array xs, ?_, rfl⟩
    rw [columns_documented, List.mem_map]
    exact ⟨c, hc, ha⟩
  unfold NNOvertopping.write_input_file_NN_Overtopping
  rw [hb, show Value.isFloat (Value.float b) = true from rfl, this]

/-- C59 limit: a missing value is written as nothing, so that for a reader separating at runs of blanks
every later value of the record moves up a column -/
theorem C59_nn_missing_refuted (text : PF → List Char) (hp : PlainNumbers text ' ') (name : List Char)
    (r : NNOvertopping.Input PF) (c : String × (NNOvertopping.Input PF → PF))
    (hc : c ∈ documentedNN PF) (hn : (c.2 r).isnan) :
    ∃ file line, NNOvertopping.write_input_file_NN_Overtopping text
        { beta := .float r.beta, h := .float r.h, Hm0 := .float r.Hm0, Tmm10 := .float r.Tmm10,
          Bt := .float r.Bt, ht := .float r.ht, B_berm := .float r.B_berm, db := .float r.db,
          Rc := .float r.Rc, Ac := .float r.Ac, Gc := .float r.Gc,
          cot_alpha_down := .float r.cot_alpha_down, cot_alpha_up := .float r.cot_alpha_up,
          gamma_f := .float r.gamma_f, tan_alpha_B := .float r.tan_alpha_B } name = ⟨some file, .ok ()⟩ ∧
      file.filter (fun l => !isComment l) = [line] ∧ (words ' ' line).length < 15 := by
  obtain ⟨file, h1, -, h3⟩ := C59_nn_single text hp name r
  obtain ⟨line, hl, hf⟩ : ∃ line, file.filter (fun l => !isComment l) = [line] ∧
      fields ' ' line = (documentedNN PF).map fun c => shown text (c.2 r) := by
    rw [List.map_eq_singleton_iff] at h3
    obtain ⟨line, h, e⟩ := h3
    exact ⟨line, h, e⟩
  refine ⟨file, line, h1, hl, ?_⟩
  unfold words
  rw [hf]
  have h15 : ((documentedNN PF).map fun c => shown text (c.2 r)).length = 15 := rfl
  rw [← h15]
  refine lt_of_le_of_ne (List.length_filter_le ..) fun e => ?_
  rw [List.length_filter_eq_length_iff] at e
  have := e _ (List.mem_map.mpr ⟨c, hc, rfl⟩)
  simp [shown, hn] at this

/-! ### The file for the gradient-boosting model (Den Bieman et al. 2021) -/

open XGBOvertopping (Input) in
/-- the columns and what they are to contain -/
def documentedXGB (α : Type) : List (String × (Input α → α)) :=
  [("b", (·.beta)), ("h", (·.h)), ("Hm0 toe", (·.Hm0)), ("Tm-1,0 toe", (·.Tmm10)), ("ht", (·.ht)),
   ("Bt", (·.Bt)), ("hb", (·.db)), ("B", (·.B_berm)), ("Rc", (·.Rc)), ("Ac", (·.Ac)), ("Gc", (·.Gc)),
   ("cotad", (·.cot_alpha_down)), ("cotau", (·.cot_alpha_up)), ("gf_d", (·.gamma_f_down)),
   ("gf_u", (·.gamma_f_up)), ("tanaf", (·.tan_alpha_f))]

theorem xgb_columns (a : XGBOvertopping.Input Value) :
    XGBOvertopping.columns a = (documentedXGB Value).map fun c => (c.1, c.2 a) := rfl

theorem read_indexed {text : PF → List Char} (hp : PlainNumbers text ';') {n : ℕ}
    {a : XGBOvertopping.Input Value} (hfit : ∀ c ∈ documentedXGB Value, Fits n (c.2 a)) :
    (recordsIndexed text ';' n (XGBOvertopping.columns a)).map (fields ';') =
      ([] :: (documentedXGB PF).map (fun c => c.1.toList)) ::
        (List.range n).map fun i => (toString i).toList ::
          (documentedXGB Value).map fun c => shown text (entry (c.2 a) i) := by
  unfold recordsIndexed
  rw [List.map_cons]
  congr 1
  · have e : (XGBOvertopping.columns a).map (fun c => c.1.toList) =
        (documentedXGB PF).map fun c => c.1.toList := rfl
    have hd : ∀ x ∈ [] :: (documentedXGB PF).map (fun c => c.1.toList), ';' ∉ x := by
      unfold documentedXGB
      simp
    rw [e, fields_join hd (by simp)]
  · rw [List.map_map]
    refine List.map_congr_left fun i _ => ?_
    rw [Function.comp_apply, xgb_columns, List.map_map, fields_join]
    · congr 1
      exact List.map_congr_left fun c hc => cell_of_fits (hfit c hc) i
    · intro x hx
      rw [List.mem_cons] at hx
      rcases hx with rfl | hx
      · intro h
        have := digit_plain i _ h
        exact absurd this (by decide)
      · rw [List.mem_map] at hx
        obtain ⟨c, hc, rfl⟩ := hx
        rw [Function.comp_apply, cell_of_fits (hfit c hc)]
        exact shown_plain hp _
    · simp

/-- C59: with an array of angles, and every other argument an array of the same length or a single
number, the file has a line of names and one record per angle, in which every argument stands under its
name; names and records are preceded by the record number -/
theorem C59_xgb (text : PF → List Char) (hp : PlainNumbers text ';') (a : XGBOvertopping.Input Value)
    (xs : List PF) (hb : a.beta = .array xs)
    (hfit : ∀ c ∈ documentedXGB Value, Fits xs.length (c.2 a)) :
    ∃ file, XGBOvertopping.write_input_file_XGB_Overtopping text a = ⟨some file, .ok ()⟩ ∧
      file.map (fields ';') =
        ([] :: (documentedXGB PF).map (fun c => c.1.toList)) ::
          (List.range xs.length).map fun i => (toString i).toList ::
            (documentedXGB Value).map fun c => shown text (entry (c.2 a) i) := by
  have hc : ∀ v ∈ (XGBOvertopping.columns a).map Prod.snd, Fits xs.length v := by
    rw [xgb_columns, List.map_map]
    intro v hv
    rw [List.mem_map] at hv
    obtain ⟨c, hc, rfl⟩ := hv
    exact hfit c hc
  have hf : frame a.beta.isFloat ((XGBOvertopping.columns a).map Prod.snd) = .ok xs.length := by
    unfold XGBOvertopping.columns at hc ⊢
    rw [hb]
    exact frame_arrays rfl fun v hv => hc v (List.mem_cons_of_mem _ hv)
  exact ⟨_, by unfold XGBOvertopping.write_input_file_XGB_Overtopping; rw [hf], read_indexed hp hfit⟩

/-- C59: a list of records, passed as arrays, is what the file contains -/
theorem C59_xgb_records (text : PF → List Char) (hp : PlainNumbers text ';')
    (rs : List (XGBOvertopping.Input PF)) :
    ∃ file, XGBOvertopping.write_input_file_XGB_Overtopping text
        { beta := .array (rs.map (·.beta)), h := .array (rs.map (·.h)), Hm0 := .array (rs.map (·.Hm0)),
          Tmm10 := .array (rs.map (·.Tmm10)), Bt := .array (rs.map (·.Bt)), ht := .array (rs.map (·.ht)),
          B_berm := .array (rs.map (·.B_berm)), db := .array (rs.map (·.db)),
          Rc := .array (rs.map (·.Rc)), Ac := .array (rs.map (·.Ac)), Gc := .array (rs.map (·.Gc)),
          cot_alpha_down := .array (rs.map (·.cot_alpha_down)),
          cot_alpha_up := .array (rs.map (·.cot_alpha_up)),
          gamma_f_down := .array (rs.map (·.gamma_f_down)),
          gamma_f_up := .array (rs.map (·.gamma_f_up)),
          tan_alpha_f := .array (rs.map (·.tan_alpha_f)) } = ⟨some file, .ok ()⟩ ∧
      file.map (fields ';') =
        ([] :: (documentedXGB PF).map (fun c => c.1.toList)) ::
          rs.mapIdx fun i r => (toString i).toList :: (documentedXGB PF).map fun c => shown text (c.2 r) := by
  obtain ⟨file, h1, h3⟩ := C59_xgb text hp
        { beta := .array (rs.map (·.beta)), h := .array (rs.map (·.h)), Hm0 := .array (rs.map (·.Hm0)),
          Tmm10 := .array (rs.map (·.Tmm10)), Bt := .array (rs.map (·.Bt)), ht := .array (rs.map (·.ht)),
          B_berm := .array (rs.map (·.B_berm)), db := .array (rs.map (·.db)),
          Rc := .array (rs.map (·.Rc)), Ac := .array (rs.map (·.Ac)), Gc := .array (rs.map (·.Gc)),
          cot_alpha_down := .array (rs.map (·.cot_alpha_down)),
          cot_alpha_up := .array (rs.map (·.cot_alpha_up)),
          gamma_f_down := .array (rs.map (·.gamma_f_down)),
          gamma_f_up := .array (rs.map (·.gamma_f_up)),
          tan_alpha_f := .array (rs.map (·.tan_alpha_f)) } (rs.map (·.beta)) rfl (by
    simp [documentedXGB, Fits])
  refine ⟨file, h1, h3.trans ?_⟩
  congr 1
  apply List.ext_getElem (by simp)
  intro i hi hi'
  simp at hi'
  simp [documentedXGB, entry, hi']

/-- C59: single numbers give one record -/
theorem C59_xgb_single (text : PF → List Char) (hp : PlainNumbers text ';')
    (r : XGBOvertopping.Input PF) :
    ∃ file, XGBOvertopping.write_input_file_XGB_Overtopping text
        { beta := .float r.beta, h := .float r.h, Hm0 := .float r.Hm0, Tmm10 := .float r.Tmm10,
          Bt := .float r.Bt, ht := .float r.ht, B_berm := .float r.B_berm, db := .float r.db,
          Rc := .float r.Rc, Ac := .float r.Ac, Gc := .float r.Gc,
          cot_alpha_down := .float r.cot_alpha_down, cot_alpha_up := .float r.cot_alpha_up,
          gamma_f_down := .float r.gamma_f_down, gamma_f_up := .float r.gamma_f_up,
          tan_alpha_f := .float r.tan_alpha_f } = ⟨some file, .ok ()⟩ ∧
      file.map (fields ';') =
        [[] :: (documentedXGB PF).map (fun c => c.1.toList),
         ['0'] :: (documentedXGB PF).map fun c => shown text (c.2 r)] := by
  refine ⟨_, by
    unfold XGBOvertopping.write_input_file_XGB_Overtopping
    rw [show Value.isFloat (Value.float r.beta) = true from rfl, frame_scalars (by
      simp [XGBOvertopping.columns, Fits])], ?_⟩
  rw [read_indexed (n := 1) hp (by simp [documentedXGB, Fits])]
  rfl

/-- C59 limit: an integer angle (`beta=0`) with single numbers raises ValueError -/
theorem C59_xgb_integer_refuted (text : PF → List Char) (a : XGBOvertopping.Input Value)
    (k : ℤ) (hb : a.beta = .int k) (ha : ∀ c ∈ documentedXGB Value, ∀ xs, c.2 a ≠ .array xs) :
    XGBOvertopping.write_input_file_XGB_Overtopping text a = ⟨none, .error .valueError⟩ := by
  unfold XGBOvertopping.write_input_file_XGB_Overtopping
  rw [hb, show Value.isFloat (Value.int k) = false from rfl, frame_no_array]
  rw [xgb_columns, List.map_map]
  intro v hv
  rw [List.mem_map] at hv
  obtain ⟨c, hc, rfl⟩ := hv
  exact ha c hc

/-- numbers written as a digit: the hypotheses on the writing of numbers can be met -/
theorem plain_digit : PlainNumbers (fun _ => ['7']) ' ' ∧ PlainNumbers (fun _ => ['7']) ';' := by
  constructor <;> constructor <;> intro <;> simp

/-- one record, without a berm slope -/
def sample : NNOvertopping.Input PF :=
  { beta := .fin 0, h := .fin 8, Hm0 := .fin 2, Tmm10 := .fin 6, Bt := .fin 4, ht := .fin 6,
    B_berm := .fin 0, db := .fin 0, Rc := .fin 4, Ac := .fin 4, Gc := .fin 2, cot_alpha_down := .fin 2,
    cot_alpha_up := .fin 2, gamma_f := .fin 1, tan_alpha_B := .nan }

/-- two records of the neural network file -/
example := C59_nn_records (fun _ => ['7']) plain_digit.1 "case".toList [sample, { sample with Rc := .fin 5 }]

/-- one record -/
example := C59_nn_single (fun _ => ['7']) plain_digit.1 "case".toList sample

/-- the missing berm slope -/
example := C59_nn_missing_refuted (fun _ => ['7']) plain_digit.1 "case".toList sample
  ("! COLUMN#13  Berm slope", (·.tan_alpha_B)) (by simp [documentedNN]) (by simp [sample, PF.isnan])

/-- `beta=0` -/
example : ∃ file, NNOvertopping.write_input_file_NN_Overtopping (fun _ => ['7'])
      { beta := .int 0, h := .float (.fin 8), Hm0 := .float (.fin 2), Tmm10 := .float (.fin 6),
        Bt := .float (.fin 4), ht := .float (.fin 6), B_berm := .int 0, db := .int 0,
        Rc := .float (.fin 4), Ac := .float (.fin 4), Gc := .float (.fin 2), cot_alpha_down := .int 2,
        cot_alpha_up := .int 2, gamma_f := .float (.fin 1), tan_alpha_B := .int 0 } "case".toList =
      ⟨some file, .error .valueError⟩ ∧ file.filter (fun l => !isComment l) = [] :=
  C59_nn_integer_refuted _ _ _ 0 rfl (by simp [documentedNN])

/-- `beta=0.0` with two wave heights -/
example : ∃ file, NNOvertopping.write_input_file_NN_Overtopping (fun _ => ['7'])
      { beta := .float (.fin 0), h := .float (.fin 8), Hm0 := .array [.fin 2, .fin 3],
        Tmm10 := .float (.fin 6),
        Bt := .float (.fin 4), ht := .float (.fin 6), B_berm := .int 0, db := .int 0,
        Rc := .float (.fin 4), Ac := .float (.fin 4), Gc := .float (.fin 2), cot_alpha_down := .int 2,
        cot_alpha_up := .int 2, gamma_f := .float (.fin 1), tan_alpha_B := .int 0 } "case".toList =
      ⟨some file, .error .valueError⟩ ∧ file.filter (fun l => !isComment l) = [] :=
  C59_nn_single_angle_refuted _ _ _ _ rfl [.fin 2, .fin 3] (by simp)
    ("! COLUMN#03  Significant Wave Height at the toe of structure", (·.Hm0)) (by simp [documentedNN]) rfl

/-- two records -/
example : ∃ file, XGBOvertopping.write_input_file_XGB_Overtopping (fun _ => ['7'])
    { beta := .array [.fin 0, .fin 30], h := .float (.fin 8), Hm0 := .array [.fin 2, .fin 3],
      Tmm10 := .float (.fin 6), Bt := .float (.fin 4), ht := .float (.fin 6), B_berm := .float (.fin 0),
      db := .float (.fin 0), Rc := .float (.fin 4), Ac := .float (.fin 4), Gc := .float (.fin 2),
      cot_alpha_down := .float (.fin 2), cot_alpha_up := .float (.fin 2),
      gamma_f_down := .float (.fin 1), gamma_f_up := .float (.fin 1),
      tan_alpha_f := .float .nan } = ⟨some file, .ok ()⟩ ∧ file.length = 3 := by
  have h := C59_xgb (fun _ => ['7']) plain_digit.2
    { beta := .array [.fin 0, .fin 30], h := .float (.fin 8), Hm0 := .array [.fin 2, .fin 3],
      Tmm10 := .float (.fin 6), Bt := .float (.fin 4), ht := .float (.fin 6), B_berm := .float (.fin 0),
      db := .float (.fin 0), Rc := .float (.fin 4), Ac := .float (.fin 4), Gc := .float (.fin 2),
      cot_alpha_down := .float (.fin 2), cot_alpha_up := .float (.fin 2),
      gamma_f_down := .float (.fin 1), gamma_f_up := .float (.fin 1),
      tan_alpha_f := .float .nan } [.fin 0, .fin 30] rfl (by simp [documentedXGB, Fits])
  obtain ⟨file, h1, h2⟩ := h
  refine ⟨file, h1, ?_⟩
  have := congrArg List.length h2
  simpa using this

end NetworkInput
end
