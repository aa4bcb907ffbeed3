import Verif.Py.Table

/-!
# Models of the writers of input files for overtopping networks,
`functions/hydraulic/wave_overtopping/vangent2007.py` and `denbieman2021.py`

The directory is left out: the file is identified by its name.  `open` and `to_csv` are assumed to
succeed.  How floats are turned into text is the parameter `text`.
-/

open Table
noncomputable section

namespace NNOvertopping

/-- the arguments of `write_input_file_NN_Overtopping` (vangent2007.py 9-25) -/
structure Input (α : Type) where
  beta : α
  h : α
  Hm0 : α
  Tmm10 : α
  Bt : α
  ht : α
  B_berm : α
  db : α
  Rc : α
  Ac : α
  Gc : α
  cot_alpha_down : α
  cot_alpha_up : α
  gamma_f : α
  tan_alpha_B : α

/-- vangent2007.py 81-124: the comment lines -/
def header (file_name : Line) : List Line :=
  ["!-------------------------------------------------------------------------------------------".toList,
   "! Begin input file".toList,
   "! ".toList ++ file_name ++ ".inp".toList,
   "! This is a comment record".toList,
   "! ===============================".toList,
   "! COLUMN#01  Angle of Wave attack".toList,
   "! COLUMN#02  Water depth in front of structure".toList,
   "! COLUMN#03  Significant Wave Height at the toe of structure".toList,
   "! COLUMN#04  Wave period".toList,
   "! COLUMN#05  Water depth at the toe of structure".toList,
   "! COLUMN#06  Width of toe".toList,
   "! COLUMN#07  Roughness coefficient".toList,
   "! COLUMN#08  Angle of down slope".toList,
   "! COLUMN#09  Angle of upper slope".toList,
   "! COLUMN#10  Crest Freeboard in relation to SWL".toList,
   "! COLUMN#11  Berm Width".toList,
   "! COLUMN#12  Water depth at the berm of the structure".toList,
   "! COLUMN#13  Berm slope".toList,
   "! COLUMN#14  Armour Freeboard in relation to SWL".toList,
   "! COLUMN#15  Armour Width".toList,
   "! ===============================".toList,
   "! and this is another comment record".toList,
   "* as well as this one, and the next five ones".toList,
   ("!-----------------------------------------------------------------------" ++
     "---------------------------------------------------").toList,
   ("!0 1   02     03        04      05       06       07      08      09      " ++
     "10       11       12        13     14       15   ").toList,
   ("!degr   m     toe(m)   toe(s)   m        m                                m" ++
     "        m        m                m        m    ").toList,
   ("!--------------------------------------------------------------------------" ++
     "------------------------------------------------").toList]

/-- vangent2007.py 131-150: the columns in the order of the dictionary (no header line is written, so
their names are left out) -/
def columns (a : Input Value) : List Value :=
  [a.beta, a.h, a.Hm0, a.Tmm10, a.ht, a.Bt, a.gamma_f, a.cot_alpha_down, a.cot_alpha_up, a.Rc, a.B_berm,
   a.db, a.tan_alpha_B, a.Ac, a.Gc]

/-- vangent2007.py 9-159: the comment lines are in the file before the table is built -/
def write_input_file_NN_Overtopping (text : PF → Line) (a : Input Value) (file_name : Line) : Written :=
  match frame a.beta.isFloat (columns a) with
  | .ok n => ⟨some (header file_name ++ records text ' ' n (columns a)), .ok ()⟩
  | .error e => ⟨some (header file_name), .error e⟩

end NNOvertopping

namespace XGBOvertopping

/-- the arguments of `write_input_file_XGB_Overtopping` (denbieman2021.py 9-26) -/
structure Input (α : Type) where
  beta : α
  h : α
  Hm0 : α
  Tmm10 : α
  Bt : α
  ht : α
  B_berm : α
  db : α
  Rc : α
  Ac : α
  Gc : α
  cot_alpha_down : α
  cot_alpha_up : α
  gamma_f_down : α
  gamma_f_up : α
  tan_alpha_f : α

/-- denbieman2021.py 88-108: the columns in the order of the dictionary -/
def columns (a : Input Value) : List (String × Value) :=
  [("b", a.beta), ("h", a.h), ("Hm0 toe", a.Hm0), ("Tm-1,0 toe", a.Tmm10), ("ht", a.ht), ("Bt", a.Bt),
   ("hb", a.db), ("B", a.B_berm), ("Rc", a.Rc), ("Ac", a.Ac), ("Gc", a.Gc),
   ("cotad", a.cot_alpha_down), ("cotau", a.cot_alpha_up), ("gf_d", a.gamma_f_down),
   ("gf_u", a.gamma_f_up), ("tanaf", a.tan_alpha_f)]

/-- denbieman2021.py 9-111 -/
def write_input_file_XGB_Overtopping (text : PF → Line) (a : Input Value) : Written :=
  match frame a.beta.isFloat ((columns a).map Prod.snd) with
  | .ok n => ⟨some (recordsIndexed text ';' n (columns a)), .ok ()⟩
  | .error e => ⟨none, .error e⟩

end XGBOvertopping
end
