import Verif.SpecRange

/-! # The design formulas as published

Each definition is the relation printed in the literature between wave, structure and damage, written
down from the publication in its dimensionless form (not from the Python, which stores every formula
solved for one variable). -/

open PF
noncomputable section

/-- the call returns a positive number with the property -/
def Returns (m : PyM PF) (P : ℝ → Prop) : Prop := ∃ x : ℝ, 0 < x ∧ m.res = .ok (fin x) ∧ P x

theorem Returns.mono {m : PyM PF} {P Q : ℝ → Prop} (h : Returns m P) (i : ∀ x, 0 < x → P x → Q x) :
    Returns m Q := by
  obtain ⟨x, hx, e, p⟩ := h
  exact ⟨x, hx, e, i x hx p⟩

namespace Published

/-- nominal diameter: the edge of the cube with the mass of the stone -/
def Dn (M rho : ℝ) : ℝ := (M / rho) ^ ((1 : ℝ) / 3)

/-- Hudson (1959), Shore Protection Manual 1984: `Ns = (K_D cot α)^(1/3)`; `f` is the ratio of the wave
height at the accepted damage to the no-damage wave height -/
def Hudson (Ns f KD cot : ℝ) : Prop := Ns = f * (KD * cot) ^ ((1 : ℝ) / 3)

/-- Shore Protection Manual, table 7-9: the ratio of the wave height at the accepted damage (in %) to
the no-damage wave height, by damage class; two rows of the table. Which row the table prints for rough
and which for smooth rock cannot be checked without the manual -/
def hudsonRatioA (d : ℝ) : ℝ :=
  if d < 5 then 1.0 else if d < 10 then 1.08 else if d < 15 then 1.14 else if d < 20 then 1.20
  else if d < 30 then 1.29 else if d < 40 then 1.41 else 1.54
@[inherit_doc hudsonRatioA]
def hudsonRatioB (d : ℝ) : ℝ :=
  if d < 5 then 1.0 else if d < 10 then 1.08 else if d < 15 then 1.19 else if d < 20 then 1.27
  else if d < 30 then 1.37 else if d < 40 then 1.47 else 1.56

/-- Van der Meer (1988): transition between plunging and surging waves -/
def criticalIribarren (cpl cs P cot : ℝ) : ℝ :=
  (cpl / cs * P ^ (0.31 : ℝ) * √(1 / cot)) ^ (1 / (P + 0.5))

/-- Van der Meer (1988), Rock Manual (2007) eqs. 5.136-5.141: with `d` = S/√N (corrected for the number
of waves) the stability number is `c_pl P^0.18 d^0.2 ξ^-0.5` for plunging waves, and
`c_s P^-0.13 d^0.2 √cot α ξ^P` for surging waves (not on slopes of 1:4 and gentler) -/
def VanDerMeer (cpl cs P cot xi d Ns : ℝ) : Prop :=
  (xi < criticalIribarren cpl cs P cot ∨ 4 ≤ cot →
    Ns = cpl * P ^ (0.18 : ℝ) * d ^ (0.2 : ℝ) * xi ^ (-0.5 : ℝ)) ∧
  (criticalIribarren cpl cs P cot ≤ xi ∧ cot < 4 →
    Ns = cs * P ^ (-0.13 : ℝ) * d ^ (0.2 : ℝ) * √cot * xi ^ P)

/-- Van der Meer (1988): damage as a function of the number of waves. Proportional to the number up to
1000 waves, to its root up to 5000 waves, and levelling off beyond -/
def stormDuration (N : ℝ) : ℝ :=
  if N ≤ 1000 then N / √1000
  else if N ≤ 5000 then √N
  else √5000 * (1.3 * (1 - Real.exp (-3.1e-4 * N)))

/-- Van der Meer (1988), double-layer cubes -/
def CubesDouble (Ns Nod N s : ℝ) : Prop :=
  Ns = (6.7 * Nod ^ (0.4 : ℝ) / N ^ (0.3 : ℝ) + 1) * s ^ (-0.1 : ℝ)

/-- Xbloc (`k` = 2.77) and XblocPlus (`k` = 2.5): the design stability number; `f` is the factor by which
the unit is heavier than the standard one -/
def UnitDesign (k H V f ra rw : ℝ) : Prop := Textbook.Ns H ((V / f) ^ ((1 : ℝ) / 3)) ra rw = k

/-- Etemad-Shahidi et al. (2020): influence of the core on stability -/
def corePermeability (D Dcore : ℝ) : ℝ := (1 + (Dcore / D) ^ ((3 : ℝ) / 10)) ^ ((3 : ℝ) / 5)

/-- Etemad-Shahidi et al. (2020), surging waves; `f` is the reduction on a sloping foreshore with
depth-limited waves -/
def EtemadSurging (Ns Cp N S xi f : ℝ) : Prop :=
  Ns = 3.9 * Cp * N ^ (-(1 : ℝ) / 10) * S ^ ((1 : ℝ) / 6) * xi ^ (-(1 : ℝ) / 3) * f

/-- Etemad-Shahidi et al. (2020), plunging waves -/
def EtemadPlunging (Ns Cp N S xi f : ℝ) : Prop :=
  Ns = 4.5 * Cp * N ^ (-(1 : ℝ) / 10) * S ^ ((1 : ℝ) / 6) * xi ^ (-(7 : ℝ) / 12) * f

/-- Etemad-Shahidi et al. (2020): reduction `1 - 3 m` on a foreshore of slope `m` if the waves are
depth-limited -/
def depthLimitation (m : ℝ) (depthLimited : Bool) : ℝ := if depthLimited then 1 - 3 * m else 1

/-- Jumelet et al. (2024), mild slopes: only the plunging waves, `n` of them, do damage -/
def Jumelet (Ns c S n xi : ℝ) : Prop := Ns = c * (S / √n) ^ (0.2 : ℝ) * xi ^ (-1 : ℝ)

/-- Jumelet et al. (2024): part of the waves that is plunging -/
def plungingPart (xi : ℝ) : ℝ := -1.7 * xi ^ 2 + 3.2 * xi - 0.5

/-- Scaravaglione et al. (2025), based on the wave steepness `s` -/
def Scaravaglione (Ns c S N cot D Dcore s : ℝ) : Prop :=
  Ns = c * (S / √N) ^ (0.2 : ℝ) * (1 + Dcore / D) * √cot * s ^ (0.1 : ℝ)

/-- Kramer & Burcharth (2003), low-crested structures with freeboard `Rc` -/
def KramerBurcharth (Ns Rc D : ℝ) : Prop := Ns = 1.36 - 0.23 * (Rc / D) + 0.06 * (Rc / D) ^ 2

/-- Gerding (1993), toe berms -/
def Gerding (Ns ht D Nod : ℝ) : Prop := Ns = (0.24 * (ht / D) + 1.6) * Nod ^ (0.15 : ℝ)

/-- Van der Meer (1998), toe berms -/
def VanDerMeerToe (Ns ht h Nod : ℝ) : Prop := Ns = (6.2 * (ht / h) ^ (2.7 : ℝ) + 2) * Nod ^ (0.15 : ℝ)

/-- deep-water wavelength -/
def deepWavelength (T g : ℝ) : ℝ := g * T ^ 2 / (2 * Real.pi)

/-- Van Gent & Van der Werf (2014): velocity above the toe by linear wave theory, with the deep-water
wavelength -/
def toeVelocity (H T ht g : ℝ) : ℝ :=
  Real.pi * H / T * (1 / Real.sinh (2 * Real.pi * ht / deepWavelength T g))

/-- Van Gent & Van der Werf (2014), toe berms of width `B` and thickness `t`; `k` = 0.032 -/
def VanGentToe (k Ns B t H u g Nod : ℝ) : Prop :=
  Nod = k * (t / H) * (B / H) ^ (0.3 : ℝ) * Ns ^ 3 * (u / √(g * H))

/-- Etemad-Shahidi et al. (2021), toe berms; published 1.2, 11.2, 7/4, 1/6, 2/5, -1/10 and 3.7 -/
def EtemadToe (c1 c2 c3 c4 c5 c6 c7 Ns ht h s Nod B H m : ℝ) : Prop :=
  Ns = c1 + c2 * (ht / h) ^ c3 * s ^ c4 * Nod ^ c5 * (B / H) ^ c6 * (1 - c7 * m)

/-- Van Gent (2001): run-up level `z` exceeded by a part of the waves, with reduction factor `f`; the
second coefficient of the branch for surging waves follows from continuity of value and slope -/
def VanGentRunup (c0 c1 xi f H z : ℝ) : Prop :=
  (xi ≤ c1 / (2 * c0) → z / (f * H) = c0 * xi) ∧
  (c1 / (2 * c0) ≤ xi → z / (f * H) = c1 - c1 ^ 2 / (4 * c0) / xi)

/-- Van Gent (2002): velocity on the crest, at the rear side of a crest of width `B` -/
def crestVelocity (z Rc B H gf gc g : ℝ) : ℝ :=
  1.7 * √(g * gc) * √((z - Rc) / gf) / (1 + 0.1 * (B / H))

/-- Van Gent (2007), rear slope below a crest element -/
def VanGentRear (k S N cotphi z Rc Rfront Rrear H D : ℝ) : Prop :=
  S / √N = k * cotphi ^ (1.25 : ℝ) * ((z - Rc) / D) ^ 2 * √(Rc / D) *
    (1 + 5 * Rrear / (Rc - Rrear)) / (1 + Rfront / H)

/-- Van Gent & Pozueta (2004), rear slope; `k` = 0.008 -/
def VanGentPozueta (k S N cotphi u T Delta Rrear H D : ℝ) : Prop :=
  D = k * (S / √N) ^ (-(1 : ℝ) / 6) * (u * T / √Delta) * cotphi ^ (-(2.5 : ℝ) / 6) *
    (1 + 10 * Real.exp (-Rrear / H)) ^ ((1 : ℝ) / 6)

/-! ### wave transmission and set-up -/

/-- d'Angremond et al. (1996): transmission over a low crest, limited to 0.075 .. 0.8; `C` is 0.64 for
permeable and 0.80 for impermeable structures. `r`, `b` are freeboard and crest width over wave height -/
def dAngremond (C r b xi : ℝ) : ℝ :=
  max 0.075 (min 0.8 (-0.4 * r + C * b ^ (-0.31 : ℝ) * (1 - Real.exp (-xi / 2))))

/-- Briganti et al. (2003): d'Angremond for crests narrower than ten wave heights, a recalibration for
wide crests, limited to 0.05 .. -0.006 b + 0.93 -/
def briganti (r b xi : ℝ) : ℝ :=
  if b < 10 then dAngremond 0.64 r b xi
  else max 0.05 (min (-0.006 * b + 0.93)
    (-0.35 * r + 0.51 * b ^ (-0.65 : ℝ) * (1 - Real.exp (-0.41 * xi))))

/-- Goda (1967): transmission over a vertical breakwater in the transition range -/
def goda (a b r : ℝ) : ℝ := (1 - Real.sin (Real.pi / 2 * ((r + b) / a))) / 2

/-- Van Gent et al. (2023): transmission coefficient; `r` freeboard over wave height, `w` crest width
over deep-water wavelength -/
def vanGent2023 (c1 c2 c3 c4 c5 r w : ℝ) : ℝ := c5 - c1 * Real.tanh (r + c2 * w ^ c3 + c4)

/-- Van Gent et al. (2023): the coefficients of the five types of structure -/
def transmissionTypes : List (String × ℝ × ℝ × ℝ) :=
  [("impermeable", 0.47, 0, 0.5), ("permeable", 0.43, -0.25, 0.5), ("perforated", 0.13, -0.15, 0.82),
   ("perforated_with_screen", 0.40, -0.15, 0.5), ("perforated_with_perforated_screen", 0.17, -0.15, 0.76)]

/-! ### wave run-up and overtopping -/

/-- TAW (2002) section 2.7: roughness counts fully up to `γ_b ξ` = 1.8 and not at all from 10 on, linear
in between -/
def roughness (gf p : ℝ) : ℝ := if p < 1.8 then gf else min 1 (gf + (p - 1.8) * (1 - gf) / (10 - 1.8))

/-- obliqueness: linear in the angle up to 80 degrees -/
def obliqueness (c beta : ℝ) : ℝ := 1 - c * min |beta| 80

/-- TAW (2002), EurOtop (2018): 2% run-up over wave height is the smaller of
`c1 γ_b γ_f γ_β ξ` and `c4 γ_f γ_β (c2 - c3/√ξ)` -/
def runup (c1 c2 c3 c4 gb gf gB xi : ℝ) : ℝ :=
  min (c1 * gb * gf * gB * xi) (c4 * gf * gB * (c2 - c3 / √xi))

/-- TAW (2002) eqs. 24 and 25: overtopping discharge over `√(g H³)`; `r` is freeboard over wave height -/
def breakingDischarge (c1 cot gb gf gB gv xi r : ℝ) : ℝ :=
  0.067 / √(1 / cot) * gb * xi * Real.exp (-c1 * r / (xi * gb * gf * gB * gv))
@[inherit_doc breakingDischarge]
def maximumDischarge (c2 c3 gf gB r : ℝ) : ℝ := c2 * Real.exp (-c3 * r / (gf * gB))

/-- EurOtop (2018) eqs. 5.10 and 5.11 -/
def breakingDischarge2018 (c1 c4 cot gb gf gB gv xi r : ℝ) : ℝ :=
  c4 / √(1 / cot) * gb * xi * Real.exp (-(c1 * r / (xi * gb * gf * gB * gv)) ^ (1.3 : ℝ))
@[inherit_doc breakingDischarge2018]
def maximumDischarge2018 (c2 c3 gf gB gs r : ℝ) : ℝ :=
  c2 * Real.exp (-(c3 * r / (gf * gB * gs)) ^ (1.3 : ℝ))

/-- De Ridder et al. (2024) eq. 24 and De Ridder et al. (2026) eq. 28; `s` is the short-wave steepness -/
def deRidder (a b e gf r s : ℝ) : ℝ := a * Real.exp (-b * s ^ e * (r / gf))

/-- Van Gent (2021) for caissons: `r` is freeboard, `w` swell height over wave height -/
def caisson (a b c gB gp cw r w : ℝ) : ℝ := a * Real.exp (-(b / (gB * gp)) * (r - cw * w) ^ c)

/-- Van Gent (2021): exponent; short-crested waves or crossing seas?; parapet?; then `a`, `b`, `c_β`, `γ_p`.
There are no coefficients for a parapet in long-crested waves -/
def caissonTable : List (ℝ × Bool × Bool × ℝ × ℝ × ℝ × ℝ) :=
  [(1, true, false, 0.2, 3.9, 0.75, 1), (1, true, true, 0.2, 3.9, 0.75, 0.89),
   (1, false, false, 0.2, 4, 0.8, 1),
   (1.3, true, false, 0.047, 2.57, 0.70, 1), (1.3, true, true, 0.047, 2.57, 0.70, 0.85),
   (1.3, false, false, 0.047, 2.7, 0.8, 1)]

/-- Van Gent (2021, 2025), De Ridder et al. (2026): obliqueness factor, angle in degrees -/
def obliqueCos (c beta : ℝ) : ℝ := (1 - c) * Real.cos (beta * (Real.pi / 180)) ^ 2 + c

/-- Van Gent et al. (2025): overtopping of slopes, breaking waves and maximum; `G` is the product of the
influence factors, `r` freeboard and `w` swell height over wave height -/
def slopeBreaking2025 (cot G xi r w : ℝ) : ℝ := 6.8 / cot * Real.exp (-5 * (r - 0.4 * w) / (G * xi))
@[inherit_doc slopeBreaking2025]
def slopeMaximum2025 (cot G xi r w : ℝ) : ℝ :=
  0.8 / cot * Real.exp (-2.5 * (r - 0.4 * w) / (G * xi ^ (0.24 : ℝ)))

/-- Van Gent et al. (2025): friction factor; `d` is stone size over wave height, `s` steepness -/
def friction2025 (d s : ℝ) : ℝ :=
  if 0.012 ≤ s then 1 - 0.7 * d ^ (0.05 : ℝ)
  else 1 - 0.7 * d ^ (0.05 : ℝ) + 12 * (0.012 - s) * (0.7 * d ^ (0.05 : ℝ))

/-- Van Gent et al. (2025): berm factor; `b` is berm width over wave height, `l` the ratio of berm level
below the armour crest to armour crest level -/
def berm2025 (s b l : ℝ) : ℝ := 1 - 18 * (s * b) ^ (1.3 : ℝ) * (1 - 0.34 * (l / s) ^ (0.2 : ℝ))

/-! ### caissons and crest walls -/

/-- Tanimoto et al. (1982), Takahashi et al. (1990): wave-current parameter of a caisson toe with width `B`
at depth `h`, wave number `k`, angle in radians -/
def toeKappa (k h B beta : ℝ) : ℝ :=
  2 * k * h / Real.sinh (2 * k * h) *
    Max.max (0.45 * Real.sin beta ^ 2 * Real.cos (k * B * Real.cos beta) ^ 2)
      (Real.cos beta ^ 2 * Real.sin (k * B * Real.cos beta) ^ 2)

/-- Takahashi et al. (1990): stability number of a caisson toe; `r` is depth above the toe over wave height -/
def toeStability (kappa r : ℝ) : ℝ :=
  Max.max 1.8 (1.3 * ((1 - kappa) / kappa ^ ((1 : ℝ) / 3)) * r +
    1.8 * Real.exp (-1.5 * ((1 - kappa) ^ 2 / kappa ^ ((1 : ℝ) / 3)) * r))

/-- Goda (1985): the angle is rotated by 15 degrees towards perpendicular -/
def godaAngle (beta : ℝ) : ℝ := Max.max 0 (|beta| - 15) * (Real.pi / 180)

/-- Goda (1985): pressure coefficients; `k` wave number, `h` depth, `hb` depth five wave heights seaward,
`d` depth above the toe, `h'` height of the wall below water -/
def godaAlpha1 (k h : ℝ) : ℝ := 0.6 + 1 / 2 * (2 * k * h / Real.sinh (2 * k * h)) ^ 2
@[inherit_doc godaAlpha1]
def godaAlpha2 (hb d HD : ℝ) : ℝ := min ((hb - d) / (3 * hb) * (HD / d) ^ 2) (2 * d / HD)
@[inherit_doc godaAlpha1]
def godaAlpha3 (k h h' : ℝ) : ℝ := 1 - h' / h * (1 - 1 / Real.cosh (k * h))

/-- Goda (1985): pressures over `ρ g HD` -/
def godaP1 (b a1 a2 : ℝ) : ℝ := 1 / 2 * (1 + Real.cos b) * (a1 + a2 * Real.cos b ^ 2)
@[inherit_doc godaP1]
def godaPu (b a1 a3 : ℝ) : ℝ := 1 / 2 * (1 + Real.cos b) * a1 * a3

/-- Van Gent and Van der Werf (2019): horizontal and vertical 2% force on a crest wall -/
def wallHorizontal (cF rho g Hwall z Ac : ℝ) : ℝ := Max.max 0 (cF * (rho * g) * Hwall * (z - Ac))
@[inherit_doc wallHorizontal]
def wallVertical (cF cFb rho g Bwall z Ac Fb : ℝ) : ℝ :=
  Max.max 0 (cF * (rho * g) * Bwall * (z - 0.75 * Ac) * (1 - (Fb / Ac) ^ cFb))

end Published

end
