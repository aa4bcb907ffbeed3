# Design of the formal model

Subject: the python package in `/repo/deltares_coastal_structures_toolbox/functions` (pinned). It is a
library of empirical formulas: every public function maps floats (or NumPy arrays, elementwise) to
floats, possibly raising and possibly emitting warnings. There is no hidden state, so the model is a
collection of total functions.

## How the code is modelled

* **Numbers** (`Verif/Py/Float.lean`): type `PF` = NaN, ±inf, or `fin x` with `x` an exact real.
  Special values follow NumPy float64 (NaN propagation, `x/0 = ±inf`, `0/0 = nan`, comparisons with
  NaN false, `sqrt`/`log`/fractional powers of negatives NaN). So the `np.nan` "argument not given"
  sentinels and `np.isnan` tests of the code are modelled literally, and a theorem whose conclusion is
  `f … = fin r` *also* says that no domain error occurred on the way. Lean's totalised `x/0 = 0`,
  `sqrt (-1) = 0`, … can therefore never make a theorem true by accident: they are not reachable from
  the model's operators.
* **Effects** (`Verif/Py/Monad.lean`): `PyM α` = list of warnings issued + `Except PyErr α`.
* **Arguments**: python keyword defaults are Lean default arguments (`np.nan` → `nan`).
* **Strings**: `str.lower()`/`strip()` modelled by Lean's `String` functions or, where noted, by a
  normalised-string parameter.
* **Loops**: `while … and n_iter < max_iter` → structural recursion on the remaining iterations.
  Loops without a working limit → a step function plus a theorem that the loop exits after finitely
  many steps (or the refutation).
* **External code**: the dispersion solver `deltares_wave_toolbox…disper` is a parameter (an arbitrary
  function); theorems state what they need of it.
* **Numbers and arrays**: `Verif/Model/*` is the code called with numbers. `Verif/Array/*` (namespace `Arr`)
  is the same code called with numbers and one-dimensional arrays of one length `n` in any mixture
  (`Verif/Py/Array.lean`): broadcasting, `np.where`, `np.any`/`np.all`, `if` on an array (raises unless it
  has one entry), `np.min([a, b], axis=0)` (raises for an array and a number), `np.vectorize` with its type
  of the first result, loops that stop on `np.max(diff)`. C83-C85 relate the two, so that the theorems on
  single cases carry over to arrays exactly where the code works on arrays.

* **Recursion in the code**: the TAW run-up functions call each other (run-up → berm factor → average
  slope → run-up). The model cuts the mutual recursion off after two nested calls; `runup_depth_stable`
  proves that every greater depth gives the same answer.
* **Rounding helpers**: `np.floor`, `np.round` act on exact reals. In float64 a quotient such as
  `9.7/0.1` can fall just below the integer, so a floor to tenths may return one tenth less than the
  model; statements about floors hold for the exact quotient.
* **Written files**: a file is its list of lines; how a float becomes text is a parameter (an arbitrary
  function), so statements hold for every text form. The directory, `open` and pandas are not modelled.

Layout:

| directory / file | content |
|---|---|
| `Verif/Py/*` | number type, effects, loops, lists, tables |
| `Verif/Model/*` | the code, each definition citing file and lines |
| `Verif/Array/*` | the same code called with arrays |
| `Verif/Spec.lean`, `SpecReal.lean` | words used in statements: inverse, monotone, fixed point, closeness |
| `Verif/SpecRange.lean` | `WarnsExactly`: a call's warnings are exactly those of a list of limits |
| `Verif/SpecTable.lean` | what it means that a file holds the records under its columns |
| `Verif/SpecFormula.lean` | the published formulas on real numbers, written without reference to the model |
| `Verif/SpecScale.lean` | the factors of Froude's scale law |
| `Verif/SpecArray.lean` | what it means that a call on arrays agrees with the calls for the single cases |
| `Verif/Lemmas/*` | helpers for proofs |
| `Verif/Props/*` | the property theorems `Cnn_…`, each with a non-vacuity `example` |

The Spec files import nothing of the model but the number type and the effects, so a statement cannot
become true because a model helper is wrong in the same way.

Two-step proof pattern: (1) an evaluation lemma shows that on admissible finite inputs the model
returns `fin (closed formula)`; (2) the property is proved on closed formulas (real analysis), and
stated on the model.

## Trusted base

* Lean 4.33 kernel; axioms `propext`, `Classical.choice`, `Quot.sound` only (checked by
  `#print axioms` on every property theorem). No `sorry`, no `native_decide`, no added axioms.
* The reading of the python source into the model (definitions cite file and lines).
* NumPy's special-value semantics as written in `Verif/Py/Float.lean`.
* **Not modelled**: floating-point rounding, overflow and underflow, signed zero; integer-typed
  arguments (treated as floats, but for the two places under C87); memory layout/dtype (but for the whole-number results of `np.vectorize`); arrays of more than one dimension or
  of different lengths, empty arrays; array calls of the functions named under C83; the text of warnings beyond variable name,
  value and bounds, and the order in which two checks warn where the statement is about the set; Python-float (non-NumPy) `ZeroDivisionError`/complex results, which can only occur where the
  model gives `nan`/`±inf`; the dispersion solver; pandas/file-system behaviour.

## Plan per property

| id | what is modelled | how proved |
|----|------------------|-----------|
| C01 | `check_variable_validity_range` on lists | induction over the list |
| C02, C03 | conversions | algebra on reals, `rpow` |
| C04, C05 | selection helpers with errors and warnings | case analysis on given/omitted |
| C06 | steepness, Iribarren | monotonicity lemmas |
| C07–C09 | hudson1959.py complete | algebra; case analysis over the table's intervals |
| C10 | the six wrappers | reduce to C07 |
| C11 | `np.interp` over the table, floor to 0.1 | piecewise-linear monotonicity; `Int.floor` |
| C12–C14 | xbloc.py, xblocplus.py | algebra, case analysis; C14 expected to be refuted |
| C15, C16 | cube formulas | algebra with `rpow` |
| C17–C20, C26 | Van der Meer family, both regimes | log-substitution for products of powers; crossing argument at the critical Iribarren number for the Hs solvers |
| C21, C22 | etemadshahidi2020.py | as above; contraction in log-space for the iteration |
| C23, C24 | jumelet2024.py, scaravaglione2025.py | algebra |
| C25 | Kramer–Burcharth loops | residual bound by induction on iterations; periodic orbit as counterexample for silent non-convergence |
| C27–C30 | toe formulas | algebra |
| C31 | Hs loop | monotone bounded contraction; loop never counts iterations |
| C32 | Takahashi | max with 1.8 |
| C33, C34 | rear-side formulas | algebra; refute where constants mismatch |
| C35–C37 | goda1985.py, wavelength as parameter | inequalities |
| C38 | crest wall | inequalities; refute for large angles if unbounded |
| C39–C43 | transmission formulas | monotonicity and clipping |
| C44–C48, C58 | run-up formulas | case analysis; induction for the iteration |
| C49–C56 | overtopping pairs q/Rc | inverse of a minimum of decreasing functions; refute where parameters are dropped |
| C57 | crest velocity | algebra |
| C59 | column order of the written tables; file system and pandas not modelled | lists of named columns |
| C60 | validity checks of all formulas, as called by the calculations | `WarnsExactly`: membership in the warning list, both directions |
| C61, C62 | Takahashi caisson toe: table search for the height, stepping search for the depth; dispersion solver a parameter | loop invariants over the search grid; the stability number is antitone and Lipschitz in the wave height, so the best grid point is near the only solution; refutations with concrete inputs |
| C63, C66 | height iterations of the two rear slope formulas | the step is a contraction or monotone map; existence, uniqueness, error bound by induction; one solution for every crest width by the intermediate value theorem; refutation for wide crests by an exact cycle of two heights |
| C64, C65 | run-up and damage of Van Gent (2001, 2007) | evaluation; refutation |
| C67–C71 | Goda pressures, forces, moments, reactions, impulsive flag | interval integrals of the pressure diagram; monotonicity of products |
| C72 | crest wall loads at two exceedance levels | comparison of closed forms |
| C73 | Briganti transmission against crest width | derivative-free monotonicity; refutation |
| C74, C75 | defaults and equal slopes in TAW run-up/overtopping | the iteration stops at its first level; refutation |
| C76, C77 | factors of Van Gent (2021, 2025), De Ridder (2026) | monotonicity of cos², powers |
| C78 | every public calculation against the printed formula | evaluation lemma, then algebra between independent real formulas |
| C79 | every public validity check called directly | `WarnsExactly` |
| C80 | run-up and overtopping under uniformly worse conditions, berm factors included | monotonicity in all variables at once; refutations where the roughness factor jumps |
| C81 | the default value of every optional argument | definitional unfolding (`rfl`); the values are written out in the statement |
| C82 | all calculation functions under Froude scaling; the dispersion solver is a parameter assumed to follow the scale; tolerances are lengths | calculus of dimensions (`Lemmas/Scale.lean`): factors are moved outward through every operation, NaN and infinities included; loops by a simulation lemma; searches and iterations with fixed lengths in them through the one solution they approach, which follows the scale |
| C83 | every calculation function called with arrays and numbers mixed; not modelled with arrays: the writers of neural network input; modelled but without theorem: composite slopes of TAW/EurOtop with an array of periods or factors only | one case of every NumPy operation is the operation on that case (`cases_simp`); a relation `Rel` between the call and the single calls is carried through binds, branches and checks; refutations where the code does not work on arrays |
| C84 | the loops of Kramer & Burcharth, Jumelet, both rear slope wave heights, Etemad-Shahidi et al. (2020), Van Gent et al. (2025) crest levels with wind, the toe wave height of Etemad-Shahidi et al. (2021), with arrays | simulation: the array loop state read at case i is the single loop state after the same number of passes; `np.max` of changes; monotone contraction for Etemad-Shahidi |
| C85 | the validity checks with arrays | the loop over the values of `check_variable_validity_range`, membership of warnings |
| C86 | all loops with a pass limit, as functions of limit and tolerance (`SpecIter.lean`) | the call with tolerance -1 makes exactly N passes; the loop state after k passes does not depend on the limit |
| C87 | `Model/WholeNumbers.lean`: the two places of the package whose outcome depends on a number being an `int` (`np.power(Tmm10, -2)` in jumelet2024.py 297, `isinstance(T, float)` in core_physics.py 399) | refinement for floats; refutation for ints |
| C88 | run-up iteration of TAW (2002) and EurOtop (2018) on two slopes, without berm width or with a berm at or below the water line | loop invariant: every level is the run-up on some slope in between; then monotonicity in the slope (C80) |
| C89 | the same iteration as a fixed point problem | the pass is a contraction in the logarithm of the level (mean value theorem for the average slope, elasticity of the run-up formulas); a posteriori error bound from the stopping rule |
| C90 | every function with a choice between nominal diameter and mass (`SpecMass.lean`) | the choice is the first step that looks at the two arguments; the rest of the function follows through the monad, warnings included |
| C91 | NaN through every scalar function of the formula modules, argument by argument | NaN runs through the NumPy operations; branches by case split; searches by loop invariant. Arguments that may be left out (alternatives such as `Dn50`/`M50`) are not counted as missing; exponents are non-zero reals because NumPy's `x**0` is 1 also for NaN |
| C92 | structural functions compared at two inputs ordered argument by argument (`SpecWorse.lean`) | the published relation of C78 at both inputs, written as `A·n^p = B` with `A` falling and `B` rising; joint in all arguments, strict where one changes; refutations by explicit pairs (rounding in Jumelet, jump at ξ = 1.8 in Etemad-Shahidi 2020, squared distance to the crest and rear slope exponent in Van Gent 2007, parabola of Kramer & Burcharth); solutions of iterations by the strict monotonicity of the damage, returned numbers by the error bounds of C22, C25, C31, C63 and C66; Takahashi depths by the limits of C96; Jumelet wave heights by the relation of C78 solved for the height |
| C93 | the tables `unit_properties` as lists of keys and entries, Python's lookup, and the design functions they feed (`Model/UnitTables.lean`) | reading gives a number; larger KD gives a smaller unit by C92; graphs by C11; Xbloc by C78 |
| C94 | the overtopping and run-up functions with `use_best_fit`, `sigma` and `design_calculation` as already modelled; two runs compared | the inversion lemmas of C49-C52 give both runs as two exponentials (or their inverses) with the same scale; monotone in the coefficients for levels at or above the water level, reversed below; with wind the self-consistent level of C104 rises as the allowed discharge falls (intermediate values and uniqueness), and the error bounds of C104 carry this over to the results; on composite slopes the two self-consistent run-up levels are ordered by the contraction of C89 (Props/DesignComposite); for discharges the average slopes of the two variants are within 8 %, less than the coefficients differ (Props/DesignCompositeQ) |
| C95 | the functions as already modelled, every input a continuous function on an arbitrary topological space (`SpecContinuous.lean`) | the closed forms of C78; piecewise formulas rewritten with min and max where the branches meet, one-sided limits where they do not; iterations through the solution they approach, which contracts in logarithms or is monotone |
| C96 | the functions as already modelled, the design parameter ranging over all values (`SpecDesign.lean`) | the inverse pairs (C01–C56) with strict monotonicity of the damage or discharge; where the pair is not exact, the closed forms; Takahashi depths: the first crossing of C62 in terms of the designed size (Props/DesignTakahashiDepth); Jumelet heights: the relations of C78 for height and damage divided (Props/DesignJumeletHeight) |
| C97 | the functions as already modelled, one input multiplied by k (`SpecSensitivity.lean`) | the closed forms of C78, built from powers, minima and maxima; a calculus of power bounds (products, quotients, powers, minima, maxima, sums) whose bounds survive the change of branch; a formula with such bounds is continuous, so the jumps of C95 refute it |
| C98 | the functions as already modelled, one input ranging over all positive values (`SpecOneAnswer.lean`) | the power bounds of C97 give continuity, strict monotonicity and the limits 0 and infinity; intermediate value theorem; where the powers have different signs on the two branches, the maximum at the change of branch and two values below it; discharge over wave height grows at least in proportion, so that discharge and wave height belong together |
| C99 | the overtopping functions as already modelled, four crest levels (`SpecRaise.lean`) | the logarithm of the discharge is concave in the crest level: closed under minimum, products with constants and powers; the exponents 1 and 1.3 give linear or convex exponents; with the crest wall factor of each level the exponent is a quadratic over a linear function of the level, convex in low swell and concave in high swell (refuted there); refuted with wind for low walls by comparing three levels |
| C100 | the overtopping functions of Van Gent et al. (2025), Van Gent (2021) and TAW (2002) with their influence factors (`SpecFeature.lean`) | both formulas decrease in (Rc - 0.4 Hswell)/γ; the sign of the change of this ratio with the wall height, berm width or stone size; negative factors mirror the formulas |
| C101 | the overtopping functions as already modelled, crest level or wave height taken to its limit (`SpecLimit.lean`) | every discharge is below one exponential that falls with the crest level; with wind, x·exp(-k x) goes to zero; ceilings because the exponent is not positive; below the swell level exp(k/Hm0) beats the root of Hm0³ |
| C102 | toe, rear slope and armour stability functions and run-up as already modelled (`SpecWarned.lean`) | a result that is not positive puts a checked ratio (ht/Dn50, Rc/Hs, damage number, Ns, R/Hm0) outside its range, so that the list of warnings is not empty; for run-up the slope may be composite and the berm factor computed; refuted for Kramer & Burcharth sizes and oblique crest wall forces, and Takahashi sizes of zero |
| C103 | armour, toe, rear slope and set-up functions as already modelled (`SpecWarned.lean`) | silence implies that all checked ratios lie inside their ranges, from which every root and power in the formula is shown to have a real value; refuted for cubes (damage), Etemad-Shahidi et al. (2021) damage, Van der Meer (1998) depth, Van Gent (2007) rear slopes, EurOtop (2018) rubble mounds with crests under water, Van Gent et al. (2025) crest levels with wind, crest wall forces with the run-up exactly at the reference level and Takahashi et al. (1990) with inputs whose result is NaN or infinite in silence. NumPy numbers: with plain Python floats `**` gives a complex number where the model says NaN; NumPy's own RuntimeWarning is no warning of the toolbox and is not modelled |
| C104 | the wind loop of `calculate_dimensionless_crest_freeboard` by Van Gent et al. (2025), every number of passes and every tolerance | the published equation (formula for breaking waves times wind factor equals required discharge) reads exp(k(R−s)) = 1+u(R−a); intermediate value and convexity give exactly one solution above the armour crest; each pass is a concave increasing map, so the estimates rise to it and the distance shrinks by at least a fixed factor; the loop stops on the tolerance or the limit. Gravity 9.81 and given influence factors |
| C105 | the same iteration with a berm at or below the water line; the berm factor then does not depend on the run-up level | fixed points of ordered contractions are ordered; each result lies within 0.1 mm of its fixed point (C89) |
| C106 | the same iteration with the transition outside the zone from 1.5 Hm0 below the water line to the run-up level | average slope equals the slope in reach plus an extrapolation term of known sign; loop invariant; strict monotonicity of the run-up in the slope |
| C107 | the two-step iteration for the berm factor, berm at any level | the factor is 1 at the first run-up level, so the second run-up level is the same and the factor stays 1 |

A property the code violates is refuted in the model by a theorem with a concrete witness
(`Cnn_…_refuted`) and kept as `partial` with the strongest true `_partial` theorem.

## What the proofs found in the code

Each item is a theorem about the model (`_refuted`, or a `_partial` that shows the exact behaviour).

* Arguments not handed on: gravity in the inverse of Van der Meer height (C18), TAW/EurOtop/Van Gent
  (2025)/De Ridder freeboards (C49, C51, C54, C55); water density in Etemad-Shahidi and Jumelet size
  functions (C21, C23); coefficients of Van Gent (2001) run-up (C64) and of the Van Gent & Van der Werf toe
  size (C29); `gamma_beta` in the run-up functions (C48); `gamma_b` in EurOtop (2018) (C52);
  `use_best_fit` in the EurOtop (2018) crest level on two slopes, which comes out too low (C52).
* Constants that do not match: 0.32 against 0.032 = 0.3175³ (C29); 0.036 against 0.00025 (C33).
* Discontinuities: Etemad-Shahidi at ξ = 1.8 (C21), Briganti at its upper limit (C41) and at ten wave
  heights (C73), roughness above ξ = 10 (C58, C80), roughness with a berm at γ_b ξ = 1.8, so that higher waves
  run up less (C80).
* Loops: `n_iter` never counted (C31); one pass too many (C47); non-convergence not reported (C25);
  endless search (C62); empty table (C61); NaN at `Rc2_front = 0` (C63).
* Validity checks: never called (Van Gent 2023), always failing on a ratio the user never gives (Van der Meer 2021), called without a quantity
  (steepness of several formulas), the wrong quantity (Van Gent 2025 armour width), wrong grouping of
  `Hs/Delta*Dn50` (Van der Meer 1998 toe), TypeError (Etemad-Shahidi 2021 toe check) (C60, C79).
* Forces: negative oblique crest wall force (C38), pressure below the base negative (C37), 0.1 % load
  below the 2 % load for steep waves (C72).
* Arrays (C83-C85): an array of periods with one depth gives the wave length of the first period for all (Van Gent
  2023 transmission, Goda, Takahashi); Goda (1967) rounds all coefficients down to whole numbers if the first case
  is deeply submerged; the TAW berm factor, the Xbloc factors and several others raise on every array; EurOtop
  (2018) raises on an array of periods alone; Van Gent et al. (2025) crest levels with wind raise on an array of
  armour crest levels alone; both searches of Takahashi raise on arrays of anything but periods; composite slopes (TAW, EurOtop 2018) raise on
  every array of wave heights, slopes or berms; one case of 100 %
  damage raises for all; one missing case ends an
  iteration for all cases and silences the validity checks of all cases.
* Berms of Van Gent et al. (2025) increase overtopping in long waves, and by a negative berm factor if they are wide and
  near the crest; both within the range of validity and without a warning (C100).
* Sizes by Kramer & Burcharth (2004) and crest wall forces in oblique waves can be negative without any warning (C102).
* NaN or infinite results without any warning of the toolbox: cube damage, Etemad-Shahidi et al. (2021) damage, Van der Meer (1998) depth, Van Gent (2007) rear slope sizes with a rear crest element above the crest, EurOtop (2018) discharges of rubble mounds with the crest under water and freeboards for discharges beyond the maximum, Van Gent et al. (2025) crest levels with wind for high armour crests, crest wall forces of oblique waves with the run-up exactly at the reference level, Takahashi et al. (1990) for toes half a wave length wide (stability number infinite, stone size zero) (C102, C103).
* De Ridder et al. (2024, 2026): over a crest below the part of the infragravity wave height that is subtracted, the discharge
  grows without bound as the short waves vanish at fixed steepness (C101).
* Lengths that do not scale (C82): the tolerance 1e-4 m of the composite slope, the start value 0.5 m of the
  Van Gent and Pozueta height, the search steps of Takahashi, and checks on metres or seconds (cubes, Van
  der Meer 1998 toe, Goda).
* Damage when the run-up does not reach the crest (C65); 100 % damage raises (C08); a 1:1.33 slope gets
  the factor 1.25 (C14); swell or wall factor left out gives NaN (C53, C54).
* Missing values turned into numbers (C91): Goda (1967) coefficients 0.03 for NaN, Xbloc correction factors 1.0,
  storm duration factor of Van der Meer (1988) 1.0, the plunging coefficient of Van der Meer ignored on slopes
  steeper than 1:4 (surging formula for plunging waves), period and slope of the EurOtop (2007) rubble mound formula
  ignored, a missing tolerance in Kramer & Burcharth returns the initial guess; Takahashi's height search never ends
  when a value is missing.
* Worse conditions that look safer (C92): Jumelet (2024) rounds the number of plunging waves, so that a slightly higher
  wave can do less damage; a longer period passes the jump at ξ = 1.8 of Etemad-Shahidi (2020) with less damage; in
  Van Gent (2007) damage falls with the wave height below the crest, rises with the crest level for low crests, and a
  gentler rear slope is damaged more (the other rear slope formula says less); a lower armour crest can take away the
  vertical force on a crest wall.
* Design values (C94): for a crest below the water level TAW (2002) and EurOtop (2007) give *less* overtopping with
  design values than with the best fit. `sigma` of TAW (2002) is added to the coefficients, so `sigma = 1` gives less
  overtopping than the best fit; design values correspond to about `sigma = -0.9`. Van Gent (2025) raises the
  dimensionless discharge to the power 0.857, which lowers it where it exceeds 1; its crest level for a required discharge
  does not change with `design_calculation` where the maximum formula governs, so that the design discharge over that
  crest exceeds the required one.
* Jumps (C95): Van der Meer (1988) jumps by some 2.5 % at 5000 waves, where the correction for long storms starts; Van
  der Meer (1988) and its modification at slopes of 1:4, from where on the formula for plunging waves is taken for
  surging waves too; Etemad-Shahidi et al. (2020) at Iribarren number 1.8, both damage and wave height; Jumelet et al. (2024) because the number of
  plunging waves is rounded; Briganti et al. (2003) at crests of ten wave heights; Goda (1967) from 0 to 0.03 at the
  upper end of the transition; run-up and overtopping by TAW (2002) on rough slopes at Iribarren number 10 (the roughness
  factor returns from 1 to the given value) and, with a berm, where the Iribarren number times the berm factor is 1.8
  (the correction starts from the Iribarren number alone); the crest wall factor from 1 to 0.999 at 45 degrees; the
  obliqueness factor of EurOtop (2018) where the roughness factor passes 0.6; the force on a crest wall in oblique waves,
  negative just below the armour crest that equals the run-up level, NaN there and zero above (`SpecBreak.lean`).
* One answer (C98): on slopes steeper than 1:4 the damage by the Van der Meer formulas (1988, modified, 2021) has a
  largest value over all wave periods, at the period where plunging changes to surging; every smaller damage belongs to
  two periods, so a period cannot be back-calculated from damage. The damage by Van der Meer (1988) is bounded in the
  number of waves. Shallow water above a caisson toe (Takahashi 1990) needs stones of Hs/(1.8 Delta) at every depth.
* Wind (C80): with wind, Van Gent et al. (2025) multiply the discharge q by 1 + 0.075·(Rc − Ac)/Hm0·q^(−0.3). Where q is
  small (dimensionless q of the order 1e-6 for rock slopes), putting a wall on the armour crest increases the computed
  discharge; every slope has crest levels from where on this happens. The crest level for a required discharge with wind
  (C54) is too low whenever it has a wall: the freeboard function takes the wind factor at the required discharge instead
  of the smaller discharge without wind, and its maximum formula has no wind factor.
* Limits (C96): the size returned for rear slopes by Van Gent (2007) has 1.6 to 1.7 % more damage than allowed (the
  coefficients 0.00025 and 0.036 are rounded independently); the size by Van Gent & Van der Werf (2014) is 0.8 % larger
  than needed. Damage functions return NaN on the safe side: Van der Meer (1998) toes and Etemad-Shahidi et al. (2021)
  below the start of damage, double layers of cubes with large cubes; a check `damage <= allowed` then fails for designs
  that are safe. TAW (2002) crests with gravity above 9.81 and Van Gent (2025) design crests overtop more than asked where
  the maximum formula governs; EurOtop (2018) crests of rough slopes are higher than needed where the roughness correction
  works. The depth above a caisson toe by Takahashi (1990) is searched for a change of stability from the one at Hs/20
  on: if the stones are already stable there, the depth returned is the first one where they are not.
* Accropode (C93): the table gives KD = 12 for breaking waves on the trunk, the graph in the same module falls below
  12 on seabeds steeper than 3.26 % (8 at 10 %); units sized with the table are then too light by the graph. For cubes on
  a head under breaking waves the table holds `None`, which ends in a TypeError.

Seen while reading, but not decidable from the source (no theorem): the rows of the Hudson damage table
may be interchanged with respect to the Shore Protection Manual; the coefficients 4.3 and 1.07 of the
EurOtop (2018) run-up refer to an erratum; the core-loc mass and height functions call no check.
