# Formal model of catima in Lean 4

This directory holds a machine-checked model of the catima library (energy loss of
ions in matter) and proofs of the properties listed in `properties.jsonl`.
`MANIFEST.json` maps every property to the theorems that settle it.

## Layout

| Path | Content |
| --- | --- |
| `lean/Verif/Model/*` | the model, one Lean definition per C++ function, each citing file and lines in `/repo` |
| `lean/Verif/Spec/*`  | small, independent specifications used in theorem statements |
| `lean/Verif/Lemmas/*` | helper lemmas (not property statements) |
| `lean/Verif/Props/*` | the property theorems, with a concrete `example` beside each |
| `seeded/LOG.jsonl` | record of the mutation tests of the theorems |

## How the code is modelled

**Numbers.** The model is generic in the number type.  The class `Scalar α`
lists the C++ `double` operations the code uses (`+ - * /`, comparisons, `exp`,
`log`, `pow`, `floor`, conversion to and from `int`, decimal literals) and states *no
law*.  A theorem proved for every `Scalar α` therefore also holds for IEEE-754
doubles, bit for bit.  These are the structural theorems: cache, layers, decision
logic, which function is called with which argument.  Some of them need one law, such as
`a == b → a = b`; such laws are explicit hypotheses of the theorem.

Theorems about values (positivity, continuity, exactness) are proved for the instance
`α = ℝ` of the same definitions, with the exact real functions of Mathlib.  They say
nothing about rounding, which is the subject of C99-C103.  Where `ℝ` totalises an operation (`x/0 = 0`,
`sqrt` of a negative number, `log` of a non-positive number), the theorems
carry hypotheses that exclude the totalised case, or prove that the case cannot arise.

A third instance is `α = F.Fl`, the numbers representable in a floating point arithmetic `F : FloatModel`
(`Spec/Rounding.lean`): every operation returns the rounded exact result.  `F` is any rounding that is monotone,
odd, idempotent, exact on integers up to 2^53 and has relative error at most 2^-53 for numbers of size at least 2^-1022;
of `exp`, `log`, `log1p` and `pow` only signs and the bound `exp x ≤ 1` for `x ≤ 0` are assumed.  IEEE-754
binary64 with round-to-nearest satisfies these laws as long as nothing overflows and no NaN arises; that there is such a
rounding, with the binary64 numbers as its values, is a theorem (`floatModel_exists`).  Overflow, infinities and NaNs are
not modelled by this instance, so these theorems (C99-C103) are about executions without them.

NaN is modelled by its laws: `IsNaN nan` (`Spec/NaN.lean`) says that arithmetic with `nan` gives `nan`, comparisons with it are
false and its conversion to `int` is undefined.  The theorems of C104 hold in every arithmetic that has such a value; `NReal`,
the reals with NaN added, is an instance.

The instance `α = Float` is used outside the proofs to run the model against the numbers
in `/repo/tests`; this is a check of the transcription, not part of any proof.

**Undefined behaviour.** Functions that can read out of bounds, read uninitialised
memory, convert an out-of-range `double` to `int`, or fail an `assert` return
`Except Fault`; a fault is a distinct outcome.  `assert` is a fault only when the build
parameter `debug` is set (the CMake default is Release, which defines `NDEBUG`).

**State.** The global cache `_storage`, `default_config` and `catima_defaults` form an
explicit `World` that API functions transform.

**Build options.** The CMake defaults are modelled: REACTIONS on, STORE_SPLINES on,
THIN_TARGET_APPROXIMATION on, ET_CALCULATED_INDEX on, GSL off, GLOBAL off, NUREX off,
VETABLE off.  ET_CALCULATED_INDEX, STORE_SPLINES, VETABLE and
THIN_TARGET_APPROXIMATION are also modelled in the other position where a property mentions them.

## Trusted base

* Lean's kernel and the three standard axioms `propext`, `Classical.choice`,
  `Quot.sound`.  No other axiom, no `sorry`, no `native_decide`, no `bv_decide`.
* The correspondence between the C++ text and the model, documented definition by
  definition in comments.
* Data tables are copied mechanically from the sources by a script.

## Properties: what is modelled and how it is proved

| Id | Property | Model and method |
| --- | --- | --- |
| C01 | Weight fractions of a stoichiometric material sum to one | Real-arithmetic instance; induction over the list of components. |
| C02 | Molar mass and molar fractions of a weight-fraction mixture | Real-arithmetic instance; induction over the list of components. The asymmetry with add_element (which never recomputes M) is stated as a second theorem. |
| C03 | Thickness conversions round-trip | Field reasoning over the reals; frame conditions for every scalar type. |
| C04 | Material equality ignores thickness, tracks composition, and is an equivalence | Reflexivity/symmetry/thickness-independence proved; transitivity is refuted by a density triple and proved when densities are equal. |
| C05 | Layers concatenation | List induction. |
| C06 | Appending a Layers object to itself is well defined | Modelled with an explicit std::vector capacity and iterator validity; refuted for non-empty lists (the loop pushes into the vector it iterates), proved for the empty list. |
| C07 | Number densities are consistent | int/size_t comparison modelled by wrap-around; case analysis. |
| C08 | Cache shape is invariant | Invariant by induction over operation sequences, for every scalar type. |
| C09 | A query returns data for the requested combination | Case analysis on hit/miss with the reachable-state invariant. |
| C10 | Cache hits do not modify the cache | Direct on the model, any scalar type. |
| C11 | First-in-first-out eviction with capacity 60 | Refinement of the ring buffer to a bounded queue (abstract spec), by induction over histories. |
| C12 | No duplicate entries | Invariant by induction over histories; symmetry of == is needed and proved for the reals. |
| C13 | Caching is transparent for range, stopping power, energy loss and range straggling | Invariant: every computed entry's range and straggling tables equal the fresh tables of its key; keys that compare equal give equal tables. Proved for every scalar type in which == implies equality. |
| C14 | Caching is transparent for angular straggling | Refuted (Config == tolerates 1e-3 in scattering_factor); partial: exact when factors are equal, and in general the table is the fresh one scaled by s'/s with |s'-s|<=1e-3. |
| C15 | Tables do not depend on energy, density or thickness of the query | Congruence through the whole stopping-power model, every scalar type. |
| C16 | A query never returns an uncomputed entry | Refuted for the key equal to the default-constructed DataPoint; proved for every other key (partial). |
| C17 | Returned references stay valid | Corollary of the ring-buffer refinement; sharpness (60 misses overwrite it) proved too. |
| C18 | Reset restores the initial cache | Direct, plus observational corollary: every later query recomputes. |
| C19 | STORE_SPLINES does not change results | Both variants modelled; invariant stored spline = spline of stored table. |
| C20 | Energy grid | Real arithmetic with exp. |
| C21 | Grid index lookup is correct and in bounds | Real arithmetic; bounds faults are explicit outcomes in the model. |
| C22 | Calculated and searched index agree | Both variants modelled and compared. |
| C23 | Table interpolation | Inside: proved. Outside: the function returns 0, so the documented saturation is refuted above the table and proved below it for the Lindhard lookup. |
| C24 | The three grid classes are interchangeable | Real arithmetic. |
| C25 | The range interpolant passes through the tabulated points | Algebra on spline coefficients, including the index lookup. |
| C26 | The interpolant is continuous and extrapolates linearly | Mathlib continuity of the piecewise polynomial with exact bracketing index. |
| C27 | derivative() is the derivative of the interpolant | HasDerivAt in Mathlib. |
| C28 | The interpolant is smooth: first derivative continuous at grid points | Refuted: the solver swaps the off-diagonals; exact jump formula and proof of C1 on uniform grids (partial), and second-derivative continuity always. |
| C29 | The tridiagonal solver solves the matrix that was entered | Thomas algorithm proved correct for the matrix with the two off-diagonals exchanged (all N); refutation for the entered matrix; partial for matrices symmetric in that sense. |
| C30 | Interpolation is linear in the data and exact on straight lines | Induction through the forward/backward sweeps. |
| C31 | Gauss-Legendre integration is linear, monotone and antisymmetric | Generic weights/nodes with side conditions checked on the complete coefficient tables. |
| C32 | Gauss-Legendre integration is exact on polynomials | Moment conditions checked on the tables in rational arithmetic, lifted to all polynomials and intervals with Mathlib interval integrals. |
| C33 | get_points returns the integration nodes | Even orders proved; odd orders (all Gauss-Kronrod ones) refuted: one element is left uninitialised. |
| C34 | Adaptive Gauss-Kronrod integration | Structural recursion on the level; partition extracted as an inductive object. |
| C35 | Stopping power vanishes at and below zero energy | Direct, all scalar types with total comparison. |
| C36 | Stopping power is positive at low energy | AM-GM bound for the logarithm using a complete check of both coefficient tables, then real analysis for He and heavy-ion scaling. |
| C37 | Stopping power models join continuously | Real arithmetic with abstract component models. |
| C38 | Bragg additivity | List induction; order invariance included. |
| C39 | Nuclear stopping is non-negative and never faults | Real analysis (log1p, log above 30). |
| C40 | Default effective charge is between 0 and Z and increases with velocity | Real analysis. |
| C41 | Every effective-charge option stays between 0 and Z | Refuted for several options with concrete witnesses; both bounds proved where they hold (Pierce-Blann, Hubert, Winger up to Z = 105, Anthony-Landford above a minimal velocity). |
| C42 | The 'global' effective charge below Z=29 is the Pierce-Blann charge of the velocity | Refuted: energy is passed where velocity is expected; strict inequality proved for all E>=1. |
| C43 | Relativistic kinematics are consistent | Real analysis. |
| C44 | Correction factors have the right sign | Real analysis with piecewise table. |
| C45 | Lindhard coefficient lookups are in bounds for every projectile | Refuted for Z>=109 and Z<1 (tables have 108 rows but LS_MAX_Z is 110); proved for 1<=Z<109. |
| C46 | Radiation length | Case split on z plus log bounds; list induction. |
| C47 | Energy-loss variance is non-negative and capped at low energy | Real analysis. |
| C48 | Range tables start at zero and increase | Induction along the table with positivity of the quadrature; also for every monotone rounding of the arithmetic. |
| C49 | energy_out returns a certified answer | Loop invariant. |
| C50 | energy_out: particles with range not exceeding the thickness stop | Direct. |
| C51 | energy_out is between 0 and the incoming energy | Refuted (first iterate is returned without the Ezero check, and can be negative; -1 on non-convergence); partial: after at least one correction the result is 0 or >=Ezero, and <=T when range increases and thickness>=1e-5. |
| C52 | energy_out always terminates | Model counts evaluations; bound proved without fuel by equivalence with the unbounded loop relation. |
| C53 | Vector overloads agree with the scalar ones | List induction. |
| C54 | calculate: edge cases | Case analysis of the decision tree. |
| C55 | calculate: energy balance | Case analysis. |
| C56 | calculate agrees with the single-quantity functions | Equational, over all cache states. |
| C57 | calculate uses the supplied configuration for all fields | Refuted for tof (default_config is used); proved for the remaining fields and for c = default_config (partial). |
| C58 | Time of flight is non-negative and scales with the density | Quadrature positivity. |
| C59 | Angular and position spread form a valid covariance matrix | Cauchy-Schwarz on the quadrature sum. Refuted for the Gottschalk formula, whose variance is negative in very thin layers, and for differential Highland in layers of 1e-9 radiation lengths. |
| C60 | w_magnification edge cases | Decision logic. |
| C61 | Layer by layer propagation | Fold invariant. |
| C62 | Total energy bookkeeping | Telescoping induction. |
| C63 | Splitting a stack of layers | Fold over append. |
| C64 | Phase-space transport | Induction with PSD invariant; comparison with a closed-form specification. |
| C65 | Total non-reaction probability | Induction; uses that below 30 MeV/u sp is -1 or 1. |
| C66 | No layers means no change | Refuted: Eout is 0. Loss 0 and variances preserved proved (partial). |
| C67 | Reaction probabilities | Real analysis. |
| C68 | Production rate bounds | Mean value theorem. |
| C69 | Non-reaction rate of a projectile | Decision logic and real analysis. |
| C70 | Natural abundance tables are well formed | Complete evaluation of the table in the kernel, lifted to all int arguments. |
| C71 | Isotope lookups reject bad indices | Proved for i>=0 and all Z; refuted for negative i (neighbouring element's data or out-of-bounds read). |
| C72 | Every predefined material is well formed | Complete evaluation over the table, lifted to all ints. |
| C73 | Materials named by a chemical formula have that composition | A formula parser gives the specification; refuted for Na2CO3, proved for all others. |
| C74 | MOCADI material ids invert the material database | Refuted for duplicates and for ids 348, 349; proved: result is 0 or a matching id, minimal, and exact for the remaining ids. |
| C75 | Element data | Complete table check plus range case analysis. |
| C76 | catima_range depends on the energy | Refuted: the result is the same for all T (the range spline at 0). |
| C77 | C wrapper calls are independent of earlier calls | Refuted (default_config is a leaked global); proved for the functions that set both fields. |
| C78 | C wrapper material construction | Decision logic. |
| C79 | linspace_vector | Induction/real arithmetic. |
| C80 | The calculator honours the config file | JSON-level model of main; refutations: config never used, compound density ignored, num<=2 rejected; positive part: which layers/energies are calculated. |
| C81 | MOCADI export structure | String model parametric in number formatting. |
| C82 | Interpolated values do not depend on uninitialised memory | Refuted: c[0] and a[N-1] are read but never assigned; witness data for the library's table; with 8 in c[0] there are increasing data, slopes within 37 % of each other, whose interpolant decreases. Proved: grid-point values and straight lines do not depend on it; monotonicity (C107) survives contents of at most 0.02. |
| C83 | The energy step of the calculator may be any positive number | Refuted: step is read as an integer, a step below 1 divides by zero; the number of points is then distributed evenly between min and max, whatever the step. |
| C86 | Reactions are counted per atom of the compound | Refuted for numbers of atoms: the cross section summed over the molecule is divided by the number of atoms while the areal density counts molecules, so for water the exponent is three times too small. What is computed is proved, and that it is right for weight fractions summing to 1. |
| C87 | Materials named after a substance consist of that substance | Formulas are listed in Spec/Substances; whole-table check with exact rationals. Refuted for Polyolefin and Suprasil. |
| C88 | Stopping power is positive at every energy | Whole-table bounds for the Lindhard-Soerensen corrections (both masses, all knots), the density-effect parameters (rational powers) and the mean excitation energies; real analysis for the logarithm, shell correction and density effect in the regions below and above 150 GeV/u. |
| C89 | The density effect has no jumps | The real powers at the knee are bounded for the whole table with exact integer arithmetic. Refuted for astatine and francium, whose parameters make the correction fall from 0 to less than -3 at the knee. |
| C90 | In thin layers the energy loss is thickness times stopping power | The first Newton step is accepted because the residual is below the tolerance; continuity of the interpolator off the grid points. Energies of the table itself are excluded because the interpolator has kinks there. |
| C84 | Gauss-Kronrod rules and their error estimate | Moments of the tables checked exactly with natural numbers; polynomials by linearity. |
| C85 | The tabulated X correction of the straggling is non-negative | Whole-table check of the rows for every admissible mass ratio, lifted through the interpolation; above about 0.5 TeV/u refuted for light isotopes. |
| C91 | Two-dimensional quadrature is the iterated one-dimensional quadrature | Model of the corner loop; the symmetric halves of the abscissa table are folded into the iterated sum.  Refuted for odd orders, where the middle point is counted more than once. |
| C92 | The hypergeometric function is summed to its tolerance | Invariant of the loop against the Kummer series, ratio test for termination and for the remainder.  The error bound is refuted by a small first term. |
| C93 | lngamma is a logarithm of the Gamma function | Second derivative of log(F(z+1)/(z F(z))) for the Lanczos formula F as a rational function, bounded in the right half plane by integer polynomial arithmetic and the Phragmen-Lindelof principle; integrated twice and summed; Stirling and Euler limit.  Refuted on the imaginary axis, which the code treats as neither half plane. |
| C94 | The Lindhard-Sorensen correction is its partial-wave series | Invariant over the loop (the carried-over phase shift is that of -k), sums as finite sums over Finset.Icc. |
| C95 | The Lindhard-Sorensen calculation ends | Ratio test for the hypergeometric series (2 sqrt(k^2 - (alpha Z)^2) is never an integer), contraction of the recursion inside the nucleus; at high energies the sum inside the nucleus is an entire function of the momentum variable, not identically zero, so the energies at which the loop may not end are finite in number below any bound (in exact arithmetic; missing: these energies). |
| C96 | The effective charge of ATIMA 1.4 has no jumps (GLOBAL builds) | Model with the library function as a parameter; rewrite as a convex combination with continuous weights. Refuted: in hydrogen the charge can exceed Z. |
| C97 | The calculator's exit status tells success from failure | Case analysis of the program. Refuted: the convention is reversed. |
| C98 | A layer may be cut into pieces | Induction over the pieces with the certificate of energy_out (C49) and one interpolator for all calls. |
| C99 | Rounding does not take values out of their physical ranges | Instance of the model at the numbers of an arbitrary rounding; monotonicity of rounding and representability of 0 and 1. |
| C100 | Quadrature in floating point arithmetic | Symmetry of the loop body under exchange of the two points, and monotonicity of every operation with non-negative weights (tables checked completely). |
| C101 | Tables in floating point arithmetic | Induction over the accumulation; the quadrature points stay positive because the abscissas are at most 0.9999. Missing: that the stopping power is positive in rounded arithmetic. |
| C102 | Rounding errors of conversions and sums | Standard model of rounding errors; induction over the number of terms. |
| C103 | Equally spaced energies in floating point arithmetic | Error analysis of the step: (1+2^-53)^3 (n-2) <= n-1. |
| C104 | NaN inputs give NaN results | For every arithmetic with a value that obeys the laws of NaN (IsNaN): where range returns, it returns NaN; energy_out returns -1, layers report Eout = 0, and in the default build the index computation converts NaN to int. The property is refuted. |
| C105 | The Lindhard-Sorensen table agrees with the calculation at ultrarelativistic energies | Every entry of the regime is compared in the kernel with a rational approximation of the logarithm of proved error; interpolation error of the logarithm between the points. |
| C106 | The lookup returns what the table generator wrote | Composition of the model of the generator with the lookup. Proved up to Z = 108; for Z = 109, 110 the generator writes no rows and the lookup leaves the tables, whatever f is (the cause of C45). |
| C107 | Interpolation of increasing data increases | Maximum principle for the tridiagonal system with weights; bounds of the slope of every piece; jumps of the calculated index at the points are covered by the distance 2e-13. |
| C108 | Ranges of hydrogen ions increase with the energy | The stopping power changes by at most 36 % over one step of the energy table: each factor of the low-energy model and of the Bethe formula (logarithm, shell, Barkas, Lindhard-Sorensen and density corrections, radiative losses) is bounded, tables are checked by the kernel row by row; then C107. |
| C109 | The radiation length of an element agrees with the published values | Refuted from Z = 52 on: the Coulomb correction enters with the wrong sign ('- -1.202*a2'). The logarithms are bounded by rational numbers (kernel-checked per element, lifted by monotonicity to all masses); the tabulated values are compared at the atomic weight of nucdata.h. |
| C110 | Ranges of helium ions increase with the energy | As C108, with the charge of helium in the low-energy model: the polynomial increases and grows no faster than the exponential, 1-exp is concave, the Gaussian is 1-Lipschitz; the two models agree within factors where they are joined. |
| C111 | Ranges of ions from lithium to uranium increase with the energy | As C108 with the charge of heavy ions in the low-energy model: relative velocity, charge fraction, screening length and the charge state formula change by bounded factors over one step (tables checked by the kernel row by row), below and above the velocity where the formula changes; between 10 and 30 MeV/u, where the two models are joined, the quotient of the models is bounded above and below: for ions from nickel on by comparing the charge fraction of the low-energy model with the one of Pierce and Blann, and for each of the 92 targets separately by rational bounds of the logarithm, the shell, Barkas and Lindhard corrections checked by the kernel. |
| C112 | A particle whose range exceeds the thickness leaves the layer | Refute for slow protons in lead: below 25 keV the stopping power is a power of the energy plus a small nuclear part; bound the table of ranges and the slopes of the spline (the solution of the tridiagonal system decays with the distance), and show that the second iterate falls below 1e-3 MeV/u. Prove convergence by contraction where the stopping power at the iterates agrees with the mean stopping power. |
| C113 | Ions lose energy on their way through a stack of layers | Induction over the layers: C108, C110 and C111 for each layer, where a stopped or slow particle (below 1e-3 MeV/u) leaves every further layer with energy zero; the cache stays reachable and the default configuration unchanged. |
| C114 | Ranges and the stopping powers taken from them are positive | The slope of the interpolator is positive everywhere (C107, C108, C110, C111) and its value at the first point is 0. Refuted for range below 1e-3 MeV/u: the interpolator continues with a straight line and the range is negative there, although the constant Ezero is described as the energy below which everything is taken as 0. |
| C115 | Angular straggling taken from the table is a positive number | Over one step of the energy table the scattering power divided by the stopping power changes by a factor of at most 1.48 (C111 and the formula of the scattering power), so the tabulated variances meet the hypothesis of C107 and their interpolant increases. The entry of the cache may have been computed with a scattering factor that differs by 1e-3, which only scales the table. |
| C116 | The calculator computes what the documented input file says | Model of the part of nlohmann::json that is used; a specification relates documents to ions, energies and layers; reading such a document yields just these, then C80 for the loop. Refuted for ranges of two energies. |
| C117 | The calculator rejects files that are not meant | Inversion of the reading functions. Refuted: a projectile that is not an array is read as A = 0, Z = 0; in an array of energies everything that is not a number is skipped; as Z, true is taken for 1, 6.9 for 6 and 2^32+6 for 6. |
| C118 | The calculator prints the whole table, and ions lose energy in it | C116 and C113, by induction over the energies (every energy finds the cache that the earlier ones left behind). |
| C119 | No layer takes more than the kinetic energy | Holds if the remaining range is at least the tolerance of the search, 1e-5 g/cm2, because a range below 1e-3 MeV/u is negative (C114) and the result was certified by the search (C49). Refuted otherwise, with the tables that the library computes for protons in hydrogen gas: over a factor of 25 in energy the range grows so slowly that the tangent at 24 keV hits the energy axis below zero. |
| C120 | Both documented ways to define a material agree | Unfold both constructions. Equal if some component is given by a number of atoms. Refuted for mixtures given by weight fractions only: add_element leaves the arithmetic mean of the masses as molar mass, which is larger than the harmonic mean whenever two masses differ. |
| C121 | The stopping power does not depend on the scale of the formula | Weight fractions of the scaled formula by algebra. Refuted for formulas with numbers below 1 beside others: such a number is taken for a weight fraction, the sum exceeds 1 and by C88 and C38 the stopping power is too large for every ion at every energy. |
| C122 | Ions with more range left leave a layer with more energy | The certificate of the search gives the range at the result up to 1e-5 on both sides; the interpolant increases by C107, so the order of the ranges carries over to the energies. |
| C123 | Each correction switch moves the stopping power in its own direction | Closed form of one component of the Bethe formula; the shell polynomial is positive and the logarithm exceeds 2.6 on the whole domain, the Barkas factor exceeds 1 above 10 MeV/u for all 120 elements; sums over components; quadrature with positive weights for the ranges. |
| C124 | A larger mean excitation energy gives a smaller stopping power | Monotonicity of I^2 (a + b I) on the domain of usual values, with the sign of a and of a + 1.755 b for all 1/eta^2 up to 46.6; then as C123. |
| C125 | Bragg's rule bounds the range in a compound | Additivity of the stopping power (C38) and Cauchy's inequality at every node of the quadrature, with weights taken from the ranges themselves; induction along the table. |
| C126 | Higher charge states are stopped more strongly | Closed form of one component; the bracket of the Bethe formula is positive (C88 without radiation), the Barkas correction is linear in the charge; then as C123. |
| C127 | Fast ions are scattered less, thick layers scatter more | C122 at each depth of the quadrature, monotonicity of momentum times velocity. |
| C128 | The stopping power has no jumps | Refuted: the nuclear stopping jumps exactly where the reduced energy with respect to a component is 30, and the whole stopping power at 50 GeV/u, where the radiative energy loss sets in. Otherwise every part of the formula is continuous off its own switch; the blend of the two electronic models is a continuous weight. |
| C129 | Magnifications are positive | Order of the energies behind the layer from the strictly increasing interpolant and the tolerance of the search; the momentum is strictly increasing in the energy. |
| C130 | Energy straggling is the root of a number that is not negative | Relation of the four functions after any history; order of the table at its own energies up to point 478; refuted for helium-3 around 2.6 TeV/u from the decreasing table of C48. |
| C131 | Ions fly through matter no faster than before and no slower than behind it | The weights of the quadrature are positive and the speed increases with the energy, so the integrand 1/(dedx beta) lies between the multiples of 1/dedx; sum over the steps of the table. |
| C132 | Fast ions are stopped less the faster they are | Over steps of up to 3 % the factor 1/beta^2 falls faster than the bracket of the Bethe formula can rise: bounds of the slopes of the logarithm, the shell correction, the effective charge and (by evaluation over the whole tables) the Lindhard-Sorensen correction; the Barkas factor and the density effect work in the same direction. Steps are chained. |
| C133 | Of two isotopes with the same energy per nucleon the heavier one goes farther | The Lindhard-Sorensen correction is affine in the mass and the bracket of the Bethe formula positive down to mass 0 (C88), so the bracket per mass falls; bremsstrahlung falls; the logarithm of the reduced energy in the nuclear stopping grows less than the mass once it exceeds 30; the quadratures and tables keep the order. |
| C134 | Between 30 and 300 MeV/u the range grows the faster the higher the energy | The stopping power falls (C132), so at the nodes of the quadrature 1/dedx lies between its values at the ends of the step; the weights are positive and sum up to 2 within 1e-6; steps are added up. |
| C135 | Ions of higher nuclear charge are stopped more strongly at the same velocity | The squared effective charge grows at least by the factor 1 + 2/(3Z+1) from one element to the next (concavity of 1 - exp(-x)); an evaluation over the whole tables bounds the fall of the Lindhard-Sorensen correction from each element to the next for all masses, which is less than the gain since the bracket of the Bethe formula is at least 1.72; the nuclear part grows as Z^2 log(energy/screening); chained over the elements in between, then over the quadratures and tables. |
| C136 | What the scattering power depends on | The momentum times the velocity is A T (T+2u)/(T+u); the sum over the components is exchanged with the division. |
| C137 | The scattering factor scales the scattering | Refuted: angular_variance of every order, hence angular_straggling and the fields sigma_x and cov, ignore the factor; behind thin layers they are positive, so they are not scaled. da2dx is proportional to it, and so is the square of sigma_a for the default option scattering_atima, where the cache may answer with a factor that differs by up to 1e-3. |
| C138 | The spreads that calculate reports form a covariance matrix | Refuted for the default model: sigma_a^2 is proportional to the scattering factor, sigma_x and cov do not depend on it (C137), so for every thin layer there is a factor below which the matrix has a negative determinant. For the models of Rossi and of differential Highland all three are moments of one positive weight, and Cauchy-Schwarz holds for the quadrature sums. |
| C139 | The energy-loss variance has no jumps | Refuted at 1 MeV/u, where the X correction switches from 1 to the value of its table: for hydrogen ions the variance drops by the factor 0.999182 in every material. Elsewhere, off the points of the table, the X correction is a line, the minimum with Firsov's limit is continuous and from 2.5 MeV/u on the limit exceeds the formula (an evaluation over the whole X tables bounds the correction), so its end at 30 MeV/u is not noticed. |
| C140 | The straggling option changes the straggling only and the option atima never reports less of it | dedx does not read the option, so the range tables of both configurations are the same and so is everything computed from the range interpolator; the inner-shell correction is the maximum of a product and 0, the minimum with the limit of Firsov and the quadrature keep the order. |
| C141 | The energy-loss variance is a property of the ion times the electrons per mass of the material | From 2.5 MeV/u on the limit of Firsov is not reached (C139), so each component contributes its Z/A times a common factor; the weighted sum is linear. |
| C142 | The energy loss of ions of higher nuclear charge fluctuates more strongly | The square of the effective charge grows by at least 1+2/(3Z+1) from one element to the next; an evaluation over all rows of the X tables shows that X falls by less; the limit of Firsov grows with Z; chain over the elements in between. |
| C143 | The energy-loss variance grows with the energy | Refuted over 1 MeV/u for hydrogen ions, where the X correction switches from 1 to its table (C139). On either side: an evaluation over the whole X tables shows that X falls from one energy of the table to the next by less than gamma^2 grows, and X is a line in between; in front of each point the code extrapolates the next line, so the energies have to differ by 1 eV/u. |
| C144 | The variance of the range grows the faster the higher the energy | The integrand domega2dx/dedx^3 grows: its numerator grows (C143) and its denominator falls (C132) between energies 1 eV/u apart, and the nodes of the quadrature are that far from the ends of a step. The weights are positive, so every step lies between the values at its ends; the steps add up. |
| C145 | The option no_highenergy removes the radiative energy loss above 50 GeV/u and changes nothing else | The two programs agree up to the last branch; what the components gain the material gains (induction over the components). The tables follow step by step. That the radiative part sets in with a jump is shown for C128. |
| C146 | The low-energy option changes what happens below 30 MeV/u only | The branch from 30 MeV/u on does not read the option. The nodes of the quadrature lie inside the steps of the table, so the steps above 30 MeV/u agree, and by induction the differences. |
| C147 | The charge state matters with the effective-charge option none only | Every other branch of z_effective reads Z, the energy and the target only, so the integrands agree, hence the tables, hence the splines that the cache hands out. |
| C148 | The energy loss in a layer of given mass per area does not depend on the density | The integrands of the tables do not read the density, so the splines that the cache hands out agree, and with them the steps of calculate. The moments are quadratures over the depth in cm; a change of the density stretches the interval and its nodes alike. |

## Which parts of the code are modelled

| Source | Model |
| --- | --- |
| `include/catima/constants.h` | `Model/Constants` |
| `include/catima/structures.h`, `src/structures.cpp`, `include/catima/config.h`, `nucdata.h`, `src/nucdata.cpp` | `Model/Structures`, `Model/Tables/*` |
| `include/catima/storage.h`, `src/storage.cpp` | `Model/EnergyTable`, `Model/Storage` |
| `include/catima/spline.h` | `Model/Spline` (including the arrays that the constructors leave unset) |
| `include/catima/glq_integrator.h`, `gkq_integrator.h`, `integrator.h` | `Model/Integrators`, `Model/Integrators2D` |
| `src/calculations.cpp`, `include/catima/calculations.h` | `Model/Calculations`, `Model/Global`, `Model/Lindhard`, `Model/LindhardExact`, `Model/Complex` |
| `src/srim.cpp` | `Model/Srim` |
| `src/reactions.cpp`, `include/catima/reactions.h` | `Model/Reactions` |
| `src/catima.cpp`, `include/catima/catima.h` | `Model/Catima`, `Model/Calculate` |
| `src/abundance_database.cpp` | `Model/Abundance` |
| `src/material_database.cpp`, `include/catima/convert.h` | `Model/MaterialDB` |
| `src/cwrapper.cpp` | `Model/CWrapper` |
| `bin/catima_calculator.cpp` | `Model/CalculatorJson`, `Model/Calculator` (from the parsed JSON document on) |

Simplifications are named in the comment of the definition concerned.  The recurring ones:

* Loops without an a priori bound (`hyperg`, the series inside the nucleus, the
  search of `energy_out`) take a number of turns `fuel`.  The theorems either hold for every `fuel`
  or prove from which `fuel` on the result is defined and constant.
* `std::complex<double>` is a pair of scalars (`Cpx`) with the textbook formulas for
  product, quotient, square root, exponential, logarithm and sine.  C++ leaves
  the treatment of infinities and overflow in these operations to the implementation.
  The class `TrigScalar` adds the trigonometric functions to `Scalar`, again without laws.
* Uninitialised memory is a parameter of the model (`Env`), so a theorem holds for
  every content, and a property that depends on the content is refuted.

## Not modelled

* The GSL integrator and interpolator and the NUREX variant: off by default, and they need external libraries. Of the GLOBAL variant
  the effective charges are modelled (`Model/Global.lean`), with the function of the external library as a parameter.
* Overflow and infinities of the floating point format (see "Numbers"; NaN arguments are the subject of C104), threads (the library has no synchronisation), allocation failure.
* `getCmdOption` of the command line tool, the syntax of JSON (a file is missing, unparsable or a parsed document: `Model/CalculatorJson.lean`), `std::stod`,
  the formatting of its output. Of the table generator in `utils/` the written numbers are modelled (`Model/Generator.lean`), not the text around them.
* `Material::operator==` is modelled; padding, copy and move operations of the classes are those of the compiler.

## Findings

Properties that a user of the library would expect and that the code violates.  Each is proved as a theorem with
a concrete witness; `MANIFEST.json` names it.  The property is then kept as `partial` with the part that does hold.

* Material and layers: `operator==` on materials is not transitive (C04); `l.add(l)` iterates over the vector it
  grows (C06); an empty `Layers` reports `Eout = 0` (C66); mixtures defined by `add_element`
  with weight fractions get a wrong number of atoms (C120); in a formula with fractional numbers such as In(0.53)Ga(0.47)As these are taken for
  weight fractions, so the stopping power is too large (C121).
* Cache: scattering factors within 1e-3 share an entry (C14); a key equal to the default-constructed one hits a slot
  that was never computed (C16); a reference obtained by a hit on the oldest entry is overwritten by the
  next miss (C17).
* Tables and interpolation: linear interpolation yields 0 outside of the table (C23); the spline's tridiagonal solver exchanges
  off-diagonal entries and reads memory that was never set (C28, C29, C82; with 8 in one of the cells the
  interpolant of increasing data can decrease, with at most 0.02 it cannot: C107); `get_points` of odd orders and
  of all Gauss-Kronrod rules leave the last entry unset (C33); Gauss-Kronrod with reversed bounds never
  refines (C34); two-dimensional Gauss-Legendre is wrong for odd orders (C91).
* Physics: effective charge below zero (Anthony-Landford; Winger from Z = 106 on in hydrogen), above Z (Schiwietz) or -1 (Global without its
  library) (C41), with the GLOBAL library above Z in hydrogen (C96); `z_eff_global` receives the energy in place of the velocity (C42); the
  precalculated tables have 108 rows although 110 are announced (C45), because the generator writes two rows less (C106); the tabulated X correction becomes
  negative for light isotopes above 0.5 TeV/u (C48, C85); `energy_out` can be negative, so that protons lose more energy in hydrogen than they have (C51, C119), and can be 0 although the range exceeds
  the thickness (C112); the range is negative below 1e-3 MeV/u (C114); the Gottschalk variance is negative in thin layers and that of differential Highland in layers of 1e-9 radiation lengths (C59); the density effect jumps for astatine and francium (C89);
  the variance of the range decreases above 2 TeV/u for helium-3, so that the energy straggling is the root of a negative number (C130);
  the time of flight ignores the supplied configuration (C57);
  the scattering factor scales the angular spread of the default option, but neither the position spread and the covariance nor the
  angular spread of the other options (C137), so that with small factors the reported spreads are not a covariance matrix (C138); the reaction rate of a compound given by numbers of
  atoms is not that of its atoms (C86); the radiation length of every untabulated element from tellurium on is 10 to 30 % too
  short, because the Coulomb correction is subtracted with a negative coefficient (C109).
* NaN: in the default build a NaN energy or thickness is converted to `int`, which is undefined; without
  `ET_CALCULATED_INDEX` `energy_out` returns -1 and layers report `Eout = 0` (C104).
* Databases: composition of Na2CO3, Polyolefin and Suprasil (C73, C87); names that `materialdb_id` does not find or maps to another
  material (C74); negative isotope numbers are read as indices (C71).
* C interface and tools: `catima_range` ignores the energy (C76); four C functions change the default configuration of the C++
  interface (C77); the calculator ignores the configuration, the density of compounds and `num = 2` (C80) and truncates
  energy steps (C83) and exits with 1 on success and 0 on failure (C97), reads a projectile that is not an array as A = 0, Z = 0,
  skips strings in an array of energies and takes `"Z": 6.9` for carbon (C117); `save_mocadi` omits a line break (C81).
* The stopping power jumps where the reduced energy with respect to a component is 30, since the two formulas for nuclear
  stopping do not meet there (C128); the energy-loss variance of hydrogen ions drops by 0.08 % at 1 MeV/u, where the X correction switches
  from 1 to its table (C139, C143); at 50 GeV/u the stopping power jumps up by the whole radiative energy loss, which is switched on
  there (C128).
* Special functions: `hyperg` may stop before the series has begun to converge (C92); `lngamma` is wrong on the imaginary axis, which it
  treats as neither half plane (C93).

Observations recorded in comments of the model, without a property of their own: the helium branch of the SRIM
formula applies its square root only at one energy; `scattering_length` truncates the mass number to an integer; the
manual says that a mass of 0 or less selects the natural mass, while only 0 does; the
Kox formula of the Coulomb barrier lacks the factor e² = 1.44; a `Material` with an empty list has molar
mass 0 and its number density divides by it; `EnergyTable_interpolate` reads `values[N]` just below the last point in exact arithmetic;
the total survival probability of layers can be minus the probability of the last layer.

## Mutation tests

`seeded/LOG.jsonl` lists edits of the model that a programming error could have made, each built in a copy outside
of this directory.  A theorem "fails" if its proof, or that of a lemma it depends on, no longer
checks.  Theorems of the same property that are not affected are listed too; they concern a different part of
the property.
