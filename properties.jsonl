{"id": "C01", "title": "Weight fractions of a stoichiometric material sum to one", "statement": "For a Material built (by any constructor or by add_element calls) only from components with stoichiometric number >= 1 and positive atomic mass, the values weight_fraction(0..ncomponents()-1) are all positive and add up to exactly 1, as long as the molar mass has not been overridden.", "quantifier": "every finite list of components, every mass and stoichiometric number in the stated ranges", "why_tests_cant": "the composition list is unbounded and the values are real parameters", "anchors": ["include/catima/structures.h: Material::weight_fraction", "src/structures.cpp: Material::Material, Material::add_element, Material::calculate"]}
{"id": "C02", "title": "Molar mass and molar fractions of a weight-fraction mixture", "statement": "For a Material built by the list constructor from components that all have a weight fraction below 1 (positive masses and fractions), M() is the harmonic mean 1/sum(w_i/A_i), the molar fractions are positive and sum to 1, and molar_fraction(i)*A_i is proportional to the weight fraction given by the user.", "quantifier": "every finite non-empty list of components with fractions in (0,1)", "why_tests_cant": "unbounded lists of real parameters", "anchors": ["src/structures.cpp: Material::calculate", "include/catima/structures.h: Material::molar_fraction"]}
{"id": "C03", "title": "Thickness conversions round-trip", "statement": "Setting a length with thickness_cm(l) and reading thickness_cm() returns l, and setting thickness(t) and reading thickness() returns t, for every material whose density is non-zero; changing the density afterwards leaves thickness() unchanged and rescales thickness_cm(); none of the setters touches composition, molar mass or I.", "quantifier": "every material, length and non-zero density", "why_tests_cant": "real-valued parameters", "anchors": ["include/catima/structures.h: Material::thickness, Material::thickness_cm, Material::density"]}
{"id": "C04", "title": "Material equality ignores thickness, tracks composition, and is an equivalence", "statement": "operator== on Material never depends on the thickness; it implies equal composition, equal I and equal molar mass; it is reflexive, symmetric and transitive.", "quantifier": "all pairs and triples of materials", "why_tests_cant": "relations over an infinite set; transitivity needs triples no test enumerates", "anchors": ["src/structures.cpp: operator==(Material,Material)"]}
{"id": "C05", "title": "Layers concatenation", "statement": "num(), thickness(), thickness_cm() and the sequence of materials behave like list concatenation: (a+b) holds a's materials then b's in order, + is associative, add(m) appends one material, add(other) appends all of other's materials in order, thickness() and thickness_cm() of a+b are the sums; operands are unchanged.", "quantifier": "all layer lists", "why_tests_cant": "unbounded lists", "anchors": ["src/structures.cpp: Layers::add, operator+, Layers::thickness, Layers::thickness_cm"]}
{"id": "C06", "title": "Appending a Layers object to itself is well defined", "statement": "l.add(l) doubles the list of layers, for every Layers object l.", "quantifier": "all layer lists", "why_tests_cant": "undefined behaviour may pass any finite number of tests", "anchors": ["src/structures.cpp: Layers::add(const Layers&)", "include/catima/structures.h: Layers::get_materials"]}
{"id": "C07", "title": "Number densities are consistent", "statement": "number_density(i) and number_density_cm2(i) return 0 for every index outside the composition, including negative ones; inside, they are number_density()*molar_fraction(i); number_density_cm2() equals number_density()*thickness_cm(); weight_fraction and molar_fraction outside the composition are undefined behaviour.", "quantifier": "all materials and all int indices", "why_tests_cant": "index range is the whole of int", "anchors": ["include/catima/structures.h: Material::number_density, Material::number_density_cm2"]}
{"id": "C08", "title": "Cache shape is invariant", "statement": "After any sequence of get_data/Get/Add/Reset calls (including those made inside range, energy_out, calculate, ...), GetN() is 60 and get_index() is between 0 and 60.", "quantifier": "all finite histories of API calls with all arguments", "why_tests_cant": "quantifies over histories", "anchors": ["src/storage.cpp: Data::Data, Data::Add, Data::Get", "include/catima/storage.h: Data::Reset"]}
{"id": "C09", "title": "A query returns data for the requested combination", "statement": "The entry returned by get_data(p,t,c) has a projectile, material and config equal (==) to the requested ones, and on a miss it holds exactly the tables freshly computed from the arguments.", "quantifier": "all cache states, all arguments whose == is reflexive (no NaN)", "why_tests_cant": "quantifies over all cache states reachable by any history", "anchors": ["src/storage.cpp: Data::Get, Data::Add"]}
{"id": "C10", "title": "Cache hits do not modify the cache", "statement": "If some stored entry equals the request, Get and Add leave every entry and the write position unchanged; consequently repeating a query immediately returns the same entry and performs no computation.", "quantifier": "all cache states and arguments", "why_tests_cant": "quantifies over cache states", "anchors": ["src/storage.cpp: Data::Get, Data::Add"]}
{"id": "C11", "title": "First-in-first-out eviction with capacity 60", "statement": "A newly computed entry survives exactly the next 59 misses and is overwritten by the 60th, in insertion order, whatever hits occur in between; the contents of the cache after any history are the last min(n,60) inserted entries.", "quantifier": "all histories", "why_tests_cant": "quantifies over histories", "anchors": ["src/storage.cpp: Data::Add"]}
{"id": "C12", "title": "No duplicate entries", "statement": "No two distinct computed entries in the cache are equal in the sense used for lookup.", "quantifier": "all histories", "why_tests_cant": "quantifies over histories", "anchors": ["src/storage.cpp: Data::Add, operator==(DataPoint,DataPoint)"]}
{"id": "C13", "title": "Caching is transparent for range, stopping power, energy loss and range straggling", "statement": "range, dedx_from_range, range_straggling, range_variance, domega2de, energy_out, energy_straggling_from_E and the Ein/Eout/Eloss/range/dEdx/sigma_E/sigma_r fields of calculate return the same values (or fail in the same way) as in a fresh process, whatever calls were made before. The default-constructed combination Projectile(), Material(), Config() is the subject of C16 and excluded here.", "quantifier": "all histories of API calls, all arguments other than the default-constructed combination", "why_tests_cant": "quantifies over histories", "anchors": ["src/storage.cpp: Data::Get", "src/catima.cpp: range, dedx_from_range, range_straggling, energy_out, calculate, calculate_DataPoint, operator==(Config,Config)"]}
{"id": "C14", "title": "Caching is transparent for angular straggling", "statement": "The angular-variance table used by calculate (sigma_a) is the one computed for the scattering_factor in the supplied Config, whatever calls were made before.", "quantifier": "all histories and configurations", "why_tests_cant": "quantifies over histories; differs only in the 4th digit", "anchors": ["src/catima.cpp: operator==(Config,Config), calculate, da2dx", "src/storage.cpp: Data::Get"]}
{"id": "C15", "title": "Tables do not depend on energy, density or thickness of the query", "statement": "The tables computed for a projectile-material-config combination do not depend on the projectile energy, nor on the density or thickness of the material, so sharing them between queries that differ only there is sound.", "quantifier": "all arguments", "why_tests_cant": "universally quantified frame property of a deep computation", "anchors": ["src/catima.cpp: calculate_DataPoint, dedx, domega2dx, da2dx", "src/calculations.cpp: dedx_n, bethek_dedx_e, sezi_dedx_e, dedx_variance, angular_scattering_power"]}
{"id": "C16", "title": "A query never returns an uncomputed entry", "statement": "get_data, and hence range/calculate/..., never reads splines of a cache slot that has not been computed.", "quantifier": "all histories and arguments", "why_tests_cant": "quantifies over histories; the trigger is one particular key", "anchors": ["src/storage.cpp: Data::Get", "include/catima/storage.h: DataPoint, Data"]}
{"id": "C17", "title": "Returned references stay valid", "statement": "The reference returned by get_data keeps denoting the same projectile-material-config data during any following sequence of fewer than 60 cache misses (and any number of hits) without Reset.", "quantifier": "all histories", "why_tests_cant": "quantifies over histories", "anchors": ["include/catima/storage.h: get_data", "src/storage.cpp: Data::Get"]}
{"id": "C18", "title": "Reset restores the initial cache", "statement": "After Reset() the cache is indistinguishable from that of a fresh process, for every history before it.", "quantifier": "all histories", "why_tests_cant": "quantifies over histories", "anchors": ["include/catima/storage.h: Data::Reset"]}
{"id": "C19", "title": "STORE_SPLINES does not change results", "statement": "Building with or without STORE_SPLINES gives the same interpolated values for every query after every history.", "quantifier": "all histories that do not query the default-constructed combination (see C16), both build variants", "why_tests_cant": "compares two builds over all histories", "anchors": ["src/storage.cpp: get_range_spline, get_range_straggling_spline, get_angular_variance_spline, Data::Add"]}
{"id": "C20", "title": "Energy grid", "statement": "The energy grid has 600 strictly increasing positive points from 1e-3 to 1e7 MeV/u with constant ratio between neighbours; more generally this holds for every EnergyTable<N>(a,b) with a<b and N>=2.", "quantifier": "all N, all bounds a<b", "why_tests_cant": "parametric family", "anchors": ["include/catima/storage.h: EnergyTable"]}
{"id": "C21", "title": "Grid index lookup is correct and in bounds", "statement": "EnergyTable::index(v) is -1 exactly when v is below the first point, N-1 when v is at or above the last point, and otherwise an i such that v lies in [values[i], values[i+1]), up to the 10*DBL_EPSILON tolerance below a grid point; no lookup reads outside the table.", "quantifier": "every real v, every table", "why_tests_cant": "real-valued argument", "anchors": ["include/catima/storage.h: EnergyTable::index"]}
{"id": "C22", "title": "Calculated and searched index agree", "statement": "The ET_CALCULATED_INDEX build option does not change the index except for values within 10*DBL_EPSILON below a grid point, where it gives the next interval.", "quantifier": "every real v, every table", "why_tests_cant": "compares two builds for all inputs", "anchors": ["include/catima/storage.h: EnergyTable::index"]}
{"id": "C23", "title": "Table interpolation", "statement": "EnergyTable_interpolate returns the tabulated value at each grid point, a value between the two neighbouring entries inside each interval, and, as documented for the Lindhard tables, the first/last value outside the table range.", "quantifier": "every real argument and every table of values", "why_tests_cant": "real-valued argument", "anchors": ["include/catima/storage.h: EnergyTable_interpolate", "include/catima/calculations.h: precalculated_lindhard"]}
{"id": "C24", "title": "The three grid classes are interchangeable", "statement": "LogVArray has the same points and the same index as EnergyTable with the same parameters (hence VETABLE does not change results); LinearVArray::index returns the interval containing the argument, is in bounds, and every grid point round-trips.", "quantifier": "all N, all parameters, every real argument", "why_tests_cant": "parametric family", "anchors": ["include/catima/storage.h: LogVArray, LinearVArray"]}
{"id": "C25", "title": "The range interpolant passes through the tabulated points", "statement": "For every table of y values, the interpolator evaluates to y[i] at grid point i, for all i.", "quantifier": "all grids, all y vectors, all i", "why_tests_cant": "infinitely many data vectors", "anchors": ["include/catima/spline.h: cspline_special"]}
{"id": "C26", "title": "The interpolant is continuous and extrapolates linearly", "statement": "The interpolated function is continuous on each side of every grid point (left and right polynomials agree there), below the first point it is the tangent line at the first point and above the last point the tangent line at the last point.", "quantifier": "all grids and data, all real arguments", "why_tests_cant": "continuity quantifies over all reals", "anchors": ["include/catima/spline.h: cspline_special::evaluate"]}
{"id": "C27", "title": "derivative() is the derivative of the interpolant", "statement": "At every point that is not a grid point, derivative(x) is the mathematical derivative of the interpolated function at x.", "quantifier": "all grids and data, all real x off the grid", "why_tests_cant": "limits cannot be tested", "anchors": ["include/catima/spline.h: cspline_special::deriv"]}
{"id": "C28", "title": "The interpolant is smooth: first derivative continuous at grid points", "statement": "The derivative of the interpolated function is continuous at interior grid points, as for any cubic spline (so stopping powers derived from range have no jumps).", "quantifier": "all grids and data", "why_tests_cant": "limits; jumps are small", "anchors": ["include/catima/spline.h: cspline_special, tridiagonal_matrix::trig_solve"]}
{"id": "C29", "title": "The tridiagonal solver solves the matrix that was entered", "statement": "For every matrix entered through operator()(i,j) with non-zero pivots, trig_solve(b) returns x with A x = b.", "quantifier": "all sizes, all matrices, all right-hand sides", "why_tests_cant": "infinite family of systems", "anchors": ["include/catima/spline.h: tridiagonal_matrix"]}
{"id": "C30", "title": "Interpolation is linear in the data and exact on straight lines", "statement": "Interpolating k*y+l*z gives k times plus l times the separate interpolants, at every argument; if the data lie on a straight line the interpolant is that line everywhere, including the extrapolation.", "quantifier": "all grids, data, factors and arguments", "why_tests_cant": "infinite family", "anchors": ["include/catima/spline.h: cspline_special"]}
{"id": "C31", "title": "Gauss-Legendre integration is linear, monotone and antisymmetric", "statement": "For every supported order: integrate is linear in f, changes sign when the bounds are swapped, is non-negative for non-negative f and a<=b, is monotone in f, evaluates f only inside [a,b], and integrates a constant c to c*(b-a) up to relative 1e-15.", "quantifier": "all integrands, all bounds, all supported orders", "why_tests_cant": "integrands are arbitrary functions", "anchors": ["include/catima/glq_integrator.h: GaussLegendreIntegration::integrate, GL_data"]}
{"id": "C32", "title": "Gauss-Legendre integration is exact on polynomials", "statement": "For every supported order n, integrate(f,a,b) equals the true integral for every polynomial f of degree at most 2n-1, up to the rounding of the tabulated coefficients (explicit bound).", "quantifier": "all polynomials up to the degree, all bounds", "why_tests_cant": "infinite family", "anchors": ["include/catima/glq_integrator.h: GL_data"]}
{"id": "C33", "title": "get_points returns the integration nodes", "statement": "get_points(a,b) returns the n abscissae at which integrate(f,a,b) evaluates f, in increasing order, for all supported orders.", "quantifier": "all bounds, all orders", "why_tests_cant": "UB may pass tests; orders are a family", "anchors": ["include/catima/glq_integrator.h: get_points", "include/catima/gkq_integrator.h: get_points"]}
{"id": "C34", "title": "Adaptive Gauss-Kronrod integration", "statement": "integrate_adaptive always terminates, evaluates f only inside [a,b], is non-negative on non-negative integrands, homogeneous under refinement, and its result is the sum of the rule over a partition of [a,b] whose cells each met the error test or the depth limit; integrate with N parts and integrate over adjoining intervals also cover the whole interval exactly once.", "quantifier": "all integrands and bounds", "why_tests_cant": "recursion over arbitrary integrands", "anchors": ["include/catima/gkq_integrator.h: GaussKronrodIntegration"]}
{"id": "C35", "title": "Stopping power vanishes at and below zero energy", "statement": "dedx(p,m,c) is 0 for every T<=0, da2dx is 0 for T<=0, and nuclear stopping is 0 for non-positive reduced energy.", "quantifier": "all projectiles, materials, configs", "why_tests_cant": "real parameters", "anchors": ["src/catima.cpp: dedx", "src/calculations.cpp: dedx_n, angular_scattering_power"]}
{"id": "C36", "title": "Stopping power is positive at low energy", "statement": "For 0<T<=10 MeV/u, every projectile with integer charge >=1 and positive mass and every well-formed material, dedx is defined and strictly positive, for both low-energy options.", "quantifier": "all T in (0,10], all Z, all materials", "why_tests_cant": "real parameters; positivity of a composite formula with 92x8 coefficients", "anchors": ["src/srim.cpp: p_se, p_se85, srim_dedx_e", "src/calculations.cpp: sezi_dedx_e, dedx_n"]}
{"id": "C37", "title": "Stopping power models join continuously", "statement": "Between 10 and 30 MeV/u the electronic stopping power is a convex combination of the low-energy and Bethe values (hence between them), equals the low-energy model at 10 and the Bethe model at 30, so there is no jump from switching models.", "quantifier": "all projectiles, materials, energies", "why_tests_cant": "continuity", "anchors": ["src/catima.cpp: dedx"]}
{"id": "C38", "title": "Bragg additivity", "statement": "For a compound, dedx_n, sezi_dedx_e, bethek_dedx_e, domega2dx and 1/radiation_length are the weight-fraction-weighted sums of the single-element values; in particular they lie between the smallest and largest component values when fractions sum to 1.", "quantifier": "all compositions", "why_tests_cant": "unbounded lists", "anchors": ["src/calculations.cpp: dedx_n, bethek_dedx_e, sezi_dedx_e, radiation_length", "src/catima.cpp: domega2dx"]}
{"id": "C39", "title": "Nuclear stopping is non-negative and never faults", "statement": "dedx_n is non-negative for all projectiles and materials with positive charge, mass and fractions and any energy.", "quantifier": "all parameters", "why_tests_cant": "real parameters", "anchors": ["src/calculations.cpp: dedx_n, reduced_energy_loss_unit"]}
{"id": "C40", "title": "Default effective charge is between 0 and Z and increases with velocity", "statement": "With the default (Pierce-Blann) option, 0 <= z_eff < Z for beta>=0, strictly increasing in beta, and tends to Z; with option none the effective charge is Q.", "quantifier": "all charges and velocities", "why_tests_cant": "real parameters", "anchors": ["src/calculations.cpp: z_effective, z_eff_Pierce_Blann"]}
{"id": "C41", "title": "Every effective-charge option stays between 0 and Z", "statement": "For every z_effective option and T>0, 0 <= z_effective <= Z.", "quantifier": "all options, charges and velocities", "why_tests_cant": "real parameters", "anchors": ["src/calculations.cpp: z_eff_Anthony_Landford, z_eff_Hubert, z_eff_Winger, z_eff_Schiwietz, z_eff_global, z_eff_atima14"]}
{"id": "C42", "title": "The 'global' effective charge below Z=29 is the Pierce-Blann charge of the velocity", "statement": "For Z<29 or E<30 MeV/u, z_eff_global(Z,E,tz) equals the Pierce-Blann effective charge at that energy.", "quantifier": "all charges and energies", "why_tests_cant": "real parameters", "anchors": ["src/calculations.cpp: z_eff_global"]}
{"id": "C43", "title": "Relativistic kinematics are consistent", "statement": "For T>0: gamma>1, 0<beta<1, both strictly increasing; p_from_T equals gamma*beta*M*u and satisfies (T+u)^2 M^2 = p^2 + (uM)^2; the two p_from_T definitions agree; at T=0 beta=p=0.", "quantifier": "all energies and masses", "why_tests_cant": "real parameters", "anchors": ["src/calculations.cpp: gamma_from_T, beta_from_T, p_from_T", "include/catima/reactions.h: p_from_T"]}
{"id": "C44", "title": "Correction factors have the right sign", "statement": "The Barkas factor is >=1 for non-negative effective charge, is 1 below the reduced velocity 1 and decreases with the velocity above it; pair production and bremsstrahlung terms are >=0, for all arguments.", "quantifier": "all arguments", "why_tests_cant": "real parameters", "anchors": ["src/calculations.cpp: bethek_barkas, pair_production, bremsstrahlung"]}
{"id": "C45", "title": "Lindhard coefficient lookups are in bounds for every projectile", "statement": "precalculated_lindhard and precalculated_lindhard_X read inside their tables for every projectile charge and energy.", "quantifier": "all charges and energies", "why_tests_cant": "out-of-bounds reads may pass tests", "anchors": ["src/calculations.cpp: precalculated_lindhard, precalculated_lindhard_X", "include/catima/generated_LS_coeff.h: LS_MAX_Z"]}
{"id": "C46", "title": "Radiation length", "statement": "radiation_length(z,m) is positive for 1<=z<=110 and m>0; for a material it is the weighted harmonic mean and lies between the smallest and largest component values.", "quantifier": "all compositions", "why_tests_cant": "unbounded lists, real parameters", "anchors": ["src/calculations.cpp: radiation_length"]}
{"id": "C47", "title": "Energy-loss variance is non-negative and capped at low energy", "statement": "dedx_variance is >=0 and, below 30 MeV/u, at most the Firsov value, whenever the tabulated X correction is non-negative.", "quantifier": "all parameters", "why_tests_cant": "real parameters", "anchors": ["src/calculations.cpp: dedx_variance, energy_straggling_firsov"]}
{"id": "C48", "title": "Range tables start at zero and increase", "statement": "The range table starts at 0 and is strictly increasing whenever dedx is positive on the grid; range straggling and angular variance tables start at 0 and are non-decreasing.", "quantifier": "all combinations", "why_tests_cant": "600-step recursion over arbitrary integrands", "anchors": ["src/catima.cpp: calculate_DataPoint"]}
{"id": "C49", "title": "energy_out returns a certified answer", "statement": "energy_out(p,t,c) returns 0, or -1, or an energy E with |range(T)-range(E)-thickness| < 1e-5 g/cm2.", "quantifier": "all range functions, energies, thicknesses", "why_tests_cant": "output of an iteration on arbitrary data", "anchors": ["src/catima.cpp: energy_out"]}
{"id": "C50", "title": "energy_out: particles with range not exceeding the thickness stop", "statement": "If range(T) <= thickness then energy_out is 0, and a positive result implies range(T) > thickness.", "quantifier": "all arguments", "why_tests_cant": "real parameters", "anchors": ["src/catima.cpp: energy_out"]}
{"id": "C51", "title": "energy_out is between 0 and the incoming energy", "statement": "0 <= energy_out <= T for every non-negative thickness.", "quantifier": "all range functions, energies and thicknesses", "why_tests_cant": "output of an iteration", "anchors": ["src/catima.cpp: energy_out"]}
{"id": "C52", "title": "energy_out always terminates", "statement": "energy_out performs at most 101 iterations for every input.", "quantifier": "all inputs", "why_tests_cant": "termination", "anchors": ["src/catima.cpp: energy_out"]}
{"id": "C53", "title": "Vector overloads agree with the scalar ones", "statement": "energy_out and dedx_from_range on a vector return a vector of the same length whose i-th entry is the scalar result for the i-th energy if that energy is >=1e-3, and 0 otherwise.", "quantifier": "all vectors", "why_tests_cant": "unbounded vectors", "anchors": ["src/catima.cpp: energy_out(vector), dedx_from_range(vector)"]}
{"id": "C54", "title": "calculate: edge cases", "statement": "calculate returns an all-zero result (sp=1) when T is below 1e-3 (less a machine-epsilon margin of 10*2^-52); for zero thickness it returns Eout=Ein=T, dEdxo=dEdxi, zero loss, zero straggling and sp=1; when the particle stops, dEdxo, sigma_E, sigma_a and tof are 0.", "quantifier": "all arguments", "why_tests_cant": "real parameters", "anchors": ["src/catima.cpp: calculate"]}
{"id": "C55", "title": "calculate: energy balance", "statement": "Eloss = (Ein-Eout)*A for every call, Ein=T unless below threshold, and for non-zero thickness Eout is energy_out.", "quantifier": "all arguments and histories", "why_tests_cant": "real parameters", "anchors": ["src/catima.cpp: calculate"]}
{"id": "C56", "title": "calculate agrees with the single-quantity functions", "statement": "For T>=1e-3, the fields range, dEdxi, sigma_r, Eout of calculate equal range, dedx_from_range, range_straggling, energy_out for the same arguments; away from the thin-target approximation sigma_E equals energy_straggling_from_E(T,Eout).", "quantifier": "all arguments and histories", "why_tests_cant": "relates independent API paths over all states", "anchors": ["src/catima.cpp: calculate, range, dedx_from_range, range_straggling, energy_out, energy_straggling_from_E"]}
{"id": "C57", "title": "calculate uses the supplied configuration for all fields", "statement": "Every field of calculate(p,t,c), including tof, is computed with configuration c.", "quantifier": "all configurations", "why_tests_cant": "needs two configurations with different default_config", "anchors": ["src/catima.cpp: calculate, calculate_tof_from_E"]}
{"id": "C58", "title": "Time of flight is non-negative and scales with the density", "statement": "calculate_tof_from_E is non-negative for Eout<=T, scales as 1/density, and vanishes for Eout=T.", "quantifier": "all arguments", "why_tests_cant": "real parameters", "anchors": ["src/catima.cpp: calculate_tof_from_E, calculate_tof"]}
{"id": "C59", "title": "Angular and position spread form a valid covariance matrix", "statement": "For one layer, angular_variance of order 0, 1 and 2 are non-negative and satisfy cov^2 <= var_angle*var_position.", "quantifier": "all arguments", "why_tests_cant": "inequality over reals", "anchors": ["src/catima.cpp: angular_variance"]}
{"id": "C60", "title": "w_magnification edge cases", "statement": "w_magnification is (1,1) for non-positive density or thickness, (0,0) if any of the three probe energies stops, and otherwise the two stated ratios.", "quantifier": "all arguments", "why_tests_cant": "real parameters", "anchors": ["src/catima.cpp: w_magnification"]}
{"id": "C61", "title": "Layer by layer propagation", "statement": "calculate on Layers returns one Result per layer, in order; the energy entering layer k+1 is the Eout of layer k, and each Result equals the single-layer calculate at that energy.", "quantifier": "all layer lists", "why_tests_cant": "unbounded lists", "anchors": ["src/catima.cpp: calculate(Layers)"]}
{"id": "C62", "title": "Total energy bookkeeping", "statement": "total Eloss is the sum of the layer losses, total Eout is the Eout of the last layer, and total Eloss = A*(T - total Eout) whenever every layer leaves the particle at 0 or at >=1e-3 MeV/u; tof is the sum.", "quantifier": "all non-empty layer lists", "why_tests_cant": "unbounded lists", "anchors": ["src/catima.cpp: calculate(Layers)"]}
{"id": "C63", "title": "Splitting a stack of layers", "statement": "The per-layer results for l1+l2 are those for l1 followed by those for l2 started at the exit energy of l1.", "quantifier": "all pairs of layer lists", "why_tests_cant": "unbounded lists", "anchors": ["src/catima.cpp: calculate(Layers)", "src/structures.cpp: operator+(Layers,Layers)"]}
{"id": "C64", "title": "Phase-space transport", "statement": "The total variances follow the drift-plus-scattering law; the covariance matrix stays positive semidefinite (so the absolute value before the square root is never needed) if the initial one and each layer's are; sigma_E and sigma_a combine in quadrature.", "quantifier": "all layer lists and initial phase spaces", "why_tests_cant": "unbounded lists", "anchors": ["src/catima.cpp: calculate(Layers)", "include/catima/structures.h: Phasespace"]}
{"id": "C65", "title": "Total non-reaction probability", "statement": "As long as no layer raises the energy, total sp is the product of the layer sp values if none of them is -1, and -1 as soon as one of them is -1, whatever follows.", "quantifier": "all layer lists", "why_tests_cant": "unbounded lists", "anchors": ["src/catima.cpp: calculate(Layers)", "src/reactions.cpp: nonreaction_rate"]}
{"id": "C66", "title": "No layers means no change", "statement": "calculate on an empty Layers returns Eout equal to the incoming energy and zero loss.", "quantifier": "all projectiles and configs", "why_tests_cant": "corner case for all parameters", "anchors": ["src/catima.cpp: calculate(Layers)"]}
{"id": "C67", "title": "Reaction probabilities", "statement": "reaction_rate + nonreaction_rate = 1; both in [0,1] for non-negative arguments; nonreaction_rate is multiplicative in the thickness and decreasing; the functional overload agrees with the constant one for constant cross sections up to the quadrature constant.", "quantifier": "all arguments", "why_tests_cant": "real parameters", "anchors": ["include/catima/reactions.h: reaction_rate, nonreaction_rate"]}
{"id": "C68", "title": "Production rate bounds", "statement": "production_rate lies between 1e-4*cs*n*exp(-1e-4*n*max) and 1e-4*cs*n*exp(-1e-4*n*min) of the two removal cross sections, in both branches; it is non-negative and vanishes for n=0.", "quantifier": "all non-negative arguments", "why_tests_cant": "real parameters; two branches", "anchors": ["src/reactions.cpp: production_rate"]}
{"id": "C69", "title": "Non-reaction rate of a projectile", "statement": "nonreaction_rate(p,t,c) is -1 when the projectile enters or leaves below 30 MeV/u, 1 for non-positive thickness, and otherwise in (0,1] whenever the component cross sections are non-negative; the Kox cross section is non-negative above the Coulomb barrier and continuous in energy at log10(E)=1.5.", "quantifier": "all arguments", "why_tests_cant": "real parameters", "anchors": ["src/reactions.cpp: nonreaction_rate, SigmaR_Kox"]}
{"id": "C70", "title": "Natural abundance tables are well formed", "statement": "For every Z in 1..109 get_isotopes_num is positive, isotope lists partition the data, isotopes are listed with decreasing abundance, mass numbers are distinct and at least Z, and the abundances of each element sum to 1 within 1e-3 (or the element has no natural isotopes).", "quantifier": "all Z and all isotope indices", "why_tests_cant": "complete table property plus all out-of-range arguments", "anchors": ["src/abundance_database.cpp"]}
{"id": "C71", "title": "Isotope lookups reject bad indices", "statement": "get_isotope_a, get_abundance and get_isotope return 0 for every (Z,i) that does not denote an isotope.", "quantifier": "all ints Z and i", "why_tests_cant": "whole int range", "anchors": ["src/abundance_database.cpp: get_isotope_a, get_abundance, get_isotope"]}
{"id": "C72", "title": "Every predefined material is well formed", "statement": "get_material(id) for every predefined id has at least one component, positive density and molar mass, components with Z in 1..98 and positive masses, either all stoichiometric or all weight fractions, and fractions summing to 1 within 1%; every other id gives the empty material.", "quantifier": "all int ids", "why_tests_cant": "all ids incl. the unbounded set of invalid ones", "anchors": ["src/material_database.cpp: get_material, get_compound"]}
{"id": "C73", "title": "Materials named by a chemical formula have that composition", "statement": "For each predefined material whose name is a chemical formula, the composition is the one denoted by the formula.", "quantifier": "all formula-named materials", "why_tests_cant": "data property against an independent reading of the names", "anchors": ["include/catima/material_database.h", "src/material_database.cpp"]}
{"id": "C74", "title": "MOCADI material ids invert the material database", "statement": "materialdb_id(get_material(id)) = id for every compound id, and 0 for materials not in the database.", "quantifier": "all compound ids and all materials", "why_tests_cant": "universal over materials", "anchors": ["include/catima/convert.h: materialdb_id, mocadi_material_match"]}
{"id": "C75", "title": "Element data", "statement": "element_atomic_weight is positive exactly for Z in 1..109, element_density positive exactly for 1..98, ionisation potential positive exactly for 1..120, and 0 for all other ints.", "quantifier": "all ints", "why_tests_cant": "whole int range", "anchors": ["include/catima/nucdata.h", "include/catima/data_ionisation_potential.h"]}
{"id": "C76", "title": "catima_range depends on the energy", "statement": "catima_range(pa,pz,T,ta,tz) is the range at energy T.", "quantifier": "all arguments", "why_tests_cant": "relates the C API to the C++ API for all arguments", "anchors": ["src/cwrapper.cpp: catima_range"]}
{"id": "C77", "title": "C wrapper calls are independent of earlier calls", "statement": "For fixed catima_defaults, the result of each C wrapper function depends only on its arguments, and C++ calls using the default configuration are unaffected by C wrapper calls.", "quantifier": "all histories", "why_tests_cant": "quantifies over histories", "anchors": ["src/cwrapper.cpp"]}
{"id": "C78", "title": "C wrapper material construction", "statement": "make_material gives the predefined compound for tz>200 and a single-element material otherwise, with the requested thickness, the requested density when positive and the database density otherwise.", "quantifier": "all arguments", "why_tests_cant": "real parameters", "anchors": ["src/cwrapper.cpp: make_material"]}
{"id": "C79", "title": "linspace_vector", "statement": "linspace_vector(a,b,n) has n equally spaced strictly increasing points with first a and last b when n>=2 and a<b, and is empty otherwise.", "quantifier": "all a, b, n", "why_tests_cant": "parametric family", "anchors": ["bin/catima_calculator.cpp: linspace_vector"]}
{"id": "C80", "title": "The calculator honours the config file", "statement": "The results printed by catima_calculator depend on the config entry of the input file as documented, use the density given for a compound, and accept an energy range with num=2.", "quantifier": "all input documents", "why_tests_cant": "quantifies over documents", "anchors": ["bin/catima_calculator.cpp: main, json_material"]}
{"id": "C81", "title": "MOCADI export structure", "statement": "save_mocadi writes one MATTER block per layer in order with that layer's density (in mg/cm3) and thickness in cm, between one BEAM header and one trailer.", "quantifier": "all projectiles and layer lists", "why_tests_cant": "unbounded lists", "anchors": ["include/catima/convert.h: save_mocadi"]}
{"id": "C82", "title": "Interpolated values do not depend on uninitialised memory", "statement": "The value of an interpolator is determined by the table it was built from: it does not depend on what the memory of the tridiagonal matrix held before.", "quantifier": "all tables, all arguments, all previous memory contents", "why_tests_cant": "the outcome varies with memory contents a test cannot choose", "anchors": ["include/catima/spline.h: tridiagonal_matrix, cspline_special"]}
{"id": "C83", "title": "The energy step of the calculator may be any positive number", "statement": "For an energy range given by min, max and a positive step the calculator uses the energies from min to max with that step.", "quantifier": "all min, max and step", "why_tests_cant": "real parameters", "anchors": ["bin/catima_calculator.cpp: main"]}
{"id": "C86", "title": "Reactions are counted per atom of the compound", "statement": "For a layer in which the energy hardly changes, the probability of no reaction is exp(-sum over the elements of atoms per cm2 times the reaction cross section), for compounds given by numbers of atoms as well as for those given by weight fractions.", "quantifier": "all materials, projectiles and configurations", "why_tests_cant": "relates two ways of describing the same matter over all compositions", "anchors": ["src/reactions.cpp: nonreaction_rate"]}
{"id": "C87", "title": "Materials named after a substance consist of that substance", "statement": "For every predefined material named after a chemical substance the weight fraction of every element agrees with the chemical formula of the substance within 3e-5.", "quantifier": "all predefined materials with such names, all elements", "why_tests_cant": "a statement about the whole database against an independent list of formulas", "anchors": ["src/material_database.cpp: get_compound"]}
{"id": "C88", "title": "Stopping power is positive at every energy", "statement": "For every ion with charge 1 to 108 and at most five times the atomic weight of its element, every well-formed material with usual mean excitation energies and every choice of corrections, the stopping power dedx is defined and strictly positive at every T>0; hence the range tables are strictly increasing and every energy loss takes a positive time.", "quantifier": "all ions, materials, corrections and energies up to 10 TeV/u and beyond", "why_tests_cant": "real-valued energy, mass and mean excitation energy; a sum of terms of both signs with tabulated coefficients", "anchors": ["src/calculations.cpp: bethek_dedx_e, bethek_density_effect, precalculated_lindhard", "src/catima.cpp: dedx, calculate_DataPoint"]}
{"id": "C89", "title": "The density effect has no jumps", "statement": "For every element the density-effect correction of the Bethe formula, as a function of the velocity, jumps nowhere by more than 0.001 (the rounding of its tabulated parameters).", "quantifier": "all elements, all velocities", "why_tests_cant": "a limit statement over real velocities for every element", "anchors": ["src/calculations.cpp: bethek_density_effect", "include/catima/data_atima.h"]}
{"id": "C90", "title": "In thin layers the energy loss is thickness times stopping power", "statement": "For every projectile, material and configuration, at an energy at which the range is positive and the stopping power from the range table is not zero, the energy behind all sufficiently thin layers is T - th*dedx_from_range/A, in every state of the process.", "quantifier": "all projectiles, materials, configurations, thicknesses below a bound, histories", "why_tests_cant": "a limit statement about an iterative algorithm", "anchors": ["src/catima.cpp: energy_out, dedx_from_range"]}
{"id": "C84", "title": "Gauss-Kronrod rules and their error estimate", "statement": "For every supported Gauss-Kronrod rule, integrate_nonadaptive returns the integral for polynomials of degree at most 3n+1 up to the rounding of the tabulated coefficients (n is the order of the embedded Gauss rule), and its error estimate is the distance to the value of the embedded rule, which is exact up to degree 2n-1.", "quantifier": "all polynomials up to the degree, all integrands, all bounds", "why_tests_cant": "infinite families", "anchors": ["include/catima/gkq_integrator.h: integrate_nonadaptive, GK_data"]}
{"id": "C85", "title": "The tabulated X correction of the straggling is non-negative", "statement": "For every projectile of charge 1 to 108 the interpolated correction lindhard_X is non-negative, so that dedx_variance is not negative.", "quantifier": "all charges, masses and energies", "why_tests_cant": "real-valued mass and energy, extrapolation in the mass", "anchors": ["src/calculations.cpp: precalculated_lindhard_X, dedx_variance", "include/catima/generated_LS_coeff.h"]}
{"id": "C91", "title": "Two-dimensional quadrature is the iterated one-dimensional quadrature", "statement": "GaussLegendreIntegration2D.integrate(f, a, b, c, d) equals the one-dimensional rule of the same order applied in x to the one-dimensional rule in y, so it is exact for products of polynomials for which the one-dimensional rule is exact.", "quantifier": "all integrands, rectangles and orders", "why_tests_cant": "integrands and rectangles form a continuum, and the 2D integrators have no tests", "anchors": ["include/catima/glq_integrator.h: GaussLegendreIntegration2D, GaussLegendreIntegration2DA"]}
{"id": "C92", "title": "The hypergeometric function is summed to its tolerance", "statement": "hyperg(a, b, z) ends for all arguments whose b is not a non-positive integer, and its result differs from the Kummer function 1F1(a; b; z) by no more than 1e-6.", "quantifier": "all complex arguments", "why_tests_cant": "complex arguments; a loop without bound whose termination no test can show", "anchors": ["src/calculations.cpp: hyperg"]}
{"id": "C93", "title": "lngamma is a logarithm of the Gamma function", "statement": "exp(lngamma(z)) equals the Gamma function at z up to a relative error of 2e-8, for every complex z that is not a pole; for positive real x, lngamma(x) is log(Gamma(x)) up to 2e-8.", "quantifier": "all complex arguments", "why_tests_cant": "a six-term fit claimed to hold in a whole half plane; tests can only sample it", "anchors": ["src/calculations.cpp: lngamma"]}
{"id": "C94", "title": "The Lindhard-Sorensen correction is its partial-wave series", "statement": "bethek_lindhard returns the sum over 1 <= k < 5000 of the two partial-wave terms of Lindhard and Sorensen plus beta^2/2, each with the phase shifts of its own k (and not those left over from an earlier turn); bethek_lindhard_X returns the analogous sum, never a negative number; above gamma = 10/R the constant ultra-relativistic expression is returned.", "quantifier": "all projectiles and energies", "why_tests_cant": "the phase shifts are carried over from turn to turn in local variables; a mistake in this shows only as a small numerical difference", "anchors": ["src/calculations.cpp: bethek_lindhard, bethek_lindhard_X"]}
{"id": "C95", "title": "The Lindhard-Sorensen calculation ends", "statement": "For every ion and energy bethek_lindhard and bethek_lindhard_X end: neither the hypergeometric series nor the expansion inside the nucleus loops forever.", "quantifier": "all projectiles and energies", "why_tests_cant": "termination of loops with floating point exit conditions over a continuum of arguments", "anchors": ["src/calculations.cpp: bethek_lindhard, bethek_lindhard_X, hyperg"]}
{"id": "C96", "title": "The effective charge of ATIMA 1.4 has no jumps (GLOBAL builds)", "statement": "In builds with the GLOBAL library, z_eff_atima14 is a continuous function of the energy T > 0 (although it exchanges formulas at 30, 70, 1000 and 1500 MeV/u) and lies between 0 and the nuclear charge of the projectile, whatever continuous function between 0 and Z the GLOBAL library implements.", "quantifier": "all projectiles, targets, energies, all functions in place of the GLOBAL library", "why_tests_cant": "the GLOBAL library is not part of the default build, so these paths are never run; continuity concerns a continuum of energies", "anchors": ["src/calculations.cpp: z_eff_atima14, z_eff_global"]}
{"id": "C97", "title": "The calculator's exit status tells success from failure", "statement": "catima_calculator exits with status 0 when it printed results and with another status when it could not.", "quantifier": "all configuration files", "why_tests_cant": "process exit status is not covered by tests", "anchors": ["bin/catima_calculator.cpp: main"]}
{"id": "C98", "title": "A layer may be cut into pieces", "statement": "When a projectile gets through a layer described as a stack of pieces of one material, the range it has left is the initial range minus the sum of the thicknesses, up to 1e-5 g/cm2 for each piece; so two descriptions of the same layer give the same outgoing energy up to that tolerance in range, and a thicker layer leaves a smaller range.", "quantifier": "all projectiles, materials, configurations, numbers and thicknesses of pieces, histories", "why_tests_cant": "unbounded number of pieces, real thicknesses", "anchors": ["src/catima.cpp: calculate, energy_out"]}
{"id": "C99", "title": "Rounding does not take values out of their physical ranges", "statement": "In floating point arithmetic (every operation rounded): the Lorentz factor is at least 1, the velocity lies between 0 and 1 and neither decreases when the energy increases; the effective charge of the default configuration lies between 0 and the nuclear charge; reaction and survival probabilities lie between 0 and 1 and a product of survival probabilities is not larger than a factor; nuclear stopping is not negative.", "quantifier": "all floating point arithmetics that round monotonically, all representable energies, projectiles, materials", "why_tests_cant": "the last bits of floating point results for all inputs; tests compare with a tolerance that hides 1+1e-16 or -1e-20", "anchors": ["src/calculations.cpp: gamma_from_T, beta_from_T, z_eff_Pierce_Blann, z_effective, dedx_n", "src/reactions.cpp: reaction_rate, nonreaction_rate"]}
{"id": "C100", "title": "Quadrature in floating point arithmetic", "statement": "In floating point arithmetic integrate(f,b,a) is exactly -integrate(f,a,b); a larger integrand has a larger or equal integral; the integral of a non-negative function is not negative; so the reaction probability of an energy-dependent cross section lies between 0 and 1.", "quantifier": "all supported orders, integrands, bounds, arithmetics", "why_tests_cant": "bit-exact statement for all functions", "anchors": ["include/catima/glq_integrator.h", "src/reactions.cpp: reaction_rate"]}
{"id": "C101", "title": "Tables in floating point arithmetic", "statement": "In floating point arithmetic the energies of the grid ascend, a table accumulated from a non-negative integrand ascends and begins with 0, so the range table is ascending with 600 entries; at a grid energy the interpolator returns the tabulated number to the last bit.", "quantifier": "all arithmetics, projectiles, materials, configurations", "why_tests_cant": "last bits, all grid points of all tables", "anchors": ["include/catima/storage.h: EnergyTable", "src/catima.cpp: calculate_DataPoint", "include/catima/spline.h"]}
{"id": "C102", "title": "Rounding errors of conversions and sums", "statement": "Setting the thickness in cm and reading it returns the number up to 3 units of 2^-53; the thickness of n layers is the sum up to a relative error (1+2^-53)^n-1 and not smaller than any layer; the weight fractions of a compound of n components given by numbers of atoms add up to 1 up to about (n+1) units of 2^-53.", "quantifier": "all materials, numbers of layers and components, arithmetics", "why_tests_cant": "error bounds for all inputs and lengths", "anchors": ["include/catima/structures.h: thickness_cm, weight_fraction", "src/structures.cpp: Layers, Material"]}
{"id": "C103", "title": "Equally spaced energies in floating point arithmetic", "statement": "linspace_vector(a,b,n) in floating point arithmetic has n entries, begins with a, ends with b, ascends and does not leave [a,b].", "quantifier": "all a < b (difference at least 2^-900), 2 <= n <= 2^32, arithmetics", "why_tests_cant": "the last-but-one point can exceed the last one by rounding; whether it does needs error analysis over all inputs", "anchors": ["bin/catima_calculator.cpp: linspace_vector"]}
{"id": "C104", "title": "NaN inputs give NaN results", "statement": "If the energy of the projectile, the thickness or the density is NaN, then range, energy_out and calculate either report an error or return NaN; they do not return an ordinary number and do not run into undefined behaviour.", "quantifier": "all projectiles, materials, configurations, cache contents, build options", "why_tests_cant": "NaN follows other branches than every number: each comparison is false; a test of one function cannot show where it becomes an ordinary number again, and undefined behaviour may seem to work", "anchors": ["include/catima/storage.h: EnergyTable::index, EnergyTable_interpolate", "src/catima.cpp: range, energy_out, calculate", "src/structures.cpp: operator==", "src/calculations.cpp: precalculated_lindhard"]}
{"id": "C105", "title": "The Lindhard-Sorensen table agrees with the calculation at ultrarelativistic energies", "statement": "Where the calculation of the Lindhard-Sorensen correction uses its closed formula (gamma times nuclear radius above 10), the shipped table contains the calculated value to the printed digits (5.1e-6) at every tabulated energy and mass of every element up to Z = 108, and the lookup agrees with the calculation within 4.1e-3 at every energy with gamma times radius above 11.5 and every mass within 10 % of the natural one (1.5e-3 at the natural mass).", "quantifier": "all elements with Z <= 108, all energies of the regime up to 1e7 MeV/u, all masses within 10 %", "why_tests_cant": "7347 entries of the header and a continuum of energies and masses between them; a test compares a few", "anchors": ["include/catima/generated_LS_coeff.h", "src/calculations.cpp: precalculated_lindhard, bethek_lindhard", "include/catima/storage.h: EnergyTable_interpolate"]}
{"id": "C106", "title": "The lookup returns what the table generator wrote", "statement": "For every function f the generator tabulates, the lookup with the written tables returns the printed value of f at the tabulated energies for the natural mass and for 1.05 times the natural mass, and the straight line through both for other masses, for every element the tables announce (LS_MAX_Z).", "quantifier": "all functions f, printing rules, elements, tabulated energies, masses", "why_tests_cant": "generator and lookup are different programs with independent constants (number of points, energies, mass step, row offset, number of rows); only the composition shows that they fit, for all functions", "anchors": ["utils/generator.cpp", "src/calculations.cpp: precalculated_lindhard, precalculated_lindhard_X", "include/catima/generated_LS_coeff.h"]}
{"id": "C107", "title": "Interpolation of increasing data increases", "statement": "If the data tabulated on the energy table have positive mean slopes which change by a factor of at most 2.6 from one interval to the next, then the interpolating spline has a positive derivative at every energy, below, inside and above the table, and increases, provided the two cells of the spline matrix that are read but never assigned (C82) hold at most 0.02 in magnitude.", "quantifier": "all data, all energies, build options", "why_tests_cant": "a cubic spline through increasing data can decrease between the points; the condition involves a system of 600 equations, and the energies are a continuum", "anchors": ["include/catima/spline.h: cspline_special, evaluate, deriv", "src/spline.cpp: tridiagonal_matrix::trig_solve", "include/catima/storage.h: EnergyTable"]}
{"id": "C108", "title": "Ranges of hydrogen ions increase with the energy", "statement": "For protons, deuterons and tritons in a material without astatine and francium (mean excitation energies usual, effective charge by Pierce and Blann), after any history of calls, range increases with the energy; energy_out is not above the incoming energy and decreases with the thickness; calculate returns. The two cells of the spline matrix that are read but never assigned (C82) are assumed to hold at most 0.02 in magnitude.", "quantifier": "all materials, configurations of corrections, energies, thicknesses, histories, build options", "why_tests_cant": "the stopping power itself rises and falls, joins two models and has kinks; monotonicity of the interpolated table concerns a continuum of energies and every material", "anchors": ["src/catima.cpp: dedx, range, energy_out, calculate, calculate_DataPoint", "src/calculations.cpp: bethek_dedx_e, sezi_dedx_e", "src/srim.cpp: p_se, p_se85", "include/catima/spline.h: cspline_special"]}
{"id": "C109", "title": "The radiation length of an element agrees with the published values", "statement": "For every element (Z from 1 to 109) radiation_length(z,m) agrees within 10 % with the fit 716.4 m/(Z(Z+1) ln(287/sqrt Z)) of the Particle Data Group, which describes the published values within 2.5 % (5 % for helium).", "quantifier": "all elements; all masses for those not in the table of constants", "why_tests_cant": "the tests check Be, Pb and water, which all come from the table of constants; the formula behind the other 85 elements is not tested", "anchors": ["src/calculations.cpp: radiation_length(int,double)"]}
{"id": "C110", "title": "Ranges of helium ions increase with the energy", "statement": "For helium ions in a material without astatine and francium (mean excitation energies usual, effective charge by Pierce and Blann), after any history of calls, range increases with the energy; energy_out is not above the incoming energy and decreases with the thickness; calculate returns. The two cells of the spline matrix that are read but never assigned (C82) are assumed to hold at most 0.02 in magnitude.", "quantifier": "all helium isotopes, materials, configurations of corrections, energies, thicknesses, histories, build options", "why_tests_cant": "helium has its own branch of the low-energy model with an exponential of a fifth-order polynomial; monotonicity of the interpolated table concerns a continuum of energies and every material", "anchors": ["src/catima.cpp: dedx, range, energy_out, calculate, calculate_DataPoint", "src/calculations.cpp: bethek_dedx_e, sezi_dedx_e", "src/srim.cpp: srim_dedx_e", "include/catima/spline.h: cspline_special"]}
{"id": "C111", "title": "Ranges of ions from lithium to uranium increase with the energy", "statement": "For ions of the elements 3 to 92 in a material of the elements up to uranium without 85, 87 and 91 (mean excitation energies usual, effective charge by Pierce and Blann, Barkas correction on for ions from nickel on), after any history of calls, range increases with the energy; energy_out is not above the incoming energy and decreases with the thickness; calculate returns. The two cells of the spline matrix that are read but never assigned (C82) are assumed to hold at most 0.02 in magnitude.", "quantifier": "all isotopes of 90 elements, materials, configurations of corrections, energies, thicknesses, histories, build options", "why_tests_cant": "the low-energy model of heavy ions joins seven formulas for the charge fraction with kinks and table lookups; monotonicity of the interpolated table concerns a continuum of energies and every material", "anchors": ["src/catima.cpp: dedx, range, energy_out, calculate, calculate_DataPoint", "src/calculations.cpp: bethek_dedx_e, sezi_dedx_e, z_eff_Pierce_Blann", "src/srim.cpp: srim_dedx_e", "include/catima/spline.h: cspline_special"]}
{"id": "C112", "title": "A particle whose range exceeds the thickness leaves the layer", "statement": "If the range of a particle exceeds the thickness of a layer, energy_out returns the positive energy at which the remaining range is the range minus the thickness, up to the tolerance of 1e-5 g/cm2.", "quantifier": "all projectiles, energies, materials, thicknesses, configurations, histories", "why_tests_cant": "whether the iteration converges depends on the slopes of the interpolated table at all iterates; a test tries a few energies and thicknesses, where it does", "anchors": ["src/catima.cpp: energy_out, range, dedx_from_range, calculate_DataPoint", "include/catima/constants.h: Ezero, Eout_th_epsilon"]}
{"id": "C113", "title": "Ions lose energy on their way through a stack of layers", "statement": "For an ion from hydrogen to uranium and a stack of layers of usual materials, after any history of calls, calculate returns a result for each layer; the energy does not increase from one layer to the next, no layer has a negative energy loss, and neither has the stack. The two cells of the spline matrix that are read but never assigned (C82) are assumed to hold at most 0.02 in magnitude.", "quantifier": "all ions of 92 elements, stacks of any length, materials, configurations, energies up to 9.9e6 MeV/u, histories", "why_tests_cant": "the energy behind a layer comes from an iteration on an interpolated table that was built for the material and may come from the cache; a test runs a few stacks", "anchors": ["src/catima.cpp: calculate (Layers), calculate, energy_out, range", "include/catima/structures.h: Layers"]}
{"id": "C114", "title": "Ranges and the stopping powers taken from them are positive", "statement": "For an ion from hydrogen to uranium in a usual material and every positive energy, after any history of calls, range is positive, dedx_from_range is positive, and calculate reports positive stopping powers in front of and behind the layer and a positive time of flight when the ion lost energy. The two cells of the spline matrix that are read but never assigned (C82) are assumed to hold at most 0.02 in magnitude.", "quantifier": "all ions of 92 elements, materials, configurations, energies, histories", "why_tests_cant": "sign of an interpolated value and of its slope at every energy, between and outside of the points of the table", "anchors": ["src/catima.cpp: range, dedx_from_range, calculate, calculate_tof_from_E", "include/catima/spline.h"]}
{"id": "C115", "title": "Angular straggling taken from the table is a positive number", "statement": "For an ion from hydrogen to uranium in a usual material that leaves a layer with less energy than it had, calculate with the option scattering_atima (the default) reports a positive sigma_a, after any history of calls: the square root is never taken of a negative difference of tabulated variances or of a negative slope. The two cells of the spline matrix that are read but never assigned (C82) are assumed to hold at most 0.02 in magnitude.", "quantifier": "all ions of 92 elements, materials, configurations, energies, thicknesses, histories", "why_tests_cant": "sign of the difference of two interpolated values at every pair of energies", "anchors": ["src/catima.cpp: calculate, da2de, calculate_DataPoint", "include/catima/spline.h"]}
{"id": "C116", "title": "The calculator computes what the documented input file says", "statement": "For every file as described in docs/catima_calculator.md (projectile as an array of two numbers; energy as a number, a string, an array of numbers, or an object with min, max and step or num; material as one object or an array of objects with Z and the optional A, density, thickness) catima_calculator prints the projectile, the layers and, for each energy of the file in order, what calculate gives for these layers in a fresh process.", "quantifier": "all documents of the described form, any order of the entries, further entries, any number of energies and layers", "why_tests_cant": "the described files form an infinite set with several alternatives at each place; a test runs a few example files", "anchors": ["bin/catima_calculator.cpp: main, json_material", "docs/catima_calculator.md"]}
{"id": "C117", "title": "The calculator rejects files that are not meant", "statement": "A file that does not have the described form is answered by the error message only: a missing file, a file that is no JSON, a missing projectile, energy or material, a projectile that is not an array of two numbers, an energy or a Z that is not of the described kind, a material that is not an object, a Z that is not a positive integer.", "quantifier": "all files", "why_tests_cant": "that nothing wrong is accepted concerns every file that could be written", "anchors": ["bin/catima_calculator.cpp: main, load_json, json_material"]}
{"id": "C118", "title": "The calculator prints the whole table, and ions lose energy in it", "statement": "For a documented file with an ion from hydrogen to uranium and layers of usual materials the calculator terminates without undefined behaviour, prints for each energy one result for each layer, and in no table does the energy increase from one layer to the next. The two cells of the spline matrix that are read but never assigned (C82) are assumed to hold at most 0.02 in magnitude.", "quantifier": "all documents of the described form, ions of 92 elements, stacks, lists of energies", "why_tests_cant": "needs the tables of every ion and material and the iterations of the energy search for every thickness", "anchors": ["bin/catima_calculator.cpp: main", "src/catima.cpp: calculate, energy_out"]}
{"id": "C119", "title": "No layer takes more than the kinetic energy", "statement": "For every ion from hydrogen to uranium above 1 keV/u and every layer of a usual material, whatever was computed before, calculate reports an energy behind the layer that is not negative and an energy loss that does not exceed the kinetic energy A*T of the ion. The two cells of the spline matrix that are read but never assigned (C82) are assumed to hold at most 0.02 in magnitude.", "quantifier": "all ions of 92 elements, materials, configurations, energies, thicknesses, histories", "why_tests_cant": "the energies at which the search leaves the table form a short interval for each material; a test with energies of some MeV/u never enters it", "anchors": ["src/catima.cpp: energy_out, range_from_range, calculate"]}
{"id": "C120", "title": "Both documented ways to define a material agree", "statement": "A material defined by add_element calls (and density, I) is the same as the one defined by giving the same components to the constructor: equal by operator==, with the same molar mass, number densities, stopping power and straggling.", "quantifier": "all lists of components, densities, excitation energies", "why_tests_cant": "the two ways differ only in a member function that is called by one of them; the effect depends on the composition", "anchors": ["src/structures.cpp: Material::Material, Material::add_element, Material::calculate", "docs/catima_manual.md"]}
{"id": "C121", "title": "The stopping power does not depend on the scale of the formula", "statement": "Multiplying all numbers of a chemical formula by a factor changes neither the stopping power nor the straggling of the compound, and the weight fractions add up to 1.", "quantifier": "all compositions, factors, ions, energies, configurations", "why_tests_cant": "quantifies over all compositions; compounds with fractional numbers such as In(0.53)Ga(0.47)As are not in the tests", "anchors": ["include/catima/structures.h: Material::weight_fraction", "src/structures.cpp: Material::calculate", "src/catima.cpp: dedx, domega2dx", "docs/catima_manual.md"]}
{"id": "C122", "title": "Ions with more range left leave a layer with more energy", "statement": "Of two ions of one kind in front of layers of one material, whatever their energies and the thicknesses, the one that has more range left behind its layer (range minus thickness, by at least 2e-5 g/cm2) has the higher energy_out; so of two energies in front of one layer the higher one stays the higher. The two unassigned cells of the spline matrix hold numbers of magnitude at most 0.02.", "quantifier": "all ions and materials of C108, C110 and C111, all pairs of energies and thicknesses, all histories, results other than the codes 0 and -1", "why_tests_cant": "quantifies over pairs of energies and thicknesses and over the histories of the cache; tests compare a few energies behind one layer", "anchors": ["src/catima.cpp: energy_out", "src/spline.cpp: cspline_special", "src/storage.cpp: Data::Get"]}
{"id": "C123", "title": "Each correction switch moves the stopping power in its own direction", "statement": "Switching the Barkas correction or the radiative losses on (bits no_barkas and no_highenergy of Config::corrections cleared), or the shell correction off (no_shell_correction set), alone or together, never lowers dedx at any energy. It raises dedx strictly at every energy above 10 MeV/u (radiative losses: above 50000 MeV/u) and changes nothing up to 10 MeV/u. Ranges at the energies of the table do not grow.", "quantifier": "all ions up to Z = 108, materials with usual mean excitation energies, energies, pairs of configurations, histories", "why_tests_cant": "quantifies over all energies and materials; the shell correction is a difference of polynomials in 1/eta^2 whose sign is not visible from samples, and the Barkas correction multiplies a logarithm that must be positive", "anchors": ["src/calculations.cpp: bethek_dedx_e, bethek_barkas, pair_production, bremsstrahlung", "include/catima/config.h: corrections", "src/catima.cpp: dedx, range"]}
{"id": "C124", "title": "A larger mean excitation energy gives a smaller stopping power", "statement": "Of two materials that differ only in the mean excitation energy, the one with the larger value (for each component the value given, or the tabulated one if none is given) has the smaller dedx, strictly at every energy above 10 MeV/u, the same up to 10 MeV/u, and at the energies of the table not the shorter range.", "quantifier": "all ions up to Z = 108, materials, pairs of usual mean excitation energies, energies, configurations, histories", "why_tests_cant": "the logarithm decreases with I but the shell correction contains I^2 and I^3 with coefficients of both signs; tests use one value for each material", "anchors": ["src/calculations.cpp: bethek_dedx_e", "include/catima/structures.h: Material::I", "src/catima.cpp: dedx, range"]}
{"id": "C125", "title": "Bragg's rule bounds the range in a compound", "statement": "At the energies of the table the range in a compound is at most the range given by Bragg's rule for ranges, 1/R = sum of w_i/R_i with the weight fractions w_i and the ranges R_i in the single elements; so it exceeds no common bound of the ranges in its elements.", "quantifier": "all ions up to Z = 108, compounds of any number of components, energies of the table but the first, configurations, histories", "why_tests_cant": "the inequality couples the stopping powers of all elements at all energies below the initial one; tests compare single ranges with reference values", "anchors": ["src/catima.cpp: range, dedx, calculate_DataPoint", "src/calculations.cpp: dedx_n, sezi_dedx_e, bethek_dedx_e", "include/catima/structures.h: Material::weight_fraction"]}
{"id": "C126", "title": "Higher charge states are stopped more strongly", "statement": "With the option z_effective = none an ion of higher charge Q has the larger dedx at every energy above 10 MeV/u; with the default option Q does not matter, and dedx is smaller than for the bare nucleus (Q = Z, option none) above 10 MeV/u. Up to 10 MeV/u neither Q nor the option matters. Ranges at the energies of the table are ordered the other way.", "quantifier": "all ions up to Z = 108, charges, materials with usual mean excitation energies, energies, corrections, histories", "why_tests_cant": "quantifies over charges, energies and materials; the charge enters the Barkas correction as well and the bracket it multiplies contains negative corrections", "anchors": ["src/calculations.cpp: bethek_dedx_e, bethek_barkas, z_effective", "src/catima.cpp: dedx, range"]}
{"id": "C127", "title": "Fast ions are scattered less, thick layers scatter more", "statement": "Of two ions of one kind in front of one layer the one with the longer range has the smaller variance of the angle, covariance and variance of the position behind the layer. Of two layers in front of one ion the thicker one has the larger ones, and they grow at least with the first, second and third power of the thickness. Up to a relative 1e-9; the two unassigned cells of the spline matrix hold numbers of magnitude at most 0.02.", "quantifier": "all ions from hydrogen to uranium, usual materials, energies, thicknesses that differ by 1.1e-3 g/cm2 and ranges that differ by 2e-5 g/cm2 (tolerance of the energy search), histories; Rossi, ATIMA and (from 1e-6 radiation lengths) differential Highland formula", "why_tests_cant": "order relation between two integrals whose integrand comes out of an iterative search", "anchors": ["src/catima.cpp: angular_variance, energy_out"]}
{"id": "C128", "title": "The stopping power has no jumps", "statement": "dedx as a function of the energy, everything else fixed, has no jumps.", "quantifier": "all ions up to Z = 108, materials with usual mean excitation energies, energies, configurations", "why_tests_cant": "continuity at every energy cannot be sampled: the jumps that exist are smaller than one per cent and each sits at a single energy", "anchors": ["src/calculations.cpp: dedx_n, bethek_dedx_e, bethek_barkas, bethek_density_effect, precalculated_lindhard, bethek_lindhard_X, sezi_p_se, dedx"]}
{"id": "C129", "title": "Magnifications are positive", "statement": "w_magnification, which compares the energies behind a layer of ions of 99 % and 101 % of the given energy, gives positive magnifications of energy and of momentum, or (0,0) when one of the ions is not found behind the layer: the faster ion stays the faster one.", "quantifier": "all builds, histories, ions, materials and layers, all energies where the ranges at 99 % and 101 % differ by at least 2.1e-5 g/cm2 and 3e-10 of the range that is left behind the layer", "why_tests_cant": "the sign depends on the order of two results of a search with a finite tolerance through an interpolated table; tests sample energies and layers", "anchors": ["src/catima.cpp:455-479 w_magnification", "src/catima.cpp: energy_out"]}
{"id": "C130", "title": "Energy straggling is the root of a number that is not negative", "statement": "energy_straggling_from_E(p,T,Tout,t,c) is the stopping power at Tout times the root of range_variance(T) - range_variance(Tout), over the mass number; for Tout <= T the difference is not negative, so the result is a number.", "quantifier": "all histories, ions, materials, configurations and pairs of energies", "why_tests_cant": "a test sees a number at the energies it tries; the sign of the difference depends on the whole table below the energy", "anchors": ["src/catima.cpp:93-105 range_straggling, range_variance", "src/catima.cpp:195-201 energy_straggling_from_E", "src/catima.cpp:284-330 calculate"]}
{"id": "C131", "title": "Ions fly through matter no faster than before and no slower than behind it", "statement": "The time of flight between two energies (calculate_tof_from_E; calculate_tof for the energies of the table) is the time for the way in between at a speed between those of the ion before and behind it, so it exceeds the time light needs. The way is the difference of the ranges over the density for energies of the table, and otherwise the integral of A/dedx over the density as the library integrates it.", "quantifier": "all computable ions and materials, all pairs of energies, all histories", "why_tests_cant": "the bound relates two integrals over real energies; tests compare a few numbers", "anchors": ["src/catima.cpp:254-269 calculate_tof", "src/catima.cpp:447-453 calculate_tof_from_E", "src/catima.cpp: range"]}
{"id": "C132", "title": "Fast ions are stopped less the faster they are", "statement": "Between 30 and 300 MeV/u dedx decreases strictly with the energy (by at least 1e-7 MeV/u), in every material: the whole therapy range lies on the falling side of the Bragg curve. In the default configuration for ions up to calcium; for a given charge without the Lindhard-Sorensen correction for every ion.", "quantifier": "all ions up to Z = 108 with at least as many nucleons as protons, all sound materials with usual mean excitation energies, all pairs of energies between 30 and 300 MeV/u, all settings of the other corrections", "why_tests_cant": "a monotonicity over a continuum of energies and all materials, with tables, jumps of the Barkas function and a tolerance in the table lookup that could each break it", "anchors": ["src/calculations.cpp: bethek_dedx_e, bethek_barkas, bethek_density_effect, precalculated_lindhard, z_eff_Pierce_Blann, dedx_n", "src/calculations.cpp: dedx"]}
{"id": "C133", "title": "Of two isotopes with the same energy per nucleon the heavier one goes farther", "statement": "For two isotopes of one element in the same charge state, the stopping power per mass is never larger for the heavier one, from 2 MeV/u on. Hence between two energies of the table from 2 MeV/u on the range reported for the heavier isotope grows at least as much as the range reported for the lighter one.", "quantifier": "all ions up to Z = 108, all pairs of masses between the charge number and five atomic weights, all sound materials with usual mean excitation energies, all energies from 2 MeV/u on, every setting of the corrections, the effective charge of Pierce and Blann or a given charge, any histories of earlier calls", "why_tests_cant": "an order between results for a continuum of masses, energies and materials, where the Lindhard-Sorensen correction is extrapolated in the mass and the nuclear stopping grows with the mass", "anchors": ["src/calculations.cpp: bethek_dedx_e, precalculated_lindhard, bremsstrahlung, dedx_n, sezi_dedx_e", "src/catima.cpp: calculate_DataPoint, range"]}
{"id": "C134", "title": "Between 30 and 300 MeV/u the range grows the faster the higher the energy", "statement": "An ion slowed down from one energy of the table to another, both between 30 and 300 MeV/u, loses on its way (the difference of the reported ranges) at least the way times dedx at the higher energy and at most the way times dedx at the lower energy, up to a relative error of 1e-6. The range as a function of the energy is convex there: a faster ion loses less energy on the same way.", "quantifier": "all pairs and quadruples of energies of the table between 30 and 300 MeV/u, all ions, materials and configurations of C132, any histories of earlier calls", "why_tests_cant": "an order of differences of four table entries for every ion and material; a test sees single numbers", "anchors": ["src/catima.cpp: calculate_DataPoint, range", "src/catima.cpp: dedx", "include/catima/glq_integrator.h: GaussLegendreIntegration::integrate"]}
{"id": "C135", "title": "Ions of higher nuclear charge are stopped more strongly at the same velocity", "statement": "Between 30 and 1000 MeV/u dedx is strictly larger for the ion of the heavier element than for the ion of the lighter element with the same energy per nucleon (hence the same velocity). Slowed down between two energies of the table in that interval it comes less far in relation to its mass; of two isobars the one of higher charge comes less far.", "quantifier": "all pairs of elements up to uranium, masses between the charge number and three atomic weights with the ion of the heavier element not the lighter one, all sound materials with usual mean excitation energies, all energies between 30 and 1000 MeV/u, every setting of the corrections with the effective charge of Pierce and Blann (the default), any histories of earlier calls", "why_tests_cant": "an order over all pairs of elements, a continuum of masses and energies and all materials, which the Lindhard-Sorensen tables (falling from element to element) and the effective charge (growing less than the nuclear charge) could each break", "anchors": ["src/calculations.cpp: bethek_dedx_e, bethek_barkas, precalculated_lindhard, z_eff_Pierce_Blann, dedx_n", "src/calculations.cpp: dedx", "src/catima.cpp: calculate_DataPoint, range"]}
{"id": "C136", "title": "What the scattering power depends on", "statement": "angular_scattering_power of a material is the sum of those of its components weighted by mass. At one energy per nucleon da2dx depends on the ion through (Z/A)^2 alone: not on its charge state, and an alpha particle is scattered a quarter as strongly as a proton. It is positive, falls with the energy and is smaller for the heavier isotope. The options differ by a constant: (15 MeV)^2 within 0.2 per cent for Rossi's formula and differential Highland, (14.1 MeV)^2 otherwise.", "quantifier": "all ions, energies, materials, configurations", "why_tests_cant": "scaling laws and orders over continua of energies and masses and all compositions", "anchors": ["src/calculations.cpp: angular_scattering_power", "src/catima.cpp: da2dx", "src/calculations.cpp: radiation_length"]}
{"id": "C137", "title": "The scattering factor scales the scattering", "statement": "Config.scattering_factor scales da2dx, angular_straggling, angular_variance and the fields sigma_a, sigma_x and cov of calculate (variances in proportion, standard deviations with its root).", "quantifier": "all ions, materials, layers, energies, factors, histories", "why_tests_cant": "independence of a parameter, over all values and histories", "anchors": ["include/catima/config.h: Config::scattering_factor", "src/catima.cpp: da2dx", "src/catima.cpp: angular_variance", "src/catima.cpp: calculate"]}
{"id": "C138", "title": "The spreads that calculate reports form a covariance matrix", "statement": "For an ion that leaves a layer calculate reports cov^2 <= sigma_x^2 sigma_a^2, so that sigma_x, sigma_a and cov describe a distribution of positions and angles, whatever the scattering model and the scattering factor.", "quantifier": "all ions, layers, configurations, histories of earlier calls", "why_tests_cant": "an inequality between three fields computed along two different paths, over all inputs and values of the configuration", "anchors": ["src/catima.cpp: calculate", "src/catima.cpp: angular_variance", "src/catima.cpp: angular_straggling_from_E", "include/catima/config.h: Config::scattering_factor"]}
{"id": "C139", "title": "The energy-loss variance has no jumps", "statement": "domega2dx, the energy-loss variance per thickness, is a continuous function of the energy: the limit of Firsov sets in and ends, and the Lindhard-Sorensen X correction takes over from the constant 1, without a jump. Between 2.5 and 32 MeV/u the limit of Firsov is not reached and the variance is that of Bohr times gamma^2, within -5 and +33 per cent.", "quantifier": "all ions up to Z = 108 with masses up to three atomic weights, all sound materials, all energies, the effective charge of Pierce and Blann or a given charge up to Z, both straggling options", "why_tests_cant": "continuity at a continuum of energies, for all ions and materials", "anchors": ["src/calculations.cpp: dedx_variance, energy_straggling_firsov, precalculated_lindhard_X", "src/catima.cpp: domega2dx"]}
{"id": "C140", "title": "The straggling option changes the straggling only and the option atima never reports less of it", "statement": "Two calls of calculate that differ only in Config.calculation report the same Ein, Eout, Eloss, range, dEdxi, dEdxo, sigma_x, cov and sp (and, for the scattering models without a table, sigma_a). The energy-loss variance with straggling_atima is never smaller than with straggling_bohr: the same where the inner-shell correction of every component is 0, larger from 30 MeV/u on where that of one component is positive; so are the variances of the range and their growth between energies of the table, on which the energy straggling depends.", "quantifier": "all ions up to Z = 108, all sound materials, layers and energies, all other settings of the configuration, any two histories of earlier calls", "why_tests_cant": "independence of an option and an order between two configurations, over all inputs and all states of the cache", "anchors": ["include/catima/config.h: Config::calculation", "src/calculations.cpp: dedx_variance", "src/catima.cpp: calculate, calculate_DataPoint"]}
{"id": "C141", "title": "The energy-loss variance is a property of the ion times the electrons per mass of the material", "statement": "With the option bohr (the default), from 2.5 MeV/u on, domega2dx factorises: it is a number that depends on the ion and its energy times the number of electrons per mass of the material, sum of w Z/A. So two materials compare alike for all ions and energies, and two ions compare alike in all materials. From 30 MeV/u on it is proportional to the square of a given charge, with either option.", "quantifier": "all ions up to Z = 108, all energies from 2.5 MeV/u on, all sound materials, the effective charge of Pierce and Blann or a given charge up to Z", "why_tests_cant": "a factorisation over all compositions and a continuum of energies", "anchors": ["src/calculations.cpp: dedx_variance, energy_straggling_firsov, precalculated_lindhard_X", "src/catima.cpp: domega2dx"]}
{"id": "C142", "title": "The energy loss of ions of higher nuclear charge fluctuates more strongly", "statement": "Up to 1000 MeV/u, of two ions of different elements with the same velocity the one with the higher nuclear charge has the larger energy-loss variance domega2dx, in every material, with both straggling options and for all isotopes up to three times as heavy as their element.", "quantifier": "all pairs of ions up to uranium, all energies up to 1000 MeV/u, all sound materials, both straggling options, the effective charge of Pierce and Blann", "why_tests_cant": "an order over all pairs of ions, isotopes, materials and a continuum of energies", "anchors": ["src/calculations.cpp: dedx_variance, energy_straggling_firsov, precalculated_lindhard_X, z_eff_Pierce_Blann", "src/catima.cpp: domega2dx"]}
{"id": "C143", "title": "The energy-loss variance grows with the energy", "statement": "With the option bohr (the default), up to 10 GeV/u, domega2dx of an ion grows with its energy in every material.", "quantifier": "all ions up to Z = 108 up to three times as heavy as their element, all sound materials, all pairs of energies, the effective charge of Pierce and Blann or a given charge", "why_tests_cant": "monotonicity over a continuum of energies, for all ions, isotopes and materials", "anchors": ["src/calculations.cpp: dedx_variance, energy_straggling_firsov, precalculated_lindhard_X", "src/catima.cpp: domega2dx"]}
{"id": "C144", "title": "The variance of the range grows the faster the higher the energy", "statement": "With the option bohr, range_variance is convex in the energy on the energies of the table between 30 and 300 MeV/u, and its growth from one to another lies between A*dE*domega2dx/dedx^3 of the lower and of the higher energy, up to 1e-6.", "quantifier": "all ions, materials and configurations of C132 up to three times as heavy as their element, all pairs and quadruples of energies of the table between 30 and 300 MeV/u, all histories", "why_tests_cant": "relates tabulated integrals to the physics at their ends for all ions, materials and histories; a test compares a few numbers with reference values", "anchors": ["src/catima.cpp: calculate_DataPoint, fomega, range_variance", "src/calculations.cpp: dedx_variance", "include/catima/storage.h: get_data"]}
{"id": "C145", "title": "The option no_highenergy removes the radiative energy loss above 50 GeV/u and changes nothing else", "statement": "Two configurations that differ only in the flag no_highenergy give the same dedx at energies up to 50 GeV/u; above, dedx without the flag is larger by pair production and bremsstrahlung of the components by mass, which is positive. The ranges at the energies of the table up to 50 GeV/u are the same, beyond they are not larger without the flag.", "quantifier": "all ions, materials, energies, other settings and histories (ranges: ions up to Z = 108, usual materials)", "why_tests_cant": "the flag must be without effect at every energy of a continuum and in every combination with the other flags", "anchors": ["src/calculations.cpp: bethek_dedx_e, pair_production, bremsstrahlung", "src/catima.cpp: dedx, calculate_DataPoint", "include/catima/config.h: corrections"]}
{"id": "C146", "title": "The low-energy option changes what happens below 30 MeV/u only", "statement": "Two configurations that differ only in low_energy (srim_85, srim_95) give the same dedx from 30 MeV/u on. The way that an ion covers while it is slowed down between two energies of the table of at least 30 MeV/u (the difference of the ranges) and the variance of this way are the same.", "quantifier": "all ions, materials, energies from 30 MeV/u on, other settings, pairs of energies of the table and histories", "why_tests_cant": "independence of an option at every energy of a continuum and after any two histories of a cache that is keyed by the option", "anchors": ["src/calculations.cpp: sezi_dedx_e", "src/catima.cpp: dedx, calculate_DataPoint, range, range_variance", "include/catima/config.h: low_energy_types"]}
{"id": "C147", "title": "The charge state matters with the effective-charge option none only", "statement": "Unless z_effective is none, dedx, domega2dx and da2dx do not depend on the member Q of the projectile. With the default option pierce_blann, range, dedx_from_range, energy_out, range_variance, range_straggling, energy_straggling_from_E and the energies, ranges, stopping powers, longitudinal straggling, position spread, covariance and probability not to react that calculate reports for a material and for each layer of a stack do not depend on it either, although the cache keeps separate entries for the charge states.", "quantifier": "all projectiles, materials, options, energies, charge states and pairs of histories", "why_tests_cant": "independence of an input at every value of it and after any two histories of a cache that is keyed by this input", "anchors": ["src/calculations.cpp: z_effective, bethek_dedx_e, dedx_variance", "src/catima.cpp: dedx, domega2dx, da2dx, calculate_DataPoint, range, energy_out, range_straggling, energy_straggling_from_E", "include/catima/structures.h: Projectile"]}
{"id": "C148", "title": "The energy loss in a layer of given mass per area does not depend on the density", "statement": "For two layers of the same composition and the same thickness in g/cm2, calculate reports the same energies in front and behind, energy loss, range, stopping powers, range straggling, energy straggling and probability not to react, whatever the densities are and whatever was computed before. angular_variance of order 0 is the same, the covariance and the position spread sigma_x scale with the inverse of the density.", "quantifier": "all ions, materials, configurations, energies, thicknesses, pairs of densities and pairs of histories", "why_tests_cant": "independence of a real-valued input after any two histories of a cache that is keyed by this input", "anchors": ["src/catima.cpp: calculate, calculate_DataPoint, dedx", "src/reactions.cpp: nonreaction_rate", "include/catima/structures.h: Material::density"]}
