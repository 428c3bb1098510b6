{
 "claims": [
  {
   "property": "C01",
   "status": "proved",
   "theorems": [
    "Catima.weight_fractions_sum_to_one"
   ],
   "note": ""
  },
  {
   "property": "C02",
   "status": "proved",
   "theorems": [
    "Catima.fraction_material",
    "Catima.add_element_molar_mass"
   ],
   "note": ""
  },
  {
   "property": "C03",
   "status": "proved",
   "theorems": [
    "Catima.thickness_round_trip"
   ],
   "note": ""
  },
  {
   "property": "C04",
   "status": "partial",
   "theorems": [
    "Catima.material_eq_partial",
    "Catima.material_eq_not_transitive"
   ],
   "note": "reflexive, symmetric and insensitive to thickness; transitivity is refuted by the density tolerance (material_eq_not_transitive)"
  },
  {
   "property": "C05",
   "status": "proved",
   "theorems": [
    "Catima.layers_concat",
    "Catima.layers_thickness_add"
   ],
   "note": ""
  },
  {
   "property": "C06",
   "status": "partial",
   "theorems": [
    "Catima.layers_self_append_partial",
    "Catima.layers_self_append_undefined"
   ],
   "note": "appending another object is proved; l.add(l) is refuted: the range-for iterates over the vector it grows"
  },
  {
   "property": "C07",
   "status": "proved",
   "theorems": [
    "Catima.number_densities"
   ],
   "note": ""
  },
  {
   "property": "C08",
   "status": "proved",
   "theorems": [
    "Catima.cache_shape",
    "Catima.api_cache_shape",
    "Catima.api_cache_reachable"
   ],
   "note": ""
  },
  {
   "property": "C09",
   "status": "proved",
   "theorems": [
    "Catima.get_returns_match",
    "Catima.get_succeeds"
   ],
   "note": ""
  },
  {
   "property": "C10",
   "status": "proved",
   "theorems": [
    "Catima.hit_unchanged",
    "Catima.repeated_get"
   ],
   "note": ""
  },
  {
   "property": "C100",
   "status": "proved",
   "theorems": [
    "Catima.rounded_antisymm",
    "Catima.rounded_mono",
    "Catima.rounded_nonneg",
    "Catima.rounded_reaction_rate_f"
   ],
   "note": "for executions without overflow and NaN"
  },
  {
   "property": "C101",
   "status": "partial",
   "theorems": [
    "Catima.rounded_table_ascends",
    "Catima.rounded_cumulative",
    "Catima.rounded_range_table_partial",
    "Catima.rounded_knots"
   ],
   "note": "the range table ascends if the stopping power is positive at positive energies; missing: positivity of the stopping power in rounded arithmetic (it is proved over the reals)"
  },
  {
   "property": "C102",
   "status": "proved",
   "theorems": [
    "Catima.rounded_thickness_cm",
    "Catima.rounded_sum",
    "Catima.rounded_layers_thickness",
    "Catima.rounded_weights"
   ],
   "note": "for executions without overflow and NaN"
  },
  {
   "property": "C103",
   "status": "proved",
   "theorems": [
    "Catima.rounded_linspace"
   ],
   "note": "for executions without overflow and NaN"
  },
  {
   "property": "C104",
   "status": "partial",
   "theorems": [
    "Catima.nan_range_partial",
    "Catima.nan_calculate_wrong",
    "Catima.nan_calculate_returns",
    "Catima.nan_energy_out_wrong",
    "Catima.nan_layers_wrong",
    "Catima.nan_energy_wrong",
    "Catima.nan_thickness_wrong",
    "Catima.nan_lindhard",
    "Catima.nan_interpolate",
    "Catima.nan_density_wrong"
   ],
   "note": "refuted: in the default build every such call converts NaN to int, which is undefined; without ET_CALCULATED_INDEX energy_out returns -1 and layers report Eout = 0; materials that differ only by a NaN density are equal for the cache. What holds: range returns NaN where it returns"
  },
  {
   "property": "C105",
   "status": "proved",
   "theorems": [
    "Catima.lindhard_table_ultra",
    "Catima.lindhard_lookup_ultra"
   ],
   "note": "below this regime the calculation is a series over partial waves and the table is not compared with it"
  },
  {
   "property": "C106",
   "status": "partial",
   "theorems": [
    "Catima.generated_lookup_line",
    "Catima.generated_lookup_exact",
    "Catima.generated_lookup_wrong"
   ],
   "note": "proved for Z <= 108 and refuted for the two further elements which the tables announce: the generator writes LS_MAX_Z - 2 rows"
  },
  {
   "property": "C107",
   "status": "proved",
   "theorems": [
    "Catima.interpolant_increasing_wide",
    "Catima.interpolant_increasing",
    "Catima.slopes_near"
   ],
   "note": "values increase over distances of at least 2e-12 MeV/u (2e-13 if the slopes change by at most 37 %) with the calculated index (there the piece changes slightly before the point), over every distance with the searched index up to 9.9e6 MeV/u; the two unassigned cells of the matrix hold at most 0.02 in magnitude"
  },
  {
   "property": "C108",
   "status": "proved",
   "theorems": [
    "Catima.proton_stopping_steady",
    "Catima.proton_range_increasing",
    "Catima.proton_energy_out_below",
    "Catima.proton_energy_out_decreasing",
    "Catima.proton_calculate_returns",
    "Catima.range_increasing",
    "Catima.energy_out_below",
    "Catima.energy_out_decreasing"
   ],
   "note": "range_increasing, energy_out_below and energy_out_decreasing hold for every ion whose stopping power changes by at most 37 % over a step of the energy table; the two unassigned cells of the matrix hold at most 0.02 in magnitude; layers of at least 1e-5 g/cm2 (the tolerance of energy_out)"
  },
  {
   "property": "C109",
   "status": "partial",
   "theorems": [
    "Catima.radiation_length_light_partial",
    "Catima.radiation_length_tabulated",
    "Catima.radiation_length_heavy_wrong"
   ],
   "note": "holds for the 24 tabulated elements (within 5 %) and for the others up to Z = 51, for every mass; refuted for every untabulated element from Z = 52 to 109 (more than 10 % too short, 25 % at Z = 98): the source writes '- -1.202*a2' for the Coulomb correction"
  },
  {
   "property": "C11",
   "status": "proved",
   "theorems": [
    "Catima.fifo_contents",
    "Catima.fifo_every_history",
    "Catima.fifo_eviction"
   ],
   "note": ""
  },
  {
   "property": "C110",
   "status": "proved",
   "theorems": [
    "Catima.helium_stopping_steady",
    "Catima.helium_range_increasing",
    "Catima.helium_energy_out_below",
    "Catima.helium_energy_out_decreasing",
    "Catima.helium_calculate_returns"
   ],
   "note": "as C108 for helium ions; C111 for heavier ions"
  },
  {
   "property": "C111",
   "status": "proved",
   "theorems": [
    "Catima.ion_stopping_steady",
    "Catima.ion_range_increasing",
    "Catima.ion_energy_out_below",
    "Catima.ion_energy_out_decreasing",
    "Catima.ion_calculate_returns"
   ],
   "note": "as C108 for the ions from lithium to uranium; for ions from nickel on the Barkas correction must be on and a given mean excitation energy must satisfy I^2 <= 8620 Z for every component (the table does); ions beyond uranium need the condition on the stopping power of range_increasing; element 91 as a target is left out because its row of the low-energy table differs from the neighbours, 85 and 87 have no data"
  },
  {
   "property": "C112",
   "status": "partial",
   "theorems": [
    "Catima.energy_out_stops_wrong",
    "Catima.energy_out_finds_partial"
   ],
   "note": "refuted: protons of about 24 keV in lead with the coefficients of 1995 are reported as stopped although their range exceeds the thickness by more than 2e-5 g/cm2. What holds: the energy is found where the stopping power at the iterates is less than a factor of two from the mean stopping power"
  },
  {
   "property": "C113",
   "status": "proved",
   "theorems": [
    "Catima.layers_slow_down",
    "Catima.layer_energy"
   ],
   "note": "layers of at least 1e-5 g/cm2 (the tolerance of the search); up to 2e-13 MeV/u for each layer, the tolerance of the index of the energy table"
  },
  {
   "property": "C114",
   "status": "partial",
   "theorems": [
    "Catima.range_positive_partial",
    "Catima.range_negative",
    "Catima.derived_stopping_positive",
    "Catima.calculate_positive"
   ],
   "note": "refuted: below 1e-3 MeV/u range is negative for every ion and material (the interpolator is continued by a straight line). The rest is proved, for energies up to 9.8e6 MeV/u in the case of the time of flight; the two unassigned cells of the matrix hold at most 0.02 in magnitude"
  },
  {
   "property": "C115",
   "status": "proved",
   "theorems": [
    "Catima.angular_straggling_positive",
    "Catima.angular_table_gentle",
    "Catima.angular_view"
   ],
   "note": "hypotheses: the ions and materials of C108, C110, C111, a scattering factor above 1e-3 (the cache returns tables of a scattering factor within 1e-3), energies above 1e-3 MeV/u; with the calculated index and without the thin-target branch the two energies must differ by 2e-12 MeV/u; the two unassigned cells of the matrix hold at most 0.02 in magnitude"
  },
  {
   "property": "C116",
   "status": "partial",
   "theorems": [
    "Catima.documented_input_partial",
    "Catima.documented_range_wrong"
   ],
   "note": "refuted for ranges of two energies ({min,max,num:2} is answered by 'no energy specified'). Proved for all other documents of the described form; the config entry and the density of compounds are the subject of C80, steps that are not integers or do not divide the range of C83. std::stod is a parameter"
  },
  {
   "property": "C117",
   "status": "partial",
   "theorems": [
    "Catima.bad_input_rejected_partial",
    "Catima.loose_input_wrong"
   ],
   "note": "refuted for projectiles that are not arrays, for arrays of energies with strings, and for Z given as a boolean, a fraction or an integer above 2^31. All other listed cases are proved to be rejected"
  },
  {
   "property": "C118",
   "status": "proved",
   "theorems": [
    "Catima.documented_input_computed",
    "Catima.calcLoop_runs"
   ],
   "note": "layers of at least 1e-5 g/cm2, energies up to 9.9e6 MeV/u; up to 2e-13 MeV/u for each layer, the tolerance of the index of the energy table; the two unassigned cells of the matrix hold at most 0.02 in magnitude"
  },
  {
   "property": "C119",
   "status": "partial",
   "theorems": [
    "Catima.energy_loss_partial",
    "Catima.energy_behind_partial",
    "Catima.energy_out_negative_wrong",
    "Catima.energy_loss_exceeds_wrong"
   ],
   "note": "refuted for protons of 23 to 25 keV in hydrogen gas with the default options: Eout below -0.4 keV and Eloss above the kinetic energy. Proved for ions whose range exceeds the thickness by 1e-5 g/cm2 (the tolerance of the search) and for ions that stop; Eout may be -1, the mark of a search without result. The two unassigned cells of the matrix hold at most 0.02 in magnitude"
  },
  {
   "property": "C12",
   "status": "proved",
   "theorems": [
    "Catima.no_duplicates"
   ],
   "note": ""
  },
  {
   "property": "C120",
   "status": "partial",
   "theorems": [
    "Catima.one_by_one_partial",
    "Catima.one_by_one_stopping_partial",
    "Catima.one_by_one_wrong"
   ],
   "note": "proved if some component is given by a number of atoms, and for stopping power and straggling of all mixtures; refuted for the molar mass and the number of atoms of every mixture given by weight fractions with two different masses (reaction rates use them)"
  },
  {
   "property": "C121",
   "status": "partial",
   "theorems": [
    "Catima.formula_scaled_partial",
    "Catima.formula_scaled_wrong"
   ],
   "note": "proved if all numbers are at least 1; refuted for every formula that has numbers below 1 beside others and in which the elements with the numbers below 1 are lighter than the formula unit"
  },
  {
   "property": "C122",
   "status": "proved",
   "theorems": [
    "Catima.energy_out_ordered",
    "Catima.energy_out_faster"
   ],
   "note": "strict for every build if another 1e-6 g/cm2 and 3e-10 of the range are left; with 2e-5 g/cm2 strict for the searched index of the table up to 9.9e6 MeV/u, up to 2e-13 MeV/u otherwise; the two unassigned cells of the matrix hold at most 0.02 in magnitude"
  },
  {
   "property": "C123",
   "status": "proved",
   "theorems": [
    "Catima.corrections_directed",
    "Catima.corrections_directed_range"
   ],
   "note": "charge and low energy model and the Lindhard switch are the same in both configurations; strict unless the ion is neutral by option z_effective none"
  },
  {
   "property": "C124",
   "status": "proved",
   "theorems": [
    "Catima.excitation_directed",
    "Catima.excitation_directed_range"
   ],
   "note": "strict if the value is smaller for some component and the ion is not neutral"
  },
  {
   "property": "C125",
   "status": "proved",
   "theorems": [
    "Catima.compound_range",
    "Catima.compound_range_max"
   ],
   "note": "the elements are materials with weight fraction 1 and the mean excitation energy option of the compound; the second part for materials given by stoichiometric numbers"
  },
  {
   "property": "C126",
   "status": "proved",
   "theorems": [
    "Catima.charge_directed",
    "Catima.bare_nucleus_stopped",
    "Catima.charge_directed_range"
   ],
   "note": "for the options none and Pierce-Blann"
  },
  {
   "property": "C127",
   "status": "proved",
   "theorems": [
    "Catima.faster_scattered_less",
    "Catima.thicker_scatters_more"
   ],
   "note": "for ions that pass the layer with at least 1 keV/u; Gottschalk excluded (C59)"
  },
  {
   "property": "C128",
   "status": "partial",
   "theorems": [
    "Catima.nuclear_jumps",
    "Catima.stopping_jumps",
    "Catima.stopping_jumps_wrong",
    "Catima.stopping_no_jump_partial",
    "Catima.radiation_jumps",
    "Catima.radiation_jumps_wrong"
   ],
   "note": "refuted: at 50 GeV/u the stopping power jumps by the whole radiative energy loss; below 10 MeV/u the stopping power jumps exactly where the reduced energy is 30 (for ions from lithium to niobium also possibly at two switches of the effective charge); no jump off the switches of nuclear stopping, Barkas, density, Lindhard-Soerensen and radiation terms and of the effective charge"
  },
  {
   "property": "C129",
   "status": "proved",
   "theorems": [
    "Catima.magnification_positive"
   ],
   "note": "both magnifications are positive or both 0, after any history, in every build; the ranges at 99 % and 101 % of the energy must differ by slightly more than twice the tolerance of the search"
  },
  {
   "property": "C13",
   "status": "proved",
   "theorems": [
    "Catima.cache_transparent"
   ],
   "note": ""
  },
  {
   "property": "C130",
   "status": "partial",
   "theorems": [
    "Catima.energy_straggling_relation",
    "Catima.variance_increases_partial",
    "Catima.variance_decreases_wrong"
   ],
   "note": "the relation holds after any history; the difference is not negative at the energies of the table up to point 478 (about 1e5 MeV/u); refuted for helium-3 around 2.6 TeV/u; energies between the points of the table are not covered"
  },
  {
   "property": "C131",
   "status": "proved",
   "theorems": [
    "Catima.flight_between",
    "Catima.flight_between_ranges"
   ],
   "note": "for two energies of the table the way is the difference of the ranges over the density, after any history; for other energies it is the integral of 1/dedx that the library's quadrature gives"
  },
  {
   "property": "C132",
   "status": "proved",
   "theorems": [
    "Catima.stopping_falls"
   ],
   "note": "the distance of 1e-7 MeV/u covers the tolerance of the index of the Lindhard-Sorensen table; masses up to three atomic weights if that correction is on"
  },
  {
   "property": "C133",
   "status": "proved",
   "theorems": [
    "Catima.isotope_stopping",
    "Catima.isotope_range"
   ],
   "note": "below 2 MeV/u the nuclear stopping per mass may grow with the mass; not claimed there"
  },
  {
   "property": "C134",
   "status": "proved",
   "theorems": [
    "Catima.loss_between",
    "Catima.range_convex"
   ],
   "note": "energies of the table only; between them the range is the interpolating spline, which need not be convex"
  },
  {
   "property": "C135",
   "status": "proved",
   "theorems": [
    "Catima.heavier_element_stopping",
    "Catima.heavier_element_range"
   ],
   "note": "beyond uranium and 1000 MeV/u the bounds of the proof do not suffice; a given charge (option none) does not depend on the element"
  },
  {
   "property": "C136",
   "status": "proved",
   "theorems": [
    "Catima.scattering_power_adds",
    "Catima.scattering_rigidity",
    "Catima.scattering_power_order",
    "Catima.scattering_constant"
   ],
   "note": ""
  },
  {
   "property": "C137",
   "status": "partial",
   "theorems": [
    "Catima.scattering_factor_partial",
    "Catima.scattering_factor_ignored",
    "Catima.thin_layer_scatters",
    "Catima.scattering_factor_wrong",
    "Catima.calculate_factor_ignored",
    "Catima.sigma_a_partial"
   ],
   "note": "refuted: angular_variance, angular_straggling, sigma_x and cov ignore the factor; proved for da2dx and, with the default option, for sigma_a (its square is the factor times a number that does not depend on it; the factor may be one within 1e-3 that the cache holds, C14)"
  },
  {
   "property": "C138",
   "status": "partial",
   "theorems": [
    "Catima.covariance_invalid_wrong",
    "Catima.calculate_covariance_partial"
   ],
   "note": "refuted for the default option: behind thin layers with small scattering factors; holds for the formulas of Rossi and, from 1e-6 radiation lengths on, of differential Highland, for ions that leave the layer with at least 1 keV/u"
  },
  {
   "property": "C139",
   "status": "partial",
   "theorems": [
    "Catima.straggling_no_jump_partial",
    "Catima.firsov_ends_smoothly",
    "Catima.bohr_straggling",
    "Catima.straggling_jumps_wrong"
   ],
   "note": "refuted at 1 MeV/u for hydrogen ions with the option bohr (the default); no jump elsewhere, off the 200 points of the table of the X correction and the tolerance in front of them"
  },
  {
   "property": "C14",
   "status": "partial",
   "theorems": [
    "Catima.angular_transparent_partial",
    "Catima.angular_transparent_other_models",
    "Catima.angular_not_transparent"
   ],
   "note": "refuted for scattering factors within 1e-3 of each other; holds when scattering factors are equal or more than 1e-3 apart, and for the other scattering models"
  },
  {
   "property": "C140",
   "status": "proved",
   "theorems": [
    "Catima.straggling_option_isolated",
    "Catima.straggling_option_order",
    "Catima.range_straggling_option"
   ],
   "note": "sigma_a of the default scattering model is left out, since the cache may answer with a scattering factor that differs by 1e-3 (C14); the time of flight is computed with the default configuration in any case (C57)"
  },
  {
   "property": "C141",
   "status": "proved",
   "theorems": [
    "Catima.straggling_value",
    "Catima.straggling_materials",
    "Catima.straggling_ions",
    "Catima.straggling_charge_square"
   ],
   "note": "for energies that the X table can be read at (LindhardReadable, C95); below 30 MeV/u for ions up to three times as heavy as their element"
  },
  {
   "property": "C142",
   "status": "proved",
   "theorems": [
    "Catima.heavier_element_straggling"
   ],
   "note": ""
  },
  {
   "property": "C143",
   "status": "partial",
   "theorems": [
    "Catima.straggling_grows_partial",
    "Catima.straggling_grows_wrong"
   ],
   "note": "refuted over 1 MeV/u for hydrogen ions; proved below 1 MeV/u and from 1 MeV/u to 10 GeV/u between energies that differ by at least 1 eV/u"
  },
  {
   "property": "C144",
   "status": "proved",
   "theorems": [
    "Catima.variance_between",
    "Catima.variance_convex"
   ],
   "note": "on the energies of the table; between them the spline interpolates (C130)"
  },
  {
   "property": "C145",
   "status": "proved",
   "theorems": [
    "Catima.high_energy_below",
    "Catima.high_energy_above",
    "Catima.radiationLoss_pos",
    "Catima.high_energy_range"
   ],
   "note": ""
  },
  {
   "property": "C146",
   "status": "proved",
   "theorems": [
    "Catima.low_energy_above",
    "Catima.low_energy_range"
   ],
   "note": ""
  },
  {
   "property": "C147",
   "status": "proved",
   "theorems": [
    "Catima.charge_state_ignored",
    "Catima.charge_state_calls",
    "Catima.charge_state_calculate",
    "Catima.charge_state_layers"
   ],
   "note": "the calls that read the tables: for the configurations of Computable, that is with the option pierce_blann; the stopping power and variances: for all options except none, faults included"
  },
  {
   "property": "C148",
   "status": "proved",
   "theorems": [
    "Catima.density_calculate",
    "Catima.density_scattering",
    "Catima.density_spread"
   ],
   "note": "for the configurations of Computable, the spreads in builds without assertions and for positive densities; the time of flight scales with the inverse of the density (C58)"
  },
  {
   "property": "C15",
   "status": "proved",
   "theorems": [
    "Catima.tables_independent"
   ],
   "note": ""
  },
  {
   "property": "C16",
   "status": "partial",
   "theorems": [
    "Catima.returned_entry_computed_partial",
    "Catima.default_key_uncomputed",
    "Catima.default_key_faults"
   ],
   "note": "holds for every key not equal to the default-constructed one; refuted for the default key, which hits an uncomputed slot"
  },
  {
   "property": "C17",
   "status": "partial",
   "theorems": [
    "Catima.reference_lifetime_partial",
    "Catima.reference_of_hit_lost",
    "Catima.library_reference_lost"
   ],
   "note": "holds for freshly computed entries (59 misses) and, for hits, as long as the slot is ahead of the write position; refuted for hits on the oldest entry"
  },
  {
   "property": "C18",
   "status": "proved",
   "theorems": [
    "Catima.reset_fresh"
   ],
   "note": ""
  },
  {
   "property": "C19",
   "status": "proved",
   "theorems": [
    "Catima.store_splines_equiv"
   ],
   "note": ""
  },
  {
   "property": "C20",
   "status": "proved",
   "theorems": [
    "Catima.energy_grid",
    "Catima.energy_table_range"
   ],
   "note": ""
  },
  {
   "property": "C21",
   "status": "proved",
   "theorems": [
    "Catima.index_correct",
    "Catima.index_searched_exact"
   ],
   "note": ""
  },
  {
   "property": "C22",
   "status": "proved",
   "theorems": [
    "Catima.index_options_agree",
    "Catima.index_options_differ"
   ],
   "note": ""
  },
  {
   "property": "C23",
   "status": "partial",
   "theorems": [
    "Catima.interpolate_knot",
    "Catima.interpolate_between_partial",
    "Catima.interpolate_outside",
    "Catima.interpolate_last_window"
   ],
   "note": "proved at grid points and inside intervals away from the index tolerance; refuted outside the table (0 instead of the end value); just below the last point the real-number model reads past the table"
  },
  {
   "property": "C24",
   "status": "proved",
   "theorems": [
    "Catima.log_array_same",
    "Catima.linear_array"
   ],
   "note": ""
  },
  {
   "property": "C25",
   "status": "proved",
   "theorems": [
    "Catima.spline_knots",
    "Catima.library_table_ordered",
    "Catima.log_array_ordered",
    "Catima.linear_array_ordered"
   ],
   "note": ""
  },
  {
   "property": "C26",
   "status": "proved",
   "theorems": [
    "Catima.spline_pieces",
    "Catima.spline_continuous"
   ],
   "note": "pieces, joins and extrapolation for every table; plain continuity for tables without index tolerance (with tolerance the piece above is already used 2.2e-15 below a point)"
  },
  {
   "property": "C27",
   "status": "proved",
   "theorems": [
    "Catima.spline_deriv"
   ],
   "note": ""
  },
  {
   "property": "C28",
   "status": "partial",
   "theorems": [
    "Catima.spline_smooth_partial",
    "Catima.spline_not_smooth",
    "Catima.library_spline_not_smooth"
   ],
   "note": "refuted: the slope jumps at grid points of the library's table; holds on equally spaced tables with zeroed memory"
  },
  {
   "property": "C29",
   "status": "partial",
   "theorems": [
    "Catima.trig_solve_solves_partial",
    "Catima.trig_solve_solves_exchanged",
    "Catima.trig_solve_wrong"
   ],
   "note": "refuted: the solver exchanges the off-diagonal entries of every row; holds for matrices with equal off-diagonal entries"
  },
  {
   "property": "C30",
   "status": "proved",
   "theorems": [
    "Catima.spline_linear",
    "Catima.spline_exact_on_lines"
   ],
   "note": ""
  },
  {
   "property": "C31",
   "status": "proved",
   "theorems": [
    "Catima.gl_inside",
    "Catima.gl_defined",
    "Catima.gl_linear",
    "Catima.gl_antisymm",
    "Catima.gl_mono",
    "Catima.gl_nonneg",
    "Catima.gl_const"
   ],
   "note": ""
  },
  {
   "property": "C32",
   "status": "proved",
   "theorems": [
    "Catima.gl_polynomial"
   ],
   "note": ""
  },
  {
   "property": "C33",
   "status": "partial",
   "theorems": [
    "Catima.gl_get_points_partial",
    "Catima.gl_get_points_odd",
    "Catima.gk_get_points_wrong"
   ],
   "note": "proved for even Gauss-Legendre orders; refuted for odd orders and for all Gauss-Kronrod rules: the last entry of the array is never assigned"
  },
  {
   "property": "C34",
   "status": "proved",
   "theorems": [
    "Catima.gk_inside",
    "Catima.gk_adaptive",
    "Catima.gk_nonneg",
    "Catima.gk_reversed",
    "Catima.gk_parts",
    "Catima.gk_intervals"
   ],
   "note": "gk_reversed: with reversed bounds no refinement takes place"
  },
  {
   "property": "C35",
   "status": "proved",
   "theorems": [
    "Catima.stopping_zero",
    "Catima.nuclear_zero"
   ],
   "note": ""
  },
  {
   "property": "C36",
   "status": "proved",
   "theorems": [
    "Catima.stopping_positive_low",
    "Catima.sound_of_stoich"
   ],
   "note": ""
  },
  {
   "property": "C37",
   "status": "proved",
   "theorems": [
    "Catima.stopping_ends",
    "Catima.stopping_blend",
    "Catima.stopping_no_jump"
   ],
   "note": ""
  },
  {
   "property": "C38",
   "status": "proved",
   "theorems": [
    "Catima.nuclear_additive",
    "Catima.sezi_additive",
    "Catima.bethe_additive",
    "Catima.straggling_additive",
    "Catima.stopping_additive",
    "Catima.radiation_length_harmonic",
    "Catima.weighted_between",
    "Catima.compound_between"
   ],
   "note": ""
  },
  {
   "property": "C39",
   "status": "proved",
   "theorems": [
    "Catima.nuclear_nonneg"
   ],
   "note": ""
  },
  {
   "property": "C40",
   "status": "proved",
   "theorems": [
    "Catima.pierce_blann_bounds",
    "Catima.pierce_blann_strictMono",
    "Catima.pierce_blann_limit",
    "Catima.z_effective_basic"
   ],
   "note": ""
  },
  {
   "property": "C41",
   "status": "partial",
   "theorems": [
    "Catima.z_eff_bounds_partial",
    "Catima.z_eff_upper_partial",
    "Catima.z_eff_lower_partial",
    "Catima.anthony_landford_partial",
    "Catima.schiwietz_positive_partial",
    "Catima.anthony_landford_negative",
    "Catima.schiwietz_exceeds_Z",
    "Catima.winger_negative",
    "Catima.winger_bounds_partial",
    "Catima.winger_negative_106",
    "Catima.z_eff_global_negative"
   ],
   "note": "proved for none, Pierce-Blann, Hubert (charges up to 118) and Winger (up to 105, in every target); refuted for Anthony-Landford (negative at low velocity), Schiwietz (above Z), Winger for Z = 106 to 118 in hydrogen (negative) and global (-1), with the parts that hold proved"
  },
  {
   "property": "C42",
   "status": "partial",
   "theorems": [
    "Catima.z_eff_global_partial",
    "Catima.z_eff_global_wrong"
   ],
   "note": "refuted: the energy is passed in place of the velocity"
  },
  {
   "property": "C43",
   "status": "proved",
   "theorems": [
    "Catima.gamma_beta_bounds",
    "Catima.gamma_beta_strictMono",
    "Catima.momentum_relation",
    "Catima.momentum_definitions_agree",
    "Catima.kinematics_at_rest"
   ],
   "note": ""
  },
  {
   "property": "C44",
   "status": "proved",
   "theorems": [
    "Catima.barkas_ge_one",
    "Catima.barkas_decreasing",
    "Catima.radiative_nonneg"
   ],
   "note": ""
  },
  {
   "property": "C45",
   "status": "partial",
   "theorems": [
    "Catima.lindhard_lookup_partial",
    "Catima.lindhard_high_Z",
    "Catima.lindhard_low_Z"
   ],
   "note": "proved for charges 1 to 108; refuted from 109 on and below 1 (out-of-bounds reads)"
  },
  {
   "property": "C46",
   "status": "proved",
   "theorems": [
    "Catima.radiation_length_pos",
    "Catima.radiation_length_harmonic",
    "Catima.radiation_length_between"
   ],
   "note": ""
  },
  {
   "property": "C47",
   "status": "proved",
   "theorems": [
    "Catima.variance_bounds",
    "Catima.variance_bounds_low",
    "Catima.straggling_nonneg"
   ],
   "note": ""
  },
  {
   "property": "C48",
   "status": "partial",
   "theorems": [
    "Catima.data_point_defined",
    "Catima.range_table_increasing",
    "Catima.range_table_strict",
    "Catima.angular_table_monotone",
    "Catima.angular_table_nondecreasing",
    "Catima.straggling_table_partial",
    "Catima.straggling_table_low_partial",
    "Catima.straggling_table_decreases"
   ],
   "note": "range and angular tables proved; the straggling table is non-decreasing as far as the X correction is non-negative (always for the first 479 points) and decreases for He-3 at 2.6 TeV/u"
  },
  {
   "property": "C49",
   "status": "proved",
   "theorems": [
    "Catima.energy_out_certified",
    "Catima.energy_out_certified_real",
    "Catima.energy_out_succeeds"
   ],
   "note": ""
  },
  {
   "property": "C50",
   "status": "proved",
   "theorems": [
    "Catima.energy_out_stops"
   ],
   "note": ""
  },
  {
   "property": "C51",
   "status": "partial",
   "theorems": [
    "Catima.energy_out_bounds_partial",
    "Catima.energy_out_negative_on",
    "Catima.energy_out_negative"
   ],
   "note": "refuted: an increasing range table on the library's grid for which the returned energy is negative, and by C119 the table that the library computes for protons in hydrogen; the bounds that do hold are proved"
  },
  {
   "property": "C52",
   "status": "proved",
   "theorems": [
    "Catima.energy_out_terminates",
    "Catima.energy_out_defined"
   ],
   "note": ""
  },
  {
   "property": "C53",
   "status": "proved",
   "theorems": [
    "Catima.energy_out_vector",
    "Catima.dedx_from_range_vector",
    "Catima.vector_defined"
   ],
   "note": ""
  },
  {
   "property": "C54",
   "status": "proved",
   "theorems": [
    "Catima.calculate_below_limit",
    "Catima.calculate_zero_thickness",
    "Catima.calculate_stopped",
    "Catima.calculate_stopped_reached"
   ],
   "note": ""
  },
  {
   "property": "C55",
   "status": "proved",
   "theorems": [
    "Catima.calculate_balance"
   ],
   "note": ""
  },
  {
   "property": "C56",
   "status": "proved",
   "theorems": [
    "Catima.calculate_agrees",
    "Catima.calculate_agrees_out",
    "Catima.calculate_succeeds"
   ],
   "note": ""
  },
  {
   "property": "C57",
   "status": "partial",
   "theorems": [
    "Catima.calculate_tof_partial",
    "Catima.calculate_tof_wrong"
   ],
   "note": "refuted: the time of flight is the one for the global default configuration, which differs for neutral carbon in water; all other fields follow the supplied configuration (calculate_agrees, calculate_agrees_out)"
  },
  {
   "property": "C58",
   "status": "proved",
   "theorems": [
    "Catima.tof_nonneg",
    "Catima.tof_positive",
    "Catima.tof_same",
    "Catima.tof_density",
    "Catima.tof_table"
   ],
   "note": ""
  },
  {
   "property": "C59",
   "status": "partial",
   "theorems": [
    "Catima.angular_moments_partial",
    "Catima.angular_variance_wrong",
    "Catima.highland_negative",
    "Catima.highland_variance_wrong"
   ],
   "note": "refuted for the Gottschalk formula (negative variance in thin layers) and for differential Highland in layers of about 1e-9 radiation lengths, where its factor (1+ln l/20.7)(1+ln l/22.7) integrates to a negative number; differential Highland is proved from 1e-6 radiation lengths on, the other formulas without restriction"
  },
  {
   "property": "C60",
   "status": "proved",
   "theorems": [
    "Catima.magnification_cases",
    "Catima.magnification_defined"
   ],
   "note": ""
  },
  {
   "property": "C61",
   "status": "proved",
   "theorems": [
    "Catima.layers_crossing",
    "Catima.layers_each"
   ],
   "note": ""
  },
  {
   "property": "C62",
   "status": "proved",
   "theorems": [
    "Catima.layers_totals",
    "Catima.layers_balance"
   ],
   "note": ""
  },
  {
   "property": "C63",
   "status": "proved",
   "theorems": [
    "Catima.layers_split"
   ],
   "note": ""
  },
  {
   "property": "C64",
   "status": "proved",
   "theorems": [
    "Catima.layers_transport"
   ],
   "note": ""
  },
  {
   "property": "C65",
   "status": "proved",
   "theorems": [
    "Catima.layers_sp",
    "Catima.calculate_sp"
   ],
   "note": ""
  },
  {
   "property": "C66",
   "status": "partial",
   "theorems": [
    "Catima.no_layers_partial",
    "Catima.no_layers_stopped"
   ],
   "note": "refuted: the total reports Eout = 0; the rest is proved"
  },
  {
   "property": "C67",
   "status": "proved",
   "theorems": [
    "Catima.reaction_complement",
    "Catima.reaction_bounds",
    "Catima.nonreaction_multiplicative",
    "Catima.nonreaction_decreasing",
    "Catima.reaction_rate_constant"
   ],
   "note": ""
  },
  {
   "property": "C68",
   "status": "proved",
   "theorems": [
    "Catima.production_bounds",
    "Catima.production_nonneg"
   ],
   "note": ""
  },
  {
   "property": "C69",
   "status": "proved",
   "theorems": [
    "Catima.nonreaction_cases",
    "Catima.nonreaction_probability",
    "Catima.kox_nonneg",
    "Catima.kox_negative",
    "Catima.kox_nonneg_above_limit",
    "Catima.kox_continuous"
   ],
   "note": ""
  },
  {
   "property": "C70",
   "status": "proved",
   "theorems": [
    "Catima.isotope_tables",
    "Catima.isotope_partition"
   ],
   "note": ""
  },
  {
   "property": "C71",
   "status": "partial",
   "theorems": [
    "Catima.isotope_rejected_partial",
    "Catima.isotope_negative_index"
   ],
   "note": "refuted for negative isotope numbers, which are read as indices before the table entry"
  },
  {
   "property": "C72",
   "status": "proved",
   "theorems": [
    "Catima.material_sound",
    "Catima.material_unknown",
    "Catima.material_element"
   ],
   "note": ""
  },
  {
   "property": "C73",
   "status": "partial",
   "theorems": [
    "Catima.formula_names_partial",
    "Catima.sodium_carbonate_wrong"
   ],
   "note": "proved for all formula names except Na2CO3, refuted for Na2CO3"
  },
  {
   "property": "C74",
   "status": "partial",
   "theorems": [
    "Catima.materialdb_inverse_partial",
    "Catima.materialdb_id_spec",
    "Catima.materialdb_inverse_wrong"
   ],
   "note": "refuted for BC_400 (reported as Plastics), Brass and RW3 (not found)"
  },
  {
   "property": "C75",
   "status": "proved",
   "theorems": [
    "Catima.element_weight_range",
    "Catima.element_density_range",
    "Catima.ipot_range"
   ],
   "note": ""
  },
  {
   "property": "C76",
   "status": "partial",
   "theorems": [
    "Catima.catima_range_constant",
    "Catima.catima_range_wrong"
   ],
   "note": "refuted for protons in copper; what is computed (a value that does not depend on T) is proved"
  },
  {
   "property": "C77",
   "status": "partial",
   "theorems": [
    "Catima.c_calls_independent_partial",
    "Catima.c_history_config",
    "Catima.c_straggling_config",
    "Catima.c_wrapper_leaks"
   ],
   "note": "proved for the four functions that take over catima_defaults; refuted for C++ calls with the default configuration"
  },
  {
   "property": "C78",
   "status": "proved",
   "theorems": [
    "Catima.make_material_cases"
   ],
   "note": ""
  },
  {
   "property": "C79",
   "status": "proved",
   "theorems": [
    "Catima.linspace_spec",
    "Catima.linspace_empty"
   ],
   "note": ""
  },
  {
   "property": "C80",
   "status": "partial",
   "theorems": [
    "Catima.calculator_results_partial",
    "Catima.calculator_config_ignored",
    "Catima.calculator_density_ignored",
    "Catima.calculator_num_two"
   ],
   "note": "refuted for the config entry, the density of compounds and num = 2; the rest is proved"
  },
  {
   "property": "C81",
   "status": "partial",
   "theorems": [
    "Catima.mocadi_lines_partial",
    "Catima.mocadi_lines_wrong"
   ],
   "note": "refuted: the line break after the beam is missing; all other lines are proved"
  },
  {
   "property": "C82",
   "status": "partial",
   "theorems": [
    "Catima.spline_knots",
    "Catima.spline_exact_on_lines",
    "Catima.spline_depends_on_junk",
    "Catima.library_depends_on_junk",
    "Catima.junk_decreases_wrong"
   ],
   "note": "refuted between grid points; with 8 in c[0] the interpolant of increasing data can even decrease, which contents of at most 0.02 exclude (C107); grid-point values and straight lines are independent of the memory contents"
  },
  {
   "property": "C83",
   "status": "partial",
   "theorems": [
    "Catima.energy_step_partial",
    "Catima.energy_step_below_one",
    "Catima.energy_step_wrong"
   ],
   "note": "proved for integer steps that divide the range into at least two parts, refuted for others"
  },
  {
   "property": "C84",
   "status": "proved",
   "theorems": [
    "Catima.gk_polynomial",
    "Catima.gk_error_estimate"
   ],
   "note": ""
  },
  {
   "property": "C85",
   "status": "partial",
   "theorems": [
    "Catima.lindhard_X_low_partial",
    "Catima.lindhard_X_natural_partial",
    "Catima.lindhard_X_negative",
    "Catima.variance_negative"
   ],
   "note": "proved up to the first 143 table points and for natural masses; refuted for He-3 at 2.6 TeV/u"
  },
  {
   "property": "C86",
   "status": "partial",
   "theorems": [
    "Catima.nonreaction_thin",
    "Catima.nonreaction_per_atom_partial",
    "Catima.weights_one_per_unit",
    "Catima.nonreaction_per_atom_wrong"
   ],
   "note": "proved for elements and compounds given by weight fractions, refuted for compounds given by numbers of atoms"
  },
  {
   "property": "C87",
   "status": "partial",
   "theorems": [
    "Catima.substance_names_partial",
    "Catima.substance_names_wrong"
   ],
   "note": "proved for all listed substances except Polyolefin and Suprasil, refuted for these"
  },
  {
   "property": "C88",
   "status": "proved",
   "theorems": [
    "Catima.stopping_positive",
    "Catima.bethe_nonneg"
   ],
   "note": "over the reals; left out is the window of 2.2e-15 MeV/u below 10 TeV/u in which the lookup of the Lindhard table reads past the energy table (no double lies in it)"
  },
  {
   "property": "C89",
   "status": "partial",
   "theorems": [
    "Catima.density_no_jump_partial",
    "Catima.density_jump_wrong"
   ],
   "note": "proved for all elements except astatine and francium, refuted for these"
  },
  {
   "property": "C90",
   "status": "proved",
   "theorems": [
    "Catima.thin_layer_loss"
   ],
   "note": ""
  },
  {
   "property": "C91",
   "status": "partial",
   "theorems": [
    "Catima.integrate2D_iterated_partial",
    "Catima.integrate2D_odd_wrong"
   ],
   "note": "proved for even orders, refuted for odd orders"
  },
  {
   "property": "C92",
   "status": "partial",
   "theorems": [
    "Catima.hyperg_series",
    "Catima.hyperg_error_partial",
    "Catima.hyperg_regular",
    "Catima.hyperg_error_wrong"
   ],
   "note": "termination and the value of the partial sum are proved for all arguments; the error bound is proved when the terms halve from the last one on and refuted in general"
  },
  {
   "property": "C93",
   "status": "partial",
   "theorems": [
    "Catima.lngamma_right_partial",
    "Catima.lngamma_left_partial",
    "Catima.lngamma_real",
    "Catima.lngamma_axis_wrong",
    "Catima.lngamma_arguments"
   ],
   "note": "proved in the right half plane, and in the left half plane up to the replacement of pi by the constant of the library in the reflection formula; refuted on the imaginary axis, where the library itself never evaluates it (lngamma_arguments)"
  },
  {
   "property": "C94",
   "status": "proved",
   "theorems": [
    "Catima.lindhard_series",
    "Catima.lindhard_ultrarelativistic",
    "Catima.lindhard_X_series",
    "Catima.lindhard_X_nonneg"
   ],
   "note": ""
  },
  {
   "property": "C95",
   "status": "partial",
   "theorems": [
    "Catima.lindhard_defined_almost_partial",
    "Catima.lindhard_defined_partial"
   ],
   "note": "proved for every element and all energies except finitely many below any bound (energies where the sum of the series inside the nucleus, an analytic function of the energy, is exactly zero), and without exception while R (1 + gamma) + 1.5 alpha Z <= 1.5 (uranium: up to several GeV/u); missing: that no exceptional energy exists"
  },
  {
   "property": "C96",
   "status": "partial",
   "theorems": [
    "Catima.atima14_continuous",
    "Catima.atima14_bounds_partial",
    "Catima.atima14_exceeds_Z"
   ],
   "note": "continuity is proved; the bounds are proved for Z <= 28 in every target and for Z <= 99 in targets from lithium on, and refuted for uranium in hydrogen"
  },
  {
   "property": "C97",
   "status": "partial",
   "theorems": [
    "Catima.calculator_exit_wrong"
   ],
   "note": "refuted: the status is 1 exactly on success"
  },
  {
   "property": "C98",
   "status": "proved",
   "theorems": [
    "Catima.layers_range",
    "Catima.layers_cut",
    "Catima.thicker_layer"
   ],
   "note": ""
  },
  {
   "property": "C99",
   "status": "proved",
   "theorems": [
    "Catima.rounded_gamma",
    "Catima.rounded_beta",
    "Catima.rounded_z_effective",
    "Catima.rounded_reaction",
    "Catima.rounded_survival",
    "Catima.rounded_dedx_n"
   ],
   "note": "for executions without overflow and NaN, see DESIGN.md; the libm functions are assumed to return values of the right sign and exp(x) <= 1 for x <= 0"
  }
 ]
}