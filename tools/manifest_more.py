T = "Auxi.Time.Props."
B = "Auxi.Business.Props."
def n(pre, *xs): return [pre + x for x in xs]
c("C01", "proved", n(T, "C01_calendar_sound", "C01_history", "C01_fixed", "C01_month", "C01_year", "C01_strictly_increasing", "C01_zero", "C01_months_years"))
c("C02", "partial", n(T, "C02_count_ignored", "C02_count_irrelevant", "C02_partial"), "false of the code for count > 1: the count is ignored (proved); holds for count 1")
c("C16", "proved", n(B, "C16_executes_iff_due", "C16_window", "C16_count"))
c("C17", "partial", n(B, "C17_start_beyond_horizon_runs", "C17_not_before_start_partial"), "false when the start is beyond the horizon (counterexample proved)")
c("C18", "proved", n(B, "C18_basic_run", "C18_basic_total"))
c("C19", "proved", n(B, "C19_loan_balance", "C19_interval_zero_counterexample"), "repetition interval nonzero; for interval 0 the counterexample is proved")
c("C20", "proved", n(B, "C20_repaid", "C20_run"))
c("C21", "partial", n(B, "C21_zero_rate_raises", "C21_constructible_partial"), "false of the code: construction raises ZeroDivisionError for rate 0 (proved)")
c("C22", "proved", n(B, "C22_run_is_entities_run", "C22_ledger"))
c("C23", "proved", n(B, "C23_rerun"))
c("C24", "proved", n(B, "C24_trial_balance", "C24_after_run"))
c("C25", "proved", n(B, "C25_entity_alone", "C25_entity_period", "C25_component_order", "C22_run_is_entities_run"))
c("C26", "partial", n(B, "C26_other_accounts_zero", "C26_guard_needed"), "needs that no transaction has income accounts on both sides; the guard is proved necessary")
c("C27", "partial", n(B, "C27_trading_accounts_doubled", "C27_counterexample"), "false of the code: the balance is doubled instead of zeroed (proved in general)")
c("C28", "partial", n(B, "C28_retained_earnings", "C28_profit_partial", "C28_loss_counterexample"), "false of the code for losses; exact effect on retained earnings proved")
c("C29", "proved", n(B, "C29_years_closed", "C29_years_increase", "C29_dates", "C29_one_per_period", "C29_says"))
c("C32", "partial", n(B, "C32_last_interval_dropped", "C32_count_partial", "C32_every_period"), "false: the last interval is dropped; exact count proved")
c("C33", "partial", n(B, "C33_last_year_not_closed", "C33_closed_iff_reached_partial"), "false for a year ending with the run; exact characterisation proved")
c("C34", "partial", n(B, "C34_stale_schedule", "C34_same_horizon_partial"), "false: the first run's indices stick; holds for equal horizons")
c("C35", "partial", n(B, "C35_sentinel_counterexample", "C35_interval_zero_counterexample", "C35_not_after_end_partial"), "false in sentinel and interval-0 cases; otherwise proved")
c("C36", "partial", n(B, "C36_default_start_never_executes"), "false of the code: it never executes (proved for every such loan)")
c("C37", "partial", n(B, "C37_debit_revenue_raises", "C37_succeeds_partial", "C37_exact"), "false: a debit of a revenue account outside sales raises unless a credit of it comes before; C37_exact says exactly when a period raises, for transactions with at most one income statement side")
c("C30", "proved", n(B, "C30_paths"))
c("C31", "proved", n(B, "C31_add_activity", "C31_history"))
c("C38", "partial", n(B, "C38_new_entity_path", "C38_after_rename_partial", "C38_created_partial"), "false of the code until the model is renamed (proved)")
R = "Auxi.Reports.Props."
c("C10", "proved", n(R, "C10_balance", "C10_balances_iff", "C10_entries", "C10_table", "C10_succeeds", "C10_refused"))
c("C11", "proved", n(R, "C11_transaction_list", "C11_succeeds", "C11_refused"))
c("C12", "partial", n(R, "C12_other_component_listed", "C12_segmentwise_partial"), "false of the code: prefix match on text also selects siblings whose name extends the component's (proved); holds if no such sibling exists")
c("C13", "partial", n(R, "C13_first_debit_counterexample", "C13_exact_partial", "C13_net_income_partial", "C13_table", "C13_refused"), "false when the first transaction of an account is on its unusual side (counterexample proved)")
c("C14", "proved", n(R, "C14_rows", "C14_order", "C14_top_order", "C14_succeeds_iff", "C14_unnumbered_counterexample"), "every account must be numbered; without, the report raises (proved)")
c("C15", "proved", n(R, "C15_render", "C15_error"))
c("C96", "partial", n(R, "C96_date_bound_raises", "C96_datetime_bound_partial"), "false of the code: date against datetime raises TypeError (proved); datetime bounds work")
S = "Auxi.Stoich.Props."
c("C40", "proved", n(S, "C40_parse_iff", "C40_unambiguous", "C40_accepts_iff", "C40_refused", "C40_coefficients"))
c("C41", "proved", n(S, "C41_molar_mass", "C41_phase", "C41_juxtapose", "C41_subscript"))
c("C42", "proved", n(S, "C42_mass_amount", "C42_amount_mass", "C42_convert_preserves_element", "C42_convert_absent", "C42_convert_back"))
c("C43", "proved", n(S, "C43_amount_fractions", "C43_mass_fractions", "C43_scale", "C43_element_fraction", "C43_element_share", "C43_elements_sum"))
c("C44", "partial", n(S, "C44_zero_subscript_counts_once", "C44_counterexample", "C44_zero_element_partial"), "false of the code for groups: zero counts as one (proved in general); true for elements")
c("C45", "proved", n(S, "C45_elements", "C45_succeeds_iff"))
H = "Auxi.Chem.Props."
c("C50", "proved", n(H, "C50_create", "C50_errors", "C50_not_normalised"))
c("C51", "partial", n(H, "C51_same_material_loses", "C51_counterexample", "C51_other_material_partial", "C51_succeeds", "C51_empty_package_rejected", "C51_tuple", "C51_addTo_same", "C51_mul"), "false of the code for packages of the same material: list concatenation loses the other's masses (proved in general); holds across materials and for tuples")
c("C52", "proved", n(H, "C52_conserves", "C52_error_unchanged", "C52_mass", "C52_too_much", "C52_compound", "C52_nonneg", "C52_empty_raises"))
c("C53", "partial", n(H, "C53_element_masses", "C53_element_mass", "C53_extract", "C53_add_other_partial", "C53_same_material_loses", "C53_total"), "false for adding packages of the same material (C51); proved for extraction and mixing across materials")
P = "Auxi.Psd.Props."
Y = "Auxi.Slurry.Props."
c("C46", "partial", n(P, "C46_create", "C46_not_normalised", "C46_zero_total", "C46_counterexample", "C46_unknown"), "false of the code for assays with total zero (proved in general); proved for all others")
c("C47", "partial", n(Y, "C47_create", "C47_as_is", "C47_unknown", "C47_zero_total", "C47_counterexample"), "false of the code for an all-zero assay (proved); proved for assays with non-zero total")
c("C48", "partial", n(P, "C48_empty_corrupted", "C48_counterexample", "C48_finite_partial") + n(Y, "C48_slurry_counterexample"), "false: extract(0.0) from an empty package gives NaN (proved for every empty package); holds for packages of non-zero mass")
c("C54", "partial", n(H, "C54_add_assay") + n(P, "C54_psd_add_assay") + n(Y, "C54_slurry_rejected_changes", "C54_slurry_counterexample", "C54_slurry_partial"), "proved for chem and psd; false for slurry: density and water of the existing assay are overwritten before the rejection (proved in general)")
c("C55", "partial", n(H, "C55_chem_clear_raises") + n(P, "C55_psd_clear") + n(Y, "C55_slurry_clear"), "false of the code for chem: clear always raises; proved for psd and slurry")
c("C56", "proved", n(P, "C56_mass", "C56_add_same", "C56_add_other", "C56_add_other_iff", "C56_tuple", "C56_tuple_succeeds", "C56_mul", "C56_addTo_same", "C56_addTo_error", "C56_extract", "C56_extracted", "C56_too_much", "C56_error_unchanged", "C56_nonneg", "C56_fractions"))
c("C57", "partial", n(Y, "C57_mass", "C57_volume", "C57_fractions", "C57_class_fractions", "C57_mix", "C57_mix_succeeds", "C57_no_solids", "C57_counterexample", "C57_mul", "C57_extract", "C57_error_unchanged", "C57_too_much"), "false when neither package has solids: density and volume become NaN (proved in general); proved otherwise")
c("C58", "partial", n(Y, "C58_any_string_is_water", "C58_counterexample", "C58_float_partial"), "false of the code: any (str, float) is taken for water (proved in general); (float, float) works")
c("C59", "partial", n(H, "C59_counterexample", "C59_addTo_partial", "C59_other_args_partial") + n(P, "C59_psd_counterexample", "C59_psd_addTo_partial", "C59_psd_other_args_partial"), "false for packages of another material with a foreign compound / size class late in its list; proved for the other arguments (slurry has no add_to)")
K = "Auxi.ThermoChem.Props."
c("C70", "proved", n(K, "C70_record", "C70_enthalpy", "C70_entropy"), "stated as integrals across record boundaries and as derivatives inside a record; for magnetic phases on the range of the data (above it see C75)")
c("C71", "proved", n(K, "C71_gibbs", "C71_defined"))
c("C72", "proved", n(K, "C72_continuous"))
c("C73", "proved", n(K, "C73_linear", "C73_gibbs", "C73_text"))
c("C74", "proved", n(K, "C74_magnetic"))
c("C75", "partial", n(K, "C75_overestimates", "C75_counterexample"), "false of the code: above the data the magnetic heat capacity is counted twice (excess proved exactly, in general)")
c("C76", "proved", n(K, "C76_reference", "C76_formation"))
c("C77", "partial", n(K, "C77_magnetic_dict_raises", "C77_plain_partial"), "false of the code: building a phase from a dictionary with magnetic data raises TypeError (proved for every such dictionary); without magnetic data it works")
c("C78", "proved", n(K, "C78_gibbs_slope"))
M = "Auxi.Thermo.Props."
c("C60", "proved", n(M, "C60_same", "C60_other", "C60_foreign", "C60_tuple", "C60_tuple3", "C60_scale", "C60_scale_refused", "C60_commutes", "C60_associates"))
c("C61", "proved", n(M, "C61_mass", "C61_too_much", "C61_compound", "C61_compound_mass", "C61_compound_too_much", "C61_unknown", "C61_material"))
c("C62", "partial", n(M, "C62_history_partial", "C62_full_history_partial", "C62_mix", "C62_compound_at", "C62_set", "C62_mixing_temperature", "C63_package_affine"), "proved for every history without operations that set the enthalpy, and for all histories, mixing and setting of enthalpies included, when the heat capacities are constant; false in general for small packages (C68)")
c("C63", "proved", n(M, "C63_stops", "C63_affine", "C63_keeps", "C63_package_keeps", "C63_package_affine", "C63_mixture"))
c("C65", "partial", n(M, "C65_added_assay_unusable", "C65_file_assay_partial", "C65_unknown"), "false of the code: every added assay raises KeyError on use (proved in general); assays from the file work")
c("C68", "partial", n(M, "C68_counterexample", "C68_one_step", "C63_package_affine"), "false of the code: the absolute tolerance accepts one linear step for small packages (general theorem and counterexample); exact for constant heat capacity")
c("C69", "partial", n(M, "C69_mix_empty", "C69_extract_empty", "C69_extract_partial"), "false of the code: mixing empty packages or extracting 0.0 from one gives values that are not finite (proved for every empty package)")
c("C49", "proved", n(M, "C49_element_masses", "C49_element_mass", "C49_mixing", "C49_splitting", "C49_total"))
c("C64", "proved", n(M, "C64_same", "C64_other", "C64_foreign", "C64_tuple", "C64_tuple3", "C64_scale", "C64_scale_refused", "C64_extract", "C64_extract_too_much", "C64_extract_compound", "C64_extract_compound_mfr", "C64_extract_material"), "for streams that are not coal; for coal see C86-C88")
c("C66", "partial", n(M, "C66_violated", "C66_enthalpy_kept", "C66_contents_partial", "C66_package_cleared"), "false of the code: the enthalpy flow rate is kept (proved for every stream); flows are zeroed")
c("C67", "partial", n(M, "C67_never_created", "C67_stream_partial", "C67_marked"), "false of the code for packages (proved in general); proved for streams")
c("C86", "partial", n(M, "C86_violated", "C86_with_hhv_partial"), "false of the code for coal without a heating value; proved for coal with one")
c("C87", "partial", n(M, "C87_violated", "C87_flows_partial", "C87_part_not_coal"), "false of the code for enthalpies; flows proved for every stream")
c("C88", "partial", n(M, "C88_violated", "C88_no_carbon_partial", "C88_without_hhv"), "false of the code for compounds with carbon (COs) and without a heating value; proved for compounds without carbon")
c("C89", "partial", n(M, "C89_never_returns", "C89_single_partial"), "false of the code: get_element_mfrs always raises; the single element function is proved")
c("C83", "proved", n("Auxi.Coals.Props.", "C83_derivative", "C83_integral"))
c("C97", "proved", n(M, "C97_compound", "C97_total", "C97_list", "C97_mixing", "C97_splitting", "C97_stream"))
c("C98", "proved", n(M, "C98_package", "C98_stream"))
c("C99", "proved", n(M, "C99_mixing", "C99_exists"))

F = "Auxi.Phys.Props."
c("C80", "partial", n(F, "C80_herningZipperer", "C80_idealCp", "C80_bounds_viscosity", "C80_bounds_heat_capacity", "C80_defined", "C80_scale", "C80_unlisted", "C80_wilke", "C80_wilke_bounds", "C80_pure", "C80_pure_air", "C80_air_violated", "C80_order"), "proved for all compositions of gases with molar masses; false of the code for pure air with Herning-Zipperer and ideal Cp, which always raise KeyError (proved)")
c("C81", "partial", n(F, "C81_betaT", "C81_rhoT", "C81_rhoTP", "C81_rhoTPx", "C81_polynomial", "C81_refusal", "C81_mixture", "C81_mixture_violated", "C81_mixture_missing", "C81_slag", "C81_slag_missing", "C81_slag_composition", "C81_slag_temperature", "C81_slag_temperature_mass", "C84_negative") + n("Auxi.Coals.Props.", "C81_coal_accepts_forbidden", "C81_coal_refuses"), "proved, in both directions, for the models that validate (ideal gas, polynomial); false of the code for gas mixtures, slags and coal, which never look at their schema (proved)")
c("C82", "proved", n(F, "C82_density", "C82_order", "C82_pressure", "C82_temperature", "C82_fixed_pressure", "C82_expansion", "C82_mixture", "C82_pure"))
c("C84", "partial", n(F, "C84_scale", "C84_positive", "C84_negative", "C84_urbain_defined", "C84_urbain_silica", "C84_riboud_defined", "C84_order", "C84_riboud_formula"), "proved wherever a value is returned at a positive temperature; the code returns negative viscosities at negative temperatures and refuses pure silica (Urbain)")
c("C85", "partial", n(F, "C85_violated", "C85_riboud_partial", "C85_unchanged", "C85_repeat", "C85_mass_fractions", "C85_refused_violated"), "false of the code: Riboud calls add single-cation oxides to the caller's dictionary, which changes later Urbain results (proved); exactly which entries change is proved, and that a repeated Riboud call is not affected")
c("C93", "partial", n(F, "C93_default_violated", "C93_alpha", "C93_nu", "C93_given", "C93_missing", "C93_prandtl"), "false of the code for the default property_models=None")
c("C94", "partial", n(F, "C94_urbain", "C94_riboud_partial", "C94_riboud_violated"), "proved for Urbain; false of Riboud's model for fluorspar, proved without fluorspar and alkalis")

FF = "Auxi.FileFormat.Props."
c("C95", "proved", n(FF, "C95_layout_irrelevant", "C95_chem", "C95_chem_package", "C95_psd", "C95_slurry", "C95_thermo_plain", "C95_thermo", "C95_number", "C95_white_space", "C95_number_iff", "C95_thermo_material", "C95_thermo_plain_material", "C95_thermo_package"), "float() is modelled for decimal notation; inf, nan, underscores and non-ASCII digits are not; rounding is not")
c("C100", "partial", n(FF, "C95_duplicate_violated", "C95_thermo_blank", "C95_leading_blank_violated", "C95_slurry_doc_violated", "C95_chem_refuses", "C95_slurry_refuses", "C95_empty", "C100_number_refused", "C100_slurry_short"), "false of the code: an assay named twice is accepted and its columns interleaved; blank lines after the # or before the heading make a file unreadable; the documented slurry example is unreadable; the refusals that do work are proved")

X = "Auxi.Transport.Props."
c("C90", "partial", n(X, "C90_up", "C90_inclined_up", "C90_vertical", "C90_inclined_down", "C90_down", "C90_outside", "C90_total", "C90_numbers", "C90_value", "C90_hot", "C90_missing", "C90_violated", "C90_cold_violated"), "the whole selection table and the value are proved for surfaces hotter than the fluid; false of the code at 88 degrees with Ra < 6 (IndexError), at 0 degrees with Ra = 11, and for every cold surface (complex result)")
c("C91", "partial", n(X, "C91_defined", "C91_units", "C91_grashof", "C91_products", "C91_rayleigh_violated"), "proved for Re, Gr, Pr, Nu, Sh; dimensionlessquantities.Ra raises NameError on every call (proved)")
c("C92", "partial", n(X, "C92_darcy", "C92_hydraulic_diameter", "C92_laminar", "C92_colebrook_root", "C92_colebrook", "C92_colebrook_exists", "C92_colebrook_total", "C92_colebrook_violated"), "Colebrook: proved when the solver (a parameter) returns a root; its failure flag is ignored by the code (proved)")
c("C101", "partial", n(X, "C101_grows_partial", "C101_grows_up_partial", "C101_violated"), "false at Ra = 7 from -90 to -52 degrees; proved elsewhere")
c("C102", "proved", n(X, "C102_coefficients"))
c("C103", "proved", n(X, "C103_smooth", "C103_laminar", "C103_haaland_defined", "C103_haaland_order", "C103_haaland_range", "C103_colebrook_order"))

T2 = "Auxi.ThermoChem.Props."
c("C104", "partial", n(T2, "C104_heat_capacity_partial", "C104_monotone_partial", "C104_gibbs_partial", "C104_violated"), "proved for every phase in the files but two: monoclinic sulphur (negative heat capacity above 303 degrees) and grey tin (no heat capacity terms); that these fail is proved")
c("C105", "proved", n(T2, "C105_molar_mass", "C105_one_mole"), "to twelve digits; numbers are the decimals in the files")
c("C106", "proved", n(T2, "C106_usable", "C106_no_clash", "C106_order"))
c("C107", "proved", n(M, "C107_monotone", "C107_temperature", "C107_set_same", "C107_between"), "whether the solver finds the temperature of a mixture is C62/C63/C68")

FS = "Auxi.FactSage.Props."
c("C108", "partial", n(FS, "C108_contents_partial", "C108_compound_partial", "C108_load_partial", "C108_reference_partial", "C108_short_line", "C108_restart_violated", "C108_formula_violated"), "proved when no record has the label of the one before it and the formula is followed by a blank; otherwise false of the code: KeyError, or the compound is stored under a formula with a line end (both proved)")

c("C109", "proved", n(F, "C109_gas", "C109_gas_refused", "C109_water", "C109_mixture"), "numbers are the decimals in the files; air in mixtures is C80")
c("C110", "partial", n(F, "C110_gas_hotter", "C110_prandtl", "C110_density", "C110_water_hotter_partial", "C110_water_nu_partial", "C110_water_violated"), "proved for gases and for water's viscosity and expansion; water's kinematic viscosity is proved within 2.1 % of mu/rho and falling up to 595 K, and is proved to differ by 2 % and to rise from 600 to 610 K; at 276 K expansion and density slope have the same sign")
c("C111", "partial", n(F, "C111_heat_capacity_partial", "C111_violated"), "proved within 5 % for four gases and within 10 % for all six; CO at 1000 K and water vapour at 373.15 K are proved to be over 9 % off")

CS = "Auxi.Csv.Props."
c("C112", "partial", n(CS, "C112_report_partial", "C112_template", "C112_distinct_partial", "C112_carriage_return_violated"), "proved for every table on Python 3.13 and later; before that for tables without a carriage return in a cell, and proved false with one (a row reads back as two)")
c("C113", "partial", n(CS, "C113_reader_total", "C113_header", "C113_columns", "C113_template", "C113_refused", "C113_refused_how", "C113_unknown_symbol", "C113_template_data", "C113_clash_violated"), "false of the code: file names are lower case, so the template of Co replaces that of CO (proved); the rest is proved. The numeric part of a data set (pandas) is not modelled")

CH = "Auxi.ChemHeap.Props."
c("C115", "partial", n(CH, "C115_step", "C115_history", "C115_start", "C115_untouched", "C115_own_lists", "C115_shared_violated"), "proved for every program of package operations; false of the code for lists that the caller passes to MaterialPackage and add_assay and uses again (proved), proved for lists that are not used again")

PE = "Auxi.Persist.Props."
c("C114", "partial", n(PE, "C114_object", "C114_compound", "C114_rounds", "C114_values", "C114_directory", "C114_database", "C114_number", "C114_layout_object", "C114_layout_list", "C114_escape", "C114_escape_refused", "C114_record_text", "C114_phase_text", "C114_compound_class", "C114_class_read", "C114_class_written", "C114_bad_phase", "C114_phase_violated", "C114_record_violated", "C114_magnetic_violated", "C114_load_violated"), "proved for all objects without a text of their own, for compounds with settled magnetic attributes and for directories; false of the code for phases and heat capacity records written on their own, for phases that are given magnetic data after they are made, and loading is not atomic (all proved)")

CF = "Auxi.ChemFloat.Props."
c("C116", "proved", n(CF, "C116_exact", "C116_never_negative", "C116_conserves", "C116_history", "C116_get_mass", "C116_requested", "C116_create", "C116_add_tuple", "C116_add_package", "C116_conserves_violated") + ["Auxi.Rounding.ieee64", "Auxi.Rounding.rnd64_nearest"], "for any rounding with the properties IEEE; ieee64 proves them for binary64 round-to-nearest-even with gradual underflow and no overflow; C116_conserves_violated shows that exact conservation is false")
c("C117", "partial", n(CF, "C117_available", "C117_everything", "C117_nearly_all_partial", "C117_created_violated", "C117_rest_violated"), "false of the code for the mass a package was created with and for the rest after an extraction (both proved with 10 kg packages); proved for get_mass() and up to a few roundings")

RF = "Auxi.ReportsFloat.Props."
c("C118", "partial", n(RF, "C118_same", "C118_totals", "C118_balance", "C118_entries", "C118_list_total", "C118_printed", "C118_whole_cents", "C118_whole_units", "C118_balances_violated"), "equality of the printed totals is false for amounts in thousandths (0.16 against 0.17, proved) and proved for whole cents and whole units; the error bounds hold for any IEEE rounding; sum() is taken to add from left to right (Python before 3.12)")

PH = "Auxi.PsdHeap.Props."
SH = "Auxi.SlurryHeap.Props."
c("C119", "partial", n(PH, "C119_psd_step", "C119_psd_history", "C119_psd_untouched", "C119_psd_own", "C119_psd_shared_violated") + n(SH, "C119_slurry_step", "C119_slurry_history", "C119_slurry_untouched", "C119_slurry_own", "C119_slurry_shared_violated") + n("Auxi.HeapAssay.Props.", "C119_psd_add", "C119_slurry_add"), "proved for every history of operations on every heap without shared arrays, and for constructor/add_assay arrays that nothing else holds; false when the caller shares an array between packages or with an assay (proved on concrete programs)")

TH = "Auxi.ThermoHeap.Props."
c("C120", "partial", n(TH, "C120_step", "C120_history", "C120_untouched", "C120_own", "C120_shared_violated", "C120_custom_own", "C120_custom_violated") + n("Auxi.HeapAssay.Props.", "C120_add"), "proved for every history of operations on every heap without shared arrays; false when the caller shares an array between packages (proved on a concrete program), and for custom_properties: a clone and a sum with a tuple hold the dictionary of the original (proved for every package); custom properties are independent otherwise")

SHp = "Auxi.StreamHeap.Props."
c("C121", "partial", n(SHp, "C121_step", "C121_history", "C121_untouched", "C121_own", "C121_shared_violated", "C121_custom_own", "C121_custom_violated") + n("Auxi.HeapAssay.Props.", "C121_add"), "proved for every history of operations on every heap without shared arrays; false when the caller shares an array between streams (proved on a concrete program), and for custom_properties: a clone and a sum with a tuple hold the dictionary of the original (proved for every stream); custom properties are independent otherwise")

PR = "Auxi.Printout.Props."
c("C122", "partial", n(PR, "C122_short", "C122_chem_package", "C122_psd_package", "C122_slurry_package", "C122_chem_material", "C122_psd_material", "C122_slurry_material", "C122_thermo_material", "C122_thermo_package", "C122_thermo_package_zero", "C122_thermo_stream", "C122_thermo_stream_zero", "C122_chem_determines", "C122_psd_determines", "C122_slurry_determines", "C122_chem_readback", "C122_psd_readback", "C122_duplicates_violated", "C122_wide_violated", "C122_added_violated", "C122_negative_violated", "C122_hhv_violated", "C122_ljust", "C122_rjust"), "how a number is written is a parameter of every theorem; proved for distinct compounds, positive totals, and coal with a heating value; the five cases where the code fails are proved to fail")

KY = "Auxi.Keys.Props."
c("C123", "partial", n(KY, "C123_found", "C123_lost", "C123_chem_violated", "C123_unhashable_violated"), "proved for every history in which no change of an object changes the hash of its printout; false otherwise: the hash is that of the text, so that a package that is added to is lost as a key (proved for every chem package and every hash that separates the two texts)")

LS = "Auxi.Business.Props."
c("C124", "partial", n(LS, "C124_amount", "C124_rate", "C124_interval_violated", "C124_duration_ignored_violated", "C124_duration_unpaid_violated", "C124_refused_rate_violated", "C124_balance_history", "C124_period_history", "C124_amount_unpaid_violated"), "proved for the amount and the rate, and for every history of changes after the loan is paid out; false for an amount changed between getting ready and paying out (interest on the old amount), for the duration (the end date is never recomputed, the instalments only when another term is set), for a refused rate of zero (it stays) and for intervals of two months or more (one month's interest and instalment per interval)")

LF = "Auxi.LoanFloat.Props."
c("C125", "partial", n(LF, "C125_same", "C125_schedule", "C125_account", "C125_repaid", "C125_cents", "C125_small_rate_violated", "C125_instalment_violated"), "proved with explicit bounds for every rounding with IEEE 754's error bounds and every power function of bounded relative error; false for tiny positive rates: below 2^-50 the constructor raises ZeroDivisionError (proved for all of them), and just above the instalment is wrong in the first digit (witness)")

ED = "Auxi.ElementDict.Props."
c("C126", "partial", n(ED, "C126_chem", "C126_thermo", "C126_stream_empty", "C126_stream_violated"), "proved for packages; false for streams: get_element_mfr_dictionary raises for every stream of at least one compound (numpy scalar times list)")

RS = "Auxi.RunState.Props."
c("C127", "partial", n(RS, "C127_calendar", "C127_success", "C127_before_9999", "C127_tx_dates", "C127_last_year_violated"), "proved for horizons before the year 9999; false in the last year of the calendar: a run that starts in 9999 always raises ValueError")
c("C128", "proved", n(RS, "C128_repeat", "C128_repair", "C128_culprit", "C128_prefix", "C128_unclosed"), "C128_culprit and C128_prefix for runs that stay before the year 9999 (C127); the others without hypotheses")

c("C129", "partial", n(LS, "C129_gross_profit_account", "C129_income_summary_account", "C129_no_loss_partial", "C129_no_empty_closing", "C129_counterexample"), "false: exact closed forms proved for both accounts; the income summary account is cleared in years without loss")
c("C130", "proved", n(LS, "C130_component", "C130_entity_component", "C130_entity", "C130_create_remove", "C130_create_remove_entity"), "")

AT = "Auxi.AssayTrip.Props."
c("C131", "partial", n(AT, "C131_chem", "C131_chem_empty", "C131_psd", "C131_psd_empty", "C131_slurry", "C131_thermo", "C131_stream", "C131_thermo_created", "C131_thermo_violated"), "proved for chem, psd and slurry; for thermo the shares are proved, and making a package of them raises KeyError (proved)")

DTX = "Auxi.DateText.Props."
c("C132", "proved", n(DTX, "C132_reads", "C132_refused", "C132_iso", "C132_every_day", "C132_object", "C132_transaction_list", "C132_reports", "C132_report_refused"), "ASCII digits only")

FT = "Auxi.Fit.Props."
c("C133", "proved", n(FT, "C133_fit_exists", "C133_described", "C133_range", "C133_exact", "C133_recovers", "C133_order", "C133_degree", "C133_mean", "C133_refused", "C133_succeeds"), "np.polyfit is assumed to solve the least squares problem (C133_fit_exists: such procedures exist); exact real numbers; pandas' reading of numbers is not modelled")

CA = "Auxi.Catalogue.Props."
c("C134", "proved", n(CA, "C134_printed", "C134_unique", "C134_order", "C134_ask", "C134_default", "C134_reference"), "what is printed is modelled as a list of lines; references.json is copied into the model")

c("C135", "partial", n(RF, "C135_same", "C135_totals", "C135_entries", "C135_refusals", "C135_whole_cents", "C135_break_even_violated"), "the last clause is false: sales of 0.30 with expenses of 0.10 and 0.20 are printed as a loss of (0.00) (proved); everything else is proved, for any IEEE rounding; sum() is taken to add from left to right (Python before 3.12)")

c("C136", "partial", n("Auxi.Plant.Props.", "C136_chem", "C136_chem_elements", "C136_chem_violated", "C136_psd", "C136_slurry", "C136_thermo", "C136_streams"), "false for chem packages of one material, whose addition loses one of them (C136_chem_violated, the defect of C51); proved for all other sequences. Thermo: for additions after which the solver has found the temperature (always so for constant heat capacities, C62_mix)")

c("C137", "proved", n("Auxi.StoichFloat.Props.", "arith64", "C137_coefficient", "C137_large_coefficient", "C137_molar_mass", "C137_amount", "C137_mass", "C137_round_trip", "C137_amount_fractions", "C137_mass_fractions", "C137_element_fraction", "C137_element_fractions_sum", "C137_convert", "C137_convert_back", "C137_doubles_sum", "C137_doubles_convert"), "for coefficients up to 2^53 (C137_large_coefficient: beyond it they need not be exact) and non-negative masses of ordinary size; overflow is not modelled; sum() is taken to add from left to right (Python before 3.12)")

c("C138", "partial", n("Auxi.Psd.Props.", "C138_add", "C138_neg", "C138_mul", "C138_div", "C138_gt", "C138_total", "C138_scaled", "C138_clear", "C138_clear_violated", "C138_extract", "C138_join", "C138_plant") + n("Auxi.Slurry.Props.", "C138_slurry_total", "C138_slurry_extract", "C138_slurry_join", "C138_slurry_clear", "C138_slurry_plant"), "the last clause is false: clear multiplies by zero, so infinite masses become nan and nan stays (C138_clear_violated; C138_clear gives the exact condition); everything else is proved. C138_add to C138_gt tie the arithmetic of the model to the extended real numbers of Mathlib")

c("C139", "proved", n("Auxi.PsdFloat.Props.", "C139_exact", "C139_mass", "C139_extract", "C139_everything", "C139_add", "C139_tuple", "C139_plant", "C139_requested", "C139_orders", "C139_chem_plant") + n("Auxi.SlurryFloat.Props.", "C139_slurry_exact", "C139_slurry_mass", "C139_slurry_extract", "C139_slurry_add", "C139_slurry_water", "C139_slurry_plant"), "for masses that are finite machine numbers and not negative, for any rounding with the properties IEEE (ieee64: doubles have them) and any order of summation (Adds); overflow is not modelled; extracting a mass from an empty package gives nan (C56, C57) and is excluded; joining chem packages of one material is excluded because of C51")

c("C140", "partial", n("Auxi.LedgerApi.Props.", "C140_recorded", "C140_defaults", "C140_structure", "C140_transaction_list", "C140_balance_sheet", "C140_income_statement", "C140_date_violated", "C140_both_kinds_violated", "C140_source_violated"), "false for transactions created without a date or without a source: the default date is a date and the default bounds are times, which cannot be compared; a missing source has no startswith. Proved for ledgers whose transactions have times, sources and accounts of the chart, such as those filled by a run")

c("C141", "partial", n("Auxi.RunReports.Props.", "C141_runs", "C141_reports", "C141_history", "C141_courier", "C141_refund_violated", "C141_removed_violated"), "false for models with an activity that debits a revenue account outside sales and cost of sales (the year end raises KeyError) and for charts from which an account of the year end was removed (the balance sheet raises). Proved for all other models: every history of calls, every number of periods and entities; C141_courier is the shipped example")

c("C142", "proved", n("Auxi.Paths.Props.", "C142_path", "C142_cwd", "C142_normal", "C142_below", "C142_absolute", "C142_again", "C142_same", "C142_data", "C142_relative", "C142_relative_cwd", "C142_slashes"), "the functions of posixpath that the code calls are modelled as well; paths that start with exactly two slashes are outside the hypotheses (POSIX leaves their meaning open)")

c("C143", "partial", n("Auxi.Bibliography.Props.", "C143_found", "C143_refused", "C143_shipped", "C143_violated", "C143_violated_constants"), "false for entries of types that BibTeX itself does not have: bibtexparser drops them by default, and two of the five entries shipped (@report, @online) raise KeyError. Proved: the exact condition, and that every classical entry not repeated later is returned complete. How a text is split into entries is not modelled")
c("C144", "partial", n("Auxi.Modelling.Props.", "C144_project", "C144_variable", "C144_assigned", "C144_keeps", "C144_last", "C144_models", "C144_group_violated"), "false for VariableGroup: its constructor calls super(Variable, self) and always raises TypeError. Proved for all others")

c("C145", "partial", n("Auxi.Reports.Props.", "C145_list", "C145_days", "C145_sheet", "C145_order", "C145_income", "C145_reconcile", "C145_income_violated"), "false of the income statement: a refund that is the first entry of its account in a period is added instead of subtracted, so the statements of two months do not add up to that of both. Proved for transaction lists and balance sheets without condition, and for income statements where each account's first entry of each period is on its usual side")

c("C146", "proved", n("Auxi.Business.Props.", "C146_add", "C146_order", "C146_alone"), "for runs that succeed; year-end closings, which are the entity's and not an activity's, are left out of what is compared")
c("C147", "partial", n("Auxi.Business.Props.", "C147_prefix", "C147_sublist", "C147_until", "C147_violated"), "false of the code: an activity is only run when a whole interval still fits in the horizon, and an activity whose start lies beyond the horizon runs from the first period. Proved: the longer run begins with the shorter one when activities execute every period and start within the shorter run; for any intervals, the two agree up to the last k-1 periods of the shorter run (k the greatest interval), and the shorter run posts only what the longer posts when activities also end within it or never")

c("C148", "proved", n("Auxi.ThermoFloat.Props.", "C148_split", "C148_compound", "C148_matches", "C148_energy", "C148_refused", "C148_succeeds", "C148_requested", "C148_tuple", "C148_tuple3", "C148_join", "C148_join_T", "C148_scale", "C148_plant", "C148_plant_energy", "C148_inexact", "C148_material", "C148_material_succeeds"), "for packages and streams (whose code is the same text with flow rates for masses) that are not coal and hold finite masses; the enthalpy per kilogram and the temperature solver are parameters; C148_inexact: without the roundings it would be false")

c("C149", "partial", n("Auxi.Psd.Laws.", "C149_psd_commutes", "C149_psd_associates", "C149_psd_scale", "C149_psd_empty", "C149_psd_rejoin") + n("Auxi.Slurry.Laws.", "C149_slurry_commutes", "C149_slurry_associates", "C149_slurry_scale", "C149_slurry_rejoin", "C149_slurry_violated") + n("Auxi.Chem.Laws.", "C149_chem_commutes_partial", "C149_chem_associates_partial", "C149_chem_scale_partial", "C149_chem_rejoin_partial", "C149_chem_violated") + n("Auxi.Thermo.Laws.", "C149_thermo_rejoin") + n("Auxi.Thermo.Props.", "C60_commutes", "C60_associates"), "false of chem packages of one material (`+` joins the lists of masses) and of slurries without solids (the density becomes nan). Proved: for psd packages without condition other than finite masses; for slurries with solids; for chem packages of different materials; for thermochemical packages, where the temperature after putting back is exact for heat capacities that do not depend on temperature, and enthalpy and masses are exact always")

c("C150", "partial", n("Auxi.Money.Props.", "C150_reads", "C150_nearest", "C150_whole", "C150_form", "C150_monotone", "C150_same", "C150_negative", "C150_paren", "C150_total_partial", "C150_total_whole", "C150_total_violated", "C150_zero_violated"), "false in the last clause: two transactions of 0.004 are printed as 0.00 with the total 0.01. Proved: the printed total of n amounts differs from the sum of the printed amounts by at most n + 1 half cents, and not at all for whole cents; everything else without condition. A float -0.0, which is printed as -0.00, is not modelled")
c("C151", "partial", n("Auxi.Money.Props.", "C151_day", "C151_time", "C151_dates", "C151_file", "C151_distinct_partial", "C151_distinct_violated", "C151_balance", "C151_any", "C151_run"), "false in one clause: an absent account or description has the same text as an empty one, a name is left out when the source ends with it, and amounts are rounded, so that different lists can have the same file. Proved: files that are the same list transactions that are alike in everything else, to a cent. Before Python 3.13 for texts without carriage returns (see C112)")
c("C152", "partial", n("Auxi.Share.Props.", "C152_shared", "C152_set_order", "C152_text", "C152_text_iff", "C152_violated"), "false with a jsonpickle that visits attributes in the order in which they were set (setup.py asks for no version): the keys of the file are sorted, so that the numbers of shared parts point to other objects, and the ledger of an entity's component is read as the entity's list of components. Proved with a jsonpickle that visits attributes by name, and with any for classes that set their attributes in alphabetical order. Dictionaries and enumeration members are not in this model")
c("C153", "partial", n("Auxi.Thermo.Props.", "C153_burning", "C153_heating", "C153_no_value_violated"), "burning and heating are proved for streams with a given heating value; without one the code adds the enthalpy of the products where it should subtract it, so that burning the coal would take up heat (_calculate_DH298_coal: HHV = (Hout - Hin)/m_total is negative, and is per kilogram twice over)")
c("C154", "proved", n("Auxi.Business.Props.", "C154_run", "C154_activities", "C154_seen", "C154_transaction_list", "C154_balance_sheet", "C154_income_statement", "C154_reports_on_run"), "in exact arithmetic; the cells of the tables before they are formatted to two decimals")
c("C155", "partial", n("Auxi.Transport.Props.", "C155_quotients", "C155_smooth", "C155_haaland", "C155_turbulent", "C155_units", "C155_negative_violated"), "false of the code only in that negative Reynolds numbers are not always refused (laminar: a negative friction factor; Haaland in a rough pipe: a positive number); everything else is proved in full")
c("C156", "partial", n("Auxi.Business.Props.", "C156_entity", "C156_component", "C156_model", "C156_created", "C156_kept", "C156_renamed", "C156_taken_violated"), "false of the code for a name that is taken: creating is not refused, the name keeps giving the earlier thing, and removing the name removes the later one; the exact behaviour is proved for all histories")
c("C157", "partial", n("Auxi.Business.Props.", "C157_calendar", "C157_later", "C157_months_violated"), "the statement on periods is proved in full (for runs that succeed, year-end closings left out); a shift by d is false of clocks that count months or years, whose dates are clamped to the end of the month (violated), and proved for all others")
c("C158", "partial", n("Auxi.Business.Props.", "C158_amounts", "C158_loans", "C158_times", "C158_order", "C158_times_violated", "C158_order_violated"), "parts by amount and other orders: proved in full for runs that succeed, year ends included; halves by time: proved for activities that execute every period, false of other intervals (violated); whether a run succeeds at all can depend on the order of the activities (violated)")
c("C159", "proved", n("Auxi.Business.Props.", "C159_fair", "C159_unique", "C159_bounds", "C159_rate", "C159_duration", "C159_ledger", "C159_cost"), "over exact rationals (rounding: C139); positive rates and whole-month durations")
c("C160", "partial", n("Auxi.Business.Props.", "C160_sheet", "C160_sheet_lines", "C160_income", "C160_income_lines", "C160_total", "C160_runs", "C160_basic", "C160_loan", "C160_loan_months", "C160_reversal_violated"), "balance sheets and totals of transaction lists: proved in full; income statements: proved for ledgers in which no revenue account is debited and no expense account credited, false otherwise (violated: the first debit of a revenue account is shown with the wrong sign, so the statement depends on the order)")
c("C161", "partial", n("Auxi.Version.Props.", "C161_replace", "C161_setup", "C161_refused", "C161_update", "C161_history", "C161_back", "C161_tree", "C161_left_behind", "C161_shipped_violated", "C161_scripts_violated"), "one update and every history: proved in full for modules and documentation that declare the current version; false of the shipped modules: those with the version in double quotes and those at an earlier version are never updated; shell scripts: proved if the first characters of the versions occur in them only there, false otherwise (violated)")
c("C162", "partial", n("Auxi.Install.Props.", "C162_glob", "C162_installed", "C162_modules", "C162_shipped", "C162_shipped_violated"), "what is installed: proved in full; that everything is installed is false of the shipped setup.py: fluidflow and the bibliography are missing (violated)")
