{
 "claims": [
  {
   "property": "C03",
   "status": "proved",
   "theorems": [
    "Auxi.Ledger.Props.C03_paths_spell_position",
    "Auxi.Ledger.Props.C03_guard_needed"
   ],
   "note": "guard: no top level account is renamed to the empty string; necessity of the guard proved"
  },
  {
   "property": "C04",
   "status": "proved",
   "theorems": [
    "Auxi.Ledger.Props.C04_lookup_is_walk",
    "Auxi.Ledger.Props.C04_lookup_own_path"
   ],
   "note": ""
  },
  {
   "property": "C05",
   "status": "partial",
   "theorems": [
    "Auxi.Ledger.Props.C05_missing_nested_raises",
    "Auxi.Ledger.Props.C05_missing_partial"
   ],
   "note": "false of the code for nested paths (counterexample proved); exact outcome of every failed lookup proved"
  },
  {
   "property": "C06",
   "status": "proved",
   "theorems": [
    "Auxi.Ledger.Props.C06_validate"
   ],
   "note": ""
  },
  {
   "property": "C07",
   "status": "proved",
   "theorems": [
    "Auxi.Ledger.Props.C07_descendants"
   ],
   "note": ""
  },
  {
   "property": "C08",
   "status": "proved",
   "theorems": [
    "Auxi.Ledger.Props.C08_type_of_top",
    "Auxi.Ledger.Props.C08_top_level_fixed",
    "C08_chart"
   ],
   "note": ""
  },
  {
   "property": "C09",
   "status": "proved",
   "theorems": [
    "Auxi.Ledger.Props.C09_create_remove",
    "Auxi.Ledger.Props.C09_remove_missing",
    "Auxi.Ledger.Props.C09_remove_last"
   ],
   "note": ""
  },
  {
   "property": "C01",
   "status": "proved",
   "theorems": [
    "Auxi.Time.Props.C01_calendar_sound",
    "Auxi.Time.Props.C01_history",
    "Auxi.Time.Props.C01_fixed",
    "Auxi.Time.Props.C01_month",
    "Auxi.Time.Props.C01_year",
    "Auxi.Time.Props.C01_strictly_increasing",
    "Auxi.Time.Props.C01_zero",
    "Auxi.Time.Props.C01_months_years"
   ],
   "note": ""
  },
  {
   "property": "C02",
   "status": "partial",
   "theorems": [
    "Auxi.Time.Props.C02_count_ignored",
    "Auxi.Time.Props.C02_count_irrelevant",
    "Auxi.Time.Props.C02_partial"
   ],
   "note": "false of the code for count > 1: the count is ignored (proved); holds for count 1"
  },
  {
   "property": "C16",
   "status": "proved",
   "theorems": [
    "Auxi.Business.Props.C16_executes_iff_due",
    "Auxi.Business.Props.C16_window",
    "Auxi.Business.Props.C16_count"
   ],
   "note": ""
  },
  {
   "property": "C17",
   "status": "partial",
   "theorems": [
    "Auxi.Business.Props.C17_start_beyond_horizon_runs",
    "Auxi.Business.Props.C17_not_before_start_partial"
   ],
   "note": "false when the start is beyond the horizon (counterexample proved)"
  },
  {
   "property": "C18",
   "status": "proved",
   "theorems": [
    "Auxi.Business.Props.C18_basic_run",
    "Auxi.Business.Props.C18_basic_total"
   ],
   "note": ""
  },
  {
   "property": "C19",
   "status": "proved",
   "theorems": [
    "Auxi.Business.Props.C19_loan_balance",
    "Auxi.Business.Props.C19_interval_zero_counterexample"
   ],
   "note": "repetition interval nonzero; for interval 0 the counterexample is proved"
  },
  {
   "property": "C20",
   "status": "proved",
   "theorems": [
    "Auxi.Business.Props.C20_repaid",
    "Auxi.Business.Props.C20_run"
   ],
   "note": ""
  },
  {
   "property": "C21",
   "status": "partial",
   "theorems": [
    "Auxi.Business.Props.C21_zero_rate_raises",
    "Auxi.Business.Props.C21_constructible_partial"
   ],
   "note": "false of the code: construction raises ZeroDivisionError for rate 0 (proved)"
  },
  {
   "property": "C22",
   "status": "proved",
   "theorems": [
    "Auxi.Business.Props.C22_run_is_entities_run",
    "Auxi.Business.Props.C22_ledger"
   ],
   "note": ""
  },
  {
   "property": "C23",
   "status": "proved",
   "theorems": [
    "Auxi.Business.Props.C23_rerun"
   ],
   "note": ""
  },
  {
   "property": "C24",
   "status": "proved",
   "theorems": [
    "Auxi.Business.Props.C24_trial_balance",
    "Auxi.Business.Props.C24_after_run"
   ],
   "note": ""
  },
  {
   "property": "C25",
   "status": "proved",
   "theorems": [
    "Auxi.Business.Props.C25_entity_alone",
    "Auxi.Business.Props.C25_entity_period",
    "Auxi.Business.Props.C25_component_order",
    "Auxi.Business.Props.C22_run_is_entities_run"
   ],
   "note": ""
  },
  {
   "property": "C26",
   "status": "partial",
   "theorems": [
    "Auxi.Business.Props.C26_other_accounts_zero",
    "Auxi.Business.Props.C26_guard_needed"
   ],
   "note": "needs that no transaction has income accounts on both sides; the guard is proved necessary"
  },
  {
   "property": "C27",
   "status": "partial",
   "theorems": [
    "Auxi.Business.Props.C27_trading_accounts_doubled",
    "Auxi.Business.Props.C27_counterexample"
   ],
   "note": "false of the code: the balance is doubled instead of zeroed (proved in general)"
  },
  {
   "property": "C28",
   "status": "partial",
   "theorems": [
    "Auxi.Business.Props.C28_retained_earnings",
    "Auxi.Business.Props.C28_profit_partial",
    "Auxi.Business.Props.C28_loss_counterexample"
   ],
   "note": "false of the code for losses; exact effect on retained earnings proved"
  },
  {
   "property": "C29",
   "status": "proved",
   "theorems": [
    "Auxi.Business.Props.C29_years_closed",
    "Auxi.Business.Props.C29_years_increase",
    "Auxi.Business.Props.C29_dates",
    "Auxi.Business.Props.C29_one_per_period",
    "Auxi.Business.Props.C29_says"
   ],
   "note": ""
  },
  {
   "property": "C32",
   "status": "partial",
   "theorems": [
    "Auxi.Business.Props.C32_last_interval_dropped",
    "Auxi.Business.Props.C32_count_partial",
    "Auxi.Business.Props.C32_every_period"
   ],
   "note": "false: the last interval is dropped; exact count proved"
  },
  {
   "property": "C33",
   "status": "partial",
   "theorems": [
    "Auxi.Business.Props.C33_last_year_not_closed",
    "Auxi.Business.Props.C33_closed_iff_reached_partial"
   ],
   "note": "false for a year ending with the run; exact characterisation proved"
  },
  {
   "property": "C34",
   "status": "partial",
   "theorems": [
    "Auxi.Business.Props.C34_stale_schedule",
    "Auxi.Business.Props.C34_same_horizon_partial"
   ],
   "note": "false: the first run's indices stick; holds for equal horizons"
  },
  {
   "property": "C35",
   "status": "partial",
   "theorems": [
    "Auxi.Business.Props.C35_sentinel_counterexample",
    "Auxi.Business.Props.C35_interval_zero_counterexample",
    "Auxi.Business.Props.C35_not_after_end_partial"
   ],
   "note": "false in sentinel and interval-0 cases; otherwise proved"
  },
  {
   "property": "C36",
   "status": "partial",
   "theorems": [
    "Auxi.Business.Props.C36_default_start_never_executes"
   ],
   "note": "false of the code: it never executes (proved for every such loan)"
  },
  {
   "property": "C37",
   "status": "partial",
   "theorems": [
    "Auxi.Business.Props.C37_debit_revenue_raises",
    "Auxi.Business.Props.C37_succeeds_partial",
    "Auxi.Business.Props.C37_exact"
   ],
   "note": "false: a debit of a revenue account outside sales raises unless a credit of it comes before; C37_exact says exactly when a period raises, for transactions with at most one income statement side"
  },
  {
   "property": "C30",
   "status": "proved",
   "theorems": [
    "Auxi.Business.Props.C30_paths"
   ],
   "note": ""
  },
  {
   "property": "C31",
   "status": "proved",
   "theorems": [
    "Auxi.Business.Props.C31_add_activity",
    "Auxi.Business.Props.C31_history"
   ],
   "note": ""
  },
  {
   "property": "C38",
   "status": "partial",
   "theorems": [
    "Auxi.Business.Props.C38_new_entity_path",
    "Auxi.Business.Props.C38_after_rename_partial",
    "Auxi.Business.Props.C38_created_partial"
   ],
   "note": "false of the code until the model is renamed (proved)"
  },
  {
   "property": "C10",
   "status": "proved",
   "theorems": [
    "Auxi.Reports.Props.C10_balance",
    "Auxi.Reports.Props.C10_balances_iff",
    "Auxi.Reports.Props.C10_entries",
    "Auxi.Reports.Props.C10_table",
    "Auxi.Reports.Props.C10_succeeds",
    "Auxi.Reports.Props.C10_refused"
   ],
   "note": ""
  },
  {
   "property": "C11",
   "status": "proved",
   "theorems": [
    "Auxi.Reports.Props.C11_transaction_list",
    "Auxi.Reports.Props.C11_succeeds",
    "Auxi.Reports.Props.C11_refused"
   ],
   "note": ""
  },
  {
   "property": "C12",
   "status": "partial",
   "theorems": [
    "Auxi.Reports.Props.C12_other_component_listed",
    "Auxi.Reports.Props.C12_segmentwise_partial"
   ],
   "note": "false of the code: prefix match on text also selects siblings whose name extends the component's (proved); holds if no such sibling exists"
  },
  {
   "property": "C13",
   "status": "partial",
   "theorems": [
    "Auxi.Reports.Props.C13_first_debit_counterexample",
    "Auxi.Reports.Props.C13_exact_partial",
    "Auxi.Reports.Props.C13_net_income_partial",
    "Auxi.Reports.Props.C13_table",
    "Auxi.Reports.Props.C13_refused"
   ],
   "note": "false when the first transaction of an account is on its unusual side (counterexample proved)"
  },
  {
   "property": "C14",
   "status": "proved",
   "theorems": [
    "Auxi.Reports.Props.C14_rows",
    "Auxi.Reports.Props.C14_order",
    "Auxi.Reports.Props.C14_top_order",
    "Auxi.Reports.Props.C14_succeeds_iff",
    "Auxi.Reports.Props.C14_unnumbered_counterexample"
   ],
   "note": "every account must be numbered; without, the report raises (proved)"
  },
  {
   "property": "C15",
   "status": "proved",
   "theorems": [
    "Auxi.Reports.Props.C15_render",
    "Auxi.Reports.Props.C15_error"
   ],
   "note": ""
  },
  {
   "property": "C96",
   "status": "partial",
   "theorems": [
    "Auxi.Reports.Props.C96_date_bound_raises",
    "Auxi.Reports.Props.C96_datetime_bound_partial"
   ],
   "note": "false of the code: date against datetime raises TypeError (proved); datetime bounds work"
  },
  {
   "property": "C40",
   "status": "proved",
   "theorems": [
    "Auxi.Stoich.Props.C40_parse_iff",
    "Auxi.Stoich.Props.C40_unambiguous",
    "Auxi.Stoich.Props.C40_accepts_iff",
    "Auxi.Stoich.Props.C40_refused",
    "Auxi.Stoich.Props.C40_coefficients"
   ],
   "note": ""
  },
  {
   "property": "C41",
   "status": "proved",
   "theorems": [
    "Auxi.Stoich.Props.C41_molar_mass",
    "Auxi.Stoich.Props.C41_phase",
    "Auxi.Stoich.Props.C41_juxtapose",
    "Auxi.Stoich.Props.C41_subscript"
   ],
   "note": ""
  },
  {
   "property": "C42",
   "status": "proved",
   "theorems": [
    "Auxi.Stoich.Props.C42_mass_amount",
    "Auxi.Stoich.Props.C42_amount_mass",
    "Auxi.Stoich.Props.C42_convert_preserves_element",
    "Auxi.Stoich.Props.C42_convert_absent",
    "Auxi.Stoich.Props.C42_convert_back"
   ],
   "note": ""
  },
  {
   "property": "C43",
   "status": "proved",
   "theorems": [
    "Auxi.Stoich.Props.C43_amount_fractions",
    "Auxi.Stoich.Props.C43_mass_fractions",
    "Auxi.Stoich.Props.C43_scale",
    "Auxi.Stoich.Props.C43_element_fraction",
    "Auxi.Stoich.Props.C43_element_share",
    "Auxi.Stoich.Props.C43_elements_sum"
   ],
   "note": ""
  },
  {
   "property": "C44",
   "status": "partial",
   "theorems": [
    "Auxi.Stoich.Props.C44_zero_subscript_counts_once",
    "Auxi.Stoich.Props.C44_counterexample",
    "Auxi.Stoich.Props.C44_zero_element_partial"
   ],
   "note": "false of the code for groups: zero counts as one (proved in general); true for elements"
  },
  {
   "property": "C45",
   "status": "proved",
   "theorems": [
    "Auxi.Stoich.Props.C45_elements",
    "Auxi.Stoich.Props.C45_succeeds_iff"
   ],
   "note": ""
  },
  {
   "property": "C50",
   "status": "proved",
   "theorems": [
    "Auxi.Chem.Props.C50_create",
    "Auxi.Chem.Props.C50_errors",
    "Auxi.Chem.Props.C50_not_normalised"
   ],
   "note": ""
  },
  {
   "property": "C51",
   "status": "partial",
   "theorems": [
    "Auxi.Chem.Props.C51_same_material_loses",
    "Auxi.Chem.Props.C51_counterexample",
    "Auxi.Chem.Props.C51_other_material_partial",
    "Auxi.Chem.Props.C51_succeeds",
    "Auxi.Chem.Props.C51_empty_package_rejected",
    "Auxi.Chem.Props.C51_tuple",
    "Auxi.Chem.Props.C51_addTo_same",
    "Auxi.Chem.Props.C51_mul"
   ],
   "note": "false of the code for packages of the same material: list concatenation loses the other's masses (proved in general); holds across materials and for tuples"
  },
  {
   "property": "C52",
   "status": "proved",
   "theorems": [
    "Auxi.Chem.Props.C52_conserves",
    "Auxi.Chem.Props.C52_error_unchanged",
    "Auxi.Chem.Props.C52_mass",
    "Auxi.Chem.Props.C52_too_much",
    "Auxi.Chem.Props.C52_compound",
    "Auxi.Chem.Props.C52_nonneg",
    "Auxi.Chem.Props.C52_empty_raises"
   ],
   "note": ""
  },
  {
   "property": "C53",
   "status": "partial",
   "theorems": [
    "Auxi.Chem.Props.C53_element_masses",
    "Auxi.Chem.Props.C53_element_mass",
    "Auxi.Chem.Props.C53_extract",
    "Auxi.Chem.Props.C53_add_other_partial",
    "Auxi.Chem.Props.C53_same_material_loses",
    "Auxi.Chem.Props.C53_total"
   ],
   "note": "false for adding packages of the same material (C51); proved for extraction and mixing across materials"
  },
  {
   "property": "C46",
   "status": "partial",
   "theorems": [
    "Auxi.Psd.Props.C46_create",
    "Auxi.Psd.Props.C46_not_normalised",
    "Auxi.Psd.Props.C46_zero_total",
    "Auxi.Psd.Props.C46_counterexample",
    "Auxi.Psd.Props.C46_unknown"
   ],
   "note": "false of the code for assays with total zero (proved in general); proved for all others"
  },
  {
   "property": "C47",
   "status": "partial",
   "theorems": [
    "Auxi.Slurry.Props.C47_create",
    "Auxi.Slurry.Props.C47_as_is",
    "Auxi.Slurry.Props.C47_unknown",
    "Auxi.Slurry.Props.C47_zero_total",
    "Auxi.Slurry.Props.C47_counterexample"
   ],
   "note": "false of the code for an all-zero assay (proved); proved for assays with non-zero total"
  },
  {
   "property": "C48",
   "status": "partial",
   "theorems": [
    "Auxi.Psd.Props.C48_empty_corrupted",
    "Auxi.Psd.Props.C48_counterexample",
    "Auxi.Psd.Props.C48_finite_partial",
    "Auxi.Slurry.Props.C48_slurry_counterexample"
   ],
   "note": "false: extract(0.0) from an empty package gives NaN (proved for every empty package); holds for packages of non-zero mass"
  },
  {
   "property": "C54",
   "status": "partial",
   "theorems": [
    "Auxi.Chem.Props.C54_add_assay",
    "Auxi.Psd.Props.C54_psd_add_assay",
    "Auxi.Slurry.Props.C54_slurry_rejected_changes",
    "Auxi.Slurry.Props.C54_slurry_counterexample",
    "Auxi.Slurry.Props.C54_slurry_partial"
   ],
   "note": "proved for chem and psd; false for slurry: density and water of the existing assay are overwritten before the rejection (proved in general)"
  },
  {
   "property": "C55",
   "status": "partial",
   "theorems": [
    "Auxi.Chem.Props.C55_chem_clear_raises",
    "Auxi.Psd.Props.C55_psd_clear",
    "Auxi.Slurry.Props.C55_slurry_clear"
   ],
   "note": "false of the code for chem: clear always raises; proved for psd and slurry"
  },
  {
   "property": "C56",
   "status": "proved",
   "theorems": [
    "Auxi.Psd.Props.C56_mass",
    "Auxi.Psd.Props.C56_add_same",
    "Auxi.Psd.Props.C56_add_other",
    "Auxi.Psd.Props.C56_add_other_iff",
    "Auxi.Psd.Props.C56_tuple",
    "Auxi.Psd.Props.C56_tuple_succeeds",
    "Auxi.Psd.Props.C56_mul",
    "Auxi.Psd.Props.C56_addTo_same",
    "Auxi.Psd.Props.C56_addTo_error",
    "Auxi.Psd.Props.C56_extract",
    "Auxi.Psd.Props.C56_extracted",
    "Auxi.Psd.Props.C56_too_much",
    "Auxi.Psd.Props.C56_error_unchanged",
    "Auxi.Psd.Props.C56_nonneg",
    "Auxi.Psd.Props.C56_fractions"
   ],
   "note": ""
  },
  {
   "property": "C57",
   "status": "partial",
   "theorems": [
    "Auxi.Slurry.Props.C57_mass",
    "Auxi.Slurry.Props.C57_volume",
    "Auxi.Slurry.Props.C57_fractions",
    "Auxi.Slurry.Props.C57_class_fractions",
    "Auxi.Slurry.Props.C57_mix",
    "Auxi.Slurry.Props.C57_mix_succeeds",
    "Auxi.Slurry.Props.C57_no_solids",
    "Auxi.Slurry.Props.C57_counterexample",
    "Auxi.Slurry.Props.C57_mul",
    "Auxi.Slurry.Props.C57_extract",
    "Auxi.Slurry.Props.C57_error_unchanged",
    "Auxi.Slurry.Props.C57_too_much"
   ],
   "note": "false when neither package has solids: density and volume become NaN (proved in general); proved otherwise"
  },
  {
   "property": "C58",
   "status": "partial",
   "theorems": [
    "Auxi.Slurry.Props.C58_any_string_is_water",
    "Auxi.Slurry.Props.C58_counterexample",
    "Auxi.Slurry.Props.C58_float_partial"
   ],
   "note": "false of the code: any (str, float) is taken for water (proved in general); (float, float) works"
  },
  {
   "property": "C59",
   "status": "partial",
   "theorems": [
    "Auxi.Chem.Props.C59_counterexample",
    "Auxi.Chem.Props.C59_addTo_partial",
    "Auxi.Chem.Props.C59_other_args_partial",
    "Auxi.Psd.Props.C59_psd_counterexample",
    "Auxi.Psd.Props.C59_psd_addTo_partial",
    "Auxi.Psd.Props.C59_psd_other_args_partial"
   ],
   "note": "false for packages of another material with a foreign compound / size class late in its list; proved for the other arguments (slurry has no add_to)"
  },
  {
   "property": "C70",
   "status": "proved",
   "theorems": [
    "Auxi.ThermoChem.Props.C70_record",
    "Auxi.ThermoChem.Props.C70_enthalpy",
    "Auxi.ThermoChem.Props.C70_entropy"
   ],
   "note": "stated as integrals across record boundaries and as derivatives inside a record; for magnetic phases on the range of the data (above it see C75)"
  },
  {
   "property": "C71",
   "status": "proved",
   "theorems": [
    "Auxi.ThermoChem.Props.C71_gibbs",
    "Auxi.ThermoChem.Props.C71_defined"
   ],
   "note": ""
  },
  {
   "property": "C72",
   "status": "proved",
   "theorems": [
    "Auxi.ThermoChem.Props.C72_continuous"
   ],
   "note": ""
  },
  {
   "property": "C73",
   "status": "proved",
   "theorems": [
    "Auxi.ThermoChem.Props.C73_linear",
    "Auxi.ThermoChem.Props.C73_gibbs",
    "Auxi.ThermoChem.Props.C73_text"
   ],
   "note": ""
  },
  {
   "property": "C74",
   "status": "proved",
   "theorems": [
    "Auxi.ThermoChem.Props.C74_magnetic"
   ],
   "note": ""
  },
  {
   "property": "C75",
   "status": "partial",
   "theorems": [
    "Auxi.ThermoChem.Props.C75_overestimates",
    "Auxi.ThermoChem.Props.C75_counterexample"
   ],
   "note": "false of the code: above the data the magnetic heat capacity is counted twice (excess proved exactly, in general)"
  },
  {
   "property": "C76",
   "status": "proved",
   "theorems": [
    "Auxi.ThermoChem.Props.C76_reference",
    "Auxi.ThermoChem.Props.C76_formation"
   ],
   "note": ""
  },
  {
   "property": "C77",
   "status": "partial",
   "theorems": [
    "Auxi.ThermoChem.Props.C77_magnetic_dict_raises",
    "Auxi.ThermoChem.Props.C77_plain_partial"
   ],
   "note": "false of the code: building a phase from a dictionary with magnetic data raises TypeError (proved for every such dictionary); without magnetic data it works"
  },
  {
   "property": "C78",
   "status": "proved",
   "theorems": [
    "Auxi.ThermoChem.Props.C78_gibbs_slope"
   ],
   "note": ""
  },
  {
   "property": "C60",
   "status": "proved",
   "theorems": [
    "Auxi.Thermo.Props.C60_same",
    "Auxi.Thermo.Props.C60_other",
    "Auxi.Thermo.Props.C60_foreign",
    "Auxi.Thermo.Props.C60_tuple",
    "Auxi.Thermo.Props.C60_tuple3",
    "Auxi.Thermo.Props.C60_scale",
    "Auxi.Thermo.Props.C60_scale_refused",
    "Auxi.Thermo.Props.C60_commutes",
    "Auxi.Thermo.Props.C60_associates"
   ],
   "note": ""
  },
  {
   "property": "C61",
   "status": "proved",
   "theorems": [
    "Auxi.Thermo.Props.C61_mass",
    "Auxi.Thermo.Props.C61_too_much",
    "Auxi.Thermo.Props.C61_compound",
    "Auxi.Thermo.Props.C61_compound_mass",
    "Auxi.Thermo.Props.C61_compound_too_much",
    "Auxi.Thermo.Props.C61_unknown",
    "Auxi.Thermo.Props.C61_material"
   ],
   "note": ""
  },
  {
   "property": "C62",
   "status": "partial",
   "theorems": [
    "Auxi.Thermo.Props.C62_history_partial",
    "Auxi.Thermo.Props.C62_full_history_partial",
    "Auxi.Thermo.Props.C62_mix",
    "Auxi.Thermo.Props.C62_compound_at",
    "Auxi.Thermo.Props.C62_set",
    "Auxi.Thermo.Props.C62_mixing_temperature",
    "Auxi.Thermo.Props.C63_package_affine"
   ],
   "note": "proved for every history without operations that set the enthalpy, and for all histories, mixing and setting of enthalpies included, when the heat capacities are constant; false in general for small packages (C68)"
  },
  {
   "property": "C63",
   "status": "proved",
   "theorems": [
    "Auxi.Thermo.Props.C63_stops",
    "Auxi.Thermo.Props.C63_affine",
    "Auxi.Thermo.Props.C63_keeps",
    "Auxi.Thermo.Props.C63_package_keeps",
    "Auxi.Thermo.Props.C63_package_affine",
    "Auxi.Thermo.Props.C63_mixture"
   ],
   "note": ""
  },
  {
   "property": "C65",
   "status": "partial",
   "theorems": [
    "Auxi.Thermo.Props.C65_added_assay_unusable",
    "Auxi.Thermo.Props.C65_file_assay_partial",
    "Auxi.Thermo.Props.C65_unknown"
   ],
   "note": "false of the code: every added assay raises KeyError on use (proved in general); assays from the file work"
  },
  {
   "property": "C68",
   "status": "partial",
   "theorems": [
    "Auxi.Thermo.Props.C68_counterexample",
    "Auxi.Thermo.Props.C68_one_step",
    "Auxi.Thermo.Props.C63_package_affine"
   ],
   "note": "false of the code: the absolute tolerance accepts one linear step for small packages (general theorem and counterexample); exact for constant heat capacity"
  },
  {
   "property": "C69",
   "status": "partial",
   "theorems": [
    "Auxi.Thermo.Props.C69_mix_empty",
    "Auxi.Thermo.Props.C69_extract_empty",
    "Auxi.Thermo.Props.C69_extract_partial"
   ],
   "note": "false of the code: mixing empty packages or extracting 0.0 from one gives values that are not finite (proved for every empty package)"
  },
  {
   "property": "C49",
   "status": "proved",
   "theorems": [
    "Auxi.Thermo.Props.C49_element_masses",
    "Auxi.Thermo.Props.C49_element_mass",
    "Auxi.Thermo.Props.C49_mixing",
    "Auxi.Thermo.Props.C49_splitting",
    "Auxi.Thermo.Props.C49_total"
   ],
   "note": ""
  },
  {
   "property": "C64",
   "status": "proved",
   "theorems": [
    "Auxi.Thermo.Props.C64_same",
    "Auxi.Thermo.Props.C64_other",
    "Auxi.Thermo.Props.C64_foreign",
    "Auxi.Thermo.Props.C64_tuple",
    "Auxi.Thermo.Props.C64_tuple3",
    "Auxi.Thermo.Props.C64_scale",
    "Auxi.Thermo.Props.C64_scale_refused",
    "Auxi.Thermo.Props.C64_extract",
    "Auxi.Thermo.Props.C64_extract_too_much",
    "Auxi.Thermo.Props.C64_extract_compound",
    "Auxi.Thermo.Props.C64_extract_compound_mfr",
    "Auxi.Thermo.Props.C64_extract_material"
   ],
   "note": "for streams that are not coal; for coal see C86-C88"
  },
  {
   "property": "C66",
   "status": "partial",
   "theorems": [
    "Auxi.Thermo.Props.C66_violated",
    "Auxi.Thermo.Props.C66_enthalpy_kept",
    "Auxi.Thermo.Props.C66_contents_partial",
    "Auxi.Thermo.Props.C66_package_cleared"
   ],
   "note": "false of the code: the enthalpy flow rate is kept (proved for every stream); flows are zeroed"
  },
  {
   "property": "C67",
   "status": "partial",
   "theorems": [
    "Auxi.Thermo.Props.C67_never_created",
    "Auxi.Thermo.Props.C67_stream_partial",
    "Auxi.Thermo.Props.C67_marked"
   ],
   "note": "false of the code for packages (proved in general); proved for streams"
  },
  {
   "property": "C86",
   "status": "partial",
   "theorems": [
    "Auxi.Thermo.Props.C86_violated",
    "Auxi.Thermo.Props.C86_with_hhv_partial"
   ],
   "note": "false of the code for coal without a heating value; proved for coal with one"
  },
  {
   "property": "C87",
   "status": "partial",
   "theorems": [
    "Auxi.Thermo.Props.C87_violated",
    "Auxi.Thermo.Props.C87_flows_partial",
    "Auxi.Thermo.Props.C87_part_not_coal"
   ],
   "note": "false of the code for enthalpies; flows proved for every stream"
  },
  {
   "property": "C88",
   "status": "partial",
   "theorems": [
    "Auxi.Thermo.Props.C88_violated",
    "Auxi.Thermo.Props.C88_no_carbon_partial",
    "Auxi.Thermo.Props.C88_without_hhv"
   ],
   "note": "false of the code for compounds with carbon (COs) and without a heating value; proved for compounds without carbon"
  },
  {
   "property": "C89",
   "status": "partial",
   "theorems": [
    "Auxi.Thermo.Props.C89_never_returns",
    "Auxi.Thermo.Props.C89_single_partial"
   ],
   "note": "false of the code: get_element_mfrs always raises; the single element function is proved"
  },
  {
   "property": "C83",
   "status": "proved",
   "theorems": [
    "Auxi.Coals.Props.C83_derivative",
    "Auxi.Coals.Props.C83_integral"
   ],
   "note": ""
  },
  {
   "property": "C97",
   "status": "proved",
   "theorems": [
    "Auxi.Thermo.Props.C97_compound",
    "Auxi.Thermo.Props.C97_total",
    "Auxi.Thermo.Props.C97_list",
    "Auxi.Thermo.Props.C97_mixing",
    "Auxi.Thermo.Props.C97_splitting",
    "Auxi.Thermo.Props.C97_stream"
   ],
   "note": ""
  },
  {
   "property": "C98",
   "status": "proved",
   "theorems": [
    "Auxi.Thermo.Props.C98_package",
    "Auxi.Thermo.Props.C98_stream"
   ],
   "note": ""
  },
  {
   "property": "C99",
   "status": "proved",
   "theorems": [
    "Auxi.Thermo.Props.C99_mixing",
    "Auxi.Thermo.Props.C99_exists"
   ],
   "note": ""
  },
  {
   "property": "C80",
   "status": "partial",
   "theorems": [
    "Auxi.Phys.Props.C80_herningZipperer",
    "Auxi.Phys.Props.C80_idealCp",
    "Auxi.Phys.Props.C80_bounds_viscosity",
    "Auxi.Phys.Props.C80_bounds_heat_capacity",
    "Auxi.Phys.Props.C80_defined",
    "Auxi.Phys.Props.C80_scale",
    "Auxi.Phys.Props.C80_unlisted",
    "Auxi.Phys.Props.C80_wilke",
    "Auxi.Phys.Props.C80_wilke_bounds",
    "Auxi.Phys.Props.C80_pure",
    "Auxi.Phys.Props.C80_pure_air",
    "Auxi.Phys.Props.C80_air_violated",
    "Auxi.Phys.Props.C80_order"
   ],
   "note": "proved for all compositions of gases with molar masses; false of the code for pure air with Herning-Zipperer and ideal Cp, which always raise KeyError (proved)"
  },
  {
   "property": "C81",
   "status": "partial",
   "theorems": [
    "Auxi.Phys.Props.C81_betaT",
    "Auxi.Phys.Props.C81_rhoT",
    "Auxi.Phys.Props.C81_rhoTP",
    "Auxi.Phys.Props.C81_rhoTPx",
    "Auxi.Phys.Props.C81_polynomial",
    "Auxi.Phys.Props.C81_refusal",
    "Auxi.Phys.Props.C81_mixture",
    "Auxi.Phys.Props.C81_mixture_violated",
    "Auxi.Phys.Props.C81_mixture_missing",
    "Auxi.Phys.Props.C81_slag",
    "Auxi.Phys.Props.C81_slag_missing",
    "Auxi.Phys.Props.C81_slag_composition",
    "Auxi.Phys.Props.C81_slag_temperature",
    "Auxi.Phys.Props.C81_slag_temperature_mass",
    "Auxi.Phys.Props.C84_negative",
    "Auxi.Coals.Props.C81_coal_accepts_forbidden",
    "Auxi.Coals.Props.C81_coal_refuses"
   ],
   "note": "proved, in both directions, for the models that validate (ideal gas, polynomial); false of the code for gas mixtures, slags and coal, which never look at their schema (proved)"
  },
  {
   "property": "C82",
   "status": "proved",
   "theorems": [
    "Auxi.Phys.Props.C82_density",
    "Auxi.Phys.Props.C82_order",
    "Auxi.Phys.Props.C82_pressure",
    "Auxi.Phys.Props.C82_temperature",
    "Auxi.Phys.Props.C82_fixed_pressure",
    "Auxi.Phys.Props.C82_expansion",
    "Auxi.Phys.Props.C82_mixture",
    "Auxi.Phys.Props.C82_pure"
   ],
   "note": ""
  },
  {
   "property": "C84",
   "status": "partial",
   "theorems": [
    "Auxi.Phys.Props.C84_scale",
    "Auxi.Phys.Props.C84_positive",
    "Auxi.Phys.Props.C84_negative",
    "Auxi.Phys.Props.C84_urbain_defined",
    "Auxi.Phys.Props.C84_urbain_silica",
    "Auxi.Phys.Props.C84_riboud_defined",
    "Auxi.Phys.Props.C84_order",
    "Auxi.Phys.Props.C84_riboud_formula"
   ],
   "note": "proved wherever a value is returned at a positive temperature; the code returns negative viscosities at negative temperatures and refuses pure silica (Urbain)"
  },
  {
   "property": "C85",
   "status": "partial",
   "theorems": [
    "Auxi.Phys.Props.C85_violated",
    "Auxi.Phys.Props.C85_riboud_partial",
    "Auxi.Phys.Props.C85_unchanged",
    "Auxi.Phys.Props.C85_repeat",
    "Auxi.Phys.Props.C85_mass_fractions",
    "Auxi.Phys.Props.C85_refused_violated"
   ],
   "note": "false of the code: Riboud calls add single-cation oxides to the caller's dictionary, which changes later Urbain results (proved); exactly which entries change is proved, and that a repeated Riboud call is not affected"
  },
  {
   "property": "C93",
   "status": "partial",
   "theorems": [
    "Auxi.Phys.Props.C93_default_violated",
    "Auxi.Phys.Props.C93_alpha",
    "Auxi.Phys.Props.C93_nu",
    "Auxi.Phys.Props.C93_given",
    "Auxi.Phys.Props.C93_missing",
    "Auxi.Phys.Props.C93_prandtl"
   ],
   "note": "false of the code for the default property_models=None"
  },
  {
   "property": "C94",
   "status": "partial",
   "theorems": [
    "Auxi.Phys.Props.C94_urbain",
    "Auxi.Phys.Props.C94_riboud_partial",
    "Auxi.Phys.Props.C94_riboud_violated"
   ],
   "note": "proved for Urbain; false of Riboud's model for fluorspar, proved without fluorspar and alkalis"
  },
  {
   "property": "C95",
   "status": "proved",
   "theorems": [
    "Auxi.FileFormat.Props.C95_layout_irrelevant",
    "Auxi.FileFormat.Props.C95_chem",
    "Auxi.FileFormat.Props.C95_chem_package",
    "Auxi.FileFormat.Props.C95_psd",
    "Auxi.FileFormat.Props.C95_slurry",
    "Auxi.FileFormat.Props.C95_thermo_plain",
    "Auxi.FileFormat.Props.C95_thermo",
    "Auxi.FileFormat.Props.C95_number",
    "Auxi.FileFormat.Props.C95_white_space",
    "Auxi.FileFormat.Props.C95_number_iff",
    "Auxi.FileFormat.Props.C95_thermo_material",
    "Auxi.FileFormat.Props.C95_thermo_plain_material",
    "Auxi.FileFormat.Props.C95_thermo_package"
   ],
   "note": "float() is modelled for decimal notation; inf, nan, underscores and non-ASCII digits are not; rounding is not"
  },
  {
   "property": "C100",
   "status": "partial",
   "theorems": [
    "Auxi.FileFormat.Props.C95_duplicate_violated",
    "Auxi.FileFormat.Props.C95_thermo_blank",
    "Auxi.FileFormat.Props.C95_leading_blank_violated",
    "Auxi.FileFormat.Props.C95_slurry_doc_violated",
    "Auxi.FileFormat.Props.C95_chem_refuses",
    "Auxi.FileFormat.Props.C95_slurry_refuses",
    "Auxi.FileFormat.Props.C95_empty",
    "Auxi.FileFormat.Props.C100_number_refused",
    "Auxi.FileFormat.Props.C100_slurry_short"
   ],
   "note": "false of the code: an assay named twice is accepted and its columns interleaved; blank lines after the # or before the heading make a file unreadable; the documented slurry example is unreadable; the refusals that do work are proved"
  },
  {
   "property": "C90",
   "status": "partial",
   "theorems": [
    "Auxi.Transport.Props.C90_up",
    "Auxi.Transport.Props.C90_inclined_up",
    "Auxi.Transport.Props.C90_vertical",
    "Auxi.Transport.Props.C90_inclined_down",
    "Auxi.Transport.Props.C90_down",
    "Auxi.Transport.Props.C90_outside",
    "Auxi.Transport.Props.C90_total",
    "Auxi.Transport.Props.C90_numbers",
    "Auxi.Transport.Props.C90_value",
    "Auxi.Transport.Props.C90_hot",
    "Auxi.Transport.Props.C90_missing",
    "Auxi.Transport.Props.C90_violated",
    "Auxi.Transport.Props.C90_cold_violated"
   ],
   "note": "the whole selection table and the value are proved for surfaces hotter than the fluid; false of the code at 88 degrees with Ra < 6 (IndexError), at 0 degrees with Ra = 11, and for every cold surface (complex result)"
  },
  {
   "property": "C91",
   "status": "partial",
   "theorems": [
    "Auxi.Transport.Props.C91_defined",
    "Auxi.Transport.Props.C91_units",
    "Auxi.Transport.Props.C91_grashof",
    "Auxi.Transport.Props.C91_products",
    "Auxi.Transport.Props.C91_rayleigh_violated"
   ],
   "note": "proved for Re, Gr, Pr, Nu, Sh; dimensionlessquantities.Ra raises NameError on every call (proved)"
  },
  {
   "property": "C92",
   "status": "partial",
   "theorems": [
    "Auxi.Transport.Props.C92_darcy",
    "Auxi.Transport.Props.C92_hydraulic_diameter",
    "Auxi.Transport.Props.C92_laminar",
    "Auxi.Transport.Props.C92_colebrook_root",
    "Auxi.Transport.Props.C92_colebrook",
    "Auxi.Transport.Props.C92_colebrook_exists",
    "Auxi.Transport.Props.C92_colebrook_total",
    "Auxi.Transport.Props.C92_colebrook_violated"
   ],
   "note": "Colebrook: proved when the solver (a parameter) returns a root; its failure flag is ignored by the code (proved)"
  },
  {
   "property": "C101",
   "status": "partial",
   "theorems": [
    "Auxi.Transport.Props.C101_grows_partial",
    "Auxi.Transport.Props.C101_grows_up_partial",
    "Auxi.Transport.Props.C101_violated"
   ],
   "note": "false at Ra = 7 from -90 to -52 degrees; proved elsewhere"
  },
  {
   "property": "C102",
   "status": "proved",
   "theorems": [
    "Auxi.Transport.Props.C102_coefficients"
   ],
   "note": ""
  },
  {
   "property": "C103",
   "status": "proved",
   "theorems": [
    "Auxi.Transport.Props.C103_smooth",
    "Auxi.Transport.Props.C103_laminar",
    "Auxi.Transport.Props.C103_haaland_defined",
    "Auxi.Transport.Props.C103_haaland_order",
    "Auxi.Transport.Props.C103_haaland_range",
    "Auxi.Transport.Props.C103_colebrook_order"
   ],
   "note": ""
  },
  {
   "property": "C104",
   "status": "partial",
   "theorems": [
    "Auxi.ThermoChem.Props.C104_heat_capacity_partial",
    "Auxi.ThermoChem.Props.C104_monotone_partial",
    "Auxi.ThermoChem.Props.C104_gibbs_partial",
    "Auxi.ThermoChem.Props.C104_violated"
   ],
   "note": "proved for every phase in the files but two: monoclinic sulphur (negative heat capacity above 303 degrees) and grey tin (no heat capacity terms); that these fail is proved"
  },
  {
   "property": "C105",
   "status": "proved",
   "theorems": [
    "Auxi.ThermoChem.Props.C105_molar_mass",
    "Auxi.ThermoChem.Props.C105_one_mole"
   ],
   "note": "to twelve digits; numbers are the decimals in the files"
  },
  {
   "property": "C106",
   "status": "proved",
   "theorems": [
    "Auxi.ThermoChem.Props.C106_usable",
    "Auxi.ThermoChem.Props.C106_no_clash",
    "Auxi.ThermoChem.Props.C106_order"
   ],
   "note": ""
  },
  {
   "property": "C107",
   "status": "proved",
   "theorems": [
    "Auxi.Thermo.Props.C107_monotone",
    "Auxi.Thermo.Props.C107_temperature",
    "Auxi.Thermo.Props.C107_set_same",
    "Auxi.Thermo.Props.C107_between"
   ],
   "note": "whether the solver finds the temperature of a mixture is C62/C63/C68"
  },
  {
   "property": "C108",
   "status": "partial",
   "theorems": [
    "Auxi.FactSage.Props.C108_contents_partial",
    "Auxi.FactSage.Props.C108_compound_partial",
    "Auxi.FactSage.Props.C108_load_partial",
    "Auxi.FactSage.Props.C108_reference_partial",
    "Auxi.FactSage.Props.C108_short_line",
    "Auxi.FactSage.Props.C108_restart_violated",
    "Auxi.FactSage.Props.C108_formula_violated"
   ],
   "note": "proved when no record has the label of the one before it and the formula is followed by a blank; otherwise false of the code: KeyError, or the compound is stored under a formula with a line end (both proved)"
  },
  {
   "property": "C109",
   "status": "proved",
   "theorems": [
    "Auxi.Phys.Props.C109_gas",
    "Auxi.Phys.Props.C109_gas_refused",
    "Auxi.Phys.Props.C109_water",
    "Auxi.Phys.Props.C109_mixture"
   ],
   "note": "numbers are the decimals in the files; air in mixtures is C80"
  },
  {
   "property": "C110",
   "status": "partial",
   "theorems": [
    "Auxi.Phys.Props.C110_gas_hotter",
    "Auxi.Phys.Props.C110_prandtl",
    "Auxi.Phys.Props.C110_density",
    "Auxi.Phys.Props.C110_water_hotter_partial",
    "Auxi.Phys.Props.C110_water_nu_partial",
    "Auxi.Phys.Props.C110_water_violated"
   ],
   "note": "proved for gases and for water's viscosity and expansion; water's kinematic viscosity is proved within 2.1 % of mu/rho and falling up to 595 K, and is proved to differ by 2 % and to rise from 600 to 610 K; at 276 K expansion and density slope have the same sign"
  },
  {
   "property": "C111",
   "status": "partial",
   "theorems": [
    "Auxi.Phys.Props.C111_heat_capacity_partial",
    "Auxi.Phys.Props.C111_violated"
   ],
   "note": "proved within 5 % for four gases and within 10 % for all six; CO at 1000 K and water vapour at 373.15 K are proved to be over 9 % off"
  },
  {
   "property": "C112",
   "status": "partial",
   "theorems": [
    "Auxi.Csv.Props.C112_report_partial",
    "Auxi.Csv.Props.C112_template",
    "Auxi.Csv.Props.C112_distinct_partial",
    "Auxi.Csv.Props.C112_carriage_return_violated"
   ],
   "note": "proved for every table on Python 3.13 and later; before that for tables without a carriage return in a cell, and proved false with one (a row reads back as two)"
  },
  {
   "property": "C113",
   "status": "partial",
   "theorems": [
    "Auxi.Csv.Props.C113_reader_total",
    "Auxi.Csv.Props.C113_header",
    "Auxi.Csv.Props.C113_columns",
    "Auxi.Csv.Props.C113_template",
    "Auxi.Csv.Props.C113_refused",
    "Auxi.Csv.Props.C113_refused_how",
    "Auxi.Csv.Props.C113_unknown_symbol",
    "Auxi.Csv.Props.C113_template_data",
    "Auxi.Csv.Props.C113_clash_violated"
   ],
   "note": "false of the code: file names are lower case, so the template of Co replaces that of CO (proved); the rest is proved. The numeric part of a data set (pandas) is not modelled"
  },
  {
   "property": "C115",
   "status": "partial",
   "theorems": [
    "Auxi.ChemHeap.Props.C115_step",
    "Auxi.ChemHeap.Props.C115_history",
    "Auxi.ChemHeap.Props.C115_start",
    "Auxi.ChemHeap.Props.C115_untouched",
    "Auxi.ChemHeap.Props.C115_own_lists",
    "Auxi.ChemHeap.Props.C115_shared_violated"
   ],
   "note": "proved for every program of package operations; false of the code for lists that the caller passes to MaterialPackage and add_assay and uses again (proved), proved for lists that are not used again"
  },
  {
   "property": "C114",
   "status": "partial",
   "theorems": [
    "Auxi.Persist.Props.C114_object",
    "Auxi.Persist.Props.C114_compound",
    "Auxi.Persist.Props.C114_rounds",
    "Auxi.Persist.Props.C114_values",
    "Auxi.Persist.Props.C114_directory",
    "Auxi.Persist.Props.C114_database",
    "Auxi.Persist.Props.C114_number",
    "Auxi.Persist.Props.C114_layout_object",
    "Auxi.Persist.Props.C114_layout_list",
    "Auxi.Persist.Props.C114_escape",
    "Auxi.Persist.Props.C114_escape_refused",
    "Auxi.Persist.Props.C114_record_text",
    "Auxi.Persist.Props.C114_phase_text",
    "Auxi.Persist.Props.C114_compound_class",
    "Auxi.Persist.Props.C114_class_read",
    "Auxi.Persist.Props.C114_class_written",
    "Auxi.Persist.Props.C114_bad_phase",
    "Auxi.Persist.Props.C114_phase_violated",
    "Auxi.Persist.Props.C114_record_violated",
    "Auxi.Persist.Props.C114_magnetic_violated",
    "Auxi.Persist.Props.C114_load_violated"
   ],
   "note": "proved for all objects without a text of their own, for compounds with settled magnetic attributes and for directories; false of the code for phases and heat capacity records written on their own, for phases that are given magnetic data after they are made, and loading is not atomic (all proved)"
  },
  {
   "property": "C116",
   "status": "proved",
   "theorems": [
    "Auxi.ChemFloat.Props.C116_exact",
    "Auxi.ChemFloat.Props.C116_never_negative",
    "Auxi.ChemFloat.Props.C116_conserves",
    "Auxi.ChemFloat.Props.C116_history",
    "Auxi.ChemFloat.Props.C116_get_mass",
    "Auxi.ChemFloat.Props.C116_requested",
    "Auxi.ChemFloat.Props.C116_create",
    "Auxi.ChemFloat.Props.C116_add_tuple",
    "Auxi.ChemFloat.Props.C116_add_package",
    "Auxi.ChemFloat.Props.C116_conserves_violated",
    "Auxi.Rounding.ieee64",
    "Auxi.Rounding.rnd64_nearest"
   ],
   "note": "for any rounding with the properties IEEE; ieee64 proves them for binary64 round-to-nearest-even with gradual underflow and no overflow; C116_conserves_violated shows that exact conservation is false"
  },
  {
   "property": "C117",
   "status": "partial",
   "theorems": [
    "Auxi.ChemFloat.Props.C117_available",
    "Auxi.ChemFloat.Props.C117_everything",
    "Auxi.ChemFloat.Props.C117_nearly_all_partial",
    "Auxi.ChemFloat.Props.C117_created_violated",
    "Auxi.ChemFloat.Props.C117_rest_violated"
   ],
   "note": "false of the code for the mass a package was created with and for the rest after an extraction (both proved with 10 kg packages); proved for get_mass() and up to a few roundings"
  },
  {
   "property": "C118",
   "status": "partial",
   "theorems": [
    "Auxi.ReportsFloat.Props.C118_same",
    "Auxi.ReportsFloat.Props.C118_totals",
    "Auxi.ReportsFloat.Props.C118_balance",
    "Auxi.ReportsFloat.Props.C118_entries",
    "Auxi.ReportsFloat.Props.C118_list_total",
    "Auxi.ReportsFloat.Props.C118_printed",
    "Auxi.ReportsFloat.Props.C118_whole_cents",
    "Auxi.ReportsFloat.Props.C118_whole_units",
    "Auxi.ReportsFloat.Props.C118_balances_violated"
   ],
   "note": "equality of the printed totals is false for amounts in thousandths (0.16 against 0.17, proved) and proved for whole cents and whole units; the error bounds hold for any IEEE rounding; sum() is taken to add from left to right (Python before 3.12)"
  },
  {
   "property": "C119",
   "status": "partial",
   "theorems": [
    "Auxi.PsdHeap.Props.C119_psd_step",
    "Auxi.PsdHeap.Props.C119_psd_history",
    "Auxi.PsdHeap.Props.C119_psd_untouched",
    "Auxi.PsdHeap.Props.C119_psd_own",
    "Auxi.PsdHeap.Props.C119_psd_shared_violated",
    "Auxi.SlurryHeap.Props.C119_slurry_step",
    "Auxi.SlurryHeap.Props.C119_slurry_history",
    "Auxi.SlurryHeap.Props.C119_slurry_untouched",
    "Auxi.SlurryHeap.Props.C119_slurry_own",
    "Auxi.SlurryHeap.Props.C119_slurry_shared_violated",
    "Auxi.HeapAssay.Props.C119_psd_add",
    "Auxi.HeapAssay.Props.C119_slurry_add"
   ],
   "note": "proved for every history of operations on every heap without shared arrays, and for constructor/add_assay arrays that nothing else holds; false when the caller shares an array between packages or with an assay (proved on concrete programs)"
  },
  {
   "property": "C120",
   "status": "partial",
   "theorems": [
    "Auxi.ThermoHeap.Props.C120_step",
    "Auxi.ThermoHeap.Props.C120_history",
    "Auxi.ThermoHeap.Props.C120_untouched",
    "Auxi.ThermoHeap.Props.C120_own",
    "Auxi.ThermoHeap.Props.C120_shared_violated",
    "Auxi.ThermoHeap.Props.C120_custom_own",
    "Auxi.ThermoHeap.Props.C120_custom_violated",
    "Auxi.HeapAssay.Props.C120_add"
   ],
   "note": "proved for every history of operations on every heap without shared arrays; false when the caller shares an array between packages (proved on a concrete program), and for custom_properties: a clone and a sum with a tuple hold the dictionary of the original (proved for every package); custom properties are independent otherwise"
  },
  {
   "property": "C121",
   "status": "partial",
   "theorems": [
    "Auxi.StreamHeap.Props.C121_step",
    "Auxi.StreamHeap.Props.C121_history",
    "Auxi.StreamHeap.Props.C121_untouched",
    "Auxi.StreamHeap.Props.C121_own",
    "Auxi.StreamHeap.Props.C121_shared_violated",
    "Auxi.StreamHeap.Props.C121_custom_own",
    "Auxi.StreamHeap.Props.C121_custom_violated",
    "Auxi.HeapAssay.Props.C121_add"
   ],
   "note": "proved for every history of operations on every heap without shared arrays; false when the caller shares an array between streams (proved on a concrete program), and for custom_properties: a clone and a sum with a tuple hold the dictionary of the original (proved for every stream); custom properties are independent otherwise"
  },
  {
   "property": "C122",
   "status": "partial",
   "theorems": [
    "Auxi.Printout.Props.C122_short",
    "Auxi.Printout.Props.C122_chem_package",
    "Auxi.Printout.Props.C122_psd_package",
    "Auxi.Printout.Props.C122_slurry_package",
    "Auxi.Printout.Props.C122_chem_material",
    "Auxi.Printout.Props.C122_psd_material",
    "Auxi.Printout.Props.C122_slurry_material",
    "Auxi.Printout.Props.C122_thermo_material",
    "Auxi.Printout.Props.C122_thermo_package",
    "Auxi.Printout.Props.C122_thermo_package_zero",
    "Auxi.Printout.Props.C122_thermo_stream",
    "Auxi.Printout.Props.C122_thermo_stream_zero",
    "Auxi.Printout.Props.C122_chem_determines",
    "Auxi.Printout.Props.C122_psd_determines",
    "Auxi.Printout.Props.C122_slurry_determines",
    "Auxi.Printout.Props.C122_chem_readback",
    "Auxi.Printout.Props.C122_psd_readback",
    "Auxi.Printout.Props.C122_duplicates_violated",
    "Auxi.Printout.Props.C122_wide_violated",
    "Auxi.Printout.Props.C122_added_violated",
    "Auxi.Printout.Props.C122_negative_violated",
    "Auxi.Printout.Props.C122_hhv_violated",
    "Auxi.Printout.Props.C122_ljust",
    "Auxi.Printout.Props.C122_rjust"
   ],
   "note": "how a number is written is a parameter of every theorem; proved for distinct compounds, positive totals, and coal with a heating value; the five cases where the code fails are proved to fail"
  },
  {
   "property": "C123",
   "status": "partial",
   "theorems": [
    "Auxi.Keys.Props.C123_found",
    "Auxi.Keys.Props.C123_lost",
    "Auxi.Keys.Props.C123_chem_violated",
    "Auxi.Keys.Props.C123_unhashable_violated"
   ],
   "note": "proved for every history in which no change of an object changes the hash of its printout; false otherwise: the hash is that of the text, so that a package that is added to is lost as a key (proved for every chem package and every hash that separates the two texts)"
  },
  {
   "property": "C124",
   "status": "partial",
   "theorems": [
    "Auxi.Business.Props.C124_amount",
    "Auxi.Business.Props.C124_rate",
    "Auxi.Business.Props.C124_interval_violated",
    "Auxi.Business.Props.C124_duration_ignored_violated",
    "Auxi.Business.Props.C124_duration_unpaid_violated",
    "Auxi.Business.Props.C124_refused_rate_violated",
    "Auxi.Business.Props.C124_balance_history",
    "Auxi.Business.Props.C124_period_history",
    "Auxi.Business.Props.C124_amount_unpaid_violated"
   ],
   "note": "proved for the amount and the rate, and for every history of changes after the loan is paid out; false for an amount changed between getting ready and paying out (interest on the old amount), for the duration (the end date is never recomputed, the instalments only when another term is set), for a refused rate of zero (it stays) and for intervals of two months or more (one month's interest and instalment per interval)"
  },
  {
   "property": "C125",
   "status": "partial",
   "theorems": [
    "Auxi.LoanFloat.Props.C125_same",
    "Auxi.LoanFloat.Props.C125_schedule",
    "Auxi.LoanFloat.Props.C125_account",
    "Auxi.LoanFloat.Props.C125_repaid",
    "Auxi.LoanFloat.Props.C125_cents",
    "Auxi.LoanFloat.Props.C125_small_rate_violated",
    "Auxi.LoanFloat.Props.C125_instalment_violated"
   ],
   "note": "proved with explicit bounds for every rounding with IEEE 754's error bounds and every power function of bounded relative error; false for tiny positive rates: below 2^-50 the constructor raises ZeroDivisionError (proved for all of them), and just above the instalment is wrong in the first digit (witness)"
  },
  {
   "property": "C126",
   "status": "partial",
   "theorems": [
    "Auxi.ElementDict.Props.C126_chem",
    "Auxi.ElementDict.Props.C126_thermo",
    "Auxi.ElementDict.Props.C126_stream_empty",
    "Auxi.ElementDict.Props.C126_stream_violated"
   ],
   "note": "proved for packages; false for streams: get_element_mfr_dictionary raises for every stream of at least one compound (numpy scalar times list)"
  },
  {
   "property": "C127",
   "status": "partial",
   "theorems": [
    "Auxi.RunState.Props.C127_calendar",
    "Auxi.RunState.Props.C127_success",
    "Auxi.RunState.Props.C127_before_9999",
    "Auxi.RunState.Props.C127_tx_dates",
    "Auxi.RunState.Props.C127_last_year_violated"
   ],
   "note": "proved for horizons before the year 9999; false in the last year of the calendar: a run that starts in 9999 always raises ValueError"
  },
  {
   "property": "C128",
   "status": "proved",
   "theorems": [
    "Auxi.RunState.Props.C128_repeat",
    "Auxi.RunState.Props.C128_repair",
    "Auxi.RunState.Props.C128_culprit",
    "Auxi.RunState.Props.C128_prefix",
    "Auxi.RunState.Props.C128_unclosed"
   ],
   "note": "C128_culprit and C128_prefix for runs that stay before the year 9999 (C127); the others without hypotheses"
  },
  {
   "property": "C129",
   "status": "partial",
   "theorems": [
    "Auxi.Business.Props.C129_gross_profit_account",
    "Auxi.Business.Props.C129_income_summary_account",
    "Auxi.Business.Props.C129_no_loss_partial",
    "Auxi.Business.Props.C129_no_empty_closing",
    "Auxi.Business.Props.C129_counterexample"
   ],
   "note": "false: exact closed forms proved for both accounts; the income summary account is cleared in years without loss"
  },
  {
   "property": "C130",
   "status": "proved",
   "theorems": [
    "Auxi.Business.Props.C130_component",
    "Auxi.Business.Props.C130_entity_component",
    "Auxi.Business.Props.C130_entity",
    "Auxi.Business.Props.C130_create_remove",
    "Auxi.Business.Props.C130_create_remove_entity"
   ],
   "note": ""
  },
  {
   "property": "C131",
   "status": "partial",
   "theorems": [
    "Auxi.AssayTrip.Props.C131_chem",
    "Auxi.AssayTrip.Props.C131_chem_empty",
    "Auxi.AssayTrip.Props.C131_psd",
    "Auxi.AssayTrip.Props.C131_psd_empty",
    "Auxi.AssayTrip.Props.C131_slurry",
    "Auxi.AssayTrip.Props.C131_thermo",
    "Auxi.AssayTrip.Props.C131_stream",
    "Auxi.AssayTrip.Props.C131_thermo_created",
    "Auxi.AssayTrip.Props.C131_thermo_violated"
   ],
   "note": "proved for chem, psd and slurry; for thermo the shares are proved, and making a package of them raises KeyError (proved)"
  },
  {
   "property": "C132",
   "status": "proved",
   "theorems": [
    "Auxi.DateText.Props.C132_reads",
    "Auxi.DateText.Props.C132_refused",
    "Auxi.DateText.Props.C132_iso",
    "Auxi.DateText.Props.C132_every_day",
    "Auxi.DateText.Props.C132_object",
    "Auxi.DateText.Props.C132_transaction_list",
    "Auxi.DateText.Props.C132_reports",
    "Auxi.DateText.Props.C132_report_refused"
   ],
   "note": "ASCII digits only"
  },
  {
   "property": "C133",
   "status": "proved",
   "theorems": [
    "Auxi.Fit.Props.C133_fit_exists",
    "Auxi.Fit.Props.C133_described",
    "Auxi.Fit.Props.C133_range",
    "Auxi.Fit.Props.C133_exact",
    "Auxi.Fit.Props.C133_recovers",
    "Auxi.Fit.Props.C133_order",
    "Auxi.Fit.Props.C133_degree",
    "Auxi.Fit.Props.C133_mean",
    "Auxi.Fit.Props.C133_refused",
    "Auxi.Fit.Props.C133_succeeds"
   ],
   "note": "np.polyfit is assumed to solve the least squares problem (C133_fit_exists: such procedures exist); exact real numbers; pandas' reading of numbers is not modelled"
  },
  {
   "property": "C134",
   "status": "proved",
   "theorems": [
    "Auxi.Catalogue.Props.C134_printed",
    "Auxi.Catalogue.Props.C134_unique",
    "Auxi.Catalogue.Props.C134_order",
    "Auxi.Catalogue.Props.C134_ask",
    "Auxi.Catalogue.Props.C134_default",
    "Auxi.Catalogue.Props.C134_reference"
   ],
   "note": "what is printed is modelled as a list of lines; references.json is copied into the model"
  },
  {
   "property": "C135",
   "status": "partial",
   "theorems": [
    "Auxi.ReportsFloat.Props.C135_same",
    "Auxi.ReportsFloat.Props.C135_totals",
    "Auxi.ReportsFloat.Props.C135_entries",
    "Auxi.ReportsFloat.Props.C135_refusals",
    "Auxi.ReportsFloat.Props.C135_whole_cents",
    "Auxi.ReportsFloat.Props.C135_break_even_violated"
   ],
   "note": "the last clause is false: sales of 0.30 with expenses of 0.10 and 0.20 are printed as a loss of (0.00) (proved); everything else is proved, for any IEEE rounding; sum() is taken to add from left to right (Python before 3.12)"
  },
  {
   "property": "C136",
   "status": "partial",
   "theorems": [
    "Auxi.Plant.Props.C136_chem",
    "Auxi.Plant.Props.C136_chem_elements",
    "Auxi.Plant.Props.C136_chem_violated",
    "Auxi.Plant.Props.C136_psd",
    "Auxi.Plant.Props.C136_slurry",
    "Auxi.Plant.Props.C136_thermo",
    "Auxi.Plant.Props.C136_streams"
   ],
   "note": "false for chem packages of one material, whose addition loses one of them (C136_chem_violated, the defect of C51); proved for all other sequences. Thermo: for additions after which the solver has found the temperature (always so for constant heat capacities, C62_mix)"
  },
  {
   "property": "C137",
   "status": "proved",
   "theorems": [
    "Auxi.StoichFloat.Props.arith64",
    "Auxi.StoichFloat.Props.C137_coefficient",
    "Auxi.StoichFloat.Props.C137_large_coefficient",
    "Auxi.StoichFloat.Props.C137_molar_mass",
    "Auxi.StoichFloat.Props.C137_amount",
    "Auxi.StoichFloat.Props.C137_mass",
    "Auxi.StoichFloat.Props.C137_round_trip",
    "Auxi.StoichFloat.Props.C137_amount_fractions",
    "Auxi.StoichFloat.Props.C137_mass_fractions",
    "Auxi.StoichFloat.Props.C137_element_fraction",
    "Auxi.StoichFloat.Props.C137_element_fractions_sum",
    "Auxi.StoichFloat.Props.C137_convert",
    "Auxi.StoichFloat.Props.C137_convert_back",
    "Auxi.StoichFloat.Props.C137_doubles_sum",
    "Auxi.StoichFloat.Props.C137_doubles_convert"
   ],
   "note": "for coefficients up to 2^53 (C137_large_coefficient: beyond it they need not be exact) and non-negative masses of ordinary size; overflow is not modelled; sum() is taken to add from left to right (Python before 3.12)"
  },
  {
   "property": "C138",
   "status": "partial",
   "theorems": [
    "Auxi.Psd.Props.C138_add",
    "Auxi.Psd.Props.C138_neg",
    "Auxi.Psd.Props.C138_mul",
    "Auxi.Psd.Props.C138_div",
    "Auxi.Psd.Props.C138_gt",
    "Auxi.Psd.Props.C138_total",
    "Auxi.Psd.Props.C138_scaled",
    "Auxi.Psd.Props.C138_clear",
    "Auxi.Psd.Props.C138_clear_violated",
    "Auxi.Psd.Props.C138_extract",
    "Auxi.Psd.Props.C138_join",
    "Auxi.Psd.Props.C138_plant",
    "Auxi.Slurry.Props.C138_slurry_total",
    "Auxi.Slurry.Props.C138_slurry_extract",
    "Auxi.Slurry.Props.C138_slurry_join",
    "Auxi.Slurry.Props.C138_slurry_clear",
    "Auxi.Slurry.Props.C138_slurry_plant"
   ],
   "note": "the last clause is false: clear multiplies by zero, so infinite masses become nan and nan stays (C138_clear_violated; C138_clear gives the exact condition); everything else is proved. C138_add to C138_gt tie the arithmetic of the model to the extended real numbers of Mathlib"
  },
  {
   "property": "C139",
   "status": "proved",
   "theorems": [
    "Auxi.PsdFloat.Props.C139_exact",
    "Auxi.PsdFloat.Props.C139_mass",
    "Auxi.PsdFloat.Props.C139_extract",
    "Auxi.PsdFloat.Props.C139_everything",
    "Auxi.PsdFloat.Props.C139_add",
    "Auxi.PsdFloat.Props.C139_tuple",
    "Auxi.PsdFloat.Props.C139_plant",
    "Auxi.PsdFloat.Props.C139_requested",
    "Auxi.PsdFloat.Props.C139_orders",
    "Auxi.PsdFloat.Props.C139_chem_plant",
    "Auxi.SlurryFloat.Props.C139_slurry_exact",
    "Auxi.SlurryFloat.Props.C139_slurry_mass",
    "Auxi.SlurryFloat.Props.C139_slurry_extract",
    "Auxi.SlurryFloat.Props.C139_slurry_add",
    "Auxi.SlurryFloat.Props.C139_slurry_water",
    "Auxi.SlurryFloat.Props.C139_slurry_plant"
   ],
   "note": "for masses that are finite machine numbers and not negative, for any rounding with the properties IEEE (ieee64: doubles have them) and any order of summation (Adds); overflow is not modelled; extracting a mass from an empty package gives nan (C56, C57) and is excluded; joining chem packages of one material is excluded because of C51"
  },
  {
   "property": "C140",
   "status": "partial",
   "theorems": [
    "Auxi.LedgerApi.Props.C140_recorded",
    "Auxi.LedgerApi.Props.C140_defaults",
    "Auxi.LedgerApi.Props.C140_structure",
    "Auxi.LedgerApi.Props.C140_transaction_list",
    "Auxi.LedgerApi.Props.C140_balance_sheet",
    "Auxi.LedgerApi.Props.C140_income_statement",
    "Auxi.LedgerApi.Props.C140_date_violated",
    "Auxi.LedgerApi.Props.C140_both_kinds_violated",
    "Auxi.LedgerApi.Props.C140_source_violated"
   ],
   "note": "false for transactions created without a date or without a source: the default date is a date and the default bounds are times, which cannot be compared; a missing source has no startswith. Proved for ledgers whose transactions have times, sources and accounts of the chart, such as those filled by a run"
  },
  {
   "property": "C141",
   "status": "partial",
   "theorems": [
    "Auxi.RunReports.Props.C141_runs",
    "Auxi.RunReports.Props.C141_reports",
    "Auxi.RunReports.Props.C141_history",
    "Auxi.RunReports.Props.C141_courier",
    "Auxi.RunReports.Props.C141_refund_violated",
    "Auxi.RunReports.Props.C141_removed_violated"
   ],
   "note": "false for models with an activity that debits a revenue account outside sales and cost of sales (the year end raises KeyError) and for charts from which an account of the year end was removed (the balance sheet raises). Proved for all other models: every history of calls, every number of periods and entities; C141_courier is the shipped example"
  },
  {
   "property": "C142",
   "status": "proved",
   "theorems": [
    "Auxi.Paths.Props.C142_path",
    "Auxi.Paths.Props.C142_cwd",
    "Auxi.Paths.Props.C142_normal",
    "Auxi.Paths.Props.C142_below",
    "Auxi.Paths.Props.C142_absolute",
    "Auxi.Paths.Props.C142_again",
    "Auxi.Paths.Props.C142_same",
    "Auxi.Paths.Props.C142_data",
    "Auxi.Paths.Props.C142_relative",
    "Auxi.Paths.Props.C142_relative_cwd",
    "Auxi.Paths.Props.C142_slashes"
   ],
   "note": "the functions of posixpath that the code calls are modelled as well; paths that start with exactly two slashes are outside the hypotheses (POSIX leaves their meaning open)"
  },
  {
   "property": "C143",
   "status": "partial",
   "theorems": [
    "Auxi.Bibliography.Props.C143_found",
    "Auxi.Bibliography.Props.C143_refused",
    "Auxi.Bibliography.Props.C143_shipped",
    "Auxi.Bibliography.Props.C143_violated",
    "Auxi.Bibliography.Props.C143_violated_constants"
   ],
   "note": "false for entries of types that BibTeX itself does not have: bibtexparser drops them by default, and two of the five entries shipped (@report, @online) raise KeyError. Proved: the exact condition, and that every classical entry not repeated later is returned complete. How a text is split into entries is not modelled"
  },
  {
   "property": "C144",
   "status": "partial",
   "theorems": [
    "Auxi.Modelling.Props.C144_project",
    "Auxi.Modelling.Props.C144_variable",
    "Auxi.Modelling.Props.C144_assigned",
    "Auxi.Modelling.Props.C144_keeps",
    "Auxi.Modelling.Props.C144_last",
    "Auxi.Modelling.Props.C144_models",
    "Auxi.Modelling.Props.C144_group_violated"
   ],
   "note": "false for VariableGroup: its constructor calls super(Variable, self) and always raises TypeError. Proved for all others"
  },
  {
   "property": "C145",
   "status": "partial",
   "theorems": [
    "Auxi.Reports.Props.C145_list",
    "Auxi.Reports.Props.C145_days",
    "Auxi.Reports.Props.C145_sheet",
    "Auxi.Reports.Props.C145_order",
    "Auxi.Reports.Props.C145_income",
    "Auxi.Reports.Props.C145_reconcile",
    "Auxi.Reports.Props.C145_income_violated"
   ],
   "note": "false of the income statement: a refund that is the first entry of its account in a period is added instead of subtracted, so the statements of two months do not add up to that of both. Proved for transaction lists and balance sheets without condition, and for income statements where each account's first entry of each period is on its usual side"
  },
  {
   "property": "C146",
   "status": "proved",
   "theorems": [
    "Auxi.Business.Props.C146_add",
    "Auxi.Business.Props.C146_order",
    "Auxi.Business.Props.C146_alone"
   ],
   "note": "for runs that succeed; year-end closings, which are the entity's and not an activity's, are left out of what is compared"
  },
  {
   "property": "C147",
   "status": "partial",
   "theorems": [
    "Auxi.Business.Props.C147_prefix",
    "Auxi.Business.Props.C147_sublist",
    "Auxi.Business.Props.C147_until",
    "Auxi.Business.Props.C147_violated"
   ],
   "note": "false of the code: an activity is only run when a whole interval still fits in the horizon, and an activity whose start lies beyond the horizon runs from the first period. Proved: the longer run begins with the shorter one when activities execute every period and start within the shorter run; for any intervals, the two agree up to the last k-1 periods of the shorter run (k the greatest interval), and the shorter run posts only what the longer posts when activities also end within it or never"
  },
  {
   "property": "C148",
   "status": "proved",
   "theorems": [
    "Auxi.ThermoFloat.Props.C148_split",
    "Auxi.ThermoFloat.Props.C148_compound",
    "Auxi.ThermoFloat.Props.C148_matches",
    "Auxi.ThermoFloat.Props.C148_energy",
    "Auxi.ThermoFloat.Props.C148_refused",
    "Auxi.ThermoFloat.Props.C148_succeeds",
    "Auxi.ThermoFloat.Props.C148_requested",
    "Auxi.ThermoFloat.Props.C148_tuple",
    "Auxi.ThermoFloat.Props.C148_tuple3",
    "Auxi.ThermoFloat.Props.C148_join",
    "Auxi.ThermoFloat.Props.C148_join_T",
    "Auxi.ThermoFloat.Props.C148_scale",
    "Auxi.ThermoFloat.Props.C148_plant",
    "Auxi.ThermoFloat.Props.C148_plant_energy",
    "Auxi.ThermoFloat.Props.C148_inexact",
    "Auxi.ThermoFloat.Props.C148_material",
    "Auxi.ThermoFloat.Props.C148_material_succeeds"
   ],
   "note": "for packages and streams (whose code is the same text with flow rates for masses) that are not coal and hold finite masses; the enthalpy per kilogram and the temperature solver are parameters; C148_inexact: without the roundings it would be false"
  },
  {
   "property": "C149",
   "status": "partial",
   "theorems": [
    "Auxi.Psd.Laws.C149_psd_commutes",
    "Auxi.Psd.Laws.C149_psd_associates",
    "Auxi.Psd.Laws.C149_psd_scale",
    "Auxi.Psd.Laws.C149_psd_empty",
    "Auxi.Psd.Laws.C149_psd_rejoin",
    "Auxi.Slurry.Laws.C149_slurry_commutes",
    "Auxi.Slurry.Laws.C149_slurry_associates",
    "Auxi.Slurry.Laws.C149_slurry_scale",
    "Auxi.Slurry.Laws.C149_slurry_rejoin",
    "Auxi.Slurry.Laws.C149_slurry_violated",
    "Auxi.Chem.Laws.C149_chem_commutes_partial",
    "Auxi.Chem.Laws.C149_chem_associates_partial",
    "Auxi.Chem.Laws.C149_chem_scale_partial",
    "Auxi.Chem.Laws.C149_chem_rejoin_partial",
    "Auxi.Chem.Laws.C149_chem_violated",
    "Auxi.Thermo.Laws.C149_thermo_rejoin",
    "Auxi.Thermo.Props.C60_commutes",
    "Auxi.Thermo.Props.C60_associates"
   ],
   "note": "false of chem packages of one material (`+` joins the lists of masses) and of slurries without solids (the density becomes nan). Proved: for psd packages without condition other than finite masses; for slurries with solids; for chem packages of different materials; for thermochemical packages, where the temperature after putting back is exact for heat capacities that do not depend on temperature, and enthalpy and masses are exact always"
  },
  {
   "property": "C150",
   "status": "partial",
   "theorems": [
    "Auxi.Money.Props.C150_reads",
    "Auxi.Money.Props.C150_nearest",
    "Auxi.Money.Props.C150_whole",
    "Auxi.Money.Props.C150_form",
    "Auxi.Money.Props.C150_monotone",
    "Auxi.Money.Props.C150_same",
    "Auxi.Money.Props.C150_negative",
    "Auxi.Money.Props.C150_paren",
    "Auxi.Money.Props.C150_total_partial",
    "Auxi.Money.Props.C150_total_whole",
    "Auxi.Money.Props.C150_total_violated",
    "Auxi.Money.Props.C150_zero_violated"
   ],
   "note": "false in the last clause: two transactions of 0.004 are printed as 0.00 with the total 0.01. Proved: the printed total of n amounts differs from the sum of the printed amounts by at most n + 1 half cents, and not at all for whole cents; everything else without condition. A float -0.0, which is printed as -0.00, is not modelled"
  },
  {
   "property": "C151",
   "status": "partial",
   "theorems": [
    "Auxi.Money.Props.C151_day",
    "Auxi.Money.Props.C151_time",
    "Auxi.Money.Props.C151_dates",
    "Auxi.Money.Props.C151_file",
    "Auxi.Money.Props.C151_distinct_partial",
    "Auxi.Money.Props.C151_distinct_violated",
    "Auxi.Money.Props.C151_balance",
    "Auxi.Money.Props.C151_any",
    "Auxi.Money.Props.C151_run"
   ],
   "note": "false in one clause: an absent account or description has the same text as an empty one, a name is left out when the source ends with it, and amounts are rounded, so that different lists can have the same file. Proved: files that are the same list transactions that are alike in everything else, to a cent. Before Python 3.13 for texts without carriage returns (see C112)"
  },
  {
   "property": "C152",
   "status": "partial",
   "theorems": [
    "Auxi.Share.Props.C152_shared",
    "Auxi.Share.Props.C152_set_order",
    "Auxi.Share.Props.C152_text",
    "Auxi.Share.Props.C152_text_iff",
    "Auxi.Share.Props.C152_violated"
   ],
   "note": "false with a jsonpickle that visits attributes in the order in which they were set (setup.py asks for no version): the keys of the file are sorted, so that the numbers of shared parts point to other objects, and the ledger of an entity's component is read as the entity's list of components. Proved with a jsonpickle that visits attributes by name, and with any for classes that set their attributes in alphabetical order. Dictionaries and enumeration members are not in this model"
  },
  {
   "property": "C153",
   "status": "partial",
   "theorems": [
    "Auxi.Thermo.Props.C153_burning",
    "Auxi.Thermo.Props.C153_heating",
    "Auxi.Thermo.Props.C153_no_value_violated"
   ],
   "note": "burning and heating are proved for streams with a given heating value; without one the code adds the enthalpy of the products where it should subtract it, so that burning the coal would take up heat (_calculate_DH298_coal: HHV = (Hout - Hin)/m_total is negative, and is per kilogram twice over)"
  },
  {
   "property": "C154",
   "status": "proved",
   "theorems": [
    "Auxi.Business.Props.C154_run",
    "Auxi.Business.Props.C154_activities",
    "Auxi.Business.Props.C154_seen",
    "Auxi.Business.Props.C154_transaction_list",
    "Auxi.Business.Props.C154_balance_sheet",
    "Auxi.Business.Props.C154_income_statement",
    "Auxi.Business.Props.C154_reports_on_run"
   ],
   "note": "in exact arithmetic; the cells of the tables before they are formatted to two decimals"
  },
  {
   "property": "C155",
   "status": "partial",
   "theorems": [
    "Auxi.Transport.Props.C155_quotients",
    "Auxi.Transport.Props.C155_smooth",
    "Auxi.Transport.Props.C155_haaland",
    "Auxi.Transport.Props.C155_turbulent",
    "Auxi.Transport.Props.C155_units",
    "Auxi.Transport.Props.C155_negative_violated"
   ],
   "note": "false of the code only in that negative Reynolds numbers are not always refused (laminar: a negative friction factor; Haaland in a rough pipe: a positive number); everything else is proved in full"
  },
  {
   "property": "C156",
   "status": "partial",
   "theorems": [
    "Auxi.Business.Props.C156_entity",
    "Auxi.Business.Props.C156_component",
    "Auxi.Business.Props.C156_model",
    "Auxi.Business.Props.C156_created",
    "Auxi.Business.Props.C156_kept",
    "Auxi.Business.Props.C156_renamed",
    "Auxi.Business.Props.C156_taken_violated"
   ],
   "note": "false of the code for a name that is taken: creating is not refused, the name keeps giving the earlier thing, and removing the name removes the later one; the exact behaviour is proved for all histories"
  },
  {
   "property": "C157",
   "status": "partial",
   "theorems": [
    "Auxi.Business.Props.C157_calendar",
    "Auxi.Business.Props.C157_later",
    "Auxi.Business.Props.C157_months_violated"
   ],
   "note": "the statement on periods is proved in full (for runs that succeed, year-end closings left out); a shift by d is false of clocks that count months or years, whose dates are clamped to the end of the month (violated), and proved for all others"
  },
  {
   "property": "C158",
   "status": "partial",
   "theorems": [
    "Auxi.Business.Props.C158_amounts",
    "Auxi.Business.Props.C158_loans",
    "Auxi.Business.Props.C158_times",
    "Auxi.Business.Props.C158_order",
    "Auxi.Business.Props.C158_times_violated",
    "Auxi.Business.Props.C158_order_violated"
   ],
   "note": "parts by amount and other orders: proved in full for runs that succeed, year ends included; halves by time: proved for activities that execute every period, false of other intervals (violated); whether a run succeeds at all can depend on the order of the activities (violated)"
  },
  {
   "property": "C159",
   "status": "proved",
   "theorems": [
    "Auxi.Business.Props.C159_fair",
    "Auxi.Business.Props.C159_unique",
    "Auxi.Business.Props.C159_bounds",
    "Auxi.Business.Props.C159_rate",
    "Auxi.Business.Props.C159_duration",
    "Auxi.Business.Props.C159_ledger",
    "Auxi.Business.Props.C159_cost"
   ],
   "note": "over exact rationals (rounding: C139); positive rates and whole-month durations"
  },
  {
   "property": "C160",
   "status": "partial",
   "theorems": [
    "Auxi.Business.Props.C160_sheet",
    "Auxi.Business.Props.C160_sheet_lines",
    "Auxi.Business.Props.C160_income",
    "Auxi.Business.Props.C160_income_lines",
    "Auxi.Business.Props.C160_total",
    "Auxi.Business.Props.C160_runs",
    "Auxi.Business.Props.C160_basic",
    "Auxi.Business.Props.C160_loan",
    "Auxi.Business.Props.C160_loan_months",
    "Auxi.Business.Props.C160_reversal_violated"
   ],
   "note": "balance sheets and totals of transaction lists: proved in full; income statements: proved for ledgers in which no revenue account is debited and no expense account credited, false otherwise (violated: the first debit of a revenue account is shown with the wrong sign, so the statement depends on the order)"
  },
  {
   "property": "C161",
   "status": "partial",
   "theorems": [
    "Auxi.Version.Props.C161_replace",
    "Auxi.Version.Props.C161_setup",
    "Auxi.Version.Props.C161_refused",
    "Auxi.Version.Props.C161_update",
    "Auxi.Version.Props.C161_history",
    "Auxi.Version.Props.C161_back",
    "Auxi.Version.Props.C161_tree",
    "Auxi.Version.Props.C161_left_behind",
    "Auxi.Version.Props.C161_shipped_violated",
    "Auxi.Version.Props.C161_scripts_violated"
   ],
   "note": "one update and every history: proved in full for modules and documentation that declare the current version; false of the shipped modules: those with the version in double quotes and those at an earlier version are never updated; shell scripts: proved if the first characters of the versions occur in them only there, false otherwise (violated)"
  },
  {
   "property": "C162",
   "status": "partial",
   "theorems": [
    "Auxi.Install.Props.C162_glob",
    "Auxi.Install.Props.C162_installed",
    "Auxi.Install.Props.C162_modules",
    "Auxi.Install.Props.C162_shipped",
    "Auxi.Install.Props.C162_shipped_violated"
   ],
   "note": "what is installed: proved in full; that everything is installed is false of the shipped setup.py: fluidflow and the bibliography are missing (violated)"
  }
 ]
}