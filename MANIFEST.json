{
 "claims": [
  {
   "property": "C01",
   "status": "proved",
   "theorems": [
    "Calk.C01_pH_emf_pH",
    "Calk.C01_emf_pH_emf",
    "Calk.C01_h_emf_h",
    "Calk.C01_emf_h_emf",
    "Calk.C01_nernst"
   ],
   "note": ""
  },
  {
   "property": "C02",
   "status": "proved",
   "theorems": [
    "Calk.C02_pH_strictAnti",
    "Calk.C02_h_strictMono",
    "Calk.C02_shift",
    "Calk.C02_decade"
   ],
   "note": ""
  },
  {
   "property": "C03",
   "status": "proved",
   "theorems": [
    "Calk.C03_f_divides",
    "Calk.C03_f_mul",
    "Calk.C03_f_one"
   ],
   "note": ""
  },
  {
   "property": "C04",
   "status": "proved",
   "theorems": [
    "Calk.C04_range",
    "Calk.C04_strictAnti",
    "Calk.C04_conserves",
    "Calk.C04_compose"
   ],
   "note": ""
  },
  {
   "property": "C05",
   "status": "proved",
   "theorems": [
    "Calk.C05_dilute_totals",
    "Calk.C05_bad_shape",
    "Calk.C05_amount"
   ],
   "note": ""
  },
  {
   "property": "C06",
   "status": "proved",
   "theorems": [
    "Calk.C06_pyco2_selective",
    "Calk.C06_salinity_kept",
    "Calk.C06_totals_to_pyco2",
    "Calk.C06_extra_not_diluted"
   ],
   "note": ""
  },
  {
   "property": "C07",
   "status": "proved",
   "theorems": [
    "Calk.C07_dilute_then_add",
    "Calk.C07_amount"
   ],
   "note": ""
  },
  {
   "property": "C08",
   "status": "proved",
   "theorems": [
    "Calk.C08_H",
    "Calk.C08_water",
    "Calk.C08_carbonate",
    "Calk.C08_monoprotic",
    "Calk.C08_phosphate",
    "Calk.C08_HF_HSO4",
    "Calk.C08_extra"
   ],
   "note": ""
  },
  {
   "property": "C09",
   "status": "proved",
   "theorems": [
    "Calk.C09_alkalinity_textbook",
    "Calk.C09_strictMono"
   ],
   "note": ""
  },
  {
   "property": "C10",
   "status": "proved",
   "theorems": [
    "Calk.C10_existsUnique_pH",
    "Calk.C10_water_needed"
   ],
   "note": ""
  },
  {
   "property": "C11",
   "status": "proved",
   "theorems": [
    "Calk.C11_absent_eq_zero",
    "Calk.C11_bad_scale",
    "Calk.C11_succeeds_iff",
    "Calk.C11_missing_constant"
   ],
   "note": ""
  },
  {
   "property": "C12",
   "status": "proved",
   "theorems": [
    "Calk.C12_components",
    "Calk.C12_total_scale",
    "Calk.C12_threshold_jump"
   ],
   "note": ""
  },
  {
   "property": "C13",
   "status": "proved",
   "theorems": [
    "Calk.C13_exact"
   ],
   "note": ""
  },
  {
   "property": "C14",
   "status": "proved",
   "theorems": [
    "Calk.C14_window",
    "Calk.C14_mean",
    "Calk.C14_outside_irrelevant",
    "Calk.C14_between"
   ],
   "note": ""
  },
  {
   "property": "C15",
   "status": "proved",
   "theorems": [
    "Calk.C15_order"
   ],
   "note": ""
  },
  {
   "property": "C16",
   "status": "proved",
   "theorems": [
    "Calk.C16_bad_window_pH",
    "Calk.C16_bad_window_emf",
    "Calk.C16_empty_window"
   ],
   "note": ""
  },
  {
   "property": "C17",
   "status": "proved",
   "theorems": [
    "Calk.C17_affine",
    "Calk.C17_unique_molinity",
    "Calk.C17_calibrated",
    "Calk.C17_calibration_unique"
   ],
   "note": ""
  },
  {
   "property": "C18",
   "status": "proved",
   "theorems": [
    "Calk.C18_suffix",
    "Calk.C18_nonempty",
    "Calk.C18_legacy"
   ],
   "note": ""
  },
  {
   "property": "C19",
   "status": "proved",
   "theorems": [
    "Calk.C19_exact",
    "Calk.C19_exact_legacy",
    "Calk.C19_single_point_nan"
   ],
   "note": ""
  },
  {
   "property": "C20",
   "status": "proved",
   "theorems": [
    "Calk.C20_offset"
   ],
   "note": ""
  },
  {
   "property": "C21",
   "status": "proved",
   "theorems": [
    "Calk.C21_exact",
    "Calk.C21_proportional"
   ],
   "note": ""
  },
  {
   "property": "C22",
   "status": "proved",
   "theorems": [
    "Calk.C22_unknown_logic"
   ],
   "note": ""
  },
  {
   "property": "C23",
   "status": "proved",
   "theorems": [
    "Calk.C23_residuals",
    "Calk.C23_zero_residuals"
   ],
   "note": ""
  },
  {
   "property": "C24",
   "status": "proved",
   "theorems": [
    "Calk.C24_used",
    "Calk.C24_used_double",
    "Calk.C24_unused_irrelevant"
   ],
   "note": ""
  },
  {
   "property": "C25",
   "status": "proved",
   "theorems": [
    "Calk.C25_double",
    "Calk.C25_single_call"
   ],
   "note": ""
  },
  {
   "property": "C26",
   "status": "proved",
   "theorems": [
    "Calk.C26_ggr_default",
    "Calk.C26_ggr_single"
   ],
   "note": ""
  },
  {
   "property": "C27",
   "status": "proved",
   "theorems": [
    "Calk.C27_zero",
    "Calk.C27_exact_fit"
   ],
   "note": ""
  },
  {
   "property": "C28",
   "status": "proved",
   "theorems": [
    "Calk.C28_calibrate_emf",
    "Calk.C28_calibrate_pH",
    "Calk.C28_calibrate_pH_gran",
    "Calk.C28_scalar_totals",
    "Calk.C28_no_titrant_totals"
   ],
   "note": ""
  },
  {
   "property": "C29",
   "status": "proved",
   "theorems": [
    "Calk.C29_failure",
    "Calk.C29_polluted"
   ],
   "note": ""
  },
  {
   "property": "C30",
   "status": "proved",
   "theorems": [
    "Calk.C30_adds",
    "Calk.C30_untouched",
    "Calk.C30_replace",
    "Calk.C30_revert",
    "Calk.C30_order",
    "Calk.C30_bad_name",
    "Calk.C30_missing"
   ],
   "note": ""
  },
  {
   "property": "C31",
   "status": "proved",
   "theorems": [
    "Calk.C31_value",
    "Calk.C31_no_row",
    "Calk.C31_order"
   ],
   "note": ""
  },
  {
   "property": "C32",
   "status": "proved",
   "theorems": [
    "Calk.C32_same_solver",
    "Calk.C32_same_solver_titrant",
    "Calk.C32_load_error"
   ],
   "note": ""
  },
  {
   "property": "C33",
   "status": "proved",
   "theorems": [
    "Calk.C33_calibrate",
    "Calk.C33_reported",
    "Calk.C33_solve_honours"
   ],
   "note": ""
  },
  {
   "property": "C34",
   "status": "proved",
   "theorems": [
    "Calk.C34_case",
    "Calk.C34_closed",
    "Calk.C34_no_text"
   ],
   "note": ""
  },
  {
   "property": "C35",
   "status": "proved",
   "theorems": [
    "Calk.C35_emf0_init_ignored",
    "Calk.C35_round_trip",
    "Calk.C35_window"
   ],
   "note": ""
  },
  {
   "property": "C36",
   "status": "proved",
   "theorems": [
    "Calk.C36_solve",
    "Calk.C36_calibrate",
    "Calk.C36_warning"
   ],
   "note": ""
  },
  {
   "property": "C37",
   "status": "proved",
   "theorems": [
    "Calk.C37_no_text",
    "Calk.C37_titrant",
    "Calk.C37_interchangeable",
    "Calk.C37_case",
    "Calk.C37_bad_unit",
    "Calk.C37_density_wins",
    "Calk.C37_computed_density"
   ],
   "note": ""
  },
  {
   "property": "C38",
   "status": "proved",
   "theorems": [
    "Calk.C38_readers",
    "Calk.C38_decimals",
    "Calk.C38_witness",
    "Calk.C38_mass_wins",
    "Calk.C38_volume",
    "Calk.C38_neither",
    "Calk.C38_override"
   ],
   "note": ""
  },
  {
   "property": "C39",
   "status": "proved",
   "theorems": [
    "Calk.C39_range",
    "Calk.C39_nested",
    "Calk.C39_nested_value",
    "Calk.C39_method",
    "Calk.C39_row_method",
    "Calk.C39_bad"
   ],
   "note": ""
  },
  {
   "property": "C40",
   "status": "proved",
   "theorems": [
    "Calk.C40_solve",
    "Calk.C40_length"
   ],
   "note": ""
  },
  {
   "property": "C41",
   "status": "proved",
   "theorems": [
    "Calk.C41_calibrate_finishes",
    "Calk.C41_finishes",
    "Calk.C41_isolated",
    "Calk.C41_together",
    "Calk.C41_blank",
    "Calk.C41_bad_certified",
    "Calk.C41_no_file_name"
   ],
   "note": ""
  },
  {
   "property": "C42",
   "status": "proved",
   "theorems": [
    "Calk.C42_solve",
    "Calk.C42_calibrate",
    "Calk.C42_calkulate"
   ],
   "note": ""
  },
  {
   "property": "C43",
   "status": "proved",
   "theorems": [
    "Calk.C43_batch_mean",
    "Calk.C43_mean",
    "Calk.C43_none",
    "Calk.C43_independent"
   ],
   "note": ""
  },
  {
   "property": "C44",
   "status": "proved",
   "theorems": [
    "Calk.C44_file",
    "Calk.C44_self_calibrated"
   ],
   "note": ""
  },
  {
   "property": "C45",
   "status": "proved",
   "theorems": [
    "Calk.C45_solve_again",
    "Calk.C45_calkulate"
   ],
   "note": ""
  },
  {
   "property": "C46",
   "status": "proved",
   "theorems": [
    "Calk.C46_flag_stored",
    "Calk.C46_flag_final",
    "Calk.C46_salts_kept",
    "Calk.C46_salts_fresh",
    "Calk.C46_history_matters"
   ],
   "note": ""
  },
  {
   "property": "C47",
   "status": "proved",
   "theorems": [
    "Calk.C47_borate_solve",
    "Calk.C47_borate_calibrate",
    "Calk.C47_salt_solve",
    "Calk.C47_salt_calibrate"
   ],
   "note": ""
  },
  {
   "property": "C48",
   "status": "proved",
   "theorems": [
    "Calk.C48_assert",
    "Calk.C48_fills",
    "Calk.C48_idempotent"
   ],
   "note": ""
  },
  {
   "property": "C49",
   "status": "proved",
   "theorems": [
    "Calk.C49_solve_blank",
    "Calk.C49_solve_not_read",
    "Calk.C49_calibrate"
   ],
   "note": ""
  },
  {
   "property": "C50",
   "status": "proved",
   "theorems": [
    "Calk.C50_null_batch"
   ],
   "note": ""
  },
  {
   "property": "C51",
   "status": "proved",
   "theorems": [
    "Calk.C51_exact",
    "Calk.C51_misleading"
   ],
   "note": ""
  },
  {
   "property": "C52",
   "status": "proved",
   "theorems": [
    "Calk.C52_not_filled",
    "Calk.C52_not_changed"
   ],
   "note": ""
  },
  {
   "property": "C53",
   "status": "proved",
   "theorems": [
    "Calk.C53_round_trip",
    "Calk.C53_default",
    "Calk.C53_stable"
   ],
   "note": ""
  },
  {
   "property": "C54",
   "status": "proved",
   "theorems": [
    "Calk.C54_contents",
    "Calk.C54_exists"
   ],
   "note": ""
  },
  {
   "property": "C55",
   "status": "proved",
   "theorems": [
    "Calk.C55_single",
    "Calk.C55_missing"
   ],
   "note": ""
  },
  {
   "property": "C56",
   "status": "proved",
   "theorems": [
    "Calk.C56_block",
    "Calk.C56_unique",
    "Calk.C56_reads",
    "Calk.C56_none"
   ],
   "note": ""
  },
  {
   "property": "C57",
   "status": "proved",
   "theorems": [
    "Calk.C57_fallback",
    "Calk.C57_warning",
    "Calk.C57_vindta"
   ],
   "note": ""
  },
  {
   "property": "C58",
   "status": "proved",
   "theorems": [
    "Calk.C58_no_gran",
    "Calk.C58_shift",
    "Calk.C58_wraps"
   ],
   "note": ""
  },
  {
   "property": "C59",
   "status": "proved",
   "theorems": [
    "Calk.C59_bottles",
    "Calk.C59_kinds",
    "Calk.C59_fraction",
    "Calk.C59_crm",
    "Calk.C59_collision"
   ],
   "note": ""
  },
  {
   "property": "C60",
   "status": "proved",
   "theorems": [
    "Calk.C60_rows",
    "Calk.C60_fresh",
    "Calk.C60_column",
    "Calk.C60_gap",
    "Calk.C60_flag",
    "Calk.C60_named"
   ],
   "note": ""
  },
  {
   "property": "C61",
   "status": "proved",
   "theorems": [
    "Calk.C61_increasing",
    "Calk.C61_bounds",
    "Calk.C61_warns",
    "Calk.C61_equation",
    "Calk.C61_negative"
   ],
   "note": ""
  },
  {
   "property": "C62",
   "status": "proved",
   "theorems": [
    "Calk.C62_increasing",
    "Calk.C62_warns",
    "Calk.C62_bounds",
    "Calk.C62_mixture",
    "Calk.C62_water",
    "Calk.C62_equation",
    "Calk.C62_denser",
    "Calk.C62_quadratic"
   ],
   "note": ""
  },
  {
   "property": "C63",
   "status": "proved",
   "theorems": [
    "Calk.C63_estimate",
    "Calk.C63_equal",
    "Calk.C63_differs",
    "Calk.C63_curves"
   ],
   "note": ""
  },
  {
   "property": "C64",
   "status": "proved",
   "theorems": [
    "Calk.C64_settings",
    "Calk.C64_call",
    "Calk.C64_opposite",
    "Calk.C64_null",
    "Calk.C64_row"
   ],
   "note": ""
  },
  {
   "property": "C65",
   "status": "proved",
   "theorems": [
    "Calk.C65_no_path",
    "Calk.C65_titration",
    "Calk.C65_with_path"
   ],
   "note": ""
  },
  {
   "property": "C66",
   "status": "proved",
   "theorems": [
    "Calk.C66_no_loss"
   ],
   "note": ""
  },
  {
   "property": "C67",
   "status": "proved",
   "theorems": [
    "Calk.C67_affine",
    "Calk.C67_monotone",
    "Calk.C67_unique",
    "Calk.C67_equilibrium"
   ],
   "note": ""
  },
  {
   "property": "C68",
   "status": "proved",
   "theorems": [
    "Calk.C68_bounds",
    "Calk.C68_decreasing",
    "Calk.C68_formula"
   ],
   "note": ""
  },
  {
   "property": "C69",
   "status": "proved",
   "theorems": [
    "Calk.C69_salts",
    "Calk.C69_optional",
    "Calk.C69_no_other",
    "Calk.C69_constants",
    "Calk.C69_fluoride_total",
    "Calk.C69_assembled",
    "Calk.C69_estimated"
   ],
   "note": ""
  },
  {
   "property": "C70",
   "status": "proved",
   "theorems": [
    "Calk.C70_results_not_settings",
    "Calk.C70_tables",
    "Calk.C70_names",
    "Calk.C70_multipliers",
    "Calk.C70_keys",
    "Calk.C70_solve_vs_calibrate"
   ],
   "note": ""
  },
  {
   "property": "C71",
   "status": "proved",
   "theorems": [
    "Calk.C71_only_constants",
    "Calk.C71_bias"
   ],
   "note": ""
  },
  {
   "property": "C72",
   "status": "proved",
   "theorems": [
    "Calk.C72_nan_emf_fails",
    "Calk.C72_nan_pH_contained"
   ],
   "note": ""
  },
  {
   "property": "C73",
   "status": "proved",
   "theorems": [
    "Calk.C73_table",
    "Calk.C73_from_end",
    "Calk.C73_no_column",
    "Calk.C73_ragged"
   ],
   "note": ""
  },
  {
   "property": "C74",
   "status": "proved",
   "theorems": [
    "Calk.C74_orgalk",
    "Calk.C74_reads"
   ],
   "note": ""
  },
  {
   "property": "C75",
   "status": "proved",
   "theorems": [
    "Calk.C75_length",
    "Calk.C75_balance"
   ],
   "note": ""
  },
  {
   "property": "C76",
   "status": "proved",
   "theorems": [
    "Calk.C76_crossing",
    "Calk.C76_error"
   ],
   "note": ""
  },
  {
   "property": "C77",
   "status": "proved",
   "theorems": [
    "Calk.C77_masses",
    "Calk.C77_step"
   ],
   "note": ""
  },
  {
   "property": "C78",
   "status": "proved",
   "theorems": [
    "Calk.C78_forecast",
    "Calk.C78_understates"
   ],
   "note": ""
  },
  {
   "property": "C79",
   "status": "proved",
   "theorems": [
    "Calk.C79_null",
    "Calk.C79_date",
    "Calk.C79_malformed"
   ],
   "note": ""
  },
  {
   "property": "C80",
   "status": "proved",
   "theorems": [
    "Calk.C80_rows",
    "Calk.C80_columns",
    "Calk.C80_func_cols",
    "Calk.C80_no_replacing",
    "Calk.C80_taken"
   ],
   "note": ""
  },
  {
   "property": "C81",
   "status": "proved",
   "theorems": [
    "Calk.C81_no_mass",
    "Calk.C81_never",
    "Calk.C81_nan"
   ],
   "note": ""
  },
  {
   "property": "C82",
   "status": "proved",
   "theorems": [
    "Calk.C82_results"
   ],
   "note": ""
  },
  {
   "property": "C83",
   "status": "proved",
   "theorems": [
    "Calk.C83_fit",
    "Calk.C83_restart"
   ],
   "note": ""
  },
  {
   "property": "C84",
   "status": "proved",
   "theorems": [
    "Calk.C84_column",
    "Calk.C84_pH",
    "Calk.C84_emf",
    "Calk.C84_differs"
   ],
   "note": ""
  },
  {
   "property": "C85",
   "status": "proved",
   "theorems": [
    "Calk.C85_points",
    "Calk.C85_real",
    "Calk.C85_start"
   ],
   "note": ""
  },
  {
   "property": "C86",
   "status": "proved",
   "theorems": [
    "Calk.C86_fit"
   ],
   "note": ""
  },
  {
   "property": "C87",
   "status": "proved",
   "theorems": [
    "Calk.C87_points",
    "Calk.C87_emf",
    "Calk.C87_pH",
    "Calk.C87_pH_gran",
    "Calk.C87_totals"
   ],
   "note": ""
  },
  {
   "property": "C88",
   "status": "proved",
   "theorems": [
    "Calk.C88_made"
   ],
   "note": ""
  },
  {
   "property": "C89",
   "status": "proved",
   "theorems": [
    "Calk.C89_solve",
    "Calk.C89_calibrate",
    "Calk.C89_all",
    "Calk.C89_file_type",
    "Calk.C89_reader"
   ],
   "note": ""
  },
  {
   "property": "C90",
   "status": "proved",
   "theorems": [
    "Calk.C90_selective",
    "Calk.C90_keys",
    "Calk.C90_sulfate",
    "Calk.C90_no_sulfate",
    "Calk.C90_vs_plain"
   ],
   "note": ""
  },
  {
   "property": "C91",
   "status": "proved",
   "theorems": [
    "Calk.C91_fit",
    "Calk.C91_data",
    "Calk.C91_contents",
    "Calk.C91_dilute"
   ],
   "note": ""
  },
  {
   "property": "C92",
   "status": "proved",
   "theorems": [
    "Calk.C92_masses",
    "Calk.C92_call",
    "Calk.C92_alkalinity"
   ],
   "note": ""
  },
  {
   "property": "C93",
   "status": "proved",
   "theorems": [
    "Calk.C93_residuals",
    "Calk.C93_pH",
    "Calk.C93_fit"
   ],
   "note": ""
  },
  {
   "property": "C94",
   "status": "proved",
   "theorems": [
    "Calk.C94_loss",
    "Calk.C94_balance",
    "Calk.C94_zero",
    "Calk.C94_empty"
   ],
   "note": ""
  },
  {
   "property": "C95",
   "status": "proved",
   "theorems": [
    "Calk.C95_two_points",
    "Calk.C95_recovers",
    "Calk.C95_simulated",
    "Calk.C95_ambiguous"
   ],
   "note": ""
  },
  {
   "property": "C96",
   "status": "proved",
   "theorems": [
    "Calk.C96_solve",
    "Calk.C96_blank_column",
    "Calk.C96_blank_unit"
   ],
   "note": ""
  },
  {
   "property": "C97",
   "status": "proved",
   "theorems": [
    "Calk.C97_calibrate",
    "Calk.C97_solve",
    "Calk.C97_defaults"
   ],
   "note": ""
  },
  {
   "property": "C98",
   "status": "proved",
   "theorems": [
    "Calk.C98_same",
    "Calk.C98_made",
    "Calk.C98_blank_limit",
    "Calk.C98_arguments_lost"
   ],
   "note": ""
  },
  {
   "property": "C99",
   "status": "proved",
   "theorems": [
    "Calk.C99_once",
    "Calk.C99_emf",
    "Calk.C99_alkalinity"
   ],
   "note": ""
  },
  {
   "property": "C100",
   "status": "proved",
   "theorems": [
    "Calk.C100_spread"
   ],
   "note": ""
  },
  {
   "property": "C101",
   "status": "proved",
   "theorems": [
    "Calk.C101_pH"
   ],
   "note": ""
  },
  {
   "property": "C102",
   "status": "proved",
   "theorems": [
    "Calk.C102_emf0",
    "Calk.C102_missing",
    "Calk.C102_alkalinity",
    "Calk.C102_pH_gran"
   ],
   "note": ""
  },
  {
   "property": "C103",
   "status": "proved",
   "theorems": [
    "Calk.C103_drawn",
    "Calk.C103_points",
    "Calk.C103_curve",
    "Calk.C103_repeated",
    "Calk.C103_pH",
    "Calk.C103_sum"
   ],
   "note": ""
  },
  {
   "property": "C104",
   "status": "proved",
   "theorems": [
    "Calk.C104_points",
    "Calk.C104_calibrated"
   ],
   "note": ""
  },
  {
   "property": "C105",
   "status": "proved",
   "theorems": [
    "Calk.C105_points",
    "Calk.C105_calibrated",
    "Calk.C105_needs_calibrate",
    "Calk.C105_solved"
   ],
   "note": ""
  },
  {
   "property": "C106",
   "status": "proved",
   "theorems": [
    "Calk.C106_never",
    "Calk.C106_error"
   ],
   "note": ""
  },
  {
   "property": "C107",
   "status": "proved",
   "theorems": [
    "Calk.C107_present",
    "Calk.C107_item",
    "Calk.C107_opt_result",
    "Calk.C107_emf0"
   ],
   "note": ""
  },
  {
   "property": "C108",
   "status": "proved",
   "theorems": [
    "Calk.C108_file",
    "Calk.C108_contents",
    "Calk.C108_constants"
   ],
   "note": ""
  },
  {
   "property": "C109",
   "status": "proved",
   "theorems": [
    "Calk.C109_estimates",
    "Calk.C109_exact"
   ],
   "note": ""
  },
  {
   "property": "C110",
   "status": "proved",
   "theorems": [
    "Calk.C110_warnings",
    "Calk.C110_falling",
    "Calk.C110_ideal",
    "Calk.C110_offset"
   ],
   "note": ""
  },
  {
   "property": "C111",
   "status": "proved",
   "theorems": [
    "Calk.C111_increasing",
    "Calk.C111_recovers"
   ],
   "note": ""
  },
  {
   "property": "C112",
   "status": "proved",
   "theorems": [
    "Calk.C112_estimates",
    "Calk.C112_best",
    "Calk.C112_exact"
   ],
   "note": ""
  },
  {
   "property": "C113",
   "status": "proved",
   "theorems": [
    "Calk.C113_error",
    "Calk.C113_written"
   ],
   "note": ""
  },
  {
   "property": "C114",
   "status": "proved",
   "theorems": [
    "Calk.C114_offset",
    "Calk.C114_best"
   ],
   "note": ""
  },
  {
   "property": "C115",
   "status": "proved",
   "theorems": [
    "Calk.C115_solve",
    "Calk.C115_calibrate"
   ],
   "note": ""
  },
  {
   "property": "C116",
   "status": "proved",
   "theorems": [
    "Calk.C116_line",
    "Calk.C116_one_line",
    "Calk.C116_succeeds",
    "Calk.C116_exact",
    "Calk.C116_calibrate",
    "Calk.C116_recovers"
   ],
   "note": ""
  },
  {
   "property": "C117",
   "status": "proved",
   "theorems": [
    "Calk.C117_as_emf",
    "Calk.C117_best",
    "Calk.C117_exact"
   ],
   "note": ""
  },
  {
   "property": "C118",
   "status": "proved",
   "theorems": [
    "Calk.C118_dataset",
    "Calk.C118_pH",
    "Calk.C118_gran"
   ],
   "note": ""
  },
  {
   "property": "C119",
   "status": "proved",
   "theorems": [
    "Calk.C119_local",
    "Calk.C119_settings",
    "Calk.C119_columns",
    "Calk.C119_dataset",
    "Calk.C119_written"
   ],
   "note": ""
  },
  {
   "property": "C120",
   "status": "proved",
   "theorems": [
    "Calk.C120_misfit",
    "Calk.C120_errors"
   ],
   "note": ""
  },
  {
   "property": "C121",
   "status": "proved",
   "theorems": [
    "Calk.C121_line",
    "Calk.C121_slope",
    "Calk.C121_calibrated",
    "Calk.C121_dataset",
    "Calk.C121_pH"
   ],
   "note": ""
  },
  {
   "property": "C122",
   "status": "proved",
   "theorems": [
    "Calk.C122_formula",
    "Calk.C122_directions"
   ],
   "note": ""
  },
  {
   "property": "C123",
   "status": "proved",
   "theorems": [
    "Calk.C123_points",
    "Calk.C123_as_written",
    "Calk.C123_near",
    "Calk.C123_written"
   ],
   "note": ""
  },
  {
   "property": "C124",
   "status": "proved",
   "theorems": [
    "Calk.C124_general",
    "Calk.C124_molinity"
   ],
   "note": ""
  },
  {
   "property": "C125",
   "status": "proved",
   "theorems": [
    "Calk.C125_points",
    "Calk.C125_numbers",
    "Calk.C125_no_points",
    "Calk.C125_one_point",
    "Calk.C125_rows",
    "Calk.C125_calibrated",
    "Calk.C125_no_points_adjust",
    "Calk.C125_one_point_adjust"
   ],
   "note": ""
  },
  {
   "property": "C126",
   "status": "proved",
   "theorems": [
    "Calk.C126_overwrite",
    "Calk.C126_append",
    "Calk.C126_added"
   ],
   "note": ""
  },
  {
   "property": "C127",
   "status": "proved",
   "theorems": [
    "Calk.C127_exact",
    "Calk.C127_rounding",
    "Calk.C127_double"
   ],
   "note": ""
  },
  {
   "property": "C128",
   "status": "proved",
   "theorems": [
    "Calk.C128_exact",
    "Calk.C128_drift",
    "Calk.C128_double",
    "Calk.C128_not_restored"
   ],
   "note": ""
  },
  {
   "property": "C129",
   "status": "proved",
   "theorems": [
    "Calk.C129_file",
    "Calk.C129_row",
    "Calk.C129_calibrate"
   ],
   "note": ""
  },
  {
   "property": "C130",
   "status": "proved",
   "theorems": [
    "Calk.C130_recovers"
   ],
   "note": ""
  },
  {
   "property": "C131",
   "status": "proved",
   "theorems": [
    "Calk.C131_used_solve",
    "Calk.C131_used_calibrate",
    "Calk.C131_solve",
    "Calk.C131_calibrate",
    "Calk.C131_calkulate"
   ],
   "note": ""
  },
  {
   "property": "C132",
   "status": "proved",
   "theorems": [
    "Calk.C132_emf"
   ],
   "note": ""
  },
  {
   "property": "C133",
   "status": "proved",
   "theorems": [
    "Calk.C133_exact",
    "Calk.C133_residuals",
    "Calk.C133_rounding"
   ],
   "note": ""
  },
  {
   "property": "C134",
   "status": "proved",
   "theorems": [
    "Calk.C134_solve",
    "Calk.C134_calibrate",
    "Calk.C134_rows",
    "Calk.C134_passed",
    "Calk.C134_calibrate_passed",
    "Calk.C134_modes",
    "Calk.C134_keys",
    "Calk.C134_settings",
    "Calk.C134_calibrate_settings",
    "Calk.C134_collected"
   ],
   "note": ""
  },
  {
   "property": "C135",
   "status": "proved",
   "theorems": [
    "Calk.C135_exact",
    "Calk.C135_reading",
    "Calk.C135_round_trip",
    "Calk.C135_window",
    "Calk.C135_double",
    "Calk.C135_adjust",
    "Calk.C135_same",
    "Calk.C135_edge"
   ],
   "note": ""
  },
  {
   "property": "C136",
   "status": "proved",
   "theorems": [
    "Calk.C136_misfit",
    "Calk.C136_solve",
    "Calk.C136_sample",
    "Calk.C136_calibrated",
    "Calk.C136_dataset"
   ],
   "note": ""
  },
  {
   "property": "C137",
   "status": "proved",
   "theorems": [
    "Calk.C137_number",
    "Calk.C137_value",
    "Calk.C137_table",
    "Calk.C137_pclims",
    "Calk.C137_tiamo"
   ],
   "note": ""
  },
  {
   "property": "C138",
   "status": "proved",
   "theorems": [
    "Calk.C138_legacy",
    "Calk.C138_gran_mode",
    "Calk.C138_default",
    "Calk.C138_default_order",
    "Calk.C138_emf",
    "Calk.C138_calibrate_pH",
    "Calk.C138_calibrate_gran",
    "Calk.C138_calibrate_emf"
   ],
   "note": ""
  },
  {
   "property": "C139",
   "status": "proved",
   "theorems": [
    "Calk.C139_pH",
    "Calk.C139_gran",
    "Calk.C139_emf",
    "Calk.C139_calibrate",
    "Calk.C139_calibrate_emf",
    "Calk.C139_first_temperature"
   ],
   "note": ""
  },
  {
   "property": "C140",
   "status": "proved",
   "theorems": [
    "Calk.C140_solve",
    "Calk.C140_recovers",
    "Calk.C140_calibrated",
    "Calk.C140_dataset"
   ],
   "note": ""
  },
  {
   "property": "C141",
   "status": "proved",
   "theorems": [
    "Calk.C141_table",
    "Calk.C141_missing",
    "Calk.C141_spread",
    "Calk.C141_local",
    "Calk.C141_partition",
    "Calk.C141_calibrate",
    "Calk.C141_exact"
   ],
   "note": ""
  },
  {
   "property": "C142",
   "status": "proved",
   "theorems": [
    "Calk.C142_gran",
    "Calk.C142_dataset"
   ],
   "note": ""
  },
  {
   "property": "C143",
   "status": "proved",
   "theorems": [
    "Calk.C143_distinct",
    "Calk.C143_result",
    "Calk.C143_rows",
    "Calk.C143_shared",
    "Calk.C143_func_cols",
    "Calk.C143_squares",
    "Calk.C143_titration",
    "Calk.C143_fresh",
    "Calk.C143_read_dbs"
   ],
   "note": ""
  },
  {
   "property": "C144",
   "status": "proved",
   "theorems": [
    "Calk.C144_contents",
    "Calk.C144_uptake",
    "Calk.C144_dic",
    "Calk.C144_emf"
   ],
   "note": ""
  },
  {
   "property": "C145",
   "status": "proved",
   "theorems": [
    "Calk.C145_directions",
    "Calk.C145_crossing"
   ],
   "note": ""
  },
  {
   "property": "C146",
   "status": "proved",
   "theorems": [
    "Calk.C146_line",
    "Calk.C146_gran",
    "Calk.C146_modes",
    "Calk.C146_calibrate"
   ],
   "note": ""
  },
  {
   "property": "C147",
   "status": "proved",
   "theorems": [
    "Calk.C147_low",
    "Calk.C147_strong"
   ],
   "note": ""
  },
  {
   "property": "C148",
   "status": "proved",
   "theorems": [
    "Calk.C148_gran",
    "Calk.C148_calibrate",
    "Calk.C148_pH",
    "Calk.C148_adjust",
    "Calk.C148_adjust_exact"
   ],
   "note": ""
  },
  {
   "property": "C149",
   "status": "proved",
   "theorems": [
    "Calk.C149_solve",
    "Calk.C149_calibrate",
    "Calk.C149_sample",
    "Calk.C149_balance",
    "Calk.C149_dataset",
    "Calk.C149_gran"
   ],
   "note": ""
  }
 ]
}