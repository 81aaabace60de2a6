{
 "claims": [
  {
   "property": "C01",
   "status": "proved",
   "theorems": [
    "BeamDesign.C01_accepts_iff",
    "BeamDesign.C01_wrong_columns",
    "BeamDesign.C01_bad_positions",
    "BeamDesign.C01_bad_row"
   ],
   "note": ""
  },
  {
   "property": "C02",
   "status": "proved",
   "theorems": [
    "BeamDesign.C02_explicit_positions",
    "BeamDesign.C02_errors"
   ],
   "note": ""
  },
  {
   "property": "C03",
   "status": "proved",
   "theorems": [
    "BeamDesign.C03_min_positions",
    "BeamDesign.C03_unloaded"
   ],
   "note": ""
  },
  {
   "property": "C04",
   "status": "proved",
   "theorems": [
    "BeamDesign.C04_getLoad",
    "BeamDesign.C04_getLoad_min_positions",
    "BeamDesign.C04_sort_independent",
    "BeamDesign.C04_no_positions"
   ],
   "note": ""
  },
  {
   "property": "C05",
   "status": "proved",
   "theorems": [
    "BeamDesign.C05_getLoad_order"
   ],
   "note": ""
  },
  {
   "property": "C06",
   "status": "proved",
   "theorems": [
    "BeamDesign.C06_interpolation"
   ],
   "note": ""
  },
  {
   "property": "C07",
   "status": "proved",
   "theorems": [
    "BeamDesign.C07_no_overshoot"
   ],
   "note": ""
  },
  {
   "property": "C08",
   "status": "proved",
   "theorems": [
    "BeamDesign.C08_constant",
    "BeamDesign.C08_ints"
   ],
   "note": ""
  },
  {
   "property": "C09",
   "status": "proved",
   "theorems": [
    "BeamDesign.C09_names",
    "BeamDesign.C09_projection",
    "BeamDesign.C09_unknown",
    "BeamDesign.C09_items"
   ],
   "note": ""
  },
  {
   "property": "C10",
   "status": "proved",
   "theorems": [
    "BeamDesign.C10_order_irrelevant",
    "BeamDesign.C10_batching"
   ],
   "note": ""
  },
  {
   "property": "C11",
   "status": "proved",
   "theorems": [
    "BeamDesign.C11_list_iff",
    "BeamDesign.C11_single",
    "BeamDesign.C11_errors"
   ],
   "note": ""
  },
  {
   "property": "C12",
   "status": "proved",
   "theorems": [
    "BeamDesign.C12_tiling",
    "BeamDesign.C12_exact",
    "BeamDesign.C12_binary64"
   ],
   "note": ""
  },
  {
   "property": "C13",
   "status": "proved",
   "theorems": [
    "BeamDesign.C13_in_elements"
   ],
   "note": ""
  },
  {
   "property": "C14",
   "status": "proved",
   "theorems": [
    "BeamDesign.C14_inverse",
    "BeamDesign.C14_zero_length",
    "BeamDesign.C14_bad_index"
   ],
   "note": ""
  },
  {
   "property": "C15",
   "status": "proved",
   "theorems": [
    "BeamDesign.C15_outside",
    "BeamDesign.C15_listing",
    "BeamDesign.C15_arguments"
   ],
   "note": ""
  },
  {
   "property": "C16",
   "status": "proved",
   "theorems": [
    "BeamDesign.C16_min_positions"
   ],
   "note": ""
  },
  {
   "property": "C17",
   "status": "partial",
   "theorems": [
    "BeamDesign.C17_exact_partial",
    "BeamDesign.C17_single_element_partial",
    "BeamDesign.C17_counterexample",
    "BeamDesign.C17_marks_partial",
    "BeamDesign.C17_marks_min_partial"
   ],
   "note": "Refuted in binary64: C17_counterexample (elements 0.1 and 0.2, position = beam.length raises PositionNotInElementError). Proved: exact arithmetic for any beam (C17_exact_partial), a single element under any rounding (C17_single_element_partial), any beam whose element ends are machine numbers under any monotone rounding (C17_marks_partial, C17_marks_min_partial). Missing because false: several elements in binary64."
  },
  {
   "property": "C18",
   "status": "proved",
   "theorems": [
    "BeamDesign.C18_stack",
    "BeamDesign.C18_get_loads",
    "BeamDesign.C18_get_loads_min_positions"
   ],
   "note": "C18 is about tables of floats; what integer tables report, and their failure on a zero-length element, is C20_reported and C20_zero_length."
  },
  {
   "property": "C19",
   "status": "partial",
   "theorems": [
    "BeamDesign.C19_listed_partial",
    "BeamDesign.C19_actual",
    "BeamDesign.C19_rows_partial",
    "BeamDesign.C19_zero_length_partial",
    "BeamDesign.C19_counterexample"
   ],
   "note": "Refuted: C19_counterexample. Proved: tables that start at 0 and end at 1, up to the reported rows (C19_listed_partial, C19_rows_partial, C19_zero_length_partial); C19_actual says exactly what is listed for every table. Missing because false: tables not starting at 0 or not ending at 1."
  },
  {
   "property": "C20",
   "status": "partial",
   "theorems": [
    "BeamDesign.C20_float_partial",
    "BeamDesign.C20_counterexample",
    "BeamDesign.C20_dtype",
    "BeamDesign.C20_reported",
    "BeamDesign.C20_whole_partial",
    "BeamDesign.C20_zero_length"
   ],
   "note": "Refuted for integer tables: C20_counterexample. Proved for tables of floats (C20_float_partial). For every mixture of integer and float tables C20_reported says exactly what is reported (the position column of rows taken from an integer table is cut off towards zero) and C20_whole_partial that nothing is lost where those positions are whole; an integer table on a zero-length element raises TypeError (C20_zero_length)."
  },
  {
   "property": "C21",
   "status": "proved",
   "theorems": [
    "BeamDesign.C21_queries_pure",
    "BeamDesign.C21_same_answer",
    "BeamDesign.C21_loads_property_is_shared",
    "BeamDesign.C21_unloaded_positions"
   ],
   "note": ""
  },
  {
   "property": "C22",
   "status": "proved",
   "theorems": [
    "BeamDesign.C22_design_section",
    "BeamDesign.C22_section_only",
    "BeamDesign.C22_base",
    "BeamDesign.C22_get_section"
   ],
   "note": ""
  },
  {
   "property": "C23",
   "status": "partial",
   "theorems": [
    "BeamDesign.C23_explicit_partial",
    "BeamDesign.C23_counterexample"
   ],
   "note": "Refuted: C23_counterexample shows the call with min_positions raises for every object with a beam. Proved for explicit positions (C23_explicit_partial)."
  },
  {
   "property": "C24",
   "status": "proved",
   "theorems": [
    "BeamDesign.C24_yield",
    "BeamDesign.C24_ultimate",
    "BeamDesign.C24_iff",
    "BeamDesign.C24_section",
    "BeamDesign.C24_errors",
    "BeamDesign.C24_no_unknown",
    "BeamDesign.C24_short",
    "BeamDesign.C24_number"
   ],
   "note": ""
  },
  {
   "property": "C25",
   "status": "proved",
   "theorems": [
    "BeamDesign.C25_antitone"
   ],
   "note": ""
  },
  {
   "property": "C26",
   "status": "proved",
   "theorems": [
    "BeamDesign.C26_shipped"
   ],
   "note": ""
  },
  {
   "property": "C27",
   "status": "proved",
   "theorems": [
    "BeamDesign.C27_table_iff",
    "BeamDesign.C27_errors",
    "BeamDesign.C27_load_all",
    "BeamDesign.C27_load_list",
    "BeamDesign.C27_load_one"
   ],
   "note": ""
  },
  {
   "property": "C28",
   "status": "proved",
   "theorems": [
    "BeamDesign.C28_object_iff",
    "BeamDesign.C28_object_errors",
    "BeamDesign.C28_factory_iff",
    "BeamDesign.C28_errors",
    "BeamDesign.C28_circle",
    "BeamDesign.C28_modulus"
   ],
   "note": ""
  },
  {
   "property": "C29",
   "status": "proved",
   "theorems": [
    "BeamDesign.C29_overall",
    "BeamDesign.C29_positions",
    "BeamDesign.C29_order"
   ],
   "note": ""
  },
  {
   "property": "C30",
   "status": "partial",
   "theorems": [
    "BeamDesign.C30_phi_partial",
    "BeamDesign.C30_phiNtu_actual",
    "BeamDesign.C30_counterexample"
   ],
   "note": "Refuted for phiNtu: C30_counterexample; C30_phiNtu_actual says what it is (phi times Nty). Proved for phiNt, phiNty and tension_capacity (C30_phi_partial)."
  },
  {
   "property": "C31",
   "status": "proved",
   "theorems": [
    "BeamDesign.C31_get_tension",
    "BeamDesign.C31_beam"
   ],
   "note": ""
  },
  {
   "property": "C32",
   "status": "proved",
   "theorems": [
    "BeamDesign.C32_utilisation",
    "BeamDesign.C32_too_small",
    "BeamDesign.C32_beam"
   ],
   "note": ""
  },
  {
   "property": "C33",
   "status": "partial",
   "theorems": [
    "BeamDesign.C33_first_case_partial",
    "BeamDesign.C33_same_points_partial",
    "BeamDesign.C33_order_partial",
    "BeamDesign.C33_counterexample"
   ],
   "note": "Refuted: C33_counterexample (a peak of the second load case is missed, and the order of cases matters). Proved: it is the maximum over all cases at the points of the first case (C33_first_case_partial); the full claim when all cases have the same assessment points (C33_same_points_partial, C33_order_partial)."
  },
  {
   "property": "C34",
   "status": "partial",
   "theorems": [
    "BeamDesign.C34_float_partial",
    "BeamDesign.C34_signed_partial",
    "BeamDesign.C34_int_counterexample",
    "BeamDesign.C34_counterexample"
   ],
   "note": "Refuted: C34_int_counterexample (every integer first length) and C34_counterexample (tiny tension). Proved for float lengths when no assessed tension is too small for the solver (C34_float_partial), and from conditions on the stored loads (C34_signed_partial)."
  },
  {
   "property": "C35",
   "status": "proved",
   "theorems": [
    "BeamDesign.C35_bracket",
    "BeamDesign.C35_ends",
    "BeamDesign.C35_errors_iff",
    "BeamDesign.C35_errors",
    "BeamDesign.C35_bracket_binary64"
   ],
   "note": ""
  },
  {
   "property": "C36",
   "status": "proved",
   "theorems": [
    "BeamDesign.C36_continuous"
   ],
   "note": ""
  },
  {
   "property": "C37",
   "status": "partial",
   "theorems": [
    "BeamDesign.C37_monotone_partial",
    "BeamDesign.C37_counterexample"
   ],
   "note": "Refuted: C37_counterexample (x^2-1 on [-2,2] raises ValueError). Proved for functions monotone between the guesses (C37_monotone_partial); continuous functions with a sign change are C36."
  },
  {
   "property": "C38",
   "status": "proved",
   "theorems": [
    "BeamDesign.C38_agreement",
    "BeamDesign.C38_defined"
   ],
   "note": ""
  },
  {
   "property": "C39",
   "status": "proved",
   "theorems": [
    "BeamDesign.C39_linear"
   ],
   "note": ""
  },
  {
   "property": "C40",
   "status": "partial",
   "theorems": [
    "BeamDesign.C40_fallback_partial",
    "BeamDesign.C40_args_counterexample"
   ],
   "note": "Refuted with extra positional arguments: C40_args_counterexample (TypeError whenever the fall back is needed). Proved without them (C40_fallback_partial)."
  },
  {
   "property": "C41",
   "status": "proved",
   "theorems": [
    "BeamDesign.C41_zero",
    "BeamDesign.C41_inverse",
    "BeamDesign.C41_areas_monotone",
    "BeamDesign.C41_capacity_monotone"
   ],
   "note": ""
  },
  {
   "property": "C42",
   "status": "proved",
   "theorems": [
    "BeamDesign.C42_agree"
   ],
   "note": ""
  },
  {
   "property": "C43",
   "status": "partial",
   "theorems": [
    "BeamDesign.C43_bending_partial",
    "BeamDesign.C43_shear_partial",
    "BeamDesign.C43_tension_partial",
    "BeamDesign.C43_local_partial",
    "BeamDesign.C43_compression_partial",
    "BeamDesign.C43_member_partial",
    "BeamDesign.C43_unsymmetric_counterexample",
    "BeamDesign.C43_witness"
   ],
   "note": "Refuted for unsymmetric sections: C43_unsymmetric_counterexample (C43_witness shows results exist). Proved for all other formulas of S5, S5_Shear, S6, S7 and local buckling, and for the whole of s6_1_1_Nc unless both shear centre coordinates are non-zero."
  },
  {
   "property": "C44",
   "status": "proved",
   "theorems": [
    "BeamDesign.C44_bounds",
    "BeamDesign.C44_decreasing",
    "BeamDesign.C44_equation"
   ],
   "note": ""
  },
  {
   "property": "C45",
   "status": "proved",
   "theorems": [
    "BeamDesign.C45_defined",
    "BeamDesign.C45_invariant",
    "BeamDesign.C45_lower",
    "BeamDesign.C45_equation"
   ],
   "note": ""
  },
  {
   "property": "C46",
   "status": "proved",
   "theorems": [
    "BeamDesign.C46_values",
    "BeamDesign.C46_only",
    "BeamDesign.C46_strings"
   ],
   "note": ""
  },
  {
   "property": "C47",
   "status": "proved",
   "theorems": [
    "BeamDesign.C47_monotone",
    "BeamDesign.C47_symmetric",
    "BeamDesign.C47_general"
   ],
   "note": ""
  },
  {
   "property": "C48",
   "status": "proved",
   "theorems": [
    "BeamDesign.C48_range",
    "BeamDesign.C48_monotone",
    "BeamDesign.C48_alpha_vma"
   ],
   "note": ""
  },
  {
   "property": "C49",
   "status": "proved",
   "theorems": [
    "BeamDesign.C49_weld",
    "BeamDesign.C49_weld_rounded",
    "BeamDesign.C49_int_scalar"
   ],
   "note": ""
  },
  {
   "property": "C50",
   "status": "proved",
   "theorems": [
    "BeamDesign.C50_alpha_c",
    "BeamDesign.C50_zero_reached"
   ],
   "note": ""
  },
  {
   "property": "C51",
   "status": "partial",
   "theorems": [
    "BeamDesign.C51_longer_partial",
    "BeamDesign.C51_slender_partial",
    "BeamDesign.C51_counterexample",
    "BeamDesign.C51_threshold"
   ],
   "note": "Refuted for alpha_b = -1 and all values below -796591/840000: C51_counterexample. Proved for the values from there to 1 (C51_longer_partial, C51_threshold) and for all alpha_b in [-1,1] from slenderness 13.5 on (C51_slender_partial)."
  },
  {
   "property": "C52",
   "status": "proved",
   "theorems": [
    "BeamDesign.C52_foxz"
   ],
   "note": ""
  },
  {
   "property": "C53",
   "status": "proved",
   "theorems": [
    "BeamDesign.C53_curve",
    "BeamDesign.C53_capacity"
   ],
   "note": ""
  },
  {
   "property": "C54",
   "status": "proved",
   "theorems": [
    "BeamDesign.C54_minimum",
    "BeamDesign.C54_switching_off"
   ],
   "note": ""
  },
  {
   "property": "C55",
   "status": "proved",
   "theorems": [
    "BeamDesign.C55_cache_invisible",
    "BeamDesign.C55_same_after_any_calls",
    "BeamDesign.C55_overwritten_result"
   ],
   "note": ""
  },
  {
   "property": "C56",
   "status": "partial",
   "theorems": [
    "BeamDesign.C56_unshared_partial",
    "BeamDesign.C56_section_data_partial",
    "BeamDesign.C56_foxz_partial",
    "BeamDesign.C56_on_return_partial",
    "BeamDesign.C56_counterexample",
    "BeamDesign.C56_stale_counterexample"
   ],
   "note": "Refuted: C56_counterexample and C56_stale_counterexample (cached dictionaries are shared and changed). Proved: point symmetric and unsymmetric sections (C56_unshared_partial), the section data entries for every section (C56_section_data_partial, C56_foxz_partial), and the state at the moment of return (C56_on_return_partial)."
  },
  {
   "property": "C57",
   "status": "partial",
   "theorems": [
    "BeamDesign.C57_text",
    "BeamDesign.C57_classification_partial",
    "BeamDesign.C57_order_partial",
    "BeamDesign.C57_dispatch_partial",
    "BeamDesign.C57_count",
    "BeamDesign.C57_no_axes_counterexample"
   ],
   "note": "Refuted for a symmetry object without axes (the default): C57_no_axes_counterexample, TypeError. Proved whenever an axes list is given: classification, order independence, dispatch."
  },
  {
   "property": "C58",
   "status": "partial",
   "theorems": [
    "BeamDesign.C58_centroid_partial",
    "BeamDesign.C58_single_counterexample",
    "BeamDesign.C58_witness"
   ],
   "note": "Refuted for singly symmetric sections: C58_single_counterexample (C58_witness shows results exist). Proved for the shear centre at the centroid (C58_centroid_partial)."
  },
  {
   "property": "C59",
   "status": "partial",
   "theorems": [
    "BeamDesign.C59_width_partial",
    "BeamDesign.C59_diameter_partial",
    "BeamDesign.C59_area_partial",
    "BeamDesign.C59_form_factor_partial",
    "BeamDesign.C59_tube_counterexample",
    "BeamDesign.C59_abstract"
   ],
   "note": "Refuted for tubes: C59_tube_counterexample (s6_2_A_e_CHS always raises TypeError). Proved: effective width, diameter, plate area and form factor."
  },
  {
   "property": "C60",
   "status": "partial",
   "theorems": [
    "BeamDesign.C60_same_objects_partial",
    "BeamDesign.C60_current_partial",
    "BeamDesign.C60_wrappers_stay_partial",
    "BeamDesign.C60_section_counterexample",
    "BeamDesign.C60_append_counterexample",
    "BeamDesign.C60_material_counterexample"
   ],
   "note": "Refuted: C60_section_counterexample, C60_append_counterexample, C60_material_counterexample. Proved for every history that does not assign a section or change the list of elements (C60_same_objects_partial, C60_current_partial); C60_wrappers_stay_partial says what remains true in general."
  },
  {
   "property": "C61",
   "status": "partial",
   "theorems": [
    "BeamDesign.C61_unloaded_partial",
    "BeamDesign.C61_width_counterexample"
   ],
   "note": "Refuted for the number of columns: C61_width_counterexample. Proved: the rows (C61_unloaded_partial)."
  },
  {
   "property": "C62",
   "status": "proved",
   "theorems": [
    "BeamDesign.C62_scaling",
    "BeamDesign.C62_more"
   ],
   "note": ""
  },
  {
   "property": "C63",
   "status": "partial",
   "theorems": [
    "BeamDesign.C63_absolute_partial",
    "BeamDesign.C63_counterexample"
   ],
   "note": "Refuted: C63_counterexample (the answer is 499 away from the root with tol 1e-9). Proved when 1e-9 times the bracket ends is at most tol (C63_absolute_partial)."
  },
  {
   "property": "C64",
   "status": "proved",
   "theorems": [
    "BeamDesign.C64_helper",
    "BeamDesign.C64_loop",
    "BeamDesign.C64_outside",
    "BeamDesign.C64_component",
    "BeamDesign.C64_unloaded_columns"
   ],
   "note": ""
  },
  {
   "property": "C65",
   "status": "proved",
   "theorems": [
    "BeamDesign.C65_load_case",
    "BeamDesign.C65_beam"
   ],
   "note": ""
  },
  {
   "property": "C66",
   "status": "partial",
   "theorems": [
    "BeamDesign.C66_iff_partial",
    "BeamDesign.C66_uniform_partial",
    "BeamDesign.C66_counterexample"
   ],
   "note": "Refuted: C66_counterexample (the limit M_b <= M_s is not applied). Proved: the exact condition under which it holds (C66_iff_partial) and a simple sufficient one for uniform moment (C66_uniform_partial)."
  },
  {
   "property": "C67",
   "status": "proved",
   "theorems": [
    "BeamDesign.C67_interface",
    "BeamDesign.C67_CHS",
    "BeamDesign.C67_additive"
   ],
   "note": ""
  },
  {
   "property": "C68",
   "status": "proved",
   "theorems": [
    "BeamDesign.C68_eq_iff",
    "BeamDesign.C68_equivalence",
    "BeamDesign.C68_table_order",
    "BeamDesign.C68_same_answers"
   ],
   "note": ""
  },
  {
   "property": "C69",
   "status": "proved",
   "theorems": [
    "BeamDesign.C69_values",
    "BeamDesign.C69_errors",
    "BeamDesign.C69_shipped"
   ],
   "note": ""
  },
  {
   "property": "C70",
   "status": "proved",
   "theorems": [
    "BeamDesign.C70_positions",
    "BeamDesign.C70_sections",
    "BeamDesign.C70_loads",
    "BeamDesign.C70_capacity",
    "BeamDesign.C70_utilisation"
   ],
   "note": ""
  },
  {
   "property": "C71",
   "status": "proved",
   "theorems": [
    "BeamDesign.C71_no_missed_peak"
   ],
   "note": ""
  },
  {
   "property": "C72",
   "status": "proved",
   "theorems": [
    "BeamDesign.C72_largest_stored"
   ],
   "note": ""
  },
  {
   "property": "C73",
   "status": "proved",
   "theorems": [
    "BeamDesign.C73_positions",
    "BeamDesign.C73_overall"
   ],
   "note": ""
  },
  {
   "property": "C74",
   "status": "partial",
   "theorems": [
    "BeamDesign.C74_same_band_partial",
    "BeamDesign.C74_counterexample"
   ],
   "note": "Refuted at the edge of a band: C74_counterexample (8 mm against 8.02 mm of grade 250). Proved within a band (C74_same_band_partial)."
  },
  {
   "property": "C75",
   "status": "proved",
   "theorems": [
    "BeamDesign.C75_get_load",
    "BeamDesign.C75_get_loads"
   ],
   "note": ""
  },
  {
   "property": "C76",
   "status": "proved",
   "theorems": [
    "BeamDesign.C76_cut",
    "BeamDesign.C76_cut_anywhere"
   ],
   "note": ""
  },
  {
   "property": "C77",
   "status": "proved",
   "theorems": [
    "BeamDesign.C77_mirror"
   ],
   "note": ""
  },
  {
   "property": "C78",
   "status": "proved",
   "theorems": [
    "BeamDesign.C78_get_load",
    "BeamDesign.C78_binary64_rounds",
    "BeamDesign.C78_binary64"
   ],
   "note": ""
  },
  {
   "property": "C79",
   "status": "proved",
   "theorems": [
    "BeamDesign.C79_constructor",
    "BeamDesign.C79_positions",
    "BeamDesign.C79_sections",
    "BeamDesign.C79_loads",
    "BeamDesign.C79_check",
    "BeamDesign.C79_utilisation",
    "BeamDesign.C79_tension"
   ],
   "note": ""
  },
  {
   "property": "C80",
   "status": "proved",
   "theorems": [
    "BeamDesign.C80_beam",
    "BeamDesign.C80_utilisation",
    "BeamDesign.C80_one"
   ],
   "note": ""
  },
  {
   "property": "C81",
   "status": "proved",
   "theorems": [
    "BeamDesign.C81_nowhere_above",
    "BeamDesign.C81_passes",
    "BeamDesign.C81_uniform",
    "BeamDesign.C81_converse_counterexample"
   ],
   "note": ""
  },
  {
   "property": "C82",
   "status": "proved",
   "theorems": [
    "BeamDesign.C82_utilisation",
    "BeamDesign.C82_binary64"
   ],
   "note": ""
  },
  {
   "property": "C83",
   "status": "proved",
   "theorems": [
    "BeamDesign.C83_get_loads",
    "BeamDesign.C83_get_loads_min_positions",
    "BeamDesign.C83_binary64_rounds",
    "BeamDesign.C83_binary64"
   ],
   "note": ""
  },
  {
   "property": "C84",
   "status": "partial",
   "theorems": [
    "BeamDesign.C84_stored_partial",
    "BeamDesign.C84_counterexample",
    "BeamDesign.C84_counterexample_loads"
   ],
   "note": "Refuted in binary64: C84_counterexample (utilisation 0.74 for a rod loaded to 1.41 of its capacity) and C84_counterexample_loads. Proved for stored positions whose conversion to the beam is exact, under any monotone rounding (C84_stored_partial)."
  },
  {
   "property": "C85",
   "status": "proved",
   "theorems": [
    "BeamDesign.C85_capacity",
    "BeamDesign.C85_binary64",
    "BeamDesign.C85_binary64_overall"
   ],
   "note": ""
  },
  {
   "property": "C86",
   "status": "proved",
   "theorems": [
    "BeamDesign.C86_nowhere_above",
    "BeamDesign.C86_passes"
   ],
   "note": ""
  },
  {
   "property": "C87",
   "status": "partial",
   "theorems": [
    "BeamDesign.C87_slenderness_counterexample",
    "BeamDesign.C87_area_counterexample",
    "BeamDesign.C87_pascals_partial",
    "BeamDesign.C87_megapascals_partial"
   ],
   "note": "Refuted for every plate and tube with a yield stress in pascals: C87_slenderness_counterexample, C87_area_counterexample. Proved for the shear buckling factor and the member slenderness (C87_pascals_partial) and for local buckling with stresses in megapascals (C87_megapascals_partial)."
  },
  {
   "property": "C88",
   "status": "proved",
   "theorems": [
    "BeamDesign.C88_defined",
    "BeamDesign.C88_longer",
    "BeamDesign.C88_factors",
    "BeamDesign.C88_restraints",
    "BeamDesign.C88_section"
   ],
   "note": ""
  },
  {
   "property": "C89",
   "status": "partial",
   "theorems": [
    "BeamDesign.C89_values_partial",
    "BeamDesign.C89_unique_partial",
    "BeamDesign.C89_errors_partial",
    "BeamDesign.C89_unsorted_counterexample",
    "BeamDesign.C89_array_counterexample",
    "BeamDesign.C89_get_load_partial"
   ],
   "note": "Refuted for unsorted data (C89_unsorted_counterexample: no error for any of them) and for arrays with newer numpy (C89_array_counterexample). Proved otherwise: C89_values_partial, C89_unique_partial, C89_errors_partial."
  },
  {
   "property": "C90",
   "status": "partial",
   "theorems": [
    "BeamDesign.C90_valid_partial",
    "BeamDesign.C90_loads_counterexample",
    "BeamDesign.C90_dict_counterexample",
    "BeamDesign.C90_length_counterexample",
    "BeamDesign.C90_list_counterexample"
   ],
   "note": "Refuted by writes behind the constructors' checks: C90_loads_counterexample, C90_dict_counterexample, C90_length_counterexample, C90_list_counterexample. Proved for all histories without such writes (C90_valid_partial)."
  },
  {
   "property": "C91",
   "status": "partial",
   "theorems": [
    "BeamDesign.C91_same_partial",
    "BeamDesign.C91_value_partial",
    "BeamDesign.C91_cases_counterexample",
    "BeamDesign.C91_error_counterexample"
   ],
   "note": "Refuted: C91_cases_counterexample (several load cases), C91_error_counterexample (one answer is an exception). Proved for load cases whose stations are stations of the first: equal whenever both are values (C91_same_partial), always a value without small tensions (C91_value_partial)."
  },
  {
   "property": "C92",
   "status": "partial",
   "theorems": [
    "BeamDesign.C92_near_partial",
    "BeamDesign.C92_margin_partial",
    "BeamDesign.C92_counterexample"
   ],
   "note": "Refuted: C92_counterexample (short by a last bit). Proved: relative error at most 2^-49 (C92_near_partial); an area larger by a factor 1 + 2^-49 suffices (C92_margin_partial)."
  },
  {
   "property": "C93",
   "status": "proved",
   "theorems": [
    "BeamDesign.C93_squash",
    "BeamDesign.C93_stronger"
   ],
   "note": "Real arithmetic; proved for all alpha_b in [-1,1], with equality of the other arguments."
  },
  {
   "property": "C94",
   "status": "partial",
   "theorems": [
    "BeamDesign.C94_pins_partial",
    "BeamDesign.C94_counterexample",
    "BeamDesign.C94_net"
   ],
   "note": "Refuted part: s7_5_a_min_thickness has an annotation where the documented default should be, so a call without the factor raises TypeError (C94_counterexample). Everything else is proved."
  },
  {
   "property": "C95",
   "status": "proved",
   "theorems": [
    "BeamDesign.C95_same",
    "BeamDesign.C95_sized"
   ],
   "note": "C95_same in any arithmetic with commutative multiplication (so also double precision); C95_sized in exact arithmetic."
  },
  {
   "property": "C96",
   "status": "partial",
   "theorems": [
    "BeamDesign.C96_stronger_partial",
    "BeamDesign.C96_depth",
    "BeamDesign.C96_counterexample"
   ],
   "note": "Stronger and thicker webs are never weaker (C96_stronger_partial); a deeper one can be (C96_counterexample), and C96_depth gives the exact shape: rising up to the limiting depth, falling beyond it, with the peak value."
  },
  {
   "property": "C97",
   "status": "proved",
   "theorems": [
    "BeamDesign.C97_text",
    "BeamDesign.C97_exists",
    "BeamDesign.C97_load"
   ],
   "note": "C97_text: every text of the grammar loads as its tables, or ValueError for duplicates; C97_load: through the file system and load_material; C97_exists: every printable file has a text. The TOML parser is modelled from the language, not from the source of the toml package."
  },
  {
   "property": "C98",
   "status": "partial",
   "theorems": [
    "BeamDesign.C98_ascii_partial",
    "BeamDesign.C98_defaults",
    "BeamDesign.C98_frame",
    "BeamDesign.C98_windows",
    "BeamDesign.C98_counterexample"
   ],
   "note": "Materials are opened without an encoding: ASCII files load the same everywhere (C98_ascii_partial), others do not (C98_counterexample: a Greek property under code page 1252). C98_defaults and C98_frame hold without condition."
  },
  {
   "property": "C99",
   "status": "proved",
   "theorems": [
    "BeamDesign.C99_materials",
    "BeamDesign.C99_defaults"
   ],
   "note": "The kernel runs the parser on the text of both shipped files."
  },
  {
   "property": "C100",
   "status": "proved",
   "theorems": [
    "BeamDesign.C100_plate",
    "BeamDesign.C100_slender",
    "BeamDesign.C100_column"
   ],
   "note": "C100_plate: squash load monotone in width, thickness and strength; effective area monotone with the trends stated. C100_slender: no gain from width and fourfold gain from double thickness once slender. C100_column: columns with the form factor of the plate."
  },
  {
   "property": "C101",
   "status": "partial",
   "theorems": [
    "BeamDesign.C101_tube_partial",
    "BeamDesign.C101_counterexample"
   ],
   "note": "Proved as long as the larger tube is within 81^(1/3) = 4.33 times the limiting slenderness, and for thickness alone and strength alone at any slenderness. Refuted beyond (C101_counterexample): twice the diameter gives half the effective diameter, twice the strength half the product; the third branch of the code's rule falls faster than the diameter grows."
  },
  {
   "property": "C102",
   "status": "partial",
   "theorems": [
    "BeamDesign.C102_exact",
    "BeamDesign.C102_double",
    "BeamDesign.C102_bending_partial",
    "BeamDesign.C102_usual_partial",
    "BeamDesign.C102_alphaM",
    "BeamDesign.C102_counterexample"
   ],
   "note": "Bounded relative error for every arithmetic of relative error u (C102_bending_partial, C102_alphaM), 1e-10 in double for the usual range (C102_usual_partial). Refuted without bounds (C102_counterexample): alpha_s is 0 at M_s = 2^27 M_o, M_o is 0 for a large negative beta_x. Overflow and underflow excluded."
  },
  {
   "property": "C103",
   "status": "proved",
   "theorems": [
    "BeamDesign.C103_exact",
    "BeamDesign.C103_web",
    "BeamDesign.C103_others",
    "BeamDesign.C103_double"
   ],
   "note": "All positive inputs, every arithmetic of relative error u (overflow and underflow excluded): C103_web 60u including the branch, C103_others, C103_double 1e-14."
  },
  {
   "property": "C104",
   "status": "partial",
   "theorems": [
    "BeamDesign.C104_exact",
    "BeamDesign.C104_column_partial",
    "BeamDesign.C104_usual_partial",
    "BeamDesign.C104_counterexample"
   ],
   "note": "Bounded relative error for every arithmetic of relative error u (C104_column_partial), 1e-9 in double for slenderness 13.5 to 1000 (C104_usual_partial). Refuted for stocky columns (C104_counterexample): at 6.92815493 the factor is 0, at 6.9281553 above 1.5, instead of 1, with default arguments. Overflow and underflow excluded."
  },
  {
   "property": "C105",
   "status": "partial",
   "theorems": [
    "BeamDesign.C105_labels",
    "BeamDesign.C105_capacity",
    "BeamDesign.C105_section_partial",
    "BeamDesign.C105_swapped_counterexample",
    "BeamDesign.C105_counterexample",
    "BeamDesign.C105_axis_counterexample"
   ],
   "note": "The labels (C105_labels, C105_capacity) hold for every history, including callers writing into dictionaries. The section data hold for sections symmetric about both axes or about x (C105_section_partial). Refuted for every section with one axis other than x, whose entries r_x, r_y, x_o, y_o, f_ox are those of the other axis (C105_swapped_counterexample, C105_counterexample), and a doubly symmetric section can name a left-over single axis (C105_axis_counterexample)."
  },
  {
   "property": "C106",
   "status": "partial",
   "theorems": [
    "BeamDesign.C106_exact_foxz",
    "BeamDesign.C106_exact",
    "BeamDesign.C106_foxz_partial",
    "BeamDesign.C106_capacity_partial",
    "BeamDesign.C106_point_partial",
    "BeamDesign.C106_pow",
    "BeamDesign.C106_usual_partial",
    "BeamDesign.C106_complex_counterexample",
    "BeamDesign.C106_cancel_counterexample",
    "BeamDesign.C106_step_counterexample"
   ],
   "note": "The formulas operation by operation are those of Model/S6 for exact arithmetic (C106_exact, C106_exact_foxz). Error bounds with an explicit condition number for every rounded arithmetic (C106_foxz_partial, C106_capacity_partial, C106_point_partial), 1e-7 in double precision for usual sections (C106_usual_partial). Refuted without the bound on the condition number and next to λ_c = 1.5 (C106_complex_counterexample, C106_cancel_counterexample, C106_step_counterexample)."
  },
  {
   "property": "C107",
   "status": "proved",
   "theorems": [
    "BeamDesign.C107_capacity",
    "BeamDesign.C107_centre",
    "BeamDesign.C107_centre_y",
    "BeamDesign.C107_compression"
   ],
   "note": "Order of the capacity under length, effective length factors, J, I_w, E, G, k_f and the uncertainty factor for every symmetry class (C107_capacity), under the position of the shear centre on the axis of symmetry (C107_centre, C107_centre_y) and of N_c and φN_c under the lengths (C107_compression)."
  },
  {
   "property": "C108",
   "status": "partial",
   "theorems": [
    "BeamDesign.C108_stronger_partial",
    "BeamDesign.C108_compression_partial",
    "BeamDesign.C108_counterexample"
   ],
   "note": "No decrease on either side of λ_c = 1.5 and at most 0.05 percent across it (C108_stronger_partial), the same for N_c, and none without the torsional check (C108_compression_partial). The full claim is refuted: every yield stress above 2.25 f_oc gives less than 2.25 f_oc does (C108_counterexample)."
  },
  {
   "property": "C109",
   "status": "partial",
   "theorems": [
    "BeamDesign.C109_beam_partial",
    "BeamDesign.C109_beam_text_partial",
    "BeamDesign.C109_beam_counterexample",
    "BeamDesign.C109_element_counterexample",
    "BeamDesign.C109_element_partial",
    "BeamDesign.C109_material_counterexample",
    "BeamDesign.C109_material_partial",
    "BeamDesign.C109_str",
    "BeamDesign.C109_symmetry"
   ],
   "note": "Exactly when a beam can be printed (C109_beam_partial) and what its text tells (C109_beam_text_partial), what the text of an element tells (C109_element_partial), the same for materials without a comma in the name (C109_material_partial), str and repr of symmetries in full (C109_str, C109_symmetry). Refuted for beams without a length, for the material an element shows and for materials with different properties (C109_beam_counterexample, C109_element_counterexample, C109_material_counterexample)."
  },
  {
   "property": "C110",
   "status": "proved",
   "theorems": [
    "BeamDesign.C110_alone",
    "BeamDesign.C110_numbers",
    "BeamDesign.C110_sequential",
    "BeamDesign.C110_progress"
   ],
   "note": "For every schedule the numbers (or exceptions) of every call of every thread are those of the formulas (C110_numbers) and those of a program with one thread after any history (C110_sequential); every thread ends after 21 of its own steps per call (C110_progress); a call that is not interrupted is the call of the model without threads (C110_alone). Which operations CPython performs without switching threads is an assumption, see DESIGN.md."
  },
  {
   "property": "C111",
   "status": "partial",
   "theorems": [
    "BeamDesign.C111_counterexample",
    "BeamDesign.C111_section_partial",
    "BeamDesign.C111_private_partial",
    "BeamDesign.C111_apart_partial",
    "BeamDesign.C111_given"
   ],
   "note": "Refuted by C111_counterexample: two threads and a schedule after which the first call returns a dictionary that says Single for a doubly symmetric section. For every schedule: the section data in the dictionary is right (C111_section_partial); dictionaries that are not taken from the cache are those of a program with one thread (C111_private_partial) and belong to one call (C111_apart_partial); C111_given says which calls return one."
  },
  {
   "property": "C112",
   "status": "proved",
   "theorems": [
    "BeamDesign.C112_accuracy",
    "BeamDesign.C112_converges",
    "BeamDesign.C112_small_slope"
   ],
   "note": "In exact arithmetic. C112_accuracy holds for every answer; C112_converges gives the answer and the bound on the iterations; C112_small_slope shows why slopes below 1 are excluded."
  },
  {
   "property": "C113",
   "status": "proved",
   "theorems": [
    "BeamDesign.C113_exact",
    "BeamDesign.C113_plate",
    "BeamDesign.C113_tube",
    "BeamDesign.C113_form_factor",
    "BeamDesign.C113_double",
    "BeamDesign.C113_stocky"
   ],
   "note": "C113_stocky is about doubles without overflow (rnd64 includes underflow); the other theorems are about every arithmetic with relative errors of at most u. The area of a tube is not covered: s6_2_A_e_CHS always raises (C59)."
  },
  {
   "property": "C114",
   "status": "partial",
   "theorems": [
    "BeamDesign.C114_exact",
    "BeamDesign.C114_governs",
    "BeamDesign.C114_member_partial",
    "BeamDesign.C114_usual_partial",
    "BeamDesign.C114_counterexample"
   ],
   "note": "False without a bound on the condition numbers: C114_counterexample is a stout column whose computed capacity is 0 while the formulas give the squash load. C114_exact and C114_governs hold in full; unsymmetric sections are in C118."
  },
  {
   "property": "C115",
   "status": "proved",
   "theorems": [
    "BeamDesign.C115_machine",
    "BeamDesign.C115_same",
    "BeamDesign.C115_web",
    "BeamDesign.C115_bending",
    "BeamDesign.C115_member",
    "BeamDesign.C115_counterexample"
   ],
   "note": "Proved for the ranges of sizes written out in Spec/Ieee; C115_counterexample shows that a limit on sizes is needed. Unsymmetric sections (numpy.roots) are not covered."
  },
  {
   "property": "C116",
   "status": "partial",
   "theorems": [
    "BeamDesign.C116_stress_partial",
    "BeamDesign.C116_longer_partial",
    "BeamDesign.C116_counterexample",
    "BeamDesign.C116_units_counterexample",
    "BeamDesign.C116_millimetres_counterexample"
   ],
   "note": "Proved for shear centres within one metre of an axis (all real sections in the documented units): real, positive, between Dunkerley's bound and the three stresses, between a third of and the whole stress of AS 4600 (C116_stress_partial), and ordered (C116_longer_partial). Refuted in other units: C116_counterexample, C116_units_counterexample for every section with both coordinates non-zero, C116_millimetres_counterexample for an angle. Exact roots are assumed."
  },
  {
   "property": "C117",
   "status": "partial",
   "theorems": [
    "BeamDesign.C117_beam_partial",
    "BeamDesign.C117_check_partial",
    "BeamDesign.C117_common_partial",
    "BeamDesign.C117_near_partial",
    "BeamDesign.C117_between",
    "BeamDesign.C117_binary64_partial",
    "BeamDesign.C117_counterexample",
    "BeamDesign.C117_dropped_counterexample"
   ],
   "note": "Proved: the same answers and errors on every version of Python when no element end is rounded (in particular under the hypotheses of C83, C84 and C86), and at explicit positions up to both lengths; the lengths differ by at most 2^-49 of the length per element; what happens between the lengths. False otherwise: with elements 0.1, 1.8 and 2.0 long tension_utilisation() works up to 3.11 and raises PositionNotInBeamError from 3.12; with ten elements 0.1 long get_loads(position=beam.length) returns None from 3.12."
  },
  {
   "property": "C118",
   "status": "partial",
   "theorems": [
    "BeamDesign.C118_member_exact",
    "BeamDesign.C118_governs",
    "BeamDesign.C118_member_partial",
    "BeamDesign.C118_stress_partial",
    "BeamDesign.C118_exact",
    "BeamDesign.C118_capacity_partial",
    "BeamDesign.C118_double_partial",
    "BeamDesign.C118_counterexample"
   ],
   "note": "Proved with a condition number κ = (ratio of the polar second moments about the shear centre and the centroid)·(3 + 4/g)², g the gap between the smallest root and the real parts of the others: relative error of at most 1050uκ of the stress and 13000uκ + 24η of the capacity with a root finder of relative error η; 10^-9 in double precision for ratios up to 4 and gaps from 0.1; every number of the member capacity dictionary to (2κ + 12)u (C118_member_partial), the smallest governing exactly (C118_governs). False without a gap: for a 6 m member with equal radii of gyration and the shear centre a nanometre off both axes, the computed cubic has no real root near the stress, so that the result is complex or more than 50 times too large. The capacity is also excluded where the slenderness is at the step 1.5 of the column curve (C106)."
  },
  {
   "property": "C119",
   "status": "proved",
   "theorems": [
    "BeamDesign.C119_constructor",
    "BeamDesign.C119_positions",
    "BeamDesign.C119_loads",
    "BeamDesign.C119_tension",
    "BeamDesign.C119_utilisation",
    "BeamDesign.C119_nowhere_above",
    "BeamDesign.C119_largest_stored"
   ],
   "note": "An int table on an element of length zero raises TypeError (C20_zero_length), an int first length raises in the overall utilisation (C34_int_counterexample)."
  },
  {
   "property": "C120",
   "status": "proved",
   "theorems": [
    "BeamDesign.C120_positions",
    "BeamDesign.C120_between",
    "BeamDesign.C120_infinite",
    "BeamDesign.C120_agrees",
    "BeamDesign.C120_rated",
    "BeamDesign.C120_rows"
   ],
   "note": "Minus infinity is compression and gives zero tension. `retry` chooses between the interpolation of numpy 1.16 and of later versions. `view` says which float an axial entry stands for, so the theorems hold for every placement of nan and infinities. The overall utilisation is for exact arithmetic; the other parts for any arithmetic that keeps stored positions apart (binary64 does: separate_binary64)."
  },
  {
   "property": "C121",
   "status": "partial",
   "theorems": [
    "BeamDesign.C121_counterexample",
    "BeamDesign.C121_deep_partial",
    "BeamDesign.C121_cells_partial",
    "BeamDesign.C121_numbers"
   ],
   "note": "Refuted for arrays of three dimensions and for None as a load: C121_counterexample. The partial theorems give exactly what is accepted."
  },
  {
   "property": "C122",
   "status": "partial",
   "theorems": [
    "BeamDesign.C122_finite_partial",
    "BeamDesign.C122_unloaded",
    "BeamDesign.C122_counterexample",
    "BeamDesign.C122_large_counterexample"
   ],
   "note": "Refuted by C122_counterexample (positions 2^-1070 apart); C122_finite_partial is for loads up to 2^e and different positions at least 2^-g apart with e + g at most 1022 (10^30 and 10^-270, say); C122_large_counterexample shows that 1023 is too much."
  },
  {
   "property": "C123",
   "status": "proved",
   "theorems": [
    "BeamDesign.C123_positions",
    "BeamDesign.C123_overall"
   ],
   "note": "Exact arithmetic, tables of floats, elements of positive length and rods of positive capacity. Each of the three utilisations is assumed to be given: a tension so small that the solver gives up raises an error (C32_too_small)."
  },
  {
   "property": "C124",
   "status": "proved",
   "theorems": [
    "BeamDesign.C124_positions",
    "BeamDesign.C124_overall"
   ],
   "note": "Exact arithmetic, tables of floats, rods of positive capacity."
  },
  {
   "property": "C125",
   "status": "proved",
   "theorems": [
    "BeamDesign.C125_load_case",
    "BeamDesign.C125_beam",
    "BeamDesign.C125_tension",
    "BeamDesign.C125_utilisation"
   ],
   "note": "For every arithmetic (rounding included): a load case answers the same at positions between two stored positions whenever the rows between them are the same (C125_load_case); the beam, get_tension and tension_utilisation at explicit positions depend only on the located elements, errors included (C125_beam, C125_tension, C125_utilisation)."
  },
  {
   "property": "C126",
   "status": "proved",
   "theorems": [
    "BeamDesign.C126_load_case",
    "BeamDesign.C126_beam",
    "BeamDesign.C126_check"
   ],
   "note": "For every arithmetic and every argument, errors included: get_load and get_loads depend only on the positions and the asked columns; get_tension and tension_utilisation depend only on the axial column."
  },
  {
   "property": "C127",
   "status": "proved",
   "theorems": [
    "BeamDesign.C127_stored",
    "BeamDesign.C127_load_case",
    "BeamDesign.C127_beam",
    "BeamDesign.C127_binary64"
   ],
   "note": "C127_stored for every arithmetic (equality); C127_load_case and C127_beam for every arithmetic that satisfies the standard model, with the error 40u(|a|M1+|k|M2) + (11+5(|a|+|k|))eta; C127_binary64 for double precision. No overflow is modelled here (C122 treats it)."
  },
  {
   "property": "C128",
   "status": "partial",
   "theorems": [
    "BeamDesign.C128_capacity",
    "BeamDesign.C128_loads_partial",
    "BeamDesign.C128_tension_partial",
    "BeamDesign.C128_utilisation",
    "BeamDesign.C128_new",
    "BeamDesign.C128_counterexample"
   ],
   "note": "C128_utilisation and C128_capacity hold without conditions (exact arithmetic, L and F positive, errors included), C128_new for the constructor. C128_loads_partial and C128_tension_partial: the load tables hold decimals. Missing: tables of whole numbers only, where the code cuts the reported position to a whole number, so that it depends on the unit of length (C128_counterexample)."
  },
  {
   "property": "C129",
   "status": "proved",
   "theorems": [
    "BeamDesign.C129_everywhere",
    "BeamDesign.C129_pairs",
    "BeamDesign.C129_first",
    "BeamDesign.C129_bound"
   ],
   "note": "Exact arithmetic, float element lengths, tables of floats, positive capacities. This is the case in which the refuted claim C33 holds for every load case and every position."
  },
  {
   "property": "C130",
   "status": "proved",
   "theorems": [
    "BeamDesign.C130_min_positions",
    "BeamDesign.C130_positions",
    "BeamDesign.C130_again",
    "BeamDesign.C130_again_positions",
    "BeamDesign.C130_binary64"
   ],
   "note": "Exact arithmetic: C130_min_positions, C130_positions. Any arithmetic: C130_again, C130_again_positions (the array listed again is the same). Double precision: C130_binary64 (acceptance never fails for n up to 2^50). Examples: a table with a jump; a list of positions that leaves a stored one out is not enough."
  },
  {
   "property": "C131",
   "status": "proved",
   "theorems": [
    "BeamDesign.C131_list_positions",
    "BeamDesign.C131_get_load"
   ],
   "note": "C131_list_positions and C131_get_load, in IEEE double precision (rounding to nearest even, subnormals; overflow cannot occur between 0 and 1)."
  },
  {
   "property": "C132",
   "status": "proved",
   "theorems": [
    "BeamDesign.C132_redundant",
    "BeamDesign.C132_cut",
    "BeamDesign.C132_mirror",
    "BeamDesign.C132_cases_counterexample"
   ],
   "note": "C132_redundant, C132_cut and C132_mirror, for one load case per call and exact arithmetic. The cut is at a position with at most two rows (a position in the table; C132_redundant adds it when it is missing). C132_cases_counterexample proves the last sentence."
  },
  {
   "property": "C133",
   "status": "proved",
   "theorems": [
    "BeamDesign.C133_positions",
    "BeamDesign.C133_overall",
    "BeamDesign.C133_empty"
   ],
   "note": "C133_positions, C133_overall and C133_empty, for exact arithmetic; no assumption that anything is loaded or that the tables are well formed."
  },
  {
   "property": "C134",
   "status": "proved",
   "theorems": [
    "BeamDesign.C134_exact",
    "BeamDesign.C134_rounded",
    "BeamDesign.C134_load_stress",
    "BeamDesign.C134_raises"
   ],
   "note": "C134_exact, C134_rounded, C134_load_stress and C134_raises; overflow and underflow are excluded by the assumption on the arithmetic (C115 shows that they do not occur for numbers of ordinary size)."
  },
  {
   "property": "C135",
   "status": "proved",
   "theorems": [
    "BeamDesign.C135_nowhere_above",
    "BeamDesign.C135_passes"
   ],
   "note": "C135_nowhere_above and C135_passes; extends C86 from the grid of doubles to any positions for loads without jumps. Elements other than solid circles are outside (the capacity exists for solid circles only)."
  },
  {
   "property": "C136",
   "status": "partial",
   "theorems": [
    "BeamDesign.C136_flexural_partial",
    "BeamDesign.C136_torsion_partial",
    "BeamDesign.C136_compression_partial",
    "BeamDesign.C136_shear_partial",
    "BeamDesign.C136_moment_factors_partial",
    "BeamDesign.C136_plates_partial",
    "BeamDesign.C136_reference_moment",
    "BeamDesign.C136_counterexample",
    "BeamDesign.C136_slenderness_counterexample",
    "BeamDesign.C136_unsymmetric_partial",
    "BeamDesign.C136_unsymmetric_member_partial",
    "BeamDesign.C136_unsymmetric_counterexample",
    "BeamDesign.C136_angle_counterexample"
   ],
   "note": "C136_flexural_partial, C136_torsion_partial, C136_compression_partial, C136_shear_partial, C136_moment_factors_partial, C136_plates_partial and C136_reference_moment (when the reference moment is complex); refuted for the bending capacity and the slendernesses (C136_counterexample, C136_slenderness_counterexample). For unsymmetric sections C136_unsymmetric_partial and C136_unsymmetric_member_partial (real numbers where the formula gives real numbers), and refuted otherwise (C136_unsymmetric_counterexample, C136_angle_counterexample)."
  },
  {
   "property": "C137",
   "status": "partial",
   "theorems": [
    "BeamDesign.C137_ends_partial",
    "BeamDesign.C137_bisection_partial",
    "BeamDesign.C137_root_partial",
    "BeamDesign.C137_nan_counterexample",
    "BeamDesign.C137_endless_counterexample",
    "BeamDesign.C137_overflow_counterexample",
    "BeamDesign.C137_default_partial",
    "BeamDesign.C137_underflow_counterexample"
   ],
   "note": "Partial: proved for guesses of at most half the largest double and tolerances of at least 2^-500 (termination: 2^-1000), and for the default guesses and tolerance when the function keeps its sign in the outer half of the range. Outside these conditions the claim is false, which the four counterexamples show (nan tolerance, overflow of the midpoint, underflow of the product, tolerance 0 without a limit)."
  },
  {
   "property": "C138",
   "status": "partial",
   "theorems": [
    "BeamDesign.C138_errors_partial",
    "BeamDesign.C138_agree_partial",
    "BeamDesign.C138_nan_counterexample",
    "BeamDesign.C138_no_root_counterexample"
   ],
   "note": "Partial: proved for every tolerance other than nan, for which the counterexample shows that the claim is false; the bound on the agreement of the last guesses needs a tolerance of at least 2^-1000. A second counterexample shows that agreement is not being a root."
  },
  {
   "property": "C139",
   "status": "proved",
   "theorems": [
    "BeamDesign.C139_utilisation",
    "BeamDesign.C139_found"
   ],
   "note": "C139_utilisation and C139_found; extends C82 from utilisations between 1/10000 and 10000 to all sizes. The arithmetic has gradual underflow but no overflow, so the claim is about inputs for which no intermediate result exceeds the largest double."
  },
  {
   "property": "C140",
   "status": "proved",
   "theorems": [
    "BeamDesign.C140_utilisation",
    "BeamDesign.C140_safe"
   ],
   "note": "C140_utilisation and C140_safe; extends C139 to arithmetic with overflow, infinities, nan and rounded tolerances in the solution for each tension. The capacity and the tensions themselves are computed without overflow, as in C139. Capacities below 2^-900 are not covered."
  },
  {
   "property": "C141",
   "status": "proved",
   "theorems": [
    "BeamDesign.C141_grid",
    "BeamDesign.C141_anywhere",
    "BeamDesign.C141_passes",
    "BeamDesign.C141_zero"
   ],
   "note": "C141_grid, C141_anywhere, C141_passes and C141_zero; extends C86 and C135, which need loads of at most 5000 times the capacity and give no better bound than a ten thousandth of the capacity. The capacity, the positions and the interpolated loads are computed without overflow."
  },
  {
   "property": "C142",
   "status": "proved",
   "theorems": [
    "BeamDesign.C142_grid",
    "BeamDesign.C142_passes",
    "BeamDesign.C142_same",
    "BeamDesign.C142_anywhere",
    "BeamDesign.C142_counterexample"
   ],
   "note": "C142_grid: a finite result bounds the true load everywhere for loads of any size on the grid of doubles. C142_passes: whatever is returned, comparing as at most 1 means no overload. C142_same: with loads up to 2^100 the run is that of C140 for all arguments, exceptions included. C142_anywhere: safety for loads stored at any positions. C142_counterexample: without an upper limit on the data, overflow of area times strength makes kt ineffective and an overloaded rod passes. Circular rods only: areas of other sections are not followed in floating point; a result of nan does not compare as at most 1."
  },
  {
   "property": "C143",
   "status": "proved",
   "theorems": [
    "BeamDesign.C143_section",
    "BeamDesign.C143_element",
    "BeamDesign.C143_wrapper",
    "BeamDesign.C143_factors",
    "BeamDesign.C143_beam",
    "BeamDesign.C143_now"
   ],
   "note": "For every history of changes, by induction; C143_now: what the AS4100 object computes with, unless the list beam.elements is changed (for that see C60)."
  },
  {
   "property": "C144",
   "status": "proved",
   "theorems": [
    "BeamDesign.C144_positions",
    "BeamDesign.C144_elements",
    "BeamDesign.C144_cases",
    "BeamDesign.C144_length"
   ],
   "note": "num_positions, no_elements, no_load_cases and the existence of length, for all accepted arguments."
  },
  {
   "property": "C145",
   "status": "proved",
   "theorems": [
    "BeamDesign.C145_string",
    "BeamDesign.C145_unique",
    "BeamDesign.C145_quotes",
    "BeamDesign.C145_symmetry",
    "BeamDesign.C145_none"
   ],
   "note": "C145_string: a literal of the string for any choice of printable characters; C145_unique: literals are unambiguous; C145_symmetry: the whole list; C145_none: the texts where something is None. Lone surrogates are not modelled."
  },
  {
   "property": "C146",
   "status": "proved",
   "theorems": [
    "BeamDesign.C146_anywhere",
    "BeamDesign.C146_passes",
    "BeamDesign.C146_full",
    "BeamDesign.C146_refused"
   ],
   "note": "For beams whose element ends are rounded. `C146_refused` proves that some such beams are refused with PositionNotInElementError (0.1 + 0.2)."
  },
  {
   "property": "C147",
   "status": "proved",
   "theorems": [
    "BeamDesign.C147_element",
    "BeamDesign.C147_never",
    "BeamDesign.C147_key_error"
   ],
   "note": "`C147_key_error` names the exception for exact arithmetic; with rounding a position can be outside every element, then other exceptions are possible."
  },
  {
   "property": "C148",
   "status": "proved",
   "theorems": [
    "BeamDesign.C148_dropped",
    "BeamDesign.C148_bounded",
    "BeamDesign.C148_kept"
   ],
   "note": "The observable effect of a hit is the identity of the returned dictionary; r_ol and f_euler_torsion return numbers, for them only the size is claimed."
  },
  {
   "property": "C149",
   "status": "proved",
   "theorems": [
    "BeamDesign.C149_load_case",
    "BeamDesign.C149_beam",
    "BeamDesign.C149_tension",
    "BeamDesign.C149_doubles"
   ],
   "note": "C149_load_case, C149_beam and C149_tension for every arithmetic that respects the factors (C149_load_case also needs the specification of the sort); C149_doubles for signs in double precision without overflow. The sign of a zero is not modelled."
  },
  {
   "property": "C150",
   "status": "proved",
   "theorems": [
    "BeamDesign.C150_scales",
    "BeamDesign.C150_doubles",
    "BeamDesign.C150_capacity",
    "BeamDesign.C150_loads",
    "BeamDesign.C150_tension",
    "BeamDesign.C150_utilisation",
    "BeamDesign.C150_counterexample"
   ],
   "note": "C150_scales (rounding to 53 digits passes on powers of two), C150_doubles (doubles are this arithmetic unless a result underflows; overflow is not modelled here), C150_capacity, C150_loads, C150_tension (load tables not of whole numbers only) and C150_utilisation. C150_counterexample: from metres to millimetres the last digit of the utilisation changes."
  },
  {
   "property": "C151",
   "status": "proved",
   "theorems": [
    "BeamDesign.C151_section",
    "BeamDesign.C151_areas",
    "BeamDesign.C151_object",
    "BeamDesign.C151_thicker"
   ],
   "note": "C151_section (the six numbers of s7_1_N_t), C151_areas (the six areas of s7_1_A_reqd), C151_object (an AS4100 object at any position, exceptions included), each for every monotone rounding, and C151_thicker (thicker rods in one strength band, in doubles). Overflow is not modelled here."
  },
  {
   "property": "C152",
   "status": "partial",
   "theorems": [
    "BeamDesign.C152_yield_partial",
    "BeamDesign.C152_welds_partial",
    "BeamDesign.C152_nonuniform_partial",
    "BeamDesign.C152_buckling_coefficient_partial",
    "BeamDesign.C152_web_partial",
    "BeamDesign.C152_reference_moment_partial",
    "BeamDesign.C152_products_partial",
    "BeamDesign.C152_slenderness_partial",
    "BeamDesign.C152_euler_partial",
    "BeamDesign.C152_torsion_partial",
    "BeamDesign.C152_effective_partial",
    "BeamDesign.C152_double",
    "BeamDesign.C152_binary64",
    "BeamDesign.C152_web_counterexample",
    "BeamDesign.C152_column_counterexample",
    "BeamDesign.C152_segment_counterexample"
   ],
   "note": "C152_yield_partial, C152_welds_partial, C152_nonuniform_partial, C152_buckling_coefficient_partial, C152_web_partial, C152_reference_moment_partial, C152_products_partial, C152_slenderness_partial, C152_euler_partial, C152_torsion_partial and C152_effective_partial: the formulas that rounding keeps in order. C152_double, C152_binary64: doubles round this way. Refuted for stronger slender webs, longer columns and longer segments in bending: C152_web_counterexample, C152_column_counterexample, C152_segment_counterexample (differences in the last digit; C102-C106 bound them). If a call raises, nothing is said about its pair."
  },
  {
   "property": "C153",
   "status": "partial",
   "theorems": [
    "BeamDesign.C153_column",
    "BeamDesign.C153_member",
    "BeamDesign.C153_bending_partial",
    "BeamDesign.C153_bending_factors",
    "BeamDesign.C153_shear",
    "BeamDesign.C153_effective",
    "BeamDesign.C153_double",
    "BeamDesign.C153_counterexample"
   ],
   "note": "C153_member (the whole dictionary of s6_1_1_Nc), C153_column, C153_shear, C153_effective, C153_bending_factors; C153_bending_partial (the reference buckling moment for units of force which differ by powers of four) and C153_counterexample (a factor of two changes its last digit). C153_double: doubles pass on powers of two as long as nothing overflows or underflows. Unsymmetric sections are not covered."
  },
  {
   "property": "C154",
   "status": "partial",
   "theorems": [
    "BeamDesign.C154_web",
    "BeamDesign.C154_column_partial",
    "BeamDesign.C154_segment_partial",
    "BeamDesign.C154_member_partial",
    "BeamDesign.C154_counterexample"
   ],
   "note": "C154_web (every web, every arithmetic with small relative errors); C154_column_partial (slendernesses from 13.5 to 1000), C154_segment_partial (segments that are not very slender, beta_x not negative) and C154_member_partial (symmetric members in the usual range) in doubles without overflow or underflow; C154_counterexample: stocky columns, where the order is turned round completely."
  },
  {
   "property": "C155",
   "status": "partial",
   "theorems": [
    "BeamDesign.C155_length_partial",
    "BeamDesign.C155_many_partial",
    "BeamDesign.C155_weld_model",
    "BeamDesign.C155_weld_partial",
    "BeamDesign.C155_plain",
    "BeamDesign.C155_counterexample"
   ],
   "note": "C155_length_partial (up to 2^25 elements) and C155_many_partial (up to 2^51) for floats from Python 3.12 on, C155_weld_partial for weld capacities that do not underflow; C155_plain bounds the error up to 3.11, C155_counterexample refutes the property there, for every number of parts; C155_weld_model relates the model to that of C49. Missing: lengths given as ints, overflow."
  },
  {
   "property": "C156",
   "status": "proved",
   "theorems": [
    "BeamDesign.C156_value",
    "BeamDesign.C156_error",
    "BeamDesign.C156_empty",
    "BeamDesign.C156_order",
    "BeamDesign.C156_fewer",
    "BeamDesign.C156_cases",
    "BeamDesign.C156_positions",
    "BeamDesign.C156_one",
    "BeamDesign.C156_all",
    "BeamDesign.C156_listed"
   ],
   "note": "For every run-time, also rounding ones, and errors included."
  },
  {
   "property": "C157",
   "status": "proved",
   "theorems": [
    "BeamDesign.C157_lists",
    "BeamDesign.C157_smallest",
    "BeamDesign.C157_single",
    "BeamDesign.C157_design",
    "BeamDesign.C157_order",
    "BeamDesign.C157_whole"
   ],
   "note": "For every run-time, also rounding ones.  Positions are floats, as the API documents."
  },
  {
   "property": "C158",
   "status": "proved",
   "theorems": [
    "BeamDesign.C158_loads",
    "BeamDesign.C158_order",
    "BeamDesign.C158_fewer",
    "BeamDesign.C158_tension"
   ],
   "note": "For every run-time, also rounding ones, and for any loads.  Positions are floats, as the API documents."
  },
  {
   "property": "C159",
   "status": "partial",
   "theorems": [
    "BeamDesign.C159_list_partial",
    "BeamDesign.C159_queries_partial",
    "BeamDesign.C159_exact_partial",
    "BeamDesign.C159_counterexample"
   ],
   "note": "Missing because false: in double precision from Python 3.12 on the last element can end beyond the corrected length, and the repeated call is refused (C159_counterexample).  Proved: in exact arithmetic the full claim; for every run-time the claim unless a position found is outside the length."
  }
 ]
}