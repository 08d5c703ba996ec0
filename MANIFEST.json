{
 "claims": [
  {
   "property": "C01",
   "status": "proved",
   "theorems": [
    "M4rie.Props.C01_gf2x_mul",
    "M4rie.Props.C01_gf2x_mul_dies"
   ],
   "note": ""
  },
  {
   "property": "C02",
   "status": "proved",
   "theorems": [
    "M4rie.Props.C02_gf2x_deg",
    "M4rie.Props.C02_gf2x_deg_bits"
   ],
   "note": ""
  },
  {
   "property": "C03",
   "status": "proved",
   "theorems": [
    "M4rie.Props.C03_gf2x_divmod",
    "M4rie.Props.C03_gf2x_div_mod"
   ],
   "note": ""
  },
  {
   "property": "C04",
   "status": "proved",
   "theorems": [
    "M4rie.Props.C04_gf2e_inv",
    "M4rie.Props.C04_gf2e_inv_zero"
   ],
   "note": ""
  },
  {
   "property": "C05",
   "status": "proved",
   "theorems": [
    "M4rie.Props.C05_red_table"
   ],
   "note": ""
  },
  {
   "property": "C06",
   "status": "proved",
   "theorems": [
    "M4rie.Props.C06_pow_gen"
   ],
   "note": ""
  },
  {
   "property": "C07",
   "status": "proved",
   "theorems": [
    "M4rie.Props.C07_gf2e_mul",
    "M4rie.Props.C07_table_eq_arith",
    "M4rie.Props.C07_table_iff"
   ],
   "note": ""
  },
  {
   "property": "C08",
   "status": "proved",
   "theorems": [
    "M4rie.Props.C08_field_axioms",
    "M4rie.Props.C08_iso_quotient"
   ],
   "note": ""
  },
  {
   "property": "C09",
   "status": "proved",
   "theorems": [
    "M4rie.Props.C09_irreducible",
    "M4rie.Props.C09_nodup_count",
    "M4rie.Props.C09_init_field"
   ],
   "note": ""
  },
  {
   "property": "C10",
   "status": "proved",
   "theorems": [
    "M4rie.Props.C10_degree_to_w",
    "M4rie.Props.C10_degree_to_w_dies",
    "M4rie.Props.C10_no_straddle"
   ],
   "note": ""
  },
  {
   "property": "C11",
   "status": "proved",
   "theorems": [
    "M4rie.Props.C11_t16",
    "M4rie.Props.C11_t16_all_indices",
    "M4rie.Props.C11_t16_canonical",
    "M4rie.Props.C11_violation_small",
    "M4rie.Props.C11_violation_large"
   ],
   "note": "C11_t16 is the exact characterization; the documented claim (all indices, all degrees) is false in the code: C11_violation_small/_large."
  },
  {
   "property": "C12",
   "status": "proved",
   "theorems": [
    "M4rie.Props.C12_read",
    "M4rie.Props.C12_write",
    "M4rie.Props.C12_add",
    "M4rie.Props.C12_entries_determine",
    "M4rie.Props.C12_read_write"
   ],
   "note": ""
  },
  {
   "property": "C13",
   "status": "proved",
   "theorems": [
    "M4rie.Props.C13_add_row"
   ],
   "note": ""
  },
  {
   "property": "C14",
   "status": "proved",
   "theorems": [
    "M4rie.Props.C14_add_multiple_of_row"
   ],
   "note": ""
  },
  {
   "property": "C15",
   "status": "proved",
   "theorems": [
    "M4rie.Props.C15_rescale_row"
   ],
   "note": ""
  },
  {
   "property": "C16",
   "status": "proved",
   "theorems": [
    "M4rie.Props.C16_row_swap",
    "M4rie.Props.C16_copy_row",
    "M4rie.Props.C16_col_swap",
    "M4rie.Props.C16_col_swap_in_rows",
    "M4rie.Props.C16_swap_twice",
    "M4rie.Props.C16_row_add"
   ],
   "note": ""
  },
  {
   "property": "C17",
   "status": "proved",
   "theorems": [
    "M4rie.Props.C17_add",
    "M4rie.Props.C17_add_self",
    "M4rie.Props.C17_add_dies",
    "M4rie.Props.C17_slice_add",
    "M4rie.Props.C17_slice_add_dies"
   ],
   "note": ""
  },
  {
   "property": "C18",
   "status": "proved",
   "theorems": [
    "M4rie.Props.C18_mul_scalar",
    "M4rie.Props.C18_violation",
    "M4rie.Props.C18_exact"
   ],
   "note": "C18_exact is the exact characterization; the documented claim (all sizes) is false for degrees 3,5,6,7 with nrows*ncols >= 2^17: C18_violation."
  },
  {
   "property": "C19",
   "status": "proved",
   "theorems": [
    "M4rie.Props.C19_cmp",
    "M4rie.Props.C19_is_zero",
    "M4rie.Props.C19_slice_cmp",
    "M4rie.Props.C19_slice_is_zero"
   ],
   "note": ""
  },
  {
   "property": "C20",
   "status": "proved",
   "theorems": [
    "M4rie.Props.C20_mul_naive",
    "M4rie.Props.C20_addmul_naive",
    "M4rie.Props.C20_mul_dies"
   ],
   "note": ""
  },
  {
   "property": "C21",
   "status": "proved",
   "theorems": [
    "M4rie.Props.C21_make_table"
   ],
   "note": ""
  },
  {
   "property": "C22",
   "status": "proved",
   "theorems": [
    "M4rie.Props.C22_mul_newton_john",
    "M4rie.Props.C22_addmul_newton_john"
   ],
   "note": ""
  },
  {
   "property": "C23",
   "status": "proved",
   "theorems": [
    "M4rie.Props.C23_mul_strassen",
    "M4rie.Props.C23_dies",
    "M4rie.Props.C23_violation"
   ],
   "note": "The crash for small cutoffs is proved as C23_violation."
  },
  {
   "property": "C24",
   "status": "proved",
   "theorems": [
    "M4rie.Props.C24_addmul_strassen"
   ],
   "note": ""
  },
  {
   "property": "C25",
   "status": "proved",
   "theorems": [
    "M4rie.Props.C25_karatsuba",
    "M4rie.Props.C25_mul",
    "M4rie.Props.C25_addmul",
    "M4rie.Props.C25_dies",
    "M4rie.Props.C25_violation"
   ],
   "note": "The crash for a B without columns is proved as C25_violation."
  },
  {
   "property": "C26",
   "status": "proved",
   "theorems": [
    "M4rie.Props.C26_slice",
    "M4rie.Props.C26_cling",
    "M4rie.Props.C26_new",
    "M4rie.Props.C26_round_trip",
    "M4rie.Props.C26_round_trip_sliced"
   ],
   "note": ""
  },
  {
   "property": "C27",
   "status": "proved",
   "theorems": [
    "M4rie.Props.C27_unreduced",
    "M4rie.Props.C27_reduced"
   ],
   "note": ""
  },
  {
   "property": "C28",
   "status": "proved",
   "theorems": [
    "M4rie.Props.C28_addmul_unchecked",
    "M4rie.Props.C28_addmul",
    "M4rie.Props.C28_mul",
    "M4rie.Props.C28_mul_new",
    "M4rie.Props.C28_dies"
   ],
   "note": ""
  },
  {
   "property": "C29",
   "status": "proved",
   "theorems": [
    "M4rie.Props.C29_unique",
    "M4rie.Props.C29_lower_naive",
    "M4rie.Props.C29_upper_naive",
    "M4rie.Props.C29_lower_newton_john",
    "M4rie.Props.C29_upper_newton_john",
    "M4rie.Props.C29_slice_lower_naive",
    "M4rie.Props.C29_slice_upper_naive",
    "M4rie.Props.C29_slice_lower_newton_john",
    "M4rie.Props.C29_slice_upper_newton_john"
   ],
   "note": ""
  },
  {
   "property": "C30",
   "status": "proved",
   "theorems": [
    "M4rie.Props.C30_entry",
    "M4rie.Props.C30_slice_entry",
    "M4rie.Props.C30_slice_lower",
    "M4rie.Props.C30_slice_upper",
    "M4rie.Props.C30_slice_default",
    "M4rie.Props.C30_slice_eq_naive",
    "M4rie.Props.C30_lower",
    "M4rie.Props.C30_upper",
    "M4rie.Props.C30_default",
    "M4rie.Props.C30_eq_naive",
    "M4rie.Props.C30_violation"
   ],
   "note": ""
  },
  {
   "property": "C31",
   "status": "proved",
   "theorems": [
    "M4rie.Props.C31_ple_naive",
    "M4rie.Props.C31_pivots_unique"
   ],
   "note": ""
  },
  {
   "property": "C32",
   "status": "proved",
   "theorems": [
    "M4rie.Props.C32_ple_newton_john"
   ],
   "note": ""
  },
  {
   "property": "C33",
   "status": "proved",
   "theorems": [
    "M4rie.Props.C33_slice_ple_entry",
    "M4rie.Props.C33_slice_pluq_entry",
    "M4rie.Props.C33_ple_entry",
    "M4rie.Props.C33_entry_dies",
    "M4rie.Props.C33_slice_ple",
    "M4rie.Props.C33_ple",
    "M4rie.Props.C33_profile",
    "M4rie.Props.C33_slice_pluq"
   ],
   "note": ""
  },
  {
   "property": "C34",
   "status": "proved",
   "theorems": [
    "M4rie.Props.C34_echelonize_naive"
   ],
   "note": ""
  },
  {
   "property": "C35",
   "status": "proved",
   "theorems": [
    "M4rie.Props.C35_echelonize_newton_john",
    "M4rie.Props.C35_agrees_with_naive"
   ],
   "note": ""
  },
  {
   "property": "C36",
   "status": "proved",
   "theorems": [
    "M4rie.Props.C36_slice_echelonize_ple",
    "M4rie.Props.C36_echelonize_ple",
    "M4rie.Props.C36_agrees_with_naive"
   ],
   "note": ""
  },
  {
   "property": "C37",
   "status": "proved",
   "theorems": [
    "M4rie.Props.C37_invert",
    "M4rie.Props.C37_singular_dies"
   ],
   "note": ""
  },
  {
   "property": "C38",
   "status": "proved",
   "theorems": [
    "M4rie.Props.C38_permutes",
    "M4rie.Props.C38_left",
    "M4rie.Props.C38_left_trans",
    "M4rie.Props.C38_right_trans",
    "M4rie.Props.C38_right",
    "M4rie.Props.C38_left_inverse",
    "M4rie.Props.C38_right_inverse",
    "M4rie.Props.C38_slice",
    "M4rie.Props.C38_slice_inverse",
    "M4rie.Props.C38_slice_tri",
    "M4rie.Props.C38_packed_eq_sliced"
   ],
   "note": ""
  },
  {
   "property": "C39",
   "status": "proved",
   "theorems": [
    "M4rie.Props.C39_naive",
    "M4rie.Props.C39_karatsuba",
    "M4rie.Props.C39_naive_new",
    "M4rie.Props.C39_karatsuba_new",
    "M4rie.Props.C39_karatsuba_dies"
   ],
   "note": ""
  },
  {
   "property": "C40",
   "status": "proved",
   "theorems": [
    "M4rie.Props.C40_crt_init",
    "M4rie.Props.C40_crt_init_useful",
    "M4rie.Props.C40_exact",
    "M4rie.Props.C40_crt_exact",
    "M4rie.Props.C40_product",
    "M4rie.Props.C40_returns_iff",
    "M4rie.Props.C40_violation_length_one",
    "M4rie.Props.C40_violation_hang",
    "M4rie.Props.C40_violation_hang_count",
    "M4rie.Props.C40_violation_longer_first",
    "M4rie.Props.C40_violation_crt_longer_first",
    "M4rie.Props.C40_small",
    "M4rie.Props.C40_violation_infinity",
    "M4rie.Props.C40_instance"
   ],
   "note": "The failures of the code (length 1: zero scheme; (4,4): endless loop; f_len > g_len: never returns; (3,24): write to column -1) are proved as C40_violation_*; C40_small decides every pair of lengths up to 16."
  },
  {
   "property": "C41",
   "status": "proved",
   "theorems": [
    "M4rie.Props.C41_mzd_accumulates",
    "M4rie.Props.C41_agree_on_zero",
    "M4rie.Props.C41_djb_overwrites",
    "M4rie.Props.C41_violation"
   ],
   "note": "The two methods differ on a non-zero output: C41_violation."
  },
  {
   "property": "C42",
   "status": "proved",
   "theorems": [
    "M4rie.Props.C42_slice_randomize",
    "M4rie.Props.C42_poly_randomize",
    "M4rie.Props.C42_history",
    "M4rie.Props.C42_canonical",
    "M4rie.Props.C42_randomize"
   ],
   "note": ""
  },
  {
   "property": "C43",
   "status": "proved",
   "theorems": [
    "M4rie.Props.C43_concat",
    "M4rie.Props.C43_stack",
    "M4rie.Props.C43_submatrix",
    "M4rie.Props.C43_copy",
    "M4rie.Props.C43_window",
    "M4rie.Props.C43_window_write",
    "M4rie.Props.C43_concat_submatrix",
    "M4rie.Props.C43_stack_submatrix"
   ],
   "note": ""
  },
  {
   "property": "C44",
   "status": "proved",
   "theorems": [
    "M4rie.Props.C44_mul_identity",
    "M4rie.Props.C44_set_ui",
    "M4rie.Props.C44_identity"
   ],
   "note": ""
  },
  {
   "property": "C45",
   "status": "proved",
   "theorems": [
    "M4rie.Props.C45_echelon",
    "M4rie.Props.C45_after_echelonize",
    "M4rie.Props.C45_first_zero_row"
   ],
   "note": ""
  },
  {
   "property": "C46",
   "status": "proved",
   "theorems": [
    "M4rie.Props.C46_violation_alias",
    "M4rie.Props.C46_addmul_scalar",
    "M4rie.Props.C46_mul_scalar",
    "M4rie.Props.C46_mul_scalar_new"
   ],
   "note": "C == B destroys the input: C46_violation_alias."
  },
  {
   "property": "C47",
   "status": "proved",
   "theorems": [
    "M4rie.Props.C47_read",
    "M4rie.Props.C47_write",
    "M4rie.Props.C47_add",
    "M4rie.Props.C47_read_write",
    "M4rie.Props.C47_total"
   ],
   "note": ""
  },
  {
   "property": "C48",
   "status": "proved",
   "theorems": [
    "M4rie.Props.C48_rescale_row_zero",
    "M4rie.Props.C48_violation",
    "M4rie.Props.C48_exact"
   ],
   "note": "C48_exact is the exact characterization; the documented claim (every row) is false for every r >= 1: C48_violation."
  },
  {
   "property": "C49",
   "status": "proved",
   "theorems": [
    "M4rie.Props.C49_table_count"
   ],
   "note": ""
  },
  {
   "property": "C50",
   "status": "proved",
   "theorems": [
    "M4rie.Props.C50_mul_schedule",
    "M4rie.Props.C50_addmul_schedule"
   ],
   "note": ""
  },
  {
   "property": "C51",
   "status": "proved",
   "theorems": [
    "M4rie.Props.C51_row_swap",
    "M4rie.Props.C51_col_swap",
    "M4rie.Props.C51_col_swap_in_rows",
    "M4rie.Props.C51_copy_row",
    "M4rie.Props.C51_row_add"
   ],
   "note": ""
  },
  {
   "property": "C52",
   "status": "proved",
   "theorems": [
    "M4rie.Props.C52_set_ui",
    "M4rie.Props.C52_copy",
    "M4rie.Props.C52_concat",
    "M4rie.Props.C52_stack",
    "M4rie.Props.C52_submatrix",
    "M4rie.Props.C52_window",
    "M4rie.Props.C52_window_write"
   ],
   "note": ""
  },
  {
   "property": "C53",
   "status": "proved",
   "theorems": [
    "M4rie.Props.C53_echelonize",
    "M4rie.Props.C53_full",
    "M4rie.Props.C53_slice_full"
   ],
   "note": ""
  },
  {
   "property": "C54",
   "status": "proved",
   "theorems": [
    "M4rie.Props.C54_slice_mul",
    "M4rie.Props.C54_slice_addmul",
    "M4rie.Props.C54_mul",
    "M4rie.Props.C54_slice_mul_map",
    "M4rie.Props.C54_slice_addmul_map",
    "M4rie.Props.C54_slice_dies",
    "M4rie.Props.C54_dies"
   ],
   "note": ""
  },
  {
   "property": "C55",
   "status": "proved",
   "theorems": [
    "M4rie.Props.C55_blm",
    "M4rie.Props.C55_blm_compiled",
    "M4rie.Props.C55_crt",
    "M4rie.Props.C55_crt_zero",
    "M4rie.Props.C55_violation_crt",
    "M4rie.Props.C55_violation_crt_null",
    "M4rie.Props.C55_violation_crt_longer_first",
    "M4rie.Props.C55_violation_crt_hang",
    "M4rie.Props.C55_ext1",
    "M4rie.Props.C55_violation_ext1"
   ],
   "note": "The disagreements with the documentation are proved as C55_violation_*."
  },
  {
   "property": "C56",
   "status": "proved",
   "theorems": [
    "M4rie.Props.C56_add",
    "M4rie.Props.C56_adapt_depth",
    "M4rie.Props.C56_violation_adapt_depth",
    "M4rie.Props.C56_cmp"
   ],
   "note": "mzd_poly_add overwrites although documented as +=; growing beyond the allocation is proved out of bounds (C56_violation_adapt_depth)."
  },
  {
   "property": "C57",
   "status": "proved",
   "theorems": [
    "M4rie.Props.C57_extend",
    "M4rie.Props.C57_round_trip",
    "M4rie.Props.C57_violation",
    "M4rie.Props.C57_truncate"
   ],
   "note": ""
  },
  {
   "property": "C58",
   "status": "proved",
   "theorems": [
    "M4rie.Props.C58_step",
    "M4rie.Props.C58_history",
    "M4rie.Props.C58_deterministic",
    "M4rie.Props.C58_inverse_program"
   ],
   "note": ""
  },
  {
   "property": "C59",
   "status": "proved",
   "theorems": [
    "M4rie.Props.C59_step",
    "M4rie.Props.C59_history",
    "M4rie.Props.C59_deterministic",
    "M4rie.Props.C59_window_of_window_packed",
    "M4rie.Props.C59_window_of_window_sliced",
    "M4rie.Props.C59_disjoint_words",
    "M4rie.Props.C59_mul_into_window",
    "M4rie.Props.C59_nested_write"
   ],
   "note": ""
  },
  {
   "property": "C60",
   "status": "proved",
   "theorems": [
    "M4rie.Props.C60_print_packed",
    "M4rie.Props.C60_print_sliced",
    "M4rie.Props.C60_print_same",
    "M4rie.Props.C60_print_lines"
   ],
   "note": ""
  },
  {
   "property": "C61",
   "status": "proved",
   "theorems": [
    "M4rie.Props.C61_safe",
    "M4rie.Props.C61_repaired",
    "M4rie.Props.C61_leaks_only",
    "M4rie.Props.C61_session",
    "M4rie.Props.C61_session_tight",
    "M4rie.Props.C61_session_repaired",
    "M4rie.Props.C61_invert",
    "M4rie.Props.C61_echelonize",
    "M4rie.Props.C61_mul",
    "M4rie.Props.C61_violation_modred",
    "M4rie.Props.C61_violation_finish",
    "M4rie.Props.C61_violation_crt",
    "M4rie.Props.C61_violation_slice_mul",
    "M4rie.Props.C61_violation_mul",
    "M4rie.Props.C61_violation_poly_crt",
    "M4rie.Props.C61_violation_finish_always"
   ],
   "note": "Holds with three exceptions, proved as C61_violation_*; with them repaired it holds without exception (C61_repaired)."
  },
  {
   "property": "C62",
   "status": "proved",
   "theorems": [
    "M4rie.Mem.C62_field_init",
    "M4rie.Mem.C62_mzed_init",
    "M4rie.Mem.C62_mzed_window",
    "M4rie.Mem.C62_slice_init",
    "M4rie.Mem.C62_slice_window",
    "M4rie.Mem.C62_njt_init",
    "M4rie.Mem.C62_poly_init",
    "M4rie.Mem.C62_blm_init",
    "M4rie.Mem.C62_free",
    "M4rie.Mem.C62_init_free",
    "M4rie.Mem.C62_slice_depth",
    "M4rie.Mem.C62_poly_depth",
    "M4rie.Mem.C62_apply_blm",
    "M4rie.Mem.C62_ext1_array",
    "M4rie.Mem.C62_session",
    "M4rie.Mem.C62_session_objects",
    "M4rie.Mem.C62_session_end",
    "M4rie.Mem.C62_session_addresses",
    "M4rie.Mem.C62_violation_blm_free_without_djb",
    "M4rie.Mem.C62_violation_ext1_one_point",
    "M4rie.Mem.C62_violation_poly_extend",
    "M4rie.Mem.C62_violation_slice_extend"
   ],
   "note": "Holds with the exceptions proved as C62_violation_*. Objects of M4RI are single opaque blocks."
  },
  {
   "property": "C63",
   "status": "proved",
   "theorems": [
    "M4rie.Props.C63_field_ops",
    "M4rie.Props.C63_gf2x",
    "M4rie.Props.C63_elements",
    "M4rie.Props.C63_row_ops",
    "M4rie.Props.C63_swaps",
    "M4rie.Props.C63_set_ui",
    "M4rie.Props.C63_mul_scalar",
    "M4rie.Props.C63_slice",
    "M4rie.Props.C63_cling",
    "M4rie.Props.C63_mul_naive",
    "M4rie.Props.C63_mul_newton_john",
    "M4rie.Props.C63_echelonize",
    "M4rie.Props.C63_trsm_lower",
    "M4rie.Props.C63_trsm_upper",
    "M4rie.Props.C63_ple",
    "M4rie.Props.C63_violation_no_columns",
    "M4rie.Props.C63_violation_start",
    "M4rie.Props.C63_violation_int",
    "M4rie.Props.C63_violation_not_an_element"
   ],
   "note": "Holds with the exceptions proved as C63_violation_* (and C18_exact). M4RI calls are modelled by contract; the recursive algorithms are C64."
  },
  {
   "property": "C64",
   "status": "proved",
   "theorems": [
    "M4rie.Props.C64_slice_ple",
    "M4rie.Props.C64_slice_pluq",
    "M4rie.Props.C64_ple",
    "M4rie.Props.C64_slice_echelonize_ple",
    "M4rie.Props.C64_echelonize_ple",
    "M4rie.Props.C64_echelonize",
    "M4rie.Props.C64_ple_entry",
    "M4rie.Props.C64_violation_echelonize_overflow",
    "M4rie.Props.C64_violation_short_permutation",
    "M4rie.Props.C64_mul_strassen",
    "M4rie.Props.C64_addmul_strassen",
    "M4rie.Props.C64_slice_mul",
    "M4rie.Props.C64_slice_mul_scalar",
    "M4rie.Props.C64_addmul_karatsuba",
    "M4rie.Props.C64_mul",
    "M4rie.Props.C64_trsm",
    "M4rie.Props.C64_slice_trsm",
    "M4rie.Props.C64_slice_trsm_base"
   ],
   "note": "Holds with the exceptions proved as C64_violation_* (and C23/C25/C30 violations): unusable cutoffs, right-hand sides without columns, permutations shorter than the matrix, mzed_echelonize on matrices whose nrows*ncols*w does not fit an int. M4RI calls are modelled by contract."
  },
  {
   "property": "C65",
   "status": "proved",
   "theorems": [
    "M4rie.Props.C65_step",
    "M4rie.Props.C65_history",
    "M4rie.Props.C65_solve",
    "M4rie.Props.C65_same_words"
   ],
   "note": ""
  },
  {
   "property": "C66",
   "status": "proved",
   "theorems": [
    "M4rie.Props.C66_agree",
    "M4rie.Props.C66_step",
    "M4rie.Props.C66_history",
    "M4rie.Props.C66_violation_row"
   ],
   "note": "For matrices with at least one column (M4RI routines such as mzd_copy, mzd_row_add, mzd_is_zero read the last word of each row) and dimensions in bits within int. M4RI calls are modelled by contract, their preconditions are checked."
  },
  {
   "property": "C67",
   "status": "proved",
   "theorems": [
    "M4rie.Props.C67_step",
    "M4rie.Props.C67_history",
    "M4rie.Props.C67_agree",
    "M4rie.Props.C67_checked",
    "M4rie.Props.C67_untouched",
    "M4rie.Props.C67_decompose_window"
   ],
   "note": "Functions are modelled on values, so operands that partly overlap the destination are excluded (as in C59); C59_disjoint_words shows that disjoint windows share no machine word."
  },
  {
   "property": "C68",
   "status": "proved",
   "theorems": [
    "M4rie.Props.C68_add",
    "M4rie.Props.C68_copy",
    "M4rie.Props.C68_mul_scalar",
    "M4rie.Props.C68_mul_naive",
    "M4rie.Props.C68_addmul_karatsuba",
    "M4rie.Props.C68_mul_karatsuba",
    "M4rie.Props.C68_violation_mul",
    "M4rie.Props.C68_concat",
    "M4rie.Props.C68_stack",
    "M4rie.Props.C68_submatrix",
    "M4rie.Props.C68_invert",
    "M4rie.Props.C68_dies",
    "M4rie.Props.C68_violation_addmul"
   ],
   "note": "Aliasing means the same matrix object; partly overlapping windows are excluded as in C59/C67."
  },
  {
   "property": "C69",
   "status": "proved",
   "theorems": [
    "M4rie.Props.C69_schedule",
    "M4rie.Props.C69_fails",
    "M4rie.Props.C69_any_order",
    "M4rie.Props.C69_safe",
    "M4rie.Props.C69_windows",
    "M4rie.Props.C69_windows_any_order"
   ],
   "note": "Locality of every call (it reads and writes only the variables it names), by cases over all 39 kinds of calls, then induction over the interleaving. For windows: the specification of every call is local, calls on disjoint rectangles commute (cut and paste of disjoint rectangles), so any order can be sorted into any other by swaps; C67 for the concrete run. Calls are atomic: the theorems are about interleavings of whole calls; the absence of mutable globals in /repo/src was checked by reading. Windows are not created or released while the threads run."
  },
  {
   "property": "C70",
   "status": "proved",
   "theorems": [
    "M4rie.Props.C70_mul_assoc",
    "M4rie.Props.C70_mul_add",
    "M4rie.Props.C70_add_mul",
    "M4rie.Props.C70_addmul_eq",
    "M4rie.Props.C70_scalar",
    "M4rie.Props.C70_add",
    "M4rie.Props.C70_inverse",
    "M4rie.Props.C70_slice_mul_assoc",
    "M4rie.Props.C70_slice_mul_add",
    "M4rie.Props.C70_slice_mul",
    "M4rie.Props.C70_cling_mul",
    "M4rie.Props.C70_slice_add"
   ],
   "note": "Consequences of C17, C18, C25, C26, C28, C37, C43 and of the fact that a packed or sliced matrix is determined by its shape and elements (unused bits of a word are zero or unchanged). C70_scalar excludes the sizes for which mzed_mul_scalar dies (C18_violation)."
  },
  {
   "property": "C71",
   "status": "proved",
   "theorems": [
    "M4rie.Props.C71_copy",
    "M4rie.Props.C71_add",
    "M4rie.Props.C71_concat",
    "M4rie.Props.C71_stack",
    "M4rie.Props.C71_submatrix",
    "M4rie.Props.C71_addmul_scalar",
    "M4rie.Props.C71_mul_scalar",
    "M4rie.Props.C71_addmul",
    "M4rie.Props.C71_mul",
    "M4rie.Props.C71_addmul_blm",
    "M4rie.Props.C71_mul_blm",
    "M4rie.Props.C71_violation_mul",
    "M4rie.Props.C71_violation_mul_blm",
    "M4rie.Props.C71_violation_addmul",
    "M4rie.Props.C71_dies"
   ],
   "note": "Model/OutputSlice: store of sliced matrices; in-place calls modelled step by step."
  },
  {
   "property": "C72",
   "status": "proved",
   "theorems": [
    "M4rie.Props.C72_call",
    "M4rie.Props.C72_program",
    "M4rie.Props.C72_safe",
    "M4rie.Props.C72_violation_add_offset"
   ],
   "note": "Refinement of a pool of polynomial objects to Mathlib matrices over (ZMod 2)[X], by induction on the program; _mzd_poly_addmul_crt (may not return, see C55) and products into an operand are not among the calls."
  },
  {
   "property": "C73",
   "status": "proved",
   "theorems": [
    "M4rie.Props.C73_alone",
    "M4rie.Props.C73_footprint",
    "M4rie.Props.C73_interleavings",
    "M4rie.Props.C73_deterministic",
    "M4rie.Props.C73_adaptive",
    "M4rie.Props.C73_any_code",
    "M4rie.Props.C73_rows_apart",
    "M4rie.Props.C73_windows_apart",
    "M4rie.Props.C73_same_word",
    "M4rie.Props.C73_parallel_mul",
    "M4rie.Props.C73_violation_neighbours"
   ],
   "note": "Calls as resumption programs over a memory of words (Model/Words); alone they equal the functional model (C73_alone), their footprint is as listed (C73_footprint), and programs with race-free footprints are insensitive to interleaving (induction over the schedule). M4RI's mzd_set_ui and mzd_row_swap enter by contract (effect and footprint), field tables and headers count as constants. Memory is sequentially consistent, which C11 guarantees for race-free programs. Functions not among the calls (Newton-John, Strassen, sliced) are covered by C69 only, where calls are atomic. Threads are lists of calls (C73_interleave) or programs choosing the next call by the results so far (C73_adaptive); C73_any_code is the general statement for any code with a known footprint."
  },
  {
   "property": "C74",
   "status": "proved",
   "theorems": [
    "M4rie.Props.C74_packed",
    "M4rie.Props.C74_packed_prob",
    "M4rie.Props.C74_slice",
    "M4rie.Props.C74_poly"
   ],
   "note": "Distributions are Mathlib's PMF. That random() and mzd_randomize (libc, M4RI) are uniform and independent is the hypothesis: the theorems map the uniform distribution on their values to the distribution of the matrix read back."
  },
  {
   "property": "C75",
   "status": "proved",
   "theorems": [
    "M4rie.Props.C75_slice_mul",
    "M4rie.Props.C75_slice_addmul",
    "M4rie.Props.C75_slice_naive",
    "M4rie.Props.C75_strassen_at_most",
    "M4rie.Props.C75_strassen_exact",
    "M4rie.Props.C75_mul",
    "M4rie.Props.C75_slice_blm",
    "M4rie.Props.C75_slice_blm_map",
    "M4rie.Props.C75_blm",
    "M4rie.Props.C75_poly_naive",
    "M4rie.Props.C75_poly_karatsuba",
    "M4rie.Props.C75_poly_blm",
    "M4rie.Props.C75_poly_crt",
    "M4rie.Props.C75_poly_ext1"
   ],
   "note": "The versions with a log (Model/Cost) are proved to compute the same result as the models without, so the log belongs to the modelled code. Products inside M4RI (mzd_mul's own Strassen) and inside _mzed_mul_newton_john are not counted: they are the unit."
  },
  {
   "property": "C76",
   "status": "proved",
   "theorems": [
    "M4rie.Props.C76_gf2e_init",
    "M4rie.Props.C76_violation_gf2e_init",
    "M4rie.Props.C76_crt_init",
    "M4rie.Props.C76_violation_crt_product",
    "M4rie.Props.C76_addmul_crt",
    "M4rie.Props.C76_addmul_ext1",
    "M4rie.Props.C76_call",
    "M4rie.Props.C76_program",
    "M4rie.Props.C76_safe"
   ],
   "note": ""
  },
  {
   "property": "C77",
   "status": "proved",
   "theorems": [
    "M4rie.Props.C77_contract",
    "M4rie.Props.C77_mzed_order",
    "M4rie.Props.C77_mzed",
    "M4rie.Props.C77_mzed_dims",
    "M4rie.Props.C77_slice",
    "M4rie.Props.C77_slice_fields",
    "M4rie.Props.C77_slice_dims",
    "M4rie.Props.C77_violation_slice",
    "M4rie.Props.C77_violation_representations",
    "M4rie.Props.C77_poly",
    "M4rie.Props.C77_violation_poly"
   ],
   "note": ""
  },
  {
   "property": "C78",
   "status": "proved",
   "theorems": [
    "M4rie.Props.C78_peak",
    "M4rie.Props.C78_slice_mul",
    "M4rie.Props.C78_slice_addmul",
    "M4rie.Props.C78_newton_john",
    "M4rie.Props.C78_strassen",
    "M4rie.Props.C78_strassen_small",
    "M4rie.Props.C78_strassen_exact",
    "M4rie.Props.C78_mul"
   ],
   "note": ""
  },
  {
   "property": "C79",
   "status": "proved",
   "theorems": [
    "M4rie.Props.C79_strassen",
    "M4rie.Props.C79_slice",
    "M4rie.Props.C79_mul"
   ],
   "note": ""
  },
  {
   "property": "C80",
   "status": "proved",
   "theorems": [
    "M4rie.Props.C80_ple",
    "M4rie.Props.C80_trsm_lower",
    "M4rie.Props.C80_trsm_upper",
    "M4rie.Props.C80_mul",
    "M4rie.Props.C80_mul_one_block",
    "M4rie.Props.C80_echelonize_at_most",
    "M4rie.Props.C80_echelonize_one_table",
    "M4rie.Props.C80_invert",
    "M4rie.Props.C80_violation",
    "M4rie.Props.C80_no_quadratic_bound"
   ],
   "note": "The promise of the README for the elimination with several tables is false: C80_violation, C80_no_quadratic_bound; the other theorems are the bounds that hold."
  },
  {
   "property": "C81",
   "status": "proved",
   "theorems": [
    "M4rie.Props.C81_lower",
    "M4rie.Props.C81_upper",
    "M4rie.Props.C81_slice_lower",
    "M4rie.Props.C81_slice_upper"
   ],
   "note": ""
  },
  {
   "property": "C82",
   "status": "proved",
   "theorems": [
    "M4rie.Props.C82_slice_ple",
    "M4rie.Props.C82_ple",
    "M4rie.Props.C82_slice_pluq",
    "M4rie.Props.C82_slice_echelonize_ple",
    "M4rie.Props.C82_echelonize_ple",
    "M4rie.Props.C82_echelonize"
   ],
   "note": ""
  },
  {
   "property": "C83",
   "status": "proved",
   "theorems": [
    "M4rie.Props.C83_slice_trsm",
    "M4rie.Props.C83_slice_trsm_direct",
    "M4rie.Props.C83_echelonize_newton_john",
    "M4rie.Props.C83_ple_newton_john",
    "M4rie.Props.C83_trsm_newton_john",
    "M4rie.Props.C83_invert",
    "M4rie.Props.C83_slice_ple",
    "M4rie.Props.C83_slice_pluq",
    "M4rie.Props.C83_ple",
    "M4rie.Props.C83_slice_echelonize_ple",
    "M4rie.Props.C83_echelonize_ple",
    "M4rie.Props.C83_note_slice",
    "M4rie.Props.C83_violation",
    "M4rie.Props.C83_echelonize",
    "M4rie.Props.C83_trsm",
    "M4rie.Props.C83_trsm_direct"
   ],
   "note": "One half of the note in echelonform.h is false: C83_violation."
  },
  {
   "property": "C84",
   "status": "proved",
   "theorems": [
    "M4rie.Props.C84_combine4",
    "M4rie.Props.C84_combine8",
    "M4rie.Props.C84_combine4_twice"
   ],
   "note": ""
  }
 ]
}