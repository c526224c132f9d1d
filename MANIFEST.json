{
 "claims": [
  {
   "property": "C01",
   "status": "proved",
   "theorems": [
    "Osl.OInt.int_add_cases",
    "Osl.OInt.int_add_si_cases",
    "Osl.OInt.int_add_min_violates",
    "Osl.OInt.int_add_never_wrong",
    "Osl.OInt.int_add_si_min_violates",
    "Osl.OInt.int_increment_exact_or_error"
   ],
   "note": "int_add_cases and int_add_si_cases decide every case. The ideal (exact or error, without exception) is refuted by int_add_min_violates and int_add_si_min_violates."
  },
  {
   "property": "C02",
   "status": "proved",
   "theorems": [
    "Osl.OInt.int_sub_cases",
    "Osl.OInt.int_sub_min_violates"
   ],
   "note": "int_sub_cases decides every case. The ideal (exact or error) is refuted by int_sub_min_violates."
  },
  {
   "property": "C03",
   "status": "proved",
   "theorems": [
    "Osl.OInt.int_mul_cases",
    "Osl.OInt.int_mul_exact",
    "Osl.OInt.int_mul_overflow_is_ub",
    "Osl.OInt.int_mul_violates",
    "Osl.OInt.int_mul_never_wrong",
    "Osl.OInt.int_mul_si_eq_mul"
   ],
   "note": "int_mul_cases decides every case. The ideal (exact or error, without undefined behaviour) is refuted by int_mul_violates: the guard multiplies first."
  },
  {
   "property": "C04",
   "status": "proved",
   "theorems": [
    "Osl.OInt.int_floor_div_q_cases",
    "Osl.OInt.int_floor_div_r_cases",
    "Osl.OInt.int_floor_div_q_correct",
    "Osl.OInt.floorQR_unique",
    "Osl.OInt.int_floor_div_r_correct_wrapv",
    "Osl.OInt.int_floor_div_r_violates",
    "Osl.OInt.int_floor_div_zero"
   ],
   "note": "int_floor_div_q_cases and int_floor_div_r_cases decide every case in ISO C, int_floor_div_r_correct_wrapv covers wrapping arithmetic. The ideal (the remainder is always stored) is refuted by int_floor_div_r_violates."
  },
  {
   "property": "C05",
   "status": "proved",
   "theorems": [
    "Osl.OInt.int_mod_cases",
    "Osl.OInt.int_divisible_cases",
    "Osl.OInt.int_div_exact_cases",
    "Osl.OInt.int_mod_violates",
    "Osl.OInt.int_divisible_iff",
    "Osl.OInt.int_divisible_min_ub",
    "Osl.OInt.int_div_exact_correct"
   ],
   "note": "The three _cases theorems decide every case. The ideal (no undefined case for non-zero divisors) is refuted by int_mod_violates and int_divisible_min_ub."
  },
  {
   "property": "C06",
   "status": "proved",
   "theorems": [
    "Osl.OInt.llgcd_cases",
    "Osl.OInt.int_gcd_cases",
    "Osl.OInt.int_lcm_cases",
    "Osl.OInt.llgcd_correct",
    "Osl.OInt.int_gcd_violates"
   ],
   "note": "int_gcd_cases and int_lcm_cases decide every case. The ideal (undefined only when the result does not fit) is refuted by int_gcd_violates."
  },
  {
   "property": "C07",
   "status": "proved",
   "theorems": [
    "Osl.OInt.int_order_cases",
    "Osl.OInt.int_tests_correct",
    "Osl.OInt.int_order_violates_32bit_long"
   ],
   "note": "int_order_cases decides every case. The ideal (the order of the values everywhere) is refuted by int_order_violates_32bit_long."
  },
  {
   "property": "C08",
   "status": "proved",
   "theorems": [
    "Osl.OInt.int_set_precision_cases",
    "Osl.OInt.int_set_precision_debug",
    "Osl.OInt.int_set_precision_violates",
    "Osl.OInt.int_init_set_long_mp_ub",
    "Osl.OInt.int_get_si_exact",
    "Osl.OInt.int_get_long_long_violates_32bit_long",
    "Osl.Rel.relation_set_precision_preserves",
    "Osl.Rel.relation_set_precision_succeeds",
    "Osl.Rel.relation_set_same_precision"
   ],
   "note": "int_set_precision_cases decides every case. The ideal (never another value) is refuted by int_set_precision_violates in NDEBUG builds."
  },
  {
   "property": "C09",
   "status": "proved",
   "theorems": [
    "Osl.OInt.int_oppose_abs_cases",
    "Osl.OInt.int_size_min_ub",
    "Osl.OInt.int_increment_exact_or_error",
    "Osl.OInt.int_oppose_abs_correct",
    "Osl.OInt.int_oppose_abs_min_ub",
    "Osl.OInt.int_assign_swap_correct",
    "Osl.OInt.int_size_in_base_2_correct",
    "Osl.OInt.int_size_in_base_10_correct"
   ],
   "note": "Every case: int_oppose_abs_cases, int_size_min_ub with the size theorems."
  },
  {
   "property": "C11",
   "status": "proved",
   "theorems": [
    "Osl.Vec.vector_add_sub_incompatible",
    "Osl.Vec.vector_add_correct",
    "Osl.Vec.vector_sub_correct",
    "Osl.Vec.vector_add_never_wrong",
    "Osl.Vec.vector_add_scalar_correct",
    "Osl.Vec.vector_add_scalar_short",
    "Osl.Vec.vector_mul_scalar_correct",
    "Osl.Vec.vector_tag_correct",
    "Osl.Vec.vector_tag_empty",
    "Osl.Vec.vector_equal_iff",
    "Osl.Vec.vector_equal_null",
    "Osl.Vec.vector_is_scalar_iff"
   ],
   "note": ""
  },
  {
   "property": "C12",
   "status": "proved",
   "theorems": [
    "Osl.Rel.relation_clone_equal",
    "Osl.Rel.relation_nclone_prefix",
    "Osl.Rel.relation_clone_nconstraints_prefix"
   ],
   "note": ""
  },
  {
   "property": "C13",
   "status": "proved",
   "theorems": [
    "Osl.Rel.relation_equal_iff",
    "Osl.Rel.relation_equal_equivalence"
   ],
   "note": ""
  },
  {
   "property": "C14",
   "status": "proved",
   "theorems": [
    "Osl.Rel.relation_union_mem",
    "Osl.Rel.relation_add_parts"
   ],
   "note": ""
  },
  {
   "property": "C15",
   "status": "proved",
   "theorems": [
    "Osl.Rel.relation_insert_constraints_intersects",
    "Osl.Rel.relation_insert_constraints_error",
    "Osl.Rel.relation_insert_vector_intersects",
    "Osl.Rel.relation_concat_constraints_intersects",
    "Osl.Rel.relation_concat_vector_intersects",
    "Osl.Rel.relation_concat_constraints_null",
    "Osl.Rel.relation_concat_constraints_error",
    "Osl.Rel.relation_concat_constraints_error_prec"
   ],
   "note": "Only the first union part is concerned, as in the code."
  },
  {
   "property": "C16",
   "status": "proved",
   "theorems": [
    "Osl.Rel.relation_swap_constraints",
    "Osl.Rel.relation_insert_blank_row",
    "Osl.Rel.relation_remove_row",
    "Osl.Rel.relation_row_errors"
   ],
   "note": ""
  },
  {
   "property": "C17",
   "status": "proved",
   "theorems": [
    "Osl.Rel.relation_add_vector_sound",
    "Osl.Rel.relation_sub_vector_sound",
    "Osl.Rel.relation_sub_vector_inequality_unsound",
    "Osl.Rel.relation_combine_error"
   ],
   "note": "Soundness when the additions do not overflow; the subtraction of an inequality is unsound (witness), as the statement excludes it."
  },
  {
   "property": "C18",
   "status": "proved",
   "theorems": [
    "Osl.Rel.relation_insert_blank_column",
    "Osl.Rel.relation_remove_inserted_column",
    "Osl.Rel.relation_remove_column",
    "Osl.Rel.relation_insert_columns",
    "Osl.Rel.relation_column_errors",
    "Osl.Rel.relation_insert_blank_column_0",
    "Osl.Rel.relation_insert_blank_column_attributes"
   ],
   "note": ""
  },
  {
   "property": "C19",
   "status": "proved",
   "theorems": [
    "Osl.Rel.relation_step_shape",
    "Osl.Rel.relation_history_shape",
    "Osl.Rel.relation_pmalloc_shape",
    "Osl.Rel.relation_step_in_bounds",
    "Osl.Rel.relation_add_vector_no_column_ub"
   ],
   "note": ""
  },
  {
   "property": "C20",
   "status": "proved",
   "theorems": [
    "Osl.Rel.relation_extend_output_mem",
    "Osl.Rel.relation_extend_output_error",
    "Osl.Rel.relation_extend_output_null"
   ],
   "note": ""
  },
  {
   "property": "C21",
   "status": "proved",
   "theorems": [
    "Osl.Rel.relation_get_array_id_iff",
    "Osl.Rel.relation_get_array_id_not_access",
    "Osl.Rel.relation_array_id_points",
    "Osl.Rel.isAccessPart_iff"
   ],
   "note": "Entries in the C int range (the code narrows to int)."
  },
  {
   "property": "C22",
   "status": "proved",
   "theorems": [
    "Osl.RList.list_integrity_check_iff",
    "Osl.Rel.relation_integrity_check_iff",
    "Osl.Rel.relation_integrity_check_null",
    "Osl.Rel.relation_integrity_sound_uniform",
    "Osl.Rel.relation_integrity_accepts_mixed_types",
    "Osl.Rel.relation_integrity_accepts_unknown_locals",
    "Osl.Rel.relation_integrity_accepts_negative_dims"
   ],
   "note": "Both answers are characterised exactly. The ideal (no malformed relation is accepted) is refuted: unions with mixed part types, later parts with unknown local dimensions and negative dimensions are accepted."
  },
  {
   "property": "C23",
   "status": "proved",
   "theorems": [
    "Osl.RList.list_get_attributes_monotone",
    "Osl.RList.list_get_attributes_lub",
    "Osl.Rel.relation_get_attributes_lub",
    "Osl.Rel.relation_get_attributes_monotone",
    "Osl.Stmts.statement_get_attributes_lub",
    "Osl.Scops.scop_get_attributes_lub"
   ],
   "note": "Relations, relation lists, statements and scops."
  },
  {
   "property": "C10",
   "status": "proved",
   "theorems": [
    "Osl.OInt.int_text_round_trip",
    "Osl.OInt.int_sprint_width",
    "Osl.OInt.int_sprint_injective",
    "Osl.OInt.int_sread_letters",
    "Osl.OInt.int_sread_position_violates",
    "Osl.OInt.int_sread_eof_unreported"
   ],
   "note": "The round trip holds for all values. Findings beyond the statement: the position after the number moves by one character only, and the end of input is not reported."
  },
  {
   "property": "C24",
   "status": "proved",
   "theorems": [
    "Osl.Rel.relation_text_round_trip_untyped",
    "Osl.Rel.relation_sread_sprint",
    "Osl.Rel.relation_sread_union_violates",
    "Osl.Rel.relation_file_round_trip",
    "Osl.Rel.relation_read_print",
    "Osl.Rel.relation_sread_truncated_violates",
    "Osl.Rel.relation_print_read",
    "Osl.Rel.relation_print_sread"
   ],
   "note": "Exact results for both readers. The ideal (an equal relation in all cases) is refuted for strings by relation_sread_union_violates, for all unions with a typed later part. relation_print_read and relation_print_sread do not suppose that printing succeeds: the rows have to fit in the buffers (C59)."
  },
  {
   "property": "C25",
   "status": "proved",
   "theorems": [
    "Osl.RList.list_pop_push",
    "Osl.RList.list_push_null",
    "Osl.RList.list_push_pop",
    "Osl.RList.list_push_tail_lost",
    "Osl.RList.list_dup",
    "Osl.RList.list_drop",
    "Osl.RList.list_destroy",
    "Osl.RList.list_stack_refinement"
   ],
   "note": "Stack refinement for all histories. The ideal for lists of several nodes (all are pushed) is refuted, for all of them, by list_push_tail_lost."
  },
  {
   "property": "C26",
   "status": "proved",
   "theorems": [
    "Osl.RList.list_clone_equal",
    "Osl.RList.list_equal_iff",
    "Osl.RList.list_concat",
    "Osl.RList.list_node",
    "Osl.RList.list_count",
    "Osl.RList.list_filter",
    "Osl.RList.list_filter_count"
   ],
   "note": ""
  },
  {
   "property": "C27",
   "status": "proved",
   "theorems": [
    "Osl.Rel.relation_set_type",
    "Osl.Rel.relation_set_type_mem",
    "Osl.Rel.relation_set_attributes",
    "Osl.RList.list_set_type_first_parts",
    "Osl.RList.list_set_type_violates"
   ],
   "note": "Exact. The ideal (every part of every relation of a list) is refuted by list_set_type_violates."
  },
  {
   "property": "C28",
   "status": "proved",
   "theorems": [
    "Osl.Strings.strings_generate_cases",
    "Osl.Strings.strings_add_strings_cases",
    "Osl.Strings.strings_generate_correct",
    "Osl.Strings.strings_generate_negative_violates",
    "Osl.Strings.strings_generate_nodup",
    "Osl.Strings.strings_find_correct",
    "Osl.Strings.strings_add_correct",
    "Osl.Strings.strings_equal_iff",
    "Osl.Strings.strings_equal_equivalence",
    "Osl.Strings.strings_clone_equal",
    "Osl.Strings.strings_encapsulate",
    "Osl.Strings.strings_add_strings_violates"
   ],
   "note": "strings_generate_cases and strings_add_strings_cases decide every case. The ideal (defined for all arguments) is refuted by the _violates theorems."
  },
  {
   "property": "C29",
   "status": "proved",
   "theorems": [
    "Osl.Strings.strings_text_round_trip_iff",
    "Osl.Strings.strings_text_round_trip",
    "Osl.Strings.strings_sread_comment",
    "Osl.Strings.strings_text_empty_violates",
    "Osl.Strings.strings_sread_double_blank_violates",
    "Osl.Strings.strings_sread_position_violates"
   ],
   "note": "strings_text_round_trip_iff decides every array of words. The other theorems show what the reader does with comments, several blanks (an empty string) and the position."
  },
  {
   "property": "C30",
   "status": "proved",
   "theorems": [
    "Osl.Util.safe_strcat_correct",
    "Osl.Util.safe_strcat_history",
    "Osl.Util.emit_eq"
   ],
   "note": ""
  },
  {
   "property": "C31",
   "status": "proved",
   "theorems": [
    "Osl.Util.tag_content_cases",
    "Osl.Util.read_uptoflag_correct",
    "Osl.Util.read_uptoflag_first",
    "Osl.Util.read_uptoendtag_first",
    "Osl.Util.read_uptotag_first",
    "Osl.Util.read_uptoflag_empty_violates",
    "Osl.Util.tag_content_correct",
    "Osl.Util.tag_content_absent",
    "Osl.Util.tag_content_violates",
    "Osl.Util.tag_content_empty_violates"
   ],
   "note": "tag_content_cases decides every input. The ideal (the whole enclosed text) is refuted by tag_content_violates and tag_content_empty_violates."
  },
  {
   "property": "C32",
   "status": "proved",
   "theorems": [
    "Osl.Util.identifier_substitution_correct",
    "Osl.Util.SubstSpec.unique",
    "Osl.Util.identifier_substitution_empty_diverges"
   ],
   "note": ""
  },
  {
   "property": "C43",
   "status": "proved",
   "theorems": [
    "Osl.Names.names_generate_correct",
    "Osl.Names.prefix_number_injective",
    "Osl.Names.names_generate_distinct",
    "Osl.Names.names_generate_distinct_violates",
    "Osl.Names.names_clone_equal"
   ],
   "note": "The witness shows why a prefix must not end with a digit."
  },
  {
   "property": "C33",
   "status": "proved",
   "theorems": [
    "Osl.Ifaces.interface_add_cases",
    "Osl.Scops.scop_register_extension_cases",
    "Osl.Scops.scop_register_extension_violates",
    "Osl.Ifaces.interface_lookup_correct",
    "Osl.Ifaces.interface_add_correct",
    "Osl.Ifaces.interface_history_unique",
    "Osl.Ifaces.interface_add_list_violates",
    "Osl.Ifaces.default_registry_correct",
    "Osl.Ifaces.default_registry_lookup",
    "Osl.Ifaces.interface_clone_correct",
    "Osl.Ifaces.interface_equal_iff"
   ],
   "note": "interface_add_cases and scop_register_extension_cases decide every case. The ideal (URIs always stay unique) is refuted by interface_add_list_violates: a list holding the same URI twice is accepted."
  },
  {
   "property": "C34",
   "status": "proved",
   "theorems": [
    "Osl.GList.generic_add_cases",
    "Osl.GList.generic_lookup_correct",
    "Osl.GList.generic_add_correct",
    "Osl.GList.generic_remove_correct",
    "Osl.GList.generic_history_map",
    "Osl.GList.generic_add_null_violates",
    "Osl.GList.generic_add_list_violates",
    "Osl.GList.generic_count_correct"
   ],
   "note": "generic_add_cases decides every addition; refinement to a map for all histories. The ideal (the list never holds two entries of one URI) is refuted by generic_add_null_violates and generic_add_list_violates."
  },
  {
   "property": "C35",
   "status": "proved",
   "theorems": [
    "Osl.GList.generic_equal_correct",
    "Osl.GList.generic_equal_order",
    "Osl.GList.generic_equal_refl",
    "Osl.GList.generic_equal_symm",
    "Osl.GList.generic_clone_correct",
    "Osl.GList.generic_equal_dup_violates"
   ],
   "note": "Reflexivity and symmetry are relative to those of the equality functions of the extensions, which are arbitrary."
  },
  {
   "property": "C36",
   "status": "proved",
   "theorems": [
    "Osl.GList.generic_text_round_trip",
    "Osl.GList.generic_sprint_text",
    "Osl.GList.tags_text",
    "Osl.GList.generic_unknown_skipped",
    "Osl.GList.generic_end_tag_violates",
    "Osl.GList.generic_digit_uri_violates"
   ],
   "note": "For extensions whose own reader inverts their printer, as the statement says, with contents free of their end tag and URIs made of letters and underscores (witnesses show that these are needed)."
  },
  {
   "property": "C37",
   "status": "proved",
   "theorems": [
    "Osl.Stmts.statement_dispatch_correct"
   ],
   "note": "Exact: an error if and only if two domains, two scatterings or an unexpected type; otherwise everything is in its place and nothing is lost."
  },
  {
   "property": "C38",
   "status": "proved",
   "theorems": [
    "Osl.Stmts.statement_remove_unions_product",
    "Osl.Stmts.statement_remove_unions_executes",
    "Osl.Stmts.statement_remove_unions_null"
   ],
   "note": ""
  },
  {
   "property": "C39",
   "status": "proved",
   "theorems": [
    "Osl.Scops.scop_remove_unions_kept",
    "Osl.Scops.scop_remove_unions_one_part",
    "Osl.Scops.scop_remove_unions_violates"
   ],
   "note": "The result is characterised exactly. The ideal (the expansion of every statement) is refuted by scop_remove_unions_violates: statements are lost."
  },
  {
   "property": "C40",
   "status": "proved",
   "theorems": [
    "Osl.Scops.scop_normalize_scattering_error",
    "Osl.Scops.scop_normalize_scattering_correct",
    "Osl.Scops.zero_padding_order",
    "Osl.Scops.scop_normalize_null",
    "Osl.Scops.scop_normalize_later_part_violates"
   ],
   "note": "scop_normalize_scattering_correct and scop_normalize_scattering_error decide every case. The ideal (it succeeds on all of them) is refuted by scop_normalize_later_part_violates."
  },
  {
   "property": "C41",
   "status": "proved",
   "theorems": [
    "Osl.Scops.scop_equal_cases",
    "Osl.Stmts.statement_equal_correct",
    "Osl.Stmts.statement_equal_null_violates",
    "Osl.Stmts.statement_clone_equal",
    "Osl.Stmts.statement_nclone_prefix",
    "Osl.Stmts.statement_add_number",
    "Osl.Stmts.statement_get_body_correct",
    "Osl.Scops.scop_equal_correct",
    "Osl.Scops.scop_clone_equal",
    "Osl.Scops.scop_equal_violates",
    "Osl.Scops.scop_add_number",
    "Osl.Data.scop_default_clone",
    "Osl.scop_region_clone_violates"
   ],
   "note": "statement_equal_correct with statement_equal_null_violates, and scop_equal_cases, decide every case. The ideal (defined everywhere, the whole registries compared) is refuted by scop_equal_violates; scop_region_clone_violates shows an extension whose equality does not answer."
  },
  {
   "property": "C42",
   "status": "proved",
   "theorems": [
    "Osl.Scops.scop_integrity_sound",
    "Osl.Scops.scop_integrity_check_iff",
    "Osl.Stmts.statement_integrity_check_iff"
   ],
   "note": ""
  },
  {
   "property": "C44",
   "status": "proved",
   "theorems": [
    "Osl.Ext.Arrays.arrays_equal_iff",
    "Osl.Ext.Arrays.arrays_to_strings_cases",
    "Osl.Ext.Arrays.arrays_add_correct",
    "Osl.Ext.Arrays.arrays_get_index_from_id_correct",
    "Osl.Ext.Arrays.arrays_get_index_from_name_correct",
    "Osl.Ext.Arrays.arrays_get_index_null",
    "Osl.Ext.Arrays.arrays_to_strings_correct",
    "Osl.Ext.Arrays.arrays_to_strings_name",
    "Osl.Ext.Arrays.arrays_to_strings_violates",
    "Osl.Ext.Arrays.arrays_text_round_trip",
    "Osl.Ext.Arrays.arrays_text_violates",
    "Osl.Ext.Arrays.arrays_clone_eq",
    "Osl.Ext.Arrays.arrays_equal_nodup",
    "Osl.Ext.Arrays.arrays_equal_violates"
   ],
   "note": "Exact: arrays_equal_iff and arrays_to_strings_cases decide every case. The ideal (equality independent of the order of the arguments, defined for all identifiers, all names read back) is refuted by the _violates theorems."
  },
  {
   "property": "C45",
   "status": "proved",
   "theorems": [
    "Osl.Body.sread_text_exact",
    "Osl.Body.body_text_round_trip",
    "Osl.Body.body_text_several_violates",
    "Osl.Body.body_text_hash_violates",
    "Osl.Body.body_text_null_violates",
    "Osl.Ext.textual_text_violates",
    "Osl.Ext.textual_clone_sread",
    "Osl.Ext.comment_text_round_trip",
    "Osl.Ext.comment_text_newline_violates",
    "Osl.Ext.comment_sprint_long_violates",
    "Osl.Ext.comment_position_violates",
    "Osl.Ext.clay_text_round_trip",
    "Osl.Ext.clay_text_violates",
    "Osl.Ext.coordinates_text_round_trip",
    "Osl.Ext.coordinates_text_hash_violates",
    "Osl.Ext.annotation_text_round_trip",
    "Osl.Ext.annotation_text_hash_violates",
    "Osl.Ext.annotation_null_violates",
    "Osl.Ext.region_text_round_trip",
    "Osl.Ext.region_negative_count_violates",
    "Osl.Ext.unroll_text_round_trip",
    "Osl.Ext.unroll_sprint_long_violates",
    "Osl.Ext.unroll_factor_violates",
    "Osl.Ext.extbody_text_round_trip",
    "Osl.Ext.extbody_null_body_violates",
    "Osl.Ext.scatnames_text_round_trip",
    "Osl.Ext.scatnames_text_violates",
    "Osl.Ext.Arrays.arrays_text_round_trip",
    "Osl.Ext.Loop.loop_text_round_trip",
    "Osl.Ext.Loop.loop_directive_text",
    "Osl.Ext.Loop.loop_text_null_violates",
    "Osl.Ext.Scatinfos.scatinfos_text_exact",
    "Osl.Ext.Scatinfos.scatinfos_text_round_trip"
   ],
   "note": "The conditions are the Textable structures. For contents outside of them the _violates theorems show what is lost; the ideal (every content) is false."
  },
  {
   "property": "C46",
   "status": "proved",
   "theorems": [
    "Osl.Ext.textual_equal_always",
    "Osl.Ext.Arrays.arrays_equal_iff",
    "Osl.Body.body_equal_iff",
    "Osl.Body.body_equal_equivalence",
    "Osl.Body.body_clone_equal",
    "Osl.Ext.textual_equal_violates",
    "Osl.Ext.comment_equal_violates",
    "Osl.Ext.comment_equal_always",
    "Osl.Ext.comment_clone",
    "Osl.Ext.clay_equal_decides",
    "Osl.Ext.clay_equal_null_violates",
    "Osl.Ext.clay_clone_equal",
    "Osl.Ext.null_correct",
    "Osl.Ext.coordinates_equal_decides",
    "Osl.Ext.coordinates_equal_null_violates",
    "Osl.Ext.coordinates_clone_equal",
    "Osl.Ext.annotation_equal_decides",
    "Osl.Ext.annotation_clone_equal",
    "Osl.Ext.annotation_append",
    "Osl.Ext.region_clone_eq",
    "Osl.Ext.region_equal_one_iff",
    "Osl.Ext.region_equal_never_true",
    "Osl.Ext.region_equal_violates",
    "Osl.Ext.region_equal_different",
    "Osl.Ext.unroll_equal_iff",
    "Osl.Ext.unroll_equal_decides",
    "Osl.Ext.unroll_clone_eq",
    "Osl.Ext.unroll_clone_equal",
    "Osl.Ext.extbody_equal_iff",
    "Osl.Ext.extbody_equal_nodup",
    "Osl.Ext.extbody_equal_violates",
    "Osl.Ext.extbody_equal_refl",
    "Osl.Ext.extbody_clone_equal",
    "Osl.Ext.extbody_add",
    "Osl.Ext.scatnames_equal_decides",
    "Osl.Ext.scatnames_clone_equal",
    "Osl.Ext.Arrays.arrays_equal_nodup",
    "Osl.Ext.Arrays.arrays_equal_violates",
    "Osl.Ext.Dep.dependence_equal_correct",
    "Osl.Ext.Dep.dependence_equal_null_violates",
    "Osl.Ext.Loop.loop_equal_iff",
    "Osl.Ext.Loop.loop_equal_symm",
    "Osl.Ext.Loop.loop_equal_violates",
    "Osl.Ext.Loop.loop_clone_equal",
    "Osl.Ext.Loop.loop_add_count",
    "Osl.Ext.Scatinfos.scatinfos_equal_decides",
    "Osl.Ext.Scatinfos.scatinfos_clone_equal"
   ],
   "note": "Exact answers for every extension. The ideal (each one is an equivalence which distinguishes contents) is refuted for textual, comment, region, arrays, extbody and loop by the _violates theorems."
  },
  {
   "property": "C47",
   "status": "proved",
   "theorems": [
    "Osl.Ext.Dep.dependence_add_cases",
    "Osl.Ext.Dep.dependence_equal_null_violates",
    "Osl.Ext.Dep.dependence_add_correct",
    "Osl.Ext.Dep.dependence_add_history",
    "Osl.Ext.Dep.dependence_add_violates",
    "Osl.Ext.Dep.dependence_nb_correct",
    "Osl.Ext.Dep.dependence_clone_equal",
    "Osl.Ext.Dep.dependence_text_round_trip",
    "Osl.Ext.Dep.dependence_type_violates",
    "Osl.Ext.Dep.dependence_null_domain_violates",
    "Osl.Ext.Dep.dependence_equal_correct"
   ],
   "note": "dependence_add_cases decides every addition. The ideal (add always appends) is refuted by dependence_add_violates; dependence_null_domain_violates shows a domain which cannot be read back."
  },
  {
   "property": "C48",
   "status": "proved",
   "theorems": [
    "Osl.RList.list_text_round_trip",
    "Osl.RList.list_text_back",
    "Osl.Stmts.statement_text_round_trip",
    "Osl.Stmts.statement_text_exact",
    "Osl.Scops.scop_text_round_trip",
    "Osl.default_registry_eq",
    "Osl.Data.plain_back",
    "Osl.Data.scop_default_text",
    "Osl.scop_default_text_symbols"
   ],
   "note": "First for every registry and every behaviour of the extensions (TextScop, TextStmt, TextRel), then for the default registry with the models of its 18 extensions, without hypothesis on their functions (Data.PlainScop: conditions on the contents only); a file with two scops holding relations, a body, a comment, arrays, coordinates and symbols is shown to meet the hypotheses."
  },
  {
   "property": "C49",
   "status": "proved",
   "theorems": [
    "Osl.Ext.Symbol.symbols_equal_first",
    "Osl.Ext.Symbol.symbols_add_number",
    "Osl.Ext.Symbol.symbols_nclone_correct",
    "Osl.Ext.Symbol.symbols_clone_equal",
    "Osl.Ext.Symbol.symbols_equal_one",
    "Osl.Ext.Symbol.symbols_equal_violates",
    "Osl.Ext.Symbol.symbols_text_back",
    "Osl.Ext.Symbol.symbols_sread_long_violates",
    "Osl.Ext.Symbol.symbols_text_null_violates"
   ],
   "note": "Exact. The ideal (equality of the whole lists; all texts read back) is refuted by symbols_equal_violates, symbols_sread_long_violates and symbols_text_null_violates."
  },
  {
   "property": "C50",
   "status": "proved",
   "theorems": [
    "Osl.Mem.relation_free_memory",
    "Osl.Mem.relation_pmalloc_memory",
    "Osl.Mem.relation_clone_memory",
    "Osl.Mem.relation_nclone_memory",
    "Osl.Mem.relation_clone_nconstraints_memory",
    "Osl.Mem.relation_add_memory",
    "Osl.Mem.relation_union_memory",
    "Osl.Mem.relation_union_same_memory",
    "Osl.Mem.relation_insert_constraints_memory",
    "Osl.Mem.relation_insert_constraints_same_memory",
    "Osl.Mem.relation_insert_blank_column_memory",
    "Osl.Mem.relation_remove_row_memory",
    "Osl.Mem.relation_remove_column_memory",
    "Osl.Mem.relation_insert_columns_memory",
    "Osl.Mem.relation_concat_constraints_memory",
    "Osl.Mem.relation_remove_part_memory",
    "Osl.Mem.relation_remove_first_part_leaks",
    "Osl.Mem.relation_free_no_leak",
    "Osl.Mem.relation_clone_free",
    "Osl.Mem.relAt_exists",
    "Osl.Mem.relation_add_self_violates",
    "Osl.Mem.relation_remove_part_leak",
    "Osl.Mem.relation_double_free_ub"
   ],
   "note": "Separation logic on an explicit heap with an arbitrary allocator. The ideal (no leak in remove_part, any arguments of osl_relation_add) is refuted: relation_remove_first_part_leaks for every relation, and relation_add_self_violates (a relation added to itself becomes a cycle which cannot be freed)."
  },
  {
   "property": "C51",
   "status": "proved",
   "theorems": [
    "Osl.Mem.list_free_memory",
    "Osl.Mem.list_node_memory",
    "Osl.Mem.list_clone_memory",
    "Osl.Mem.list_add_memory",
    "Osl.Mem.list_concat_memory",
    "Osl.Mem.list_concat_same_memory",
    "Osl.Mem.list_push_memory",
    "Osl.Mem.list_push_leaks",
    "Osl.Mem.list_push_leak",
    "Osl.Mem.list_push_null_memory",
    "Osl.Mem.list_pop_memory",
    "Osl.Mem.list_dup_memory",
    "Osl.Mem.list_drop_memory",
    "Osl.Mem.list_destroy_memory",
    "Osl.Mem.list_set_type_memory",
    "Osl.Mem.list_filter_memory",
    "Osl.Mem.list_count_memory",
    "Osl.Mem.rlistAt_exists",
    "Osl.Mem.list_cycle_ub"
   ],
   "note": "Exact for every function. The ideal (push loses no node) is refuted, for every list of several nodes, by list_push_leaks."
  },
  {
   "property": "C52",
   "status": "proved",
   "theorems": [
    "Osl.Mem.strings_free_memory",
    "Osl.Mem.strings_size_memory",
    "Osl.Mem.strings_clone_memory",
    "Osl.Mem.strings_add_memory",
    "Osl.Mem.strings_encapsulate_memory",
    "Osl.Mem.strings_generate_memory",
    "Osl.Mem.strings_add_strings_memory",
    "Osl.Mem.strings_add_strings_same_memory",
    "Osl.Mem.names_free_memory",
    "Osl.Mem.names_clone_memory",
    "Osl.Mem.names_generate_memory",
    "Osl.Mem.stringsAt_exists",
    "Osl.Mem.strings_encapsulate_double_free",
    "Osl.Mem.strings_add_strings_leak"
   ],
   "note": "The heap model of strings.c and names.c; the last two theorems show misuses."
  },
  {
   "property": "C53",
   "status": "proved",
   "theorems": [
    "Osl.Mem.interface_free_memory",
    "Osl.Mem.interface_number_memory",
    "Osl.Mem.interface_lookup_memory",
    "Osl.Mem.interface_lookup_null",
    "Osl.Mem.interface_add_memory",
    "Osl.Mem.interface_nclone_memory",
    "Osl.Mem.interface_clone_memory",
    "Osl.Mem.interface_equal_memory",
    "Osl.Mem.default_registry_memory",
    "Osl.Mem.generic_free_memory",
    "Osl.Mem.generic_count_memory",
    "Osl.Mem.generic_lookup_memory",
    "Osl.Mem.generic_lookup_null",
    "Osl.Mem.generic_add_memory",
    "Osl.Mem.generic_remove_node_memory",
    "Osl.Mem.generic_remove_memory",
    "Osl.Mem.generic_shell_memory",
    "Osl.Mem.generic_nclone_memory",
    "Osl.Mem.generic_clone_memory",
    "Osl.Mem.ifacesAt_exists",
    "Osl.Mem.glistAt_exists",
    "Osl.Mem.generic_shell_double_free",
    "Osl.Mem.generic_unregistered_leak",
    "Osl.Mem.generic_add_double_free"
   ],
   "note": "The heap model of interface.c and generic.c, except the readers and printers; the data are any structure with a description of its free and clone functions (DataMem); the last three theorems show misuses."
  },
  {
   "property": "C54",
   "status": "proved",
   "theorems": [
    "Osl.Mem.statement_free_memory",
    "Osl.Mem.statement_add_memory",
    "Osl.Mem.statement_number_memory",
    "Osl.Mem.statement_nclone_memory",
    "Osl.Mem.statement_clone_memory",
    "Osl.Mem.statement_remove_unions_memory",
    "Osl.Mem.statement_remove_unions_null",
    "Osl.Mem.statement_dispatch_memory",
    "Osl.Mem.stmtsAt_exists"
   ],
   "note": "The heap model of statement.c, except the readers and printers; the data of the extensions are any structure with a description of its free and clone functions (DataMem)."
  },
  {
   "property": "C55",
   "status": "proved",
   "theorems": [
    "Osl.Mem.scop_free_memory",
    "Osl.Mem.scop_add_memory",
    "Osl.Mem.scop_number_memory",
    "Osl.Mem.scop_clone_memory",
    "Osl.Mem.scop_normalize_scattering_memory",
    "Osl.Mem.relation_extend_output_memory",
    "Osl.Mem.scop_remove_unions_memory",
    "Osl.Mem.scop_remove_unions_no_leak",
    "Osl.Mem.scopsAt_exists",
    "Osl.Mem.scop_remove_unions_leak",
    "Osl.Mem.scop_add_double_free"
   ],
   "note": "Exact for every function. The ideal (remove_unions loses no memory) is refuted by scop_remove_unions_memory and scop_remove_unions_leak."
  },
  {
   "property": "C56",
   "status": "proved",
   "theorems": [
    "Osl.Mem.data_free_memory",
    "Osl.Mem.data_clone_memory",
    "Osl.Mem.body_free_memory",
    "Osl.Mem.body_clone_memory",
    "Osl.Mem.extbody_add_memory",
    "Osl.Mem.arrays_add_memory",
    "Osl.Mem.annotation_append_prefix_memory",
    "Osl.Mem.annotation_append_suffix_memory",
    "Osl.Mem.region_free_memory",
    "Osl.Mem.region_clone_memory",
    "Osl.Mem.region_count_memory",
    "Osl.Mem.loop_free_memory",
    "Osl.Mem.loop_clone_memory",
    "Osl.Mem.loop_add_memory",
    "Osl.Mem.loop_count_memory",
    "Osl.Mem.dependence_free_memory",
    "Osl.Mem.dependence_clone_memory",
    "Osl.Mem.dependence_count_memory",
    "Osl.Mem.dependence_add_memory",
    "Osl.Mem.unroll_free_memory",
    "Osl.Mem.unroll_clone_memory",
    "Osl.Mem.symbols_free_memory",
    "Osl.Mem.symbols_add_memory",
    "Osl.Mem.symbols_count_memory",
    "Osl.Mem.symbols_nclone_memory",
    "Osl.Mem.symbols_clone_memory",
    "Osl.Mem.memAt_fns",
    "Osl.Mem.lib_generic_free_memory",
    "Osl.Mem.lib_generic_clone_memory",
    "Osl.Mem.lib_statement_free_memory",
    "Osl.Mem.lib_statement_clone_memory",
    "Osl.Mem.lib_scop_free_memory",
    "Osl.Mem.lib_scop_clone_memory",
    "Osl.Mem.lib_scop_remove_unions_memory",
    "Osl.Mem.lib_scop_copy_outlives",
    "Osl.Mem.libScopsAt_exists",
    "Osl.Mem.annotation_free_null",
    "Osl.Mem.annotation_append_double_free",
    "Osl.Mem.generic_wrong_kind_undefined"
   ],
   "note": "The heap model of the free and clone functions of all 18 extensions and of their dispatch through the interfaces; annotation_free_null is the exception; the last two theorems show misuses."
  },
  {
   "property": "C57",
   "status": "proved",
   "theorems": [
    "Osl.Ext.Irregular.irregular_history",
    "Osl.Ext.Irregular.irregular_add_control",
    "Osl.Ext.Irregular.irregular_add_exit",
    "Osl.Ext.Irregular.irregular_add_predicates"
   ],
   "note": ""
  },
  {
   "property": "C58",
   "status": "proved",
   "theorems": [
    "Osl.Ext.Irregular.irregular_buffer_fits",
    "Osl.Ext.Irregular.irregular_sprint",
    "Osl.Ext.Irregular.irregular_read_no_predicates",
    "Osl.Ext.Irregular.irregular_read_predicates_violates",
    "Osl.Ext.Irregular.irregular_text_iff",
    "Osl.Ext.Irregular.irregular_clone_iff",
    "Osl.Ext.Irregular.irregular_equal_same_sizes",
    "Osl.Ext.Irregular.irregular_equal_statements_violates",
    "Osl.Ext.Irregular.irregular_equal_cancels",
    "Osl.Ext.Irregular.irregular_equal_null"
   ],
   "note": "Exact; the ideal (read back, copied and compared by content) is refuted for all extensions with a predicate. irregular_equal_cancels shows that with different numbers of iterators two differences can cancel out, or the test reads out of bounds."
  },
  {
   "property": "C59",
   "status": "proved",
   "theorems": [
    "Osl.Rel.relation_spprint_total",
    "Osl.Rel.relation_sprint_total",
    "Osl.Rel.relation_names_cover",
    "Osl.Rel.relation_print_read",
    "Osl.Rel.relation_print_sread",
    "Osl.Rel.relation_sprint_access_iff",
    "Osl.Rel.relation_sprint_wide_violates"
   ],
   "note": "The bound on the rows is explicit and needed (relation_sprint_wide_violates)."
  },
  {
   "property": "C60",
   "status": "proved",
   "theorems": [
    "Osl.Stmts.statement_print_total",
    "Osl.Scops.scop_names_cover",
    "Osl.Scops.scop_print_total",
    "Osl.Scops.scop_print_checked",
    "Osl.Scops.scop_print_read",
    "Osl.Data.scop_default_print_read",
    "Osl.Data.scop_print_params_violates",
    "Osl.Data.scop_print_arrays_violates",
    "Osl.Data.scop_print_empty_violates"
   ],
   "note": "For any registry, and with conditions on the contents only for the default registry. The conditions are needed (witnesses accepted by the integrity check): fewer names than parameters, an arrays extension which does not name all accessed arrays, a scop without any relation."
  },
  {
   "property": "C61",
   "status": "proved",
   "theorems": [
    "Osl.Rel.relation_pread_wellformed",
    "Osl.Rel.relation_psread_wellformed",
    "Osl.Rel.relation_pread_lines",
    "Osl.Rel.relation_read_print_read",
    "Osl.Rel.relation_pread_short_row_violates",
    "Osl.Rel.relation_pread_word_violates",
    "Osl.Rel.relation_pread_end_violates",
    "Osl.RList.list_pread_wellformed",
    "Osl.GList.generic_read_wellformed",
    "Osl.Strings.sread_words",
    "Osl.Stmts.statement_pread_wellformed",
    "Osl.Scops.scop_pread_wellformed",
    "Osl.Scops.scop_read_print_read",
    "Osl.Data.scop_read_print_read_comment_violates"
   ],
   "note": "Well-formedness for every file without any hypothesis, and the exact lines a relation comes from. The ideal (rows with missing or malformed entries are refused, the end of the file is an error, every scop is stable) is refuted by the _violates theorems."
  },
  {
   "property": "C62",
   "status": "proved",
   "theorems": [
    "Osl.Rel.relation_pread_same",
    "Osl.Rel.relation_pread_long_comment_violates",
    "Osl.RList.list_pread_same",
    "Osl.Util.fread_int_same",
    "Osl.Util.fread_string_same",
    "Osl.Util.fread_line_same",
    "Osl.Strings.read_same"
   ],
   "note": "For files whose lines fit the reading buffer; the witness shows that this is needed (the end of a long comment is read as data)."
  },
  {
   "property": "C63",
   "status": "proved",
   "theorems": [
    "Osl.Rel.relation_pread_local",
    "Osl.RList.list_pread_local",
    "Osl.Stmts.statement_pread_local",
    "Osl.Scops.scop_pread_append",
    "Osl.Data.scop_pread_append_violates",
    "Osl.Data.relation_pread_local_violates"
   ],
   "note": "The two witnesses show that the end of line between the files, and that something remains after the object, are needed."
  },
  {
   "property": "C64",
   "status": "proved",
   "theorems": [
    "Osl.Rel.relation_scoplib_says",
    "Osl.Rel.relation_scoplib_print",
    "Osl.Rel.scoplib_size_correct",
    "Osl.Rel.scoplib_fake_domain_iff",
    "Osl.Rel.scoplib_fake_scattering_iff",
    "Osl.scoplib_fake_domain_violates",
    "Osl.scoplib_fake_scattering_violates",
    "Osl.scoplib_fake_union_violates"
   ],
   "note": "The ideal (the announced size is always right) is refuted, and the exact conditions are proved."
  },
  {
   "property": "C65",
   "status": "proved",
   "theorems": [
    "Osl.RList.scoplib_accesses_says",
    "Osl.RList.scoplib_access_size_correct",
    "Osl.RList.scoplib_accesses_two",
    "Osl.scoplib_may_write_violates",
    "Osl.scoplib_access_union_violates",
    "Osl.scoplib_access_locals_violates"
   ],
   "note": "What the text says is exact for all lists of accesses. The ideal for the other lists is refuted: may-writes (written as ordinary matrices), unions of accesses and accesses with different numbers of local dimensions (witnesses)."
  },
  {
   "property": "C66",
   "status": "proved",
   "theorems": [
    "Osl.Scops.scoplib_check_iff",
    "Osl.Scops.scoplib_check_refuses",
    "Osl.Scops.scoplib_check_sound",
    "Osl.Scops.scop_scoplib_says",
    "Osl.Scops.scop_scoplib_refused",
    "Osl.Data.scoplib_default_says",
    "Osl.Data.scoplib_default_rows",
    "Osl.scoplib_check_null_violates",
    "Osl.scoplib_check_union_violates"
   ],
   "note": "For any registry and for the default one. Outside of these conditions: the check looks at the first part of a scattering only, and a missing scattering is a NULL dereference (witnesses)."
  },
  {
   "property": "C67",
   "status": "proved",
   "theorems": [
    "Osl.Rel.scoplib_text_lossless",
    "Osl.Rel.relTable_inj",
    "Osl.Rel.accessTable_inj",
    "Osl.RList.accessesTable_inj",
    "Osl.scoplib_access_lost_violates",
    "Osl.scoplib_scalar_lost_violates"
   ],
   "note": "The ideal for all accesses is refuted: the check does not look at their output columns, and the access to a scalar is written as the access to the first element of an array (witnesses)."
  },
  {
   "property": "C68",
   "status": "proved",
   "theorems": [
    "Osl.Rel.relation_comments_say",
    "Osl.Rel.relation_sprint_comments_say",
    "Osl.Rel.relation_headers_say",
    "Osl.Stmts.statement_comments_say",
    "Osl.Scops.scop_comments_say",
    "Osl.Scops.scop_comments_checked",
    "Osl.Data.comment_name_violates"
   ],
   "note": "Proved for all relations, statements and scops of C59 and C60 whose given names start with no digit and hold no + or -; refuted without this condition (the names are copied without parentheses: witness). The names used are specified too (dimNames, StmtNames, ScopNames)."
  },
  {
   "property": "C69",
   "status": "proved",
   "theorems": [
    "Osl.Dump.strings_shows",
    "Osl.Dump.vector_shows",
    "Osl.Dump.relation_shows",
    "Osl.Dump.relation_list_shows",
    "Osl.Dump.interface_shows",
    "Osl.Dump.names_shows",
    "Osl.Dump.body_shows",
    "Osl.Dump.generic_shows",
    "Osl.Dump.statement_shows",
    "Osl.Dump.scop_shows",
    "Osl.Dump.scop_dump_default_inj",
    "Osl.Dump.vector_ok_iff",
    "Osl.Dump.relation_ok_iff",
    "Osl.Dump.interface_ok_iff",
    "Osl.Dump.generic_ok_iff",
    "Osl.Dump.statement_ok_iff",
    "Osl.Dump.scop_ok_iff",
    "Osl.Dump.strings_null_as_empty",
    "Osl.Dump.strings_space_ambiguous"
   ],
   "note": "The conditions are needed: strings_null_as_empty and strings_space_ambiguous refute the ideal (a NULL array is displayed as an empty one, a space in a word separates words); the _ok_iff theorems say exactly when each function is defined."
  },
  {
   "property": "C70",
   "status": "proved",
   "theorems": [
    "Osl.Dump.comment_shows",
    "Osl.Dump.clay_shows",
    "Osl.Dump.textual_shows",
    "Osl.Dump.null_shows",
    "Osl.Dump.scatinfos_shows",
    "Osl.Dump.scatnames_shows",
    "Osl.Dump.arrays_shows",
    "Osl.Dump.extbody_shows",
    "Osl.Dump.coordinates_shows",
    "Osl.Dump.unroll_shows",
    "Osl.Dump.loop_shows",
    "Osl.Dump.dependence_shows",
    "Osl.Dump.symbols_shows",
    "Osl.Dump.fnsAt_shows",
    "Osl.Dump.registry_default",
    "Osl.Dump.dependence_ok_iff",
    "Osl.Dump.symbols_ok_iff",
    "Osl.Dump.loop_ok_iff",
    "Osl.Dump.unroll_ok_iff",
    "Osl.Dump.irregular_ok_iff",
    "Osl.Dump.fns_ok_iff",
    "Osl.Dump.fns_null_ok_iff",
    "Osl.Dump.scop_dependence_undefined",
    "Osl.Dump.annotation_ambiguous",
    "Osl.Dump.region_ambiguous",
    "Osl.Dump.textual_elided",
    "Osl.Dump.comment_ambiguous"
   ],
   "note": "fns_ok_iff and fns_null_ok_iff decide when each function is defined. The ideal is refuted by scop_dependence_undefined (for every scop with dependences as read), annotation_ambiguous, region_ambiguous, textual_elided and comment_ambiguous."
  },
  {
   "property": "C71",
   "status": "proved",
   "theorems": [
    "Osl.Dump.strings_level",
    "Osl.Dump.vector_level",
    "Osl.Dump.relation_level",
    "Osl.Dump.relation_list_level",
    "Osl.Dump.interface_level",
    "Osl.Dump.names_level",
    "Osl.Dump.body_level",
    "Osl.Dump.generic_level",
    "Osl.Dump.statement_level",
    "Osl.Dump.scop_level",
    "Osl.Dump.textual_level",
    "Osl.Dump.comment_level",
    "Osl.Dump.clay_level",
    "Osl.Dump.null_level",
    "Osl.Dump.scatinfos_level",
    "Osl.Dump.scatnames_level",
    "Osl.Dump.arrays_level",
    "Osl.Dump.coordinates_level",
    "Osl.Dump.extbody_level",
    "Osl.Dump.loop_level",
    "Osl.Dump.unroll_level",
    "Osl.Dump.dependence_level",
    "Osl.Dump.symbols_level",
    "Osl.Dump.fnsAt_level",
    "Osl.Dump.scop_dump_level",
    "Osl.Dump.ScopLine.of_shown",
    "Osl.Dump.annotation_level_violates",
    "Osl.Dump.region_level_violates"
   ],
   "note": "The ideal is refuted for annotation and region, at every level but 0."
  },
  {
   "property": "C72",
   "status": "proved",
   "theorems": [
    "Osl.Mem.print_read_memory",
    "Osl.Mem.print_read_free_memory",
    "Osl.Mem.printed_loses_nothing",
    "Osl.Mem.tagsFile_print",
    "Osl.Mem.plain_full",
    "Osl.Mem.lib_scop_read_memory",
    "Osl.Mem.lib_scop_read_free_memory",
    "Osl.Mem.closing_or_empty",
    "Osl.Mem.scop_read_stray_leak",
    "Osl.Mem.scop_read_memory",
    "Osl.Mem.scop_pread_memory",
    "Osl.Mem.statement_read_memory",
    "Osl.Mem.statement_pread_memory",
    "Osl.Mem.relation_list_pread_memory",
    "Osl.Mem.relation_pread_memory",
    "Osl.Mem.relation_psread_memory",
    "Osl.Mem.relation_psread_polylib_memory",
    "Osl.Mem.generic_sread_one_memory",
    "Osl.Mem.generic_read_one_memory",
    "Osl.Mem.generic_sread_memory",
    "Osl.Mem.generic_read_memory",
    "Osl.Mem.symbols_sread_memory",
    "Osl.Mem.data_sread_memory",
    "Osl.Mem.strings_sread_memory",
    "Osl.Mem.strings_read_memory",
    "Osl.Mem.body_sread_memory",
    "Osl.Mem.textual_sread_memory",
    "Osl.Mem.comment_sread_memory",
    "Osl.Mem.clay_sread_memory",
    "Osl.Mem.null_sread_memory",
    "Osl.Mem.coordinates_sread_memory",
    "Osl.Mem.scatnames_sread_memory",
    "Osl.Mem.scatinfos_sread_memory",
    "Osl.Mem.extbody_sread_memory",
    "Osl.Mem.arrays_sread_memory",
    "Osl.Mem.annotation_sread_memory",
    "Osl.Mem.region_sread_memory",
    "Osl.Mem.loop_sread_memory",
    "Osl.Mem.unroll_sread_memory",
    "Osl.Mem.dependence_psread_memory",
    "Osl.Mem.read_string_memory",
    "Osl.Mem.fread_string_memory",
    "Osl.Mem.read_line_memory",
    "Osl.Mem.read_tag_memory",
    "Osl.Mem.fread_tag_memory",
    "Osl.Mem.read_uptoflag_memory",
    "Osl.Mem.read_type_memory",
    "Osl.Mem.fread_type_memory"
   ],
   "note": "The precondition of each theorem is that the reader on texts (the model of C48 and C61) returns the object; the conclusion is that the heap holds the object and the lost tags, and nothing else. The ideal is refuted by scop_read_stray_leak; closing_or_empty says that only closing and empty tags are lost; printed_loses_nothing and print_read_memory say that a file written by osl_scop_print loses none (plain_full: the condition on the symbols holds unless symbols are nested in symbols)."
  },
  {
   "property": "C73",
   "status": "proved",
   "theorems": [
    "Osl.Mem.vector_pmalloc_memory",
    "Osl.Mem.vector_malloc_memory",
    "Osl.Mem.vector_free_memory",
    "Osl.Mem.vector_free_null_memory",
    "Osl.Mem.vector_add_memory",
    "Osl.Mem.vector_add_same_memory",
    "Osl.Mem.vector_sub_memory",
    "Osl.Mem.vector_sub_same_memory",
    "Osl.Mem.vector_mul_scalar_memory",
    "Osl.Mem.vector_add_scalar_memory",
    "Osl.Mem.vector_tag_equality_memory",
    "Osl.Mem.vector_tag_inequality_memory",
    "Osl.Mem.vector_equal_memory",
    "Osl.Mem.vector_equal_same_memory",
    "Osl.Mem.vector_is_scalar_memory",
    "Osl.Mem.relation_replace_vector_memory",
    "Osl.Mem.relation_add_vector_memory",
    "Osl.Mem.relation_sub_vector_memory",
    "Osl.Mem.relation_from_vector_memory",
    "Osl.Mem.relation_insert_vector_memory",
    "Osl.Mem.relation_concat_vector_memory",
    "Osl.Mem.relation_insert_blank_row_memory",
    "Osl.Mem.relation_swap_constraints_memory",
    "Osl.Mem.vecAt_exists",
    "Osl.Mem.vector_double_free_ub"
   ],
   "note": "The precondition of each theorem is that the function on values (C11, C15, C17) succeeds; the conclusion is a separation logic triple with the arguments and the result and nothing else. vecAt_exists: the hypotheses can be met for all vectors and relations."
  },
  {
   "property": "C74",
   "status": "proved",
   "theorems": [
    "Osl.Mem.safe_strcat_memory",
    "Osl.Mem.subexpression_memory",
    "Osl.Mem.simple_output_memory",
    "Osl.Mem.sprint_comment_memory",
    "Osl.Mem.relation_strings_memory",
    "Osl.Mem.column_string_memory",
    "Osl.Mem.spprint_polylib_memory",
    "Osl.Mem.relation_spprint_memory",
    "Osl.Mem.relation_sprint_memory",
    "Osl.Mem.relation_pprint_memory",
    "Osl.Mem.relation_print_memory",
    "Osl.Mem.relation_print_total_memory",
    "Osl.Mem.list_pprint_elts_memory",
    "Osl.Mem.list_pprint_memory",
    "Osl.Mem.list_print_memory",
    "Osl.Mem.strings_sprint_memory",
    "Osl.Mem.strings_print_memory",
    "Osl.Mem.body_sprint_memory",
    "Osl.Mem.body_print_memory",
    "Osl.Mem.comment_sprint_memory",
    "Osl.Mem.clay_sprint_memory",
    "Osl.Mem.textual_sprint_memory",
    "Osl.Mem.null_sprint_memory",
    "Osl.Mem.coordinates_sprint_memory",
    "Osl.Mem.scatnames_sprint_memory",
    "Osl.Mem.scatinfos_sprint_memory",
    "Osl.Mem.extbody_sprint_memory",
    "Osl.Mem.arrays_sprint_memory",
    "Osl.Mem.annotation_sprint_memory",
    "Osl.Mem.region_sprint_memory",
    "Osl.Mem.loop_sprint_memory",
    "Osl.Mem.unroll_sprint_memory",
    "Osl.Mem.dependence_sprint_memory",
    "Osl.Mem.dependence_print_memory",
    "Osl.Mem.generic_sprint_memory",
    "Osl.Mem.generic_print_memory",
    "Osl.Mem.symbols_sprint_memory",
    "Osl.Mem.data_sprint_memory",
    "Osl.Mem.lib_generic_sprint_memory",
    "Osl.Mem.lib_generic_print_memory",
    "Osl.Mem.arrays_to_strings_memory",
    "Osl.Mem.statement_pprint_memory",
    "Osl.Mem.statement_print_memory",
    "Osl.Mem.scop_print_memory",
    "Osl.Mem.lib_statement_pprint_memory",
    "Osl.Mem.lib_statement_print_memory",
    "Osl.Mem.lib_scop_print_memory"
   ],
   "note": "The precondition of each theorem is that the function on values prints a text (it does for the relations of C35: relation_print_total_memory) and that the coefficients can be stored in their precision; the conclusion is a separation logic triple with the arguments, the string and nothing else."
  },
  {
   "property": "C75",
   "status": "proved",
   "theorems": [
    "Osl.Mem.relation_is_access_query",
    "Osl.Mem.relation_get_array_id_query",
    "Osl.Mem.relation_get_attributes_query",
    "Osl.Mem.relation_integrity_check_query",
    "Osl.Mem.relation_equal_query",
    "Osl.Mem.relation_equal_self_query",
    "Osl.Mem.list_get_attributes_query",
    "Osl.Mem.list_integrity_check_query",
    "Osl.Mem.list_equal_query",
    "Osl.Mem.list_equal_self_query",
    "Osl.Mem.strings_size_query",
    "Osl.Mem.strings_equal_query",
    "Osl.Mem.strings_equal_self_query",
    "Osl.Mem.body_equal_query",
    "Osl.Mem.interface_equal_query",
    "Osl.Mem.generic_number_query",
    "Osl.Mem.generic_has_uri_query",
    "Osl.Mem.generic_lookup_finds",
    "Osl.Mem.generic_equal_query",
    "Osl.Mem.generic_equal_self_query",
    "Osl.Mem.statement_number_query",
    "Osl.Mem.statement_get_attributes_query",
    "Osl.Mem.statement_get_nb_iterators_query",
    "Osl.Mem.statement_integrity_check_query",
    "Osl.Mem.statement_equal_query",
    "Osl.Mem.statement_equal_self_query",
    "Osl.Mem.statement_get_body_finds",
    "Osl.Mem.scop_number_query",
    "Osl.Mem.scop_get_attributes_query",
    "Osl.Mem.scop_get_nb_parameters_query",
    "Osl.Mem.scop_integrity_check_query",
    "Osl.Mem.scop_equal_query",
    "Osl.Mem.scop_equal_self_query",
    "Osl.Mem.scop_check_compatible_scoplib_query",
    "Osl.Mem.scatnames_equal_query",
    "Osl.Mem.textual_equal_query",
    "Osl.Mem.comment_equal_query",
    "Osl.Mem.clay_equal_query",
    "Osl.Mem.null_equal_query",
    "Osl.Mem.coordinates_equal_query",
    "Osl.Mem.scatinfos_equal_query",
    "Osl.Mem.extbody_equal_query",
    "Osl.Mem.arrays_equal_query",
    "Osl.Mem.annotation_equal_query",
    "Osl.Mem.region_equal_query",
    "Osl.Mem.loop_equal_query",
    "Osl.Mem.unroll_equal_query",
    "Osl.Mem.dependence_equal_query",
    "Osl.Mem.symbols_equal_query",
    "Osl.Mem.data_equal_query",
    "Osl.Mem.lib_generic_equal_query",
    "Osl.Mem.lib_statement_equal_query",
    "Osl.Mem.lib_statement_integrity_check_query",
    "Osl.Mem.lib_statement_get_body_finds",
    "Osl.Mem.lib_scop_equal_query",
    "Osl.Mem.lib_scop_integrity_check_query",
    "Osl.Mem.lib_scop_check_compatible_scoplib_query",
    "Osl.Mem.two_scops_exist"
   ],
   "note": "Query P m v says: in every memory which has P in it, m answers v and the memory is the same one. The precondition of each theorem is that the function on values answers; the functions on values which do not answer (osl_dependence_equal with one NULL list, osl_region_equal on equal lists) are undefined or do not end in C as well."
  },
  {
   "property": "C76",
   "status": "proved",
   "theorems": [
    "Osl.Mem.relation_set_type_memory",
    "Osl.Mem.relation_set_attributes_memory",
    "Osl.Mem.relation_set_attributes_one_memory",
    "Osl.Mem.relation_set_attributes_one_null",
    "Osl.Mem.relation_set_precision_memory",
    "Osl.Mem.relation_set_same_precision_memory",
    "Osl.Mem.scop_register_extension_memory",
    "Osl.Mem.strings_find_query",
    "Osl.Mem.arrays_get_index_from_id_query",
    "Osl.Mem.arrays_get_index_from_name_query"
   ],
   "note": "For osl_scop_register_extension when an extension is found under the URI, see C33: the data is used as a generic, which is undefined."
  },
  {
   "property": "C77",
   "status": "proved",
   "theorems": [
    "Osl.Mem.int_init_memory",
    "Osl.Mem.int_malloc_memory",
    "Osl.Mem.int_free_memory",
    "Osl.Mem.int_assign_memory",
    "Osl.Mem.int_oppose_memory",
    "Osl.Mem.int_abs_memory",
    "Osl.Mem.int_mul_si_memory",
    "Osl.Mem.int_add_si_memory",
    "Osl.Mem.int_increment_memory",
    "Osl.Mem.int_decrement_memory",
    "Osl.Mem.int_add_memory",
    "Osl.Mem.int_sub_memory",
    "Osl.Mem.int_mul_memory",
    "Osl.Mem.int_div_exact_memory",
    "Osl.Mem.int_floor_div_q_memory",
    "Osl.Mem.int_floor_div_r_memory",
    "Osl.Mem.int_mod_memory",
    "Osl.Mem.int_gcd_memory",
    "Osl.Mem.int_lcm_memory",
    "Osl.Mem.int_set_si_memory",
    "Osl.Mem.int_set_long_memory",
    "Osl.Mem.int_set_long_long_memory",
    "Osl.Mem.int_init_set_si_memory",
    "Osl.Mem.int_init_set_long_memory",
    "Osl.Mem.int_init_set_long_long_memory",
    "Osl.Mem.int_init_set_memory",
    "Osl.Mem.int_swap_memory",
    "Osl.Mem.int_unknown_memory",
    "Osl.Mem.int_get_si_memory",
    "Osl.Mem.int_get_long_memory",
    "Osl.Mem.int_get_long_long_memory",
    "Osl.Mem.int_pos_memory",
    "Osl.Mem.int_neg_memory",
    "Osl.Mem.int_zero_memory",
    "Osl.Mem.int_one_memory",
    "Osl.Mem.int_mone_memory",
    "Osl.Mem.int_size_in_base_2_memory",
    "Osl.Mem.int_eq_memory",
    "Osl.Mem.int_ne_memory",
    "Osl.Mem.int_lt_memory",
    "Osl.Mem.int_le_memory",
    "Osl.Mem.int_gt_memory",
    "Osl.Mem.int_ge_memory",
    "Osl.Mem.int_divisible_memory",
    "Osl.Mem.int_floor_div_q_r_does",
    "Osl.Mem.int_add_si_does",
    "Osl.Mem.int_sub_does",
    "Osl.Mem.int_mul_does",
    "Osl.Mem.int_mul_si_does",
    "Osl.Mem.int_floor_div_q_does",
    "Osl.Mem.int_floor_div_r_does",
    "Osl.Mem.int_mod_does",
    "Osl.Mem.int_lcm_does",
    "Osl.Mem.op1_does",
    "Osl.Mem.op2_does",
    "Osl.Mem.int_misuse_ub",
    "Osl.Mem.arrAt_exists"
   ],
   "note": "Does P m o Q says: from every memory with P in it, the run m ends with the outcome o of the function on values (a value w and the memory Q w, an error, or undefined behaviour). call2 f v r a b is the C call f(&v[r], v[a], v[b]), for any indices. The theorems on values (C01 to C08) say what the outcomes are."
  },
  {
   "property": "C78",
   "status": "proved",
   "theorems": [
    "Osl.Mem.irregular_malloc_memory",
    "Osl.Mem.irregular_free_memory",
    "Osl.Mem.irregular_add_control_memory",
    "Osl.Mem.irregular_add_exit_memory",
    "Osl.Mem.irregular_add_predicates_memory",
    "Osl.Mem.irregular_clone_memory",
    "Osl.Mem.irregular_clone_undef_memory",
    "Osl.Mem.irregular_equal_query",
    "Osl.Mem.irregular_equal_self_memory",
    "Osl.Mem.irregular_sprint_memory",
    "Osl.Mem.irregular_sread_memory",
    "Osl.Mem.makes_irr"
   ],
   "note": "The theorems on values (C57, C58) say what the structures and texts are. UndefFrom P m: the run is undefined from every memory with P in it. The clone writes the body after the end of the array of the iterators (source/extensions/irregular.c:462), so that irregular_clone_memory has only structures without predicates (and NULL) to speak of, and irregular_clone_undef_memory covers all the others. The rest of the string which strtok keeps between two calls is a value in the model."
  },
  {
   "property": "C79",
   "status": "proved",
   "theorems": [
    "Osl.Mem.column_string_scoplib_memory",
    "Osl.Mem.relation_spprint_scoplib_memory",
    "Osl.Mem.spprint_polylib_scoplib_pin",
    "Osl.Mem.relation_pprint_scoplib_memory",
    "Osl.Mem.list_pprint_access_memory",
    "Osl.Mem.body_print_scoplib_memory",
    "Osl.Mem.generic_print_options_scoplib_memory",
    "Osl.Mem.statement_pprint_scoplib_memory",
    "Osl.Mem.scop_print_scoplib_memory",
    "Osl.Mem.scop_print_scoplib_refused_memory",
    "Osl.Mem.lib_statement_pprint_scoplib_memory",
    "Osl.Mem.lib_generic_print_options_scoplib_memory",
    "Osl.Mem.lib_scop_print_scoplib_memory",
    "Osl.Mem.handScop_scoplib"
   ],
   "note": "The theorems on values (C64 to C67) say what the texts are. Where the function on values is undefined (a NULL domain, data of another kind) nothing is claimed; an incompatible scop ends the program."
  },
  {
   "property": "C80",
   "status": "proved",
   "theorems": [
    "Osl.Mem.strings_idump_memory",
    "Osl.Mem.vector_idump_memory",
    "Osl.Mem.relation_idump_memory",
    "Osl.Mem.relation_list_idump_memory",
    "Osl.Mem.interface_idump_memory",
    "Osl.Mem.generic_idump_memory",
    "Osl.Mem.statement_idump_memory",
    "Osl.Mem.scop_idump_memory",
    "Osl.Mem.names_idump_memory",
    "Osl.Mem.body_idump_memory",
    "Osl.Mem.textual_idump_memory",
    "Osl.Mem.comment_idump_memory",
    "Osl.Mem.clay_idump_memory",
    "Osl.Mem.null_idump_memory",
    "Osl.Mem.scatinfos_idump_memory",
    "Osl.Mem.scatnames_idump_memory",
    "Osl.Mem.arrays_idump_memory",
    "Osl.Mem.coordinates_idump_memory",
    "Osl.Mem.extbody_idump_memory",
    "Osl.Mem.loop_idump_memory",
    "Osl.Mem.unroll_idump_memory",
    "Osl.Mem.annotation_idump_memory",
    "Osl.Mem.region_idump_memory",
    "Osl.Mem.irregular_idump_memory",
    "Osl.Mem.symbols_idump_memory",
    "Osl.Mem.dependence_idump_memory",
    "Osl.Mem.lib_dumps",
    "Osl.Mem.lib_generic_idump_memory",
    "Osl.Mem.lib_statement_idump_memory",
    "Osl.Mem.lib_scop_idump_memory",
    "Osl.Mem.lib_scop_dump_memory"
   ],
   "note": "The theorems on values (C69 to C71) say what the texts are. Where the function on values is undefined (the display of dependences as read, whose pointers to statements are NULL; a NULL annotation) nothing is claimed."
  },
  {
   "property": "C81",
   "status": "proved",
   "theorems": [
    "Osl.Client.call_memory",
    "Osl.Client.history_memory",
    "Osl.Client.history_no_leak",
    "Osl.Client.history_leak",
    "Osl.Client.history_allocator",
    "Osl.Client.client_memory",
    "Osl.Client.client_leak"
   ],
   "note": "Clients make 103 kinds of calls of vectors, relations, relation lists, extension lists, statements and scops, with the extensions of the default registry and symbols nested at any depth; a rule of ownership which is broken makes the run on values undefined, as does a statement lost by osl_scop_remove_unions (C55) and, for the printing functions, a value which is not in the type of its integers. Fields of statements and scops are exchanged with a variable. Functions not in the list are covered by their own triples (C50-C56, C72-C80)."
  },
  {
   "property": "C82",
   "status": "proved",
   "theorems": [
    "Osl.Rel.relation_step_stored",
    "Osl.Rel.relation_history_stored",
    "Osl.Rel.relation_pread_stored",
    "Osl.Rel.relation_psread_stored",
    "Osl.RList.list_pread_stored",
    "Osl.Stmts.pread_kept",
    "Osl.Stmts.remove_unions_stored",
    "Osl.Scops.read_stored",
    "Osl.Scops.clone_stored",
    "Osl.Scops.remove_unions_stored",
    "Osl.Scops.normalize_stored",
    "Osl.libAt_keeps",
    "Osl.Client.run_fits",
    "Osl.Client.history_fits",
    "Osl.Client.runPlain_eq",
    "Osl.Client.runsPlain_eq",
    "Osl.Client.runClientPlain_eq",
    "Osl.Client.history_memory_plain",
    "Osl.Client.client_memory_plain"
   ],
   "note": "Whether an integer fits is InPrec (the type of the precision; any integer for GMP). runPlain is the run of C81 without the conditions of the printing calls."
  },
  {
   "property": "C83",
   "status": "proved",
   "theorems": [
    "Osl.Client.run_defined",
    "Osl.Client.history_defined",
    "Osl.Client.history_safe",
    "Osl.Client.print_scoplib_defined",
    "Osl.Client.rows_meets",
    "Osl.Client.reads_meets",
    "Osl.Client.writes_meets",
    "Osl.Rel.set_precision_defined",
    "Osl.Rel.extend_output_defined",
    "Osl.Rel.insert_constraints_defined",
    "Osl.Rel.insert_columns_defined",
    "Osl.Rel.remove_row_defined",
    "Osl.Rel.swap_constraints_defined",
    "Osl.Rel.replace_vector_defined",
    "Osl.Rel.add_vector_defined",
    "Osl.Rel.sub_vector_defined",
    "Osl.Rel.equal_defined",
    "Osl.Rel.get_array_id_defined",
    "Osl.Rel.integrity_check_defined",
    "Osl.Vec.add_scalar_defined",
    "Osl.Vec.add_defined",
    "Osl.Vec.sub_defined",
    "Osl.Vec.mul_scalar_defined",
    "Osl.Vec.equal_defined",
    "Osl.RList.integrity_check_defined",
    "Osl.RList.print_defined",
    "Osl.copy_defined",
    "Osl.match_defined",
    "Osl.text_defined",
    "Osl.Rel.pread_defined",
    "Osl.RList.pread_defined",
    "Osl.Scops.read_defined",
    "Osl.Stmts.clone_defined",
    "Osl.Stmts.nclone_defined",
    "Osl.Stmts.remove_unions_defined",
    "Osl.Stmts.equal_defined",
    "Osl.Stmts.integrity_check_defined",
    "Osl.Scops.clone_defined",
    "Osl.Scops.remove_unions_defined",
    "Osl.Scops.normalize_scattering_defined",
    "Osl.Scops.equal_defined",
    "Osl.Scops.integrity_check_defined",
    "Osl.Scops.check_compatible_scoplib_defined",
    "Osl.Dump.relation_defined",
    "Osl.Dump.relation_list_defined",
    "Osl.Dump.show_defined",
    "Osl.Dump.statement_defined",
    "Osl.Dump.scop_defined"
   ],
   "note": "Pre (Verif/DefinedHistory.lean) is the list of preconditions, for all the 103 kinds of calls. Undefined is a read or write outside of a matrix, a text which does not fit its buffer, a division by zero, an overflow of a signed type and a NULL dereference. The readers are covered for files which the library wrote (Written)."
  }
 ]
}