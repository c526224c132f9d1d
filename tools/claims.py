def q(ns,s): return [ns+x for x in s.split()]
c('C01','proved',q(N,'int_add_cases int_add_si_cases')+q(N,'int_add_min_violates int_add_never_wrong int_add_si_min_violates int_increment_exact_or_error'),'int_add_cases and int_add_si_cases decide every case. The ideal (exact or error, without exception) is refuted by int_add_min_violates and int_add_si_min_violates.')
c('C02','proved',q(N,'int_sub_cases')+q(N,'int_sub_min_violates'),'int_sub_cases decides every case. The ideal (exact or error) is refuted by int_sub_min_violates.')
c('C03','proved',q(N,'int_mul_cases')+q(N,'int_mul_exact int_mul_overflow_is_ub int_mul_violates int_mul_never_wrong int_mul_si_eq_mul'),'int_mul_cases decides every case. The ideal (exact or error, without undefined behaviour) is refuted by int_mul_violates: the guard multiplies first.')
c('C04','proved',q(N,'int_floor_div_q_cases int_floor_div_r_cases')+q(N,'int_floor_div_q_correct floorQR_unique int_floor_div_r_correct_wrapv int_floor_div_r_violates int_floor_div_zero'),'int_floor_div_q_cases and int_floor_div_r_cases decide every case in ISO C, int_floor_div_r_correct_wrapv covers wrapping arithmetic. The ideal (the remainder is always stored) is refuted by int_floor_div_r_violates.')
c('C05','proved',q(N,'int_mod_cases int_divisible_cases int_div_exact_cases')+q(N,'int_mod_violates int_divisible_iff int_divisible_min_ub int_div_exact_correct'),'The three _cases theorems decide every case. The ideal (no undefined case for non-zero divisors) is refuted by int_mod_violates and int_divisible_min_ub.')
c('C06','proved',q(N,'llgcd_cases int_gcd_cases int_lcm_cases')+q(N,'llgcd_correct int_gcd_violates'),'int_gcd_cases and int_lcm_cases decide every case. The ideal (undefined only when the result does not fit) is refuted by int_gcd_violates.')
c('C07','proved',q(N,'int_order_cases')+q(N,'int_tests_correct int_order_violates_32bit_long'),'int_order_cases decides every case. The ideal (the order of the values everywhere) is refuted by int_order_violates_32bit_long.')
c('C08','proved',q(N,'int_set_precision_cases')+q(N,'int_set_precision_debug int_set_precision_violates int_init_set_long_mp_ub int_get_si_exact int_get_long_long_violates_32bit_long')+q(R,'relation_set_precision_preserves relation_set_precision_succeeds relation_set_same_precision'),'int_set_precision_cases decides every case. The ideal (never another value) is refuted by int_set_precision_violates in NDEBUG builds.')
c('C09','proved',q(N,'int_oppose_abs_cases int_size_min_ub')+q(N,'int_increment_exact_or_error int_oppose_abs_correct int_oppose_abs_min_ub int_assign_swap_correct int_size_in_base_2_correct int_size_in_base_10_correct'),'Every case: int_oppose_abs_cases, int_size_min_ub with the size theorems.')
c('C11','proved',q(V,'vector_add_sub_incompatible vector_add_correct vector_sub_correct vector_add_never_wrong vector_add_scalar_correct vector_add_scalar_short vector_mul_scalar_correct vector_tag_correct vector_tag_empty vector_equal_iff vector_equal_null vector_is_scalar_iff'),'')
c('C12','proved',q(R,'relation_clone_equal relation_nclone_prefix relation_clone_nconstraints_prefix'),'')
c('C13','proved',q(R,'relation_equal_iff relation_equal_equivalence'),'')
c('C14','proved',q(R,'relation_union_mem relation_add_parts'),'')
c('C15','proved',q(R,'relation_insert_constraints_intersects relation_insert_constraints_error relation_insert_vector_intersects relation_concat_constraints_intersects relation_concat_vector_intersects relation_concat_constraints_null relation_concat_constraints_error relation_concat_constraints_error_prec'),'Only the first union part is concerned, as in the code.')
c('C16','proved',q(R,'relation_swap_constraints relation_insert_blank_row relation_remove_row relation_row_errors'),'')
c('C17','proved',q(R,'relation_add_vector_sound relation_sub_vector_sound relation_sub_vector_inequality_unsound relation_combine_error'),'Soundness when the additions do not overflow; the subtraction of an inequality is unsound (witness), as the statement excludes it.')
c('C18','proved',q(R,'relation_insert_blank_column relation_remove_inserted_column relation_remove_column relation_insert_columns relation_column_errors relation_insert_blank_column_0 relation_insert_blank_column_attributes'),'')
c('C19','proved',q(R,'relation_step_shape relation_history_shape relation_pmalloc_shape relation_step_in_bounds relation_add_vector_no_column_ub'),'')
c('C20','proved',q(R,'relation_extend_output_mem relation_extend_output_error relation_extend_output_null'),'')
c('C21','proved',q(R,'relation_get_array_id_iff relation_get_array_id_not_access relation_array_id_points isAccessPart_iff'),'Entries in the C int range (the code narrows to int).')
c('C22','proved',q(L,'list_integrity_check_iff')+q(R,'relation_integrity_check_iff relation_integrity_check_null relation_integrity_sound_uniform relation_integrity_accepts_mixed_types relation_integrity_accepts_unknown_locals relation_integrity_accepts_negative_dims'),'Both answers are characterised exactly. The ideal (no malformed relation is accepted) is refuted: unions with mixed part types, later parts with unknown local dimensions and negative dimensions are accepted.')
c('C23','proved',q(L,'list_get_attributes_monotone list_get_attributes_lub')+q(R,'relation_get_attributes_lub relation_get_attributes_monotone')+q(T,'statement_get_attributes_lub')+q(P,'scop_get_attributes_lub'),'Relations, relation lists, statements and scops.')
c('C10','proved',q(N,'int_text_round_trip int_sprint_width int_sprint_injective int_sread_letters int_sread_position_violates int_sread_eof_unreported'),'The round trip holds for all values. Findings beyond the statement: the position after the number moves by one character only, and the end of input is not reported.')
c('C24','proved',q(R,'relation_text_round_trip_untyped relation_sread_sprint relation_sread_union_violates relation_file_round_trip relation_read_print relation_sread_truncated_violates relation_print_read relation_print_sread'),'Exact results for both readers. The ideal (an equal relation in all cases) is refuted for strings by relation_sread_union_violates, for all unions with a typed later part. relation_print_read and relation_print_sread do not suppose that printing succeeds: the rows have to fit in the buffers (C59).')
c('C25','proved',q(L,'list_pop_push list_push_null list_push_pop list_push_tail_lost list_dup list_drop list_destroy list_stack_refinement'),'Stack refinement for all histories. The ideal for lists of several nodes (all are pushed) is refuted, for all of them, by list_push_tail_lost.')
c('C26','proved',q(L,'list_clone_equal list_equal_iff list_concat list_node list_count list_filter list_filter_count'),'')
c('C27','proved',q(R,'relation_set_type relation_set_type_mem relation_set_attributes')+q(L,'list_set_type_first_parts list_set_type_violates'),'Exact. The ideal (every part of every relation of a list) is refuted by list_set_type_violates.')
c('C28','proved',q(S,'strings_generate_cases strings_add_strings_cases')+q(S,'strings_generate_correct strings_generate_negative_violates strings_generate_nodup strings_find_correct strings_add_correct strings_equal_iff strings_equal_equivalence strings_clone_equal strings_encapsulate strings_add_strings_violates'),'strings_generate_cases and strings_add_strings_cases decide every case. The ideal (defined for all arguments) is refuted by the _violates theorems.')
c('C29','proved',q(S,'strings_text_round_trip_iff')+q(S,'strings_text_round_trip strings_sread_comment strings_text_empty_violates strings_sread_double_blank_violates strings_sread_position_violates'),'strings_text_round_trip_iff decides every array of words. The other theorems show what the reader does with comments, several blanks (an empty string) and the position.')
c('C30','proved',q(U,'safe_strcat_correct safe_strcat_history emit_eq'),'')
c('C31','proved',q(U,'tag_content_cases')+q(U,'read_uptoflag_correct read_uptoflag_first read_uptoendtag_first read_uptotag_first read_uptoflag_empty_violates tag_content_correct tag_content_absent tag_content_violates tag_content_empty_violates'),'tag_content_cases decides every input. The ideal (the whole enclosed text) is refuted by tag_content_violates and tag_content_empty_violates.')
c('C32','proved',q(U,'identifier_substitution_correct SubstSpec.unique identifier_substitution_empty_diverges'),'')
c('C43','proved',q(M,'names_generate_correct prefix_number_injective names_generate_distinct names_generate_distinct_violates names_clone_equal'),'The witness shows why a prefix must not end with a digit.')
c('C33','proved',q(I,'interface_add_cases')+q(P,'scop_register_extension_cases scop_register_extension_violates')+q(I,'interface_lookup_correct interface_add_correct interface_history_unique interface_add_list_violates default_registry_correct default_registry_lookup interface_clone_correct interface_equal_iff'),'interface_add_cases and scop_register_extension_cases decide every case. The ideal (URIs always stay unique) is refuted by interface_add_list_violates: a list holding the same URI twice is accepted.')
c('C34','proved',q(G,'generic_add_cases')+q(G,'generic_lookup_correct generic_add_correct generic_remove_correct generic_history_map generic_add_null_violates generic_add_list_violates generic_count_correct')+q(P,''),'generic_add_cases decides every addition; refinement to a map for all histories. The ideal (the list never holds two entries of one URI) is refuted by generic_add_null_violates and generic_add_list_violates.')
c('C35','proved',q(G,'generic_equal_correct generic_equal_order generic_equal_refl generic_equal_symm generic_clone_correct generic_equal_dup_violates'),'Reflexivity and symmetry are relative to those of the equality functions of the extensions, which are arbitrary.')
c('C36','proved',q(G,'generic_text_round_trip generic_sprint_text tags_text generic_unknown_skipped generic_end_tag_violates generic_digit_uri_violates'),'For extensions whose own reader inverts their printer, as the statement says, with contents free of their end tag and URIs made of letters and underscores (witnesses show that these are needed).')
c('C37','proved',q(T,'statement_dispatch_correct'),'Exact: an error if and only if two domains, two scatterings or an unexpected type; otherwise everything is in its place and nothing is lost.')
c('C38','proved',q(T,'statement_remove_unions_product statement_remove_unions_executes statement_remove_unions_null'),'')
c('C39','proved',q(P,'scop_remove_unions_kept scop_remove_unions_one_part scop_remove_unions_violates'),'The result is characterised exactly. The ideal (the expansion of every statement) is refuted by scop_remove_unions_violates: statements are lost.')
c('C40','proved',q(P,'scop_normalize_scattering_error')+q(P,'scop_normalize_scattering_correct zero_padding_order scop_normalize_null scop_normalize_later_part_violates'),'scop_normalize_scattering_correct and scop_normalize_scattering_error decide every case. The ideal (it succeeds on all of them) is refuted by scop_normalize_later_part_violates.')
c('C41','proved',q(P,'scop_equal_cases')+q(T,'statement_equal_correct statement_equal_null_violates statement_clone_equal statement_nclone_prefix statement_add_number statement_get_body_correct')+q(P,'scop_equal_correct scop_clone_equal scop_equal_violates scop_add_number')+q('Osl.','Data.scop_default_clone scop_region_clone_violates'),'statement_equal_correct with statement_equal_null_violates, and scop_equal_cases, decide every case. The ideal (defined everywhere, the whole registries compared) is refuted by scop_equal_violates; scop_region_clone_violates shows an extension whose equality does not answer.')
c('C42','proved',q(P,'scop_integrity_sound scop_integrity_check_iff')+q(T,'statement_integrity_check_iff'),'')
c('C44','proved',q(A,'arrays_equal_iff arrays_to_strings_cases')+q(A,'arrays_add_correct arrays_get_index_from_id_correct arrays_get_index_from_name_correct arrays_get_index_null arrays_to_strings_correct arrays_to_strings_name arrays_to_strings_violates arrays_text_round_trip arrays_text_violates arrays_clone_eq arrays_equal_nodup arrays_equal_violates'),'Exact: arrays_equal_iff and arrays_to_strings_cases decide every case. The ideal (equality independent of the order of the arguments, defined for all identifiers, all names read back) is refuted by the _violates theorems.')
c('C45','proved',q(B,'sread_text_exact body_text_round_trip body_text_several_violates body_text_hash_violates body_text_null_violates')+q(X,'textual_text_violates textual_clone_sread comment_text_round_trip comment_text_newline_violates comment_sprint_long_violates comment_position_violates clay_text_round_trip clay_text_violates coordinates_text_round_trip coordinates_text_hash_violates annotation_text_round_trip annotation_text_hash_violates annotation_null_violates region_text_round_trip region_negative_count_violates unroll_text_round_trip unroll_sprint_long_violates unroll_factor_violates extbody_text_round_trip extbody_null_body_violates scatnames_text_round_trip scatnames_text_violates')+q(A,'arrays_text_round_trip')+q('Osl.Ext.Loop.','loop_text_round_trip loop_directive_text loop_text_null_violates')+q('Osl.Ext.Scatinfos.','scatinfos_text_exact scatinfos_text_round_trip'),'The conditions are the Textable structures. For contents outside of them the _violates theorems show what is lost; the ideal (every content) is false.')
c('C46','proved',q(X,'textual_equal_always')+q(A,'arrays_equal_iff')+q(B,'body_equal_iff body_equal_equivalence body_clone_equal')+q(X,'textual_equal_violates comment_equal_violates comment_equal_always comment_clone clay_equal_decides clay_equal_null_violates clay_clone_equal null_correct coordinates_equal_decides coordinates_equal_null_violates coordinates_clone_equal annotation_equal_decides annotation_clone_equal annotation_append region_clone_eq region_equal_one_iff region_equal_never_true region_equal_violates region_equal_different unroll_equal_iff unroll_equal_decides unroll_clone_eq unroll_clone_equal extbody_equal_iff extbody_equal_nodup extbody_equal_violates extbody_equal_refl extbody_clone_equal extbody_add scatnames_equal_decides scatnames_clone_equal')+q(A,'arrays_equal_nodup arrays_equal_violates')+q(D,'dependence_equal_correct dependence_equal_null_violates')+q('Osl.Ext.Loop.','loop_equal_iff loop_equal_symm loop_equal_violates loop_clone_equal loop_add_count')+q('Osl.Ext.Scatinfos.','scatinfos_equal_decides scatinfos_clone_equal'),'Exact answers for every extension. The ideal (each one is an equivalence which distinguishes contents) is refuted for textual, comment, region, arrays, extbody and loop by the _violates theorems.')
c('C47','proved',q(D,'dependence_add_cases dependence_equal_null_violates')+q(D,'dependence_add_correct dependence_add_history dependence_add_violates dependence_nb_correct dependence_clone_equal dependence_text_round_trip dependence_type_violates dependence_null_domain_violates dependence_equal_correct'),'dependence_add_cases decides every addition. The ideal (add always appends) is refuted by dependence_add_violates; dependence_null_domain_violates shows a domain which cannot be read back.')
c('C48','proved',q('Osl.RList.','list_text_round_trip list_text_back')+q(T,'statement_text_round_trip statement_text_exact')+q(P,'scop_text_round_trip')+q('Osl.','default_registry_eq Data.plain_back Data.scop_default_text scop_default_text_symbols'),'First for every registry and every behaviour of the extensions (TextScop, TextStmt, TextRel), then for the default registry with the models of its 18 extensions, without hypothesis on their functions (Data.PlainScop: conditions on the contents only); a file with two scops holding relations, a body, a comment, arrays, coordinates and symbols is shown to meet the hypotheses.')
c('C49','proved',q('Osl.Ext.Symbol.','symbols_equal_first')+q('Osl.Ext.Symbol.','symbols_add_number symbols_nclone_correct symbols_clone_equal symbols_equal_one symbols_equal_violates symbols_text_back symbols_sread_long_violates symbols_text_null_violates'),'Exact. The ideal (equality of the whole lists; all texts read back) is refuted by symbols_equal_violates, symbols_sread_long_violates and symbols_text_null_violates.')
c('C50','proved',q('Osl.Mem.','relation_free_memory relation_pmalloc_memory relation_clone_memory relation_nclone_memory relation_clone_nconstraints_memory relation_add_memory relation_union_memory relation_union_same_memory relation_insert_constraints_memory relation_insert_constraints_same_memory relation_insert_blank_column_memory relation_remove_row_memory relation_remove_column_memory relation_insert_columns_memory relation_concat_constraints_memory relation_remove_part_memory relation_remove_first_part_leaks relation_free_no_leak relation_clone_free relAt_exists relation_add_self_violates relation_remove_part_leak relation_double_free_ub'),'Separation logic on an explicit heap with an arbitrary allocator. The ideal (no leak in remove_part, any arguments of osl_relation_add) is refuted: relation_remove_first_part_leaks for every relation, and relation_add_self_violates (a relation added to itself becomes a cycle which cannot be freed).')
c('C51','proved',q('Osl.Mem.','list_free_memory list_node_memory list_clone_memory list_add_memory list_concat_memory list_concat_same_memory list_push_memory list_push_leaks list_push_leak list_push_null_memory list_pop_memory list_dup_memory list_drop_memory list_destroy_memory list_set_type_memory list_filter_memory list_count_memory rlistAt_exists list_cycle_ub'),'Exact for every function. The ideal (push loses no node) is refuted, for every list of several nodes, by list_push_leaks.')
c('C52','proved',q('Osl.Mem.','strings_free_memory strings_size_memory strings_clone_memory strings_add_memory strings_encapsulate_memory strings_generate_memory strings_add_strings_memory strings_add_strings_same_memory names_free_memory names_clone_memory names_generate_memory stringsAt_exists strings_encapsulate_double_free strings_add_strings_leak'),'The heap model of strings.c and names.c; the last two theorems show misuses.')
c('C53','proved',q('Osl.Mem.','interface_free_memory interface_number_memory interface_lookup_memory interface_lookup_null interface_add_memory interface_nclone_memory interface_clone_memory interface_equal_memory default_registry_memory generic_free_memory generic_count_memory generic_lookup_memory generic_lookup_null generic_add_memory generic_remove_node_memory generic_remove_memory generic_shell_memory generic_nclone_memory generic_clone_memory ifacesAt_exists glistAt_exists generic_shell_double_free generic_unregistered_leak generic_add_double_free'),'The heap model of interface.c and generic.c, except the readers and printers; the data are any structure with a description of its free and clone functions (DataMem); the last three theorems show misuses.')
c('C54','proved',q('Osl.Mem.','statement_free_memory statement_add_memory statement_number_memory statement_nclone_memory statement_clone_memory statement_remove_unions_memory statement_remove_unions_null statement_dispatch_memory stmtsAt_exists'),'The heap model of statement.c, except the readers and printers; the data of the extensions are any structure with a description of its free and clone functions (DataMem).')
c('C55','proved',q('Osl.Mem.','scop_free_memory scop_add_memory scop_number_memory scop_clone_memory scop_normalize_scattering_memory relation_extend_output_memory scop_remove_unions_memory scop_remove_unions_no_leak scopsAt_exists scop_remove_unions_leak scop_add_double_free'),'Exact for every function. The ideal (remove_unions loses no memory) is refuted by scop_remove_unions_memory and scop_remove_unions_leak.')
c('C56','proved',q('Osl.Mem.','data_free_memory data_clone_memory body_free_memory body_clone_memory extbody_add_memory arrays_add_memory annotation_append_prefix_memory annotation_append_suffix_memory region_free_memory region_clone_memory region_count_memory loop_free_memory loop_clone_memory loop_add_memory loop_count_memory dependence_free_memory dependence_clone_memory dependence_count_memory dependence_add_memory unroll_free_memory unroll_clone_memory symbols_free_memory symbols_add_memory symbols_count_memory symbols_nclone_memory symbols_clone_memory memAt_fns lib_generic_free_memory lib_generic_clone_memory lib_statement_free_memory lib_statement_clone_memory lib_scop_free_memory lib_scop_clone_memory lib_scop_remove_unions_memory lib_scop_copy_outlives libScopsAt_exists annotation_free_null annotation_append_double_free generic_wrong_kind_undefined'),'The heap model of the free and clone functions of all 18 extensions and of their dispatch through the interfaces; annotation_free_null is the exception; the last two theorems show misuses.')
IR='Osl.Ext.Irregular.'
c('C57','proved',q(IR,'irregular_history irregular_add_control irregular_add_exit irregular_add_predicates'),'')
c('C58','proved',q(IR,'irregular_buffer_fits irregular_sprint irregular_read_no_predicates irregular_read_predicates_violates irregular_text_iff irregular_clone_iff irregular_equal_same_sizes irregular_equal_statements_violates irregular_equal_cancels irregular_equal_null'),'Exact; the ideal (read back, copied and compared by content) is refuted for all extensions with a predicate. irregular_equal_cancels shows that with different numbers of iterators two differences can cancel out, or the test reads out of bounds.')
c('C59','proved',q(R,'relation_spprint_total relation_sprint_total relation_names_cover relation_print_read relation_print_sread relation_sprint_access_iff relation_sprint_wide_violates'),'The bound on the rows is explicit and needed (relation_sprint_wide_violates).')
c('C60','proved',q(T,'statement_print_total')+q(P,'scop_names_cover scop_print_total scop_print_checked scop_print_read')+q('Osl.Data.','scop_default_print_read scop_print_params_violates scop_print_arrays_violates scop_print_empty_violates'),'For any registry, and with conditions on the contents only for the default registry. The conditions are needed (witnesses accepted by the integrity check): fewer names than parameters, an arrays extension which does not name all accessed arrays, a scop without any relation.')
c('C61','proved',q('Osl.Rel.','relation_pread_wellformed relation_psread_wellformed relation_pread_lines relation_read_print_read relation_pread_short_row_violates relation_pread_word_violates relation_pread_end_violates')+q('Osl.RList.','list_pread_wellformed')+q('Osl.GList.','generic_read_wellformed')+q('Osl.Strings.','sread_words')+q(T,'statement_pread_wellformed')+q(P,'scop_pread_wellformed scop_read_print_read')+q('Osl.Data.','scop_read_print_read_comment_violates'),'Well-formedness for every file without any hypothesis, and the exact lines a relation comes from. The ideal (rows with missing or malformed entries are refused, the end of the file is an error, every scop is stable) is refuted by the _violates theorems.')
c('C62','proved',q('Osl.Rel.','relation_pread_same relation_pread_long_comment_violates')+q('Osl.RList.','list_pread_same')+q('Osl.Util.','fread_int_same fread_string_same fread_line_same')+q('Osl.','Strings.read_same'),'For files whose lines fit the reading buffer; the witness shows that this is needed (the end of a long comment is read as data).')
c('C63','proved',q('Osl.Rel.','relation_pread_local')+q('Osl.RList.','list_pread_local')+q(T,'statement_pread_local')+q(P,'scop_pread_append')+q('Osl.Data.','scop_pread_append_violates relation_pread_local_violates'),'The two witnesses show that the end of line between the files, and that something remains after the object, are needed.')
c('C64','proved',q('Osl.Rel.','relation_scoplib_says relation_scoplib_print scoplib_size_correct scoplib_fake_domain_iff scoplib_fake_scattering_iff')+q('Osl.','scoplib_fake_domain_violates scoplib_fake_scattering_violates scoplib_fake_union_violates'),'The ideal (the announced size is always right) is refuted, and the exact conditions are proved.')
c('C65','proved',q('Osl.RList.','scoplib_accesses_says scoplib_access_size_correct scoplib_accesses_two')+q('Osl.','scoplib_may_write_violates scoplib_access_union_violates scoplib_access_locals_violates'),'What the text says is exact for all lists of accesses. The ideal for the other lists is refuted: may-writes (written as ordinary matrices), unions of accesses and accesses with different numbers of local dimensions (witnesses).')
c('C66','proved',q('Osl.Scops.','scoplib_check_iff scoplib_check_refuses scoplib_check_sound scop_scoplib_says scop_scoplib_refused')+q('Osl.Data.','scoplib_default_says scoplib_default_rows')+q('Osl.','scoplib_check_null_violates scoplib_check_union_violates'),'For any registry and for the default one. Outside of these conditions: the check looks at the first part of a scattering only, and a missing scattering is a NULL dereference (witnesses).')
c('C67','proved',q('Osl.Rel.','scoplib_text_lossless relTable_inj accessTable_inj')+q('Osl.RList.','accessesTable_inj')+q('Osl.','scoplib_access_lost_violates scoplib_scalar_lost_violates'),'The ideal for all accesses is refuted: the check does not look at their output columns, and the access to a scalar is written as the access to the first element of an array (witnesses).')
c('C68','proved',q('Osl.Rel.','relation_comments_say relation_sprint_comments_say relation_headers_say')+q('Osl.Stmts.','statement_comments_say')+q('Osl.Scops.','scop_comments_say scop_comments_checked')+q('Osl.Data.','comment_name_violates'),'Proved for all relations, statements and scops of C59 and C60 whose given names start with no digit and hold no + or -; refuted without this condition (the names are copied without parentheses: witness). The names used are specified too (dimNames, StmtNames, ScopNames).')
DU='Osl.Dump.'
c('C69','proved',q(DU,'strings_shows vector_shows relation_shows relation_list_shows interface_shows names_shows body_shows generic_shows statement_shows scop_shows scop_dump_default_inj vector_ok_iff relation_ok_iff interface_ok_iff generic_ok_iff statement_ok_iff scop_ok_iff strings_null_as_empty strings_space_ambiguous'),'The conditions are needed: strings_null_as_empty and strings_space_ambiguous refute the ideal (a NULL array is displayed as an empty one, a space in a word separates words); the _ok_iff theorems say exactly when each function is defined.')
c('C70','proved',q(DU,'comment_shows clay_shows textual_shows null_shows scatinfos_shows scatnames_shows arrays_shows extbody_shows coordinates_shows unroll_shows loop_shows dependence_shows symbols_shows fnsAt_shows registry_default dependence_ok_iff symbols_ok_iff loop_ok_iff unroll_ok_iff irregular_ok_iff fns_ok_iff fns_null_ok_iff scop_dependence_undefined annotation_ambiguous region_ambiguous textual_elided comment_ambiguous'),'fns_ok_iff and fns_null_ok_iff decide when each function is defined. The ideal is refuted by scop_dependence_undefined (for every scop with dependences as read), annotation_ambiguous, region_ambiguous, textual_elided and comment_ambiguous.')
c('C71','proved',q(DU,'strings_level vector_level relation_level relation_list_level interface_level names_level body_level generic_level statement_level scop_level textual_level comment_level clay_level null_level scatinfos_level scatnames_level arrays_level coordinates_level extbody_level loop_level unroll_level dependence_level symbols_level fnsAt_level scop_dump_level ScopLine.of_shown annotation_level_violates region_level_violates'),'The ideal is refuted for annotation and region, at every level but 0.')
c('C72','proved',q('Osl.Mem.','print_read_memory print_read_free_memory printed_loses_nothing tagsFile_print plain_full lib_scop_read_memory lib_scop_read_free_memory closing_or_empty scop_read_stray_leak scop_read_memory scop_pread_memory statement_read_memory statement_pread_memory relation_list_pread_memory relation_pread_memory relation_psread_memory relation_psread_polylib_memory generic_sread_one_memory generic_read_one_memory generic_sread_memory generic_read_memory symbols_sread_memory data_sread_memory strings_sread_memory strings_read_memory body_sread_memory textual_sread_memory comment_sread_memory clay_sread_memory null_sread_memory coordinates_sread_memory scatnames_sread_memory scatinfos_sread_memory extbody_sread_memory arrays_sread_memory annotation_sread_memory region_sread_memory loop_sread_memory unroll_sread_memory dependence_psread_memory read_string_memory fread_string_memory read_line_memory read_tag_memory fread_tag_memory read_uptoflag_memory read_type_memory fread_type_memory'),'The precondition of each theorem is that the reader on texts (the model of C48 and C61) returns the object; the conclusion is that the heap holds the object and the lost tags, and nothing else. The ideal is refuted by scop_read_stray_leak; closing_or_empty says that only closing and empty tags are lost; printed_loses_nothing and print_read_memory say that a file written by osl_scop_print loses none (plain_full: the condition on the symbols holds unless symbols are nested in symbols).')
c('C73','proved',q('Osl.Mem.','vector_pmalloc_memory vector_malloc_memory vector_free_memory vector_free_null_memory vector_add_memory vector_add_same_memory vector_sub_memory vector_sub_same_memory vector_mul_scalar_memory vector_add_scalar_memory vector_tag_equality_memory vector_tag_inequality_memory vector_equal_memory vector_equal_same_memory vector_is_scalar_memory relation_replace_vector_memory relation_add_vector_memory relation_sub_vector_memory relation_from_vector_memory relation_insert_vector_memory relation_concat_vector_memory relation_insert_blank_row_memory relation_swap_constraints_memory vecAt_exists vector_double_free_ub'),'The precondition of each theorem is that the function on values (C11, C15, C17) succeeds; the conclusion is a separation logic triple with the arguments and the result and nothing else. vecAt_exists: the hypotheses can be met for all vectors and relations.')
c('C74','proved',q('Osl.Mem.','safe_strcat_memory subexpression_memory simple_output_memory sprint_comment_memory relation_strings_memory column_string_memory spprint_polylib_memory relation_spprint_memory relation_sprint_memory relation_pprint_memory relation_print_memory relation_print_total_memory list_pprint_elts_memory list_pprint_memory list_print_memory strings_sprint_memory strings_print_memory body_sprint_memory body_print_memory comment_sprint_memory clay_sprint_memory textual_sprint_memory null_sprint_memory coordinates_sprint_memory scatnames_sprint_memory scatinfos_sprint_memory extbody_sprint_memory arrays_sprint_memory annotation_sprint_memory region_sprint_memory loop_sprint_memory unroll_sprint_memory dependence_sprint_memory dependence_print_memory generic_sprint_memory generic_print_memory symbols_sprint_memory data_sprint_memory lib_generic_sprint_memory lib_generic_print_memory arrays_to_strings_memory statement_pprint_memory statement_print_memory scop_print_memory lib_statement_pprint_memory lib_statement_print_memory lib_scop_print_memory'),'The precondition of each theorem is that the function on values prints a text (it does for the relations of C35: relation_print_total_memory) and that the coefficients can be stored in their precision; the conclusion is a separation logic triple with the arguments, the string and nothing else.')
c('C75','proved',q('Osl.Mem.','relation_is_access_query relation_get_array_id_query relation_get_attributes_query relation_integrity_check_query relation_equal_query relation_equal_self_query list_get_attributes_query list_integrity_check_query list_equal_query list_equal_self_query strings_size_query strings_equal_query strings_equal_self_query body_equal_query interface_equal_query generic_number_query generic_has_uri_query generic_lookup_finds generic_equal_query generic_equal_self_query statement_number_query statement_get_attributes_query statement_get_nb_iterators_query statement_integrity_check_query statement_equal_query statement_equal_self_query statement_get_body_finds scop_number_query scop_get_attributes_query scop_get_nb_parameters_query scop_integrity_check_query scop_equal_query scop_equal_self_query scop_check_compatible_scoplib_query scatnames_equal_query textual_equal_query comment_equal_query clay_equal_query null_equal_query coordinates_equal_query scatinfos_equal_query extbody_equal_query arrays_equal_query annotation_equal_query region_equal_query loop_equal_query unroll_equal_query dependence_equal_query symbols_equal_query data_equal_query lib_generic_equal_query lib_statement_equal_query lib_statement_integrity_check_query lib_statement_get_body_finds lib_scop_equal_query lib_scop_integrity_check_query lib_scop_check_compatible_scoplib_query two_scops_exist'),'Query P m v says: in every memory which has P in it, m answers v and the memory is the same one. The precondition of each theorem is that the function on values answers; the functions on values which do not answer (osl_dependence_equal with one NULL list, osl_region_equal on equal lists) are undefined or do not end in C as well.')
c('C76','proved',q('Osl.Mem.','relation_set_type_memory relation_set_attributes_memory relation_set_attributes_one_memory relation_set_attributes_one_null relation_set_precision_memory relation_set_same_precision_memory scop_register_extension_memory strings_find_query arrays_get_index_from_id_query arrays_get_index_from_name_query'),'For osl_scop_register_extension when an extension is found under the URI, see C33: the data is used as a generic, which is undefined.')
c('C77','proved',q('Osl.Mem.','int_init_memory int_malloc_memory int_free_memory int_assign_memory int_oppose_memory int_abs_memory int_mul_si_memory int_add_si_memory int_increment_memory int_decrement_memory int_add_memory int_sub_memory int_mul_memory int_div_exact_memory int_floor_div_q_memory int_floor_div_r_memory int_mod_memory int_gcd_memory int_lcm_memory int_set_si_memory int_set_long_memory int_set_long_long_memory int_init_set_si_memory int_init_set_long_memory int_init_set_long_long_memory int_init_set_memory int_swap_memory int_unknown_memory int_get_si_memory int_get_long_memory int_get_long_long_memory int_pos_memory int_neg_memory int_zero_memory int_one_memory int_mone_memory int_size_in_base_2_memory int_eq_memory int_ne_memory int_lt_memory int_le_memory int_gt_memory int_ge_memory int_divisible_memory int_floor_div_q_r_does int_add_si_does int_sub_does int_mul_does int_mul_si_does int_floor_div_q_does int_floor_div_r_does int_mod_does int_lcm_does op1_does op2_does int_misuse_ub arrAt_exists'),'Does P m o Q says: from every memory with P in it, the run m ends with the outcome o of the function on values (a value w and the memory Q w, an error, or undefined behaviour). call2 f v r a b is the C call f(&v[r], v[a], v[b]), for any indices. The theorems on values (C01 to C08) say what the outcomes are.')
c('C78','proved',q('Osl.Mem.','irregular_malloc_memory irregular_free_memory irregular_add_control_memory irregular_add_exit_memory irregular_add_predicates_memory irregular_clone_memory irregular_clone_undef_memory irregular_equal_query irregular_equal_self_memory irregular_sprint_memory irregular_sread_memory makes_irr'),'The theorems on values (C57, C58) say what the structures and texts are. UndefFrom P m: the run is undefined from every memory with P in it. The clone writes the body after the end of the array of the iterators (source/extensions/irregular.c:462), so that irregular_clone_memory has only structures without predicates (and NULL) to speak of, and irregular_clone_undef_memory covers all the others. The rest of the string which strtok keeps between two calls is a value in the model.')
c('C79','proved',q('Osl.Mem.','column_string_scoplib_memory relation_spprint_scoplib_memory spprint_polylib_scoplib_pin relation_pprint_scoplib_memory list_pprint_access_memory body_print_scoplib_memory generic_print_options_scoplib_memory statement_pprint_scoplib_memory scop_print_scoplib_memory scop_print_scoplib_refused_memory lib_statement_pprint_scoplib_memory lib_generic_print_options_scoplib_memory lib_scop_print_scoplib_memory handScop_scoplib'),'The theorems on values (C64 to C67) say what the texts are. Where the function on values is undefined (a NULL domain, data of another kind) nothing is claimed; an incompatible scop ends the program.')
c('C80','proved',q('Osl.Mem.','strings_idump_memory vector_idump_memory relation_idump_memory relation_list_idump_memory interface_idump_memory generic_idump_memory statement_idump_memory scop_idump_memory names_idump_memory body_idump_memory textual_idump_memory comment_idump_memory clay_idump_memory null_idump_memory scatinfos_idump_memory scatnames_idump_memory arrays_idump_memory coordinates_idump_memory extbody_idump_memory loop_idump_memory unroll_idump_memory annotation_idump_memory region_idump_memory irregular_idump_memory symbols_idump_memory dependence_idump_memory lib_dumps lib_generic_idump_memory lib_statement_idump_memory lib_scop_idump_memory lib_scop_dump_memory'),'The theorems on values (C69 to C71) say what the texts are. Where the function on values is undefined (the display of dependences as read, whose pointers to statements are NULL; a NULL annotation) nothing is claimed.')
c('C81','proved',q('Osl.Client.','call_memory history_memory history_no_leak history_leak history_allocator client_memory client_leak'),'Clients make 103 kinds of calls of vectors, relations, relation lists, extension lists, statements and scops, with the extensions of the default registry and symbols nested at any depth; a rule of ownership which is broken makes the run on values undefined, as does a statement lost by osl_scop_remove_unions (C55) and, for the printing functions, a value which is not in the type of its integers. Fields of statements and scops are exchanged with a variable. Functions not in the list are covered by their own triples (C50-C56, C72-C80).')
c('C82','proved',q('Osl.Rel.','relation_step_stored relation_history_stored relation_pread_stored relation_psread_stored')+q('Osl.RList.','list_pread_stored')+q('Osl.Stmts.','pread_kept remove_unions_stored')+q('Osl.Scops.','read_stored clone_stored remove_unions_stored normalize_stored')+q('Osl.','libAt_keeps')+q('Osl.Client.','run_fits history_fits runPlain_eq runsPlain_eq runClientPlain_eq history_memory_plain client_memory_plain'),'Whether an integer fits is InPrec (the type of the precision; any integer for GMP). runPlain is the run of C81 without the conditions of the printing calls.')
c('C83','proved',q('Osl.Client.','run_defined history_defined history_safe print_scoplib_defined rows_meets reads_meets writes_meets')+q('Osl.Rel.','set_precision_defined extend_output_defined insert_constraints_defined insert_columns_defined remove_row_defined swap_constraints_defined replace_vector_defined add_vector_defined sub_vector_defined equal_defined get_array_id_defined integrity_check_defined')+q('Osl.Vec.','add_scalar_defined add_defined sub_defined mul_scalar_defined equal_defined')+q('Osl.RList.','integrity_check_defined print_defined')+q('Osl.','copy_defined match_defined text_defined')+q('Osl.Rel.','pread_defined')+q('Osl.RList.','pread_defined')+q('Osl.Scops.','read_defined')+q('Osl.Stmts.','clone_defined nclone_defined remove_unions_defined equal_defined integrity_check_defined')+q('Osl.Scops.','clone_defined remove_unions_defined normalize_scattering_defined equal_defined integrity_check_defined check_compatible_scoplib_defined')+q('Osl.Dump.','relation_defined relation_list_defined show_defined statement_defined scop_defined'),'Pre (Verif/DefinedHistory.lean) is the list of preconditions, for all the 103 kinds of calls. Undefined is a read or write outside of a matrix, a text which does not fit its buffer, a division by zero, an overflow of a signed type and a NULL dereference. The readers are covered for files which the library wrote (Written).')
