{"id": "C01", "title": "Integer addition is exact or reported", "statement": "osl_int_add and osl_int_add_si store the exact sum whenever it is representable in the chosen precision (always in multiple precision); when it is not, a debug build terminates with an error, and an NDEBUG build overflows (undefined in ISO C, reduced modulo 2^w with wrapping arithmetic). The only exceptions in a debug build are a negative first operand with a second operand which is the least value of the type (osl_int_add: the overflow is not reported) or the least int (osl_int_add_si: undefined in ISO C even if the sum is representable; unreported with wrapping arithmetic).", "ideal": "osl_int_add and osl_int_add_si either store the exact mathematical sum, representable in the chosen precision, or terminate with an error; they never store a wrong value, and they report an error exactly when the sum is not representable (single/double precision), and never in multiple precision.", "quantifier": "every precision, every pair of representable operands, debug and NDEBUG builds, ISO and wrapping arithmetic", "why_tests_cant": "2^128 operand pairs; only boundary pairs go wrong", "anchors": ["source/int.c: osl_int_add, osl_int_add_si", "include/osl/int.h"]}
{"id": "C02", "title": "Integer subtraction is exact or reported", "statement": "osl_int_sub stores the exact difference whenever it is representable, and in a debug build terminates with an error when it is not (in an NDEBUG build it overflows), unless the second operand is the least value of the type: it is then undefined in ISO C, whatever the first operand, and with wrapping arithmetic it is exact if representable and otherwise unreported.", "ideal": "osl_int_sub stores the exact difference or terminates with an error, for every pair of representable operands whose exact difference is, respectively is not, representable.", "quantifier": "every precision, every pair of representable operands, debug and NDEBUG builds, ISO and wrapping arithmetic", "why_tests_cant": "only the boundary operand (most negative value) misbehaves", "anchors": ["source/int.c: osl_int_sub, osl_int_oppose"]}
{"id": "C03", "title": "Integer multiplication is exact or reported", "statement": "osl_int_mul and osl_int_mul_si store the exact product whenever it is representable. When it is not: undefined behaviour in ISO C; with wrapping arithmetic an error in a debug build (undefined for the least value times -1) and a silently reduced product in an NDEBUG build.", "ideal": "osl_int_mul and osl_int_mul_si store the exact product or terminate with an error, without executing undefined behaviour.", "quantifier": "every precision, every pair of representable operands, debug and NDEBUG builds, ISO and wrapping arithmetic", "why_tests_cant": "undefined behaviour on overflow shows up only on some operands and compilers", "anchors": ["source/int.c: osl_int_mul, osl_int_mul_si"]}
{"id": "C04", "title": "Floor division and its remainder", "statement": "For a non-zero divisor, and except for the least value of the type divided by -1 (undefined), osl_int_floor_div_q stores floor(a/b). osl_int_floor_div_r stores a - b*floor(a/b), which has the sign of b and magnitude below |b|, and osl_int_floor_div_q_r stores both: with wrapping arithmetic always, in ISO C exactly when the intermediate product b*floor(a/b) is representable, and they are undefined otherwise.", "ideal": "osl_int_floor_div_q stores floor(a/b); osl_int_floor_div_r stores a - b*floor(a/b), which has the sign of b and magnitude below |b|; osl_int_floor_div_q_r stores both at once and agrees with the two separate functions.", "quantifier": "every precision, every representable dividend and divisor", "why_tests_cant": "sign combinations and boundary magnitudes over an unbounded domain", "anchors": ["source/int.c: osl_int_floor_div_q, osl_int_floor_div_r, osl_int_floor_div_q_r"]}
{"id": "C05", "title": "Modulo range, exact division and divisibility test", "statement": "osl_int_mod stores the unique r congruent to a modulo b with 0 <= r < |b|; it is undefined exactly for b = 0, for the least value by -1, and for the least divisor with another negative dividend. osl_int_divisible answers true exactly when b divides a, and is undefined exactly for the least value by -1 and (fixed precisions) b = 0. osl_int_div_exact stores the quotient when b divides a; in fixed precision it otherwise truncates towards zero; it is undefined exactly for b = 0, the least value by -1 and inexact multiple precision divisions.", "ideal": "osl_int_mod stores the unique r congruent to a modulo b with 0 <= r < |b|; osl_int_divisible answers true exactly when b divides a; osl_int_div_exact then stores q with q*b = a.", "quantifier": "every precision, every representable dividend and divisor", "why_tests_cant": "needs all sign combinations and boundary values", "anchors": ["source/int.c: osl_int_mod, osl_int_div_exact, osl_int_divisible"]}
{"id": "C06", "title": "Greatest common divisor and least common multiple", "statement": "osl_int_gcd stores the non-negative greatest common divisor; it is undefined exactly when the divisor is not representable (2^(w-1)) and, in 64 bits, for the least value and -1 in either order. osl_int_lcm stores the non-negative least common multiple (0 when an operand is 0); in ISO C it is undefined exactly when an operand is the least value of the type or the multiple is not representable.", "ideal": "osl_int_gcd stores the non-negative greatest common divisor; osl_int_lcm stores the non-negative least common multiple (0 when an operand is 0), or is undefined only when the result does not fit.", "quantifier": "every precision, every pair of representable operands (least common multiple: ISO C arithmetic)", "why_tests_cant": "the Euclid loop must terminate with the right answer for every input", "anchors": ["source/int.c: osl_int_gcd, osl_int_lcm"]}
{"id": "C07", "title": "Integer comparisons agree with the order of the integers", "statement": "osl_int_eq/ne, pos, neg, zero, one and mone decide exactly the corresponding relation on the mathematical values; osl_int_lt/le/gt/ge decide the order of the values, except in double precision where long int has 32 bits: there they decide the order of the values reduced modulo 2^32 to long int.", "ideal": "osl_int_eq/ne/lt/le/gt/ge, pos, neg, zero, one and mone decide exactly the corresponding relation on the mathematical values, hence are mutually consistent (trichotomy, antisymmetry, transitivity).", "quantifier": "every precision, every operand, 32-bit and 64-bit long int", "why_tests_cant": "a total-order law quantifies over all triples", "anchors": ["source/int.c: osl_int_eq, osl_int_ne, osl_int_pos, osl_int_neg, osl_int_zero, osl_int_one, osl_int_mone, osl_int_lt, osl_int_le, osl_int_gt, osl_int_ge"]}
{"id": "C08", "title": "Changing precision preserves the value or is reported", "statement": "osl_int_set_precision to the same precision changes nothing; to another one it keeps every value in the range of a C int; other values are an error in a debug build, and are silently replaced by another one (in fixed precision, the value modulo 2^32 in int) in an NDEBUG build. In a debug build osl_relation_set_precision keeps all entries or terminates with an error, and succeeds when they all are in the range of int.", "ideal": "osl_int_set_precision stores, in the new precision, the same mathematical value, or terminates with an error; it never silently stores another value.", "quantifier": "every pair of supported precisions, every representable value, debug and NDEBUG builds, relations of any size", "why_tests_cant": "values beyond the C int range are rarely sampled", "anchors": ["source/int.c: osl_int_set_precision, osl_int_get_si, osl_int_set_si"]}
{"id": "C09", "title": "Sign changes, assignment, swap, increment and sizes", "statement": "osl_int_assign copies, osl_int_swap exchanges, osl_int_oppose negates, osl_int_abs takes the absolute value (both overflow exactly at the least value of the type), osl_int_increment/decrement add/subtract one or report, osl_int_size_in_base_2/10 count digits (0 has no decimal digit), and are undefined for the least long long int.", "ideal": "osl_int_assign copies, osl_int_swap exchanges, osl_int_oppose negates, osl_int_abs takes the absolute value, osl_int_increment/decrement add/subtract one, osl_int_size_in_base_2/10 count digits; each result is exact or the operation is reported or undefined exactly at the non representable boundary.", "quantifier": "every precision, every operand", "why_tests_cant": "boundary operands", "anchors": ["source/int.c: osl_int_assign, osl_int_swap, osl_int_oppose, osl_int_abs, osl_int_increment, osl_int_decrement, osl_int_size_in_base_2, osl_int_size_in_base_10"]}
{"id": "C10", "title": "Integer text round trip", "statement": "Reading with osl_int_sread the text written by osl_int_sprint gives back the same value.", "quantifier": "every precision and every representable value", "why_tests_cant": "an infinite set of values", "anchors": ["source/int.c: osl_int_sprint, osl_int_sprint_txt, osl_int_sread, osl_int_print"]}
{"id": "C11", "title": "Vector arithmetic is componentwise and guarded", "statement": "osl_vector_add and osl_vector_sub give the componentwise sum/difference for equal sizes and precisions, when all of them are representable (and no component of the second operand of osl_vector_sub is the least value, see C02), never a wrong component in a debug build, and terminate with an error for different sizes or precisions; osl_vector_add_scalar changes only the last component; osl_vector_mul_scalar scales every component; the operands are not modified.", "quantifier": "all vectors of any size, all scalars", "why_tests_cant": "unbounded sizes and contents", "anchors": ["source/vector.c: osl_vector_add, osl_vector_sub, osl_vector_add_scalar, osl_vector_add_scalar_into, osl_vector_mul_scalar, osl_vector_tag_equality, osl_vector_tag_inequality, osl_vector_equal, osl_vector_is_scalar"]}
{"id": "C12", "title": "Relation clone is faithful", "statement": "osl_relation_clone of a well-shaped relation succeeds and gives a relation equal to its argument for osl_relation_equal, part for part; osl_relation_nclone copies exactly the first n parts (all for -1) and reports an error when there are fewer; osl_relation_clone_nconstraints copies exactly the first n constraints.", "quantifier": "every relation, every union length, every n", "why_tests_cant": "unbounded unions and matrices", "anchors": ["source/relation.c: osl_relation_clone, osl_relation_nclone, osl_relation_clone_nconstraints"]}
{"id": "C13", "title": "Relation equality is exact", "statement": "osl_relation_equal answers 1 exactly when the two unions have the same number of parts and corresponding parts have the same type, precision, dimensions, parameters and matrix coefficients; it is reflexive, symmetric and transitive.", "quantifier": "every pair/triple of relations", "why_tests_cant": "laws over all triples", "anchors": ["source/relation.c: osl_relation_equal, osl_relation_part_equal"]}
{"id": "C14", "title": "Union denotes set union", "statement": "osl_relation_union(a,b) denotes the union of the sets of points of a and b, keeps a's parts then b's parts and leaves a and b unchanged; osl_relation_add appends the parts.", "quantifier": "every pair of relations, every integer point", "why_tests_cant": "quantifies over all points of possibly infinite sets", "anchors": ["source/relation.c: osl_relation_union, osl_relation_add, osl_relation_nb_components"]}
{"id": "C15", "title": "Adding constraints denotes intersection", "statement": "osl_relation_insert_vector, osl_relation_insert_constraints, osl_relation_concat_vector and osl_relation_concat_constraints yield a relation whose points are exactly those satisfying both the old and the added constraints, whatever the insertion row; mismatching columns or precision or an out of range row is reported as an error.", "quantifier": "every relation, every constraint set, every insertion row, every point", "why_tests_cant": "semantic equality over all points", "anchors": ["source/relation.c: osl_relation_insert_vector, osl_relation_insert_constraints, osl_relation_concat_vector, osl_relation_concat_constraints, osl_relation_replace_constraints, osl_relation_insert_blank_row"]}
{"id": "C16", "title": "Swapping, blank and removed constraints", "statement": "osl_relation_swap_constraints exchanges two rows and does not change the denoted set; inserting a blank row does not change it; osl_relation_remove_row removes exactly the given row, so the set can only grow; out of range rows are errors.", "quantifier": "every relation, every row index, every point", "why_tests_cant": "semantic statement over all points", "anchors": ["source/relation.c: osl_relation_swap_constraints, osl_relation_insert_blank_row, osl_relation_remove_row"]}
{"id": "C17", "title": "Combining a constraint with a vector is sound", "statement": "After osl_relation_add_vector(r, v, row) every point satisfying both the constraint at row and the constraint v satisfies the new constraint; likewise osl_relation_sub_vector for an equality v.", "quantifier": "every relation, vector, row and point", "why_tests_cant": "soundness of a linear combination for all points", "anchors": ["source/relation.c: osl_relation_add_vector, osl_relation_sub_vector"]}
{"id": "C18", "title": "Column insertion and removal", "statement": "osl_relation_insert_blank_column adds an unconstrained dimension (value of the new dimension is irrelevant to membership); osl_relation_remove_column undoes it; osl_relation_insert_columns places the given columns in order; every row keeps the same length.", "quantifier": "every relation, every column index", "why_tests_cant": "all shapes and indices", "anchors": ["source/relation.c: osl_relation_insert_blank_column, osl_relation_remove_column, osl_relation_insert_columns"]}
{"id": "C19", "title": "Matrix shape invariant", "statement": "After any sequence of successful relation operations, the matrix really has nb_rows rows of nb_columns entries, so no operation reads or writes out of bounds on its own account.", "quantifier": "every sequence of operations from an allocated relation", "why_tests_cant": "histories are unbounded", "anchors": ["source/relation.c: osl_relation_pmalloc and all row/column operations"]}
{"id": "C20", "title": "Extending output dimensions", "statement": "osl_relation_extend_output(r, dim) gives a relation with exactly dim output dimensions in every part whose points are the old points with the added output coordinates equal to zero; it reports an error if a part already has more than dim.", "quantifier": "every relation, every dim, every point", "why_tests_cant": "all points, all unions", "anchors": ["source/relation.c: osl_relation_extend_output"]}
{"id": "C21", "title": "Array identifier extraction", "statement": "osl_relation_get_array_id of an access relation returns the identifier k such that every part contains an equality fixing the first output dimension to the constant k and no other, and OSL_UNDEFINED when there is no such identifier.", "quantifier": "every access relation", "why_tests_cant": "all matrices and unions", "anchors": ["source/relation.c: osl_relation_get_array_id, osl_relation_is_access"]}
{"id": "C22", "title": "Relation integrity check is sound", "statement": "osl_relation_integrity_check answers 1 exactly on the NULL relation and on the relations such that: the type of the first part is the expected one; the dimensions of all parts are the expected ones where they are given and are known, except the number of local dimensions of the later parts; nb_columns = output+input+local+parameters+2 where the local dimensions are known; every first column entry is 0 or 1; and an access relation has a positive array identifier, the same in all parts. Hence, for a union whose parts have one type and known local dimensions, no malformed relation is accepted. osl_relation_list_integrity_check answers 1 exactly when every element passes.", "ideal": "When osl_relation_integrity_check answers 1, every part has the expected attributes, nb_columns = output+input+local+parameters+2, every first column entry is 0 or 1, and an access relation has an array identifier; no malformed relation is accepted.", "quantifier": "every relation and list of relations whose matrices have the announced size, every expected shape", "why_tests_cant": "soundness over all inputs", "anchors": ["source/relation.c: osl_relation_integrity_check, osl_relation_check_attribute, osl_relation_check_nb_columns"]}
{"id": "C23", "title": "Attribute maxima", "statement": "osl_relation_get_attributes and osl_relation_list_get_attributes raise each accumulated attribute to the maximum over all parts, never lower one.", "quantifier": "every relation/relation list, every accumulator", "why_tests_cant": "unbounded unions", "anchors": ["source/relation.c: osl_relation_get_attributes", "source/relation_list.c: osl_relation_list_get_attributes"]}
{"id": "C24", "title": "Relation text round trip", "statement": "Reading with osl_relation_pread from a file the text printed by osl_relation_pprint/osl_relation_sprint gives the same relation (all parts taking the type of the first one) and leaves the file just after the text; reading it with osl_relation_psread from a string gives the same relation except that the parts after the first one lose their type, hence an equal relation exactly when these have none.", "ideal": "Reading with osl_relation_pread/osl_relation_psread the text printed by osl_relation_sprint gives an equal relation.", "quantifier": "every well-formed relation with a known type, including unions, printed with any names, in lines which fit the reading buffer", "why_tests_cant": "unbounded contents; only some unions fail", "anchors": ["source/relation.c: osl_relation_spprint, osl_relation_spprint_polylib, osl_relation_sprint_type, osl_relation_psread, osl_relation_psread_polylib, osl_relation_pread, osl_relation_read_type"]}
{"id": "C25", "title": "Relation list used as a stack", "statement": "osl_relation_list_push of one node followed by pop returns the pushed relation and restores the list; of a list of several nodes, push keeps the first one only; dup duplicates the top as an equal relation; drop removes and forgets the top; destroy empties the list; popping an empty list is NULL; every history of such operations behaves as a stack.", "ideal": "osl_relation_list_push followed by pop returns the pushed relation and restores the list; dup duplicates the top as an equal relation; drop removes and forgets the top; popping an empty list is NULL.", "quantifier": "every history of stack operations, every list", "why_tests_cant": "unbounded operation histories", "anchors": ["source/relation_list.c: osl_relation_list_push, osl_relation_list_pop, osl_relation_list_dup, osl_relation_list_drop"]}
{"id": "C26", "title": "Relation list filtering, counting and cloning", "statement": "osl_relation_list_filter returns exactly the elements of the requested type (all access kinds for OSL_TYPE_ACCESS) in order; osl_relation_list_count counts the non NULL elements; clone and concat preserve the sequence.", "quantifier": "every list, every type", "why_tests_cant": "unbounded lists", "anchors": ["source/relation_list.c: osl_relation_list_filter, osl_relation_list_count, osl_relation_list_clone, osl_relation_list_concat, osl_relation_list_add, osl_relation_list_equal"]}
{"id": "C27", "title": "Setting the type of a relation or list", "statement": "osl_relation_set_type gives the requested type to every part of the relation, osl_relation_set_attributes the requested attributes; osl_relation_list_set_type gives the type to the first part of every relation of the list and changes nothing else (hence to every part, when no relation is a union).", "ideal": "osl_relation_set_type and osl_relation_list_set_type give the requested type to every part of every relation.", "quantifier": "every relation and list", "why_tests_cant": "unions of several parts in lists are rarely tested", "anchors": ["source/relation.c: osl_relation_set_type", "source/relation_list.c: osl_relation_list_set_type"]}
{"id": "C28", "title": "Strings containers", "statement": "osl_strings_generate(p,n) is p1..pn for every 0 <= n < INT_MAX and undefined exactly otherwise; osl_strings_find gives the first index holding a string or the size/UNDEFINED; osl_strings_add appends; osl_strings_add_strings appends all the strings of its second argument, and is undefined exactly when this one is NULL or has no array, or when the first one is NULL and the second is not empty; clone is equal; osl_strings_equal is sequence equality.", "ideal": "osl_strings_generate(p,n) is p1..pn; osl_strings_find gives the first index holding a string or the size/UNDEFINED; osl_strings_add appends; clone is equal; osl_strings_equal is sequence equality.", "quantifier": "every string array, string and int", "why_tests_cant": "unbounded arrays", "anchors": ["source/strings.c: osl_strings_generate, osl_strings_find, osl_strings_add, osl_strings_clone, osl_strings_equal, osl_strings_size"]}
{"id": "C29", "title": "Strings text round trip", "statement": "Reading with osl_strings_sread the text printed by osl_strings_sprint gives an equal string array exactly when the array is not empty, for words without blanks or '#' (the empty array is read back as NULL).", "ideal": "Reading with osl_strings_sread the text printed by osl_strings_sprint gives an equal string array, for words without blanks or '#'.", "quantifier": "every array of words", "why_tests_cant": "unbounded arrays", "anchors": ["source/strings.c: osl_strings_sprint, osl_strings_sread"]}
{"id": "C30", "title": "Growing buffers never overflow", "statement": "osl_util_safe_strcat leaves destination = old ++ source with a capacity strictly above the length, over any sequence of appends, so no byte is written past the buffer.", "quantifier": "every sequence of appended strings", "why_tests_cant": "unbounded histories", "anchors": ["source/util.c: osl_util_safe_strcat"]}
{"id": "C31", "title": "Tag search", "statement": "osl_util_read_uptoflag returns exactly the text before the first occurrence of a non-empty flag and moves the input just after it (NULL and end of input if absent); osl_util_tag_content is NULL when <name>, or </name> after it, is missing, and otherwise returns the text between <name> and the first </name> after it without its first character (the end of line in well-formed files); it is undefined exactly when nothing is between the two.", "ideal": "osl_util_read_uptoflag returns exactly the text before the first occurrence of the flag and moves the input just after it (NULL and end of input if absent); osl_util_tag_content returns the text enclosed by <name> and </name>.", "quantifier": "every input text and flag", "why_tests_cant": "all texts", "anchors": ["source/util.c: osl_util_read_uptoflag, osl_util_read_uptoendtag, osl_util_tag_content"]}
{"id": "C32", "title": "Identifier substitution", "statement": "osl_util_identifier_substitution replaces exactly the isolated occurrences of the identifiers by their @j@ placeholder (parenthesised when needed) and copies everything else unchanged; it terminates.", "quantifier": "every expression and identifier array", "why_tests_cant": "all strings", "anchors": ["source/util.c: osl_util_identifier_substitution, osl_util_identifier_is_here, osl_util_lazy_isolated_identifier"]}
{"id": "C33", "title": "Interface registry has unique URIs", "statement": "Starting from any list without duplicates, osl_interface_add reports an error exactly when one of the added interfaces has no URI or the URI of a registered one; otherwise it appends them, and the URIs stay unique exactly when those of the added interfaces are distinct (always for one interface). osl_interface_lookup returns the interface registered under the URI; the default registry has 18 distinct URIs, and a clone contains the same interfaces. osl_scop_register_extension of one interface reports the same errors, registers it when the scop has no data under its URI, and is undefined otherwise.", "ideal": "Starting from any list without duplicates, osl_interface_add keeps URIs unique or reports an error; osl_interface_lookup returns the interface registered under the URI; the default registry has 18 distinct URIs, and a clone contains the same interfaces.", "quantifier": "every registry without duplicates, every list of interfaces, every history of registrations", "why_tests_cant": "unbounded histories", "anchors": ["source/interface.c: osl_interface_add, osl_interface_lookup, osl_interface_clone, osl_interface_nclone, osl_interface_get_default_registry"]}
{"id": "C34", "title": "Generic information list is an association by URI", "statement": "osl_generic_add reports an error exactly when one of the added extensions has no URI or the URI of an extension with data of the list; otherwise it appends them, and the URIs stay unique exactly when the added ones are distinct and differ from those of the extensions without data. After osl_generic_add, osl_generic_lookup returns the added data; other URIs are unaffected; osl_generic_remove removes the data: every history of additions of extensions with data and of removals is a map from URIs to data.", "ideal": "osl_generic_add then osl_generic_lookup returns the added data; other URIs are unaffected; osl_generic_remove removes the data; adding an already present URI is an error; the list never holds two entries of one URI.", "quantifier": "every list with unique URIs, every list of added extensions, every history of adds and removes", "why_tests_cant": "unbounded histories", "anchors": ["source/generic.c: osl_generic_add, osl_generic_lookup, osl_generic_remove, osl_generic_remove_node, osl_generic_has_URI, osl_generic_count"]}
{"id": "C35", "title": "Generic equality ignores order", "statement": "osl_generic_equal is independent of the order of the extensions, reflexive and symmetric on lists with unique URIs, and clone gives an equal list.", "quantifier": "every pair of extension lists", "why_tests_cant": "all permutations", "anchors": ["source/generic.c: osl_generic_equal, osl_generic_clone, osl_generic_nclone"]}
{"id": "C36", "title": "Extension text round trip", "statement": "osl_generic_sread of the text printed by osl_generic_sprint gives an equal extension list when each extension's own reader inverts its printer.", "quantifier": "every extension list", "why_tests_cant": "unbounded lists and contents", "anchors": ["source/generic.c: osl_generic_sprint, osl_generic_sread, osl_generic_sread_one"]}
{"id": "C37", "title": "Statement relation dispatch", "statement": "Dispatching a list of relations into a statement puts the only domain and only scattering in place and keeps all accesses in order, losing none; more than one domain or scattering, or an unexpected type, is an error.", "quantifier": "every relation list", "why_tests_cant": "unbounded lists", "anchors": ["source/statement.c: osl_statement_dispatch"]}
{"id": "C38", "title": "Union removal for a statement", "statement": "osl_statement_remove_unions yields one statement per pair (domain part, scattering part), each union-free, together executing exactly the same (iteration, time) pairs.", "quantifier": "every statement", "why_tests_cant": "cartesian product of unbounded unions, over all points", "anchors": ["source/statement.c: osl_statement_remove_unions"]}
{"id": "C39", "title": "Union removal for a SCoP", "statement": "osl_scop_remove_unions gives a scop whose statements are, in order, the first statement of the expansion of every statement but the last one, and all the expansion of the last one; everything else is the same or an equal copy. Hence all expansions are there when no statement but the last one has a union as domain or scattering.", "ideal": "osl_scop_remove_unions contains the expansion of every statement of the input, in order.", "quantifier": "every scop whose relations are well formed and whose extensions can be copied", "why_tests_cant": "fails only when an expanding statement is followed by others", "anchors": ["source/scop.c: osl_scop_remove_unions"]}
{"id": "C40", "title": "Scattering normalisation", "statement": "osl_scop_normalize_scattering gives all the parts of all scatterings of the scop the same number of output dimensions, the maximum over the first parts of the scatterings, completes the dates by zeros, which does not change their lexicographic order, and changes nothing else; it terminates with an error exactly when a later part of a scattering has more output dimensions than this maximum.", "ideal": "osl_scop_normalize_scattering gives all scatterings of the scop the same number of output dimensions, the previous maximum, and does not change the relative order of the original coordinates (padding by zeros).", "quantifier": "every scop whose scatterings have well-formed parts of one precision", "why_tests_cant": "unbounded statements and unions", "anchors": ["source/scop.c: osl_scop_normalize_scattering"]}
{"id": "C41", "title": "Statement and scop clones are equal", "statement": "osl_statement_clone and osl_scop_clone give objects equal to the original for osl_statement_equal and (for scops with a language) osl_scop_equal. The equality tests decide componentwise equality (the registries being compared by their first interface), and are undefined exactly when NULL is compared with a statement, respectively when the versions are the same and a language is NULL, or everything before the statements is the same and exactly one scop has no statement.", "ideal": "osl_statement_clone and osl_scop_clone give objects equal to the original for osl_statement_equal and osl_scop_equal; the equality tests decide componentwise equality.", "quantifier": "every statement list and scop list with well-formed relations and extensions whose own equality and clone functions answer", "why_tests_cant": "unbounded structures", "anchors": ["source/statement.c: osl_statement_clone, osl_statement_equal", "source/scop.c: osl_scop_clone, osl_scop_equal"]}
{"id": "C42", "title": "Statement and scop integrity", "statement": "When osl_scop_integrity_check answers 1, the context has no iterators, every domain, scattering and access has a parameter count equal to the context's and its input dimension equal to the number of iterators of its statement's domain.", "quantifier": "every scop", "why_tests_cant": "soundness over all scops", "anchors": ["source/scop.c: osl_scop_integrity_check", "source/statement.c: osl_statement_integrity_check"]}
{"id": "C43", "title": "Generated names", "statement": "osl_names_generate gives the requested numbers of parameter, iterator, scattering, local dimension and array names, each made of its prefix and a number starting from 1; the names are pairwise distinct when the prefixes are distinct and do not end with a digit.", "quantifier": "every count and prefix", "why_tests_cant": "unbounded counts", "anchors": ["source/names.c: osl_names_generate", "source/strings.c: osl_strings_generate"]}
{"id": "C44", "title": "Arrays extension", "statement": "osl_arrays_sread inverts osl_arrays_sprint (names being words); osl_arrays_add appends a pair; get_index_from_id/name return an index holding the key; to_strings puts the name of identifier k at position k-1, and is undefined exactly when an identifier is not positive or is INT_MAX; the equality answers 1 exactly when the numbers of pairs are the same and every pair of the first argument is in the second one, hence, when no pair is repeated, exactly on the same contents and independently of the order of the two arguments.", "ideal": "osl_arrays_sread inverts osl_arrays_sprint; osl_arrays_add appends a pair; get_index_from_id/name return an index holding the key; to_strings puts the name of identifier k at position k-1; equality is content equality, independent of the order of the two arguments.", "quantifier": "every arrays extension", "why_tests_cant": "unbounded tables", "anchors": ["source/extensions/arrays.c"]}
{"id": "C45", "title": "Coordinates, body, textual, comment, annotation, region, pluto_unroll, extbody text round trips", "statement": "For each of these extensions sread applied to the sprint text, after blanks, gives an equal extension when the content can be represented in the text: body (one expression on one line, starting with neither blank nor '#', without '#', and shorter than OSL_MAX_STRING; iterators which are words), comment and clay (shorter than OSL_MAX_STRING; clay not starting with an end of line), coordinates, annotation and region (non-empty lines without '#' which do not start with a blank, of less than OSL_MAX_STRING characters), pluto_unroll (such lines as iterators, factors in int, text shorter than OSL_MAX_STRING), extbody (with a body), scatnames (not empty), arrays, loop (lines not reading (null)), scatinfos. A textual extension has no text and is never read back.", "ideal": "For each of these extensions sread applied to the sprint text gives an equal extension.", "quantifier": "every extension value with such a content", "why_tests_cant": "unbounded contents", "anchors": ["source/extensions/coordinates.c", "source/body.c", "source/extensions/annotation.c", "source/extensions/region.c", "source/extensions/pluto_unroll.c", "source/extensions/extbody.c"]}
{"id": "C46", "title": "Extension equality is an equivalence", "statement": "What each equality function of the extensions answers: body, clay, coordinates, annotation, pluto_unroll, scatnames, scatinfos and dependence decide that the contents are the same (clay, coordinates and dependence being undefined on NULL components), hence are equivalences; comment always answers 1 on comments; region answers 0 on different lists and is undefined on equal ones; arrays and extbody answer 1 exactly when the sizes are the same, each element of the first is in the second and the bodies are equal, loop likewise up to Same: they are symmetric when no element is repeated; textual answers 1 always. The clone of every extension but region is equal to it.", "ideal": "Each extension's equal function is reflexive, symmetric and distinguishes different contents.", "quantifier": "every pair of extension values (loop: loops with names, distinct statement identifiers and the same NULL fields)", "why_tests_cant": "laws over all pairs", "anchors": ["source/extensions/*.c: *_equal"]}
{"id": "C47", "title": "Dependence list operations", "statement": "osl_dependence_add replaces what follows the node *now by the added list and moves *now to its last node, so it appends when *now is the last node, and any history of additions from NULL gives the concatenation; osl_nb_dependences counts; the clone is equal; the equality of non NULL lists decides the same contents (NULL against a list is undefined); sread inverts sprint for dependences with a named type and a domain of known type whose text can be read back (C24), and printing terminates with an error for other types.", "ideal": "osl_dependence_add appends a dependence list, osl_nb_dependences counts it, clone is equal, and sread inverts sprint.", "quantifier": "every dependence list", "why_tests_cant": "unbounded lists", "anchors": ["source/extensions/dependence.c"]}
{"id": "C48", "title": "Text round trip of whole scops", "statement": "The text written by osl_scop_print for a list of scops, read by osl_scop_pread with the same registry and precision, gives back an identical list: language, context, parameters, statements (domain, scattering, accesses in order, extensions) and global extensions. The same holds for relation lists (osl_relation_list_print/pread) and for a statement inside a file whatever follows it. Needed: relations in the precision asked for and with a type written by its name, extensions whose own reader inverts their printer and whose URIs are registered tag names, and lines shorter than OSL_MAX_STRING.", "quantifier": "every list of scops, every registry, every precision, every names structure, any text after the statement", "why_tests_cant": "unbounded numbers of scops, statements, relations, rows, columns and extensions, arbitrary coefficients and names", "anchors": ["source/scop.c: osl_scop_print, osl_scop_pread", "source/statement.c: osl_statement_pprint, osl_statement_pread", "source/relation_list.c: osl_relation_list_pprint_elts, osl_relation_list_pread", "source/generic.c: osl_generic_sprint, osl_generic_read_one, osl_generic_read"]}
{"id": "C49", "title": "Symbols extension", "statement": "osl_symbols_add appends a list of symbols, osl_symbols_get_nb_symbols counts them, osl_symbols_nclone copies the first n symbols (all of them for -1), a clone equals its original; osl_symbols_equal compares the first symbols of the two lists only, whatever follows: it is true exactly when both lists are NULL or these have the same numbers and equal parts; osl_symbols_sread inverts osl_symbols_sprint for symbols whose four parts are present, in a text of at most OSL_MAX_STRING characters, and refuses longer ones.", "ideal": "osl_symbols_add appends a list of symbols, osl_symbols_get_nb_symbols counts them, osl_symbols_nclone copies the first n symbols (all of them for -1), a clone equals its original, osl_symbols_equal is true exactly on equal lists of symbols, and osl_symbols_sread inverts osl_symbols_sprint.", "quantifier": "every list of symbols, every n, every behaviour of the nested extensions", "why_tests_cant": "unbounded lists with nested extensions of arbitrary kinds", "anchors": ["source/extensions/symbols.c: osl_symbols_add, osl_symbols_get_nb_symbols, osl_symbols_nclone, osl_symbols_clone, osl_symbols_equal, osl_symbols_sprint, osl_symbols_sread"]}
{"id": "C50", "title": "Memory of relations: no leak, no double free, no sharing", "statement": "osl_relation_free frees exactly the memory of a relation (all parts, matrices and GMP integers). Copies, unions and concatenations (osl_relation_clone, nclone, clone_nconstraints, union, concat_constraints) are entirely in newly allocated memory and leave their arguments unchanged, also when the two arguments are the same relation. In place operations (insert_constraints, insert_blank_column, remove_row, remove_column, insert_columns) replace the old matrix by a new one and free the old one; remove_part frees the part it removes, except the first of several, which stays allocated and linked. osl_relation_add links two different relations. No operation touches memory of other structures.", "ideal": "osl_relation_free frees exactly the memory of a relation (all parts, matrices and GMP integers). Copies, unions and concatenations (osl_relation_clone, nclone, clone_nconstraints, union, concat_constraints) are entirely in newly allocated memory and leave their arguments unchanged, also when the two arguments are the same relation. In place operations (insert_constraints, insert_blank_column, remove_row, remove_column, insert_columns, remove_part) replace the old matrix by a new one and free the old one. osl_relation_add links the two relations. No operation touches memory of other structures.", "quantifier": "every relation in memory, any other content of the memory, every behaviour of malloc, every precision", "why_tests_cant": "all heap shapes and all allocators, including reuse of freed addresses; a leak or an alias is not visible in results", "anchors": ["source/relation.c: osl_relation_pmalloc, osl_relation_free_inside, osl_relation_free, osl_relation_nclone, osl_relation_clone_nconstraints, osl_relation_clone, osl_relation_add, osl_relation_union, osl_relation_replace, osl_relation_insert_constraints, osl_relation_insert_columns, osl_relation_insert_blank_column, osl_relation_remove_row, osl_relation_remove_column, osl_relation_concat_constraints, osl_relation_remove_part", "source/int.c: osl_int_init_set_si, osl_int_assign, osl_int_clear"]}
{"id": "C51", "title": "Memory of relation lists and stacks", "statement": "osl_relation_list_free frees exactly the nodes and the relations of a list; node, clone, concat and filter make lists whose nodes and relations are all newly allocated and leave their arguments unchanged (filter frees the copies it does not keep); add links two lists; push of one node, pop, dup, drop and destroy act as a stack without losing or sharing nodes; push of a list of several nodes keeps the first one and leaks exactly the others; set_type writes in place; count writes nothing.", "ideal": "osl_relation_list_free frees exactly the nodes and the relations of a list; node, clone, concat and filter make lists whose nodes and relations are all newly allocated and leave their arguments unchanged (filter frees the copies it does not keep); add links two lists; push, pop, dup, drop and destroy act as a stack without losing or sharing nodes; set_type writes in place; count writes nothing.", "quantifier": "every relation list in memory, any other content of the memory, every behaviour of malloc", "why_tests_cant": "all heap shapes and all allocators; leaks and aliases are not visible in results", "anchors": ["source/relation_list.c: osl_relation_list_free, osl_relation_list_node, osl_relation_list_clone, osl_relation_list_concat, osl_relation_list_add, osl_relation_list_push, osl_relation_list_pop, osl_relation_list_dup, osl_relation_list_drop, osl_relation_list_destroy, osl_relation_list_set_type, osl_relation_list_filter, osl_relation_list_count"]}
{"id": "C52", "title": "Memory of strings and names", "statement": "osl_strings_free and osl_names_free free exactly the structure, its arrays and its strings; clone, generate, encapsulate and add_strings give structures in new memory (encapsulate takes over its argument; add_strings leaves both arguments unchanged, even when they are the same structure); add copies the word and moves the array, without leak and whatever realloc does; size only reads.", "quantifier": "every strings and names structure in memory, any other content of the memory, every behaviour of malloc", "why_tests_cant": "all heap shapes and all allocators; leaks and aliases are not visible in results", "anchors": ["source/strings.c: osl_strings_malloc, osl_strings_free, osl_strings_clone, osl_strings_add, osl_strings_size, osl_strings_encapsulate, osl_strings_generate, osl_strings_add_strings", "source/names.c: osl_names_malloc, osl_names_free, osl_names_generate, osl_names_clone"]}
{"id": "C53", "title": "Memory of interfaces and generics", "statement": "osl_interface_free and osl_generic_free free exactly the nodes, URIs, interfaces and data; number, count, lookup and equal only read; add links the new nodes after the list when no URI is known twice and copies nothing; nclone and clone give lists in new memory, also of the interfaces and the data; remove and remove_node free exactly the removed generic and keep the others; shell takes over its arguments; the default registry is 18 interfaces which are all freed by one call.", "quantifier": "every list of interfaces or generics in memory, every data type whose free and clone functions behave, any other content of the memory, every behaviour of malloc", "why_tests_cant": "all heap shapes, all data types and all allocators; leaks and aliases are not visible in results", "anchors": ["source/interface.c: osl_interface_malloc, osl_interface_free, osl_interface_number, osl_interface_nclone, osl_interface_clone, osl_interface_equal, osl_interface_lookup, osl_interface_add, osl_interface_get_default_registry", "source/generic.c: osl_generic_malloc, osl_generic_free, osl_generic_number, osl_generic_count, osl_generic_lookup, osl_generic_add, osl_generic_remove, osl_generic_remove_node, osl_generic_shell, osl_generic_nclone, osl_generic_clone"]}
{"id": "C54", "title": "Memory of statements", "statement": "osl_statement_free frees exactly the statements with their relations, accesses and extensions; add links without copying; number only reads; nclone, clone and remove_unions give statements in new memory and leave their argument; the distribution of a list of relations read for a statement (osl_statement_dispatch) moves or copies each relation and frees all the rest.", "quantifier": "every list of statements in memory, every data type of extension whose free and clone functions behave, any other content of the memory, every behaviour of malloc", "why_tests_cant": "all heap shapes and all allocators; leaks and aliases are not visible in results", "anchors": ["source/statement.c: osl_statement_malloc, osl_statement_free, osl_statement_add, osl_statement_number, osl_statement_nclone, osl_statement_clone, osl_statement_remove_unions, osl_statement_dispatch"]}
{"id": "C55", "title": "Memory of scops", "statement": "osl_scop_free frees exactly the scops with all they contain; add links without copying; number only reads; clone gives scops in new memory and leaves its argument; normalize_scattering replaces the scattering relations and frees the old ones, extend_output makes a new relation; remove_unions gives scops in new memory, leaves its argument, and loses exactly the memory of the statements it drops (C39): for every statement but the last one, all but the first statement made from it, hence nothing when only last statements have unions.", "ideal": "osl_scop_free frees exactly the scops with all they contain; add links without copying; number only reads; clone gives scops in new memory and leaves its argument; normalize_scattering replaces the scattering relations and frees the old ones, extend_output makes a new relation; remove_unions gives scops in new memory, leaves its argument, and loses no memory.", "quantifier": "every list of scops in memory, every data type of parameter and extension whose free and clone functions behave, any other content of the memory, every behaviour of malloc", "why_tests_cant": "all heap shapes and all allocators; leaks and aliases are not visible in results", "anchors": ["source/scop.c: osl_scop_malloc, osl_scop_free, osl_scop_add, osl_scop_number, osl_scop_clone, osl_scop_remove_unions, osl_scop_normalize_scattering", "source/relation.c: osl_relation_extend_output"]}
{"id": "C56", "title": "Memory of extension data and of whole scops", "statement": "For each of the 18 extensions of the default registry, the free function frees exactly the memory of the data (and accepts NULL, except osl_annotation_free, which dereferences it), and the clone function gives an equal structure in new memory and leaves its argument; the functions which add to them (osl_arrays_add, osl_annotation_append_*, osl_extbody_add, osl_loop_add, osl_symbols_add, osl_dependence_add) keep this true. Hence, with the default registry, a whole scop and its copy share no memory: the original can be freed without harm to the copy, and freeing both leaves nothing.", "ideal": "For each of the 18 extensions of the default registry, the free function frees exactly the memory of the data (and accepts NULL), and the clone function gives an equal structure in new memory and leaves its argument; the functions which add to them (osl_arrays_add, osl_annotation_append_*, osl_extbody_add, osl_loop_add, osl_symbols_add, osl_dependence_add) keep this true. Hence, with the default registry, a whole scop and its copy share no memory: the original can be freed without harm to the copy, and freeing both leaves nothing.", "quantifier": "every data of every registered extension whose relations have known precisions and rectangular matrices and whose scatinfos have arrays of one size, symbols being nested at any depth, every scop with such extensions, any other content of the memory, every behaviour of malloc", "why_tests_cant": "all heap shapes, nestings and allocators; leaks and aliases are not visible in results", "anchors": ["source/body.c: osl_body_free, osl_body_clone", "source/extensions/*.c: osl_*_malloc, osl_*_free, osl_*_clone", "source/extensions/arrays.c: osl_arrays_add", "source/extensions/annotation.c: osl_annotation_append_prefix", "source/extensions/extbody.c: osl_extbody_add", "source/extensions/symbols.c: osl_symbols_nclone, osl_symbols_add", "source/extensions/dependence.c: osl_dependence_add", "source/interface.c: osl_interface_get_default_registry"]}
{"id": "C57", "title": "Building an irregular extension", "statement": "Starting from osl_irregular_malloc, after any sequence of osl_irregular_add_control, osl_irregular_add_exit and osl_irregular_add_predicates the extension holds exactly the control predicates, the exit predicates and the statements which were added, each in the order of the additions, the control predicates being first; each call answers with a new extension which keeps everything else.", "quantifier": "every sequence of additions of fewer than 2^31 elements, all iterators, bodies and predicate numbers", "why_tests_cant": "all interleavings of the three kinds of additions; an index which is wrong after a control predicate is inserted before the exits only shows on some of them", "anchors": ["source/extensions/irregular.c: osl_irregular_malloc, osl_irregular_add_control, osl_irregular_add_exit, osl_irregular_add_predicates"]}
{"id": "C58", "title": "Irregular extension: text, copies, equality", "statement": "The text osl_irregular_sprint gives is read back by osl_irregular_sread as an equal extension exactly for empty extensions; no text with a predicate is read with its predicates; osl_irregular_clone gives the same extension exactly when there is no predicate, and writes out of bounds otherwise; osl_irregular_equal, on extensions whose corresponding predicates have as many iterators, answers 1 exactly when the predicates are the same and the statements have the same numbers of predicates (which ones they are is not compared).", "ideal": "The text osl_irregular_sprint gives is read back by osl_irregular_sread as an equal extension, osl_irregular_clone gives an equal extension, and osl_irregular_equal answers 1 exactly for the same content.", "quantifier": "every well-formed irregular extension whose text is shorter than OSL_MAX_STRING, every strcmp complying with C", "why_tests_cant": "all predicates, iterators and statements; undefined behaviours are not visible in results", "anchors": ["source/extensions/irregular.c: osl_irregular_sprint, osl_irregular_sread, osl_irregular_clone, osl_irregular_equal", "include/osl/macros.h: OSL_strdup"]}
{"id": "C59", "title": "Printing a relation succeeds", "statement": "osl_relation_sprint (and osl_relation_spprint with names covering the dimensions) gives a text for every well-formed relation whose rows fit in the buffers (PartFits), whose entries are not the least integer and whose access parts have a positive array identifier below INT_MAX: no buffer overflows, no name is missing; and osl_relation_pread then reads the very same relation back and leaves the file just after the text. For an access relation without array identifier, and exactly then, the printer writes out of bounds.", "ideal": "osl_relation_sprint (and osl_relation_spprint with names covering the dimensions) gives a text for every well-formed relation: no buffer overflows, no name is missing; and osl_relation_pread then reads the very same relation back and leaves the file just after the text.", "quantifier": "every relation with any number of parts, rows and columns, whose rows fit in the buffers of OSL_MAX_STRING bytes, all types, all entries but the least integer", "why_tests_cant": "unbounded contents; the overflows and out of bounds accesses only occur for some rows and are silent", "anchors": ["source/relation.c: osl_relation_spprint, osl_relation_sprint_comment, osl_relation_subexpression, osl_relation_expression_element, osl_relation_column_string, osl_relation_strings, osl_relation_names, osl_relation_get_attributes", "source/names.c: osl_names_generate", "source/strings.c: osl_strings_generate"]}
{"id": "C60", "title": "Printing a scop succeeds", "statement": "osl_scop_print writes the text of every list of scops which osl_scop_integrity_check accepts, with at least one relation, whose rows fit in the buffers and whose given names, if any, are enough for the parameters, the arrays and the iterators and have at most 12 characters: no buffer overflows and no name is missing, whatever the shapes of the relations; and osl_scop_pread then reads the very same list back. The same for osl_statement_print.", "ideal": "osl_scop_print writes the text of every list of scops which osl_scop_integrity_check accepts: no buffer overflows and no name is missing, whatever the shapes of the relations and the names given for the parameters, the arrays and the iterators; and osl_scop_pread then reads the very same list back. The same for osl_statement_print.", "quantifier": "every list of scops with any number of statements, relations, parts, rows, columns and extensions, whose rows fit in the buffers of OSL_MAX_STRING bytes, all types, all entries, all names", "why_tests_cant": "unbounded contents; the names come from three extensions and from the generator, a missing one is an out of bounds read which is silent", "anchors": ["source/scop.c: osl_scop_print, osl_scop_names, osl_scop_get_attributes, osl_scop_integrity_check", "source/statement.c: osl_statement_pprint, osl_statement_print, osl_statement_names", "source/relation_list.c: osl_relation_list_pprint_elts", "source/names.c: osl_names_generate, osl_names_clone", "source/extensions/arrays.c: osl_arrays_to_strings"]}
{"id": "C61", "title": "What is read is well formed, is what the text says, and is stable", "statement": "Whatever the file, when osl_relation_pread, osl_relation_list_pread, osl_statement_pread or osl_scop_pread returns an object, it is well formed: every relation part has the rows and columns its attributes announce, all entries fit the precision, the type is a known one and the same for all parts, each relation of a statement is in the place of its type, every extension has the interface the registry holds under its tag and the data its reader made, and no two of them with data have the same URI. The type, the attributes and the entries of a relation are those written on the lines of the file, in order, where an entry is the integer at the beginning of the word and a row ended by a blank repeats its last entry up to the announced number. Printing a relation which was read and reading the text gives the same relation again; likewise for scops when the texts of their extensions are stable.", "ideal": "Whatever the file, when osl_relation_pread, osl_relation_list_pread, osl_statement_pread or osl_scop_pread returns an object, it is well formed: every relation part has the rows and columns its attributes announce, all entries fit the precision, the type is a known one and the same for all parts, each relation of a statement is in the place of its type, every extension has the interface the registry holds under its tag and the data its reader made, and no two of them have the same URI. The type, the attributes and the entries of a relation are those written on the lines of the file, in order. Printing what was read and reading the text gives the same object again.", "quantifier": "every file (any bytes), every precision compiled in, every registry, every behaviour of the extensions", "why_tests_cant": "the input is any text; a malformed one could give an object violating the invariants that all other functions rely on", "anchors": ["source/relation.c: osl_relation_pread, osl_relation_psread", "source/relation_list.c: osl_relation_list_pread", "source/statement.c: osl_statement_pread", "source/scop.c: osl_scop_pread", "source/generic.c: osl_generic_read, osl_generic_read_one, osl_generic_sread", "source/int.c: osl_int_sread", "source/strings.c: osl_strings_sread"]}
{"id": "C62", "title": "Comments, blank lines and indentation are not read", "statement": "Adding, removing or changing comment lines, blank lines and the indentation of the lines of a file does not change what osl_relation_pread and osl_relation_list_pread read from it (nor whether they fail), and what remains to be read is again the same up to comments, blank lines and indentation.", "quantifier": "every two files with the same lines, comment lines, blank lines and indentation apart, of any length, whose lines fit the reading buffer", "why_tests_cant": "any number of comments at any place of any file, well formed or not", "anchors": ["source/util.c: osl_util_skip_blank_and_comments, osl_util_read_int, osl_util_read_string, osl_util_read_line", "source/relation.c: osl_relation_pread", "source/relation_list.c: osl_relation_list_pread", "source/strings.c: osl_strings_read"]}
{"id": "C63", "title": "A reader consumes its own text; files can be concatenated", "statement": "osl_relation_pread, osl_relation_list_pread and osl_statement_pread consume a first part of the file and what they return depends on this part only: if something remains after it, the same part followed by any other text gives the same object and leaves exactly that other text. Two files read by osl_scop_pread can be put one after the other, an end of line between them: the scops read from the result are those of the first file followed by those of the second one.", "quantifier": "every file of any length, every registry and every behaviour of the readers of the extensions, every precision, every text which follows", "why_tests_cant": "the text after an object is arbitrary and the number of scops of the two files is unbounded", "anchors": ["source/relation.c: osl_relation_pread", "source/relation_list.c: osl_relation_list_pread", "source/statement.c: osl_statement_pread", "source/scop.c: osl_scop_pread", "source/util.c: osl_util_read_uptoflag, osl_util_skip_blank_and_comments"]}
{"id": "C64", "title": "The SCoPLib text of a relation", "statement": "osl_relation_pprint_scoplib writes every relation whose parts have one type, and the text says exactly the number of parts of a union (if there are several), and for each part its size and its rows: all the columns but the input ones for a domain, all but the output ones otherwise, a zero column for the fake iterator. Without fake iterator, the size announced for each matrix is the number of rows and of entries which follow it; with a fake iterator (scatterings of at most three rows: the loop never ends otherwise) the row of a domain and the two rows of a scattering are added, and the announced size is right exactly for domains without iterator nor local dimension and for scatterings with one output dimension.", "ideal": "osl_relation_pprint_scoplib writes every relation, and the text says exactly the number of parts of a union (if there are several), and for each part its size and its rows: all the columns but the input ones for a domain, all but the output ones otherwise, a zero column for the fake iterator. The size announced for each matrix is the number of rows and of entries which follow it; with a fake iterator the row of a domain and the two rows of a scattering are added.", "quantifier": "every relation which fits in the buffers, with any number of parts, rows and columns, all entries, all names, with and without fake iterator and part numbers", "why_tests_cant": "unbounded contents; the sizes are computed from the dimensions and must agree with the loops which print the rows, whatever the dimensions", "anchors": ["source/relation.c: osl_relation_pprint_scoplib, osl_relation_spprint_scoplib, osl_relation_spprint_polylib_scoplib, osl_relation_column_string_scoplib"]}
{"id": "C65", "title": "The SCoPLib text of the accesses", "statement": "osl_relation_list_pprint_access_array_scoplib writes the accesses of a statement, and the text says the sizes and rows of the table accessesTables: the array identifier begins the first row of each access and zero the others. For reads and writes of one part each, with the same number of columns besides the output ones, it is one matrix of reads and one matrix of writes, and the announced sizes are the number of rows and of entries which follow.", "ideal": "osl_relation_list_pprint_access_array_scoplib writes the accesses of a statement as one matrix of reads and one matrix of writes (and one of may-writes if there are any): the array identifier begins the first row of each access and zero the others, and the announced sizes are the number of rows and of entries which follow.", "quantifier": "every list of accesses which fit in the buffers, any number of accesses, indices and dimensions", "why_tests_cant": "the size is computed by a first pass over an unbounded list, the rows by a second one", "anchors": ["source/relation_list.c: osl_relation_list_pprint_access_array_scoplib", "source/relation.c: osl_relation_spprint_scoplib"]}
{"id": "C66", "title": "Printing a compatible scop in the SCoPLib format", "statement": "osl_scop_check_compatible_scoplib answers 1 only for a single scop accepted by the integrity check, whose scatterings and domains have no local dimensions and whose scatterings have the opposite of the identity in their output columns (as seen in the first parts), and on scops whose statements have scatterings of one precision it answers 1 exactly for these and exits with an error otherwise; osl_scop_print_scoplib refuses the others, and for such a scop whose statements have a domain and a scattering it writes a text which says the keyword, the language, the context, the names of the parameters, the number of statements, the domain, scattering, accesses and body of each, and the arrays, in this order and nothing else.", "ideal": "osl_scop_check_compatible_scoplib answers 1 exactly for a single scop accepted by the integrity check, whose scatterings and domains have no local dimensions and whose scatterings have the opposite of the identity in their output columns; osl_scop_print_scoplib refuses the others, and for such a scop it writes a text which says the keyword, the language, the context, the names of the parameters, the number of statements, the domain, scattering, accesses and body of each, and the arrays, in this order and nothing else.", "quantifier": "every scop which fits in the buffers, any number of statements, parts, accesses, all contents of the bodies, names and extensions", "why_tests_cant": "unbounded contents; the check is a loop over all entries of all statements", "anchors": ["source/scop.c: osl_scop_check_compatible_scoplib, osl_scop_print_scoplib", "source/statement.c: osl_statement_pprint_scoplib", "source/body.c: osl_body_print_scoplib", "source/generic.c: osl_generic_print_options_scoplib"]}
{"id": "C67", "title": "Nothing is lost in the SCoPLib format", "statement": "Two contexts, two domains without input dimensions, two scatterings which the check of compatibility accepts (with as many rows as output dimensions) or two lists of array accesses in the usual form (the array identifier in the first row, the opposite of the identity in the output columns) with the same SCoPLib text have the same matrices: the columns which are not written can be recovered.", "ideal": "Two contexts, two domains without input dimensions, two scatterings which the check of compatibility accepts (with as many rows as output dimensions) or two lists of accesses with the same SCoPLib text have the same matrices: the columns which are not written can be recovered.", "quantifier": "every pair of relations or of lists of accesses, unions with any number of parts, all entries, all names", "why_tests_cant": "a statement on all pairs of relations", "anchors": ["source/relation.c: osl_relation_spprint_scoplib", "source/relation_list.c: osl_relation_list_pprint_access_array_scoplib", "source/scop.c: osl_scop_check_compatible_scoplib"]}
{"id": "C68", "title": "The comments of a printed relation say its constraints", "statement": "In the text of osl_relation_sprint, osl_statement_pprint and osl_scop_print, the entries of each row of each relation are followed, on their line, by a comment `## e1 == e2` or `## e1 >= e2` which, read as an arithmetic expression on the names of the dimensions, holds exactly for the points which satisfy the constraint (or, for the row giving the array of an access, names this array); and the rows of each part come after a line naming its columns in order. The names are those given by the scop (parameters, arrays, iterators of the body of the statement), and numbered names otherwise.", "quantifier": "every relation, statement and scop which can be printed: any number of dimensions, rows, parts and statements, all entries, all values of the dimensions, all names which are not themselves expressions", "why_tests_cant": "the meaning of a comment ranges over all values of the dimensions and all coefficients; signs, unit coefficients, zero terms and the two sides of an equality are special cases which combine", "anchors": ["source/relation.c: osl_relation_expression_element, osl_relation_subexpression, osl_relation_is_simple_output, osl_relation_sprint_comment, osl_relation_column_string, osl_relation_strings, osl_relation_names", "source/statement.c: osl_statement_pprint", "source/scop.c: osl_scop_print, osl_scop_names"]}
{"id": "C69", "title": "The display of an object tells the object", "statement": "Two string arrays of words, vectors, relations, lists of relations, registries, names, bodies, lists of extensions, of statements or of scops with the same text from their osl_..._dump function are equal: same types, precisions, dimensions, entries, names, numbers of elements, in the same order; and in a longer text, the end of the object is known. (The strings hold no end of line, the words no space, the relations have a known type and as many entries as announced.) The exact objects for which each function is defined are known: no NULL language, no NULL URI, entries of less than OSL_MAX_STRING characters.", "ideal": "The dump of any object is defined and determines it.", "quantifier": "every pair of objects, any number of elements, parts, rows, statements, all entries, all levels, all registries, all behaviours of the extensions", "why_tests_cant": "injectivity is a statement on all pairs of objects, and the text is not delimited: two different lists could run together", "anchors": ["source/relation.c: osl_relation_idump", "source/relation_list.c: osl_relation_list_idump", "source/statement.c: osl_statement_idump", "source/scop.c: osl_scop_idump", "source/generic.c: osl_generic_idump", "source/interface.c: osl_interface_idump", "source/strings.c: osl_strings_idump", "source/vector.c: osl_vector_idump", "source/names.c: osl_names_idump", "source/body.c: osl_body_idump"]}
{"id": "C70", "title": "The display of the extensions", "statement": "The dump functions of the extensions of the default registry (nested symbols included) determine the data, for texts without end of line (at most 40 characters for textual), except annotation and region, whose dumps do not tell their texts apart; hence osl_scop_dump with the default registry determines the scops. The exact data for which each function is defined are known. The dump of a dependence with NULL statement pointers, which is what the reader builds, is undefined, hence osl_scop_dump of any scop with dependences just read.", "ideal": "The dump of every extension is defined and determines it.", "quantifier": "every data of every extension of the default registry, symbols nested to any depth, all levels", "why_tests_cant": "injectivity is a statement on all pairs of data; the undefined cases depend on pointers no printed text shows", "anchors": ["source/extensions/dependence.c: osl_dependence_idump", "source/extensions/symbols.c: osl_symbols_idump", "source/extensions/loop.c: osl_loop_idump", "source/extensions/pluto_unroll.c: osl_pluto_unroll_idump", "source/extensions/extbody.c: osl_extbody_idump", "source/extensions/arrays.c: osl_arrays_idump", "source/extensions/coordinates.c: osl_coordinates_idump", "source/extensions/scatinfos.c: osl_scatinfos_idump", "source/extensions/scatnames.c: osl_scatnames_idump", "source/extensions/textual.c: osl_textual_idump", "source/extensions/comment.c: osl_comment_idump", "source/extensions/clay.c: osl_clay_idump", "source/extensions/null.c: osl_null_idump", "source/extensions/annotation.c: osl_annotation_idump", "source/extensions/region.c: osl_region_idump", "source/extensions/irregular.c: osl_irregular_idump"]}
{"id": "C71", "title": "The level of a display is only the indentation", "statement": "For every object whose strings hold no end of line, osl_..._idump at level n writes the text of osl_..._dump (level 0) with n bars before each line, for strings, vectors, relations, lists, registries, names, bodies, statements, scops and all extensions but annotation and region, which write lines without bars.", "ideal": "The same for all extensions.", "quantifier": "every object, every level, all registries and all display functions of the extensions which have the property themselves, and the default registry with symbols nested to any depth", "why_tests_cant": "a statement on all levels and all nestings of objects", "anchors": ["source/scop.c: osl_scop_idump", "source/statement.c: osl_statement_idump", "source/relation.c: osl_relation_idump", "source/generic.c: osl_generic_idump", "source/extensions/annotation.c: osl_annotation_text_idump", "source/extensions/region.c: osl_region_text_idump"]}
{"id": "C72", "title": "Reading allocates exactly the object", "statement": "When osl_scop_read (or the reader of relations, lists, statements, generics, strings, bodies, or any extension of the default registry) returns an object, every block it allocated belongs to that object and to nothing else, none is shared or uninitialised, and all the temporary blocks (buffers, tags, contents, the registry, the strings of the language and of the types) are freed exactly once, except one kind: the tags of closing or empty tags met where an extension should begin (</x>, <>) stay allocated. osl_scop_free of the result then leaves exactly these. A file which osl_scop_print has written contains none of these: reading it allocates exactly a copy of the scops, and osl_scop_free leaves nothing. Every file which is read, whatever its layout.", "ideal": "Nothing but the object stays allocated, for every file.", "quantifier": "every file which is accepted, any number of scops, statements, relations, extensions, symbols nested to any depth, all contents, every behaviour of the allocator", "why_tests_cant": "a leak, a double free or a shared block depends on the layout of the file; a memory checker only sees the files which are run", "anchors": ["source/scop.c: osl_scop_read, osl_scop_pread", "source/statement.c: osl_statement_read, osl_statement_pread", "source/relation.c: osl_relation_pread, osl_relation_psread, osl_relation_psread_polylib", "source/relation_list.c: osl_relation_list_pread", "source/generic.c: osl_generic_read, osl_generic_sread, osl_generic_read_one, osl_generic_sread_one", "source/strings.c: osl_strings_read, osl_strings_sread", "source/body.c: osl_body_sread", "source/util.c: osl_util_read_string, osl_util_read_tag, osl_util_read_uptoflag", "source/extensions: the sread functions"]}
{"id": "C73", "title": "Vectors in memory, and relations combined with vectors", "statement": "osl_vector_malloc/pmalloc give new memory which is exactly a vector (the structure, the array, one GMP integer per element in multiple precision) and osl_vector_free frees exactly that. osl_vector_add, sub, mul_scalar and add_scalar leave their arguments as they were and allocate exactly the vector with the value of C11, also when the two arguments are the same vector; tag_equality and tag_inequality work in place; equal and is_scalar only read. osl_relation_replace_vector, add_vector, sub_vector and swap_constraints rewrite the rows in place; insert_vector and insert_blank_row replace the matrix of the first part and free the old one; from_vector and concat_vector make a new relation. None of them keeps a block of the vector, all free what they allocate in between exactly once, and the rest of the memory is unchanged.", "quantifier": "all vectors, relations, rows, scalars, precisions (the fixed ones and GMP), every memory around them, every behaviour of the allocator", "why_tests_cant": "sharing, a leak or a double free of one GMP integer shows only with a memory checker, on the sizes and precisions which are run", "anchors": ["source/vector.c: osl_vector_pmalloc, osl_vector_free, osl_vector_add, osl_vector_sub, osl_vector_add_scalar, osl_vector_mul_scalar, osl_vector_tag_equality, osl_vector_tag_inequality, osl_vector_equal, osl_vector_is_scalar", "source/relation.c: osl_relation_replace_vector, osl_relation_add_vector, osl_relation_sub_vector, osl_relation_insert_vector, osl_relation_concat_vector, osl_relation_insert_blank_row, osl_relation_from_vector, osl_relation_swap_constraints"]}
{"id": "C74", "title": "Printing leaves memory as it was", "statement": "osl_relation_print, pprint, sprint, spprint and spprint_polylib, osl_relation_list_pprint_elts, pprint and print, osl_strings_sprint and print, osl_body_sprint and print, the sprint function of every extension of the default registry, osl_generic_sprint and print, osl_statement_pprint and print, and osl_scop_print read the structure and the names but leave every block of them as it was (osl_relation_subexpression opposes coefficients of the matrix in place and restores them). The sprint functions allocate exactly the string they return; the print functions leave no block allocated; the temporary strings, the arrays of column names and the generated names are freed, each exactly once. While statements and scops are printed, the names are made to point into the structures (the iterators of a body, the data of the parameters) and to the strings made from the arrays extension: these are put back or freed before the names are, so that nothing of the structure is freed. The text is the one of the functions on values (C35, C37), for every size of the buffers and every reallocation of the string.", "quantifier": "all relations, lists, names, extensions, statements and scops which can be printed (symbols nested at any depth), every memory around them, every behaviour of the allocator", "why_tests_cant": "a leak, a double free or a coefficient left opposed shows only for the shapes of rows and the precisions which are run, and with a memory checker", "anchors": ["source/relation.c: osl_relation_expression_element, osl_relation_strings, osl_relation_subexpression, osl_relation_expression, osl_relation_is_simple_output, osl_relation_sprint_comment, osl_relation_column_string, osl_relation_names, osl_relation_spprint_polylib, osl_relation_spprint, osl_relation_pprint, osl_relation_sprint, osl_relation_print", "source/relation_list.c: osl_relation_list_pprint_elts, osl_relation_list_pprint, osl_relation_list_print", "source/util.c: osl_util_safe_strcat", "source/strings.c: osl_strings_sprint, osl_strings_print", "source/body.c: osl_body_sprint, osl_body_print", "source/extensions/*.c: the sprint functions", "source/generic.c: osl_generic_sprint, osl_generic_print", "source/statement.c: osl_statement_names, osl_statement_pprint, osl_statement_print", "source/scop.c: osl_scop_names, osl_scop_print", "source/extensions/arrays.c: osl_arrays_to_strings"]}
{"id": "C75", "title": "Comparing, counting, checking and looking up only read memory", "statement": "The comparison functions (osl_relation_equal, osl_relation_list_equal, osl_strings_equal, osl_body_equal, osl_interface_equal, osl_generic_equal, osl_statement_equal, osl_scop_equal and the equal function of every extension of the default registry), the integrity checks of relations, lists, statements and scops, osl_scop_check_compatible_scoplib, the functions which collect attributes and numbers (get_attributes, get_array_id, is_access, number, get_nb_iterators, get_nb_parameters, strings_size) and the lookups (osl_generic_lookup, osl_generic_has_URI, osl_statement_get_body) leave memory the very same: no block is allocated, freed or written, on any path, also when the answer is no. They read only inside their arguments, and they answer what the functions on values of the other properties answer; a comparison of a structure with itself (the same pointer) answers yes.", "quantifier": "all structures the function on values answers on (symbols nested at any depth), every memory around them", "why_tests_cant": "a temporary left allocated or a cell written and not restored shows only on the early exits which are run", "anchors": ["source/relation.c: osl_relation_equal, osl_relation_part_equal, osl_relation_integrity_check, osl_relation_get_attributes, osl_relation_get_array_id, osl_relation_is_access", "source/relation_list.c: osl_relation_list_equal, osl_relation_list_integrity_check, osl_relation_list_get_attributes", "source/strings.c: osl_strings_equal, osl_strings_size", "source/body.c: osl_body_equal", "source/interface.c: osl_interface_equal", "source/generic.c: osl_generic_equal, osl_generic_lookup, osl_generic_has_URI, osl_generic_number", "source/statement.c: osl_statement_equal, osl_statement_integrity_check, osl_statement_get_attributes, osl_statement_get_nb_iterators, osl_statement_get_body, osl_statement_number", "source/scop.c: osl_scop_equal, osl_scop_integrity_check, osl_scop_check_compatible_scoplib, osl_scop_get_attributes, osl_scop_get_nb_parameters, osl_scop_number", "source/extensions/*.c: the equal functions"]}
{"id": "C76", "title": "Updates in place and searches in memory", "statement": "osl_relation_set_type, osl_relation_set_attributes, osl_relation_set_attributes_one, osl_relation_set_precision and osl_relation_set_same_precision change the relation they are given in place: afterwards memory holds at the same address the relation the functions on values give, every integer block of the old precision is freed exactly once and every one of the new precision is allocated exactly once (so that osl_relation_free frees everything), and nothing outside of the relation changes. osl_scop_register_extension, when no extension of the scop has the URI, links the given interfaces without a copy at the end of the registry of the scop, and changes nothing else. osl_strings_find, osl_arrays_get_index_from_id and osl_arrays_get_index_from_name leave memory the very same and answer the first index (the size when there is none), reading only inside their arguments.", "quantifier": "all relations with any number of union parts, rows and columns, all precisions, all scops and interface lists, all strings and arrays, every memory around them and every allocator", "why_tests_cant": "a block of the old precision leaked or cleared twice for one row, part or precision shows only on the shapes which are run", "anchors": ["source/relation.c: osl_relation_set_type, osl_relation_set_attributes, osl_relation_set_attributes_one, osl_relation_set_precision, osl_relation_set_same_precision", "source/int.c: osl_int_set_precision", "source/scop.c: osl_scop_register_extension", "source/strings.c: osl_strings_find", "source/extensions/arrays.c: osl_arrays_get_index_from_id, osl_arrays_get_index_from_name"]}
{"id": "C77", "title": "Integers in memory: any aliasing, exact outcome, no leak", "statement": "Every function of the integer interface (init, malloc, assign, set_si, set_long, set_long_long, init_set, init_set_si, init_set_long, init_set_long_long, swap, free, add, add_si, increment, decrement, sub, mul, mul_si, div_exact, floor_div_q, floor_div_r, floor_div_q_r, mod, gcd, lcm, oppose, abs, the tests and the conversions) called on variables in memory ends exactly as the function on values says: with the same result stored in the result variable, with an error, or undefined. This holds for any aliasing: the result variable may be one of the operands, the operands may be the same variable, swap may exchange a variable with itself; the one exception is osl_int_floor_div_q_r in multiple precision with its two results in the same variable, which is undefined. No other variable changes, and every local integer (of add_si, sub, swap and lcm) is freed: nothing is leaked. The tests and conversions leave memory the very same.", "quantifier": "all precisions and configurations, all values (with or without overflow), all arrays of integers and all indices in them, every memory around them and every allocator", "why_tests_cant": "an operand overwritten before its last use, or a local integer leaked, shows only for the aliasing, precision and sign which are run", "anchors": ["source/int.c: osl_int_init, osl_int_malloc, osl_int_assign, osl_int_set_si, osl_int_set_long, osl_int_set_long_long, osl_int_init_set, osl_int_init_set_si, osl_int_init_set_long, osl_int_init_set_long_long, osl_int_swap, osl_int_free, osl_int_add, osl_int_add_si, osl_int_increment, osl_int_decrement, osl_int_sub, osl_int_mul, osl_int_mul_si, osl_int_div_exact, osl_int_floor_div_q, osl_int_floor_div_r, osl_int_floor_div_q_r, osl_int_mod, osl_int_gcd, osl_int_lcm, osl_int_oppose, osl_int_abs, osl_int_get_si, osl_int_get_long, osl_int_get_long_long, osl_int_pos, osl_int_neg, osl_int_zero, osl_int_one, osl_int_mone, osl_int_size_in_base_2, osl_int_eq, osl_int_ne, osl_int_lt, osl_int_le, osl_int_gt, osl_int_ge, osl_int_divisible"]}
{"id": "C78", "title": "The irregular extension in memory", "statement": "osl_irregular_malloc, osl_irregular_add_control, osl_irregular_add_exit, osl_irregular_add_predicates and osl_irregular_sread leave in memory a new structure with exactly the content the functions on values give: every array and string of it is a new block owned by the result, the old structure and the arguments are unchanged and stay usable, and nothing else is allocated. osl_irregular_free of such a structure frees every block of it exactly once and nothing else, so that no history of additions followed by the release of the structures leaks. osl_irregular_sprint returns a new string with the text of the extension, whatever happens to its buffers, and changes nothing else; osl_irregular_sread cuts the string it is given after its first word. osl_irregular_equal leaves memory the very same, reads only inside the two structures and answers what the values say. The copy of a structure without predicates is a new equal structure; the copy of a structure with at least one predicate writes outside of the array of the iterators, whatever the memory (finding).", "quantifier": "all well-formed extensions (any numbers of predicates, iterators and statements, any strings), every memory around them and every allocator", "why_tests_cant": "an element of one of the five arrays which is not copied, shared with the old structure or leaked shows only on the shapes and histories which are run; malloc returning usable slack hides the write past the end of the array", "anchors": ["source/extensions/irregular.c: osl_irregular_malloc, osl_irregular_free, osl_irregular_clone, osl_irregular_equal, osl_irregular_add_control, osl_irregular_add_exit, osl_irregular_add_predicates, osl_irregular_sprint, printf_in_buf, osl_irregular_sread"]}
{"id": "C79", "title": "Printing in the SCoPLib format leaves memory as it was", "statement": "osl_relation_spprint_scoplib, osl_relation_spprint_polylib_scoplib, osl_relation_pprint_scoplib, osl_relation_list_pprint_access_array_scoplib, osl_body_print_scoplib, osl_generic_print_options_scoplib, osl_statement_pprint_scoplib and osl_scop_print_scoplib read the structure and the names and leave every block of them as it was. The function which returns a string allocates exactly that string; the print functions leave no block allocated: the names, the arrays of column names, the text of the arrays extension and the temporary strings are freed, each exactly once. While statements and scops are printed, the names point into the structures and to strings made from the arrays extension; these are put back or freed before the names are. The text is the one of the functions on values (C64 to C67), for every buffer and every reallocation of the string, including the fake iterator added to statements without iterators and the accesses of scalars.", "quantifier": "all relations, lists of accesses, names, bodies, extensions, statements and scops on which the functions on values give a text (for scops: the ones the compatibility check accepts), every memory around them, every behaviour of the allocator", "why_tests_cant": "a name which is not put back, a leak or a row written past the buffer shows only on the shapes which are run, and with a memory checker", "anchors": ["source/relation.c: osl_relation_column_string_scoplib, osl_relation_spprint_polylib_scoplib, osl_relation_spprint_scoplib, osl_relation_pprint_scoplib", "source/relation_list.c: osl_relation_list_pprint_access_array_scoplib", "source/body.c: osl_body_print_scoplib", "source/generic.c: osl_generic_print_options_scoplib", "source/statement.c: osl_statement_pprint_scoplib", "source/scop.c: osl_scop_print_scoplib"]}
{"id": "C80", "title": "Displaying leaves memory as it was", "statement": "The functions osl_..._idump and osl_..._dump of strings, vectors, relations, relation lists, interfaces, generics, names, bodies, statements, scops and every extension read the structure, write exactly the text of the functions on values, and leave every block as it was and no new block: the copies of texts made to cut them into lines are freed, and the statements a dependence points to, which are unlinked from their list to be displayed alone, are linked back, even when source and target are the same statement or neighbours in the same list.", "quantifier": "all structures on which the functions on values give a text, every level of indentation, symbols nested at any depth, every list of statements and dependences pointing into it, every memory around them, every behaviour of the allocator", "why_tests_cant": "a copy which is not freed or a link which is not put back leaves the text right and shows only with a memory checker, on the shapes which are run", "anchors": ["source/strings.c: osl_strings_idump, osl_strings_dump", "source/vector.c: osl_vector_idump, osl_vector_dump", "source/relation.c: osl_relation_idump, osl_relation_dump", "source/relation_list.c: osl_relation_list_idump", "source/interface.c: osl_interface_idump", "source/generic.c: osl_generic_idump", "source/names.c: osl_names_idump", "source/body.c: osl_body_idump", "source/statement.c: osl_statement_idump", "source/scop.c: osl_scop_idump, osl_scop_dump", "source/extensions/dependence.c: osl_dependence_idump", "source/extensions/textual.c: osl_textual_idump", "source/extensions/symbols.c: osl_symbols_idump", "source/irregular.c: osl_irregular_idump"]}
{"id": "C81", "title": "A client which owns what it holds never breaks the memory", "statement": "Take a program with any number of variables holding vectors, relations, relation lists, statements, scops or extension lists, or NULL, which calls the library in any order, choosing each call after what the calls before have answered or written, and which follows the rules of ownership: a variable is NULL before a new structure is put in it, a structure which has been given to another one or freed is not used again, and arguments which must be different structures are. Then, as long as the functions on values are defined, no call reads or writes a block which is not allocated, each answers and writes exactly what it does on values, two variables never share memory, what a variable holds changes only when a call is given that variable, and when the program has freed or given away all it holds and its variables are NULL, the memory is as it was before it started, except for the names of unknown extensions in the files it has read, which osl_scop_read loses. What the program sees does not depend on the addresses malloc returns.", "quantifier": "all histories of 103 kinds of calls of any length, all clients which choose their calls after what they see, all numbers of variables, all arguments, all values, all initial memories, all behaviours of the allocator", "why_tests_cant": "a test runs a few sequences of calls; two functions can be right on fresh structures and wrong after another one (shared nodes, links left over, double frees), and the number of sequences is unbounded", "anchors": ["include/osl/relation.h: osl_relation_pmalloc, osl_relation_free, osl_relation_clone, osl_relation_union, osl_relation_add, osl_relation_insert_constraints, osl_relation_equal", "include/osl/relation_list.h: osl_relation_list_node, osl_relation_list_push, osl_relation_list_pop, osl_relation_list_dup, osl_relation_list_drop, osl_relation_list_destroy, osl_relation_list_filter", "include/osl/statement.h: osl_statement_malloc, osl_statement_free, osl_statement_clone, osl_statement_remove_unions", "include/osl/scop.h.in: osl_scop_read, osl_scop_free, osl_scop_clone, osl_scop_remove_unions, osl_scop_print, osl_scop_dump, osl_scop_normalize_scattering, osl_scop_equal", "include/osl/generic.h: osl_generic_clone, osl_generic_add, osl_generic_free", "source/vector.c: osl_vector_pmalloc, osl_vector_free, osl_vector_add_scalar, osl_vector_add, osl_vector_sub, osl_vector_mul_scalar, osl_vector_tag_inequality, osl_vector_equal, osl_vector_is_scalar", "source/statement.c: osl_statement_dispatch"]}
{"id": "C82", "title": "What a client obtains can always be stored and printed", "statement": "In every vector, relation, relation list, statement, scop or extension list which a program obtains from the library, whatever files it has read and whatever calls it has made, each part of each relation has the matrix its header advertises and each integer of the matrix is one which its precision can hold: reading rejects or is undefined on others, copies, unions, insertions and removals of constraints and columns, additions and subtractions of vectors, extensions with new outputs, changes of precision, removals of unions, normalisations and the readers and copies of all the extensions keep it so. So the printing functions never meet an integer which does not fit: a history of calls has the same result whether one checks this before each printing or not.", "quantifier": "all histories of the calls of the library on relations, all histories of 103 kinds of calls of any length on any number of variables, all clients which choose their calls, all texts which are read, all vectors and relations given as arguments which can be stored, all configurations of the integers", "why_tests_cant": "one function which writes one integer too large, or one matrix of the wrong size, after one sequence of calls breaks it; the sequences and the integers are unbounded", "anchors": ["source/relation.c: osl_relation_pmalloc, osl_relation_pread, osl_relation_psread, osl_relation_nclone, osl_relation_union, osl_relation_insert_constraints, osl_relation_insert_columns, osl_relation_extend_output, osl_relation_set_precision, osl_relation_concat_constraints", "source/relation_list.c: osl_relation_list_pread, osl_relation_list_clone, osl_relation_list_filter", "source/statement.c: osl_statement_pread, osl_statement_clone, osl_statement_remove_unions", "source/scop.c: osl_scop_pread, osl_scop_clone, osl_scop_remove_unions, osl_scop_normalize_scattering", "source/generic.c: osl_generic_read, osl_generic_clone", "source/extensions/dependence.c: osl_dependence_psread, osl_dependence_clone", "source/extensions/symbols.c: osl_symbols_sread, osl_symbols_clone", "source/vector.c: osl_vector_add_scalar, osl_vector_add, osl_vector_sub, osl_vector_mul_scalar, osl_vector_tag_inequality, osl_vector_tag_equality"]}
{"id": "C83", "title": "A client which meets the preconditions of the calls has no undefined behaviour", "statement": "A program which calls the functions of the library on relations, vectors, lists, statements, scops and extensions, and meets their preconditions, has no undefined behaviour: each call succeeds or stops with the error message of the library, whatever rows, columns, ranks, sizes, precisions and types are given, also wrong ones. The preconditions are: a result is put in a variable which is NULL; variables are of the types of the parameters, and different where one is changed; an output is extended only on a relation that is not NULL, whose parts have the same precision and whose number of outputs is less than its columns; a vector is added or subtracted only if it is not empty and none of its integers is the least of its type, and a vector multiplied only by a factor for which the products fit; the identifiers of arrays are asked only of relations of ints that are not the least int; a relation is printed with its declared dimensions, displayed if the texts of its integers fit the buffers of the library; a list pushed is a single node; a field is taken of a structure which is not NULL; extensions which are copied, compared or displayed are those of the library with data of their kind (compared: no NULL string and no region; displayed: no NULL string and no dependence); compared lists of statements or scops have the same shape and scops have a language; a body is under the URI of bodies; a statement or scop which is printed has a relation, enough names, and extensions the strings and integers of which fit the buffers; a file which is read is one which the library wrote; a scop written in the SCoPLib format, if the check accepts it, has parts of one type in each relation, at most three rows of scattering with a fake iterator, and names, bodies and options of words and lines. If such a program stops with no error and has freed what it holds, the memory is what it was before.", "quantifier": "all histories of any length of all the 103 kinds of calls on any number of variables, all arguments, all texts of the calls, all configurations of the integers with the debug checks, all behaviours of malloc", "why_tests_cant": "an undefined behaviour may need one row, one size and one sequence of calls; the sequences, sizes and integers are unbounded", "anchors": ["source/relation.c: osl_relation_pmalloc, osl_relation_nclone, osl_relation_clone_nconstraints, osl_relation_union, osl_relation_insert_constraints, osl_relation_concat_constraints, osl_relation_insert_columns, osl_relation_insert_blank_row, osl_relation_insert_blank_column, osl_relation_remove_row, osl_relation_remove_column, osl_relation_swap_constraints, osl_relation_replace_vector, osl_relation_add_vector, osl_relation_sub_vector, osl_relation_insert_vector, osl_relation_concat_vector, osl_relation_from_vector, osl_relation_set_precision, osl_relation_set_same_precision, osl_relation_extend_output, osl_relation_equal, osl_relation_integrity_check, osl_relation_get_array_id, osl_relation_print, osl_relation_read, osl_relation_pread", "source/vector.c: osl_vector_pmalloc, osl_vector_add_scalar, osl_vector_add, osl_vector_sub, osl_vector_mul_scalar, osl_vector_tag_inequality, osl_vector_tag_equality, osl_vector_equal, osl_vector_is_scalar", "source/relation_list.c: osl_relation_list_node, osl_relation_list_clone, osl_relation_list_concat, osl_relation_list_dup, osl_relation_list_drop, osl_relation_list_filter, osl_relation_list_equal, osl_relation_list_push, osl_relation_list_pop, osl_relation_list_integrity_check, osl_relation_list_read", "source/generic.c: osl_generic_add, osl_generic_remove, osl_generic_count, osl_generic_clone, osl_generic_equal, osl_generic_dump, osl_generic_sprint", "source/statement.c: osl_statement_add, osl_statement_malloc, osl_statement_number, osl_statement_clone, osl_statement_nclone, osl_statement_remove_unions, osl_statement_equal, osl_statement_integrity_check, osl_statement_dump, osl_statement_print", "source/scop.c: osl_scop_add, osl_scop_malloc, osl_scop_number, osl_scop_clone, osl_scop_remove_unions, osl_scop_normalize_scattering, osl_scop_equal, osl_scop_integrity_check, osl_scop_check_compatible_scoplib, osl_scop_dump, osl_scop_print, osl_scop_print_scoplib, osl_scop_read, osl_scop_pread"]}
