# Formal model of the OpenScop library (osl) in Lean 4

## 1. Approach

The C code of `/repo/source` is modelled function by function as total, computable Lean
functions.  A call returns an outcome `Out α` (`Verif/C.lean`):

* `ok a`: normal return;
* `err`: `OSL_error`/`OSL_overflow` was called (message and `exit(1)`);
* `ub`: undefined behaviour was executed (signed overflow, division by zero, NULL or
  out-of-bounds access, non terminating recursion, overrun of a fixed buffer).

A theorem which says that a call returns `ok x` hence also says that no error and no undefined
behaviour happened on the way.  The build configuration is a parameter `Cfg` of the integer
functions and of everything above: GMP or not, `NDEBUG` or not, width of `long`, and whether
signed overflow is undefined (ISO C) or wraps (`-fwrapv`); theorems hold for every configuration
unless they say otherwise.

Each source file has a model module (`Verif/<File>.lean`), and its property theorems are in
separate modules (`Verif/<File>Props*.lean`).  Specifications (point sets of relations,
`Verif/RelSpec.lean`; association maps; divisibility; stacks; ...) are small definitions of their
own.  Every definition of the model cites the lines of `/repo` it models
(`tools/check_cites.py` verifies that the cited ranges exist and hold the function named).

Many of the properties one would first write down are false of the code at some edge.  For these, properties.jsonl
keeps the first version as `ideal`, and `statement` says what holds for *all* inputs of the quantifier, naming the exact
exceptions and what the code does there; the theorems of MANIFEST.json prove the statement (`..._cases`, `..._iff`), and
refute the ideal on a concrete witness or in general (`..._violates`, listed in section 8).  The note of the claim says
which theorem does what.  A theorem named `..._partial` covers only part of an ideal.  Status `proved` is about `statement`.

## 2. Representation choices

* Linked lists (`next` fields) are Lean lists in list order, `NULL` is `[]`; a pointer to one
  structure is an `Option`.  A function which mutates through a pointer returns the new value.
  This value model has no addresses: it describes calls on structures which share no memory.
  The pointer-equality shortcuts of the `equal` functions (`if (a == b) return 1`) are therefore not
  taken in the model; they are covered by reflexivity where it is proved.
* Addresses, allocation and freeing are the subject of the heap models (`Verif/Heap*.lean`, section 5), which are
  connected to the value model by an abstraction relation.
* An `osl_int_t` is the integer it holds; `InPrec` says that it is representable.  GMP integers
  are unbounded.
* Matrices are lists of rows; an access outside of the allocated rows and columns is `ub`.
* Characters are Unicode scalar values used as bytes, strings are lists of characters without
  terminator.  Buffers have their C size and an overrun is `ub` (`OSL_MAX_STRING` = 2048,
  `include/osl/macros.h`).
* `sscanf`, `sprintf`, `strcmp`, `strtok`, `isspace`, `fgets` are modelled at character level
  with the documented behaviour; `%s` of NULL prints `(null)` as in glibc for the loop extension and the
  language of a scop (whose reader relies on it), and is `ub` elsewhere.
* `void*` data of generics: first an arbitrary type with an arbitrary meaning of the function
  pointers (`Env`), then the sum type `Data` of the 18 extensions of the default registry
  (`Verif/Library.lean`); the symbols extension holds generics, so `DataAt n` is indexed by the
  nesting depth and theorems hold for every depth.

## 3. Trusted base

* Lean's kernel.  No axiom of our own; every theorem depends on a subset of `propext`,
  `Quot.sound`, `Classical.choice` (checked over all constants of the namespace).  No
  `native_decide`, no `bv_decide`, no unfinished proof.  `decide`/`decide +kernel` are used only for
  concrete witnesses and finite case analyses.
* The reading of the C code, cited line by line, and the simplifications said in the comments.
* The meaning of C integer operations as defined in `Verif/C.lean`, GMP's and libc's documented
  behaviour.

Not modelled: `malloc` failure (`malloc(0)` returns a valid pointer), stream and file-system errors, warnings and debug messages
(`OSL_warning`, `OSL_info`, `OSL_debug` do nothing), `osl_int_get_d` (floating point), the `usr` pointers.  In the display functions
(`Verif/Dump.lean`) the overflow of the level and of the node numbers is not modelled.


## 4. Properties

The exact theorem names are in MANIFEST.json; status `proved` is about the `statement` of properties.jsonl (for the properties with an `ideal`, the last column says how it fails).

| id | property | what is modelled | how it is proved | status, notes |
|----|----|----|----|----|
| C01 | Integer addition is exact or reported | osl_int_add, add_si, increment with C overflow | case analysis on the guards, linear arithmetic | proved. int_add_cases and int_add_si_cases decide every case. The ideal (exact or error, without exception) is refuted by int_add_min_violates and int_add_si_min_violates. |
| C02 | Integer subtraction is exact or reported | osl_int_sub, oppose | case analysis, linear arithmetic | proved. int_sub_cases decides every case. The ideal (exact or error) is refuted by int_sub_min_violates. |
| C03 | Integer multiplication is exact or reported | osl_int_mul, mul_si | Euclidean bound for the overflow test | proved. int_mul_cases decides every case. The ideal (exact or error, without undefined behaviour) is refuted by int_mul_violates: the guard multiplies first. |
| C04 | Floor division and its remainder | osl_int_floor_div_q, _r, _q_r | uniqueness of quotient and remainder | proved. int_floor_div_q_cases and int_floor_div_r_cases decide every case in ISO C, int_floor_div_r_correct_wrapv covers wrapping arithmetic. The ideal (the remainder is always stored) is refuted by int_floor_div_r_violates. |
| C05 | Modulo range, exact division and divisibility test | osl_int_mod, divisible, div_exact | integer division lemmas | proved. The three _cases theorems decide every case. The ideal (no undefined case for non-zero divisors) is refuted by int_mod_violates and int_divisible_min_ub. |
| C06 | Greatest common divisor and least common multiple | osl_int_gcd, lcm, llgcd loop | induction on Euclid's recursion | proved. int_gcd_cases and int_lcm_cases decide every case. The ideal (undefined only when the result does not fit) is refuted by int_gcd_violates. |
| C07 | Integer comparisons agree with the order of the integers | osl_int comparisons | case analysis | proved. int_order_cases decides every case. The ideal (the order of the values everywhere) is refuted by int_order_violates_32bit_long. |
| C08 | Changing precision preserves the value or is reported | osl_int_set_precision, osl_relation_set_precision | case analysis; list induction over the matrix | proved. int_set_precision_cases decides every case. The ideal (never another value) is refuted by int_set_precision_violates in NDEBUG builds. |
| C09 | Sign changes, assignment, swap, increment and sizes | oppose, abs, assign, swap, increment, sizes | induction on the digit loops | proved. Every case: int_oppose_abs_cases, int_size_min_ub with the size theorems. |
| C10 | Integer text round trip | osl_int_sprint_txt, osl_int_sread at character level | induction on decimal digits | proved. The round trip holds for all values. Findings beyond the statement: the position after the number moves by one character only, and the end of input is not reported. |
| C11 | Vector arithmetic is componentwise and guarded | osl_vector_* | list induction, loop invariants | proved |
| C12 | Relation clone is faithful | osl_relation_clone, nclone, clone_nconstraints | loop invariants on matrices, list induction | proved |
| C13 | Relation equality is exact | osl_relation_equal, part_equal | reflection to Lean equality | proved |
| C14 | Union denotes set union | osl_relation_union, add; point sets (RelSpec) | list induction | proved |
| C15 | Adding constraints denotes intersection | insert/concat_constraints, insert/concat_vector | row sets of the result, then point sets | proved. Only the first union part is concerned, as in the code. |
| C16 | Swapping, blank and removed constraints | swap_constraints, insert_blank_row, remove_row | row sets | proved |
| C17 | Combining a constraint with a vector is sound | add_vector, sub_vector | linear forms | proved. Soundness when the additions do not overflow; the subtraction of an inequality is unsound (witness), as the statement excludes it. |
| C18 | Column insertion and removal | insert_blank_column, remove_column, insert_columns | row-wise description, evaluation of linear forms | proved |
| C19 | Matrix shape invariant | all row/column operations as steps of a history | invariant by induction on the history | proved |
| C20 | Extending output dimensions | osl_relation_extend_output | product with zero coordinates | proved |
| C21 | Array identifier extraction | osl_relation_get_array_id | loop invariant; point-set meaning | proved. Entries in the C int range (the code narrows to int). |
| C22 | Relation integrity check is sound | osl_relation_integrity_check, list | exact characterisation (iff) | proved. Both answers are characterised exactly. The ideal (no malformed relation is accepted) is refuted: unions with mixed part types, later parts with unknown local dimensions and negative dimensions are accepted. |
| C23 | Attribute maxima | get_attributes of relation, list, statement, scop | least upper bound by induction | proved. Relations, relation lists, statements and scops. |
| C24 | Relation text round trip | osl_relation_spprint_polylib, psread_polylib at character level | lines and tokens of the text, reader induction | proved. Exact results for both readers. The ideal (an equal relation in all cases) is refuted for strings by relation_sread_union_violates, for all unions with a typed later part. relation_print_read and relation_print_sread do not suppose that printing succeeds: the rows have to fit in the buffers (C59). |
| C25 | Relation list used as a stack | osl_relation_list push/pop/dup/drop/destroy | refinement of a stack by induction on histories | proved. Stack refinement for all histories. The ideal for lists of several nodes (all are pushed) is refuted, for all of them, by list_push_tail_lost. |
| C26 | Relation list filtering, counting and cloning | osl_relation_list filter, count, clone, equal | list induction | proved |
| C27 | Setting the type of a relation or list | set_type, set_attributes | list induction | proved. Exact. The ideal (every part of every relation of a list) is refuted by list_set_type_violates. |
| C28 | Strings containers | osl_strings_* | list induction | proved. strings_generate_cases and strings_add_strings_cases decide every case. The ideal (defined for all arguments) is refuted by the _violates theorems. |
| C29 | Strings text round trip | osl_strings_sprint, sread | character level induction | proved. strings_text_round_trip_iff decides every array of words. The other theorems show what the reader does with comments, several blanks (an empty string) and the position. |
| C30 | Growing buffers never overflow | osl_util_safe_strcat | invariant of the buffer over histories | proved |
| C31 | Tag search | osl_util_read_uptoflag, uptotag, uptoendtag, tag_content | search invariant | proved. tag_content_cases decides every input. The ideal (the whole enclosed text) is refuted by tag_content_violates and tag_content_empty_violates. |
| C32 | Identifier substitution | osl_util_identifier_substitution | unique declarative specification (SubstSpec), induction | proved |
| C33 | Interface registry has unique URIs | osl_interface_add, lookup, get_default_registry | invariant over histories | proved. interface_add_cases and scop_register_extension_cases decide every case. The ideal (URIs always stay unique) is refuted by interface_add_list_violates: a list holding the same URI twice is accepted. |
| C34 | Generic information list is an association by URI | osl_generic_add, lookup, remove | refinement to a map over histories | proved. generic_add_cases decides every addition; refinement to a map for all histories. The ideal (the list never holds two entries of one URI) is refuted by generic_add_null_violates and generic_add_list_violates. |
| C35 | Generic equality ignores order | osl_generic_equal, clone | list induction | proved. Reflexivity and symmetry are relative to those of the equality functions of the extensions, which are arbitrary. |
| C36 | Extension text round trip | osl_generic_sprint, sread | character level; for arbitrary extensions | proved. For extensions whose own reader inverts their printer, as the statement says, with contents free of their end tag and URIs made of letters and underscores (witnesses show that these are needed). |
| C37 | Statement relation dispatch | osl_statement_dispatch | exact characterisation by induction on the list | proved. Exact: an error if and only if two domains, two scatterings or an unexpected type; otherwise everything is in its place and nothing is lost. |
| C38 | Union removal for a statement | osl_statement_remove_unions | product of unions, executed instances | proved |
| C39 | Union removal for a SCoP | osl_scop_remove_unions | list induction | proved. The result is characterised exactly. The ideal (the expansion of every statement) is refuted by scop_remove_unions_violates: statements are lost. |
| C40 | Scattering normalisation | osl_scop_normalize_scattering | point sets; order of padded tuples | proved. scop_normalize_scattering_correct and scop_normalize_scattering_error decide every case. The ideal (it succeeds on all of them) is refuted by scop_normalize_later_part_violates. |
| C41 | Statement and scop clones are equal | statement/scop equal, clone, add, number | list induction | proved. statement_equal_correct with statement_equal_null_violates, and scop_equal_cases, decide every case. The ideal (defined everywhere, the whole registries compared) is refuted by scop_equal_violates; scop_region_clone_violates shows an extension whose equality does not answer. |
| C42 | Statement and scop integrity | statement/scop integrity_check | exact characterisation | proved |
| C43 | Generated names | osl_names_generate, osl_names_clone | injectivity of decimal numbering | proved. The witness shows why a prefix must not end with a digit. |
| C44 | Arrays extension | osl_arrays_* | list induction, character level | proved. Exact: arrays_equal_iff and arrays_to_strings_cases decide every case. The ideal (equality independent of the order of the arguments, defined for all identifiers, all names read back) is refuted by the _violates theorems. |
| C45 | Coordinates, body, textual, comment, annotation, region, pluto_unroll, extbody text round trips | sprint/sread of 10 extensions | character level | proved. The conditions are the Textable structures. For contents outside of them the _violates theorems show what is lost; the ideal (every content) is false. |
| C46 | Extension equality is an equivalence | equal/clone of the extensions | case analysis, list induction | proved. Exact answers for every extension. The ideal (each one is an equivalence which distinguishes contents) is refuted for textual, comment, region, arrays, extbody and loop by the _violates theorems. |
| C47 | Dependence list operations | osl_dependence_* | list induction, character level | proved. dependence_add_cases decides every addition. The ideal (add always appends) is refuted by dependence_add_violates; dependence_null_domain_violates shows a domain which cannot be read back. |
| C48 | Text round trip of whole scops | osl_scop_print, pread and everything below, default registry | composition of the readers of all parts, induction on scops and statements | proved. First for every registry and every behaviour of the extensions (TextScop, TextStmt, TextRel), then for the default registry with the models of its 18 extensions, without hypothesis on their functions (Data.PlainScop: conditions on the contents only); a file with two scops holding relations, a body, a comment, arrays, coordinates and symbols is shown to meet the hypotheses. |
| C49 | Symbols extension | osl_symbols_* | list induction, character level, induction on nesting depth | proved. Exact. The ideal (equality of the whole lists; all texts read back) is refuted by symbols_equal_violates, symbols_sread_long_violates and symbols_text_null_violates. |
| C50 | Memory of relations: no leak, no double free, no sharing | the heap functions of relation.c on an explicit memory (HeapRel, HeapRelation) | separation logic, frame rule, induction on the chain of parts | proved. Separation logic on an explicit heap with an arbitrary allocator. The ideal (no leak in remove_part, any arguments of osl_relation_add) is refuted: relation_remove_first_part_leaks for every relation, and relation_add_self_violates (a relation added to itself becomes a cycle which cannot be freed). |
| C51 | Memory of relation lists and stacks | the functions of relation_list.c on the memory (HeapList) | separation logic, loop invariants over list segments | proved. Exact for every function. The ideal (push loses no node) is refuted, for every list of several nodes, by list_push_leaks. |
| C52 | Memory of strings and names | the functions of strings.c and names.c on the memory (HeapStrings) | separation logic, loop invariants over arrays of strings | proved. The heap model of strings.c and names.c; the last two theorems show misuses. |
| C53 | Memory of interfaces and generics | the functions of interface.c and generic.c on the memory (HeapGeneric), the data being a parameter | separation logic, loop invariants over chains of nodes | proved. The heap model of interface.c and generic.c, except the readers and printers; the data are any structure with a description of its free and clone functions (DataMem); the last three theorems show misuses. |
| C54 | Memory of statements | the functions of statement.c which allocate, link and free, on the memory (HeapStatement) | separation logic with frame-inference tactics (HeapTac); values by the model of Statement.lean | proved. The heap model of statement.c, except the readers and printers; the data of the extensions are any structure with a description of its free and clone functions (DataMem). |
| C55 | Memory of scops | the functions of scop.c which allocate, link and free, on the memory (HeapScop) | separation logic; the memory which remove_unions loses is part of the postcondition, and shown to be nothing when only the last statement has unions | proved. Exact for every function. The ideal (remove_unions loses no memory) is refuted by scop_remove_unions_memory and scop_remove_unions_leak. |
| C56 | Memory of extension data and of whole scops | the malloc, free, clone and add functions of the 18 extensions of the default registry, and their dispatch by number, on the memory (HeapExt) | a memory description per kind (KindMem), assembled into the data of the library with symbols nested at any depth (HeapLib), which instantiates the theorems of C53 to C55; any scop meeting the conditions is shown to exist in some heap | proved. The heap model of the free and clone functions of all 18 extensions and of their dispatch through the interfaces; annotation_free_null is the exception; the last two theorems show misuses. |
| C57 | Building an irregular extension | osl_irregular_malloc and the three add functions with the bounds of the arrays and of int (ExtIrregular) | each addition exactly, then induction on the history | proved |
| C58 | Irregular extension: text, copies, equality | printf_in_buf (growth and the reuse of va_list), sprint, strtok, atoi, sread with the double evaluation of OSL_strdup, clone with the bounds of the arrays, equal for an arbitrary strcmp (ExtIrregular) | text by induction; the impossibility of reading predicates by counting the lines the reader consumes; equality by induction; witnesses | proved. Exact; the ideal (read back, copied and compared by content) is refuted for all extensions with a predicate. irregular_equal_cancels shows that with different numbers of iterators two differences can cancel out, or the test reads out of bounds. |
| C59 | Printing a relation succeeds | the printer with its buffers and the generated names (RelationText) | induction on the columns of a row with the room left in the buffer as invariant; the generated names from the least upper bound theorem of get_attributes; witnesses for the overflow | proved. The bound on the rows is explicit and needed (relation_sprint_wide_violates). |
| C60 | Printing a scop succeeds | osl_scop_print and osl_statement_print with the choice of names (generated, or given by the parameters, the arrays extension and the body), the integrity check, the attributes, the clones of names | the attributes bound the dimensions of every part (least upper bounds of C23), so the generated names cover them; replacing names keeps the coverage under the conditions of the integrity check; then C59 on each relation, ShortText of each piece for the reading, and C48 | proved. For any registry, and with conditions on the contents only for the default registry. The conditions are needed (witnesses accepted by the integrity check): fewer names than parameters, an arrays extension which does not name all accessed arrays, a scop without any relation. |
| C61 | What is read is well formed, is what the text says, and is stable | the readers of relations, lists, statements and scops on a file (RelationText, StatementText, ScopText), on any text | inversion of every reader: the shape of the matrix by induction on the rows, the bounds of the integers from the scanners, the dispatch theorem C37, a specification of the lines of a relation (RelLines) independent of the readers; stability by combining with the round trips C24 and C48 | proved. Well-formedness for every file without any hypothesis, and the exact lines a relation comes from. The ideal (rows with missing or malformed entries are refused, the end of the file is an error, every scop is stable) is refuted by the _violates theorems. |
| C62 | Comments, blank lines and indentation are not read | the line reader skipping blanks and comments, and the readers built on it | a relation SameText between files (same content lines) preserved by every reader, composed through a bind lemma | proved. For files whose lines fit the reading buffer; the witness shows that this is needed (the end of a long comment is read as data). |
| C63 | A reader consumes its own text; files can be concatenated | the readers of relations, lists of relations, statements and scops | a predicate Local on readers (the result depends on the consumed text only), closed under composition, established for the line readers and lifted to the object readers; induction on the number of scops for the concatenation | proved. The two witnesses show that the end of line between the files, and that something remains after the object, are needed. |
| C64 | The SCoPLib text of a relation | the SCoPLib printer of relations, string by string (Scoplib) | the words of each line of the text before any # are proved to be a table specified from the matrices (Says, relTable), by induction on parts, rows and columns; the sizes by arithmetic on the dimensions | proved. The ideal (the announced size is always right) is refuted, and the exact conditions are proved. |
| C65 | The SCoPLib text of the accesses | the two passes over the list of accesses | the text says the announced size and the rows (induction on the list), and the size is that of the rows | proved. What the text says is exact for all lists of accesses. The ideal for the other lists is refuted: may-writes (written as ordinary matrices), unions of accesses and accesses with different numbers of local dimensions (witnesses). |
| C66 | Printing a compatible scop in the SCoPLib format | the check of compatibility and the printers of statements and scops | the check by induction on the entries; the text by composing the tables of its parts, with the names of C60 | proved. For any registry and for the default one. Outside of these conditions: the check looks at the first part of a scattering only, and a missing scattering is a NULL dereference (witnesses). |
| C67 | Nothing is lost in the SCoPLib format | the same | a text says one table only (Says.unique), and a table determines the matrices (induction on the parts) | proved. The ideal for all accesses is refuted: the check does not look at their output columns, and the access to a scalar is written as the access to the first element of an array (witnesses). |
| C68 | The comments of a printed relation say its constraints | the printer of relations, statements and scops; the meaning of a comment is a small evaluator of expressions (CommentSpec), independent of the printer | induction on the columns: the value of the text written so far is the sum of the terms so far; then on the rows, parts, statements and scops | proved. Proved for all relations, statements and scops of C59 and C60 whose given names start with no digit and hold no + or -; refuted without this condition (the names are copied without parentheses: witness). The names used are specified too (dimNames, StmtNames, ScopNames). |
| C69 | The display of an object tells the object | the display functions as functions from objects to texts; specification `Shows P f`: whatever follows, the text determines the object and where its text ends | each function line by line: the texts of the lines are delimited by ends of lines, numbers by the next character, lists by the last line; induction on the lists | proved. The conditions are needed: strings_null_as_empty and strings_space_ambiguous refute the ideal (a NULL array is displayed as an empty one, a space in a word separates words); the _ok_iff theorems say exactly when each function is defined. |
| C70 | The display of the extensions | the display functions of the 18 extensions and of irregular, the dispatch through the interfaces, symbols nested to any depth, the pointers of the dependences to statements | the same, with induction on the depth of the symbols; counterexamples for annotation, region and textual | proved. fns_ok_iff and fns_null_ok_iff decide when each function is defined. The ideal is refuted by scop_dependence_undefined (for every scop with dependences as read), annotation_ambiguous, region_ambiguous, textual_elided and comment_ambiguous. |
| C71 | The level of a display is only the indentation | the same functions; specification `Levelled f`: lines which do not depend on the level, with bars before each | closure of this form under concatenation, loops and nested calls at a higher level | proved. The ideal is refuted for annotation and region, at every level but 0. |
| C72 | Reading allocates exactly the object | the readers on the memory (HeapRead, HeapReadRel, HeapReadList, HeapReadGen, HeapReadLib, HeapReadScop): the same text functions as in C48, with every malloc, realloc, free, load and store of the C code | separation logic triples from the empty heap, by induction on the loops of the readers; the lost tags are computed by a separate function on the text | proved. The precondition of each theorem is that the reader on texts (the model of C48 and C61) returns the object; the conclusion is that the heap holds the object and the lost tags, and nothing else. The ideal is refuted by scop_read_stray_leak; closing_or_empty says that only closing and empty tags are lost; printed_loses_nothing and print_read_memory say that a file written by osl_scop_print loses none (plain_full: the condition on the symbols holds unless symbols are nested in symbols). |
| C73 | Vectors in memory, and relations combined with vectors | vectors on the memory, and the functions of relation.c which take one (HeapVec): structure, array and GMP integers as blocks, every malloc, free, load and store | separation logic triples: each loop over the array is a fold over the elements read so far, for shared and for distinct operands | proved. The precondition of each theorem is that the function on values (C11, C15, C17) succeeds; the conclusion is a separation logic triple with the arguments and the result and nothing else. vecAt_exists: the hypotheses can be met for all vectors and relations. |
| C74 | Printing leaves memory as it was | the printers on the memory (HeapPrint, HeapPrintList, HeapPrintExt, HeapPrintScop): strings which grow, expressions with the oppositions in place, arrays of names, generated names, lists, strings, bodies, every extension, generics, symbols nested at any depth, statements and scops with the names swapped in and out | separation logic triples by induction on columns, rows, parts and nodes; opposing twice restores a coefficient; frame around every call; names at known places, data borrowed from a list and given back | proved. The precondition of each theorem is that the function on values prints a text (it does for the relations of C35: relation_print_total_memory) and that the coefficients can be stored in their precision; the conclusion is a separation logic triple with the arguments, the string and nothing else. |
| C75 | Comparing, counting, checking and looking up only read memory | the read-only functions on the memory (HeapQueryRel, HeapQuery, HeapQueryExt): every load of the C functions, with their early exits, on relations, lists, interfaces, generics, statements, scops and every extension | queries: the answer and the very same memory, by induction on columns, rows, parts and nodes; a query on a part of the memory is a query on the whole | proved. Query P m v says: in every memory which has P in it, m answers v and the memory is the same one. The precondition of each theorem is that the function on values answers; the functions on values which do not answer (osl_dependence_equal with one NULL list, osl_region_equal on equal lists) are undefined or do not end in C as well. |
| C76 | Updates in place and searches in memory | the updates of the fields and of the precision of relations, the registration of interfaces and the searches on the memory (HeapUpdate) | triples by induction on parts, rows and columns (the matrix is partly in the old and partly in the new precision); queries for the searches | proved. For osl_scop_register_extension when an extension is found under the URI, see C33: the data is used as a generic, which is undefined. |
| C77 | Integers in memory: any aliasing, exact outcome, no leak | the functions of source/int.c on variables in memory, with their local integers (HeapInt) | a judgement Does (the outcome of a run is the outcome of the function on values, and the memory afterwards); the operations are proved for any variable and operands, then for the elements of an array with any indices | proved. Does P m o Q says: from every memory with P in it, the run m ends with the outcome o of the function on values (a value w and the memory Q w, an error, or undefined behaviour). call2 f v r a b is the C call f(&v[r], v[a], v[b]), for any indices. The theorems on values (C01 to C08) say what the outcomes are. |
| C78 | The irregular extension in memory | the functions of source/extensions/irregular.c on the memory: the five arrays, the buffer of printf_in_buf, the loops (HeapIrr, HeapIrrText) | triples by induction on the arrays (arrays which are filled from the left); queries for the comparison; a judgement UndefFrom for the copy | proved. The theorems on values (C57, C58) say what the structures and texts are. UndefFrom P m: the run is undefined from every memory with P in it. The clone writes the body after the end of the array of the iterators (source/extensions/irregular.c:462), so that irregular_clone_memory has only structures without predicates (and NULL) to speak of, and irregular_clone_undef_memory covers all the others. The rest of the string which strtok keeps between two calls is a value in the model. |
| C79 | Printing in the SCoPLib format leaves memory as it was | the SCoPLib printers on the memory (HeapScoplib): the columns and rows with the fake iterator, the sizes, the accesses counted and printed, bodies, options, statements, scops | separation logic triples against the texts of the functions on values; a judgement for functions which add pieces to a string; names at known places, data borrowed from a list and given back as in C74 | proved. The theorems on values (C64 to C67) say what the texts are. Where the function on values is undefined (a NULL domain, data of another kind) nothing is claimed; an incompatible scop ends the program. |
| C80 | Displaying leaves memory as it was | the display functions on the memory (HeapDump): strings, vectors, relations, lists, interfaces, generics, names, bodies, statements, scops, every extension | separation logic triples against the texts of the functions on values: the structure is left as it was; one lemma for the linked structures; for the dependences, a list of statements whose nodes are at known addresses, split around the node displayed | proved. The theorems on values (C69 to C71) say what the texts are. Where the function on values is undefined (the display of dependences as read, whose pointers to statements are NULL; a NULL annotation) nothing is claimed. |
| C81 | A client which owns what it holds never breaks the memory | client programs: variables of six types (vectors too), 103 calls, a run on values with the rules of ownership (Client.runs, runClient) and a run in memory (execs, execClient) made of the functions of Heap*.lean | the variables are in separate parts of the memory (varsAt); one rule for each shape of call from the triple of its function, one lemma for all the calls, induction on the history; the corollaries start with NULL variables | proved. Clients make 103 kinds of calls of vectors, relations, relation lists, extension lists, statements and scops, with the extensions of the default registry and symbols nested at any depth; a rule of ownership which is broken makes the run on values undefined, as does a statement lost by osl_scop_remove_unions (C55) and, for the printing functions, a value which is not in the type of its integers. Fields of statements and scops are exchanged with a variable. Functions not in the list are covered by their own triples (C50-C56, C72-C80). |
| C82 | What a client obtains can always be stored and printed | the relations, lists, statements, scops and extension data of the value models; Fit/Stored: each part has the advertised shape and integers of its precision (Stored*.lean) | one preservation lemma per function, induction on histories; the library keeps it by induction on the depth of the symbols; then the client runs with and without the printing conditions are equal | proved. Whether an integer fits is InPrec (the type of the precision; any integer for GMP). runPlain is the run of C81 without the conditions of the printing calls. |
| C83 | A client which meets the preconditions of the calls has no undefined behaviour | the functions of the value models of relations, vectors, lists, statements, scops, extensions and their displays; Pre: what each call needs (Verif/Defined.lean, Verif/DefinedExt.lean, Verif/DefinedText.lean, Verif/DefinedPrint.lean, Verif/DefinedRead.lean, Verif/DefinedHistory.lean; clients which read and write files: Verif/DefinedExample.lean) | one lemma per function: on parts of the advertised shape each access is in its bounds, each sum is guarded, each string which is read is there; by induction on the levels of symbols for extensions; then induction on histories with the invariant of C82, and C81 for the memory | proved. Pre (Verif/DefinedHistory.lean) is the list of preconditions, for all the 103 kinds of calls. Undefined is a read or write outside of a matrix, a text which does not fit its buffer, a division by zero, an overflow of a signed type and a NULL dereference. The readers are covered for files which the library wrote (Written). |

## 5. Heap model

`Verif/Heap*.lean` models the functions which allocate, link and free memory on an explicit heap: a heap maps addresses
to blocks, `malloc` returns a fresh address chosen by an arbitrary allocator, an access to an address
which is not allocated (use after free, double free, NULL) is `ub`.  Predicates of separation logic
(`PHeap`, `∗`, `↦`) say that a pointer heads a structure whose value is a given value of the
value model and which owns exactly the given blocks; `Triple P m Q` says that from every heap made of a part
satisfying `P` and an arbitrary rest, `m` runs without error and undefined behaviour, and changes the
part to one satisfying `Q` and the rest not at all.  A theorem of this form therefore covers leaks (a block
which is not in `Q` does not exist), double frees and sharing.  Loops over linked lists run with a fuel which is the number of blocks of
the heap: a list which is acyclic is always shorter.

## 6. What is modelled of each file

All functions of int.c, vector.c, relation.c, relation_list.c, statement.c, scop.c,
generic.c, interface.c, strings.c, names.c, body.c, util.c, of the extensions of the default registry and of the irregular extension, except
`osl_int_get_d` (floating point).

## 7. Wrong programs

`seeded/b*.py` are batches of mutations of the model, `seeded/run.py` applies each in a scratch copy, rebuilds, and records in
`seeded/LOG.jsonl` which theorems fail and which theorems of the claims depend on them. The theorems tightened after a mutation survived
are listed in its line.


## 8. Defects of the code which are proved

Every theorem below proves, on a concrete witness or in general, that the code does not have a property one would expect.

* `body_text_several_violates` (BodyProps.lean): Finding (C45): an expression of several strings is read back as one string, which is not equal.
* `body_text_hash_violates` (BodyProps.lean): Finding (C45): what follows a `#` in the expression is lost.
* `body_text_null_violates` (BodyProps.lean): Finding (C45): the text of a NULL body cannot be read.
* `comment_name_violates` (CommentScop.lean): Finding (C68): names are copied into the comments without parentheses.
* `lost_none` (DefinedHistory.lean): The covered calls lose no string.
* `annotation_level_violates` (DumpLevelExt.lean): Finding (C71): `osl_annotation_idump` writes the lines of the texts without bars, at any level but 0.
* `region_level_violates` (DumpLevelExt.lean): Finding (C71): the same for `osl_region_idump`.
* `arrays_equal_violates` (ExtArraysProps.lean): C44 finding: with a repeated pair the equality is not symmetric.
* `arrays_to_strings_violates` (ExtArraysProps.lean): C44 finding: a null or negative identifier makes `osl_arrays_to_strings` write out of its array.
* `arrays_text_violates` (ExtArraysProps.lean): C44 finding: a name with a blank is not read back.
* `scatnames_text_violates` (ExtArraysProps.lean): Findings: an empty list of names is read back as NULL; printing a NULL structure dereferences it.
* `dependence_equal_null_violates` (ExtDepProps.lean): C46 finding: comparing a dependence list with NULL dereferences NULL.
* `dependence_add_violates` (ExtDepProps.lean): Finding: when `*now` is not the last node, the nodes after it are lost.
* `dependence_type_violates` (ExtDepProps.lean): Finding: a type without name makes the printer exit the program.
* `dependence_null_domain_violates` (ExtDepProps.lean): Finding: a NULL domain has no text, and nothing cannot be read as a domain.
* `irregular_read_predicates_violates` (ExtIrregularProps.lean): C57, refutation for all extensions with a predicate: whatever the reader makes of the text between the tags of an extension with at least one predicate, one of the predicates it returns has no body.
* `irregular_equal_statements_violates` (ExtIrregularProps.lean): C57 finding: the predicates of the statements are not compared: two extensions which only differ by them are equal, for all extensions.
* `loop_equal_violates` (ExtLoopProps.lean): C46 findings for loop: with repeated statement identifiers or repeated loops the equality is not symmetric; a loop with private variables cannot be compared with one without.
* `loop_text_null_violates` (ExtLoopProps.lean): C45 finding for loop: private variables which are called `(null)` are read back as NULL.
* `unroll_sprint_long_violates` (ExtMiscProps.lean): C45 finding: a list whose text has OSL_MAX_STRING characters or more overflows the buffer of the printer.
* `unroll_factor_violates` (ExtMiscProps.lean): C45 finding: a factor above `INT_MAX` is printed but cannot be read (the conversion overflows).
* `extbody_equal_violates` (ExtMiscProps.lean): C46 finding: with repeated accesses the equality is not symmetric.
* `extbody_null_body_violates` (ExtMiscProps.lean): Finding: an extended body without body is printed (`# NULL body`) but cannot be read back.
* `textual_equal_violates` (ExtSimpleProps.lean): C46 finding: two different textual extensions are equal, and NULL is equal to a textual extension.
* `textual_text_violates` (ExtSimpleProps.lean): C45 finding: no textual extension has a text, so none can be read back.
* `comment_text_newline_violates` (ExtSimpleProps.lean): C45 finding: in a string of extensions, the end of line after the tag becomes part of the comment read.
* `comment_sprint_long_violates` (ExtSimpleProps.lean): C45 finding: a comment of OSL_MAX_STRING characters or more overflows the buffer of the printer, although the reader accepts OSL_MAX_STRING characters.
* `comment_position_violates` (ExtSimpleProps.lean): Finding: the position of the input is not updated, contrary to the documentation of the function.
* `comment_equal_violates` (ExtSimpleProps.lean): C46 finding: two different comments are equal.
* `clay_text_violates` (ExtSimpleProps.lean): C45 finding: the ends of line at the beginning of a script are lost.
* `clay_equal_null_violates` (ExtSimpleProps.lean): C46 finding: a clay extension without script (as `osl_clay_malloc` leaves it) cannot be compared.
* `coordinates_equal_null_violates` (ExtSimpleProps.lean): C46 finding: coordinates without a file name (as `osl_coordinates_malloc` leaves them) cannot be compared.
* `coordinates_text_hash_violates` (ExtSimpleProps.lean): C45 finding: a file name with a `#` is cut, and the rest of the line makes the reader fail or read other numbers.
* `symbols_sread_long_violates` (ExtSymbolsProps.lean): Finding (C49): the text of symbols longer than OSL_MAX_STRING characters, which the printer writes, is an error for the reader.
* `symbols_equal_violates` (ExtSymbolsProps.lean): Finding (C49): only the first symbols are compared: a list is equal to its first symbol alone, whatever follows.
* `symbols_text_null_violates` (ExtSymbolsProps.lean): Finding (C49): when the datatype is absent, the scope is read as the datatype.
* `annotation_null_violates` (ExtTextProps.lean): Findings: a NULL annotation is dereferenced by the printer and the copy (unlike all other extensions).
* `annotation_text_hash_violates` (ExtTextProps.lean): C45 finding: a line starting with `#` (such as `#pragma omp`) is taken for a comment, and the rest of the text is read in its place.
* `region_equal_violates` (ExtTextProps.lean): C46 finding: comparing equal lists of regions is undefined.
* `region_negative_count_violates` (ExtTextProps.lean): Finding: the text of the NULL list is read as NULL; a negative number of regions is read as one empty region.
* `generic_add_null_violates` (GenericProps.lean): Finding (C34): a generic without data is not seen by the check, and its URI can be added again.
* `generic_add_list_violates` (GenericProps.lean): Finding (C34): a list holding the same URI twice can be added to a list without it.
* `generic_equal_dup_violates` (GenericProps.lean): Finding (C35): with the same URI twice, equality is not symmetric.
* `generic_end_tag_violates` (GenericTextProps.lean): Finding (C36): a content which contains the end tag is cut.
* `generic_digit_uri_violates` (GenericTextProps.lean): Finding (C36): a URI with a digit is accepted by the registry and printed, but reading its tag is an error.
* `relation_add_self_violates` (HeapExample.lean): Finding (C50): adding a relation to itself makes a cycle: the relation cannot be freed (a part is used after it is freed) and its parts cannot be counted.
* `relation_double_free_ub` (HeapExample.lean): Freeing a relation twice, or a relation which was linked in another one, is undefined.
* `relation_remove_part_leak` (HeapExample.lean): Finding (C50): after the removal of the first of two parts and the deallocation of the relation, 3 blocks (the first part) are left; after the removal of the second one, none.
* `generic_unregistered_leak` (HeapGenericExample.lean): Finding (C53): the data of a generic without interface is freed as a single block: here the 3 other blocks of the strings are lost.
* `history_no_leak` (HeapHistoryTop.lean): C81: a client which starts with NULL variables, frees or gives away all that it has obtained, and reads no file with something to lose, leaves the memory as it was before, whatever it was: no memory is leaked, none is freed twice, none of the rest is touched.
* `history_leak` (HeapHistoryTop.lean): C81: with strings lost: the memory is what it was, and these strings.
* `client_leak` (HeapHistoryTop.lean): C81: such a client, which starts with NULL variables and has only NULL variables at the end, leaves the memory as it was before, with the strings which reading loses.
* `int_misuse_ub` (HeapIntExample.lean): Misuses: with GMP, the quotient and the remainder in the same variable; an integer freed twice; a GMP integer whose content is used after it was cleared; a GMP integer initialised with `osl_int_init_set_long`.
* `list_push_leak` (HeapListExample.lean): Finding (C51): pushing a list of two nodes loses the second node: after the deallocation of the stack, its 4 blocks (node, relation, matrix) are left.
* `list_cycle_ub` (HeapListExample.lean): Pushing the stack on itself, or adding a list to itself, makes a cycle: the deallocation then uses a freed node, or a list cannot be counted.
* `list_push_leaks` (HeapListProps.lean): Finding (C51): when a list of several nodes is pushed, the nodes after the first one stay allocated but are not in the stack, and no pointer to them is left.
* `lostExts_quiet` (HeapReadClean.lean): As many extensions as announced: none of the tags is lost.
* `lostLoop_text` (HeapReadClean.lean): The extensions of a scop, in the text of which there are only opening tags.
* `scop_read_stray_leak` (HeapReadExample.lean): C72: the ideal (nothing but the scops is allocated) is false: after the reading of that file and `osl_scop_free`, the two tags stay allocated.
* `got_lost` (HeapReadProps.lean): A reader which loses nothing.
* `relation_remove_first_part_leaks` (HeapRelationMem.lean): Finding (C50): the removal of the first part does not free it: it stays allocated, still linked to the rest, and the caller who removes it must free it without its `next` parts, unlike any other part.
* `relation_free_no_leak` (HeapRelationMem.lean): C50: when the relation is all that is allocated, nothing is left after `osl_relation_free`.
* `scop_remove_unions_leak` (HeapScopExample.lean): Finding (C55): `osl_scop_remove_unions` loses memory as soon as a statement which is not the last one has a union: a second statement is made for the first one of the scop, then the link to it is overwritten, and its 17 blocks are never freed.
* `scop_remove_unions_no_leak` (HeapScopProps.lean): C55: when all the statements of the scops but the last of each have one domain and one scattering at most, `osl_scop_remove_unions` loses no memory.
* `strings_add_strings_leak` (HeapStringsExample.lean): Finding (C52): when the destination of `osl_strings_add_strings` is its first argument, as in `osl_strings_add_strings(&s, s, t)`, the old structure (here 4 blocks) is lost.
* `vector_double_free_ub` (HeapVecExample.lean): Freeing a vector twice is undefined; a vector is not freed with the relation which is made of it.
* `int_size_min_ub` (IntExact.lean): C09, the least `long long int` has no size: `llabs` is undefined.
* `int_add_min_violates` (IntProps.lean): C01, the excluded case: adding the most negative value to a negative number overflows, but the check itself negates that value.
* `int_add_si_min_violates` (IntProps.lean): C01: `osl_int_add_si(-1, INT_MIN)` is representable but the check computes `-INT_MIN`.
* `int_sub_min_violates` (IntProps.lean): C02, the excluded case: `-1 - LLONG_MIN` is representable (`LLONG_MAX`) but undefined here; with wrapping arithmetic it stores a wrong value for `1 - LLONG_MIN` without any report.
* `int_mul_overflow_is_ub` (IntProps.lean): C03 in ISO C: every overflowing product is undefined behaviour; the overflow report of `osl_int_mul` is never reached.
* `int_mul_violates` (IntProps.lean): C03 violated: undefined behaviour in ISO C; trapping division for `MIN * -1` with wrapping arithmetic; silently wrong value with wrapping arithmetic and `NDEBUG`.
* `int_floor_div_r_violates` (IntProps.lean): C04 violated in ISO C: for `a = LLONG_MIN`, `b = 3` the floor remainder is 1, but the code multiplies the floor quotient back and overflows.
* `int_mod_violates` (IntProps.lean): C05 violated: `MIN % -1` (mathematically 0) and `-1 mod MIN` (representable) are undefined.
* `int_gcd_violates` (IntProps.lean): C06 violated: `gcd(MIN, 0)` is not representable and `gcd(MIN, -1)` is 1, yet undefined.
* `int_order_violates_32bit_long` (IntProps.lean): C07 violated where `long` has 32 bits: double precision values are compared through their low half, so `2^32 < 1` is answered true.
* `int_set_precision_violates` (IntProps.lean): C08 violated: a value representable in both precisions is refused in a debug build and silently replaced by another one with `NDEBUG`.
* `int_init_set_long_mp_ub` (IntProps.lean): Companion of C08: initialising a multiple precision integer from a `long` reads uninitialised memory.
* `int_get_long_long_violates_32bit_long` (IntProps.lean): Companion of C08, violated: with a 32-bit `long` a double precision value is cut by `osl_int_get_long_long`, whose result type could hold it.
* `int_sread_position_violates` (IntText.lean): Finding (C10): `osl_int_sread` promises to move the position after the number, but moves it by one character: a second read starts inside the number.
* `int_sread_eof_unreported` (IntText.lean): Finding (C10): at the end of the input nothing is reported, the value is unchanged, and the position moves before the string.
* `interface_add_list_violates` (InterfaceProps.lean): Finding (C33): adding a list of interfaces which contains the same URI twice is accepted: only the conflicts with the previous list are checked.
* `scop_region_clone_violates` (LibraryProps.lean): Finding (C41): the comparison of a scop which has a region with its copy reads a NULL pointer.
* `relation_pread_long_comment_violates` (ReadLines.lean): Finding (C62): the limit on the length of the lines is necessary: a comment is skipped a buffer at a time (source/util.c:91-95), and the end of a comment line of more than 2046 characters is read as data.
* `scop_read_print_read_comment_violates` (ReadScopExample.lean): Finding (C61): the stability of the texts of the extensions is necessary: the `comment` of a scop is read with the end of line of its tag, and grows by one end of line each time the scop is read and printed.
* `scop_pread_append_violates` (ReadScopExample.lean): Finding (C63): the end of line between the two files is necessary: two files without scops can make a file with one.
* `relation_pread_local_violates` (ReadScopExample.lean): Finding (C63): a relation whose last line has no end of line depends on what follows.
* `relation_pread_short_row_violates` (ReadValues.lean): Finding (C61): a row with too few entries is not an error when a blank follows its last one: the last entry is repeated.
* `relation_pread_word_violates` (ReadValues.lean): Finding (C61): a word which is not an integer is read as the integer at its beginning.
* `relation_pread_end_violates` (ReadValues.lean): Finding (C61): at the end of a file, the reader of a relation passes a NULL pointer to `sscanf` (source/relation.c:1354-1357), and the reader of its type dereferences one.
* `list_push_tail_lost` (RelationListProps.lean): C25: only the first node of a pushed list is kept: the others are lost (their `next` pointer is overwritten).
* `list_set_type_violates` (RelationListProps.lean): Finding (C27): the later parts of a union keep their type.
* `relation_sprint_wide_violates` (RelationPrintProps.lean): Finding (C59): the rows have to fit in the buffers: the comment of a row of this well-formed domain overflows one of them.
* `relation_sub_vector_inequality_unsound` (RelationProps2.lean): C17, why the restriction to equalities: subtracting the inequality `i >= 0` from the equality `i = 3` gives the constraint `-3 >= 0`: the point 3 is lost.
* `relation_add_vector_no_column_ub` (RelationProps4.lean): C19, the exception: combining with a vector reads the first column of the row, which a relation without columns does not have.
* `relation_integrity_accepts_mixed_types` (RelationProps6.lean): Finding (C22): a union whose second part has another type than the expected one is accepted.
* `relation_integrity_accepts_unknown_locals` (RelationProps6.lean): Finding (C22): a later part with an unknown number of local dimensions is accepted; then nb_columns is not the sum of the dimensions.
* `relation_integrity_accepts_negative_dims` (RelationProps6.lean): Finding (C22): negative dimensions other than -1 are accepted when they add up.
* `relation_sread_union_violates` (RelationTextProps.lean): Finding (C24): reading from a string the printed text of any union with a typed part after the first one gives a relation which is not equal: `osl_relation_psread` sets the type of the first part only.
* `relation_sread_truncated_violates` (RelationTextProps.lean): Finding (C24): in a matrix with a missing entry at the end of the input, the last token is used twice and no error is reported (the `EOF` result of `sscanf` is not tested).
* `scop_print_params_violates` (ScopPrintDefault.lean): Finding (C60): a scop with one parameter whose list of names is empty passes the integrity check (the number of names is not checked), and the printer reads out of the list.
* `scop_print_arrays_violates` (ScopPrintDefault.lean): Finding (C60): a scop whose `arrays` extension does not name the array 5 which a statement accesses passes the integrity check, and the printer reads out of the list of names.
* `scop_print_empty_violates` (ScopPrintDefault.lean): Finding (C60): a scop without any relation passes the integrity check; the numbers of dimensions are -1 and the printer generates -1 names: it writes out of bounds.
* `scop_remove_unions_violates` (ScopProps.lean): Finding (C39): a scop of two statements with a domain of two parts each should give four statements; the result has three, the second part of the domain of the first statement is lost.
* `scop_normalize_later_part_violates` (ScopProps.lean): Finding (C40): the maximum is taken on the first parts of the scatterings only; a later part with more output dimensions makes the function fail.
* `scop_equal_violates` (ScopProps.lean): Findings (C41): two registries with the same first interface are equal whatever follows; a scop without language cannot be compared, even with its copy; nor a scop without statement with one which has some (undefined behaviours).
* `scop_register_extension_violates` (ScopProps.lean): Finding: when the scop already has an extension with the URI (kept as unknown text, say), which is what the function is meant for, the data of the extension is used as if it were a list node: undefined behaviour.
* `scoplib_fake_domain_violates` (ScoplibExample.lean): Finding (C64): a statement whose domain has an iterator but no constraint, and whose scattering has one row, gets a fake iterator besides its own: the matrix printed for its domain announces five columns and has a row of four entries.
* `scoplib_fake_scattering_violates` (ScoplibExample.lean): Finding (C64): a scattering of one row with two output dimensions and a fake iterator announces five columns and has two rows of six entries.
* `scoplib_fake_union_violates` (ScoplibExample.lean): Finding (C64): with a fake iterator, the loop on the rows of a scattering never ends if a part has more than three rows.
* `scoplib_may_write_violates` (ScoplibExample.lean): Finding (C65): a may-write access is not written as an access: the size announces one row, and it is followed by another size and two rows.
* `scoplib_access_union_violates` (ScoplibExample.lean): Finding (C65): the first part of an access only is counted: one row is announced for a union of two accesses, the number of parts is written as a row, and two rows follow.
* `scoplib_access_locals_violates` (ScoplibExample.lean): Finding (C65): the columns announced are those of the last access: here an access with a local dimension comes first.
* `scoplib_check_null_violates` (ScoplibExample.lean): Finding (C66): a statement without scattering passes the integrity check, and the check of compatibility dereferences a NULL pointer; so does a NULL scop.
* `scoplib_check_union_violates` (ScoplibExample.lean): Finding (C66): the check looks at the first part of a scattering only: a union whose second part has local dimensions and other output columns is accepted.
* `scoplib_access_lost_violates` (ScoplibExample.lean): Finding (C67): the check does not look at the accesses: two different accesses (2 x = i and x = i) are accepted and written as the same rows.
* `scoplib_scalar_lost_violates` (ScoplibExample.lean): Finding (C67): the access to a scalar is written as the access to the first element of an array.
* `statement_equal_null_violates` (StatementProps.lean): C41: two NULL lists are equal; the comparison of NULL with a statement is undefined (a NULL pointer is dereferenced, source/statement.c:675).
* `strings_generate_negative_violates` (StringsProps.lean): Finding (C28): a negative number of strings, or INT_MAX, is undefined behaviour.
* `strings_add_strings_violates` (StringsProps.lean): Finding (C28): concatenating with the result of `osl_strings_generate(prefix, 0)` dereferences NULL.
* `strings_text_empty_violates` (StringsProps.lean): Finding (C29): the empty array is printed as an empty line, which is read back as NULL, not equal to it.
* `strings_sread_double_blank_violates` (StringsProps.lean): Finding (C29): two blanks between words (a legal input) make the last word disappear.
* `strings_sread_position_violates` (StringsProps.lean): Finding (C29): when the input ends with the last word the position is left after the terminator.
* `names_generate_distinct_violates` (StringsProps.lean): Finding (C43): with the distinct prefixes `a` and `a1`, the eleventh `a` is the first `a1`.
* `read_uptoflag_empty_violates` (UtilProps.lean): Finding: with an empty flag the first character is eaten.
* `tag_content_violates` (UtilProps.lean): Finding (C31): the first character of the content is lost.
* `tag_content_empty_violates` (UtilProps.lean): Finding (C31): an empty content makes the copy loop run out of the string, for every name.
* `identifier_substitution_empty_diverges` (UtilProps.lean): Finding (C32): an empty identifier makes the loop run forever (no number of iterations is enough).
