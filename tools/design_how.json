{
 "C01": [
  "osl_int_add, add_si, increment with C overflow",
  "case analysis on the guards, linear arithmetic"
 ],
 "C02": [
  "osl_int_sub, oppose",
  "case analysis, linear arithmetic"
 ],
 "C03": [
  "osl_int_mul, mul_si",
  "Euclidean bound for the overflow test"
 ],
 "C04": [
  "osl_int_floor_div_q, _r, _q_r",
  "uniqueness of quotient and remainder"
 ],
 "C05": [
  "osl_int_mod, divisible, div_exact",
  "integer division lemmas"
 ],
 "C06": [
  "osl_int_gcd, lcm, llgcd loop",
  "induction on Euclid's recursion"
 ],
 "C07": [
  "osl_int comparisons",
  "case analysis"
 ],
 "C08": [
  "osl_int_set_precision, osl_relation_set_precision",
  "case analysis; list induction over the matrix"
 ],
 "C09": [
  "oppose, abs, assign, swap, increment, sizes",
  "induction on the digit loops"
 ],
 "C10": [
  "osl_int_sprint_txt, osl_int_sread at character level",
  "induction on decimal digits"
 ],
 "C11": [
  "osl_vector_*",
  "list induction, loop invariants"
 ],
 "C12": [
  "osl_relation_clone, nclone, clone_nconstraints",
  "loop invariants on matrices, list induction"
 ],
 "C13": [
  "osl_relation_equal, part_equal",
  "reflection to Lean equality"
 ],
 "C14": [
  "osl_relation_union, add; point sets (RelSpec)",
  "list induction"
 ],
 "C15": [
  "insert/concat_constraints, insert/concat_vector",
  "row sets of the result, then point sets"
 ],
 "C16": [
  "swap_constraints, insert_blank_row, remove_row",
  "row sets"
 ],
 "C17": [
  "add_vector, sub_vector",
  "linear forms"
 ],
 "C18": [
  "insert_blank_column, remove_column, insert_columns",
  "row-wise description, evaluation of linear forms"
 ],
 "C19": [
  "all row/column operations as steps of a history",
  "invariant by induction on the history"
 ],
 "C20": [
  "osl_relation_extend_output",
  "product with zero coordinates"
 ],
 "C21": [
  "osl_relation_get_array_id",
  "loop invariant; point-set meaning"
 ],
 "C22": [
  "osl_relation_integrity_check, list",
  "exact characterisation (iff)"
 ],
 "C23": [
  "get_attributes of relation, list, statement, scop",
  "least upper bound by induction"
 ],
 "C24": [
  "osl_relation_spprint_polylib, psread_polylib at character level",
  "lines and tokens of the text, reader induction"
 ],
 "C25": [
  "osl_relation_list push/pop/dup/drop/destroy",
  "refinement of a stack by induction on histories"
 ],
 "C26": [
  "osl_relation_list filter, count, clone, equal",
  "list induction"
 ],
 "C27": [
  "set_type, set_attributes",
  "list induction"
 ],
 "C28": [
  "osl_strings_*",
  "list induction"
 ],
 "C29": [
  "osl_strings_sprint, sread",
  "character level induction"
 ],
 "C30": [
  "osl_util_safe_strcat",
  "invariant of the buffer over histories"
 ],
 "C31": [
  "osl_util_read_uptoflag, uptotag, uptoendtag, tag_content",
  "search invariant"
 ],
 "C32": [
  "osl_util_identifier_substitution",
  "unique declarative specification (SubstSpec), induction"
 ],
 "C33": [
  "osl_interface_add, lookup, get_default_registry",
  "invariant over histories"
 ],
 "C34": [
  "osl_generic_add, lookup, remove",
  "refinement to a map over histories"
 ],
 "C35": [
  "osl_generic_equal, clone",
  "list induction"
 ],
 "C36": [
  "osl_generic_sprint, sread",
  "character level; for arbitrary extensions"
 ],
 "C37": [
  "osl_statement_dispatch",
  "exact characterisation by induction on the list"
 ],
 "C38": [
  "osl_statement_remove_unions",
  "product of unions, executed instances"
 ],
 "C39": [
  "osl_scop_remove_unions",
  "list induction"
 ],
 "C40": [
  "osl_scop_normalize_scattering",
  "point sets; order of padded tuples"
 ],
 "C41": [
  "statement/scop equal, clone, add, number",
  "list induction"
 ],
 "C42": [
  "statement/scop integrity_check",
  "exact characterisation"
 ],
 "C43": [
  "osl_names_generate, osl_names_clone",
  "injectivity of decimal numbering"
 ],
 "C44": [
  "osl_arrays_*",
  "list induction, character level"
 ],
 "C45": [
  "sprint/sread of 10 extensions",
  "character level"
 ],
 "C46": [
  "equal/clone of the extensions",
  "case analysis, list induction"
 ],
 "C47": [
  "osl_dependence_*",
  "list induction, character level"
 ],
 "C48": [
  "osl_scop_print, pread and everything below, default registry",
  "composition of the readers of all parts, induction on scops and statements"
 ],
 "C49": [
  "osl_symbols_*",
  "list induction, character level, induction on nesting depth"
 ],
 "C50": [
  "the heap functions of relation.c on an explicit memory (HeapRel, HeapRelation)",
  "separation logic, frame rule, induction on the chain of parts"
 ],
 "C51": [
  "the functions of relation_list.c on the memory (HeapList)",
  "separation logic, loop invariants over list segments"
 ],
 "C52": [
  "the functions of strings.c and names.c on the memory (HeapStrings)",
  "separation logic, loop invariants over arrays of strings"
 ],
 "C53": [
  "the functions of interface.c and generic.c on the memory (HeapGeneric), the data being a parameter",
  "separation logic, loop invariants over chains of nodes"
 ],
 "C54": [
  "the functions of statement.c which allocate, link and free, on the memory (HeapStatement)",
  "separation logic with frame-inference tactics (HeapTac); values by the model of Statement.lean"
 ],
 "C55": [
  "the functions of scop.c which allocate, link and free, on the memory (HeapScop)",
  "separation logic; the memory which remove_unions loses is part of the postcondition, and shown to be nothing when only the last statement has unions"
 ],
 "C56": [
  "the malloc, free, clone and add functions of the 18 extensions of the default registry, and their dispatch by number, on the memory (HeapExt)",
  "a memory description per kind (KindMem), assembled into the data of the library with symbols nested at any depth (HeapLib), which instantiates the theorems of C53 to C55; any scop meeting the conditions is shown to exist in some heap"
 ],
 "C57": [
  "osl_irregular_malloc and the three add functions with the bounds of the arrays and of int (ExtIrregular)",
  "each addition exactly, then induction on the history"
 ],
 "C58": [
  "printf_in_buf (growth and the reuse of va_list), sprint, strtok, atoi, sread with the double evaluation of OSL_strdup, clone with the bounds of the arrays, equal for an arbitrary strcmp (ExtIrregular)",
  "text by induction; the impossibility of reading predicates by counting the lines the reader consumes; equality by induction; witnesses"
 ],
 "C59": [
  "the printer with its buffers and the generated names (RelationText)",
  "induction on the columns of a row with the room left in the buffer as invariant; the generated names from the least upper bound theorem of get_attributes; witnesses for the overflow"
 ],
 "C60": [
  "osl_scop_print and osl_statement_print with the choice of names (generated, or given by the parameters, the arrays extension and the body), the integrity check, the attributes, the clones of names",
  "the attributes bound the dimensions of every part (least upper bounds of C23), so the generated names cover them; replacing names keeps the coverage under the conditions of the integrity check; then C59 on each relation, ShortText of each piece for the reading, and C48"
 ],
 "C61": [
  "the readers of relations, lists, statements and scops on a file (RelationText, StatementText, ScopText), on any text",
  "inversion of every reader: the shape of the matrix by induction on the rows, the bounds of the integers from the scanners, the dispatch theorem C37, a specification of the lines of a relation (RelLines) independent of the readers; stability by combining with the round trips C24 and C48"
 ],
 "C62": [
  "the line reader skipping blanks and comments, and the readers built on it",
  "a relation SameText between files (same content lines) preserved by every reader, composed through a bind lemma"
 ],
 "C63": [
  "the readers of relations, lists of relations, statements and scops",
  "a predicate Local on readers (the result depends on the consumed text only), closed under composition, established for the line readers and lifted to the object readers; induction on the number of scops for the concatenation"
 ],
 "C64": [
  "the SCoPLib printer of relations, string by string (Scoplib)",
  "the words of each line of the text before any # are proved to be a table specified from the matrices (Says, relTable), by induction on parts, rows and columns; the sizes by arithmetic on the dimensions"
 ],
 "C65": [
  "the two passes over the list of accesses",
  "the text says the announced size and the rows (induction on the list), and the size is that of the rows"
 ],
 "C66": [
  "the check of compatibility and the printers of statements and scops",
  "the check by induction on the entries; the text by composing the tables of its parts, with the names of C60"
 ],
 "C67": [
  "the same",
  "a text says one table only (Says.unique), and a table determines the matrices (induction on the parts)"
 ],
 "C68": [
  "the printer of relations, statements and scops; the meaning of a comment is a small evaluator of expressions (CommentSpec), independent of the printer",
  "induction on the columns: the value of the text written so far is the sum of the terms so far; then on the rows, parts, statements and scops"
 ],
 "C69": [
  "the display functions as functions from objects to texts; specification `Shows P f`: whatever follows, the text determines the object and where its text ends",
  "each function line by line: the texts of the lines are delimited by ends of lines, numbers by the next character, lists by the last line; induction on the lists"
 ],
 "C70": [
  "the display functions of the 18 extensions and of irregular, the dispatch through the interfaces, symbols nested to any depth, the pointers of the dependences to statements",
  "the same, with induction on the depth of the symbols; counterexamples for annotation, region and textual"
 ],
 "C71": [
  "the same functions; specification `Levelled f`: lines which do not depend on the level, with bars before each",
  "closure of this form under concatenation, loops and nested calls at a higher level"
 ],
 "C72": [
  "the readers on the memory (HeapRead, HeapReadRel, HeapReadList, HeapReadGen, HeapReadLib, HeapReadScop): the same text functions as in C48, with every malloc, realloc, free, load and store of the C code",
  "separation logic triples from the empty heap, by induction on the loops of the readers; the lost tags are computed by a separate function on the text"
 ],
 "C73": [
  "vectors on the memory, and the functions of relation.c which take one (HeapVec): structure, array and GMP integers as blocks, every malloc, free, load and store",
  "separation logic triples: each loop over the array is a fold over the elements read so far, for shared and for distinct operands"
 ],
 "C74": [
  "the printers on the memory (HeapPrint, HeapPrintList, HeapPrintExt, HeapPrintScop): strings which grow, expressions with the oppositions in place, arrays of names, generated names, lists, strings, bodies, every extension, generics, symbols nested at any depth, statements and scops with the names swapped in and out",
  "separation logic triples by induction on columns, rows, parts and nodes; opposing twice restores a coefficient; frame around every call; names at known places, data borrowed from a list and given back"
 ],
 "C75": [
  "the read-only functions on the memory (HeapQueryRel, HeapQuery, HeapQueryExt): every load of the C functions, with their early exits, on relations, lists, interfaces, generics, statements, scops and every extension",
  "queries: the answer and the very same memory, by induction on columns, rows, parts and nodes; a query on a part of the memory is a query on the whole"
 ],
 "C76": [
  "the updates of the fields and of the precision of relations, the registration of interfaces and the searches on the memory (HeapUpdate)",
  "triples by induction on parts, rows and columns (the matrix is partly in the old and partly in the new precision); queries for the searches"
 ],
 "C77": [
  "the functions of source/int.c on variables in memory, with their local integers (HeapInt)",
  "a judgement Does (the outcome of a run is the outcome of the function on values, and the memory afterwards); the operations are proved for any variable and operands, then for the elements of an array with any indices"
 ],
 "C78": [
  "the functions of source/extensions/irregular.c on the memory: the five arrays, the buffer of printf_in_buf, the loops (HeapIrr, HeapIrrText)",
  "triples by induction on the arrays (arrays which are filled from the left); queries for the comparison; a judgement UndefFrom for the copy"
 ],
 "C79": [
  "the SCoPLib printers on the memory (HeapScoplib): the columns and rows with the fake iterator, the sizes, the accesses counted and printed, bodies, options, statements, scops",
  "separation logic triples against the texts of the functions on values; a judgement for functions which add pieces to a string; names at known places, data borrowed from a list and given back as in C74"
 ],
 "C80": [
  "the display functions on the memory (HeapDump): strings, vectors, relations, lists, interfaces, generics, names, bodies, statements, scops, every extension",
  "separation logic triples against the texts of the functions on values: the structure is left as it was; one lemma for the linked structures; for the dependences, a list of statements whose nodes are at known addresses, split around the node displayed"
 ],
 "C81": [
  "client programs: variables of six types (vectors too), 103 calls, a run on values with the rules of ownership (Client.runs, runClient) and a run in memory (execs, execClient) made of the functions of Heap*.lean",
  "the variables are in separate parts of the memory (varsAt); one rule for each shape of call from the triple of its function, one lemma for all the calls, induction on the history; the corollaries start with NULL variables"
 ],
 "C82": [
  "the relations, lists, statements, scops and extension data of the value models; Fit/Stored: each part has the advertised shape and integers of its precision (Stored*.lean)",
  "one preservation lemma per function, induction on histories; the library keeps it by induction on the depth of the symbols; then the client runs with and without the printing conditions are equal"
 ],
 "C83": [
  "the functions of the value models of relations, vectors, lists, statements, scops, extensions and their displays; Pre: what each call needs (Verif/Defined.lean, Verif/DefinedExt.lean, Verif/DefinedText.lean, Verif/DefinedPrint.lean, Verif/DefinedRead.lean, Verif/DefinedHistory.lean; clients which read and write files: Verif/DefinedExample.lean)",
  "one lemma per function: on parts of the advertised shape each access is in its bounds, each sum is guarded, each string which is read is there; by induction on the levels of symbols for extensions; then induction on histories with the invariant of C82, and C81 for the memory"
 ]
}