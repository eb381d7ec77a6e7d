K = "Verif.Conc"
claim("C19", "proved", K, "C19_every_run C19_maximal_run C19_ihex_records C19_ihex_data C19_early_return C19_srec_records C19_srec_data",
  "Any number of workers and batches, any capacity including 0, every schedule; instances for both hex parsers. The early return of the collector at a collision is covered by C19_early_return.")
claim("C20", "proved", K, "C20_never_blocks C20_verdict C20_ihex C20_srec", "")
claim("C21", "proved", K, "C21_terminates C21_no_panic C21_result C21_logger", "The two parsers are represented by the result they return; a failing log file is a further source of an error (C21_logger).")
claim("C22", "partial", K, "C22_partial C22_last C22_iff C22_false_everywhere C22_false", "False: the last error reported is returned. Partial: at most one reader fails. Exactly: the first error is returned if and only if the readers do not fail with different errors (C22_iff), whatever the schedule.")
claim("C23", "partial", K, "C23_hex_partial C23_s19_partial C23_other_partial C23_exact C23_iff C23_false", "False: the substring .hex anywhere in the path wins. Partial: .hex at the end; .s19 at the end and no .hex; neither anywhere. C23_exact says which paths select which format, C23_iff for exactly which paths it is the one of the name.")
T = "Verif.A2l"
claim("C24", "partial", T, "C24_partial C24_lines_partial Verif.A2l.Props.C24_any_partial C24_false Verif.A2l.Props.C24_false_everywhere", "False: a share boundary inside a comment or string, or a stray slash, changes the tokens; for every two numbers of workers there is a text that they cut differently. Partial: every share (or every line) is a document of its own.")
claim("C25", "partial", T, "C25_partial C25_false C25_false_banner C25_false_glued", "False: /*/ counts as a whole comment, a banner /*//// as a line comment, glued comments swallow or extend their word. Partial: white space around the comment and a harmless first word; any text may follow.")
claim("C26", "partial", T, "C26_partial C26_false C26_escaped_quote_deleted", "False: a backslash is deleted together with the next character. Partial: no backslash; any content with doubled quotation marks, any text may follow.")
claim("C27", "partial", T, "C27_partial C27_no_slash_partial Verif.A2l.Props.C27_iff Verif.A2l.Props.C27_lost C27_nothing_invented C27_tokenizer_total C27_false", "False: a word with a slash other than /begin or /end makes the worker drop the rest of its share without an error; whatever it has behind the word has no influence on the tokens. Exact for texts without comments, on any number of workers: no word is lost just if no worker stops early. Partial: exact tokens of every document of the grammar; no word lost in texts without slashes; never anything invented.")
Q = "Verif.Calib.Props"
claim("C38", "partial", Q, "C38_partial C38_crash_iff C38_false", "False: crashes when the selected module does not exist (an A2L file without MODULE). Partial: exact result whenever it exists; the crash is characterised exactly.")
claim("C39", "partial", Q, "C39_partial C39_small_borders C39_zero_border_crash C39_false", "False: the remainder is added instead of its complement; a border 0 crashes. Partial: an exact criterion for when the result is right.")
claim("C40", "partial", Q, "C40_partial C40_loop C40_always_crashes C40_false", "False: make([]byte, n, 0) panics for every n > 0. Partial: lengths below 8 bits; the loop behind the crash is right.")
claim("C41", "partial", Q, "C41_partial C41_exact C41_crash_iff C41_long_truncated C41_false", "False: shorter strings crash. Partial: eight digits with optional 0x in every byte order; exactly, for every string (C41_exact): 0x is removed wherever it stands, fewer than four bytes crash, of more the first four count.")
claim("C42", "partial", Q, "C42_partial C42_exact C42_rounded C42_word_as_32_bits C42_long_crashes C42_float16_wrong C42_false_uword C42_false_ulong C42_false_precision", "False for UWORD, SWORD, ULONG, SLONG, FLOAT16 and 64-bit numbers above 2^53 (C42_rounded: they are rounded to nearest even). Partial: UBYTE, SBYTE, A_UINT64, A_INT64 up to 2^53, FLOAT32, FLOAT64.")
claim("C43", "partial", Q, "C43_partial C43_always_default C43_missing_table C43_short_table_crash C43_iff C43_false", "False: the test compares with the lower bound twice, so no row ever matches. Partial: values in no row; missing table. Exactly: the text is right if and only if the value lies in no row or its row has the default text (C43_iff).")
claim("C44", "partial", Q, "C44_partial C44_iff C44_false", "False only for a verbal table without rows but with a default. Partial: all other tables; columns of equal length as C48 delivers them. Exactly: C44_iff.")
claim("C45", "partial", Q, "C45_partial C45_exact C45_error_iff C45_checked_partial C45_linear_ratfunc_rejected C45_false_identity C45_false_square C45_false_nan exists_sqrt", "False for RAT_FUNC: wrong formula, linear relations rejected, NaN without error. Partial: identical, linear, missing coefficients, and an exact criterion for when the result of a rational function is right (C45_exact) or an error (C45_error_iff). Exact arithmetic over the rationals.")
claim("C46", "proved", Q, "C46 Field.name_injective", "")
claim("C47", "partial", Q, "C47_partial C47_false Verif.Link.C47_names", "False for the name Reserved, which is delivered as a positioned field but has no data type. Partial: the other 40 fields and all unknown names.")
claim("C49", "partial", Q, "C49_partial C49_value_lost C49_iff C49_false Verif.Link.C49_text Verif.Link.C49_none", "False: the value returned is always the empty string. Partial: the error cases and the lookup of the constant itself, also from the text of the file (C49_text). Exactly: right if and only if there is no value or it is empty (C49_iff).")
claim("C50", "partial", Q, "C50_partial C50_false", "False: UWORD and SWORD are reported to have 32 bits. Partial: all other sizes; names and types round trip.")
claim("C52", "partial", Q, "C52_partial C52_nothing_read C52_read_crashes C52_axis C52_false", "False: the positions are stored in a copy of the layout, so nothing is ever read; if they were there, every read would crash. Partial: what does happen.")
claim("C53", "partial", Q, "C53_always_zero_partial C53_false", "False: 0 without an error. Partial: the exact result.")
claim("C54", "partial", Q, "C54_partial C54_false", "False: the position is advanced by bits. Partial: error case and exact advance.")
PP = "Verif.A2l.Props"
claim("C28", "proved", PP, "C28_terminates C28_file C28_needs_end C28_multithreaded C28_file_multithreaded", "All parse functions translated line by line, sequential and multithreaded under every schedule. The empty token the tokenizer appends is needed (C28_needs_end).")
claim("C29", "partial", PP, "C29_partial C29_false", "False for FRAME, which ends without error at the end of the file. Partial: all other 62 blocks.")
claim("C30", "partial", PP, "C30_partial C30_frame_partial C30_false", "False for FRAME, which can end at the end of the file. Partial: all other 62 blocks, and what holds for FRAME.")
claim("C31", "partial", PP, "C31_partial C31_tables C31_irregular C31_variant_coding_any_word C31_bit_operation_partial C31_frame C31_matrix_dim C31_false", "False for BIT_OPERATION, where the error is overwritten by the next part; VARIANT_CODING takes any word for VAR_SEPARATOR. Partial: the 171 functions that equal the template of their declared struct, the three conversion tables, ten further irregular blocks, FRAME, MATRIX_DIM, and BIT_OPERATION when no part follows the keyword.")
claim("C32", "partial", PP, "C32_partial C32_only_partial C32_block_partial C32_seq_partial C32_false C32_measurement_false C32_typedef_measurement_false C32_unit_false C32_matrix_dim_false C32_no_rescale_x_false C32_frame_false C32_overwrite_false C32_irregular_partial C32_irregular_only C32_irregular_illegal C32_dead_fields C32_measurement_lost C32_unit_lost C32_memory_segment_lost C32_memory_layout C32_var_forbidden_comb C32_blob_address_type C32_blob_always_direct C32_overwrite_lost C32_bit_operation C32_bit_operation_exact C32_frame_exact C32_frame_lost C32_frame_name C32_matrix_dim_exact C32_matrix_dim_lost C32_frame_measurement C32_frame_measurement_only C32_no_rescale_x_exact C32_guard_rails C32_symbol_type_link", "False for MEASUREMENT, TYPEDEF_MEASUREMENT, UNIT, MATRIX_DIM, NO_RESCALE_X, FRAME, OVERWRITE, MEMORY_SEGMENT, BLOB. Partial: 171 functions accept exactly the texts of the declared object, with the values of the text; for all irregular functions what they accept is given exactly, with universal statements of what is lost; BIT_OPERATION, FRAME_MEASUREMENT, GUARD_RAILS and SYMBOL_TYPE_LINK read every legal text correctly.")
claim("C33", "proved", PP, "C33_integers C33_one", "Every strconv call site of every parse function (103 of them); C33_one states it for a whole call.")
claim("C48", "partial", PP, "C48_partial C48_content C48_only C48_false C48_zero_false", "False: fewer rows than declared are accepted, and any number if 0 is declared. Partial: equal columns, never more than declared, markers say whether complete; exact content of every table (C48_content), nothing else accepted (C48_only).")
claim("C34", "partial", PP, "C34_partial C34_file_partial C34_content C34_iff C34_file_iff C34_false C34_false_everywhere C34_false_nested C34_false_error", "False: an object whose opening token lies on a cut between workers is lost, nested blocks become objects of the module, stray keywords are not reported; for every number of workers from two on there is a module of which every schedule loses an object without an error (C34_false_everywhere). Partial: equal results whenever every cut falls between objects and names are unique, for the module and (C34_file_partial) for the whole file; C34_content gives the exact content. C34_iff gives the exact criterion for every module and wherever the cuts fall: all schedules give the sequential result just if no worker gives up, what a worker finds last under a name in its piece is the last one in the file, and every name of the file is found by some worker. C34_file_iff gives the same criterion for the result of parsing a whole file with one module.")
claim("C35", "proved", PP, "C35_no_deadlock C35_terminates C35_workers_return C35_returns C35_no_loss", "Any number of workers, any tokens, every schedule of workers, the closing goroutine and the collectors.")
claim("C36", "partial", PP, "C36_sequential_partial C36_parallel_partial C36_exact C36_found C36_iff C36_pieces C36_false", "False with several workers: the collectors keep the object received last. Partial: sequential parsing; several workers when all definitions of the name lie in the share of one worker. Exactly: an object is found under the name for some schedule just if it is the last definition in the share of some worker (C36_exact, C36_iff; C36_pieces without any assumption on the cuts).")
claim("C37", "partial", PP, "C37_partial C37_mixup C37_false_everywhere C37_false", "False: the token list is a variable of the package, so a caller can get the content of another file, for any two files (C37_mixup). Partial: calls that do not overlap.")
claim("C55", "proved", PP, "C55_own_objects C55_choice C55_parallel_rejects", "From the text of the file to the result of ParseFromFile, any worker count; calls that do not overlap (C37), fewer than 2^32 modules (the counter wraps).")
claim("C56", "partial", PP, "C56_project_partial C56_file C56_last C56_words_accepted C56_two_projects C56_false", "False: files without a project and arbitrary words outside blocks are accepted, earlier projects are lost. Partial: the accepted files and their values are characterised exactly (C56_file, C56_last); every accepted project has the modules of the file (C56_project_partial).")
claim("C57", "partial", PP, "C57_table_partial C57_seq_partial C57_block_partial C57_part_partial C57_only C57_part_lost C57_parts_lost_list C57_address_type_rejected C57_lost_rejected C57_false", "False for PLONGLONG (unknown to the parser of address types), ALTERNATE_CURVES, ALTERNATE_WITH_X, ALTERNATE_WITH_Y (also keywords), and for every ADDRESS_TYPE and ENCODING part (the keyword is compared with the constants). Partial: all other constants in parameters of the 171 regular functions and in CALIBRATION_ACCESS; only declared constants are ever stored (C57_only).")
claim("C58", "partial", PP, "C58_partial C58_parallel C58_false", "False for VARIANT_CODING, which takes any word for VAR_SEPARATOR. Partial: every other call of every parse function (C58_partial), and the objects read by the parallel module parser (C58_parallel).")
claim("C59", "partial", PP, "C59_table_partial C59_table_exact C59_partial C59_missing_taken C59_surplus_rejected C59_matrix_dim_missing C59_false", "False for FIX_AXIS_PAR, READ_ONLY, READ_WRITE, RESERVED, VAR_SEPARATOR, which are not in the table; eight words are in it without need. Partial: all other words in the 171 regular functions.")
IH, SR = "Verif.Ihex", "Verif.Srec"
claim("C60", "partial", IH, "C60_ihex_partial C60_ihex_accepted C60_ihex_false Verif.Srec.C60_srec_partial Verif.Srec.C60_srec_accepted Verif.Srec.C60_srec_false", "False for both formats: a file cut after any line is accepted. Partial: the cut file never has a byte the whole file does not have (S19: files without unreadable lines; Intel HEX: well-formed files, segment hypothesis of C01).")
claim("C61", "partial", IH, "C61_partial C61_ignored C61_iff C61_false", "False: the end-of-file record is without effect wherever it stands (C61_ignored). Partial: no data record follows it; exactly then (C61_iff).")
claim("C62", "partial", IH, "C62_ihex_partial C62_ihex_ignored C62_ihex_false Verif.Srec.C62_srec_partial Verif.Srec.C62_srec_malformed Verif.Srec.C62_srec_dropped Verif.Srec.C62_srec_lost Verif.Srec.C62_srec_false", "False: type 02 records (and types that do not exist) are ignored, so bytes end up at wrong addresses; an S19 file of S1 or S2 records is accepted as empty. Partial: Intel HEX files without type 02 records; S19 memory only comes from S3 records with right sums; the lines behind another record in the share of a worker have no influence (C62_srec_lost).")
claim("C63", "partial", IH, "C63_ihex_order_partial C63_ihex_join_partial C63_ihex_join_iff C63_ihex_join_false Verif.Srec.C63_srec_order Verif.Srec.C63_srec_join", "S19: order and joining for all files without unreadable lines. Intel HEX: permuted data records under the hypothesis of C01; joining is false if the second file relies on starting in segment 0 (C63_ihex_join_false), partial otherwise.")
claim("C64", "partial", PP, "C64_marks_partial C64_absent_zero C64_undeclared_zero C64_false", "False: the marker of a list is set when the block ends, so an empty list is marked as set (C64_false). Partial: for the 171 regular functions the marker of every positional parameter is set exactly if the parameter was in the text; absent parameters and fields the block does not declare are zero.")
claim("C65", "partial", PP, "C65_parts_partial C65_irregular_partial C65_bit_operation C65_frame C65_tables C65_file partsOk_all C34_false", "All optional parts of the 171 regular functions (every part of every declared shape), and those of all irregular functions, the value tables and the file as a whole. In COMPU_VTAB and COMPU_VTAB_RANGE the text of a row can be any word and is not counted as a part (C65_tables). False only of a module read by several workers, which can lose an object at a cut (C34_false); its exact content is that of C34.")
claim("C66", "partial", "Verif.Link", "C66_partial C66_answers uses_module C66_false", "False: an empty file is accepted and the lookup panics. Partial: from the token list to the answer of GetObjectByIdent, for every name and module with a name and a description; several modules and any number of workers through C55_own_objects and uses_module.")
claim("C67", "partial", "Verif.Link", "C67_verbal_partial C67_numeric_partial C67_range_exact C67_range_crash C67_range_false", "False for COMPU_VTAB_RANGE: a range is never found, and a table with fewer rows than declared, which is accepted, crashes the conversion (C67_range_exact gives the result for every table). Partial: COMPU_VTAB and COMPU_TAB without interpolation, from the text of the table to the converted value.")
claim("C68", "partial", "Verif.Link", "C68_partial C68_rat_func_partial method_fields part_flat C68_false", "False for RAT_FUNC: a rational function that is linear (B p + C) is an error although the file is accepted. Partial: IDENTICAL, LINEAR and the rejected methods from the text of the file to the value, TAB_NOINTP up to the table of C67; for RAT_FUNC the result of the code's formula with the coefficients of the text, and exactly when it is right (C68_rat_func_partial); TAB_INTP always gives 0.")
claim("C69", "partial", "Verif.Link", "C69_partial C69_layout_partial C69_address C69_decode C69_align C69_positions C69_nothing_read C69_false", "False: the data type of NO_RESCALE_X is never read. Partial: byte order, borders, and position and data type (or size) of the 40 other fields of a record layout, from the text of the file to the address conversion (C69_address), decoding (C69_decode), alignment (C69_align), position and type lookup (C69_positions); reading a characteristic reads nothing whatever the file says (C69_nothing_read). The hypothesis OrderWf of C41 and C42 and the hypothesis on relativePositions of C52 are proved for files.")
claim("C70", "partial", PP, "C70_partial C70_object_partial C70_tokens_partial C70_lines C70_one_module_partial C70_false", "False for MEASUREMENT (C70_false): the resolution is lost. Partial: any nesting of the 171 regular functions, from the tree of objects over its text to the struct returned by ParseFromFile; objects of irregular functions can be included as given nodes with a proof that their own text is read to their value. One module: under the conditions of C34.")
claim("C71", "partial", PP, "C71_order_partial C71_added_partial C71_odd_partial C71_file_partial C71_false", "False without a condition on names: of two parts with one name the later is kept (C71_false). Partial: parts with different names may be permuted freely, and a further part changes only its own field or map entry (171 regular functions); permuted parts of the blocks with parsers of their own (C71_odd_partial); and for whole files with at least two modules, permutations at any depth, in any layout and for any number of workers (C71_file_partial).")
claim("C72", "partial", "Verif.Calib.Props", "C72_partial C72_false C72_list_partial C72_list_false C72_reader_partial C72_address_types", "False: reading one value never succeeds (it crashes for every data type), a list without FIX_NO_AXIS_PTS_X is always empty. Partial: the result of both functions in every case.")
claim("C73", "proved", IH, "C73_schedule", "Every text, every number of CPUs, every two interleavings that end.")
claim("C74", "proved", PP, "C74_own_text C74_ahead C74_exception", "All parse functions but the one for whole files; MATRIX_DIM and FRAME_MEASUREMENT look one token ahead (C74_exception, C74_ahead).")
claim("C75", "proved", PP, "C75_nothing_invented C75_parallel C75_own C75_words C75_false_error", "All parse functions, sequential and parallel. Structs returned together with an error may hold numbers that are not in the text (C75_false_error).")
claim("C76", "proved", "Verif.A2l", "C76_clean_up C76_quotes_never C76_once C76_tokens C76_clean C76_document", "Every text; unicode.IsGraphic is a parameter. Characters are those of the decoded text, the bytes of a file, UTF-8 or not, are C89.")
claim("C77", "proved", IH, "C77_ihex C77_text C77_same C77_dropped clash_or clash_not_nodup Verif.Srec.C77_srec Verif.Srec.C77_srec_text", "Both formats, every text, every number of CPUs, every interleaving; the characters of a text stand for its bytes.")
claim("C78", "partial", PP, "C78_object C78_file_partial C78_kinds C70_false", "All parse functions. Missing: ADDRESS_TYPE in BLOB and CONVERSION, INPUT_QUANTITY in OVERWRITE, which are never read or not kept (C32); ordinary calls that overlap (C37); one module under the conditions of C34.")
claim("C79", "partial", "Verif.Calib.Props", "C79_walk_partial C79_record_partial C79_values_partial C79_axis_partial C79_axis_error C79_false C79_order_false", "Any byte reader in place of getValue, which crashes for every data type (C40). The position is moved by bits instead of bytes (C79_false) and the fields are visited in the random order of a map (C79_order_false).")
claim("C80", "partial", PP, "C80_documents C80_tokens C80_file_partial C80_one_module_partial C80_same_partial C80_cpus_partial C80_false", "False: a comment that reaches from the share of one worker into the next is read as text (C80_false). Partial: the tokens are those that the workers read from their own lines (C86), which are those of the text if no item reaches over a share boundary; the result is the tree of objects (any kind, as in C78) for several modules and, under the cut conditions of C34 stated on the tree, for one module.")
claim("C81", "partial", "Verif.EndToEnd", "C81_partial C81_returns C81_answers_partial C81_lookup C81_error C81_unsupported C81_false", "False: an Intel HEX image that goes back to segment 0 before another segment loses bytes without an error (C81_false, from C02). Partial: A2L files as in C80, hex files as in C02 and C13 with the name of their format at the end; then every run that returns gives exactly the values and bytes of the files, and GetObjectByIdent answers with exactly the objects of the module. Reading a file is one step that succeeds or fails; the log file is C93.")
claim("C82", "proved", "Verif.Conc.HexRun", "C82_ihex_safe C82_ihex_returns C82_ihex_terminates C82_ihex_sequential C82_exclusive C82_checksums_undisturbed C82_srec_safe C82_srec_returns C82_srec_terminates C82_srec_sequential", "Whole parseHex of both formats as one transition system: line workers, checksum workers, offset workers with their mutexes, data workers, channels, wait groups. The functions a worker computes between two channel or lock operations are single steps.")
claim("C83", "partial", "Verif.Conc.HexRun", "C83_partial C83_checksum C83_srec C83_success_ihex C83_success_srec C83_leak C83_iff C83_one_cpu C83_false_everywhere C83_false", "Proved for S19. False for Intel HEX (C83_false): after a collision a data worker with a line it could not compute stays blocked in its second send. Partial: files whose segment lines give numbers; always after a checksum error; and for every text when the call returns without an error (then all goroutines have ended at the moment of the return). C83_leak: a goroutine stays behind only after a collision. C83_iff: exactly for which texts one stays behind, whatever the interleaving: the share of some worker has a data line whose segment is no number, and the shares before it give an address twice. So never on one CPU, and for some text on every other number of CPUs.")
claim("C84", "proved", "Verif.Conc.A2lRun", "C84_safe C84_returns C84_terminates C84_completes C84_no_leak C84_every_result C84_results C84_two_results written_read", "ParseFromFile of one call as one transition system: tokenizer goroutines, main goroutine, and at every call of parseModuleMultithreaded its workers, closing goroutine and collectors. What is computed between two channel or wait-group operations is one step. Other calls at the same time are C37.")
claim("C85", "partial", "Verif.Conc.Whole", "C85_safe crashed_sees C85_results C85_same_memory C85_either_error C85_returns C85_terminates C85_completes C85_content_partial C85_answers_partial C85_bad_sum C85_collision Verif.EndToEnd.C81_false", "The whole of ReadCalibration as one transition system: both readers, all goroutines of the A2L parser and of the hex parser, channels and wait groups. No panic, no deadlock, no endless run, errors reported: proved for all files. For any two files the set of results is known exactly (C85_results). The content is partial: A2L files as in C80, hex files as in C02 and C13; false in general (C81_false: bytes can be lost without an error). Reading a file is one step that succeeds or fails; the log file is C93.")
claim("C86", "proved", "Verif.A2l.Props", "C86_tokens C86_reading_unique C86_total C86_cut C86_words", "Every text, well-formed or not; the lines of the workers and the clean-up of C76 are stated in full. unicode.IsGraphic is a parameter; strings.Fields is modelled as cutting at the white space of unicode.IsSpace.")
claim("C87", "partial", "Verif.Calib.Props", "C87_linear_partial C87_exact_partial C87_integers_partial C87_error_partial C87_bytes_partial C87_table C87_fused C87_refines_partial C87_raw C87_bits64 C87_bits32 C87_special C87_infinite pow2_rounds C87_ratfunc_partial C87_ratfunc_refused C87_ratfunc_nan C87_false C87_processor_false C87_overflow_false add_rounds sub_rounds mul_rounds div_rounds sqrt_rounds rounds_unique", "False: product and sum are rounded separately, so cancellation can lose the value altogether (C87_false); a compiler that fuses them delivers another value (C87_processor_false); overflow is delivered as infinity without an error (C87_overflow_false); RAT_FUNC returns NaN as a value (C87_ratfunc_nan). Partial: the two roundings of LINEAR and their errors, exactness when nothing is rounded, integers up to 2^53; the raw value of every data type (C87_raw); tables for all entries; every method, RAT_FUNC too, agrees with the exact model when no step has to be rounded (C87_refines_partial); infinite raw values (C87_infinite). a finite non-zero value of RAT_FUNC is the formula of the code with every step rounded to the nearest float64 (C87_ratfunc_partial). Missing: a bound for the sum of the rounding errors of RAT_FUNC. The rounding of the coefficients of the file is C88.")
claim("C88", "partial", "Verif.Calib.Props", "C88_partial C88_nearest C88_exact C88_named C88_syntax C88_false C88_exponent_false Verif.Link.C88_accepted Verif.Link.C88_method Verif.Link.C88_linear Verif.Link.C88_table", "False: NaN, infinities, hexadecimal numbers and numbers with underscores are accepted as well (C88_false; C88_syntax says exactly what is refused for its form). Partial: every number is read as the nearest float64 or refused because it is too large, if its exponent is less than 100000 or it has fewer than 2000 other digits (otherwise false, C88_exponent_false); LINEAR, RAT_FUNC and TAB_NOINTP from the text of the file to the float64. strconv.ParseFloat is modelled after its documentation and the grammar of the language, its sources are not at hand.")
claim("C89", "partial", "Verif.A2l.Bytes", "C89_seen C89_bytes C89_utf8 C89_codepage C89_partial C89_false C89_utf16", "False: a file in Latin-1 is accepted and its strings are not UTF-8 (C89_false); every ASCII text in UTF-16 with a byte order mark is accepted without an error as an empty file (C89_utf16). Proved: the tokens of any bytes on any number of CPUs (C89_bytes), UTF-8 (C89_utf8, C89_partial), code pages (C89_codepage). strings.TrimFunc, strings.Fields and regexp are modelled on the runes that Go sees in a string; TrimRightFunc decodes from the right (DecodeLastRune is modelled and proved to find the same runes, decodeLast_seen).")
claim("C90", "partial", "Verif.Conc.Race", "Hex.C90_ihex Hex.C90_s19 Hex.C90_mutex_needed Hex.C90_wait_needed A2l.C90_a2l A2l.C90_atomic_needed A2l.C90_collectors_needed A2l.C90_fields_needed A2l.C90_overlap_false All.C90_call All.C90_logger_needed All.C90_join_needed All.C90_hex_overlap All.C90_calls_overlap_false", "Proved for one call of each parser and for one call of ReadCalibration with everything it starts and the use of its result (happens-before of the Go memory model over the transition systems of C82, C84 and C85, each step with its accesses to shared memory), and for two hex parsers at the same time. False for two calls of the A2L parser at the same time: they always race, on the package variable tokenList (C90_overlap_false); and for two calls of ReadCalibration: they race on the global logger (C90_calls_overlap_false). Which memory a step accesses is part of the model and read off the code; memory that only one goroutine uses is left out.")
claim("C91", "partial", "Verif.Conc.Whole", "C91_success_ihex Verif.Conc.A2lRun.C84_no_leak C91_srec C91_partial C91_leak C91_iff C91_one_cpu C91_false_everywhere C91_false", "False (C91_false): with any A2L file and an Intel HEX file that gives two values to one address and has a segment line with a letter that is no digit, a call can come to its end and leave a goroutine blocked for ever (C91_leak). Partial: every call that returns without an error, every call with an S19 file, every call whose Intel HEX file does not give two values to one address. C91_iff: exactly with which Intel HEX texts a goroutine is left, whatever the A2L file and the interleaving (those of C83_iff); never on one CPU, with some text on every other number of CPUs.")
claim("C92", "partial", PP, "C92_partial C92_only C92_error C92_succeeds C92_typed C92_lost C92_false C92_nan_false", "False: fields that are not exported are left out, so that measurements, axes, functions, groups and the version of the file become empty maps (C92_lost, C92_false), and NaN or an infinite number in an exported field makes the conversion fail (C92_nan_false). Partial: everything that can be reached by exported fields is there with its value (C92_partial), nothing else is there (C92_only), and it fails exactly if an exported number is not finite (C92_error), never if no word of the file is such a number (C92_succeeds). encoding/json is modelled after its documentation.")
claim("C93", "partial", "Verif.Conc.Whole.Log", "C93_untouched C93_partial C93_iff C93_no_log C93_overwritten C93_emptied C93_false", "False (C93_false): the log file is created, and so emptied, before the files are read; if one of the two paths denotes it, that file is lost (C93_emptied, C93_overwritten). Without a log file nothing is read at all (C93_no_log). Partial: the log file can be created and is neither of the two files; then the results are exactly those of C85 for the files before the call. This condition is also necessary, whatever the files are (C93_iff). No other file is ever changed (C93_untouched). What is written to the log is any text at any time; both files are seen at one moment after the log was created.")
claim("C94", "partial", PP, "C94_iff C94_false", "False: every run of white space in a string (several spaces, tabs, line ends, no-break spaces) becomes one space. Exact (C94_iff): a string without backslashes is delivered as it stands just if its only white space is single spaces, whatever stands before and behind it. Backslashes are C26 and C76.")
claim("C95", "partial", PP, "C95_seq_partial C95_prefix C95_irregular C95_iff C95_empty C95_false", "False: every block may be closed after any number of its mandatory parameters and is accepted, only the markers (not exported) tell (C95_prefix, C95_irregular); an empty block is accepted by all block functions (C95_empty). Exact for the 171 regular functions (C95_iff): it holds just for the objects without /begin and /end and for blocks without mandatory parameters.")
claim("C96", "partial", PP, "C96_surplus C96_irregular C96_tables C96_seq_partial C96_list_partial C96_text_partial C96_false", "False of every block without a list or free text (C96_surplus): any words behind the last parameter that are no keywords are skipped without an error, and the values are those without them. Partial: objects without /begin and /end take exactly their parameters (C96_seq_partial); in a block with a list every word behind the parameters is a member (C96_list_partial); in a block with free text the text is made of all words behind the parameters, each behind one space (C96_text_partial). Functions with a body of their own: false of the three conversion tables behind the declared rows (C96_tables), of BLOB, OVERWRITE, PROJECT, MEMORY_LAYOUT, MEMORY_SEGMENT and VARIANT_CODING once they are complete (C96_irregular), and of MEASUREMENT, TYPEDEF_MEASUREMENT, UNIT, FRAME and MATRIX_DIM, where each further word replaces the one before (C32); it holds for VAR_FORBIDDEN_COMB (C32_var_forbidden_comb).")
claim("C97", "partial", PP, "C97_sites C97_block C97_seq C97_text_partial C97_false", "False: a hexadecimal number sets the error at every place of every parse function where an integer is read (C97_sites), and no call of a regular function accepts an object with one, whatever the other words are (C97_block, C97_seq). Partial: parameters that are kept as text, such as the address of ECU_ADDRESS, are stored as they stand (C97_text_partial); their value is C41.")
claim("C98", "proved", PP, "C98_call C98_file C98_text C98_depth", "Counted are the statements of the model, one for each statement and each test of a condition in the Go code; the cost of a single statement (copying strings, the map operations) and the multithreaded module parser are not counted.")
claim("C99", "proved", "Verif.Conc.HexRun", "C99_ihex C99_srec", "Steps of the transition system of C82. The computation of a worker between two channel or lock operations is one step; its length is not counted.")
claim("C100", "proved", "Verif.Conc", "A2lRun.C100_a2l A2lRun.C100_a2l_text Whole.C100_call", "Steps of the transition systems of C84 and C85. The module parser is called only at the words /begin MODULE, and its workers together send no more messages than the module has words. The computation between two channel, lock or wait-group operations is one step; its length is not counted (for the parse functions see C98).")
claim("C101", "partial", PP, "C101_partial C101_even_partial C101_square C101_open C101_false", "False in full (C101_false): for every word of a text in quotation marks the loop copies all of the text read so far and counts its quotation marks again, so a text of k words costs more than k * k (C101_open). Proved: at most (B + 19) (|s| + 1) if no worker ever has an open text of more than B characters; 19 (|s| + 1) if every word has an even number of quotation marks; 20 (|s| + 1)^2 always. Missing: a bound independent of the longest open text, which the code does not have. The clean-up of the file before it is cut is counted as passes over the text.")
claim("C102", "proved", "Verif", "Ihex.C102_ihex Srec.C102_srec", "From the exact result of C77. The bounds are reached by texts of one line. Whether the segment is the right one is C01.")
claim("C103", "partial", "Verif", "Ihex.C103_partial Ihex.C103_no_segments Ihex.C103_false", "False: without segment records no goroutine ever stops before the end, so n goroutines lock at least (n + 1) / 2 times as many records as there are, and the first one locks them all. When every S successive records contain the beginning of a segment other than 0000, at most N + n (S + 1) locks.")
claim("C104", "proved", "Verif.A2l.Rename", "C104_sequential C104_parallel C104_keys C104_reserved C104_tokens C104_file", "Naturality of the statement language under a renaming that is its own inverse: by induction over statements, for all parse functions at once, since a parse function compares tokens only with the words of its body and with the keyword table. A name is exchanged wherever it is a whole word, also within a text in quotation marks. The words of the language are collected from the bodies of the parse functions; every word with a lower-case letter that does not begin with / is free (lower_free). C104_reserved: for a word of the language it is false. C104_tokens and C104_file start from the text of the file; for texts that the clean-up leaves alone.")
claim("C105", "partial", "Verif", "Ihex.Reloc.C105_ihex_partial Ihex.Reloc.C105_ihex_iff Ihex.Reloc.C105_ihex_false Srec.Reloc.C105_srec", "S19: proved for every distance, also around the end of the address space. Intel HEX: false (C105_ihex_false), because segment 0000 is treated as no segment; proved if a used explicit segment 0 is not followed by data elsewhere, and C105_ihex_iff says exactly when it holds for distances of at least one segment. Lines are compared after decoding, so the digits may be in either case.")
claim("C106", "proved", "Verif", "Ihex.Values.C106_ihex Srec.Values.C106_srec", "Parametricity in the values of the bytes, from the exact results of C05 and C13. Segment lines must select the same segments; the content of lines that are neither data nor segment lines is free. Intel HEX: the same number of CPUs for both files, since for some files the segment depends on it (C08).")
claim("C107", "partial", "Verif", "Ihex.Chunks.C107_ihex_partial Ihex.Chunks.C107_ihex_iff Ihex.Chunks.C107_ihex_false Srec.Chunks.C107_srec", "S19: proved. Intel HEX: false (C107_ihex_false), because of the treatment of segment 0000 (C01): a block in segment 0 and one in segment 1 give different images in the two orders; proved if in both files a used explicit segment 0 is not followed by data elsewhere, and C107_ihex_iff says exactly when a file gives the image of such a file.")
claim("C108", "partial", "Verif", "Ihex.Blanks.C108_ihex_behind Ihex.Blanks.C108_ihex_lines_partial Ihex.Blanks.C108_ihex_lost Ihex.Blanks.C108_ihex_false Srec.Blanks.C108_srec_behind Srec.Blanks.C108_srec_lines_partial Srec.Blanks.C108_srec_lost Srec.Blanks.C108_srec_false", "False in both formats: one CPU accepts every file with a blank (or a byte order mark) before its first line, or with a first line of 11 or more blanks, as an empty image without an error (C108_ihex_lost, C108_srec_lost). Proved: white space behind any record is always an error; lines of fewer than 11 characters do not matter (Intel HEX: segment hypothesis of C01). Missing: blanks before other lines than the first, where the lines lost are those of C07_lost and C62_srec_lost.")
claim("C109", "proved", "Verif", "Ihex.Ends.C109_ihex_mixed Ihex.Ends.C109_ihex_cr Srec.Ends.C109_srec_mixed Srec.Ends.C109_srec_cr", "Both formats, all numbers of CPUs and schedules: records that the splitting glues together always fail the checksum test, because the white space between them falls into a pair of hex digits. Files with blank lines are not covered: a blank line that ends in LF only, just behind a CRLF, hides the record behind it (C108).")
claim("C110", "partial", "Verif", "Ihex.Stray.C110_ihex_partial Ihex.Stray.C110_ihex_ignored Ihex.Stray.C110_ihex_false Srec.Stray.C110_srec_partial Srec.Stray.C110_srec_ignored Srec.Stray.C110_srec_false", "False in both formats: in any file any character can be written before the checksum of any record without any effect on the outcome (C110_ihex_ignored, C110_srec_ignored; Intel HEX segment lines with two bytes). Partial: every other character behind the start mark of every record of an accepted file is a digit. Files with unreadable lines are C07 and C62.")
claim("C111", "partial", "Verif", "Srec.Cut.C111_srec Ihex.Cut.C111_ihex_partial Ihex.Cut.C111_ihex_false", "S19: proved. Intel HEX: false (C111_ihex_false), because numbers of CPUs store the same file differently when segment 0000 is selected before another one (C01, C08); proved if a used explicit segment 0 is not followed by data elsewhere. That the missing part is not always reported is C60.")
claim("C112", "proved", "Verif", "A2l.Truncated.C112_tokens A2l.Truncated.C112_cut Conc.A2lRun.C112_runs", "On the runs of the whole reader (C84), any number of workers and any schedule. A file cut off before /begin PROJECT is accepted as a file without a project (C56_false), and an unclosed FRAME inside a closed project too (C29_false).")
claim("C113", "partial", "Verif", "Conc.Whole.C113_a2l Conc.Whole.C113_srec Conc.Whole.C113_ihex_partial Conc.Whole.C113_ihex_false", "C111 and C112 for the whole call, over all interleavings of all goroutines (C85). A2L and S19: proved. Intel HEX: false (C113_ihex_false, two calls that both return data), because of segment 0000 (C01, C111); proved if a used explicit segment 0 is not followed by data elsewhere.")
claim("C114", "partial", "Verif", "Srec.Unread.C114_srec Ihex.Unread.C114_ihex_partial Ihex.Unread.C114_ihex_one Ihex.Unread.C114_ihex_false", "S19: proved. Intel HEX: false (C114_ihex_false): if the line that selects a segment cannot be read, the data that another worker reads behind it is stored in the segment before, without an error. Proved for files without lines of type 04 on any numbers of CPUs, and for all files (segment hypothesis of C01) on one CPU. That lines are lost silently is C07, C62, C108.")
claim("C115", "partial", "Verif", "Srec.Transpose.C115_srec Ihex.Transpose.C115_ihex_partial Ihex.Transpose.C115_ihex_false", "S19: proved for all records (14 or more characters). Intel HEX: proved for all records with data; false for records without data (C115_ihex_false), where the exchange of the last digit of the type and the first digit of the checksum can make a segment line that is too short, on which a worker gives up without an error.")
claim("C116", "partial", "Verif.A2l.Props", "C116_partial C116_lost_partial C116_file_partial C116_false C116_false_comb C116_false_row C116_false_range C116_false_frame", "False of BIT_OPERATION, VAR_FORBIDDEN_COMB, COMPU_VTAB, COMPU_VTAB_RANGE and FRAME (a witness for each). Proved for 184 functions, PROJECT and MODULE among them, as long as no word between begins one of these objects or A2ML or IF_DATA (foreign content); modules read one after the other; keywords are no numbers.")
claim("C117", "partial", "Verif", "Ihex.Overlap.C117_ihex_partial Ihex.Overlap.C117_ihex_twice_partial Ihex.Overlap.C117_ihex_false Srec.Overlap.C117_srec_partial Srec.Overlap.C117_srec_false", "Proved for well-formed Intel HEX files (no condition on segments, unlike C05) and for S19 files without unreadable lines; false behind a line that is not a record (Intel HEX) or not an S3 record (S19), since the worker stops there without an error.")
claim("C118", "proved", "Verif", "Ihex.Fate.C118_fate Ihex.Fate.C118_high Ihex.Fate.C118_sign", "For all well-formed Intel HEX files, as the property is quantified; lines that are no records are the subject of C07 and C77.")
claim("C119", "proved", "Verif.Calib.Mono", "C119_rising C119_falling C119_integers C119_fused C119_strict_false", "All finite coefficients and raw values, with overflow. The order is not strict (C119_strict_false), which the property does not claim.")
claim("C120", "partial", "Verif.Calib.Lossless", "C120_partial C120_false", "False for integers of eight bytes, which are rounded to float64 (C120_false). Proved for all other data types and all byte orders.")
