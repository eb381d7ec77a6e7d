[
 {
  "property": "C01",
  "status": "partial",
  "theorems": [
   "Verif.Ihex.C01_offsets_partial",
   "Verif.Ihex.C01_parseHex_partial",
   "Verif.Ihex.C01_terminates",
   "Verif.Ihex.C01_exact",
   "Verif.Ihex.C01_schedule",
   "Verif.Ihex.C01_iff",
   "Verif.Ihex.C01_tight",
   "Verif.Ihex.C01_false_everywhere",
   "Verif.Ihex.C01_false"
  ],
  "note": "Full statement C01_full is false (an explicit segment 0000 followed by data makes the other workers stop early). Partial: no such segment line is followed by data of another segment; any interleaving, any CPU count. Termination for every fair schedule. C01_exact gives the records for every list and every start position, also where the property fails; C01_iff says exactly when it holds, C01_tight that the hypothesis of the partial theorem is necessary."
 },
 {
  "property": "C02",
  "status": "partial",
  "theorems": [
   "Verif.Ihex.C02_roundtrip_partial",
   "Verif.Ihex.C02_iff",
   "Verif.Ihex.C02_returns",
   "Verif.Ihex.C02_false_everywhere",
   "Verif.Ihex.C02_false"
  ],
  "note": "Full statement C02_full is false because C01 is. Partial: images whose blocks in an explicitly selected segment 0 come last. C02_iff says exactly which images are read back."
 },
 {
  "property": "C03",
  "status": "proved",
  "theorems": [
   "Verif.Ihex.C03_checksum",
   "Verif.Ihex.C03_success",
   "Verif.Ihex.C03_reported",
   "Verif.Ihex.C03_recognised"
  ],
  "note": "Every file, CPU count, interleaving: checksum error iff a recognised line has a bad sum."
 },
 {
  "property": "C04",
  "status": "partial",
  "theorems": [
   "Verif.Ihex.C04_corruption_partial",
   "Verif.Ihex.C04_iff",
   "Verif.Ihex.C04_false"
  ],
  "note": "Full statement C04_full is false: changing the type byte to 04 of a record of other length makes the line unreadable and silently dropped. Partial: any byte pair of a reached record such that the changed line stays readable, and only then is the checksum error reported (C04_iff)."
 },
 {
  "property": "C05",
  "status": "partial",
  "theorems": [
   "Verif.Ihex.C05_collision",
   "Verif.Ihex.C05_file_partial",
   "Verif.Ihex.C05_exact",
   "Verif.Ihex.C05_iff",
   "Verif.Ihex.C05_one_cpu",
   "Verif.Ihex.C05_every_cpu",
   "Verif.Ihex.C05_missed",
   "Verif.Ihex.C05_spurious",
   "Verif.Ihex.C05_false"
  ],
  "note": "The full file-level statement (C05_full) is false in both directions (C05_missed: an address given twice is accepted, C05_spurious: a file with distinct addresses is rejected, C05_false). Collection step proved for every list of records (C05_collision). File level needs the segment hypothesis of C01; C05_exact gives success and content for every well-formed file and CPU count without it, C05_iff and C05_every_cpu say exactly when they are right (one CPU is the worst case, C05_one_cpu)."
 },
 {
  "property": "C06",
  "status": "proved",
  "theorems": [
   "Verif.Ihex.C06_no_panic",
   "Verif.Ihex.C06_parseRecord"
  ],
  "note": "Every text, CPU count and interleaving."
 },
 {
  "property": "C07",
  "status": "partial",
  "theorems": [
   "Verif.Ihex.C07_no_loss_partial",
   "Verif.Ihex.C07_lost",
   "Verif.Ihex.C07_false_everywhere",
   "Verif.Ihex.C07_false"
  ],
  "note": "Full statement C07_full is false on every CPU count: an unreadable line drops the rest of the worker's share silently; what stands there has no influence at all (C07_lost). Partial: the lines that are not behind an unreadable one, segment lines well formed."
 },
 {
  "property": "C08",
  "status": "partial",
  "theorems": [
   "Verif.Ihex.C08_cpu_count_partial",
   "Verif.Ihex.C08_exact",
   "Verif.Ihex.C08_false",
   "Verif.Hex.C08_false_everywhere",
   "Verif.Ihex.C08_false_wellFormed"
  ],
  "note": "Full statement C08_full is false for every two different CPU counts. Partial: files without unreadable lines and without explicit segment 0 before other data; C08_exact says for which well-formed files two CPU counts agree."
 },
 {
  "property": "C09",
  "status": "proved",
  "theorems": [
   "Verif.Ihex.C09_ihex",
   "Verif.Ihex.C09_ihex_lines",
   "Verif.Srec.C09_srec"
  ],
  "note": "Both formats."
 },
 {
  "property": "C10",
  "status": "proved",
  "theorems": [
   "Verif.Ihex.C10_wrap"
  ],
  "note": "Addresses inside a record wrap within the 64 KiB segment."
 },
 {
  "property": "C100",
  "status": "proved",
  "theorems": [
   "Verif.Conc.A2lRun.C100_a2l",
   "Verif.Conc.A2lRun.C100_a2l_text",
   "Verif.Conc.Whole.C100_call"
  ],
  "note": "Steps of the transition systems of C84 and C85. The module parser is called only at the words /begin MODULE, and its workers together send no more messages than the module has words. The computation between two channel, lock or wait-group operations is one step; its length is not counted (for the parse functions see C98)."
 },
 {
  "property": "C101",
  "status": "partial",
  "theorems": [
   "Verif.A2l.Props.C101_partial",
   "Verif.A2l.Props.C101_even_partial",
   "Verif.A2l.Props.C101_square",
   "Verif.A2l.Props.C101_open",
   "Verif.A2l.Props.C101_false"
  ],
  "note": "False in full (C101_false): for every word of a text in quotation marks the loop copies all of the text read so far and counts its quotation marks again, so a text of k words costs more than k * k (C101_open). Proved: at most (B + 19) (|s| + 1) if no worker ever has an open text of more than B characters; 19 (|s| + 1) if every word has an even number of quotation marks; 20 (|s| + 1)^2 always. Missing: a bound independent of the longest open text, which the code does not have. The clean-up of the file before it is cut is counted as passes over the text."
 },
 {
  "property": "C102",
  "status": "proved",
  "theorems": [
   "Verif.Ihex.C102_ihex",
   "Verif.Srec.C102_srec"
  ],
  "note": "From the exact result of C77. The bounds are reached by texts of one line. Whether the segment is the right one is C01."
 },
 {
  "property": "C103",
  "status": "partial",
  "theorems": [
   "Verif.Ihex.C103_partial",
   "Verif.Ihex.C103_no_segments",
   "Verif.Ihex.C103_false"
  ],
  "note": "False: without segment records no goroutine ever stops before the end, so n goroutines lock at least (n + 1) / 2 times as many records as there are, and the first one locks them all. When every S successive records contain the beginning of a segment other than 0000, at most N + n (S + 1) locks."
 },
 {
  "property": "C104",
  "status": "proved",
  "theorems": [
   "Verif.A2l.Rename.C104_sequential",
   "Verif.A2l.Rename.C104_parallel",
   "Verif.A2l.Rename.C104_keys",
   "Verif.A2l.Rename.C104_reserved",
   "Verif.A2l.Rename.C104_tokens",
   "Verif.A2l.Rename.C104_file"
  ],
  "note": "Naturality of the statement language under a renaming that is its own inverse: by induction over statements, for all parse functions at once, since a parse function compares tokens only with the words of its body and with the keyword table. A name is exchanged wherever it is a whole word, also within a text in quotation marks. The words of the language are collected from the bodies of the parse functions; every word with a lower-case letter that does not begin with / is free (lower_free). C104_reserved: for a word of the language it is false. C104_tokens and C104_file start from the text of the file; for texts that the clean-up leaves alone."
 },
 {
  "property": "C105",
  "status": "partial",
  "theorems": [
   "Verif.Ihex.Reloc.C105_ihex_partial",
   "Verif.Ihex.Reloc.C105_ihex_iff",
   "Verif.Ihex.Reloc.C105_ihex_false",
   "Verif.Srec.Reloc.C105_srec"
  ],
  "note": "S19: proved for every distance, also around the end of the address space. Intel HEX: false (C105_ihex_false), because segment 0000 is treated as no segment; proved if a used explicit segment 0 is not followed by data elsewhere, and C105_ihex_iff says exactly when it holds for distances of at least one segment. Lines are compared after decoding, so the digits may be in either case."
 },
 {
  "property": "C106",
  "status": "proved",
  "theorems": [
   "Verif.Ihex.Values.C106_ihex",
   "Verif.Srec.Values.C106_srec"
  ],
  "note": "Parametricity in the values of the bytes, from the exact results of C05 and C13. Segment lines must select the same segments; the content of lines that are neither data nor segment lines is free. Intel HEX: the same number of CPUs for both files, since for some files the segment depends on it (C08)."
 },
 {
  "property": "C107",
  "status": "partial",
  "theorems": [
   "Verif.Ihex.Chunks.C107_ihex_partial",
   "Verif.Ihex.Chunks.C107_ihex_iff",
   "Verif.Ihex.Chunks.C107_ihex_false",
   "Verif.Srec.Chunks.C107_srec"
  ],
  "note": "S19: proved. Intel HEX: false (C107_ihex_false), because of the treatment of segment 0000 (C01): a block in segment 0 and one in segment 1 give different images in the two orders; proved if in both files a used explicit segment 0 is not followed by data elsewhere, and C107_ihex_iff says exactly when a file gives the image of such a file."
 },
 {
  "property": "C108",
  "status": "partial",
  "theorems": [
   "Verif.Ihex.Blanks.C108_ihex_behind",
   "Verif.Ihex.Blanks.C108_ihex_lines_partial",
   "Verif.Ihex.Blanks.C108_ihex_lost",
   "Verif.Ihex.Blanks.C108_ihex_false",
   "Verif.Srec.Blanks.C108_srec_behind",
   "Verif.Srec.Blanks.C108_srec_lines_partial",
   "Verif.Srec.Blanks.C108_srec_lost",
   "Verif.Srec.Blanks.C108_srec_false"
  ],
  "note": "False in both formats: one CPU accepts every file with a blank (or a byte order mark) before its first line, or with a first line of 11 or more blanks, as an empty image without an error (C108_ihex_lost, C108_srec_lost). Proved: white space behind any record is always an error; lines of fewer than 11 characters do not matter (Intel HEX: segment hypothesis of C01). Missing: blanks before other lines than the first, where the lines lost are those of C07_lost and C62_srec_lost."
 },
 {
  "property": "C109",
  "status": "proved",
  "theorems": [
   "Verif.Ihex.Ends.C109_ihex_mixed",
   "Verif.Ihex.Ends.C109_ihex_cr",
   "Verif.Srec.Ends.C109_srec_mixed",
   "Verif.Srec.Ends.C109_srec_cr"
  ],
  "note": "Both formats, all numbers of CPUs and schedules: records that the splitting glues together always fail the checksum test, because the white space between them falls into a pair of hex digits. Files with blank lines are not covered: a blank line that ends in LF only, just behind a CRLF, hides the record behind it (C108)."
 },
 {
  "property": "C11",
  "status": "partial",
  "theorems": [
   "Verif.Ihex.C11_table",
   "Verif.Ihex.C11_file_partial",
   "Verif.Ihex.C11_file_false",
   "Verif.Srec.C11_srec_upper_partial",
   "Verif.Srec.C11_srec_false",
   "Verif.Srec.C11_srec_lower_loses"
  ],
  "note": "Digit table: proved for every string. Whole files: conversion of a well-formed file keeps the Intel HEX result; false in general because mixed-case bytes are not accepted; a lower-cased S19 file is accepted as empty."
 },
 {
  "property": "C110",
  "status": "partial",
  "theorems": [
   "Verif.Ihex.Stray.C110_ihex_partial",
   "Verif.Ihex.Stray.C110_ihex_ignored",
   "Verif.Ihex.Stray.C110_ihex_false",
   "Verif.Srec.Stray.C110_srec_partial",
   "Verif.Srec.Stray.C110_srec_ignored",
   "Verif.Srec.Stray.C110_srec_false"
  ],
  "note": "False in both formats: in any file any character can be written before the checksum of any record without any effect on the outcome (C110_ihex_ignored, C110_srec_ignored; Intel HEX segment lines with two bytes). Partial: every other character behind the start mark of every record of an accepted file is a digit. Files with unreadable lines are C07 and C62."
 },
 {
  "property": "C111",
  "status": "partial",
  "theorems": [
   "Verif.Srec.Cut.C111_srec",
   "Verif.Ihex.Cut.C111_ihex_partial",
   "Verif.Ihex.Cut.C111_ihex_false"
  ],
  "note": "S19: proved. Intel HEX: false (C111_ihex_false), because numbers of CPUs store the same file differently when segment 0000 is selected before another one (C01, C08); proved if a used explicit segment 0 is not followed by data elsewhere. That the missing part is not always reported is C60."
 },
 {
  "property": "C112",
  "status": "proved",
  "theorems": [
   "Verif.A2l.Truncated.C112_tokens",
   "Verif.A2l.Truncated.C112_cut",
   "Verif.Conc.A2lRun.C112_runs"
  ],
  "note": "On the runs of the whole reader (C84), any number of workers and any schedule. A file cut off before /begin PROJECT is accepted as a file without a project (C56_false), and an unclosed FRAME inside a closed project too (C29_false)."
 },
 {
  "property": "C113",
  "status": "partial",
  "theorems": [
   "Verif.Conc.Whole.C113_a2l",
   "Verif.Conc.Whole.C113_srec",
   "Verif.Conc.Whole.C113_ihex_partial",
   "Verif.Conc.Whole.C113_ihex_false"
  ],
  "note": "C111 and C112 for the whole call, over all interleavings of all goroutines (C85). A2L and S19: proved. Intel HEX: false (C113_ihex_false, two calls that both return data), because of segment 0000 (C01, C111); proved if a used explicit segment 0 is not followed by data elsewhere."
 },
 {
  "property": "C114",
  "status": "partial",
  "theorems": [
   "Verif.Srec.Unread.C114_srec",
   "Verif.Ihex.Unread.C114_ihex_partial",
   "Verif.Ihex.Unread.C114_ihex_one",
   "Verif.Ihex.Unread.C114_ihex_false"
  ],
  "note": "S19: proved. Intel HEX: false (C114_ihex_false): if the line that selects a segment cannot be read, the data that another worker reads behind it is stored in the segment before, without an error. Proved for files without lines of type 04 on any numbers of CPUs, and for all files (segment hypothesis of C01) on one CPU. That lines are lost silently is C07, C62, C108."
 },
 {
  "property": "C115",
  "status": "partial",
  "theorems": [
   "Verif.Srec.Transpose.C115_srec",
   "Verif.Ihex.Transpose.C115_ihex_partial",
   "Verif.Ihex.Transpose.C115_ihex_false"
  ],
  "note": "S19: proved for all records (14 or more characters). Intel HEX: proved for all records with data; false for records without data (C115_ihex_false), where the exchange of the last digit of the type and the first digit of the checksum can make a segment line that is too short, on which a worker gives up without an error."
 },
 {
  "property": "C116",
  "status": "partial",
  "theorems": [
   "Verif.A2l.Props.C116_partial",
   "Verif.A2l.Props.C116_lost_partial",
   "Verif.A2l.Props.C116_file_partial",
   "Verif.A2l.Props.C116_false",
   "Verif.A2l.Props.C116_false_comb",
   "Verif.A2l.Props.C116_false_row",
   "Verif.A2l.Props.C116_false_range",
   "Verif.A2l.Props.C116_false_frame"
  ],
  "note": "False of BIT_OPERATION, VAR_FORBIDDEN_COMB, COMPU_VTAB, COMPU_VTAB_RANGE and FRAME (a witness for each). Proved for 184 functions, PROJECT and MODULE among them, as long as no word between begins one of these objects or A2ML or IF_DATA (foreign content); modules read one after the other; keywords are no numbers."
 },
 {
  "property": "C117",
  "status": "partial",
  "theorems": [
   "Verif.Ihex.Overlap.C117_ihex_partial",
   "Verif.Ihex.Overlap.C117_ihex_twice_partial",
   "Verif.Ihex.Overlap.C117_ihex_false",
   "Verif.Srec.Overlap.C117_srec_partial",
   "Verif.Srec.Overlap.C117_srec_false"
  ],
  "note": "Proved for well-formed Intel HEX files (no condition on segments, unlike C05) and for S19 files without unreadable lines; false behind a line that is not a record (Intel HEX) or not an S3 record (S19), since the worker stops there without an error."
 },
 {
  "property": "C118",
  "status": "proved",
  "theorems": [
   "Verif.Ihex.Fate.C118_fate",
   "Verif.Ihex.Fate.C118_high",
   "Verif.Ihex.Fate.C118_sign"
  ],
  "note": "For all well-formed Intel HEX files, as the property is quantified; lines that are no records are the subject of C07 and C77."
 },
 {
  "property": "C119",
  "status": "proved",
  "theorems": [
   "Verif.Calib.Mono.C119_rising",
   "Verif.Calib.Mono.C119_falling",
   "Verif.Calib.Mono.C119_integers",
   "Verif.Calib.Mono.C119_fused",
   "Verif.Calib.Mono.C119_strict_false"
  ],
  "note": "All finite coefficients and raw values, with overflow. The order is not strict (C119_strict_false), which the property does not claim."
 },
 {
  "property": "C12",
  "status": "partial",
  "theorems": [
   "Verif.Ihex.C12_ihex_partial",
   "Verif.Ihex.C12_ihex_everywhere",
   "Verif.Ihex.C12_ihex_false",
   "Verif.Srec.C12_srec_partial",
   "Verif.Srec.C12_srec_everywhere",
   "Verif.Srec.C12_srec_false"
  ],
  "note": "False in both formats: the count is only summed, never compared. In every file the count of every line can be changed to any other, with the checksum for it, without any effect (C12_ihex_everywhere, C12_srec_everywhere). Partial: a change of the count alone is detected."
 },
 {
  "property": "C120",
  "status": "partial",
  "theorems": [
   "Verif.Calib.Lossless.C120_partial",
   "Verif.Calib.Lossless.C120_false"
  ],
  "note": "False for integers of eight bytes, which are rounded to float64 (C120_false). Proved for all other data types and all byte orders."
 },
 {
  "property": "C13",
  "status": "proved",
  "theorems": [
   "Verif.Srec.C13_roundtrip",
   "Verif.Srec.C13_text",
   "Verif.Srec.encode_no_newline"
  ],
  "note": "Every image that fits S3 records, letter case, CPU count; also as file text with either line terminator."
 },
 {
  "property": "C14",
  "status": "proved",
  "theorems": [
   "Verif.Srec.C14_checksum",
   "Verif.Srec.C14_success",
   "Verif.Srec.C14_corruption",
   "Verif.Srec.C14_short_line_undetected"
  ],
  "note": "S3 records with all fields; the corrupted record is a recognised one (a worker reads up to its first unreadable line, C17). C14_short_line_undetected documents a 12-character line (not a complete S3 record) whose checksum position overlaps the address."
 },
 {
  "property": "C15",
  "status": "proved",
  "theorems": [
   "Verif.Srec.C15_collision",
   "Verif.Srec.C15_file"
  ],
  "note": ""
 },
 {
  "property": "C16",
  "status": "proved",
  "theorems": [
   "Verif.Srec.C16_no_panic",
   "Verif.Srec.C16_parseRecord"
  ],
  "note": ""
 },
 {
  "property": "C17",
  "status": "partial",
  "theorems": [
   "Verif.Srec.C17_partial",
   "Verif.Srec.C17_empty_header_partial",
   "Verif.Srec.recognised_tail",
   "Verif.Srec.C17_exact",
   "Verif.Srec.C17_iff",
   "Verif.Srec.C17_one_cpu",
   "Verif.Srec.C17_false_everywhere",
   "Verif.Srec.C17_false"
  ],
  "note": "Full statement C17_full is false on every CPU count and for every non-empty header text: the first worker stops at the S0 line. Partial: header line shorter than 11 characters. C17_exact: what is read of a standard file with a header text on n CPUs is the data of all blocks but those in the share of the header line; C17_iff: right just if these blocks carry no bytes; on one CPU nothing is read."
 },
 {
  "property": "C18",
  "status": "partial",
  "theorems": [
   "Verif.Srec.C18_formats_agree_partial",
   "Verif.Srec.C18_iff",
   "Verif.Srec.C18_false"
  ],
  "note": "False because C02 is; partial under C02's hypothesis; C18_iff says exactly when the formats agree."
 },
 {
  "property": "C19",
  "status": "proved",
  "theorems": [
   "Verif.Conc.C19_every_run",
   "Verif.Conc.C19_maximal_run",
   "Verif.Conc.C19_ihex_records",
   "Verif.Conc.C19_ihex_data",
   "Verif.Conc.C19_early_return",
   "Verif.Conc.C19_srec_records",
   "Verif.Conc.C19_srec_data"
  ],
  "note": "Any number of workers and batches, any capacity including 0, every schedule; instances for both hex parsers. The early return of the collector at a collision is covered by C19_early_return."
 },
 {
  "property": "C20",
  "status": "proved",
  "theorems": [
   "Verif.Conc.C20_never_blocks",
   "Verif.Conc.C20_verdict",
   "Verif.Conc.C20_ihex",
   "Verif.Conc.C20_srec"
  ],
  "note": ""
 },
 {
  "property": "C21",
  "status": "proved",
  "theorems": [
   "Verif.Conc.C21_terminates",
   "Verif.Conc.C21_no_panic",
   "Verif.Conc.C21_result",
   "Verif.Conc.C21_logger"
  ],
  "note": "The two parsers are represented by the result they return; a failing log file is a further source of an error (C21_logger)."
 },
 {
  "property": "C22",
  "status": "partial",
  "theorems": [
   "Verif.Conc.C22_partial",
   "Verif.Conc.C22_last",
   "Verif.Conc.C22_iff",
   "Verif.Conc.C22_false_everywhere",
   "Verif.Conc.C22_false"
  ],
  "note": "False: the last error reported is returned. Partial: at most one reader fails. Exactly: the first error is returned if and only if the readers do not fail with different errors (C22_iff), whatever the schedule."
 },
 {
  "property": "C23",
  "status": "partial",
  "theorems": [
   "Verif.Conc.C23_hex_partial",
   "Verif.Conc.C23_s19_partial",
   "Verif.Conc.C23_other_partial",
   "Verif.Conc.C23_exact",
   "Verif.Conc.C23_iff",
   "Verif.Conc.C23_false"
  ],
  "note": "False: the substring .hex anywhere in the path wins. Partial: .hex at the end; .s19 at the end and no .hex; neither anywhere. C23_exact says which paths select which format, C23_iff for exactly which paths it is the one of the name."
 },
 {
  "property": "C24",
  "status": "partial",
  "theorems": [
   "Verif.A2l.C24_partial",
   "Verif.A2l.C24_lines_partial",
   "Verif.A2l.Props.C24_any_partial",
   "Verif.A2l.C24_false",
   "Verif.A2l.Props.C24_false_everywhere"
  ],
  "note": "False: a share boundary inside a comment or string, or a stray slash, changes the tokens; for every two numbers of workers there is a text that they cut differently. Partial: every share (or every line) is a document of its own."
 },
 {
  "property": "C25",
  "status": "partial",
  "theorems": [
   "Verif.A2l.C25_partial",
   "Verif.A2l.C25_false",
   "Verif.A2l.C25_false_banner",
   "Verif.A2l.C25_false_glued"
  ],
  "note": "False: /*/ counts as a whole comment, a banner /*//// as a line comment, glued comments swallow or extend their word. Partial: white space around the comment and a harmless first word; any text may follow."
 },
 {
  "property": "C26",
  "status": "partial",
  "theorems": [
   "Verif.A2l.C26_partial",
   "Verif.A2l.C26_false",
   "Verif.A2l.C26_escaped_quote_deleted"
  ],
  "note": "False: a backslash is deleted together with the next character. Partial: no backslash; any content with doubled quotation marks, any text may follow."
 },
 {
  "property": "C27",
  "status": "partial",
  "theorems": [
   "Verif.A2l.C27_partial",
   "Verif.A2l.C27_no_slash_partial",
   "Verif.A2l.Props.C27_iff",
   "Verif.A2l.Props.C27_lost",
   "Verif.A2l.C27_nothing_invented",
   "Verif.A2l.C27_tokenizer_total",
   "Verif.A2l.C27_false"
  ],
  "note": "False: a word with a slash other than /begin or /end makes the worker drop the rest of its share without an error; whatever it has behind the word has no influence on the tokens. Exact for texts without comments, on any number of workers: no word is lost just if no worker stops early. Partial: exact tokens of every document of the grammar; no word lost in texts without slashes; never anything invented."
 },
 {
  "property": "C28",
  "status": "proved",
  "theorems": [
   "Verif.A2l.Props.C28_terminates",
   "Verif.A2l.Props.C28_file",
   "Verif.A2l.Props.C28_needs_end",
   "Verif.A2l.Props.C28_multithreaded",
   "Verif.A2l.Props.C28_file_multithreaded"
  ],
  "note": "All parse functions translated line by line, sequential and multithreaded under every schedule. The empty token the tokenizer appends is needed (C28_needs_end)."
 },
 {
  "property": "C29",
  "status": "partial",
  "theorems": [
   "Verif.A2l.Props.C29_partial",
   "Verif.A2l.Props.C29_false"
  ],
  "note": "False for FRAME, which ends without error at the end of the file. Partial: all other 62 blocks."
 },
 {
  "property": "C30",
  "status": "partial",
  "theorems": [
   "Verif.A2l.Props.C30_partial",
   "Verif.A2l.Props.C30_frame_partial",
   "Verif.A2l.Props.C30_false"
  ],
  "note": "False for FRAME, which can end at the end of the file. Partial: all other 62 blocks, and what holds for FRAME."
 },
 {
  "property": "C31",
  "status": "partial",
  "theorems": [
   "Verif.A2l.Props.C31_partial",
   "Verif.A2l.Props.C31_tables",
   "Verif.A2l.Props.C31_irregular",
   "Verif.A2l.Props.C31_variant_coding_any_word",
   "Verif.A2l.Props.C31_bit_operation_partial",
   "Verif.A2l.Props.C31_frame",
   "Verif.A2l.Props.C31_matrix_dim",
   "Verif.A2l.Props.C31_false"
  ],
  "note": "False for BIT_OPERATION, where the error is overwritten by the next part; VARIANT_CODING takes any word for VAR_SEPARATOR. Partial: the 171 functions that equal the template of their declared struct, the three conversion tables, ten further irregular blocks, FRAME, MATRIX_DIM, and BIT_OPERATION when no part follows the keyword."
 },
 {
  "property": "C32",
  "status": "partial",
  "theorems": [
   "Verif.A2l.Props.C32_partial",
   "Verif.A2l.Props.C32_only_partial",
   "Verif.A2l.Props.C32_block_partial",
   "Verif.A2l.Props.C32_seq_partial",
   "Verif.A2l.Props.C32_false",
   "Verif.A2l.Props.C32_measurement_false",
   "Verif.A2l.Props.C32_typedef_measurement_false",
   "Verif.A2l.Props.C32_unit_false",
   "Verif.A2l.Props.C32_matrix_dim_false",
   "Verif.A2l.Props.C32_no_rescale_x_false",
   "Verif.A2l.Props.C32_frame_false",
   "Verif.A2l.Props.C32_overwrite_false",
   "Verif.A2l.Props.C32_irregular_partial",
   "Verif.A2l.Props.C32_irregular_only",
   "Verif.A2l.Props.C32_irregular_illegal",
   "Verif.A2l.Props.C32_dead_fields",
   "Verif.A2l.Props.C32_measurement_lost",
   "Verif.A2l.Props.C32_unit_lost",
   "Verif.A2l.Props.C32_memory_segment_lost",
   "Verif.A2l.Props.C32_memory_layout",
   "Verif.A2l.Props.C32_var_forbidden_comb",
   "Verif.A2l.Props.C32_blob_address_type",
   "Verif.A2l.Props.C32_blob_always_direct",
   "Verif.A2l.Props.C32_overwrite_lost",
   "Verif.A2l.Props.C32_bit_operation",
   "Verif.A2l.Props.C32_bit_operation_exact",
   "Verif.A2l.Props.C32_frame_exact",
   "Verif.A2l.Props.C32_frame_lost",
   "Verif.A2l.Props.C32_frame_name",
   "Verif.A2l.Props.C32_matrix_dim_exact",
   "Verif.A2l.Props.C32_matrix_dim_lost",
   "Verif.A2l.Props.C32_frame_measurement",
   "Verif.A2l.Props.C32_frame_measurement_only",
   "Verif.A2l.Props.C32_no_rescale_x_exact",
   "Verif.A2l.Props.C32_guard_rails",
   "Verif.A2l.Props.C32_symbol_type_link"
  ],
  "note": "False for MEASUREMENT, TYPEDEF_MEASUREMENT, UNIT, MATRIX_DIM, NO_RESCALE_X, FRAME, OVERWRITE, MEMORY_SEGMENT, BLOB. Partial: 171 functions accept exactly the texts of the declared object, with the values of the text; for all irregular functions what they accept is given exactly, with universal statements of what is lost; BIT_OPERATION, FRAME_MEASUREMENT, GUARD_RAILS and SYMBOL_TYPE_LINK read every legal text correctly."
 },
 {
  "property": "C33",
  "status": "proved",
  "theorems": [
   "Verif.A2l.Props.C33_integers",
   "Verif.A2l.Props.C33_one"
  ],
  "note": "Every strconv call site of every parse function (103 of them); C33_one states it for a whole call."
 },
 {
  "property": "C34",
  "status": "partial",
  "theorems": [
   "Verif.A2l.Props.C34_partial",
   "Verif.A2l.Props.C34_file_partial",
   "Verif.A2l.Props.C34_content",
   "Verif.A2l.Props.C34_iff",
   "Verif.A2l.Props.C34_file_iff",
   "Verif.A2l.Props.C34_false",
   "Verif.A2l.Props.C34_false_everywhere",
   "Verif.A2l.Props.C34_false_nested",
   "Verif.A2l.Props.C34_false_error"
  ],
  "note": "False: an object whose opening token lies on a cut between workers is lost, nested blocks become objects of the module, stray keywords are not reported; for every number of workers from two on there is a module of which every schedule loses an object without an error (C34_false_everywhere). Partial: equal results whenever every cut falls between objects and names are unique, for the module and (C34_file_partial) for the whole file; C34_content gives the exact content. C34_iff gives the exact criterion for every module and wherever the cuts fall: all schedules give the sequential result just if no worker gives up, what a worker finds last under a name in its piece is the last one in the file, and every name of the file is found by some worker. C34_file_iff gives the same criterion for the result of parsing a whole file with one module."
 },
 {
  "property": "C35",
  "status": "proved",
  "theorems": [
   "Verif.A2l.Props.C35_no_deadlock",
   "Verif.A2l.Props.C35_terminates",
   "Verif.A2l.Props.C35_workers_return",
   "Verif.A2l.Props.C35_returns",
   "Verif.A2l.Props.C35_no_loss"
  ],
  "note": "Any number of workers, any tokens, every schedule of workers, the closing goroutine and the collectors."
 },
 {
  "property": "C36",
  "status": "partial",
  "theorems": [
   "Verif.A2l.Props.C36_sequential_partial",
   "Verif.A2l.Props.C36_parallel_partial",
   "Verif.A2l.Props.C36_exact",
   "Verif.A2l.Props.C36_found",
   "Verif.A2l.Props.C36_iff",
   "Verif.A2l.Props.C36_pieces",
   "Verif.A2l.Props.C36_false"
  ],
  "note": "False with several workers: the collectors keep the object received last. Partial: sequential parsing; several workers when all definitions of the name lie in the share of one worker. Exactly: an object is found under the name for some schedule just if it is the last definition in the share of some worker (C36_exact, C36_iff; C36_pieces without any assumption on the cuts)."
 },
 {
  "property": "C37",
  "status": "partial",
  "theorems": [
   "Verif.A2l.Props.C37_partial",
   "Verif.A2l.Props.C37_mixup",
   "Verif.A2l.Props.C37_false_everywhere",
   "Verif.A2l.Props.C37_false"
  ],
  "note": "False: the token list is a variable of the package, so a caller can get the content of another file, for any two files (C37_mixup). Partial: calls that do not overlap."
 },
 {
  "property": "C38",
  "status": "partial",
  "theorems": [
   "Verif.Calib.Props.C38_partial",
   "Verif.Calib.Props.C38_crash_iff",
   "Verif.Calib.Props.C38_false"
  ],
  "note": "False: crashes when the selected module does not exist (an A2L file without MODULE). Partial: exact result whenever it exists; the crash is characterised exactly."
 },
 {
  "property": "C39",
  "status": "partial",
  "theorems": [
   "Verif.Calib.Props.C39_partial",
   "Verif.Calib.Props.C39_small_borders",
   "Verif.Calib.Props.C39_zero_border_crash",
   "Verif.Calib.Props.C39_false"
  ],
  "note": "False: the remainder is added instead of its complement; a border 0 crashes. Partial: an exact criterion for when the result is right."
 },
 {
  "property": "C40",
  "status": "partial",
  "theorems": [
   "Verif.Calib.Props.C40_partial",
   "Verif.Calib.Props.C40_loop",
   "Verif.Calib.Props.C40_always_crashes",
   "Verif.Calib.Props.C40_false"
  ],
  "note": "False: make([]byte, n, 0) panics for every n > 0. Partial: lengths below 8 bits; the loop behind the crash is right."
 },
 {
  "property": "C41",
  "status": "partial",
  "theorems": [
   "Verif.Calib.Props.C41_partial",
   "Verif.Calib.Props.C41_exact",
   "Verif.Calib.Props.C41_crash_iff",
   "Verif.Calib.Props.C41_long_truncated",
   "Verif.Calib.Props.C41_false"
  ],
  "note": "False: shorter strings crash. Partial: eight digits with optional 0x in every byte order; exactly, for every string (C41_exact): 0x is removed wherever it stands, fewer than four bytes crash, of more the first four count."
 },
 {
  "property": "C42",
  "status": "partial",
  "theorems": [
   "Verif.Calib.Props.C42_partial",
   "Verif.Calib.Props.C42_exact",
   "Verif.Calib.Props.C42_rounded",
   "Verif.Calib.Props.C42_word_as_32_bits",
   "Verif.Calib.Props.C42_long_crashes",
   "Verif.Calib.Props.C42_float16_wrong",
   "Verif.Calib.Props.C42_false_uword",
   "Verif.Calib.Props.C42_false_ulong",
   "Verif.Calib.Props.C42_false_precision"
  ],
  "note": "False for UWORD, SWORD, ULONG, SLONG, FLOAT16 and 64-bit numbers above 2^53 (C42_rounded: they are rounded to nearest even). Partial: UBYTE, SBYTE, A_UINT64, A_INT64 up to 2^53, FLOAT32, FLOAT64."
 },
 {
  "property": "C43",
  "status": "partial",
  "theorems": [
   "Verif.Calib.Props.C43_partial",
   "Verif.Calib.Props.C43_always_default",
   "Verif.Calib.Props.C43_missing_table",
   "Verif.Calib.Props.C43_short_table_crash",
   "Verif.Calib.Props.C43_iff",
   "Verif.Calib.Props.C43_false"
  ],
  "note": "False: the test compares with the lower bound twice, so no row ever matches. Partial: values in no row; missing table. Exactly: the text is right if and only if the value lies in no row or its row has the default text (C43_iff)."
 },
 {
  "property": "C44",
  "status": "partial",
  "theorems": [
   "Verif.Calib.Props.C44_partial",
   "Verif.Calib.Props.C44_iff",
   "Verif.Calib.Props.C44_false"
  ],
  "note": "False only for a verbal table without rows but with a default. Partial: all other tables; columns of equal length as C48 delivers them. Exactly: C44_iff."
 },
 {
  "property": "C45",
  "status": "partial",
  "theorems": [
   "Verif.Calib.Props.C45_partial",
   "Verif.Calib.Props.C45_exact",
   "Verif.Calib.Props.C45_error_iff",
   "Verif.Calib.Props.C45_checked_partial",
   "Verif.Calib.Props.C45_linear_ratfunc_rejected",
   "Verif.Calib.Props.C45_false_identity",
   "Verif.Calib.Props.C45_false_square",
   "Verif.Calib.Props.C45_false_nan",
   "Verif.Calib.Props.exists_sqrt"
  ],
  "note": "False for RAT_FUNC: wrong formula, linear relations rejected, NaN without error. Partial: identical, linear, missing coefficients, and an exact criterion for when the result of a rational function is right (C45_exact) or an error (C45_error_iff). Exact arithmetic over the rationals."
 },
 {
  "property": "C46",
  "status": "proved",
  "theorems": [
   "Verif.Calib.Props.C46",
   "Verif.Calib.Props.Field.name_injective"
  ],
  "note": ""
 },
 {
  "property": "C47",
  "status": "partial",
  "theorems": [
   "Verif.Calib.Props.C47_partial",
   "Verif.Calib.Props.C47_false",
   "Verif.Link.C47_names"
  ],
  "note": "False for the name Reserved, which is delivered as a positioned field but has no data type. Partial: the other 40 fields and all unknown names."
 },
 {
  "property": "C48",
  "status": "partial",
  "theorems": [
   "Verif.A2l.Props.C48_partial",
   "Verif.A2l.Props.C48_content",
   "Verif.A2l.Props.C48_only",
   "Verif.A2l.Props.C48_false",
   "Verif.A2l.Props.C48_zero_false"
  ],
  "note": "False: fewer rows than declared are accepted, and any number if 0 is declared. Partial: equal columns, never more than declared, markers say whether complete; exact content of every table (C48_content), nothing else accepted (C48_only)."
 },
 {
  "property": "C49",
  "status": "partial",
  "theorems": [
   "Verif.Calib.Props.C49_partial",
   "Verif.Calib.Props.C49_value_lost",
   "Verif.Calib.Props.C49_iff",
   "Verif.Calib.Props.C49_false",
   "Verif.Link.C49_text",
   "Verif.Link.C49_none"
  ],
  "note": "False: the value returned is always the empty string. Partial: the error cases and the lookup of the constant itself, also from the text of the file (C49_text). Exactly: right if and only if there is no value or it is empty (C49_iff)."
 },
 {
  "property": "C50",
  "status": "partial",
  "theorems": [
   "Verif.Calib.Props.C50_partial",
   "Verif.Calib.Props.C50_false"
  ],
  "note": "False: UWORD and SWORD are reported to have 32 bits. Partial: all other sizes; names and types round trip."
 },
 {
  "property": "C51",
  "status": "partial",
  "theorems": [
   "Verif.Srec.C51_partial",
   "Verif.Hex.C51_false_everywhere",
   "Verif.Srec.C51_false"
  ],
  "note": "False for every two different CPU counts (S0 line in the first share). Partial: files without unreadable lines."
 },
 {
  "property": "C52",
  "status": "partial",
  "theorems": [
   "Verif.Calib.Props.C52_partial",
   "Verif.Calib.Props.C52_nothing_read",
   "Verif.Calib.Props.C52_read_crashes",
   "Verif.Calib.Props.C52_axis",
   "Verif.Calib.Props.C52_false"
  ],
  "note": "False: the positions are stored in a copy of the layout, so nothing is ever read; if they were there, every read would crash. Partial: what does happen."
 },
 {
  "property": "C53",
  "status": "partial",
  "theorems": [
   "Verif.Calib.Props.C53_always_zero_partial",
   "Verif.Calib.Props.C53_false"
  ],
  "note": "False: 0 without an error. Partial: the exact result."
 },
 {
  "property": "C54",
  "status": "partial",
  "theorems": [
   "Verif.Calib.Props.C54_partial",
   "Verif.Calib.Props.C54_false"
  ],
  "note": "False: the position is advanced by bits. Partial: error case and exact advance."
 },
 {
  "property": "C55",
  "status": "proved",
  "theorems": [
   "Verif.A2l.Props.C55_own_objects",
   "Verif.A2l.Props.C55_choice",
   "Verif.A2l.Props.C55_parallel_rejects"
  ],
  "note": "From the text of the file to the result of ParseFromFile, any worker count; calls that do not overlap (C37), fewer than 2^32 modules (the counter wraps)."
 },
 {
  "property": "C56",
  "status": "partial",
  "theorems": [
   "Verif.A2l.Props.C56_project_partial",
   "Verif.A2l.Props.C56_file",
   "Verif.A2l.Props.C56_last",
   "Verif.A2l.Props.C56_words_accepted",
   "Verif.A2l.Props.C56_two_projects",
   "Verif.A2l.Props.C56_false"
  ],
  "note": "False: files without a project and arbitrary words outside blocks are accepted, earlier projects are lost. Partial: the accepted files and their values are characterised exactly (C56_file, C56_last); every accepted project has the modules of the file (C56_project_partial)."
 },
 {
  "property": "C57",
  "status": "partial",
  "theorems": [
   "Verif.A2l.Props.C57_table_partial",
   "Verif.A2l.Props.C57_seq_partial",
   "Verif.A2l.Props.C57_block_partial",
   "Verif.A2l.Props.C57_part_partial",
   "Verif.A2l.Props.C57_only",
   "Verif.A2l.Props.C57_part_lost",
   "Verif.A2l.Props.C57_parts_lost_list",
   "Verif.A2l.Props.C57_address_type_rejected",
   "Verif.A2l.Props.C57_lost_rejected",
   "Verif.A2l.Props.C57_false"
  ],
  "note": "False for PLONGLONG (unknown to the parser of address types), ALTERNATE_CURVES, ALTERNATE_WITH_X, ALTERNATE_WITH_Y (also keywords), and for every ADDRESS_TYPE and ENCODING part (the keyword is compared with the constants). Partial: all other constants in parameters of the 171 regular functions and in CALIBRATION_ACCESS; only declared constants are ever stored (C57_only)."
 },
 {
  "property": "C58",
  "status": "partial",
  "theorems": [
   "Verif.A2l.Props.C58_partial",
   "Verif.A2l.Props.C58_parallel",
   "Verif.A2l.Props.C58_false"
  ],
  "note": "False for VARIANT_CODING, which takes any word for VAR_SEPARATOR. Partial: every other call of every parse function (C58_partial), and the objects read by the parallel module parser (C58_parallel)."
 },
 {
  "property": "C59",
  "status": "partial",
  "theorems": [
   "Verif.A2l.Props.C59_table_partial",
   "Verif.A2l.Props.C59_table_exact",
   "Verif.A2l.Props.C59_partial",
   "Verif.A2l.Props.C59_missing_taken",
   "Verif.A2l.Props.C59_surplus_rejected",
   "Verif.A2l.Props.C59_matrix_dim_missing",
   "Verif.A2l.Props.C59_false"
  ],
  "note": "False for FIX_AXIS_PAR, READ_ONLY, READ_WRITE, RESERVED, VAR_SEPARATOR, which are not in the table; eight words are in it without need. Partial: all other words in the 171 regular functions."
 },
 {
  "property": "C60",
  "status": "partial",
  "theorems": [
   "Verif.Ihex.C60_ihex_partial",
   "Verif.Ihex.C60_ihex_accepted",
   "Verif.Ihex.C60_ihex_false",
   "Verif.Srec.C60_srec_partial",
   "Verif.Srec.C60_srec_accepted",
   "Verif.Srec.C60_srec_false"
  ],
  "note": "False for both formats: a file cut after any line is accepted. Partial: the cut file never has a byte the whole file does not have (S19: files without unreadable lines; Intel HEX: well-formed files, segment hypothesis of C01)."
 },
 {
  "property": "C61",
  "status": "partial",
  "theorems": [
   "Verif.Ihex.C61_partial",
   "Verif.Ihex.C61_ignored",
   "Verif.Ihex.C61_iff",
   "Verif.Ihex.C61_false"
  ],
  "note": "False: the end-of-file record is without effect wherever it stands (C61_ignored). Partial: no data record follows it; exactly then (C61_iff)."
 },
 {
  "property": "C62",
  "status": "partial",
  "theorems": [
   "Verif.Ihex.C62_ihex_partial",
   "Verif.Ihex.C62_ihex_ignored",
   "Verif.Ihex.C62_ihex_false",
   "Verif.Srec.C62_srec_partial",
   "Verif.Srec.C62_srec_malformed",
   "Verif.Srec.C62_srec_dropped",
   "Verif.Srec.C62_srec_lost",
   "Verif.Srec.C62_srec_false"
  ],
  "note": "False: type 02 records (and types that do not exist) are ignored, so bytes end up at wrong addresses; an S19 file of S1 or S2 records is accepted as empty. Partial: Intel HEX files without type 02 records; S19 memory only comes from S3 records with right sums; the lines behind another record in the share of a worker have no influence (C62_srec_lost)."
 },
 {
  "property": "C63",
  "status": "partial",
  "theorems": [
   "Verif.Ihex.C63_ihex_order_partial",
   "Verif.Ihex.C63_ihex_join_partial",
   "Verif.Ihex.C63_ihex_join_iff",
   "Verif.Ihex.C63_ihex_join_false",
   "Verif.Srec.C63_srec_order",
   "Verif.Srec.C63_srec_join"
  ],
  "note": "S19: order and joining for all files without unreadable lines. Intel HEX: permuted data records under the hypothesis of C01; joining is false if the second file relies on starting in segment 0 (C63_ihex_join_false), partial otherwise."
 },
 {
  "property": "C64",
  "status": "partial",
  "theorems": [
   "Verif.A2l.Props.C64_marks_partial",
   "Verif.A2l.Props.C64_absent_zero",
   "Verif.A2l.Props.C64_undeclared_zero",
   "Verif.A2l.Props.C64_false"
  ],
  "note": "False: the marker of a list is set when the block ends, so an empty list is marked as set (C64_false). Partial: for the 171 regular functions the marker of every positional parameter is set exactly if the parameter was in the text; absent parameters and fields the block does not declare are zero."
 },
 {
  "property": "C65",
  "status": "partial",
  "theorems": [
   "Verif.A2l.Props.C65_parts_partial",
   "Verif.A2l.Props.C65_irregular_partial",
   "Verif.A2l.Props.C65_bit_operation",
   "Verif.A2l.Props.C65_frame",
   "Verif.A2l.Props.C65_tables",
   "Verif.A2l.Props.C65_file",
   "Verif.A2l.Props.partsOk_all",
   "Verif.A2l.Props.C34_false"
  ],
  "note": "All optional parts of the 171 regular functions (every part of every declared shape), and those of all irregular functions, the value tables and the file as a whole. In COMPU_VTAB and COMPU_VTAB_RANGE the text of a row can be any word and is not counted as a part (C65_tables). False only of a module read by several workers, which can lose an object at a cut (C34_false); its exact content is that of C34."
 },
 {
  "property": "C66",
  "status": "partial",
  "theorems": [
   "Verif.Link.C66_partial",
   "Verif.Link.C66_answers",
   "Verif.Link.uses_module",
   "Verif.Link.C66_false"
  ],
  "note": "False: an empty file is accepted and the lookup panics. Partial: from the token list to the answer of GetObjectByIdent, for every name and module with a name and a description; several modules and any number of workers through C55_own_objects and uses_module."
 },
 {
  "property": "C67",
  "status": "partial",
  "theorems": [
   "Verif.Link.C67_verbal_partial",
   "Verif.Link.C67_numeric_partial",
   "Verif.Link.C67_range_exact",
   "Verif.Link.C67_range_crash",
   "Verif.Link.C67_range_false"
  ],
  "note": "False for COMPU_VTAB_RANGE: a range is never found, and a table with fewer rows than declared, which is accepted, crashes the conversion (C67_range_exact gives the result for every table). Partial: COMPU_VTAB and COMPU_TAB without interpolation, from the text of the table to the converted value."
 },
 {
  "property": "C68",
  "status": "partial",
  "theorems": [
   "Verif.Link.C68_partial",
   "Verif.Link.C68_rat_func_partial",
   "Verif.Link.method_fields",
   "Verif.Link.part_flat",
   "Verif.Link.C68_false"
  ],
  "note": "False for RAT_FUNC: a rational function that is linear (B p + C) is an error although the file is accepted. Partial: IDENTICAL, LINEAR and the rejected methods from the text of the file to the value, TAB_NOINTP up to the table of C67; for RAT_FUNC the result of the code's formula with the coefficients of the text, and exactly when it is right (C68_rat_func_partial); TAB_INTP always gives 0."
 },
 {
  "property": "C69",
  "status": "partial",
  "theorems": [
   "Verif.Link.C69_partial",
   "Verif.Link.C69_layout_partial",
   "Verif.Link.C69_address",
   "Verif.Link.C69_decode",
   "Verif.Link.C69_align",
   "Verif.Link.C69_positions",
   "Verif.Link.C69_nothing_read",
   "Verif.Link.C69_false"
  ],
  "note": "False: the data type of NO_RESCALE_X is never read. Partial: byte order, borders, and position and data type (or size) of the 40 other fields of a record layout, from the text of the file to the address conversion (C69_address), decoding (C69_decode), alignment (C69_align), position and type lookup (C69_positions); reading a characteristic reads nothing whatever the file says (C69_nothing_read). The hypothesis OrderWf of C41 and C42 and the hypothesis on relativePositions of C52 are proved for files."
 },
 {
  "property": "C70",
  "status": "partial",
  "theorems": [
   "Verif.A2l.Props.C70_partial",
   "Verif.A2l.Props.C70_object_partial",
   "Verif.A2l.Props.C70_tokens_partial",
   "Verif.A2l.Props.C70_lines",
   "Verif.A2l.Props.C70_one_module_partial",
   "Verif.A2l.Props.C70_false"
  ],
  "note": "False for MEASUREMENT (C70_false): the resolution is lost. Partial: any nesting of the 171 regular functions, from the tree of objects over its text to the struct returned by ParseFromFile; objects of irregular functions can be included as given nodes with a proof that their own text is read to their value. One module: under the conditions of C34."
 },
 {
  "property": "C71",
  "status": "partial",
  "theorems": [
   "Verif.A2l.Props.C71_order_partial",
   "Verif.A2l.Props.C71_added_partial",
   "Verif.A2l.Props.C71_odd_partial",
   "Verif.A2l.Props.C71_file_partial",
   "Verif.A2l.Props.C71_false"
  ],
  "note": "False without a condition on names: of two parts with one name the later is kept (C71_false). Partial: parts with different names may be permuted freely, and a further part changes only its own field or map entry (171 regular functions); permuted parts of the blocks with parsers of their own (C71_odd_partial); and for whole files with at least two modules, permutations at any depth, in any layout and for any number of workers (C71_file_partial)."
 },
 {
  "property": "C72",
  "status": "partial",
  "theorems": [
   "Verif.Calib.Props.C72_partial",
   "Verif.Calib.Props.C72_false",
   "Verif.Calib.Props.C72_list_partial",
   "Verif.Calib.Props.C72_list_false",
   "Verif.Calib.Props.C72_reader_partial",
   "Verif.Calib.Props.C72_address_types"
  ],
  "note": "False: reading one value never succeeds (it crashes for every data type), a list without FIX_NO_AXIS_PTS_X is always empty. Partial: the result of both functions in every case."
 },
 {
  "property": "C73",
  "status": "proved",
  "theorems": [
   "Verif.Ihex.C73_schedule"
  ],
  "note": "Every text, every number of CPUs, every two interleavings that end."
 },
 {
  "property": "C74",
  "status": "proved",
  "theorems": [
   "Verif.A2l.Props.C74_own_text",
   "Verif.A2l.Props.C74_ahead",
   "Verif.A2l.Props.C74_exception"
  ],
  "note": "All parse functions but the one for whole files; MATRIX_DIM and FRAME_MEASUREMENT look one token ahead (C74_exception, C74_ahead)."
 },
 {
  "property": "C75",
  "status": "proved",
  "theorems": [
   "Verif.A2l.Props.C75_nothing_invented",
   "Verif.A2l.Props.C75_parallel",
   "Verif.A2l.Props.C75_own",
   "Verif.A2l.Props.C75_words",
   "Verif.A2l.Props.C75_false_error"
  ],
  "note": "All parse functions, sequential and parallel. Structs returned together with an error may hold numbers that are not in the text (C75_false_error)."
 },
 {
  "property": "C76",
  "status": "proved",
  "theorems": [
   "Verif.A2l.C76_clean_up",
   "Verif.A2l.C76_quotes_never",
   "Verif.A2l.C76_once",
   "Verif.A2l.C76_tokens",
   "Verif.A2l.C76_clean",
   "Verif.A2l.C76_document"
  ],
  "note": "Every text; unicode.IsGraphic is a parameter. Characters are those of the decoded text, the bytes of a file, UTF-8 or not, are C89."
 },
 {
  "property": "C77",
  "status": "proved",
  "theorems": [
   "Verif.Ihex.C77_ihex",
   "Verif.Ihex.C77_text",
   "Verif.Ihex.C77_same",
   "Verif.Ihex.C77_dropped",
   "Verif.Ihex.clash_or",
   "Verif.Ihex.clash_not_nodup",
   "Verif.Srec.C77_srec",
   "Verif.Srec.C77_srec_text"
  ],
  "note": "Both formats, every text, every number of CPUs, every interleaving; the characters of a text stand for its bytes."
 },
 {
  "property": "C78",
  "status": "partial",
  "theorems": [
   "Verif.A2l.Props.C78_object",
   "Verif.A2l.Props.C78_file_partial",
   "Verif.A2l.Props.C78_kinds",
   "Verif.A2l.Props.C70_false"
  ],
  "note": "All parse functions. Missing: ADDRESS_TYPE in BLOB and CONVERSION, INPUT_QUANTITY in OVERWRITE, which are never read or not kept (C32); ordinary calls that overlap (C37); one module under the conditions of C34."
 },
 {
  "property": "C79",
  "status": "partial",
  "theorems": [
   "Verif.Calib.Props.C79_walk_partial",
   "Verif.Calib.Props.C79_record_partial",
   "Verif.Calib.Props.C79_values_partial",
   "Verif.Calib.Props.C79_axis_partial",
   "Verif.Calib.Props.C79_axis_error",
   "Verif.Calib.Props.C79_false",
   "Verif.Calib.Props.C79_order_false"
  ],
  "note": "Any byte reader in place of getValue, which crashes for every data type (C40). The position is moved by bits instead of bytes (C79_false) and the fields are visited in the random order of a map (C79_order_false)."
 },
 {
  "property": "C80",
  "status": "partial",
  "theorems": [
   "Verif.A2l.Props.C80_documents",
   "Verif.A2l.Props.C80_tokens",
   "Verif.A2l.Props.C80_file_partial",
   "Verif.A2l.Props.C80_one_module_partial",
   "Verif.A2l.Props.C80_same_partial",
   "Verif.A2l.Props.C80_cpus_partial",
   "Verif.A2l.Props.C80_false"
  ],
  "note": "False: a comment that reaches from the share of one worker into the next is read as text (C80_false). Partial: the tokens are those that the workers read from their own lines (C86), which are those of the text if no item reaches over a share boundary; the result is the tree of objects (any kind, as in C78) for several modules and, under the cut conditions of C34 stated on the tree, for one module."
 },
 {
  "property": "C81",
  "status": "partial",
  "theorems": [
   "Verif.EndToEnd.C81_partial",
   "Verif.EndToEnd.C81_returns",
   "Verif.EndToEnd.C81_answers_partial",
   "Verif.EndToEnd.C81_lookup",
   "Verif.EndToEnd.C81_error",
   "Verif.EndToEnd.C81_unsupported",
   "Verif.EndToEnd.C81_false"
  ],
  "note": "False: an Intel HEX image that goes back to segment 0 before another segment loses bytes without an error (C81_false, from C02). Partial: A2L files as in C80, hex files as in C02 and C13 with the name of their format at the end; then every run that returns gives exactly the values and bytes of the files, and GetObjectByIdent answers with exactly the objects of the module. Reading a file is one step that succeeds or fails; the log file is C93."
 },
 {
  "property": "C82",
  "status": "proved",
  "theorems": [
   "Verif.Conc.HexRun.C82_ihex_safe",
   "Verif.Conc.HexRun.C82_ihex_returns",
   "Verif.Conc.HexRun.C82_ihex_terminates",
   "Verif.Conc.HexRun.C82_ihex_sequential",
   "Verif.Conc.HexRun.C82_exclusive",
   "Verif.Conc.HexRun.C82_checksums_undisturbed",
   "Verif.Conc.HexRun.C82_srec_safe",
   "Verif.Conc.HexRun.C82_srec_returns",
   "Verif.Conc.HexRun.C82_srec_terminates",
   "Verif.Conc.HexRun.C82_srec_sequential"
  ],
  "note": "Whole parseHex of both formats as one transition system: line workers, checksum workers, offset workers with their mutexes, data workers, channels, wait groups. The functions a worker computes between two channel or lock operations are single steps."
 },
 {
  "property": "C83",
  "status": "partial",
  "theorems": [
   "Verif.Conc.HexRun.C83_partial",
   "Verif.Conc.HexRun.C83_checksum",
   "Verif.Conc.HexRun.C83_srec",
   "Verif.Conc.HexRun.C83_success_ihex",
   "Verif.Conc.HexRun.C83_success_srec",
   "Verif.Conc.HexRun.C83_leak",
   "Verif.Conc.HexRun.C83_iff",
   "Verif.Conc.HexRun.C83_one_cpu",
   "Verif.Conc.HexRun.C83_false_everywhere",
   "Verif.Conc.HexRun.C83_false"
  ],
  "note": "Proved for S19. False for Intel HEX (C83_false): after a collision a data worker with a line it could not compute stays blocked in its second send. Partial: files whose segment lines give numbers; always after a checksum error; and for every text when the call returns without an error (then all goroutines have ended at the moment of the return). C83_leak: a goroutine stays behind only after a collision. C83_iff: exactly for which texts one stays behind, whatever the interleaving: the share of some worker has a data line whose segment is no number, and the shares before it give an address twice. So never on one CPU, and for some text on every other number of CPUs."
 },
 {
  "property": "C84",
  "status": "proved",
  "theorems": [
   "Verif.Conc.A2lRun.C84_safe",
   "Verif.Conc.A2lRun.C84_returns",
   "Verif.Conc.A2lRun.C84_terminates",
   "Verif.Conc.A2lRun.C84_completes",
   "Verif.Conc.A2lRun.C84_no_leak",
   "Verif.Conc.A2lRun.C84_every_result",
   "Verif.Conc.A2lRun.C84_results",
   "Verif.Conc.A2lRun.C84_two_results",
   "Verif.Conc.A2lRun.written_read"
  ],
  "note": "ParseFromFile of one call as one transition system: tokenizer goroutines, main goroutine, and at every call of parseModuleMultithreaded its workers, closing goroutine and collectors. What is computed between two channel or wait-group operations is one step. Other calls at the same time are C37."
 },
 {
  "property": "C85",
  "status": "partial",
  "theorems": [
   "Verif.Conc.Whole.C85_safe",
   "Verif.Conc.Whole.crashed_sees",
   "Verif.Conc.Whole.C85_results",
   "Verif.Conc.Whole.C85_same_memory",
   "Verif.Conc.Whole.C85_either_error",
   "Verif.Conc.Whole.C85_returns",
   "Verif.Conc.Whole.C85_terminates",
   "Verif.Conc.Whole.C85_completes",
   "Verif.Conc.Whole.C85_content_partial",
   "Verif.Conc.Whole.C85_answers_partial",
   "Verif.Conc.Whole.C85_bad_sum",
   "Verif.Conc.Whole.C85_collision",
   "Verif.EndToEnd.C81_false"
  ],
  "note": "The whole of ReadCalibration as one transition system: both readers, all goroutines of the A2L parser and of the hex parser, channels and wait groups. No panic, no deadlock, no endless run, errors reported: proved for all files. For any two files the set of results is known exactly (C85_results). The content is partial: A2L files as in C80, hex files as in C02 and C13; false in general (C81_false: bytes can be lost without an error). Reading a file is one step that succeeds or fails; the log file is C93."
 },
 {
  "property": "C86",
  "status": "proved",
  "theorems": [
   "Verif.A2l.Props.C86_tokens",
   "Verif.A2l.Props.C86_reading_unique",
   "Verif.A2l.Props.C86_total",
   "Verif.A2l.Props.C86_cut",
   "Verif.A2l.Props.C86_words"
  ],
  "note": "Every text, well-formed or not; the lines of the workers and the clean-up of C76 are stated in full. unicode.IsGraphic is a parameter; strings.Fields is modelled as cutting at the white space of unicode.IsSpace."
 },
 {
  "property": "C87",
  "status": "partial",
  "theorems": [
   "Verif.Calib.Props.C87_linear_partial",
   "Verif.Calib.Props.C87_exact_partial",
   "Verif.Calib.Props.C87_integers_partial",
   "Verif.Calib.Props.C87_error_partial",
   "Verif.Calib.Props.C87_bytes_partial",
   "Verif.Calib.Props.C87_table",
   "Verif.Calib.Props.C87_fused",
   "Verif.Calib.Props.C87_refines_partial",
   "Verif.Calib.Props.C87_raw",
   "Verif.Calib.Props.C87_bits64",
   "Verif.Calib.Props.C87_bits32",
   "Verif.Calib.Props.C87_special",
   "Verif.Calib.Props.C87_infinite",
   "Verif.Calib.Props.pow2_rounds",
   "Verif.Calib.Props.C87_ratfunc_partial",
   "Verif.Calib.Props.C87_ratfunc_refused",
   "Verif.Calib.Props.C87_ratfunc_nan",
   "Verif.Calib.Props.C87_false",
   "Verif.Calib.Props.C87_processor_false",
   "Verif.Calib.Props.C87_overflow_false",
   "Verif.Calib.Props.add_rounds",
   "Verif.Calib.Props.sub_rounds",
   "Verif.Calib.Props.mul_rounds",
   "Verif.Calib.Props.div_rounds",
   "Verif.Calib.Props.sqrt_rounds",
   "Verif.Calib.Props.rounds_unique"
  ],
  "note": "False: product and sum are rounded separately, so cancellation can lose the value altogether (C87_false); a compiler that fuses them delivers another value (C87_processor_false); overflow is delivered as infinity without an error (C87_overflow_false); RAT_FUNC returns NaN as a value (C87_ratfunc_nan). Partial: the two roundings of LINEAR and their errors, exactness when nothing is rounded, integers up to 2^53; the raw value of every data type (C87_raw); tables for all entries; every method, RAT_FUNC too, agrees with the exact model when no step has to be rounded (C87_refines_partial); infinite raw values (C87_infinite). a finite non-zero value of RAT_FUNC is the formula of the code with every step rounded to the nearest float64 (C87_ratfunc_partial). Missing: a bound for the sum of the rounding errors of RAT_FUNC. The rounding of the coefficients of the file is C88."
 },
 {
  "property": "C88",
  "status": "partial",
  "theorems": [
   "Verif.Calib.Props.C88_partial",
   "Verif.Calib.Props.C88_nearest",
   "Verif.Calib.Props.C88_exact",
   "Verif.Calib.Props.C88_named",
   "Verif.Calib.Props.C88_syntax",
   "Verif.Calib.Props.C88_false",
   "Verif.Calib.Props.C88_exponent_false",
   "Verif.Link.C88_accepted",
   "Verif.Link.C88_method",
   "Verif.Link.C88_linear",
   "Verif.Link.C88_table"
  ],
  "note": "False: NaN, infinities, hexadecimal numbers and numbers with underscores are accepted as well (C88_false; C88_syntax says exactly what is refused for its form). Partial: every number is read as the nearest float64 or refused because it is too large, if its exponent is less than 100000 or it has fewer than 2000 other digits (otherwise false, C88_exponent_false); LINEAR, RAT_FUNC and TAB_NOINTP from the text of the file to the float64. strconv.ParseFloat is modelled after its documentation and the grammar of the language, its sources are not at hand."
 },
 {
  "property": "C89",
  "status": "partial",
  "theorems": [
   "Verif.A2l.Bytes.C89_seen",
   "Verif.A2l.Bytes.C89_bytes",
   "Verif.A2l.Bytes.C89_utf8",
   "Verif.A2l.Bytes.C89_codepage",
   "Verif.A2l.Bytes.C89_partial",
   "Verif.A2l.Bytes.C89_false",
   "Verif.A2l.Bytes.C89_utf16"
  ],
  "note": "False: a file in Latin-1 is accepted and its strings are not UTF-8 (C89_false); every ASCII text in UTF-16 with a byte order mark is accepted without an error as an empty file (C89_utf16). Proved: the tokens of any bytes on any number of CPUs (C89_bytes), UTF-8 (C89_utf8, C89_partial), code pages (C89_codepage). strings.TrimFunc, strings.Fields and regexp are modelled on the runes that Go sees in a string; TrimRightFunc decodes from the right (DecodeLastRune is modelled and proved to find the same runes, decodeLast_seen)."
 },
 {
  "property": "C90",
  "status": "partial",
  "theorems": [
   "Verif.Conc.Race.Hex.C90_ihex",
   "Verif.Conc.Race.Hex.C90_s19",
   "Verif.Conc.Race.Hex.C90_mutex_needed",
   "Verif.Conc.Race.Hex.C90_wait_needed",
   "Verif.Conc.Race.A2l.C90_a2l",
   "Verif.Conc.Race.A2l.C90_atomic_needed",
   "Verif.Conc.Race.A2l.C90_collectors_needed",
   "Verif.Conc.Race.A2l.C90_fields_needed",
   "Verif.Conc.Race.A2l.C90_overlap_false",
   "Verif.Conc.Race.All.C90_call",
   "Verif.Conc.Race.All.C90_logger_needed",
   "Verif.Conc.Race.All.C90_join_needed",
   "Verif.Conc.Race.All.C90_hex_overlap",
   "Verif.Conc.Race.All.C90_calls_overlap_false"
  ],
  "note": "Proved for one call of each parser and for one call of ReadCalibration with everything it starts and the use of its result (happens-before of the Go memory model over the transition systems of C82, C84 and C85, each step with its accesses to shared memory), and for two hex parsers at the same time. False for two calls of the A2L parser at the same time: they always race, on the package variable tokenList (C90_overlap_false); and for two calls of ReadCalibration: they race on the global logger (C90_calls_overlap_false). Which memory a step accesses is part of the model and read off the code; memory that only one goroutine uses is left out."
 },
 {
  "property": "C91",
  "status": "partial",
  "theorems": [
   "Verif.Conc.Whole.C91_success_ihex",
   "Verif.Conc.A2lRun.C84_no_leak",
   "Verif.Conc.Whole.C91_srec",
   "Verif.Conc.Whole.C91_partial",
   "Verif.Conc.Whole.C91_leak",
   "Verif.Conc.Whole.C91_iff",
   "Verif.Conc.Whole.C91_one_cpu",
   "Verif.Conc.Whole.C91_false_everywhere",
   "Verif.Conc.Whole.C91_false"
  ],
  "note": "False (C91_false): with any A2L file and an Intel HEX file that gives two values to one address and has a segment line with a letter that is no digit, a call can come to its end and leave a goroutine blocked for ever (C91_leak). Partial: every call that returns without an error, every call with an S19 file, every call whose Intel HEX file does not give two values to one address. C91_iff: exactly with which Intel HEX texts a goroutine is left, whatever the A2L file and the interleaving (those of C83_iff); never on one CPU, with some text on every other number of CPUs."
 },
 {
  "property": "C92",
  "status": "partial",
  "theorems": [
   "Verif.A2l.Props.C92_partial",
   "Verif.A2l.Props.C92_only",
   "Verif.A2l.Props.C92_error",
   "Verif.A2l.Props.C92_succeeds",
   "Verif.A2l.Props.C92_typed",
   "Verif.A2l.Props.C92_lost",
   "Verif.A2l.Props.C92_false",
   "Verif.A2l.Props.C92_nan_false"
  ],
  "note": "False: fields that are not exported are left out, so that measurements, axes, functions, groups and the version of the file become empty maps (C92_lost, C92_false), and NaN or an infinite number in an exported field makes the conversion fail (C92_nan_false). Partial: everything that can be reached by exported fields is there with its value (C92_partial), nothing else is there (C92_only), and it fails exactly if an exported number is not finite (C92_error), never if no word of the file is such a number (C92_succeeds). encoding/json is modelled after its documentation."
 },
 {
  "property": "C93",
  "status": "partial",
  "theorems": [
   "Verif.Conc.Whole.Log.C93_untouched",
   "Verif.Conc.Whole.Log.C93_partial",
   "Verif.Conc.Whole.Log.C93_iff",
   "Verif.Conc.Whole.Log.C93_no_log",
   "Verif.Conc.Whole.Log.C93_overwritten",
   "Verif.Conc.Whole.Log.C93_emptied",
   "Verif.Conc.Whole.Log.C93_false"
  ],
  "note": "False (C93_false): the log file is created, and so emptied, before the files are read; if one of the two paths denotes it, that file is lost (C93_emptied, C93_overwritten). Without a log file nothing is read at all (C93_no_log). Partial: the log file can be created and is neither of the two files; then the results are exactly those of C85 for the files before the call. This condition is also necessary, whatever the files are (C93_iff). No other file is ever changed (C93_untouched). What is written to the log is any text at any time; both files are seen at one moment after the log was created."
 },
 {
  "property": "C94",
  "status": "partial",
  "theorems": [
   "Verif.A2l.Props.C94_iff",
   "Verif.A2l.Props.C94_false"
  ],
  "note": "False: every run of white space in a string (several spaces, tabs, line ends, no-break spaces) becomes one space. Exact (C94_iff): a string without backslashes is delivered as it stands just if its only white space is single spaces, whatever stands before and behind it. Backslashes are C26 and C76."
 },
 {
  "property": "C95",
  "status": "partial",
  "theorems": [
   "Verif.A2l.Props.C95_seq_partial",
   "Verif.A2l.Props.C95_prefix",
   "Verif.A2l.Props.C95_irregular",
   "Verif.A2l.Props.C95_iff",
   "Verif.A2l.Props.C95_empty",
   "Verif.A2l.Props.C95_false"
  ],
  "note": "False: every block may be closed after any number of its mandatory parameters and is accepted, only the markers (not exported) tell (C95_prefix, C95_irregular); an empty block is accepted by all block functions (C95_empty). Exact for the 171 regular functions (C95_iff): it holds just for the objects without /begin and /end and for blocks without mandatory parameters."
 },
 {
  "property": "C96",
  "status": "partial",
  "theorems": [
   "Verif.A2l.Props.C96_surplus",
   "Verif.A2l.Props.C96_irregular",
   "Verif.A2l.Props.C96_tables",
   "Verif.A2l.Props.C96_seq_partial",
   "Verif.A2l.Props.C96_list_partial",
   "Verif.A2l.Props.C96_text_partial",
   "Verif.A2l.Props.C96_false"
  ],
  "note": "False of every block without a list or free text (C96_surplus): any words behind the last parameter that are no keywords are skipped without an error, and the values are those without them. Partial: objects without /begin and /end take exactly their parameters (C96_seq_partial); in a block with a list every word behind the parameters is a member (C96_list_partial); in a block with free text the text is made of all words behind the parameters, each behind one space (C96_text_partial). Functions with a body of their own: false of the three conversion tables behind the declared rows (C96_tables), of BLOB, OVERWRITE, PROJECT, MEMORY_LAYOUT, MEMORY_SEGMENT and VARIANT_CODING once they are complete (C96_irregular), and of MEASUREMENT, TYPEDEF_MEASUREMENT, UNIT, FRAME and MATRIX_DIM, where each further word replaces the one before (C32); it holds for VAR_FORBIDDEN_COMB (C32_var_forbidden_comb)."
 },
 {
  "property": "C97",
  "status": "partial",
  "theorems": [
   "Verif.A2l.Props.C97_sites",
   "Verif.A2l.Props.C97_block",
   "Verif.A2l.Props.C97_seq",
   "Verif.A2l.Props.C97_text_partial",
   "Verif.A2l.Props.C97_false"
  ],
  "note": "False: a hexadecimal number sets the error at every place of every parse function where an integer is read (C97_sites), and no call of a regular function accepts an object with one, whatever the other words are (C97_block, C97_seq). Partial: parameters that are kept as text, such as the address of ECU_ADDRESS, are stored as they stand (C97_text_partial); their value is C41."
 },
 {
  "property": "C98",
  "status": "proved",
  "theorems": [
   "Verif.A2l.Props.C98_call",
   "Verif.A2l.Props.C98_file",
   "Verif.A2l.Props.C98_text",
   "Verif.A2l.Props.C98_depth"
  ],
  "note": "Counted are the statements of the model, one for each statement and each test of a condition in the Go code; the cost of a single statement (copying strings, the map operations) and the multithreaded module parser are not counted."
 },
 {
  "property": "C99",
  "status": "proved",
  "theorems": [
   "Verif.Conc.HexRun.C99_ihex",
   "Verif.Conc.HexRun.C99_srec"
  ],
  "note": "Steps of the transition system of C82. The computation of a worker between two channel or lock operations is one step; its length is not counted."
 }
]