#!/usr/bin/env python3
"""Source of the claims; writes tools/claims.json."""
import json, pathlib
C = []
def claim(p, status, ns, theorems, note):
    C.append(dict(property=p, status=status, theorems=[f"{ns}.{t}" if ns and not t.startswith("Verif.") else t for t in theorems.split()], note=note))
I, S = "Verif.Ihex", "Verif.Srec"
claim("C01", "partial", I, "C01_offsets_partial C01_parseHex_partial C01_terminates C01_exact C01_schedule C01_iff C01_tight C01_false_everywhere C01_false",
  "Full statement C01_full is false (an explicit segment 0000 followed by data makes the other workers stop early). Partial: no such segment line is followed by data of another segment; any interleaving, any CPU count. Termination for every fair schedule. C01_exact gives the records for every list and every start position, also where the property fails; C01_iff says exactly when it holds, C01_tight that the hypothesis of the partial theorem is necessary.")
claim("C02", "partial", I, "C02_roundtrip_partial C02_iff C02_returns C02_false_everywhere C02_false",
  "Full statement C02_full is false because C01 is. Partial: images whose blocks in an explicitly selected segment 0 come last. C02_iff says exactly which images are read back.")
claim("C03", "proved", I, "C03_checksum C03_success C03_reported C03_recognised", "Every file, CPU count, interleaving: checksum error iff a recognised line has a bad sum.")
claim("C04", "partial", I, "C04_corruption_partial C04_iff C04_false", "Full statement C04_full is false: changing the type byte to 04 of a record of other length makes the line unreadable and silently dropped. Partial: any byte pair of a reached record such that the changed line stays readable, and only then is the checksum error reported (C04_iff).")
claim("C05", "partial", I, "C05_collision C05_file_partial C05_exact C05_iff C05_one_cpu C05_every_cpu C05_missed C05_spurious C05_false", "The full file-level statement (C05_full) is false in both directions (C05_missed: an address given twice is accepted, C05_spurious: a file with distinct addresses is rejected, C05_false). Collection step proved for every list of records (C05_collision). File level needs the segment hypothesis of C01; C05_exact gives success and content for every well-formed file and CPU count without it, C05_iff and C05_every_cpu say exactly when they are right (one CPU is the worst case, C05_one_cpu).")
claim("C06", "proved", I, "C06_no_panic C06_parseRecord", "Every text, CPU count and interleaving.")
claim("C07", "partial", I, "C07_no_loss_partial C07_lost C07_false_everywhere C07_false", "Full statement C07_full is false on every CPU count: an unreadable line drops the rest of the worker's share silently; what stands there has no influence at all (C07_lost). Partial: the lines that are not behind an unreadable one, segment lines well formed.")
claim("C08", "partial", I, "C08_cpu_count_partial C08_exact C08_false Verif.Hex.C08_false_everywhere C08_false_wellFormed", "Full statement C08_full is false for every two different CPU counts. Partial: files without unreadable lines and without explicit segment 0 before other data; C08_exact says for which well-formed files two CPU counts agree.")
claim("C09", "proved", I, "C09_ihex C09_ihex_lines Verif.Srec.C09_srec", "Both formats.")
claim("C10", "proved", I, "C10_wrap", "Addresses inside a record wrap within the 64 KiB segment.")
claim("C11", "partial", I, "C11_table C11_file_partial C11_file_false Verif.Srec.C11_srec_upper_partial Verif.Srec.C11_srec_false Verif.Srec.C11_srec_lower_loses",
  "Digit table: proved for every string. Whole files: conversion of a well-formed file keeps the Intel HEX result; false in general because mixed-case bytes are not accepted; a lower-cased S19 file is accepted as empty.")
claim("C12", "partial", I, "C12_ihex_partial C12_ihex_everywhere C12_ihex_false Verif.Srec.C12_srec_partial Verif.Srec.C12_srec_everywhere Verif.Srec.C12_srec_false", "False in both formats: the count is only summed, never compared. In every file the count of every line can be changed to any other, with the checksum for it, without any effect (C12_ihex_everywhere, C12_srec_everywhere). Partial: a change of the count alone is detected.")
claim("C13", "proved", S, "C13_roundtrip C13_text encode_no_newline", "Every image that fits S3 records, letter case, CPU count; also as file text with either line terminator.")
claim("C14", "proved", S, "C14_checksum C14_success C14_corruption C14_short_line_undetected", "S3 records with all fields; the corrupted record is a recognised one (a worker reads up to its first unreadable line, C17). C14_short_line_undetected documents a 12-character line (not a complete S3 record) whose checksum position overlaps the address.")
claim("C15", "proved", S, "C15_collision C15_file", "")
claim("C16", "proved", S, "C16_no_panic C16_parseRecord", "")
claim("C17", "partial", S, "C17_partial C17_empty_header_partial recognised_tail C17_exact C17_iff C17_one_cpu C17_false_everywhere C17_false", "Full statement C17_full is false on every CPU count and for every non-empty header text: the first worker stops at the S0 line. Partial: header line shorter than 11 characters. C17_exact: what is read of a standard file with a header text on n CPUs is the data of all blocks but those in the share of the header line; C17_iff: right just if these blocks carry no bytes; on one CPU nothing is read.")
claim("C18", "partial", S, "C18_formats_agree_partial C18_iff C18_false", "False because C02 is; partial under C02's hypothesis; C18_iff says exactly when the formats agree.")
claim("C51", "partial", S, "C51_partial Verif.Hex.C51_false_everywhere C51_false", "False for every two different CPU counts (S0 line in the first share). Partial: files without unreadable lines.")
exec(open(pathlib.Path(__file__).with_name("claims_more.py")).read()) if pathlib.Path(__file__).with_name("claims_more.py").exists() else None
C.sort(key=lambda c: c["property"])
json.dump(C, open(pathlib.Path(__file__).with_name("claims.json"), "w"), indent=1)
