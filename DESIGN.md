# Design: a Lean 4 model of calibrationReader

The Go sources in `/repo` were read as text; nothing of them was run. The model
lives in `lean/Verif/`, one directory per Go package, and every model definition
cites the file and lines it models.

## 1. Trusted base

* The Lean 4.33 kernel, plus the three standard axioms `propext`,
  `Classical.choice`, `Quot.sound`. No own axioms, no `sorry`, no
  `native_decide`, no `bv_decide`. `lean/Verif/Axioms.lean` prints the axioms of
  every property theorem during the build.
* The reading of the Go code: the tie between a Lean definition and the Go
  function is the citation next to it. Exception: the 192 A2L parse functions, 17 enum
  parsers and the token constants (`A2l/{Tokens,PNames,Parsers,BlockSpec}.lean`) are
  translated line by line by `tools/go2lean.py`, which stops at any line it does not know;
  that script is trusted for the translation. The declared shapes (`A2l/Decls.lean`, part of the
  specification of C31/C32) are derived from the Go struct declarations by `tools/decls.py`;
  the keywords of the objects and the constants of the enumerations (`A2l/KwSpec.lean`, specification of
  C57 to C59) from the names of the parse functions and the const declarations by `tools/keywords.py`.
* `Calib/Link.lean` reads the records of the evaluation model off the structs of the parser model, field by
  field; the names of the Go fields in it are trusted like the citations.
* Go semantics that the model assumes: a Go `string` is a finite byte sequence
  (modelled as `List Char`, one `Char` per byte for the hex parsers, one `Char`
  per rune for the A2L tokenizer); slicing/indexing out of range panics; integer
  arithmetic of `uint8/16/32` wraps; `sync.Mutex`, `sync.WaitGroup` and channels
  behave as the Go memory model says (a lock-protected block is one atomic
  step; a channel is a bounded FIFO; `range` over a channel ends when the
  channel is closed and empty); maps are finite partial functions.
* Library functions taken as given and modelled directly from their
  documentation: `strings.Split/Fields/Contains/ToLower`, `encoding/hex.DecodeString`,
  `encoding/binary`, `encoding/json` (C92), `strconv.ParseUint/ParseInt`. `strconv.ParseFloat` is a
  *parameter*. float64 arithmetic is exact rational arithmetic in `Calib/Model.lean` and rounded in `Calib/Float64.lean` (C87).
* Not modelled: the text of log messages, memory exhaustion, `runtime.NumCPU` (an arbitrary number >= 1). The file system is
  modelled in C93 only (a file is its content or a read error elsewhere). Of the code itself: the formatting set up in
  `configureLogger`, `computeValues` (empty).

## 2. How concurrency is modelled

* Fan-out/collect (one private channel per worker, drained in worker order):
  `Verif/Conc/Pipeline.lean`, a transition system whose steps are worker send,
  worker close, collector receive, collector advance. Proved: invariant, no
  deadlock, every step decreases a measure, final result is the in-order
  concatenation. This justifies that the parsers' model is a function.
* `addOffsets` (Intel HEX): workers share the records; each lock-protected loop
  body is one atomic step; any interleaving, any starting positions. `Conc/Locks.lean`
  has `Lock`, read, store and `Unlock` as steps of their own and proves that the atomic
  model is right, that two workers never are in the same critical section and that the
  unlocked readers (checksum workers) never read what is written.
* `parseHex` of both formats as one program: `Conc/HexRun.lean` puts the pipelines, the
  checksum fan-in and the offset workers together as they are in the code, including
  goroutines that go on after an early return. Computation between two channel or lock
  operations is one step.
* `ParseFromFile` of the A2L parser as one program: `Conc/A2lRun.lean`. The main goroutine
  is represented by the answers of `parseModuleMultithreaded` so far; it is at a call at
  index `i` if the parse panics as soon as that call panics. That there is at most one such
  index, and one exactly if the parse cannot end yet, is proved for all parse functions
  (`A2l/Oracle.lean`), so the model of the parse functions needs no continuations.
* `ReadCalibration` with everything it starts: `Conc/Whole.lean` composes the three systems
  above with the readers of `Conc/ReadCal.lean`.
* Memory: `Conc/Race.lean` and `Conc/Race*.lean` give every step of `HexRun`, `A2lRun` and `Whole` the list of its accesses to
  memory that more than one goroutine uses, in program order and directly before the channel, lock or wait-group operation
  of the step, and prove that there are no data races (C90). What goroutine uses which memory is read off the code; it is
  over-approximated where it depends on the data (for instance every worker reads the logger, every parse function reads all
  characters of all tokens). So the other theorems, which treat computation between two such operations as one step, do not
  depend on the order of accesses inside such steps.
* Checksum fan-in: workers with a shared bounded channel.
* `ReadCalibration`: two goroutines, three channels, a wait group.
* Multithreaded module parsing: workers, typed channels, collectors.

## 3. Plan per property

| id | modelled | proof | expected verdict |
|----|----------|-------|------------------|
| C01 | `addOffsets` as a transition system over shared records; `Ihex/ExactSpec.lean` says what arrives, without workers | invariants over steps (`OffInv`, `XInv`) | false in general (segment `0000` re-selected: worker stops early); partial when no `0000` segment line is followed by data; exact result for every list (`C01_exact`), necessary and sufficient conditions (`C01_iff`, `C01_tight`) |
| C02 | whole Intel HEX parse as function of text, CPU count and addOffsets result | round trip by induction; `Ihex/IffProps.lean` compares what is stored (C05) with what the file means | partial (same exclusion as C01); `C02_iff` is the exact criterion |
| C03 | record parsing, checksum validation, fan-in | case analysis + induction over records | proved |
| C04 | as C03 | sum argument mod 256; an unreadable line only takes lines away | false when the change makes the line unreadable (it is dropped silently); partial otherwise; `C04_iff`: reported just if the changed line is readable |
| C05 | data collection loop with duplicate check | induction | collection step proved; file level false in both directions (`C05_missed`, `C05_spurious`, `C05_false`), partial with the segment hypothesis of C01, exact without it (`C05_exact`); a consistent file is read rightly just if every line with data is stored where it belongs (`C05_iff`), on every number of CPUs just if no data of a selected segment 0 stands before data of another segment (`C05_every_cpu`) |
| C06 | every slice/index/decode explicit as possibly panicking | invariants on field lengths | proved |
| C07 | per-worker parse loop stopping at the first bad line | witness + partial theorem; C77 for the lost lines | false; partial: holds if every long line parses; `C07_lost`: what stands behind an unreadable line in the share of a worker has no influence |
| C08 | as C07 and C01 | witness + partial theorem | false, also for well-formed texts (`C08_false_wellFormed`); and for every two different CPU counts (`C08_false_everywhere`); partial: well-formed texts with the hypothesis of C01; exact condition `C08_exact` |
| C09 | `strings.Split` on CRLF then LF | induction over text | proved |
| C10 | address computation on 16 bit words | arithmetic | proved |
| C11 | digit table | whole-table decision lifted by a lemma | false for mixed-case bytes and for S19 prefixes; partial otherwise |
| C12 | record parse without count check | witness; C77 for the general statement | false (both formats); partial; `C12_ihex_everywhere`, `C12_srec_everywhere`: in every file the count of every line can be replaced by any other (with the checksum for it) without effect. Not covered: Intel HEX segment lines shorter than their two bytes, whose checksum is read as part of the segment |
| C13 | S19 parse | round trip | proved |
| C14 | S19 checksum | as C03/C04 | proved |
| C15 | S19 collection | as C05 | proved |
| C16 | S19 partial operations | as C06 | proved |
| C17 | S19 parse loop on S0/S7 lines | witness + partial; `Srec/HeaderIff.lean`: the shares of a standard file computed for every CPU count (`hidden`) | false; partial: header shorter than 11 characters; exact loss known: the blocks in the share of the header line (`C17_exact`, `C17_iff`), everything on one CPU |
| C18 | both parsers | from C02 and C13 | partial (segment 0 exclusion); exactly when they agree: `C18_iff` |
| C19 | generic pipeline transition system | invariant + progress + measure | proved |
| C20 | fan-in transition system | invariant + progress + measure | proved |
| C21 | ReadCalibration transition system | invariant + progress | proved |
| C22 | same | witness | false; partial: one of the two errors; exactly: right iff the readers do not fail with different errors |
| C23 | path dispatch | witness + partial; `Conc/FormatIff.lean` | false (substring of the whole path); partial; the paths with the right format are known exactly (`C23_iff`) |
| C24 | tokenizer with chunking, refined to an automaton | witness + partial | false; partial: every share (or every line) a document of its own; for any text: nothing open at the end of each share but the last (`C24_any_partial`); for every two numbers of workers there is a text that they cut differently (`C24_false_everywhere`) |
| C25 | comment skipping | automaton run over document items | false for `/*/`, banners, glued comments; partial: separated comments |
| C26 | quoted strings, `cleanString` | automaton run over document items | false for backslashes; partial: any content without backslash |
| C27 | tokenizer error path; `A2l/TokLost.lean` | witness + partial; `C27_iff`: in a text without comments no word is lost just if no worker stops early (reading of C86); `C27_lost`: whatever a worker has behind a stray slash word has no influence, on any number of workers | false: a stray slash drops the rest of the share; exact for texts without comments |
| C28 | parse functions as terms of a statement language, translated line by line; interpreter with loop and depth bounds | abstract interpretation proved sound once, evaluated on all 192 functions; bounds shown irrelevant | proved |
| C29 | same | same | false for FRAME; partial: all other blocks |
| C30 | same | same | false for FRAME; partial: all other blocks |
| C31 | parse functions against the declared structs: `tools/decls.py` derives positional parameters, list, optional parts of every object from its Go struct (not from its parse function); relational grammar `Decl.Text` | `body p = template (shape p)` for 171 functions; soundness and completeness of templates by induction | false for BIT_OPERATION; partial: the 171, the three conversion tables, ten irregular blocks (`A2l/Loose*.lean`: an exact description `Spec` of what such a block really consists of, with a theorem in both directions), FRAME, MATRIX_DIM, and BIT_OPERATION when no part follows (`A2l/Odd*.lean`: the same by single rounds) |
| C32 | same | same | false for nine functions (witnesses, and statements over all texts of what is lost); partial: the 171, both directions; parameters of the irregular blocks up to the faulty one; BIT_OPERATION, FRAME_MEASUREMENT, GUARD_RAILS, SYMBOL_TYPE_LINK entirely; all 22 irregular functions described exactly |
| C33 | strconv on decimal digits, Go casts | table check of all 103 call sites lifted by a lemma | proved |
| C34 | `parseModule` and `parseModuleMultithreaded` (header, shares, workers, channels, collectors) against a scan relation that lists the objects of a module (`A2l/ModSpec.lean`) | both shown to return exactly the scanned objects | false (three witnesses, and for every number of workers from two on a module of which every schedule loses an object, `C34_false_everywhere`); partial: cuts between objects, unique names, for modules and whole files; exactly, for every accepted module and all cuts (`C34_iff`): the relation `Share` says what a worker reads of its piece, which can begin inside an object; all schedules give the sequential result just if no worker gives up, what each worker finds last under a name is the last one in the file, and every name of the file is found by some worker; `C34_file_iff` (`A2l/ModFile.lean`): the same criterion for the result of a whole file with one module |
| C35 | workers, 27 buffered channels, closing goroutine and collectors as a transition system (`Conc/Collect.lean`) | invariant, progress, measure; content of the channels identified with what the workers sent | proved |
| C36 | map inserts in receive order | induction over the scan; witness with two workers | false multithreaded; partial: sequential, or all definitions with one worker; exactly: what can be found under a name, over all schedules, is the last definition in the share of some worker (`C36_exact`), so the claim holds for a name just if these all agree with the last one in the file (`C36_iff`); `C36_pieces` is the same for arbitrary modules and cuts, in terms of `Share`, and says when an error is reported |
| C37 | shared token list, module counter and flag; calls cut into steps at the shared accesses (`A2l/Shared.lean`; one worker's collection and `parseA2l` are atomic, real runs have more interleavings) | run lemma for an undisturbed call; mix-up schedule for any two files | false for every worker count; partial: calls that do not overlap |
| C38 | lookup function | case analysis; witness for empty database | false (crash without modules); partial, crash characterised |
| C39 | alignment arithmetic | witness + exact criterion | false; partial |
| C40 | getBytes | witness + partial | false (crashes for any positive length) |
| C41 | address decoding | round trip; exact result for every string (`C41_exact`) | partial (short strings crash) |
| C42 | value decoding incl. rounding to float64 | arithmetic | false for word, long, float16 and large 64-bit values; partial for the rest; `C42_exact`: the result for every data type and every byte slice |
| C43 | range tables | witness + partial | false; exactly: right iff the value lies in no row or its row has the default text |
| C44 | table lookup | induction | false for empty verbal tables with default, exactly (C44_iff); partial for the rest |
| C45 | formula over exact rationals, square root as parameter | algebra, witnesses; `Calib/RatExact.lean`: exact criterion | false for RAT_FUNC except where `C45_exact` says; linear and identical right |
| C46 | 41-field position map | induction over the field list | proved |
| C47 | type lookup | finite table + lemma | false for "Reserved"; partial for the other 40 |
| C48 | table parsers | invariant over the loop; exact content of every table | false (declared count not enforced, 0 declares any number); partial |
| C49 | constant lookup; `Calib/LinkConst.lean`: the constants of the last MOD_PAR as they stand in the text | witness; parts of a block (C65) | false (value always empty, so right iff the value is empty or missing); partial: error cases, and the constant itself from the text |
| C50 | finite tables | decision | false (word types report 32) ; partial |
| C51 | S19 parse with two CPU counts | equality of the recognised lines + witness (S0 line at the front) for every two CPU counts (`Srec/CpuProps.lean`) | false (an unreadable line ends a share); partial: files without unreadable lines |
| C52 | getValuesFromHex and the field readers, map iteration order as a parameter | witness + exact behaviour | false (nothing is read); partial |
| C53 | TAB_INTP branch | witness | false (0 without error); partial |
| C54 | getReserved | witness | false (bits instead of bytes); partial |
| C55 | `ParseFromFile` from text to result: tokenizer, module counter, choice of the module parser, `parseA2l`, `parseProject` (`A2l/File.lean`) | sequential parser shown to list the modules and scan each one; the parallel parser shown to reject any module after the first | proved |
| C56 | `parseA2l`, `parseProject` against the relation `Top` | both directions by induction over the loop | false (no project needed, words accepted, earlier projects lost); partial: exact description |
| C57 | enum parsers and their uses in all regular parse functions, against the const declarations | whole-table decision lifted by a lemma, then C32; provenance of a field by induction over the items | false (PLONGLONG, ALTERNATE_*, ADDRESS_TYPE, ENCODING); partial: everything else |
| C58 | all parse functions, run with a check before every call | abstract interpretation proved sound once, evaluated on all functions | false for VAR_SEPARATOR in VARIANT_CODING; partial: all other calls |
| C59 | `keywordMap` against the keywords of the objects | whole-table decision, then C31 | false for five words; partial: all others |
| C60 | both hex parsers on a file and on its first `k` lines (`Ihex/Props3.lean`, `Srec/Props2.lean`) | C05/C15 and the bytes of a prefix | false (a cut file is always accepted); partial: never a wrong byte |
| C61 | Intel HEX parser with and without the type 01 record | C05 on both files | false (the record has no effect); partial: no data follows; exactly then (`C61_iff`, `Ihex/JoinIff.lean`, under the hypothesis of C01) |
| C62 | both parsers against a specification with type 02 | C05, witness | false (02 ignored, S1/S2 dropped); partial: files without them; `C62_srec_lost`: nothing behind such a line in the share of a worker matters |
| C63 | both parsers on permuted and concatenated files | permutation of the bytes | S19 proved; Intel HEX order under the hypothesis of C01, joining false if the segment carries over; exactly (`C63_ihex_join_iff`, `Ihex/JoinIff.lean`, under the hypothesis of C01): right just if no address is in both and the first file ends in segment 0 or the second has no data before its first segment line |
| C64 | all regular parse functions through the template, markers included | induction over the items of a block | false for lists (empty list marked as set); partial: positional parameters |
| C65 | as C64, optional parts with their positions | induction over the items, table of all shapes checked | proved for the 171 regular functions, all irregular ones (`A2l/PartsOdd.lean`, `A2l/PartsRest.lean`), tables and files; false of modules read by several workers (C34) |
| C66 | `Calib/Link.lean`: the structs filled by the parser as the root package sees them; `GetObjectByIdent` on them | composition of C56 and the lookup | false (a file without module is accepted, the lookup panics); partial: files with the module in use |
| C67 | `Calib/LinkTab.lean`: texts of the three conversion tables, parsed with the model of `a2l`, looked up by the model of the root package | composition of C48, C56, C66 and the conversion | false for COMPU_VTAB_RANGE (a range is never found; short tables crash); partial: COMPU_VTAB, COMPU_TAB |
| C68 | `Calib/LinkConv.lean`, `A2l/Flat.lean`: texts of conversion methods, parsed with the model of `a2l`, evaluated by the model of the root package | composition of C65, C56 and C45 | false for RAT_FUNC (linear functions are rejected); partial: all other methods, exact results for every method, and when RAT_FUNC is right (`Calib/LinkRat.lean`) |
| C69 | `Calib/LinkLayout.lean`: texts of MOD_COMMON and RECORD_LAYOUT, parsed with the model of `a2l`, used by the model of the root package | composition of C65, C64, C56 with C39, C41, C42, C46, C47, C52 | false for NO_RESCALE_X (data type not read); partial: everything else, without assumptions on the parsed objects |
| C70 | `A2l/Print.lean`: a tree of objects, its words (`written`), its structs (`Node.value`) and what may be written (`Legal`), with only the declarations of `Decls.lean`; `A2l/PrintFile.lean`: the file | `legal_read` by induction over `Legal`, inside it induction over the parts (`items_nodes`); `body_eq`, C32, C56, C24, C55 | false for MEASUREMENT (a part of an irregular function); partial: everything built from the 171 regular functions (the others: C78); for one module under the conditions of C34 |
| C71 | `A2l/PrintOrder.lean`: `Reordered`, on top of the tree of C70; `A2l/PrintOrderAll.lean`: `Rearranged`, at any depth and for every kind of object | permutations of the parts give permutations of what belongs to a field; a map only looks at the last entry of a name; induction over the rearrangement | false for two parts with one name; partial: one part per name; files with at least two modules |
| C72 | `Calib/FncValues.lean`: both functions | the crash of `getBytes` (C40), the loop of the axis points | false; partial: the result in every case, also with a byte reader that works (`C72_reader_partial`); what `getFncValues` does for each address type (`C72_address_types`) |
| C73 | as C01 | `C01_exact`: the records at the end are a function of the records at the start | proved |
| C74 | as C28 (`Lang`, `Run`) | two token lists that agree in a window, path analysis of every parse function: one that leaves the window cannot come back without error (`Local.lean`) | proved; the two functions with look-ahead are named |
| C75 | as C28 and C34 | path analysis of every parse function: a buffer is stored only after a conversion without error, in the same width (`Origin.lean`); workers send only what was parsed without error | proved |
| C76 | `deleteEscapes`, `cleanString` | relations `Unescaped` and `Trimmed` that say what is left out; uniqueness of the trimmed text | proved |
| C77 | all of `ihex32`, all of `srec19` | text-level specification `textBytes` (what any line says, which upper half is used for it), `Clash`; from C01_exact and the total form of `parseHex` | proved |
| C78 | `A2l/PrintOdd.lean`, `PrintOdd2.lean`: `OddKind` (words and struct of each kind with a parser of its own), `tableFields`; `A2l/PrintOddProps.lean`: `Whole`, everything that can be written | every kind is `Legal` (so C70 applies to it), from the exact results of C32; induction over `Whole`; `C78_kinds`: no parse function is left out | partial: all but the three parts that are never read or not kept; files with several modules |
| C79 | `Calib/Walk.lean`, `Calib/Record.lean`: the loop of `getValuesFromHex` and the readers it calls, with the byte reader `getValue` as a parameter | induction over the fields and over the points of an axis; witnesses | false (bits instead of bytes; random order); partial: the exact addresses and the stored values, for whole records with axes and failed reads |
| C80 | `A2l/Layout.lean`, `A2l/LayoutOne.lean`: from a text (with escapes, marks, comments, any line breaks) over its tokens to the struct of `ParseFromFile` | C86 for the tokens of any text, C76, C24, C27 for texts made of documents, C78 for the objects, C34 for one module; the conditions of C34 are stated on the tree (`placed`) | false (comment over a share boundary); partial: the tokens as the workers read them (C86) |
| C81 | `Conc/EndToEnd.lean`: `ReadCalibration` with the models of the parsers in it (`a2lSent`, `hexSent`), `GetObjectByIdent` on the result | C21 for the goroutines, C80 for the A2L file, C02/C13/C23 for the hex file; the lookup is computed on the struct of the tree | false (bytes lost, C02); partial: the files of C80, C02, C13. Reading a file is one step; log file: C93 |
| C82 | `Conc/Locks.lean`: `addOffsets` with lock, read, store and unlock as single steps, shown to refine the atomic loop body of `Ihex/Model.lean`; `Conc/HexRun.lean`: `parseHex` with all goroutines as one transition system, `Conc/HexRunInst.lean`: both formats | invariant over phases, progress, lexicographic measure (phase, work); answer from C77; determinism from C73 | proved |
| C83 | same, goroutines left over after a return keep moving (`Rest`) | channels of capacity 1 and one batch per worker never block; invariant `Success` (a return without an error happens after the last worker has closed its channel); witness | false for Intel HEX; partial: segment lines that give numbers, checksum errors, every text without a collision (`C83_success_*`, `C83_leak`); the texts for which it fails are known exactly (`C83_iff` in `Conc/LeakIff.lean`; invariant `Track`: which batches have been received from which worker), none on one CPU; proved for S19 |
| C84 | `Conc/A2lRun.lean`: `ParseFromFile` with all goroutines; the parse functions stay the functions of `A2l/Run.lean` and are run with the answers that the module parser has given so far; `A2l/Oracle.lean` shows that such a run either ends or depends on exactly one missing answer | invariant, progress, lexicographic measure (phase, open calls, inside a call, operations left); the other direction (`Conc/A2lRunAll.lean`): every result under a schedule of the module parser is returned by a run, so the schedules of `C34_false` and `C36_false` are runs; `C84_two_results`: one file, two runs without error, two contents | proved |
| C85 | `Conc/Whole.lean`: composition of the systems of C82, C84 and C21 (`Sys`, `Law`); a reader goes on only when its parser has returned; goroutines left over by a parser keep moving | laws of the parts (invariant, progress, well-founded, stable result) give those of the whole; content from C80, C02, C13, C77; answers from C81; `Conc/WholeExact.lean`: schedules for every combination of answers, so the set of results is known exactly (`C85_results`); two calls give the same memory if both give one, and of two errors either can be returned | partial: concurrency and errors proved for all files; content for files as in C81, false in general (`C81_false`) |
| C86 | tokenizer as for C24; `A2l/TokReading.lean` is the specification (relation `Reads` on words and line ends) | the relation holds exactly for the run of the automaton of C24 (both directions), then shares and clean-up (C76); `A2l/WhiteSpace.lean`: words are cut at the White_Space characters of Unicode | proved, for every text |
| C87 | `Calib/Float64.lean`: every float64 as a number of units 2^-1074 with sign, infinities, NaN; rounding, sum, product, quotient, root and the conversions operation by operation. Trusted: `math.Sqrt` is correctly rounded, `math.Pow(x, 2)` rounds significand and scaling (the Go library is not at hand) | specification in rationals (`Rounds`: nearest, ties to even, overflow, sign), which determines the result (`rounds_unique`); refinement of the exact model; witnesses | LINEAR nearest: false, partial with two roundings; TAB_NOINTP agrees with the exact model for every table; RAT_FUNC: refused for a = d = 0, NaN for a negative number under the root and for every infinite raw value; every method agrees with the exact model when no step is rounded; a finite non-zero value of RAT_FUNC is the formula of the code with each step rounded once; raw values of all data types and all bit patterns as in IEEE 754 |
| C88 | `Calib/ParseFloat.lean`: `strconv.ParseFloat` for 64 bits: sign, digits, underscores, exponent, hexadecimal numbers, names, range errors (written after the documentation, the Go library is not at hand); `Calib/LinkFloat.lean`: the methods and tables of a parsed module with `float64` numbers | grammar of the language as an inductive specification (`Number`, `Named`), both directions; the value against `Rounds`; composition with the parser (C65, C48) and the arithmetic (C87) | false: NaN, Inf, 0x1p4, 1_0 are accepted (item 59), long exponents are cut (item 63); partial: `C88_syntax` (exactly what is refused), `C88_nearest` (read as the nearest number), `C88_linear`, `C88_table`, `C88_method` (from the text to the converted float64) |
| C89 | `A2l/Utf8.lean`: the tokenizer on the bytes of a file: decoding of runes (`utf8.DecodeRuneInString`), the functions of Go that look at runes (`regexp`, `TrimFunc`, `Fields`, `TrimSpace`) and those that compare bytes (the rest of the tokenizer, as in C24). Specification: UTF-8 after RFC 3629, `Decodes` (characters with their bytes, U+FFFD for any other byte), `UnescapedBytes` | every step of the tokenizer does the same on the bytes of runes and on their characters, because marks are ASCII and the bytes of other characters are not (`Utf8Lex.lean`, simulation of the lexer); self-synchronisation of UTF-8 for parts of a text and for decoding from the right (`utf8.DecodeLastRuneInString`, `decodeLast_seen`; `Utf8Lemmas.lean`); for UTF-16 (`Utf16Props.lean`) no word can start with an ASCII character other than zero | false (strings of a Latin-1 file are not UTF-8; a UTF-16 file is accepted as an empty file); proved: the tokens of any bytes |
| C90 | `Conc/Race.lean`: executions as lists of events (read, write, atomic access, `go`, send, receive, close, lock, unlock, done, wait), the happens-before order of the Go memory model (program order, `go`, n-th send before n-th receive, n-th receive before (n+cap)-th send, close, mutex, wait group, atomics), data races. `Conc/RaceHex.lean`, `Conc/RaceA2l.lean`: the events of every step of the transition systems of C82 and C84; `Conc/RaceWhole.lean`: of the whole call of C85, with `configureLogger` before and the caller's use of the result after it | for every phase an invariant that says which events happen before everything that a goroutine does from now on (`Past`), one pattern for all fan-out/collect pipelines (`RacePipe.lean`), a lock discipline for `addOffsets` (`Disc`); an execution of a part is embedded into one of the whole (`RaceLift.lean`: `View`); counterexamples of the programs without one of the mechanisms by a verified checker (`RaceCheck.lean`); small programs known to be racy, one or more per rule, show that the order is not too large (`RaceLitmus.lean`) | proved for one call of a parser, one call of `ReadCalibration`, and two overlapping calls of hex parsers; false for two overlapping calls of the A2L parser (`C90_overlap_false`) and of `ReadCalibration` (`C90_calls_overlap_false`) |
| C91 | the transition system of C85; `Conc/Leftover.lean`: `Quiet` (both readers, both parsers and the goroutines left over by the hex parser have ended) | invariants of C82, C84, C85 at the moment of a return, the part of the hex parser in a run of the whole call (`hex_steps`), witness of C83 lifted to the whole call for every A2L file (`C91_leak`) | false for Intel HEX files that give two values to one address; proved for every call that returns without an error, for S19, and for the A2L parser; the texts with which it fails are known exactly (`C91_iff` in `Conc/LeftoverIff.lean`) |
| C92 | `A2l/GoType.lean`, `GoTypes.lean` (all 192 struct types with all fields, generated from the declarations), `HashMap.lean`: `toJson`, `toHashMap`; specification: paths into a value (`At`) and into the result (`find`) | type analysis of every parse function and its soundness (`Typed.lean`, `TypedSound.lean`, `TypedMt.lean`): every result has its Go type; induction over paths and types | false: fields that are not exported are missing, and NaN or an infinite number makes it fail; proved for the exported fields, with the exact condition of failure |
| C93 | `Conc/LogFile.lean`: the disk (a file for each place, paths denote places), creating the log file, log messages at any time, then the transition system of C85 on the files found | invariant; `C85_results` for the results; runs are lifted | false (`C93_false`: an input that is the log file is emptied before it is read); partial: log file can be created and is neither input; `C93_iff`: exactly then, whatever the files are |
| C94 | tokenizer as for C24; `A2l/TokVerbatim.lean`: `SingleSpaced`, stated on characters and the White_Space property of Unicode | the token of a string is its words with single spaces (C26); such a text equals the string just if the string is single-spaced, by induction on the text | false (`C94_false`: two spaces become one); exact (`C94_iff`) |
| C95 | parse functions as for C28; `A2l/Missing.lean` | C32 and C64 (which text is accepted, which markers are set), C74 for the empty blocks of all functions | false (`C95_prefix`, `C95_irregular`: any block may be closed early); exact for the regular functions (`C95_iff`) |
| C96 | parse functions as for C28; `A2l/Ignored.lean` | C32 and C64; induction on the items of a block | false (`C96_surplus`: words behind the last parameter are skipped; functions with a body of their own: `C96_irregular`, `C96_tables` in `A2l/IgnoredOdd.lean`); partial: objects without `/begin`, blocks with a list, blocks with free text |
| C97 | parse functions as for C28; `A2l/HexInts.lean` | C33 for the places, C64 and C32 for the calls | false (`C97_sites`, `C97_block`, `C97_seq`: rejected everywhere); partial: numbers kept as text |
| C98 | parse functions as for C28; `A2l/Cost.lean` (statements counted along the execution) | amortised bound by induction on statements and on the height of the call graph: every round of a loop pays with the token it consumes, `tok.prev()` pays one token back; the constants are computed from the bodies and checked for every function | proved (statements counted, not the time of one statement; without the multithreaded module parser) |
| C99 | the transition system of C82; `Conc/HexBound.lean` | the work left in a phase plus bounds for the later phases decreases with every step; sizes of channels and shares | proved (the computation between two channel or lock operations is one step) |
| C100 | the transition systems of C84 and C85; `Conc/A2lBound.lean`, `Conc/WholeBound.lean` | `parseModuleMultithreaded` is called only at the words `/begin MODULE` (the parse does not depend on answers at other places); the messages of the workers are counted by the tokens of their shares; the work left decreases with every step; a run of the call is split into runs of the two readers | proved (the computation between two channel, lock or wait-group operations is one step) |
| C101 | the functions of `a2l/token_generator.go`, each with a second function that counts the characters looked at; `A2l/TokCost.lean`, `A2l/TokCostProps.lean` | The count of every word outside quotation marks is at most 13 for each of its characters and one more; within quotation marks every word adds twice the length of the text read so far. The hypothesis on open texts is stated with the reading `Reads` of C86, separately for each worker. The counts are lists of the calls in the source; the order of `&&` is ignored (more is counted). The clean-up of the text (`cleanString`, `ReplaceAll`) and `Split` count as one pass over the text each | partial: linear as long as the open texts are bounded, quadratic always; the full statement is refuted |
| C102 | the hex readers as in C77; `Srec/SizeProps.lean` | From the exact result of C77: the map holds only pairs of recognised lines, also after a collision; lines are parts of the text; a data line with k bytes has at least 2 k + 11 (S19: 2 k + 14) characters. The statement gives the line, the index of the digits and the address without helpers of the model | proved |
| C103 | `offStep`, `workerStep`; `Ihex/Visits.lean`, `Ihex/VisitProps.lean` | `visits` counts the locks of a schedule. False (`C103_false`, disagreement 72): without segment records no worker stops before the end of the list, whatever the schedule; `C103_no_segments` gives the exact number of locks, at least (n + 1) / 2 times N. `C103_partial`: when every S successive records contain a segment record with a segment other than 0000 together with its first data record, at most N + n (S + 1) locks for every schedule. Proof: the first data record of such a segment is passed by at most one of the workers that have read its segment record, so the ranges from S records after the start of a worker to its position are disjoint. Missing for the full statement: the stop of workers that have read no segment record, which the code does not have. | false (`C103_false`: no worker stops in a file without segment records); partial: files with a segment record in every S records |
| C104 | `exec`, `run`, `parse`, `worker`, `mtModule`, `Collect.run`; `A2l/Rename.lean`, `A2l/RenameMt.lean`, `A2l/RenameProps.lean` | Specification: `swapWords x y` exchanges two words of a text (separated by blanks, because `parseA2ML` and `parseAnnotationText` join tokens with blanks), `renP` applies it to all texts and map keys of a result. `exec_ren`: the statement language commutes with every function on texts that is its own inverse and leaves alone the empty text, the words of the bodies, the keyword table and the numbers; `step_map`, `run_map`: the goroutines of the module parser do not look at what they pass on. `C104_sequential`, `C104_parallel` for every schedule. The words of the language are read off the bodies (`reserved`); `parseFloat` is a parameter, so a name must not be a word of a text it accepts. `A2l/RenameText.lean`: `C104_tokens` (names exchanged in the text of the file are exchanged in its tokens, from the exact tokens of C86) and `C104_file` (text to result). Proved; the text versions for texts that the clean-up of C76 leaves alone. |
| C105 | `parseHex` of both readers; `Ihex/Relocate.lean` | Specification: `Moved` relates the decoded lines of two files. From the exact results of C05 and C13. S19 proved for every distance (`C105_srec`). Intel HEX false (`C105_ihex_false`, disagreement 73); `C105_ihex_partial` if a used explicit segment 0 is not followed by data elsewhere; `C105_ihex_iff`: for a distance of at least one segment it holds just if every line with data is stored where it belongs. |
| C106 | `parseHex` of both readers; `Ihex/Values.lean` | Specification: `All2 (SameLine R)` relates the decoded lines of two files, `Alike R` the two images, for any relation `R` between bytes. Proved for all well-formed Intel HEX files, also those of disagreement 1 (`C106_ihex`, from `C05_exact`), and for S19 (`C106_srec`, from `parse_recognised`). |
| C107 | `parseHex` of both readers; `Ihex/Chunks.lean` | Specification: the lists of address and value pairs of the two files are permutations of each other. S19 proved (`C107_srec`). Intel HEX false (`C107_ihex_false`, disagreement 74); `C107_ihex_partial` if in both files a used explicit segment 0 is not followed by data elsewhere; `C107_ihex_iff`: exactly when it holds against a file of that kind. |
| C108 | `parseHex` of both readers; `Ihex/Blanks.lean` | White space is `isSpace`. Behind a record: always an error (`C108_ihex_behind`, `C108_srec_behind`). Blank lines of fewer than 11 characters: no effect (`C108_ihex_lines_partial` under the segment hypothesis of C01, `C108_srec_lines_partial`). Before the first line: false, everything is lost silently on one CPU (`C108_ihex_lost`, `C108_srec_lost`, `C108_ihex_false`, `C108_srec_false`, disagreement 75). Blanks before other lines: what is lost is C07_lost and C62_srec_lost. |
| C109 | `splitLines`, `parseHex` of both readers; `Ihex/MixedEnds.lean` | The text is given as groups of records: CRLF between the groups, LF between the records of a group (`mixed`), some group with an LF (`HasLf`); or records with CR between them. Proved for both formats (`C109_ihex_mixed`, `C109_ihex_cr`, `C109_srec_mixed`, `C109_srec_cr`): always `invalidChecksums` and an empty image. Files with blank lines are outside the statement (an LF glued before a record hides it, C108). |
| C110 | `parseHex` of both readers; `Ihex/Stray.lean` | `Digit` is a member of the digit lists of the specification. False: one character before the checksum of any record is ignored in any file (`C110_ihex_ignored`, `C110_srec_ignored`, `C110_ihex_false`, `C110_srec_false`, disagreement 76). Partial: all other characters behind the start marks of an accepted file are digits (`C110_ihex_partial`, `C110_srec_partial`). A character of the model is one byte of the line. |
| C111 | `parseFromText` of both readers; `Ihex/Cut.lean` | `(joinLines sep ls).take k` with `sep` CRLF or LF and any `k`; the image is compared with that of the whole text. S19 proved (`C111_srec`), Intel HEX under the segment hypothesis of C01 (`C111_ihex_partial`), false without it (`C111_ihex_false`, disagreement 77). The cut line is any string that the code sees, its sum may be right by chance. |
| C112 | `parseA2l`, `parseProject`, `parseModuleMultithreaded`, tokenizer; `A2l/Truncated.lean` | `Unclosed ts`: some token is `/begin PROJECT` and `/end PROJECT` does not occur behind it. Proved: the parse function returns an error (`C112_tokens`), for every prefix of a file that ends inside the project (`C112_cut`), and so does every run of `ParseFromFile` with any number of workers (`C112_runs`, over the machine of C84). By induction over the accepted files of C56: `/begin PROJECT` is no value of a version number (C59, C96), and a project is left only on its closing token (C30). Cuts before the project are C56 (accepted), unclosed frames C29. |
| C113 | `ReadCalibration` with all goroutines (machine of C85); `Conc/WholeCut.lean` | Runs of the whole call on a whole file and on a cut one; the two calls may have different A2L files, numbers of CPUs and schedules. A2L: no data if the project is not closed (`C113_a2l`, from C112). S19 proved (`C113_srec`), Intel HEX under the segment hypothesis of C01 (`C113_ihex_partial`); false without it (`C113_ihex_false`: both calls are runs that return data, disagreement 77). `memory_srec` and `memory_ihex` say that the memory returned by the whole call is that of the reader by itself. |
| C114 | `parseHex` of both readers; `Ihex/Unread.lean` | The damaged file has lines of the accepted one, unreadable and short lines, in any number and order. S19 proved (`C114_srec`). Intel HEX: proved for files without type 04 (`C114_ihex_partial`) and for one CPU, whatever stands behind the unreadable line (`C114_ihex_one`); false with two CPUs (`C114_ihex_false`, disagreement 78): the segment line is lost, the data of the next worker is not. |
| C115 | checksum test of both readers; `Ihex/Transpose.lean` | The line is `pre ++ a :: b :: post` behind its start mark, the changed one `pre ++ b :: a :: post`; digits of equal value in different case are not meant. The sum of a record is a weighted sum of its digits (`sum_weighted`); the exchange changes it by 15 times the difference, never a multiple of 256. S19 proved (`C115_srec`), Intel HEX for records with data (`C115_ihex_partial`), false without (`C115_ihex_false`, disagreement 79). |
| C116 | the parse functions; `A2l/Balance.lean` | `times E w i j` counts a word among the tokens after position `i` up to `j` (`List.count`). By induction on the last position: an item of a block is a word that is no keyword, a part that is balanced with its first word, or an enumeration value; the tables of optional parts are checked to name `/begin N` for the function that stops at `/end N` (`regFits_all`, `irrFits_all`). Partial (`C116_partial`; in terms of a lost word `C116_lost_partial`, for a file `C116_file_partial`) for the covered functions while no word between begins an object that is not covered (`uncovered`); false of BIT_OPERATION, VAR_FORBIDDEN_COMB, COMPU_VTAB, COMPU_VTAB_RANGE and FRAME (`C116_false`, `C116_false_comb`, `_row`, `_range`, `_frame`, disagreement 80). |
| C117 | `parseHex` of both readers; `Ihex/Overlap.lean` | `Overlap` compares the addresses of two records modulo 64 KiB; for S19 the lines have an address of `Spec.lineBytes` in common. The Intel HEX claim needs no condition on segment 0 as C05 does: lines with no segment line between them are stored in the same segment, the right one or not (`storedSeg_same`). Partial (`C117_ihex_partial`, `C117_ihex_twice_partial`, `C117_srec_partial`) for files without unreadable lines; false with a stray line or an S0 header before them, after which a worker reads nothing and reports nothing (`C117_ihex_false`, `C117_srec_false`; the disagreements of C07 and C17). |
| C118 | `parseHex` of the Intel HEX reader; `Ihex/Fate.lean` | Compares the exact result of C05 with `fileBytes`, the bytes the file defines: the segment used for a line is the selected one or 0 (`storedSeg_or`), the place in the segment is kept (`line_move`). `C118_fate` is the claim about every byte, `C118_high` that about an image with nothing in the first 64 KiB, `C118_sign` the equivalence. Well-formed files (every line of at least 11 characters is a record). Proved. |
| C119 | `convDecToPhy64` (float64 arithmetic), `fusedLinear`; `Calib/Float64Mono.lean` | `Le` is the order of `float64` values by the numbers they stand for, with the infinities. From the specification of rounding (`Rounds`, C87) alone: rounding to the nearest keeps the order (`nearest_mono`, by the uniqueness of the nearest number with ties to even), also where results overflow (`rounds_mono`). `C119_rising`, `C119_falling`, for raw integers `C119_integers`, fused `C119_fused`: proved. The order is not strict: different raw values can have one physical value (`C119_strict_false`). |
| C120 | `convertByteSliceToDatatype`; `Calib/Lossless.lean` | From the exact result of C42: numbers of equally many bytes are equal only if the bytes are (`number_inj`), two's complement and the bits of a floating point number keep them apart, and an integer up to 2^53 is its own nearest `float64`. Floating point values are compared by their bits. Partial (`C120_partial`) for all types but ULONG, SLONG, A_UINT64 and A_INT64, which are decoded from eight bytes and rounded (`C120_false`; the disagreement of C42 on precision). |

## 4. Disagreements found

Each item: what the property wants, what the code does, the theorem that proves it.

1. **C01/C02/C18, segment 0** (`ihex32/record.go` 58-81). `addOffsets` decides
   "does this record have an offset already" by comparing with zero. A record of an
   explicitly selected segment `0000` therefore looks like one without offset; the
   workers disagree about it and data after it can land at a wrong address. Theorems
   `C01_false_everywhere`, `C02_false_everywhere`: on every CPU count there is a file
   whose parse succeeds without the right data for every interleaving.
2. **C04**: changing the type byte of a record to `04` (or any change that makes the
   line unreadable) silently drops the line and the rest of the share. `C04_false`.
3. **C07/C08**: `parseRecordRoutine` returns at the first line it cannot read
   (`ihex32/hex.go` 241-256); the rest of the worker's share is dropped, no error is
   returned, and what is lost depends on the CPU count. `C07_false_everywhere`, `C08_false`.
4. **C11**: the digit table has `0A` and `0a`, `AB` and `ab` but not `aB`; mixed-case
   bytes are rejected. Case conversion of a whole S19 file makes `S` an `s`, and the file is
   then accepted as empty. `C11_file_false`, `C11_srec_lower_loses`.
5. **C12**: the declared byte count is part of the checksum only. `C12_ihex_false`,
   `C12_srec_false`.
6. **C17/C51**: `srec19/record.go` 27-43 accepts `S3` lines only and the routine stops at
   the first other line of 11 or more characters, so any header with a text hides the data of
   the first share. `C17_false_everywhere`, `C51_false`.
7. **C14 (boundary)**: an S3 line of exactly 12 characters has its checksum position
   inside the address field. `C14_short_line_undetected`.
8. **C22**: `ReadCalibration` returns the last error received, not the first. `C22_false`.
9. **C23**: the hex file format is chosen by `strings.Contains(path, ".hex")`, so a directory
   called `x.hexdata` makes an S19 file be read as Intel HEX. `C23_false`.
10. **C24/C27 tokenizer shares**: the text is cut into shares of lines; a comment or string
    across a share boundary is read differently, and a word with a slash (other than `/begin`,
    `/end`) makes the worker drop the rest of its share silently. `C24_false`, `C27_false`. The code means to
    notice the first case (token_generator.go:115-123, throw the tokens away when a `*/` turns up), but the condition
    `Contains(t, "*/") && !Contains(t, "*/")` is never true.
11. **C25 comments**: `/*/` is taken for a complete comment, a banner `/*////` for a line
    comment, comments glued to words swallow or extend them. `C25_false*`.
12. **C26 strings**: every backslash is deleted together with the following character before
    tokenizing, so `\"` never reaches the code that handles it. `C26_false`,
    `C26_escaped_quote_deleted`.
13. **C38**: `GetObjectByIdent` indexes the module list without a check. `C38_false`.
14. **C39** (`calib_data.go` 198-478): `address + address % border` instead of rounding up;
    border 0 divides by zero. `C39_false`, `C39_zero_border_crash`; right iff aligned already or
    halfway (`C39_partial`).
15. **C40** (`calib_data.go` 484): `make([]byte, nBytes, 0)` panics for every positive length,
    so no value can ever be read from the hex data. `C40_always_crashes`.
16. **C41**: fewer than eight digits crash, more are cut off; `0x` is removed wherever it stands. `C41_exact`, `C41_crash_iff`,
    `C41_long_truncated`.
17. **C42/C50**: UWORD/SWORD are treated as 32-bit types, ULONG/SLONG need 8 bytes but are
    checked for 4 (crash), `float64(float16.Float16)` converts the bit pattern as an integer,
    64-bit integers are rounded. `C42_false_*`, `C42_long_crashes`, `C42_float16_wrong`, `C50_false`.
18. **C43** (`compu_methods.go` 71): `InValMin[i] <= dec && dec < InValMin[i]`. `C43_always_default`;
    a table with fewer rows than declared crashes (`C43_short_table_crash`).
19. **C44**: an empty verbal table ignores its default. `C44_false`.
20. **C45** (`compu_methods.go` 124-162): wrong quadratic formula, linear relations rejected, NaN
    returned without an error. `C45_false_*`, `C45_linear_ratfunc_rejected`. The result is right
    only for double solutions, and if `2 (a - d x)` or its negative happens to be a solution:
    `C45_exact`; the only error is the one for linear relations: `C45_error_iff`.
21. **C47**: no data type lookup for "Reserved". `C47_false`.
22. **C49** (`record_manager.go` 34-40): the value of a system constant is never assigned.
    `C49_value_lost`.
23. **C52** (`calib_data.go` 514, 525): positions are stored in one struct and read from
    another. `C52_nothing_read`.
24. **C53**: TAB_INTP returns 0 without an error. `C53_always_zero_partial`.
25. **C54**: read positions are advanced by bits. `C54_false`.
26. **C29/C30, FRAME** (`a2l/frame.go`): the end of the file inside a FRAME block ends the block
    without an error. `C29_false`, `C30_false`.
27. **C31, BIT_OPERATION** (`a2l/bit_operation.go`): the error for an unexpected keyword is set without
    leaving the loop and overwritten by the next optional part. `C31_false`.
28. **C32, wrong fields**: `conversionSet` is never set in MEASUREMENT and TYPEDEF_MEASUREMENT, so
    resolution, accuracy and limits overwrite the conversion; UNIT never sets `longIdentifierSet`;
    MATRIX_DIM sets only the first marker, so the last number becomes the second dimension;
    NO_RESCALE_X leaves before the data type; FRAME never sets its markers, so the name becomes the
    last parameter; OVERWRITE stores the keyword CONVERSION itself. `C32_*_false`. For all texts:
    `C32_measurement_lost`, `C32_unit_lost`, `C32_dead_fields`, `C32_overwrite_lost`. MEMORY_SEGMENT
    (`a2l/memory_segment.go`) copies the first offset five times (`C32_memory_segment_lost`). BLOB compares the
    keyword ADDRESS_TYPE itself with the address types, so this part is always an error and every BLOB read
    is DIRECT (`C32_blob_address_type`, `C32_blob_always_direct`). VARIANT_CODING takes any word for the
    keyword VAR_SEPARATOR (`C31_variant_coding_any_word`).
29. **C48**: conversion tables with fewer rows than declared are accepted, and a table that declares
    0 rows may have any number (`C48_zero_false`). `C48_false`. Together with
    item 18 such a table crashes the evaluation.
30. **C34** (`a2l/module.go` 327-450, 708-1005): each worker calls `tok.next()` before it looks at a token,
    so the first token of every share is skipped; if it opens an object, the object is lost without an
    error (`C34_false`). A share that begins inside an object takes nested blocks (for example IF_DATA in a
    CHARACTERISTIC) for objects of the module (`C34_false_nested`). Keywords that do not belong into a
    module are an error in `parseModule` and ignored by the workers (`C34_false_error`).
31. **C36**: the collectors keep the object received last, so with several workers the winner of two
    definitions depends on the schedule. `C36_false`; `C84_two_results` for two runs of the whole parser.
32. **C37** (`a2l/token_generator.go` 14-15, `a2l/a2l.go` 21): `tokenList`, `moduleCount` and
    `useMultithreading` are variables of the package. A call that has built its token list parses
    the list of whichever call has built one last. `C37_mixup`, `C37_false_everywhere`.
33. **C56** (`a2l/a2l.go` parseA2l, `a2l/project.go`): a file without any PROJECT is accepted with an empty result,
    arbitrary words outside the blocks are skipped, and of several projects only the last one is kept
    (`C56_words_accepted`, `C56_false`, `C56_two_projects`). Looking up an object in such an empty result crashes (see C38).

34. **C57** (`a2l/enums.go` 247-300, `a2l/tokens.go` keywordMap): the address type PLONGLONG is declared but its parser
    does not know it; the index modes ALTERNATE_CURVES, ALTERNATE_WITH_X and ALTERNATE_WITH_Y are also in `keywordMap`,
    so FNC_VALUES and LAYOUT reject them. `parseAddrTypeEnum` and `parseEncodingEnum` look at the current token, which in
    an ADDRESS_TYPE, ENCODING (or DISPLAY_IDENTIFIER of a TYPEDEF_CHARACTERISTIC, read as an encoding) part is the
    keyword itself, so these parts are always errors.
35. **C59** (`a2l/tokens.go` 361-619): FIX_AXIS_PAR, READ_ONLY, READ_WRITE, RESERVED and VAR_SEPARATOR are missing in
    `keywordMap` (`FORMAT READ_ONLY` gives the format "READ_ONLY"); CONVERSION, INPUT_QUANTITY, `/end USER`,
    `/begin FIX_AXIS_PAR`, `/end FIX_AXIS_PAR` and the ALTERNATE_* are there without need, so an object cannot have
    these names.
36. **C58** (`a2l/variant_coding.go`): see C31, any word is taken for VAR_SEPARATOR.
37. **C32, C59** (`a2l/matrix_dim.go`, `a2l/frame.go`): a MATRIX_DIM reads numbers until the next keyword, so
    `MATRIX_DIM 3 READ_WRITE` is rejected (READ_WRITE is not in `keywordMap`, `C59_matrix_dim_missing`); every dimension
    after the first overwrites the second (`C32_matrix_dim_exact`). All words of a FRAME overwrite its name
    (`C32_frame_name`), its other parameters are never set (`C32_frame_lost`).
38. **C60, C61** (`ihex32/hex.go:101-202`, `srec19/hex.go:101-191`): neither parser looks at the terminating record. A file
    cut after any line is accepted (`C60_ihex_accepted`, `C60_srec_accepted`), and data after the Intel HEX end-of-file
    record is read (`C61_ignored`).
39. **C62** (`ihex32/record.go`, `srec19/record.go`): type 02 records (extended segment address) are skipped, so their data
    ends up at wrong addresses without an error (`C62_ihex_false`); unknown types are skipped as well
    (`C62_ihex_ignored`). An S19 file with its data in S1 or S2 records is accepted as an empty memory
    (`C62_srec_dropped`).
40. **C63** (`ihex32/record.go:58-82`): a joined file continues in the last segment of the first file
    (`C63_ihex_join_false`). This follows the format, but such files define other bytes than their parts.
41. **C64** (`a2l/function_list.go` and the other list blocks): the marker of a list is set at `/end`, whether or not
    the list has members (`C64_false`), so "set" does not mean that there is a value.
42. **C66** (`a2l/a2l.go`, `record_manager.go:45-101`): an A2L file without a project or module is accepted, and the first
    lookup indexes `Modules[ModuleIndex]` out of range and panics (`C66_false`). Names of system constants, and all
    strings of the file, are kept with their quotation marks, so they have to be looked up with them.
43. **C67** (`compu_methods.go:60-87`): whatever the rows of a COMPU_VTAB_RANGE are, no value is ever found in a range,
    and an accepted table with fewer rows than it declares makes the conversion panic (`C67_range_exact`,
    `C67_range_crash`), now shown from the text of the file.
44. **C68** (`compu_methods.go:124-162`): a COMPU_METHOD RAT_FUNC whose function is linear (`COEFFS 0 b c 0 0 f`), the most
    common one, is accepted by the parser and every conversion with it is an error (`C68_false`). TAB_INTP converts every
    value to 0 without an error (`C68_partial`).
45. **C69** (`a2l/no_rescale_x.go`): the data type after NO_RESCALE_X is not read; in `/begin RECORD_LAYOUT NO_RESCALE_X 1
    UBYTE /end RECORD_LAYOUT` it becomes the name of the record layout (`C69_false`). Whatever a record layout says, no value of
    a characteristic is read, because the map `RelativePositions` is never filled by the parser (`C69_nothing_read`).
46. **C70** (`a2l/measurement.go`): a measurement that is written with legal parameters is not read back: the resolution is lost (`C70_false`).
47. **C71** (`a2l/module.go`): of two objects of the same kind and name in one module the later replaces the earlier without an error, so
    the order matters for them (`C71_false`).
48. **C72** (`fnc_values.go:11-67`): reading one value crashes for every data type; reading a list without FIX_NO_AXIS_PTS_X gives
    nothing, because the assignment of the number is commented out (line 46), and the data type used is that of the axis
    (`C72_false`, `C72_list_false`). No other function calls these two.
49. **C08** (`ihex32/record.go: addOffsets`): a well-formed file of four lines is read without error on one and on two CPUs, with
    different addresses (`C08_false_wellFormed`).
50. **C75** (`a2l/left_shift.go` and the other keywords with one number): after a failed conversion the buffer is stored all the same; the
    error is returned with it, so an accepted file never has such a number, but a caller that ignores the error sees 4294967295
    for 99999999999 (`C75_false_error`).
51. **C76** (`a2l/token_generator.go:48`): the replacement of escaped quotation marks by apostrophes never has an effect on a file,
    because all escapes were deleted before (`C76_quotes_never`).
52. **C77** (`ihex32/record.go:34,38-41`): in a line with an even number of characters the one before the last two is neither data
    nor covered by the sum. In a segment line of 14 characters it is nevertheless taken as a digit of the upper half; if it is no
    hex digit, all data of that segment is dropped and the file is accepted (`C77_dropped`, file `:0200000400GFA`, `:0100000007F8`).
    In a segment line of 13 characters the second pair of the upper half is the checksum itself.
53. **C79** (`calib_data.go:525`, `no_axis_pts.go:27` and all other readers): two faults behind the crash of C40. The position is
    moved by `GetDatatypeLength`, a number of bits, so the second of two bytes is looked for eight addresses after the first
    (`C79_false`); and the fields are visited in the order of a range over a map, which Go leaves open, so that the values of
    two fields can be exchanged from one run to the next (`C79_order_false`). Alignment gaps are not added to the position either.
54. **C80** (`a2l/token_generator.go:57-85`): the layout decides what is read. `/* a` and, on the next line, `ASAP2_VERSION 1 71 */ x`
    is a comment and the word `x`; with two CPUs the second one begins at the second line and reads a version (`C80_false`).
55. **C81** (`calib_data.go:45-98`): the loss of bytes of C02 reaches the caller: `ReadCalibration` returns data without error in which
    bytes of the hex file are missing (`C81_false`).
56. **C83** (`ihex32/hex.go:190-196`, `record.go:161-163`): a goroutine leak. The early return after a collision leaves the other data
    workers without a receiver. Their channels hold one batch, which is enough unless a record cannot be computed: then an empty batch
    is sent first and the worker blocks for ever in its second send (`C83_false`; such records exist because of disagreement 52). It is never so without a collision (`C83_leak`). The leak reaches the
    caller of `ReadCalibration`, with any A2L file (`C91_leak`). Exactly when it happens, whatever the interleaving: all sums are right, and the share of some
    worker has a data line whose segment is no number although the shares before it give an address twice (`C83_iff`, `C91_iff`). Never on one CPU;
    on every other number of CPUs there is such a text (`C83_false_everywhere`).
57. **C87** (`compu_methods.go:27`): `A*dec + B` is rounded twice. With A = dec = 1 + 2^-52 and B = -(1 + 2^-51) the value delivered is 0,
    the physical value is 2^-104 (`C87_false`). Go allows a compiler to fuse product and sum; then the value is the nearest one
    (`C87_fused`), so the same file can give different values on different processors (`C87_processor_false`).
58. **C87** (`compu_methods.go:27`, `:136-149`): a physical value that overflows is delivered as infinity, and RAT_FUNC delivers NaN if the
    number under the root is negative, both without an error (`C87_overflow_false`, `C87_ratfunc_nan`).
59. **C88** (every call of `strconv.ParseFloat`, for instance `a2l/coeffs_linear.go:36`): the words `NaN`, `Inf` and `Infinity` (in any case), hexadecimal
    numbers such as `0x1p4` and numbers with underscores such as `1_0` are accepted as coefficients, limits and table entries (`C88_false`, `C88_named`). A row of a
    COMPU_TAB with the key `NaN` can never be found, as NaN is not equal to itself; a coefficient NaN makes every converted value NaN, without an error.
60. **C89** (`a2l/a2l.go:131-154`, `a2l/token_generator.go:43-86`): the encoding of a file is never looked at. Strings of a file in Latin-1 are
    delivered as strings that are not UTF-8 (`C89_false`). A file in UTF-16, with a byte order mark, is accepted without an error as a file
    with nothing in it, whatever it contains (`C89_utf16`); the first lookup then panics (42). An escape (backslash and one character) that stands
    between bytes that are not UTF-8 is deleted, which may join these bytes to a character that is not in the file (example in `Utf8Props.lean`).
61. **C90** (`a2l/token_generator.go:14-15`): the tokens and the number of modules are package variables. Two calls of `ParseFromFile` that overlap
    always have a data race, whatever the files and the schedule (`C90_overlap_false`): one of them is the second to reset `tokenList`
    (line 52), and nothing orders this write after that of the other call. Within one call there are no races.
62. **C90** (`calib_data.go:60, 177`): `ReadCalibration` sets the global logger of zerolog at its beginning. Two calls that overlap always have a data
    race on it, whatever the files and the schedule (`C90_calls_overlap_false`), in addition to 61. Two overlapping calls of the hex parsers have none
    (`C90_hex_overlap`).
63. **C88** (`strconv.ParseFloat`, called for all floating-point numbers of a file): digits of an exponent are ignored from the sixth on, so a number with very many
    digits can be read wrongly without an error. The number 1, written as `0.0…01e200000` with 200000 digits behind the point, is read as 0
    (`C88_exponent_false`). With fewer than 2000 digits before the exponent this makes no difference (`C88_nearest`).
    This rests on the model of the library, which is trusted: its sources are not at hand.
64. **C92** (`a2l/a2l.go:36-52`): the comment of `toHashMap` promises all structs and their values. `encoding/json` leaves out all fields that are not
    exported: every measurement, axis, function and group and the version of the file become an empty map (`C92_lost`). A file with the coefficient
    `NaN`, which is read without an error, cannot be converted at all (`C92_nan_false`; `C92_error` says when that happens).
65. **C05** (`ihex32/record.go` 58-81, as item 1): because of the segments mixed up in item 1, a file that gives two bytes to one address can be accepted, with
    one of the two bytes at another address (`C05_missed`), and a file that gives each address once can be rejected (`C05_spurious`).
66. **C93** (`calib_data.go:58-63, 158-163`): the log file `calibReader.log` is created in the current directory before the two files are read. If one of the two
    paths denotes that file, its content is lost before it is read (`C93_emptied`, `C93_overwritten`), and the call can go on as for an empty A2L file.
    If the current directory cannot be written, the call ends with that error and reads nothing (`C93_no_log`).
67. **C94** (`a2l/token_generator.go:86-97, 261-300`): the text is cut into words before strings are recognised, and the words of a string are put
    together again with one space between them. Several spaces, tabs and line ends in a string become one space (`C94_false`), for instance in the
    texts of a verbal conversion table; exactly the strings whose only white space is single spaces stay as they are (`C94_iff`).
68. **C95** (all parse functions of blocks, for instance `a2l/characteristic.go`): the test for the closing token comes before the tests for missing
    parameters, so a block that is closed too early is accepted with zero values, e.g. a CHARACTERISTIC without an address (`C95_prefix`, `C95_empty`).
69. **C96** (all parse functions of blocks without a list, for instance `a2l/mod_common.go`): a word behind the last parameter meets none of the cases of the
    loop, which goes on with the next token; there is no error (`C96_surplus`, `C96_false`).
70. **C97** (all parse functions with an integer, for instance `a2l/alignment_byte.go`): all integers are converted with base 10, so a hexadecimal
    number is an error (`C97_sites`, `C97_false`). Only numbers that are kept as text, such as addresses, may be hexadecimal.
71. **C101** (`a2l/token_generator.go:261-289 getTextInQuotationMarks`): for every word the loop makes a copy of all of the text read so far and counts
    its quotation marks from the start, so the time is quadratic in the length of a quoted text (`C101_open`). A file with one quotation mark
    too many costs the square of the length of a worker's share of the lines.
72. **C103** (`ihex32/record.go:56-81 addOffsets`): the comment says that a goroutine stops at a record that another one has updated. It does so only
    at the first data record after a segment record it has read itself. In a file without segment records (an image below 64 kB)
    no goroutine stops: each one locks all records from its start to the end (`C103_no_segments`), the first one every record, so the work in total grows
    with the number of CPUs and no time is gained.
73. **C105** (`ihex32/record.go:56-81 addOffsets`): moving a file up by one segment can change more than the addresses. The file with two bytes in segment 0
    and one in segment 1 is read by one CPU with all three in segment 0; moved up by one segment it is read rightly (`C105_ihex_false`). Same cause as for C01:
    the value 0000 stands both for segment 0 and for no segment.
74. **C107** (`ihex32/record.go:56-81 addOffsets`): the order of two blocks can change the image. A block in segment 0 followed by one in segment 1 is read by one
    CPU with both in segment 0; in the other order both are read rightly (`C107_ihex_false`). Same cause as for C01.
75. **C108** (`ihex32/record.go:30`, `srec19/record.go:30`): a blank or a byte order mark before the first line of a hex file, or a first line of 11 or more blanks,
    makes one CPU accept the file as an empty image without an error (`C108_ihex_lost`, `C108_srec_lost`); nothing is trimmed, the line is not a record, and
    the routine returns without an error at the first line that is none (as in C07). A blank behind a record is reported as a wrong checksum.
76. **C110** (`ihex32/record.go:34`, `srec19/record.go:33`): the loop over the data bytes stops when at most three characters are left, and the checksum is the last two,
    so that a stray character before the checksum of a record is never looked at: `:010010000A?E5` is read as `:010010000AE5` (`C110_ihex_ignored`, `C110_srec_ignored`).
77. **C111** (`ihex32/record.go:56-81 addOffsets`): of a file that selects segment 0 and then segment 1, one CPU stores the second block in segment 0; with the last line cut
    off, two CPUs store it in segment 1, where the whole file has nothing on one CPU (`C111_ihex_false`). Same cause as for C01 and C08.
78. **C114** (`ihex32/hex.go:241-256 parseRecordRoutine`, `ihex32/record.go:58-81 addOffsets`): a worker that meets a line it cannot read stops without an error, the other
    workers go on. If the lost lines include the one that selects the segment, the data that the next worker reads is stored in the segment before: a blank before
    `:020000040001F9` in a file of four lines moves a byte from address 0x10020 to 0x20 on two CPUs, and no error is reported (`C114_ihex_false`).
79. **C115** (`ihex32/record.go:37-43`): a record without data in which the last digit of the type and the first digit of the checksum are exchanged, `:00C0000040` as
    `:00C0000400`, is taken for a segment line that is too short; the worker gives up on it and on all lines behind it without an error (`C115_ihex_false`).
80. **C116** (`a2l/var_forbidden_comb.go:36-39`, `a2l/bit_operation.go`): behind the name of a criterion VAR_FORBIDDEN_COMB takes any word for the value, its own
    closing word included; the block then goes on to the next `/end VAR_FORBIDDEN_COMB` (`C116_false_comb`). COMPU_VTAB and COMPU_VTAB_RANGE do
    the same with the text of a row (`C116_false_row`, `C116_false_range`). A FRAME may end with the file (`C116_false_frame`). BIT_OPERATION forgets an opening
    word (disagreement 27).
