{"id": "C01", "title": "Intel HEX: segment addresses are right for every interleaving and CPU count", "statement": "After a successful Intel HEX parse the upper 16 address bits of every data line are those of the nearest extended-linear-address line above it (zero if there is none), whatever number of workers patches the records, wherever they start and however their steps interleave.", "quantifier": "for every record list, every number of workers, every start position per worker, every interleaving of the workers' lock-protected steps", "why_tests_cant": "the patching workers race on the same records; a test sees a handful of schedules on one machine's CPU count", "anchors": ["ihex32/record.go: addOffsets", "ihex32/hex.go: parseHex"]}
{"id": "C02", "title": "Intel HEX: parse inverts encode", "statement": "Encoding any memory image as Intel HEX (extended-linear-address lines plus data lines with correct checksums) and parsing the text returns exactly that image: same addresses, same bytes, nothing else, no error.", "quantifier": "for every list of blocks (any segment, any start offset, any payload up to 255 bytes, pairwise disjoint addresses), every CPU count, every schedule", "why_tests_cant": "the space of images, block layouts and CPU counts is unbounded", "anchors": ["ihex32/hex.go: ParseFromFile, parseHex", "ihex32/record.go: parseRecord, calcDataEntries, addOffsets"]}
{"id": "C03", "title": "Intel HEX: a bad checksum is never accepted", "statement": "If any line that is recognised as a record has a byte sum different from 0 mod 256, or a non-hex digit in a checksummed field, the parse returns an error; equivalently, after success every recognised record's bytes sum to 0.", "quantifier": "for every file content, every CPU count, every schedule of the checksum workers", "why_tests_cant": "one corrupted record among arbitrarily many, in any worker's share, must be seen; tests sample a few positions", "anchors": ["ihex32/record.go: validateChecksum, validateChecksumsRoutine", "ihex32/hex.go: parseHex"]}
{"id": "C04", "title": "Intel HEX: every single-byte corruption is detected", "statement": "Take a file that parses successfully and replace one byte (two hex digits) of one record's count, address, type, data or checksum by a different byte value: the parse of the changed file returns an error.", "quantifier": "for every accepted file, every record, every byte position in the record, every different replacement byte, every CPU count", "why_tests_cant": "quantifies over all files and all single-byte faults", "anchors": ["ihex32/record.go: validateChecksum"]}
{"id": "C05", "title": "Intel HEX: an address defined twice is an error, and success means each address is defined once", "statement": "The parse reports an error whenever two data bytes land on the same 32-bit address (even with equal values), and when it succeeds the result holds exactly the (address, byte) pairs of the data records, each once.", "quantifier": "for every record list and CPU count", "why_tests_cant": "collisions may be between any two of arbitrarily many lines handled by different workers", "anchors": ["ihex32/hex.go: parseHex"]}
{"id": "C06", "title": "Intel HEX: no input text can crash the parser", "statement": "For every byte sequence read from the file the parser returns a map or an error; it never indexes out of range or decodes a too-short slice.", "quantifier": "for every file content and CPU count", "why_tests_cant": "all inputs; a fuzzer only samples", "anchors": ["ihex32/record.go: parseRecord, calcDataEntries", "ihex32/hex.go: parseHex"]}
{"id": "C07", "title": "Intel HEX: no data line is lost silently", "statement": "If the parse succeeds, every line of the file that is a valid data record contributes its bytes to the result.", "quantifier": "for every file content, every CPU count", "why_tests_cant": "depends on where a malformed line falls relative to each worker's share, so it depends on CPU count", "anchors": ["ihex32/hex.go: parseRecordRoutine"]}
{"id": "C08", "title": "Intel HEX: the result does not depend on the number of CPUs", "statement": "Parsing the same text on machines with different CPU counts gives the same result (same map or both errors).", "quantifier": "for every text and every two CPU counts >= 1, every schedule", "why_tests_cant": "a test machine has one CPU count", "anchors": ["ihex32/hex.go: numProc, parseHex, parseRecordRoutine", "ihex32/record.go: addOffsets"]}
{"id": "C09", "title": "Line terminators do not matter", "statement": "A file whose lines are separated by CRLF and the same lines separated by LF parse to the same result, for both hex formats.", "quantifier": "for every list of lines that contain no CR or LF, CPU count fixed arbitrarily", "why_tests_cant": "all files", "anchors": ["ihex32/hex.go: ParseFromFile", "srec19/hex.go: ParseFromFile"]}
{"id": "C10", "title": "Intel HEX: address arithmetic wraps inside the 64 KiB segment", "statement": "The i-th byte of a data record at 16-bit offset a in segment s is stored at address s*65536 + ((a+i) mod 65536): it never carries into the next segment.", "quantifier": "for every segment, offset and record length", "why_tests_cant": "boundary behaviour for all 2^32 addresses and all lengths", "anchors": ["ihex32/record.go: calcDataEntries"]}
{"id": "C11", "title": "Hex digits: upper or lower case, never a mixture inside one byte, decode to the same value", "statement": "A two-digit field is accepted iff both characters are hex digits and its letters are not of mixed case; the value is 16*hi+lo; converting a whole file to lower (or upper) case does not change the result.", "quantifier": "for every two-character string; for every file", "why_tests_cant": "complete over all 65536 byte pairs and all files", "anchors": ["ihex32/hex.go: hexBytes, hexToByte", "srec19/hex.go: hexBytes, hexToByte"]}
{"id": "C12", "title": "A record's declared byte count agrees with its payload", "statement": "If a hex file is accepted then for each record the declared count equals the number of payload bytes actually present (both formats).", "quantifier": "for every accepted file", "why_tests_cant": "all files; a truncated line with a matching checksum is rare in tests", "anchors": ["ihex32/record.go: parseRecord, validateChecksum", "srec19/record.go: parseRecord, validateChecksum"]}
{"id": "C13", "title": "S19: parse inverts encode", "statement": "Encoding any memory image as S3 records and parsing the text returns exactly that image and no error.", "quantifier": "for every list of disjoint blocks, CPU count and schedule", "why_tests_cant": "unbounded images, layouts and CPU counts", "anchors": ["srec19/hex.go: ParseFromFile, parseHex", "srec19/record.go: parseRecord, calcDataEntries"]}
{"id": "C14", "title": "S19: a bad checksum is never accepted and every single-byte corruption is detected", "statement": "After success each recognised S3 record's bytes (count, address, data, checksum) sum to 255 mod 256; replacing one byte of one recognised record of an accepted file by a different value gives an error.", "quantifier": "for every file, every CPU count, every byte position and replacement value", "why_tests_cant": "all files and all faults", "anchors": ["srec19/record.go: validateChecksum, validateChecksumsRoutine"]}
{"id": "C15", "title": "S19: an address defined twice is an error; success means the result is exactly the data of the records", "statement": "As C05 for S3 records with 32-bit addresses (wrapping modulo 2^32).", "quantifier": "for every record list and CPU count", "why_tests_cant": "collisions between any two lines of any workers", "anchors": ["srec19/hex.go: parseHex", "srec19/record.go: calcDataEntries"]}
{"id": "C16", "title": "S19: no input text can crash the parser", "statement": "For every file content the S19 parser returns a map or an error.", "quantifier": "for every file content and CPU count", "why_tests_cant": "all inputs", "anchors": ["srec19/record.go: parseRecord, calcDataEntries", "srec19/hex.go: parseHex"]}
{"id": "C17", "title": "S19: header and terminator records do not hide data", "statement": "A standard S19 file (an S0 header line, S3 data lines, an S7 terminator line) parses to the data of all its S3 lines.", "quantifier": "for every header text, every list of data lines, every CPU count", "why_tests_cant": "depends on header length and on which worker gets the header", "anchors": ["srec19/hex.go: parseRecordRoutine", "srec19/record.go: parseRecord"]}
{"id": "C18", "title": "The two hex formats agree", "statement": "The same memory image written as Intel HEX and as S19 gives the same address-to-byte map.", "quantifier": "for every image and block layout, every CPU counts", "why_tests_cant": "relates two parsers on all inputs", "anchors": ["ihex32/hex.go: ParseFromFile", "srec19/hex.go: ParseFromFile"]}
{"id": "C19", "title": "Fan-out/collect pipeline: in-order and deadlock-free", "statement": "When the work is split over n workers that each send any number of batches on their own bounded channel and close it, and the collector drains the channels in worker order, then every schedule terminates, none deadlocks, and the collected sequence is the in-order concatenation.", "quantifier": "for every number of workers, every list of batches per worker, every channel capacity >= 0, every schedule", "why_tests_cant": "all schedules", "anchors": ["ihex32/hex.go: parseHex (collection loops)", "srec19/hex.go: parseHex (collection loops)", "a2l/token_generator.go: buildTokenGeneratorFromString"]}
{"id": "C20", "title": "Checksum verdict channel: never blocks and verdict is schedule independent", "statement": "The n checksum workers never block on the verdict channel (capacity n), all finish, and the verdict is 'invalid' iff some record is invalid, for every schedule.", "quantifier": "for every number of workers, every record list, every schedule", "why_tests_cant": "all schedules", "anchors": ["ihex32/record.go: validateChecksumsRoutine", "ihex32/hex.go: parseHex", "srec19/record.go: validateChecksumsRoutine", "srec19/hex.go: parseHex"]}
{"id": "C21", "title": "ReadCalibration: error iff a reader fails; success delivers both results", "statement": "ReadCalibration terminates under every schedule; it returns an error iff the A2L reader or the hex reader reported one (or the file type is unsupported), and on success the returned data are exactly the results of both readers.", "quantifier": "for every outcome of the two readers and every schedule of the two goroutines", "why_tests_cant": "all interleavings of sends, closes and waits", "anchors": ["calib_data.go: ReadCalibration, readA2L, readHex"]}
{"id": "C22", "title": "ReadCalibration: the first error is the one reported", "statement": "If both readers fail, the error returned is the one that was reported first.", "quantifier": "for every schedule in which both readers fail", "why_tests_cant": "depends on the schedule", "anchors": ["calib_data.go: ReadCalibration"]}
{"id": "C23", "title": "Hex format selection follows the file name", "statement": "A path ending in .hex (any case) is read as Intel HEX, a path ending in .s19 as S19, anything else is rejected.", "quantifier": "for every path string", "why_tests_cant": "all paths, including directories containing the other suffix", "anchors": ["calib_data.go: readHex"]}
{"id": "C24", "title": "A2L tokens do not depend on the number of tokenizer workers", "statement": "The token sequence produced from an A2L text is the same for every number of workers.", "quantifier": "for every text and every two worker counts", "why_tests_cant": "depends on where share boundaries fall relative to comments and strings", "anchors": ["a2l/token_generator.go: buildTokenGeneratorFromString, buildTokenList"]}
{"id": "C25", "title": "A2L comments never leak into tokens", "statement": "Text inside /* */ comments and after // never influences the token sequence.", "quantifier": "for every text with comments at any position", "why_tests_cant": "all texts", "anchors": ["a2l/token_generator.go: skipLineComment, skipMultilineComment"]}
{"id": "C26", "title": "A2L quoted strings become exactly one token", "statement": "A double-quoted string yields exactly one token containing its words, regardless of what it contains (slashes, comment markers, keywords).", "quantifier": "for every quoted content and every context", "why_tests_cant": "all strings", "anchors": ["a2l/token_generator.go: getTextInQuotationMarks, buildNextValidToken"]}
{"id": "C27", "title": "A2L text is never dropped silently by the tokenizer", "statement": "If A2L parsing succeeds, every word outside comments of the file has been passed to the parser as (part of) a token.", "quantifier": "for every text", "why_tests_cant": "all texts", "anchors": ["a2l/token_generator.go: buildTokenList, getTwoWordedToken"]}
{"id": "C28", "title": "A2L object parsers terminate on every token stream", "statement": "Every object parser returns (value or error) after finitely many steps on every token stream, never reads outside the token list and never loops at end of file.", "quantifier": "for every parser and every token stream", "why_tests_cant": "non-termination cannot be observed by a test", "anchors": ["a2l/*.go: parse functions", "a2l/token_generator.go: next, current"]}
{"id": "C29", "title": "A truncated A2L object is an error", "statement": "If the closing /end of an object does not occur in the rest of the token stream, its parser reports an error.", "quantifier": "for every block parser and every token stream", "why_tests_cant": "all truncation points", "anchors": ["a2l/*.go: parse functions"]}
{"id": "C30", "title": "An A2L block parser stops exactly at its own closing token", "statement": "When a block parser succeeds, the last token it consumed is its own /end token, and it consumed at least one token, never moving backwards.", "quantifier": "for every block parser and token stream", "why_tests_cant": "all token streams", "anchors": ["a2l/*.go: parse functions"]}
{"id": "C31", "title": "An unexpected keyword inside an A2L object is an error", "statement": "If a token that is an A2L keyword not allowed in the current object occurs where the object's own parameters are expected, the parser reports an error.", "quantifier": "for every parser and token stream", "why_tests_cant": "all token streams", "anchors": ["a2l/*.go: parse functions", "a2l/tokens.go: keywordMap"]}
{"id": "C32", "title": "A2L positional parameters are read back in declared order", "statement": "Writing an object's mandatory parameters in order between its begin and end tokens and parsing gives an object with exactly those values, each in its own field.", "quantifier": "for every object kind and all parameter values", "why_tests_cant": "all values for all object kinds", "anchors": ["a2l/*.go: parse functions"]}
{"id": "C33", "title": "A2L integer parameters are never truncated", "statement": "An integer parameter of width 16 or 32 is accepted iff the token is a decimal number in the range of that width, and its value is the number written.", "quantifier": "for every token", "why_tests_cant": "all strings", "anchors": ["a2l/*.go: strconv.ParseUint/ParseInt call sites"]}
{"id": "C34", "title": "Multithreaded and sequential A2L module parsing agree", "statement": "For a file with one module, parsing it with many workers yields the same objects as parsing it sequentially.", "quantifier": "for every module content, every worker count, every schedule", "why_tests_cant": "depends on where worker boundaries fall and on the schedule", "anchors": ["a2l/module.go: parseModule, parseModuleMultithreaded, parseModuleMainLoop"]}
{"id": "C35", "title": "Multithreaded module parsing terminates without deadlock and loses no object that was parsed", "statement": "For every schedule of parser and collector goroutines the module parser terminates, and every object some worker parsed and sent is in the result unless replaced by another of the same name.", "quantifier": "for every number of workers, every list of objects per worker, every schedule", "why_tests_cant": "all schedules", "anchors": ["a2l/module.go: parseModuleMultithreaded, collectors, closeChannels"]}
{"id": "C36", "title": "Two definitions of the same name resolve to the last one in the file", "statement": "When a module defines an object name twice, the later definition is the one found.", "quantifier": "for every module, worker count and schedule", "why_tests_cant": "depends on schedule", "anchors": ["a2l/module.go: parseModule, collectors"]}
{"id": "C37", "title": "Two A2L files can be parsed concurrently", "statement": "Parsing two A2L files in two goroutines gives each caller the result of its own file.", "quantifier": "for every pair of files and every interleaving", "why_tests_cant": "all interleavings", "anchors": ["a2l/token_generator.go: tokenList", "a2l/a2l.go: ParseFromFile"]}
{"id": "C38", "title": "Object lookup by name is complete, ordered and total", "statement": "GetObjectByIdent returns exactly the objects with this name of the twelve searched categories (axis points, characteristics, ..., system constants, units), in that fixed order, and never crashes.", "quantifier": "for every successfully read calibration and every name", "why_tests_cant": "all databases and names", "anchors": ["record_manager.go: GetObjectByIdent"]}
{"id": "C39", "title": "Address alignment yields the next aligned address", "statement": "The aligned address is the least address >= the given one that is divisible by the alignment border in force for the data type (record layout, else module common, else default).", "quantifier": "for every address, data type, record layout and module settings", "why_tests_cant": "all addresses and borders", "anchors": ["calib_data.go: getNextAlignedAddress"]}
{"id": "C40", "title": "Byte extraction returns the bytes stored in the hex map", "statement": "Reading n bits at an address returns the n/8 bytes at that and the following addresses, or an error if n is not a multiple of 8 or an address is missing; it does not crash.", "quantifier": "for every map, address and length", "why_tests_cant": "all maps", "anchors": ["calib_data.go: getBytes"]}
{"id": "C41", "title": "Address strings decode according to byte order", "statement": "A hexadecimal address string of 8 digits (with optional 0x) decodes big-endian by default and little-endian when so configured; unsupported orders are errors; no crash.", "quantifier": "for every string and byte order", "why_tests_cant": "all strings", "anchors": ["record_manager.go: convertStringToUint32Address"]}
{"id": "C42", "title": "Raw bytes decode to the value of their data type", "statement": "Decoding a byte slice as a data type returns the number those bytes represent in the configured byte order (two's complement for signed types, the IEEE bit pattern for floating point types), an error if there are too few bytes or the byte order is unsupported, and never crashes.", "quantifier": "for every byte slice, data type and byte order", "why_tests_cant": "all byte values for all types", "anchors": ["record_manager.go: convertByteSliceToDatatype", "a2l/enums.go: GetDatatypeLength"]}
{"id": "C43", "title": "Verbal range tables map a value inside a range to its text", "statement": "A value v with min <= v < max of some row of a verbal range table converts to that row's text, otherwise to the default text, otherwise an error.", "quantifier": "for every table and value", "why_tests_cant": "all tables and values", "anchors": ["compu_methods.go: calcTabVerbRange"]}
{"id": "C44", "title": "Verbal and numeric tables map exact keys to their entry", "statement": "A value equal to a key of a verbal or numeric table without interpolation converts to the entry of the first such key; otherwise to the default, otherwise an error.", "quantifier": "for every table and value", "why_tests_cant": "all tables and values", "anchors": ["compu_methods.go: calcTabVerb, calcTabNoIntp"]}
{"id": "C45", "title": "Rational and linear conversion invert the A2L formula", "statement": "The physical value p computed for internal value x by a rational conversion satisfies x = (a p^2 + b p + c)/(d p^2 + e p + f), and by a linear conversion p = a x + b; with missing coefficients or no solution an error is returned.", "quantifier": "for every coefficient set and value (exact arithmetic)", "why_tests_cant": "all reals", "anchors": ["compu_methods.go: convDecToPhy, calcRatFunc"]}
{"id": "C46", "title": "Record layout positions: duplicates are rejected, otherwise a bijection", "statement": "GetRecordLayoutRelativePositions returns an error iff two positioned fields share a position; otherwise the map sends each used position to the one field declared there and contains nothing else.", "quantifier": "for every record layout", "why_tests_cant": "all 2^41 subsets of fields and all positions", "anchors": ["a2l/record_layout.go: GetRecordLayoutRelativePositions"]}
{"id": "C47", "title": "Record layout field types are looked up by name", "statement": "GetDatatypeByFieldName returns the declared data type of the named field, and an error when the field has none; every name returned by GetRecordLayoutRelativePositions for a fully declared field has a type.", "quantifier": "for every record layout and name", "why_tests_cant": "all layouts and names", "anchors": ["a2l/record_layout.go: GetDatatypeByFieldName"]}
{"id": "C48", "title": "Conversion tables have as many outputs as inputs, and as many as declared", "statement": "After successful parsing of COMPU_TAB / COMPU_VTAB / COMPU_VTAB_RANGE the input and output columns have equal length, equal to the declared number of rows.", "quantifier": "for every token stream", "why_tests_cant": "all token streams", "anchors": ["a2l/compu_tab.go: parseCompuTab", "a2l/compu_vtab.go: parseCompuVtab", "a2l/compu_vtab_range.go: parseCompuVtabRange"]}
{"id": "C49", "title": "System constants return their value", "statement": "Looking up a defined system constant returns its value; an undefined one is an error.", "quantifier": "for every database and name", "why_tests_cant": "all databases", "anchors": ["record_manager.go: getSystemConstant, getSystemConstantValue"]}
{"id": "C50", "title": "Data type sizes match the A2L standard", "statement": "The bit length reported for each data type is the standard one (8,8,16,16,32,32,64,64,16,32,64) and names convert to types and back without loss.", "quantifier": "for every data type and name", "why_tests_cant": "finite for sizes, all strings for names", "anchors": ["a2l/enums.go: GetDatatypeLength, parseDataTypeEnum, String"]}
{"id": "C51", "title": "S19: the number of CPUs does not change the result", "statement": "For any two numbers of CPUs the S19 parser gives the same verdict and, on success, the same address map for the same file.", "quantifier": "for every file and every two CPU counts", "why_tests_cant": "a test runs on one machine with one CPU count and samples files", "anchors": ["srec19/hex.go: parseHex, parseRecordRoutine", "srec19/record.go: calcDataRoutine"]}
{"id": "C52", "title": "Reading a characteristic delivers the stored values", "statement": "For a characteristic whose record layout is in the database, getValuesFromHex stores for every positioned scalar field the value that the hex data hold for it.", "quantifier": "for every database, hex data, record layout and map iteration order", "why_tests_cant": "all layouts, data and iteration orders", "anchors": ["calib_data.go: getValuesFromHex, getValue", "characteristic_values.go: NewCharacteristicValues"]}
{"id": "C53", "title": "Interpolating tables interpolate or report an error", "statement": "A TAB_INTP conversion of a value between two keys returns the value on the straight line between their entries, or an error if interpolation is not supported.", "quantifier": "for every table and value", "why_tests_cant": "all tables and values", "anchors": ["compu_methods.go: convDecToPhy"]}
{"id": "C54", "title": "Reserved space advances the position by its size in bytes", "statement": "A RESERVED entry of size BYTE, WORD or LONG moves the read position by 1, 2 or 4; without a size it is an error.", "quantifier": "for every layout and position", "why_tests_cant": "all positions", "anchors": ["reserved.go: getReserved", "a2l/enums.go: GetDataSizeLength"]}
{"id": "C55", "title": "Every module of a file holds its own objects", "statement": "For a file with several modules that is parsed successfully (name and description present in each module, the call not overlapped by another), the project lists exactly the modules of the file in file order, and each module holds exactly the objects written between its /begin MODULE and its /end MODULE, for every number of CPUs; only files with fewer than two modules use the parallel module parser, which could not read the second module of a file.", "quantifier": "for every file with at least two (and less than 2^32) modules, every CPU count, every schedule", "why_tests_cant": "unbounded number of modules and objects; depends on a counter in another file that selects the parser", "anchors": ["a2l/a2l.go: ParseFromFile", "a2l/project.go: parseProject", "a2l/token_generator.go: moduleCount", "a2l/module.go: parseModuleMultithreaded"]}
{"id": "C56", "title": "A file that parses is a well-formed A2L file and the result is what it says", "statement": "A file is accepted only if it consists of the version numbers and one PROJECT; the result holds their values, and the project holds its modules in file order.", "quantifier": "for every token list", "why_tests_cant": "all files, accepted or not", "anchors": ["a2l/a2l.go: parseA2l", "a2l/project.go: parseProject"]}
{"id": "C57", "title": "Every constant of an enumeration can be written wherever its enumeration is declared, and is read back as itself", "statement": "For every enumeration type of a2l/enums.go and each of its declared constants: an object with a parameter or part of that type accepts the constant there and stores it; nothing else is ever stored in such a field.", "quantifier": "for every enumeration type, every constant, every object that has a parameter or part of that type, every token list", "why_tests_cant": "all constants times all objects times all surroundings; the constant may collide with a keyword", "anchors": ["a2l/enums.go: parseDataTypeEnum, parseAddrTypeEnum, parseIndexModeEnum, ...", "a2l/tokens.go: keywordMap", "a2l/instance.go: parseInstance"]}
{"id": "C58", "title": "An object is only read where its keyword stands", "statement": "Whenever one A2L parse function calls another, the cursor stands on the keyword that introduces the object the called function reads.", "quantifier": "for every token list, every parse function, every position, every depth of nesting", "why_tests_cant": "192 functions with some hundreds of call sites, each reachable with every token list", "anchors": ["a2l/*.go: all parse functions", "a2l/variant_coding.go: parseVariantCoding", "a2l/module.go: parseModuleMainLoop"]}
{"id": "C59", "title": "A word that introduces or closes an object is never taken for a parameter", "statement": "Every word that introduces an object, closes a block or introduces an enumeration part is in the table of keywords and is rejected where a parameter is expected; the table contains no other words.", "quantifier": "for every word, every object that follows its declaration, every token list", "why_tests_cant": "all words times all positions", "anchors": ["a2l/tokens.go: keywordMap, isKeyword"]}
{"id": "C60", "title": "A truncated hex file is rejected", "statement": "If lines are missing at the end of an Intel HEX or S19 file (so that its terminating record is missing), an error is reported; in any case no address gets a byte it does not have in the whole file.", "quantifier": "for every file, every place where it is cut, every number of CPUs and schedule", "why_tests_cant": "all files times all cuts times all interleavings", "anchors": ["ihex32/hex.go: ParseFromFile, parseHex", "srec19/hex.go: ParseFromFile, parseHex"]}
{"id": "C61", "title": "Nothing after the end-of-file record is read", "statement": "Records that follow the Intel HEX end-of-file record (type 01) have no influence on the result.", "quantifier": "for every file, everything that may follow its end-of-file record, every number of CPUs and schedule", "why_tests_cant": "everything may follow the record", "anchors": ["ihex32/hex.go: parseHex, parseRecordRoutine", "ihex32/record.go: parseRecord, calcDataRoutine"]}
{"id": "C62", "title": "Every record type is honoured or rejected", "statement": "An accepted Intel HEX file has only records of the types 00 to 05 and its memory is what they define, extended segment addresses (type 02) included; data of S1 and S2 records of an S19 file is either read or reported.", "quantifier": "for every file, every number of CPUs and schedule", "why_tests_cant": "256 types at every position of every file", "anchors": ["ihex32/hex.go: parseRecordRoutine; ihex32/record.go: addOffsets, calcDataRoutine, calcDataEntries", "srec19/hex.go: parseRecordRoutine; srec19/record.go: parseRecord, calcDataRoutine"]}
{"id": "C63", "title": "The order of records within a segment does not matter, and hex files can be joined", "statement": "Permuting data records (between two changes of the segment) changes neither the verdict nor the memory. Two files written one after the other are accepted exactly if both are and have no common address, and define the union.", "quantifier": "for all files, all permutations, every number of CPUs and schedule", "why_tests_cant": "factorially many orders, and the distribution of the lines over workers changes with each", "anchors": ["ihex32/hex.go: parseHex; ihex32/record.go: addOffsets, calcDataRoutine", "srec19/hex.go: parseHex; srec19/record.go: calcDataRoutine"]}
{"id": "C64", "title": "Markers tell which values were in the text", "statement": "After a successful parse the `...Set` field of a value is true exactly if the value was present in the text of the object, and a value that was not present is the zero value of its Go type.", "quantifier": "for every token list, every object type and every number of parameters present", "why_tests_cant": "every object type with every possible number of parameters and arbitrary optional parts in between", "anchors": ["a2l/axis_pts.go: parseAxisPts and the other 170 parse functions of the same form", "a2l/function_list.go: parseFunctionList"]}
{"id": "C65", "title": "Optional parts: the last of a single part, all of a list, the last under each name", "statement": "The optional parts an object has after the parse are those of its text, each beginning at its keyword, without overlap and without omission: a field for one part has the last one, a list has all of them in the order of the text, a map has under every name the last one with that name.", "quantifier": "for every token list and every object type with optional parts, any number and order of parts", "why_tests_cant": "arbitrarily many parts in arbitrary order and nesting", "anchors": ["a2l/mod_par.go: parseModPar", "a2l/record_layout.go: parseRecordLayout", "a2l/characteristic.go: parseCharacteristic"]}
{"id": "C66", "title": "GetObjectByIdent returns the objects of the file", "statement": "After an A2L file was read without error, GetObjectByIdent returns for every name exactly the objects with that name which the text of the module in use contains: of each of the eleven searched kinds the last one, and the system constant of the last MOD_PAR.", "quantifier": "for every file, every module index and every name", "why_tests_cant": "unboundedly many files and names; composition of tokenizer-level parsing and lookup", "anchors": ["record_manager.go: GetObjectByIdent", "a2l/a2l.go: parseA2l", "a2l/module.go: parseModule"]}
{"id": "C67", "title": "Conversion tables convert as the file says", "statement": "After an A2L file was read, converting a value with a COMPU_VTAB or COMPU_TAB (no interpolation) gives the text or number beside the first row of the table in the file whose key equals the value, otherwise the DEFAULT_VALUE of the table in the file, otherwise an error; with a COMPU_VTAB_RANGE it gives the text of the row whose range contains the value. No accepted table crashes the conversion.", "quantifier": "for every file, every table (any number of rows), every value", "why_tests_cant": "unboundedly many tables and values; composition of parsing (row counting, markers, default) and lookup", "anchors": ["a2l/compu_tab.go: parseCompuTab", "a2l/compu_vtab.go: parseCompuVtab", "a2l/compu_vtab_range.go: parseCompuVtabRange", "compu_methods.go: calcTabVerb, calcTabVerbRange, calcTabNoIntp"]}
{"id": "C68", "title": "Conversion methods convert as the file says", "statement": "After an A2L file was read, converting a value with a COMPU_METHOD gives the value itself for IDENTICAL, the value of the line with the two numbers after its COEFFS_LINEAR for LINEAR, and a value whose image under the rational function with the six numbers after its COEFFS is the given one for RAT_FUNC; a method without the part it needs is an error, and so is a value without such a preimage.", "quantifier": "for every file, every conversion method in it, every value", "why_tests_cant": "unboundedly many files and values; composition of parsing (optional parts, order of coefficients) and arithmetic", "anchors": ["a2l/compu_method.go: parseCompuMethod", "a2l/coeffs.go: parseCoeffs", "a2l/coeffs_linear.go: parseCoeffsLinear", "compu_methods.go: convDecToPhy, calcLinear, calcRatFunc"]}
{"id": "C69", "title": "Byte order, alignment and record layouts are those of the file", "statement": "After an A2L file was read, addresses and values are decoded in the byte order named after the last BYTE_ORDER of the last MOD_COMMON of the module (big endian without one, an error for the mixed orders); the alignment border of a data type is the number after the ALIGNMENT keyword of the record layout, otherwise of MOD_COMMON, otherwise the size of the type; every field of a record layout has the position and data type that stand after its keyword, is absent without the keyword, and two fields with the same position are rejected.", "quantifier": "for every file, every record layout in it, all 41 fields, all data types, all addresses and byte strings", "why_tests_cant": "unboundedly many files; 41 fields with separately written parse functions and structs; composition of parser and decoder", "anchors": ["a2l/mod_common.go: parseModCommon", "a2l/byte_order.go: parseByteOrder", "a2l/record_layout.go: parseRecordLayout, GetRelativePositions", "calib_data.go: convertStringToUint32Address, getNextAlignedAddress, getValuesFromHex"]}
{"id": "C70", "title": "Objects that are written to a file and read again are unchanged", "statement": "Let a tree of A2L objects be written to a file: every object as its keyword, its parameters, its list of further words and its parts in order, ended by its /end keyword. If every parameter has the declared type, ParseFromFile returns exactly the structs of the tree: every parameter, every list, every part in its field, list or map entry, every marker, and nothing else set.", "quantifier": "for every tree of any depth and size over all declared objects, every worker count, every interleaving with calls that do not overlap", "why_tests_cant": "unbounded nesting, 171 separately written parse functions in every combination; tests read a few sample files", "anchors": ["a2l/*.go: all parse functions", "a2l/a2l.go: ParseFromFile, parseA2l", "a2l/project.go: parseProject", "a2l/token_generator.go: buildTokenGenerator"]}
{"id": "C71", "title": "The order of the parts of an object does not matter", "statement": "If the parts of an A2L object (for example the characteristics, groups and tables of a module) stand in another order in the file, and there is one part under each name, and the parts of a field that is not kept by name stand in the same order, then the same struct is read. A further part changes no field but its own, and in a map no entry but the one under its own name.", "quantifier": "for every object of the regular functions, every number of parts, every permutation", "why_tests_cant": "factorially many orders; interference between parts is only visible for particular pairs", "anchors": ["a2l/module.go: parseModule", "a2l/characteristic.go: parseCharacteristic", "a2l/group.go: parseGroup"]}
{"id": "C72", "title": "The values of a characteristic are read from the image", "statement": "getFncValues1D returns the value decoded from the bytes at the aligned position with the data type of FNC_VALUES and moves the position behind it; getFncValues2D returns as many values as FIX_NO_AXIS_PTS_X or the dimension of the characteristic says.", "quantifier": "for every image, record layout, data type, position and dimension", "why_tests_cant": "no function calls them yet, so no test runs them", "anchors": ["fnc_values.go: getFncValues1D, getFncValues2D"]}
{"id": "C73", "title": "Intel HEX: the result does not depend on the interleaving of the goroutines", "statement": "On a machine with a given number of CPUs two runs of the Intel HEX parser on the same text that both return give the same result: the same map and no error, or the same error with the same map.", "quantifier": "for every text (also malformed, colliding and with wrong sums), every number of CPUs, every two interleavings", "why_tests_cant": "the offset workers write the same records under locks; a test sees few interleavings", "anchors": ["ihex32/hex.go: parseHex", "ihex32/record.go: addOffsets, calcDataRoutine"]}
{"id": "C74", "title": "A2L: an object is read from its own text", "statement": "If a parse function called on the first token of a text returns without error at its last token, it returns the same struct wherever this text stands: tokens before and after it have no influence. Two functions, MATRIX_DIM and FRAME_MEASUREMENT, also look at the one token after the text.", "quantifier": "for every parse function except the one for whole files, every text, every surrounding token list", "why_tests_cant": "the surroundings are unbounded; a shared cursor with look-ahead or step-back could leak state between neighbours only for some of them", "anchors": ["a2l/token_generator.go: next, current, previous", "a2l/*.go: parse functions", "a2l/matrix_dim.go: parseMatrixDim", "a2l/frame_measurement.go: parseFrameMeasurement"]}
{"id": "C75", "title": "A2L: nothing is invented", "statement": "Every leaf of a struct that is returned without error stands in the text that was read: texts are words of it (joined by spaces where a text is read word by word), integers are the value of one of its words, floating point numbers are one of its words; the only other values are the zero values, the marks that a part was present, and the default DIRECT of a BLOB.", "quantifier": "for every parse function, every token list, sequentially and in parallel with every number of workers and schedule", "why_tests_cant": "conversions that fail leave a value in the buffer; only some paths of 160 functions could store it unnoticed", "anchors": ["a2l/*.go: parse functions", "a2l/module.go: parseModuleMultithreaded, parseModuleMainLoop", "a2l/enums.go"]}
{"id": "C76", "title": "A2L: the clean-up of a file before it is cut into tokens", "statement": "Before tokens are made a file is changed in two ways only: every backslash is left out together with the character after it (unless that is a line end), and characters at both ends that are not graphic are left out. Doing it twice changes nothing more, and no escaped quotation mark is left for the later replacement.", "quantifier": "for every text", "why_tests_cant": "all texts; a regular expression with a reference to a group that does not exist", "anchors": ["a2l/a2l.go: cleanBytesString, readFileToString", "a2l/token_generator.go: buildTokenGeneratorFromString"]}
{"id": "C77", "title": "Hex files: the exact result for every text, also for malformed ones", "statement": "For any text whatsoever the two hex readers return: the empty map with the checksum error if a line they look at has a wrong sum; otherwise the pairs of the lines they look at are stored in order, the map being exactly these pairs if no address occurs twice, and otherwise the error naming the first address that does, with both values, and a map with exactly the pairs before it. Nothing else in the text and no interleaving has an influence on the result.", "quantifier": "for every text, every number of CPUs, every interleaving", "why_tests_cant": "all texts including malformed ones, lines of even length and overlapping fields; schedules", "anchors": ["ihex32/hex.go: parseHex, parseRecordRoutine", "ihex32/record.go: parseRecord, addOffsets, calcDataEntries", "srec19/hex.go: parseHex", "srec19/record.go: parseRecord, calcDataEntries"]}
{"id": "C78", "title": "A2L: files with objects of every kind are read with exactly the values that belong to them", "statement": "Every kind of A2L object, also those with a parser of their own (MEASUREMENT, UNIT, MEMORY_LAYOUT, MEMORY_SEGMENT, BLOB, OVERWRITE, VARIANT_CODING, VAR_FORBIDDEN_COMB, FRAME, BIT_OPERATION, the conversion tables, MATRIX_DIM and so on), can be written as a list of words such that it is read, wherever it stands, with a value that depends on these words only: every parameter in its field, the rows of a table in their columns, the optional parts in their fields; reading stops at its last word. A file built from such objects is read with exactly the values that belong to it. For the kinds with a parser of their own the value is not always what was meant: of the words after the data type of a MEASUREMENT only the last one is kept.", "quantifier": "for every tree of objects of any depth and size, every number of table rows, every number of workers", "why_tests_cant": "unbounded trees, all words; equality of the whole struct", "anchors": ["a2l/measurement.go: parseMeasurement", "a2l/compu_tab.go: parseCompuTab", "a2l/compu_vtab.go: parseCompuVtab", "a2l/compu_vtab_range.go: parseCompuVtabRange", "a2l/memory_segment.go: parseMemorySegment", "a2l/variant_coding.go: parseVariantCoding", "a2l/matrix_dim.go: parseMatrixDim", "a2l/frame.go: parseFrame", "a2l/a2l.go: ParseFromFile"]}
{"id": "C79", "title": "The fields of a record are read one after the other in the order of their positions", "statement": "With a byte reader that works, the values of a record are found one after the other: the position starts at the address of the characteristic, each field moves it by its size, reserved space is skipped, every value is stored under its own field and nothing else changes; a failed read leaves the position where it is. (In the code the position moves by the number of bits, and the order of the fields is that of a range over a map.)", "quantifier": "for every record layout, every list of fields, every byte reader, every start address including the wrap at 2^32", "why_tests_cant": "the code crashes before a value is read (C40), so no test can reach it; unbounded layouts; random map order", "anchors": ["calib_data.go: getValuesFromHex", "axis_pts.go: getAxisPointsX", "distOp.go: getDistOpX", "no_axis_pts.go: getNoAxisPtsX", "identification.go: getIdentification", "reserved.go: getReserved"]}
{"id": "C80", "title": "The layout of an A2L file does not matter", "statement": "Two A2L files with the same tokens are read to the same result however they are laid out: any white space and line ends, several tokens per line, comments between tokens, a byte order mark; in particular the struct returned is exactly the tree of objects that the file describes, for files with several modules and with one module, on any number of CPUs.", "quantifier": "for every tree of objects of every kind, every layout, every number of CPUs, every schedule, other calls before and after", "why_tests_cant": "unboundedly many layouts of unboundedly many files; share boundaries depend on the number of CPUs", "anchors": ["a2l/a2l.go: ParseFromFile", "a2l/a2l.go: readFileToString", "a2l/token_generator.go: buildTokenGeneratorFromString", "a2l/token_generator.go: tokenBuilderRoutine", "a2l/module.go: parseModuleMainLoop"]}
{"id": "C81", "title": "ReadCalibration returns what the two files say", "statement": "If the A2L file describes a tree of objects and the hex file an image of bytes, ReadCalibration returns, under every schedule of its goroutines, without error and with exactly the values of these objects and exactly these bytes; GetObjectByIdent then answers, for every module and every name, with exactly the objects of that module that have that name in the file. If the hex file cannot be read, the caller gets that error and no data.", "quantifier": "for every tree of objects, every layout of the A2L file, every image and both formats, every number of CPUs, every schedule of all goroutines, every name", "why_tests_cant": "unbounded files, all interleavings of the readers and their workers", "anchors": ["calib_data.go: ReadCalibration", "calib_data.go: readA2L", "calib_data.go: readHex", "record_manager.go: GetObjectByIdent", "a2l/a2l.go: ParseFromFile", "ihex32/hex.go: ParseFromFile", "srec19/hex.go: ParseFromFile"]}
{"id": "C82", "title": "The hex parsers as concurrent programs: safe, deadlock-free, terminating, deterministic", "statement": "parseHex of both formats, with all its goroutines, channels, wait groups and mutexes interleaved in any way, never panics, never deadlocks and never runs for ever; whenever it returns, map and error are the ones that the text determines. No two offset workers are in the critical section of one record, and the offset workers never change what the checksum workers read without a lock.", "quantifier": "for every text, every number of CPUs, every interleaving of all goroutines", "why_tests_cant": "all interleavings of unboundedly many steps", "anchors": ["ihex32/hex.go: parseHex", "ihex32/record.go: addOffsets, validateChecksumsRoutine, calcDataRoutine", "srec19/hex.go: parseHex", "srec19/record.go: validateChecksumsRoutine, calcDataRoutine"]}
{"id": "C83", "title": "No goroutine of the hex parsers outlives the call for ever", "statement": "After parseHex has returned, with or without an error, every goroutine it has started comes to its end; none stays blocked on a channel or a lock.", "quantifier": "for every text, every number of CPUs, every interleaving", "why_tests_cant": "a blocked goroutine is invisible to the caller; all interleavings", "anchors": ["ihex32/hex.go: parseHex (early returns)", "ihex32/record.go: calcDataRoutine", "srec19/hex.go: parseHex", "srec19/record.go: calcDataRoutine"]}
{"id": "C84", "title": "The A2L parser as a concurrent program: safe, deadlock-free, terminating, no goroutine left behind", "statement": "ParseFromFile, with the goroutines of the tokenizer, the main goroutine and, at every call of the module parser, its workers, closing goroutine and collectors interleaved in any way, never panics, never deadlocks and never runs for ever; whenever it returns, the result is the one of the parse functions on the tokens of the text, with some order in which the collectors received the objects, and every such result is the result of a run; when it goes on from the tokenizer or from the module parser all goroutines started there have ended and all channels are empty.", "quantifier": "for every text, every number of workers, every interleaving of all goroutines", "why_tests_cant": "all interleavings of unboundedly many steps", "anchors": ["a2l/a2l.go: ParseFromFile, parseA2l", "a2l/token_generator.go: buildTokenGeneratorFromString, tokenBuilderRoutine", "a2l/module.go: parseModuleMultithreaded, parseModuleMainLoop, closeChannelsAfterParsing, the collectors"]}
{"id": "C85", "title": "ReadCalibration with all goroutines of all parsers", "statement": "ReadCalibration, with readA2L, readHex and every goroutine that the A2L parser and the hex parser start, interleaved in any way, never panics, never deadlocks and never runs for ever, for any two files, readable or not. The result is put together from what the two files give: both contents, or no data and an error of one of the files. A hex file with a wrong checksum or with two bytes for one address never gives data. For correct files the result holds exactly the objects of the A2L file and exactly the bytes of the hex file, and GetObjectByIdent answers with exactly the objects of that name.", "quantifier": "for every pair of files, every number of CPUs, every interleaving of all goroutines", "why_tests_cant": "all interleavings of all goroutines of three parsers on unboundedly many files", "anchors": ["calib_data.go: ReadCalibration, readA2L, readHex", "a2l/a2l.go: ParseFromFile", "a2l/module.go: parseModuleMultithreaded", "ihex32/hex.go: ParseFromFile, parseHex", "srec19/hex.go: ParseFromFile, parseHex", "record_manager.go: GetObjectByIdent"]}
{"id": "C86", "title": "A2L: the exact tokens of every text, also of malformed ones", "statement": "For any text whatsoever the tokens are: for each worker in order, the tokens read from its own lines, and an empty token at the end. A worker reads words one by one: a word in which // or /* comes before any quotation mark begins a comment, which takes the rest of the line or all words up to the first one with */; a word with a quotation mark begins a string, which takes all words until the number of quotation marks is even and is one token with single blanks; /begin and /end are joined with the next word; any other word with a slash ends the reading of this worker; every other word is a token. What is not completed is left out. Every text is read in exactly one way.", "quantifier": "for every text, every number of workers", "why_tests_cant": "all texts, including malformed ones; the interplay of comments, strings, slashes and share boundaries", "anchors": ["a2l/token_generator.go: buildTokenGeneratorFromString, tokenBuilderRoutine, buildTokenList, buildNextValidToken, skipLineComment, skipMultilineComment, getTextInQuotationMarks, getTwoWordedToken", "a2l/a2l.go: cleanBytesString"]}
{"id": "C87", "title": "Conversions in float64 arithmetic", "statement": "The physical value delivered for LINEAR is the float64 nearest to a*raw+b, the same on every processor, and it is finite or an error is reported. Every single operation (sum, difference, product, quotient, square root) is correctly rounded, ties to even, with overflow to infinity. TAB_NOINTP compares and delivers numbers without any rounding. RAT_FUNC delivers a number or an error.", "quantifier": "for all finite float64 coefficients and raw values, all tables", "why_tests_cant": "there are 2^192 combinations of coefficients and raw value; double rounding and cancellation show in few of them, and a test run on one processor does not show what another one delivers", "anchors": ["compu_methods.go: convDecToPhy, calcRatFunc, calcTabNoIntp", "record_manager.go: convertByteSliceToDatatype"]}
{"id": "C88", "title": "The numbers of an A2L file", "statement": "A floating-point number of an A2L file is accepted exactly if it is an ordinary decimal number within the range of float64 (no NaN, no infinity, no hexadecimal digits, no underscores); it is then read as the float64 nearest to the number that is written. After the file was read, LINEAR and TAB_NOINTP convert with these numbers: the coefficients and the rows in the text of the file decide the converted float64.", "quantifier": "for every token, every file, every conversion method and table in it, every raw value", "why_tests_cant": "unboundedly many spellings of numbers; double rounding shows for few of them; the composition of parsing, reading of numbers and arithmetic", "anchors": ["a2l/coeffs_linear.go: parseCoeffsLinear", "a2l/coeffs.go: parseCoeffs", "a2l/compu_tab.go: parseCompuTab", "compu_methods.go: convDecToPhy, calcTabNoIntp"]}
{"id": "C89", "title": "The bytes of an A2L file", "statement": "Text of an A2L file that is not ASCII is delivered as it stands in the file. For any bytes, UTF-8 or not, the tokens are those of the characters Go sees in the bytes, with exactly the bytes the file has for them; a file in UTF-8 gives the tokens of its text in UTF-8; a byte beyond ASCII in a code page such as Latin-1 neither separates words nor is lost, and a file in an encoding that the reader does not understand (UTF-16) is not read as something else. All strings delivered are valid UTF-8.", "quantifier": "for every sequence of bytes, every number of CPUs, every text and encoding", "why_tests_cant": "all byte sequences, valid or not, in every position relative to quotation marks, escapes, comment marks and line ends; marks must never be found inside a character of several bytes", "anchors": ["a2l/a2l.go: readFileToString, cleanBytesString, parseA2l", "a2l/token_generator.go: buildTokenGeneratorFromString, tokenBuilderRoutine, buildTokenList"]}
{"id": "C90", "title": "No data races", "statement": "The goroutines of a call that parses an Intel HEX, S19 or A2L file, or of a call of ReadCalibration, which does both, never access the same memory at the same time: of two accesses to one location by different goroutines, not both reads and not both atomic, one happens before the other in the sense of the Go memory model. This includes goroutines that still run after the call has returned, and the caller, which sets the logger and then uses the result. Each mechanism that is there for this purpose is needed: the mutexes of the records, waiting for the offset workers, the atomic counter of modules, one field per collector, waiting for the collectors, setting the logger before goroutines are started, waiting for them before the result is used. Two calls at the same time may race with each other no more than one call with itself.", "quantifier": "for every text, every number of goroutines, every order of their steps, every capacity of the channels", "why_tests_cant": "the race detector sees only the races of the schedules and files it runs; a race needs the right file, the right moment and the right number of CPUs", "anchors": ["ihex32/hex.go: parseHex", "ihex32/record.go: addOffsets, validateChecksumsRoutine, calcDataRoutine", "srec19/hex.go: parseHex", "a2l/token_generator.go: buildTokenGeneratorFromString, tokenBuilderRoutine", "a2l/module.go: parseModuleMultithreaded, parseModuleMainLoop, closeChannelsAfterParsing, collectChannelsMultithreaded", "calib_data.go: ReadCalibration, readA2L, readHex, configureLogger"]}
{"id": "C91", "title": "No goroutine outlives a call of ReadCalibration", "statement": "When ReadCalibration has returned, with or without an error, every goroutine that it or one of the parsers has started comes to its end; after a return without an error they have all ended already. The main goroutine of the A2L parser never goes on while a goroutine that it has started still runs.", "quantifier": "for all contents of both files, every number of CPUs, every interleaving of all goroutines", "why_tests_cant": "a goroutine that stays blocked is invisible to the caller; all interleavings of all goroutines of both parsers", "anchors": ["calib_data.go: ReadCalibration, readA2L, readHex", "a2l/module.go: parseModuleMultithreaded, collectChannelsMultithreaded, closeChannelsAfterParsing", "a2l/token_generator.go: buildTokenList", "ihex32/hex.go: parseHex", "srec19/hex.go: parseHex"]}
{"id": "C92", "title": "The hash map has all structs and their values", "statement": "For the result of parsing an A2L file, toHashMap returns without an error a map that contains every struct and every value, under the names of the fields, the positions in lists and the keys of maps, with the same value; and it contains nothing else.", "quantifier": "for all A2L files, whether modules are read one after the other or in parallel, all paths into the result", "why_tests_cant": "the only test looks at the error, not at the map; 192 struct types, fields of any nesting, numbers that JSON cannot express", "anchors": ["a2l/a2l.go: toHashMap, A2L", "all struct types of a2l/*.go"]}
{"id": "C93", "title": "ReadCalibration leaves its input files alone", "statement": "A call of ReadCalibration changes neither of the two files it is given, and what it returns depends only on the content the two files had before the call: it is put together from what they give (C85), in every interleaving. No other file is changed except the log file calibReader.log.", "quantifier": "for all contents of all files, all paths and links (which file a path denotes), every number of CPUs, every interleaving, every moment of every log message", "why_tests_cant": "tests run in one directory with fixed paths; a path that denotes the log file, or a directory that cannot be written, does not occur", "anchors": ["calib_data.go: ReadCalibration, configureLogger", "a2l/a2l.go: readFileToString", "ihex32/hex.go: readFileToString", "srec19/hex.go: readFileToString"]}
{"id": "C94", "title": "Quoted strings are delivered character for character", "statement": "The text of a double-quoted string, with its quotation marks, is given to the parser as it stands in the file: nothing is left out, added or changed between the quotation marks.", "quantifier": "for every content, every document before the string and every text behind it", "why_tests_cant": "all contents in all contexts; tests use strings with single spaces, which survive", "anchors": ["a2l/token_generator.go: getTextInQuotationMarks, buildNextValidToken"]}
{"id": "C95", "title": "An A2L object without one of its mandatory parameters is an error", "statement": "If a parse function accepts an object, every positional parameter that the object declares was in the text.", "quantifier": "for every parse function and every token stream around the object", "why_tests_cant": "every object can be cut short in many ways at every nesting depth; tests read complete files", "anchors": ["a2l/*.go: parse functions"]}
{"id": "C96", "title": "No word of an accepted A2L object is ignored", "statement": "If a parse function accepts an object, every word between its keyword and its end that does not belong to an optional part is the value of one of its parameters or a member of its list; a superfluous word is an error.", "quantifier": "for every parse function, all words, every token stream around the object", "why_tests_cant": "tests read well-formed files; superfluous words can stand in any object", "anchors": ["a2l/*.go: parse functions (the last else-if of the default case)"]}
{"id": "C97", "title": "Integers of an A2L file may be written in hexadecimal notation", "statement": "ASAP2 allows an integer to be written as 0x and hexadecimal digits. Such a word is accepted wherever an integer is declared, with the value it stands for.", "quantifier": "for every parse function and every hexadecimal number in the range of the parameter, every token stream around the object", "why_tests_cant": "more than a hundred places read an integer, and each could use another base; test files write most of these numbers in decimal notation", "anchors": ["a2l/*.go: all calls of strconv.ParseUint and strconv.ParseInt (base 10)"]}
{"id": "C98", "title": "Parsing an A2L file takes a number of steps linear in its tokens", "statement": "There are constants such that every call of a parse function that moves the cursor over k tokens executes at most 413 + 1533 k statements, those of the functions it calls included, and calls never nest deeper than eight functions, however the blocks of the file are arranged.", "quantifier": "for every parse function, every token list and every position, whether the call succeeds or fails", "why_tests_cant": "a loop that rereads tokens or steps back and forth is slow only on the input that provokes it; no set of files bounds the running time on all others", "anchors": ["a2l/*.go: parse functions (forLoop, tok.next(), tok.prev())", "a2l/token_generator.go: next, previous"]}
{"id": "C99", "title": "The hex parsers make a bounded number of steps", "statement": "On a file of L lines with n workers every run of the Intel HEX parser has at most 4 (n + 1) L + 10 n + 5 steps and every run of the S19 parser at most 4 L + 9 n + 5, the goroutines left behind included. A step is a channel, lock or wait-group operation with the computation up to the next one.", "quantifier": "for all lines, every number of CPUs and every schedule", "why_tests_cant": "a livelock or a quadratic amount of waiting shows only under particular schedules; a test sees one schedule", "anchors": ["ihex32/hex.go:101-202 parseHex", "ihex32/record.go:56-81 addOffsets", "srec19/hex.go:101-191 parseHex"]}
{"id": "C100", "title": "A call of ReadCalibration makes a bounded number of steps", "statement": "The A2L parser makes at most 4 n + 2 steps and 3 T + n + 56 further steps for each word /begin MODULE in a file of T tokens with n workers; for a text of C characters (fewer than 2^32 - 1) that is at most 3 C + 5 n + 61. A whole call with an A2L file of A characters, a hex file of H characters and n CPUs makes at most 3 A + 4 (n + 1) (H + 1) + 20 n + 78 steps, all goroutines included. A step is a channel, lock or wait-group operation with the computation up to the next one.", "quantifier": "for all contents of both files, every number of CPUs and every schedule", "why_tests_cant": "waiting for each other in circles shows only under particular schedules, and a test sees one of them; no set of files bounds the number of steps on all others", "anchors": ["calib_data.go:45-98 ReadCalibration", "a2l/a2l.go:54-85 ParseFromFile", "a2l/module.go:327-1005 parseModuleMultithreaded", "a2l/token_generator.go:43-98 buildTokenGeneratorFromString"]}
{"id": "C101", "title": "Cutting a file into tokens takes a number of character operations linear in its length", "statement": "There is a constant c such that buildTokenGeneratorFromString and the functions it calls look at no more than c (|s| + 1) characters for every file s, whatever the number of workers; every Contains, Index, Count, Fields, TrimSpace, comparison and concatenation counts as many characters as it goes over.", "quantifier": "for all contents of the file and every positive number of workers", "why_tests_cant": "a test measures the time of particular files; a factor that grows with the length of one construct shows only on files in which that construct is long", "anchors": ["a2l/token_generator.go:43-134 buildTokenGeneratorFromString", "a2l/token_generator.go:136-210 buildNextValidToken", "a2l/token_generator.go:261-289 getTextInQuotationMarks"]}
{"id": "C102", "title": "The hex readers invent nothing", "statement": "Whatever the text of the file, and also if there is an error: for every byte of the returned map the text has a data line (Intel HEX: type 00, S19: S3) with a right checksum, in which the byte is written as two hex digits and which gives it this address (Intel HEX: in a segment that a line of type 04 of the text selects, or in the first). A map with N > 0 bytes needs a text of at least 2 N + 11 characters (S19: 2 N + 14), so the map is never larger than half of the file.", "quantifier": "for all texts, every positive number of CPUs and every interleaving", "why_tests_cant": "no set of files shows that no other file makes the reader store a byte that is not in it, or a map that is larger than the file", "anchors": ["ihex32/hex.go:216-238 ParseFromFile", "ihex32/record.go:171 calcDataEntries", "srec19/hex.go:205 ParseFromFile", "srec19/record.go:139 calcDataEntries"]}
{"id": "C103", "title": "The workers of addOffsets share the records", "statement": "A goroutine of addOffsets stops when it finds a record that another one has already updated, so the goroutines divide the N records among themselves: with n CPUs they lock records at most N + n times in total, each record once and one more per goroutine that stops.", "quantifier": "for all lists of parsed records, every positive number of CPUs and every interleaving", "why_tests_cant": "the number of locks depends on the interleaving and on where the segment records lie relative to the starts of the goroutines; the result of the reader is the same however often a record is locked", "anchors": ["ihex32/record.go:56-81 addOffsets", "ihex32/hex.go:132-138 parseHex"]}
{"id": "C104", "title": "Names mean nothing to the A2L parser", "statement": "Exchanging two names in all tokens of an A2L file - words that are not words of the language and no numbers - exchanges the same two names in the result of every parse function, in all texts and all keys of maps, and changes nothing else: not the numbers, not the position where the parse function ends, not whether there is an error or a crash. The same holds with the modules parsed in parallel, for the same interleaving.", "quantifier": "for all token lists, all parse functions and starting positions, all pairs of names, every number of workers and every interleaving", "why_tests_cant": "a dependence on a particular name, on its length or on the order of names would show only for the names that trigger it; the names of a test file are a fixed few", "anchors": ["a2l/token_generator.go:21-41 current, next, previous", "a2l/module.go:327-1005 parseModuleMultithreaded", "a2l/a2l.go parseA2l"]}
{"id": "C105", "title": "A relocated hex file gives the same bytes at the moved addresses", "statement": "If every segment record of an Intel HEX file selects the segment k further up (with the checksums to match) and everything else is the same, or if every address of an S19 file is d further up, then the file is accepted or rejected as before and every byte is found k * 65536 or d further up, and nothing else is in the image.", "quantifier": "for all files in which every data line is in a segment, all distances, all numbers of CPUs for either file and every interleaving", "why_tests_cant": "all files and distances; a special treatment of one segment or address shows only in files that use it together with others", "anchors": ["ihex32/record.go:56-81 addOffsets", "ihex32/record.go:171 calcDataEntries", "srec19/record.go:139 calcDataEntries"]}
{"id": "C106", "title": "The values of the bytes mean nothing to the hex readers", "statement": "If two hex files are the same line by line except for the values of the data bytes (and the checksums that go with them), they are both accepted or both rejected, their bytes are at the same addresses, and every byte has the value that stands at its place in its own file: whatever relation holds between the bytes at the same places of the two files holds between the bytes at the same addresses of the two images.", "quantifier": "for all well-formed Intel HEX files (also those whose bytes the reader stores in the wrong segment) and all S19 files whose recognised lines are S3 lines, every relation between bytes, every number of CPUs and every interleaving", "why_tests_cant": "a value treated specially, for instance 00 or FF as empty, shows only in a file that has it at the right place; all relations between bytes are covered at once", "anchors": ["ihex32/record.go:171 calcDataEntries", "ihex32/record.go:56-81 addOffsets", "srec19/record.go:139 calcDataEntries"]}
{"id": "C107", "title": "Only the bytes count, not how a hex file divides them among its lines", "statement": "Two hex files that define the same bytes at the same addresses, in any order, in lines of any length and in either case, are both accepted or both rejected and give the same image.", "quantifier": "for all files with right checksums, all divisions of their bytes among lines, all numbers of CPUs for either file and every interleaving", "why_tests_cant": "the number of divisions and orders of the same bytes is unbounded; a reader that depends on line lengths or the order of lines gives the right image for the divisions that were tried", "anchors": ["ihex32/hex.go:101-202 parseHex", "ihex32/record.go:56-81 addOffsets", "srec19/hex.go:101-191 parseHex"]}
{"id": "C108", "title": "Blanks in a hex file do no harm", "statement": "White space before or behind a line of a hex file, or blank lines, leave the image as it is or make the reader report an error; they never make it lose data silently.", "quantifier": "for all well-formed files of both formats, every line, all white space, all numbers of CPUs and every interleaving", "why_tests_cant": "test files come from tools that write no blanks; whether blanks are harmless depends on where they are, how many there are, and on the share of the worker they fall into", "anchors": ["ihex32/hex.go:245 parseRecordRoutine", "ihex32/record.go:30-47 parseRecord", "srec19/hex.go:234 parseRecordRoutine", "srec19/record.go:30-36 parseRecord"]}
{"id": "C109", "title": "Line ends of several kinds never change an image", "statement": "A hex file of records without blank lines in which some records end in CRLF and some in LF only, or in which all of two or more records end in CR only, is rejected with an error and an empty image; records glued together by the splitting are never read as one.", "quantifier": "for all lists of well-formed records (Intel HEX) and of S3 records (S19) of any length, every distribution of the line ends with at least one CRLF and one LF, with or without an end of line after the last record, all numbers of CPUs and every interleaving", "why_tests_cant": "test files come from one tool and end all lines alike; which records are glued together, and whether the reader notices, depends on where the other line ends are and on the records before and behind them", "anchors": ["ihex32/hex.go:227-231 ParseFromFile", "ihex32/record.go:30-47 parseRecord", "ihex32/record.go:100-150 validateChecksum", "srec19/hex.go:216-220 ParseFromFile", "srec19/record.go:30-36 parseRecord"]}
{"id": "C110", "title": "A stray character in a hex record is an error", "statement": "In a hex file that is accepted, every character of every record behind its start mark is a hexadecimal digit.", "quantifier": "for all files of both formats without unreadable lines, all records, all positions in the line, all numbers of CPUs and every interleaving", "why_tests_cant": "a test puts stray characters at a few places of a few lines; the only place where they are not noticed, the one before the checksum, in any line of any length, is easily missed", "anchors": ["ihex32/record.go:34-36 parseRecord", "ihex32/record.go:47 parseRecord", "srec19/record.go:33-36 parseRecord"]}
{"id": "C111", "title": "A hex file cut off anywhere never gives a wrong byte", "statement": "The text of a hex file that is accepted, cut off after any number of characters (inside a line, a pair of digits or a line end), is rejected, or gives an image with nothing but bytes of the whole file.", "quantifier": "for all accepted files of both formats without unreadable lines, with CRLF or LF between the lines, all places to cut, all numbers of CPUs for either reading and every interleaving", "why_tests_cant": "a download or a full disk can cut a file at any of its characters, and a cut line can have a right sum by chance; a test tries a few places in a few files", "anchors": ["ihex32/hex.go:216-238 ParseFromFile", "ihex32/record.go:28-54 parseRecord", "ihex32/record.go:171 calcDataEntries", "srec19/hex.go:205-227 ParseFromFile", "srec19/record.go:27-44 parseRecord"]}
{"id": "C112", "title": "An A2L file that ends inside its project is an error", "statement": "If an A2L file opens a project that it does not close, ParseFromFile returns an error; in particular a file cut off between /begin PROJECT and /end PROJECT is never accepted.", "quantifier": "for all files, whatever stands before the project and inside it, all places to cut, all numbers of CPUs and every interleaving of the tokenizer and the module workers", "why_tests_cant": "a file can be cut off after any of its tokens, inside any kind of block, and the cut moves the pieces that the module workers get; a test tries a few cuts with the CPUs of one machine", "anchors": ["a2l/a2l.go:55-87 ParseFromFile", "a2l/a2l.go:90-132 parseA2l", "a2l/project.go:18-68 parseProject", "a2l/module.go:327 parseModuleMultithreaded"]}
{"id": "C113", "title": "ReadCalibration never gives wrong data for a file that is cut off", "statement": "If the A2L file ends inside its project, ReadCalibration returns an error and no data. If the hex file is cut off after any number of characters, ReadCalibration returns an error, or a memory with nothing but bytes that it returns for the whole file.", "quantifier": "for all A2L files and all accepted hex files of both formats without unreadable lines, with CRLF or LF between the lines, all places to cut, all numbers of CPUs and every interleaving of all goroutines of the call", "why_tests_cant": "a test cuts a few files at a few places on one machine; the claim is about every place, every interleaving, and calls on machines with different numbers of CPUs", "anchors": ["calib_data.go:45-98 ReadCalibration", "calib_data.go:102-155 readA2L, readHex", "a2l/a2l.go:55-132 ParseFromFile, parseA2l", "ihex32/hex.go:216-238 ParseFromFile", "srec19/hex.go:205-227 ParseFromFile"]}
{"id": "C114", "title": "A line that cannot be read never gives a wrong byte", "statement": "A hex file in which lines of an accepted file have become unreadable is rejected, or gives an image with nothing but bytes of the accepted file.", "quantifier": "for all accepted files of both formats without unreadable lines, all lines and all ways to make them unreadable, all numbers of CPUs and every interleaving", "why_tests_cant": "what is lost, and where the lines behind are stored, depends on the line, on the records around it and on the number of CPUs; a test damages a few lines on one machine", "anchors": ["ihex32/hex.go:241-256 parseRecordRoutine", "ihex32/record.go:28-54 parseRecord", "ihex32/record.go:58-81 addOffsets", "srec19/hex.go:230-245 parseRecordRoutine"]}
{"id": "C115", "title": "Two digits in the wrong order are an error", "statement": "If two neighbouring digits of different value of a record of an accepted hex file are exchanged, within a byte or across two bytes, in the count, the address, the type, the data or the checksum, the file is rejected and the image is empty.", "quantifier": "for all accepted files of both formats without unreadable lines, all records, all places in a record, all pairs of digits, all numbers of CPUs for either reading and every interleaving", "why_tests_cant": "every place of every record with every pair of digits; a test tries a few", "anchors": ["ihex32/record.go:100-150 validateChecksum", "ihex32/record.go:28-54 parseRecord", "srec19/record.go:62-118 validateChecksum"]}
{"id": "C116", "title": "Every opening word of an accepted A2L object has its closing word", "statement": "In whatever a parse function accepts, each kind of object is opened as often as it is closed: between the first and the last word of the object, /begin X occurs as often as /end X for every object type X, the object's own words included. So if one opening or closing word is lost from an accepted project, what is left is not accepted as a project with the same last word. The content of A2ML and IF_DATA is not meant.", "quantifier": "for every parse function, every token list, every position, every object type", "why_tests_cant": "any of the 193 functions could pass over a word that opens or closes an object, in any of the places where it reads a word; the nesting of blocks has no bound", "anchors": ["a2l/project.go", "a2l/module.go", "a2l/bit_operation.go", "a2l/var_forbidden_comb.go:16-48 parseVarForbiddenComb"]}
{"id": "C117", "title": "Overlapping data lines are reported", "statement": "A hex file in which two data lines, with no segment line between them, give a byte for the same address is rejected; in particular a file in which a data line stands twice.", "quantifier": "for all files of both formats, all pairs of data lines at any distance, all numbers of CPUs and every interleaving", "why_tests_cant": "the two lines may be handled by different workers, anywhere in a file of any length, in a segment whose address the workers look for in different places; a test overlaps a few lines of a few files on one machine", "anchors": ["ihex32/hex.go: parseHex", "ihex32/record.go:58 addOffsets", "srec19/hex.go: parseHex"]}
{"id": "C118", "title": "Intel HEX: a misplaced byte lands in the first 64 KiB", "statement": "Every byte of an accepted file is stored at its own address or at the same place of the first 64 KiB, and nothing else is stored; so an image with nothing in the first 64 KiB is exactly what the file says, and if the file gives no byte there, a byte there is present exactly if the image is wrong.", "quantifier": "for all Intel HEX files of well-formed records with any segment lines, all numbers of CPUs and every interleaving", "why_tests_cant": "which data is misplaced depends on the order of the segments, on the number of CPUs and on where the shares of the workers begin; a test sees a few of these combinations", "anchors": ["ihex32/record.go:58 addOffsets", "ihex32/hex.go: parseHex", "ihex32/record.go:171 calcDataEntries"]}
{"id": "C119", "title": "LINEAR keeps the order of the values", "statement": "Of two raw values the greater one never gets the smaller physical value if the factor of the LINEAR method is not negative, and never the greater one if it is not positive, in spite of the two roundings in float64 arithmetic and also where a result is infinite; there is always a result and it is never NaN.", "quantifier": "for all finite float64 factors, offsets and pairs of raw values, with product and sum computed one after the other or fused", "why_tests_cant": "a violation would need a particular combination of two raw values and two coefficients out of 2^256, where the roundings of product and sum go in different directions", "anchors": ["compu_methods.go:11-58 convDecToPhy"]}
{"id": "C120", "title": "Different bytes decode to different values", "statement": "Two byte strings of the length that is decoded for a data type give the same value only if they are the same bytes, so that the bytes can be recovered from the value.", "quantifier": "for all data types, all byte strings of the decoded length, all byte orders", "why_tests_cant": "there are up to 2^128 pairs of byte strings; those that coincide differ in the last bits of large numbers only", "anchors": ["record_manager.go:154-228 convertByteSliceToDatatype"]}
