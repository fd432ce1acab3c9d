{"id": "C01", "title": "Integer write then read round trip", "statement": "For every integer in the range of the field (0..255 for int_8; -2^15..2^15-1 or 0..2^16-1 for int_16; -2^31..2^31-1 or 0..2^32-1 for int_32), write_int_* produces exactly the field's number of bytes and read_int_* with the same signedness, started at those bytes, returns the same integer and advances the offset by exactly that many bytes, whatever precedes or follows.", "quantifier": "every integer in range, every handler content and offset at which the written bytes appear", "why_tests_cant": "2^32 values times unbounded surrounding content; tests sample a few boundary values", "anchors": ["src/genieutils/common.py: GenieClass.write_int_8/16/32, ByteHandler.read_int_8/16/32", "src/genieutils/datatypes.py: Int"]}
{"id": "C02", "title": "Integer read then write round trip on bytes", "statement": "Reading k bytes (k=1,2,4) with a signedness and writing the value back with the same signedness returns the very same k bytes, and the value read lies in the range of the field.", "quantifier": "every byte string of 1, 2 or 4 bytes, both signednesses where offered", "why_tests_cant": "2^32 byte patterns per width", "anchors": ["src/genieutils/common.py: GenieClass.write_int_*, ByteHandler.read_int_*", "src/genieutils/datatypes.py: Int"]}
{"id": "C03", "title": "Out-of-range integers raise instead of wrapping", "statement": "write_int_* raises OverflowError exactly when the value is outside the range of the field; struct-packed integer fields raise struct.error exactly when outside; there is no integer for which a written field silently wraps or truncates. In a whole file the same holds for each integer field of each record: the file is written with the bytes of the value in place of the old ones, or the writer raises.", "quantifier": "every (unbounded) Python int and every integer field of every record class", "why_tests_cant": "Python ints are unbounded, no finite set of samples separates the boundary for all fields", "anchors": ["src/genieutils/datatypes.py: Int.to_bytes", "src/genieutils/unit.py: *.to_bytes", "src/genieutils/task.py: Task.to_bytes_84/88"]}
{"id": "C04", "title": "Float bits survive read then write", "statement": "For every 4-byte pattern, reading it as a float and writing it back returns the same 4 bytes, including infinities, signed zeros, subnormals and quiet NaN payloads; the only exception are signalling NaNs, which come back as the same pattern with the quiet bit set.", "quantifier": "every 32-bit pattern", "why_tests_cant": "4 billion patterns; the exceptional class (signalling NaNs) is invisible to sampling", "anchors": ["src/genieutils/datatypes.py: Float", "src/genieutils/common.py: read_float, write_float", "src/genieutils/unit.py: struct formats with f"]}
{"id": "C05", "title": "Float write then read: representable values survive, others round to nearest even", "statement": "Writing a Python float and reading it back returns it unchanged if and only if it is exactly representable in single precision (with quiet NaN payload); otherwise a finite in-range float becomes a single-precision neighbour nearest to it, ties to even; a finite float whose nearest single overflows is silently written as infinity by write_float but raises OverflowError in struct-packed fields. This holds for each float field of each record of a file, which is read back with the rounded value in this field and everything else as it was.", "quantifier": "every 64-bit float pattern", "why_tests_cant": "2^64 patterns; the asymmetry between the two writers only shows on overflow", "anchors": ["src/genieutils/datatypes.py: Float.to_bytes", "src/genieutils/common.py: write_float", "src/genieutils/unit.py: struct.pack calls"]}
{"id": "C06", "title": "Debug strings round trip", "statement": "Every string that is encodable in UTF-8, does not end with NUL and whose encoding has at most 65535 bytes is written by write_debug_string as marker, length, payload and read back unchanged by read_debug_string, which consumes exactly the bytes written; a longer string raises OverflowError, a lone surrogate raises UnicodeEncodeError, a string with trailing NULs is read back without them. The same exceptions arise for every text field of every record of a file; any other text is written in place of the old one.", "quantifier": "every Python str, every surrounding content", "why_tests_cant": "unbounded strings over 1.1 million code points; mixed-length encodings and surrogates", "anchors": ["src/genieutils/common.py: write_debug_string, read_debug_string", "src/genieutils/datatypes.py: String"]}
{"id": "C07", "title": "Fixed-length strings", "statement": "write_string(n, s) pads with NULs to n bytes when the encoding fits, and read_string(n) of it returns s with trailing NULs removed; when the encoding is longer than n the writer silently emits more than n bytes (nothing is checked) and write_string(0, s) appends one NUL.", "quantifier": "every string and every length", "why_tests_cant": "unbounded strings and lengths", "anchors": ["src/genieutils/common.py: write_string, read_string", "src/genieutils/datatypes.py: String.to_bytes, String.from_bytes"]}
{"id": "C08", "title": "Cursor discipline of every reader", "statement": "Every read_* method and every from_bytes of every class leaves the content unchanged, never moves the offset backwards, and leaves the version unchanged (only DatFile.from_bytes sets it, once, from the header).", "quantifier": "every class, every handler state, every content including truncated and hostile content", "why_tests_cant": "needs all inputs of all record classes", "anchors": ["src/genieutils/common.py: ByteHandler", "all from_bytes"]}
{"id": "C09", "title": "Readers depend only on the bytes they consume", "statement": "If a from_bytes call succeeds without running past the end of the data, the same call at any other position of any other content where the same bytes appear (same version) returns the same value and consumes the same number of bytes; in particular bytes after the record (or appended after a complete dat file) do not influence the result.", "quantifier": "every class, every pair of handlers agreeing on the consumed bytes", "why_tests_cant": "quantifies over pairs of arbitrary contents", "anchors": ["src/genieutils/common.py: ByteHandler.consume_range", "all from_bytes"]}
{"id": "C10", "title": "Only documented exceptions escape a parse", "statement": "On arbitrary bytes DatFile.from_bytes either returns a DatFile or raises one of struct.error, AssertionError, UnicodeDecodeError or ValueError (unknown version); it never raises IndexError, TypeError, OverflowError or anything else, and always terminates.", "quantifier": "every byte string", "why_tests_cant": "fuzzing cannot establish absence of an exception class for all inputs", "anchors": ["src/genieutils/datfile.py: DatFile.from_bytes", "all from_bytes"]}
{"id": "C11", "title": "Per-class round trip", "statement": "For every record class and supported version, if the object satisfies the explicit field ranges/lengths of that class then to_bytes succeeds and from_bytes at those bytes returns an equal object and consumes exactly the bytes written, whatever follows.", "quantifier": "every class in the package, every version 7.1-8.8, every well-formed object (unbounded lists and strings), every surrounding content", "why_tests_cant": "a reader/writer field mismatch shows only for particular versions, unit types and values", "anchors": ["all from_bytes / to_bytes pairs"]}
{"id": "C12", "title": "Whole-file round trip", "statement": "For every well-formed DatFile d, d.to_bytes() succeeds and DatFile.from_bytes of it returns an object equal to d, also when arbitrary bytes follow.", "quantifier": "every well-formed DatFile of every supported version", "why_tests_cant": "the repository's own test needs real dat files and checks a handful of them", "anchors": ["src/genieutils/datfile.py: DatFile.from_bytes, DatFile.to_bytes"]}
{"id": "C13", "title": "Exact characterisation of round-tripping objects", "statement": "For a DatFile whose to_bytes succeeds, parsing the output returns an equal object if and only if the object is well-formed in the stated sense (so every parsed object is well-formed, and every non-well-formed object that can be written is silently changed or unreadable).", "quantifier": "every DatFile object that can be written", "why_tests_cant": "the 'only if' direction is about all parse results", "anchors": ["src/genieutils/datfile.py: DatFile", "all to_bytes / from_bytes"]}
{"id": "C14", "title": "Parsed files can always be saved, and re-parse identically", "statement": "If parsing some bytes returns d, then d.to_bytes() does not raise and parsing its output gives d again; hence writing is idempotent: a second load/save produces the same bytes as the first.", "quantifier": "every byte string that parses", "why_tests_cant": "quantifies over all accepted inputs, including weird but accepted ones", "anchors": ["src/genieutils/datfile.py: DatFile.parse/save/from_bytes/to_bytes"]}
{"id": "C15", "title": "Byte-exact load/save exactly for clean files", "statement": "Re-encoding a parsed file yields exactly the bytes consumed if and only if the file contains none of: signalling NaNs, NUL-padded debug strings, negative element counts, slot pointers other than 0/1, a terrain count without terrain restrictions, or reads past the end of the data.", "quantifier": "every byte string that parses", "why_tests_cant": "tests check byte equality for a few real files; the exception classes are not in them", "anchors": ["src/genieutils/datfile.py: DatFile", "tests/test_dat_compatibility.py"]}
{"id": "C16", "title": "struct formats, lengths and packing agree", "statement": "For every fixed-layout format, the hard-coded length equals the size of the format, packing any matching in-range values yields exactly that many bytes, unpacking them returns the values, and unpacking any byte string of that length then packing returns the bytes (signalling NaNs aside); number and kind of packed values equal those unpacked.", "quantifier": "every format in task.py/unit.py, every in-range value tuple, every byte string of that length", "why_tests_cant": "unbounded value tuples; tests compare only the constants", "anchors": ["src/genieutils/unit.py: *_FORMAT, *_FORMAT_LENGTH", "src/genieutils/task.py: FORMAT", "tests/test_lengths.py"]}
{"id": "C17", "title": "Version comparison and gating", "statement": "Version comparison is a strict total order agreeing with the release order 7.1 < ... < 7.8 < 8.4 < 8.8 (UNDEFINED below all), the four operators are mutually consistent, and the 'newer than 7.7' test used by readers agrees with the 'at least 7.8' test used by writers for every version.", "quantifier": "every pair/triple of versions", "why_tests_cant": "ordering is implemented through string comparison; gate mismatches need all versions", "anchors": ["src/genieutils/versions.py: Version", "src/genieutils/unit.py: Bird.from_bytes/to_bytes"]}
{"id": "C18", "title": "Unit sub-records are present exactly according to the unit type", "statement": "A parsed unit has speed/dead_fish/bird/type_50/projectile/creatable/building objects exactly as its type prescribes, and to_bytes writes exactly those sub-records: sub-objects not prescribed by the type are ignored by the writer, missing prescribed ones are silently skipped.", "quantifier": "every unit, every type value, every version", "why_tests_cant": "128+ type values times optional combinations times versions", "anchors": ["src/genieutils/unit.py: Unit.from_bytes_84/88, Unit.to_bytes_84/88"]}
{"id": "C19", "title": "Empty graphic and unit slots are preserved", "statement": "None entries of graphics and civ.units survive a write/read round trip at exactly the same indexes, and the list lengths are unchanged.", "quantifier": "every list of optional graphics/units of any length", "why_tests_cant": "unbounded lists and all placements of None", "anchors": ["src/genieutils/datfile.py: graphic_pointers", "src/genieutils/civ.py: unit_pointers", "src/genieutils/common.py: read_class_array_with_pointers, write_class_array"]}
{"id": "C20", "title": "Upgrade 8.4 to 8.8 preserves all data", "statement": "Taking a parsed 8.4 file, setting version to 'VER 8.8' and saving never fails, and loading the result gives the same data except for the version and, for units without creatable record, hot_key becoming 16000.", "quantifier": "every well-formed 8.4 DatFile", "why_tests_cant": "quantifies over all files and unit types", "anchors": ["src/genieutils/unit.py: Unit.from_bytes_84, to_bytes_88", "src/genieutils/tech.py", "src/genieutils/task.py"]}
{"id": "C21", "title": "Downgrade 8.8 to 8.4 loses exactly the documented data", "statement": "Setting version to 'VER 8.4' on a well-formed 8.8 object and saving fails with IndexError if some creatable has no train location; otherwise it succeeds and loading gives the object with task.enabled = -1, only the first train/research location kept (techs without location get the default location).", "quantifier": "every well-formed 8.8 DatFile", "why_tests_cant": "quantifies over all files", "anchors": ["src/genieutils/unit.py: Creatable.to_bytes_84", "src/genieutils/tech.py: to_bytes_84"]}
{"id": "C22", "title": "Encoding is injective and prefix-free", "statement": "Two well-formed objects of the same class and version with equal encodings are equal, and no encoding is a proper prefix of another, so concatenated records decode unambiguously.", "quantifier": "every pair of well-formed objects of every class", "why_tests_cant": "quantifies over pairs of objects", "anchors": ["all to_bytes"]}
{"id": "C23", "title": "Record sizes", "statement": "Each fixed-layout record always encodes to its documented constant number of bytes for its version; variable records encode to a number of bytes that is a fixed function of their list lengths and string byte lengths.", "quantifier": "every object whose to_bytes succeeds", "why_tests_cant": "must hold for all field values", "anchors": ["src/genieutils/unit.py: FORMAT_LENGTHs", "src/genieutils/task.py", "tests/test_lengths.py"]}
{"id": "C24", "title": "save then parse returns the object", "statement": "For every well-formed object, save(target) followed by parse(target) returns an equal object (given that zlib decompression inverts compression), and other files are untouched.", "quantifier": "every well-formed DatFile, every file-system state and path", "why_tests_cant": "quantifies over objects and file-system states", "anchors": ["src/genieutils/datfile.py: DatFile.save, DatFile.parse"]}
{"id": "C25", "title": "A save that cannot encode leaves the target untouched", "statement": "If to_bytes raises for any reason, save raises the same exception and the file system (including an existing target) is unchanged.", "quantifier": "every object, every file-system state", "why_tests_cant": "quantifies over all failing objects and states", "anchors": ["src/genieutils/datfile.py: DatFile.save"]}
{"id": "C26", "title": "Crash during save", "statement": "At whatever point save is interrupted, the target holds either its old content or a prefix of the new compressed data (possibly empty); save is not atomic: the old content is lost as soon as the file is opened. Loading an interrupted target never yields a wrong object silently, given that a truncated deflate stream is rejected.", "quantifier": "every crash point of save, every old content, every object", "why_tests_cant": "crash points and file contents are unbounded", "anchors": ["src/genieutils/datfile.py: DatFile.save"]}
{"id": "C27", "title": "A field edit changes only that field's bytes", "statement": "Changing one fixed-width field (e.g. the Loom gold cost of the README) to another in-range value changes only that field's bytes of the encoded file: same total length, all other bytes identical, and the re-loaded object differs in nothing else.", "quantifier": "every well-formed file, tech index, cost index and value", "why_tests_cant": "quantifies over all files and positions", "anchors": ["README.md: Change cost of Loom", "src/genieutils/tech.py", "src/genieutils/datfile.py"]}
{"id": "C28", "title": "Truncated files", "statement": "Cutting a file anywhere before the end of its last record is never silently taken for the complete file: the parse either raises or runs past the end of the data. Every cut that leaves out more than the last 39 bytes of the terrain block raises. It is NOT true that every cut raises: a file that ends at the boundary before the random maps, effects, unit headers, civilizations, techs or the remaining integers, or inside the random maps, is accepted with everything from there on empty, and so is truncation inside the trailing tech tree (integers only): the result is that of the cut file followed by zeros if the last byte left is below 128 (otherwise a signed integer that is cut in the middle is sign-extended). In general, every file or record that is read past its end is read as the same object from the completed data (zeros, preceded by up to three bytes 255 when the last byte is 128 or more), which has exactly the length that was read and is a spelling of that object; and if the last byte is below 128, zeros added after the data never change the outcome, object or exception, except that they may avoid a struct.error.", "quantifier": "every parsed file and every truncation point", "why_tests_cant": "needs all cut points of all files", "anchors": ["src/genieutils/common.py: consume_range", "src/genieutils/techtree.py"]}
{"id": "C29", "title": "Random map counts are stored, not derived", "statement": "MapInfo writes its stored *_size attributes, not the list lengths: an object whose sizes differ from its list lengths is written without any error and is not read back unchanged; objects with matching sizes round trip.", "quantifier": "every MapInfo", "why_tests_cant": "quantifies over all objects", "anchors": ["src/genieutils/randommaps.py: MapInfo"]}
{"id": "C30", "title": "Terrain restriction counts", "statement": "to_bytes raises AssertionError if the three terrain tables have different lengths or a restriction's two lists differ in length; but restrictions of different sizes are accepted, only the first one's size is written, and such a file does not read back.", "quantifier": "every DatFile", "why_tests_cant": "quantifies over all objects", "anchors": ["src/genieutils/datfile.py: DatFile.to_bytes", "src/genieutils/terrainrestriction.py"]}
{"id": "C31", "title": "Fixed-size lists are not checked by the writers", "statement": "A list or tuple that the reader expects with a fixed length (19 frame data, 200 terrains, 30 terrain units, 3 costs, ...) is written with whatever length it has; a wrong length is never detected by joinable writers and the result does not read back as the same object, whereas wrong tuple lengths in struct-packed records raise struct.error unless several wrong lengths add up to the right total number of values.", "quantifier": "every object with a wrong fixed-size list", "why_tests_cant": "quantifies over all wrong lengths and contents", "anchors": ["src/genieutils/terrainblock.py", "src/genieutils/tech.py", "src/genieutils/unit.py"]}
{"id": "C32", "title": "List edits round trip (README king example)", "statement": "Removing (or appending) a task, unit, tech, sound item, effect command etc. from a well-formed file gives a well-formed file again as long as counts stay within the count field, so the edited object is written and re-read exactly as edited.", "quantifier": "every well-formed file, every civ, every unit index", "why_tests_cant": "quantifies over files and edits", "anchors": ["README.md: Prevent Kings from garrisoning", "src/genieutils/unit.py: Bird"]}
{"id": "C33", "title": "Parse effort is not bounded by file size", "statement": "A short file can make the parser build arbitrarily long lists: element counts are trusted and integer reads past the end give 0. For every n below 2^32 a constant-size input makes MapInfo.from_bytes return n map lands.", "quantifier": "every n < 2^32", "why_tests_cant": "n ranges over 2^32 values", "anchors": ["src/genieutils/common.py: read_class_array, consume_range", "src/genieutils/randommaps.py"]}
{"id": "C34", "title": "dat-to-json output determines the data", "statement": "The tree produced by dataclasses.asdict is determined by and determines the DatFile: different parsed files give different trees; every field appears under its own name.", "quantifier": "every pair of DatFile objects", "why_tests_cant": "quantifies over pairs of objects", "anchors": ["src/genieutils/scripts.py: dat_to_json"]}
{"id": "C35", "title": "Upgrade 7.x to 8.4", "statement": "A parsed file with version below 8.4 can be saved as 8.4: the fields introduced by 8.4 get the documented defaults and everything else is preserved.", "quantifier": "every well-formed file of version below 8.4 (fixed drop-site length aside)", "why_tests_cant": "quantifies over all files", "anchors": ["src/genieutils/unit.py: Creatable.from_bytes_78, Type50.from_bytes"]}
{"id": "C36", "title": "Too many elements for a count field raise", "statement": "If any counted list is longer than its count field can express (255, 32767, 65535, 2^31-1 ...), to_bytes raises (OverflowError unless another value of the record is invalid too); a count is never truncated.", "quantifier": "every counted list of every class", "why_tests_cant": "lists of unbounded length", "anchors": ["all to_bytes with len(...)"]}
{"id": "C37", "title": "Only documented exceptions escape to_bytes", "statement": "to_bytes of any object of the right field types either returns bytes or raises OverflowError, struct.error, AssertionError, UnicodeEncodeError, IndexError (creatable without train locations, versions below 8.8) or ValueError (unknown version string).", "quantifier": "every object", "why_tests_cant": "absence of other exceptions for all objects", "anchors": ["all to_bytes"]}
{"id": "C38", "title": "Version handling of DatFile", "statement": "DatFile.to_bytes ignores its version argument and uses the version attribute; an unknown version string raises ValueError in both directions before anything else is read or written; every parsed file has one of the known versions as first 8 bytes.", "quantifier": "every object and every byte string", "why_tests_cant": "all strings and all byte strings", "anchors": ["src/genieutils/datfile.py: DatFile.from_bytes, DatFile.to_bytes", "src/genieutils/versions.py"]}
{"id": "C39", "title": "The byte format", "statement": "For every class and version, to_bytes returns the concatenation, in a fixed documented order, of the little-endian encodings of the record's fields, counts and sub-records, and succeeds exactly if each of these elementary items can be encoded.", "quantifier": "every object of every class, every version", "why_tests_cant": "quantifies over all objects; tests compare a few", "anchors": ["all to_bytes"]}
{"id": "C40", "title": "Conversions one after the other", "statement": "A file of a version below 8.8 that is upgraded to 8.8 and then saved as its own version again is unchanged except for the hot keys of units without creatable record; an 8.8 file that is downgraded and upgraded again loses nothing more on the way back; converting twice to the same version is converting once; the outcome of a conversion is unique.", "quantifier": "every well-formed file and every version", "why_tests_cant": "quantifies over all files; the lossy fields sit in rare records", "anchors": ["src/genieutils/datfile.py: DatFile.to_bytes, from_bytes", "src/genieutils/unit.py: Creatable, Unit", "src/genieutils/tech.py", "src/genieutils/task.py"]}
{"id": "C41", "title": "dat-to-json prints JSON exactly if all floats are finite", "statement": "What dat-to-json prints is a JSON text in the sense of RFC 8259, denoting the tree of the file, exactly if no float in the file is a NaN or infinite; otherwise it contains NaN or Infinity outside of strings and is no JSON text at all.", "quantifier": "every file that can be parsed", "why_tests_cant": "needs all files, strings and float patterns, and a negative statement over all JSON derivations", "anchors": ["src/genieutils/scripts.py: dat_to_json"]}
{"id": "C42", "title": "When exactly a read raises", "statement": "read_int_* never raise; read_float and the struct-packed records raise struct.error exactly if fewer bytes are left than they need; read_string raises UnicodeDecodeError exactly if its bytes without the trailing NULs are not well-formed UTF-8 (Unicode Table 3-7); read_debug_string raises AssertionError exactly if the marker 60 0A is missing and UnicodeDecodeError exactly if the payload is not well-formed UTF-8. Records of integers never raise; only records with texts raise the other two. struct.error always means missing data: finitely many bytes decide the outcome for all files that begin with them, and it is never struct.error.", "quantifier": "every handler state, every content, every record class, every infinite continuation", "why_tests_cant": "equivalences over all byte strings and all continuations of them", "anchors": ["src/genieutils/common.py: ByteHandler", "src/genieutils/datatypes.py", "all from_bytes"]}
{"id": "C43", "title": "The programs of the README", "statement": "The Loom program raises IndexError (and changes no file) if the file has fewer than 23 techs; otherwise the file it writes loads as the old data with the amount 69, its uncompressed content differs in the two bytes of the amount only, no other file changes, and running it again on its output gives the same file. The king program raises what the first civ raises whose slot 434 is missing (IndexError), empty or of a unit without bird part (AttributeError) or without task (IndexError), and then changes no file; otherwise the new file loads as the old data without the last task of unit 434 of every civ and is shorter by one task per civ.", "quantifier": "every file that can be loaded, every pair of source and target", "why_tests_cant": "quantifies over all files; the tests need a game file and only check a plain round trip", "anchors": ["README.md", "src/genieutils/datfile.py: DatFile.parse, DatFile.save"]}
{"id": "C44", "title": "Histories of edits and saves", "statement": "After any number of program runs, each of which loads a file, edits the object and saves it somewhere, a file loads exactly as an abstract store of objects says that is updated by each run (nothing happens if the source cannot be loaded, the edit raises, or the result cannot be written). If runs may be interrupted by a crash or OSError at any point, each run does this, or nothing, or leaves a target that raises zlib.error; with edits that keep objects well-formed, a load never gives anything but the original result, zlib.error or an object that some run wrote to that file. Files that are no target are untouched byte for byte.", "quantifier": "every history of runs, every interruption point of every run, every file", "why_tests_cant": "unbounded histories and crash points", "anchors": ["src/genieutils/datfile.py: DatFile.parse, DatFile.save"]}
{"id": "C45", "title": "Loading builds a tree of fresh objects; edits in place", "statement": "DatFile.from_bytes returns a new object graph in which no list, tuple or instance is referenced from two places and nothing existed before the call; existing objects are not touched. Hence evaluating an attribute/index expression on a loaded file gives exactly what the data says (or AttributeError, IndexError, TypeError), a program of assignments, appends, insertions, pops and deletions changes exactly the places it names, and two files loaded in one process never influence each other. The README programs, run in place, do what they do on values, and dataclasses.asdict of the graph is the tree that dat-to-json prints.", "quantifier": "every byte string, every heap, every expression, every program of statements, every two files", "why_tests_cant": "absence of aliasing between any two of millions of places, for all files and all programs", "anchors": ["all from_bytes", "src/genieutils/common.py: ByteHandler", "README.md", "src/genieutils/scripts.py: dat_to_json"]}
{"id": "C46", "title": "Loaded objects have the declared types", "statement": "Every attribute at any depth of an object returned by DatFile.from_bytes is an instance of its annotation: exact class, exactly the declared attributes, tuples of exactly the declared length. The only exception: Creatable.invulnerability_level: float is an int in files before 8.4. Tuples cannot be changed in place.", "quantifier": "every byte string that can be loaded, every version", "why_tests_cant": "type annotations are not checked at run time; quantifies over all files and all places", "anchors": ["all dataclass definitions and from_bytes", "src/genieutils/unit.py: Creatable.from_bytes_78"]}
{"id": "C47", "title": "Saving objects: sharing and dynamic types", "statement": "to_bytes of an object graph depends on the values in it only: whether parts are shared, and which version argument is passed to DatFile.to_bytes, does not matter, and an int in a float field is written as float(int). A loaded file, edited in place by any program of assignments, appends, insertions, pops and deletions and then saved, gives the bytes (or the exception) that the value with the same edits gives; the README programs on objects do to the disk what they do on values. For objects of any types, shared or cyclic, what to_bytes gives is decided by what can be seen through attributes and subscriptions; it raises only OverflowError, struct.error, AssertionError, UnicodeEncodeError, ValueError, IndexError, TypeError, AttributeError or RecursionError, the last only if the nesting is deeper than the recursion limit (an object that contains itself raises it at any limit), and if it raises, save leaves the disk as it was.", "quantifier": "every heap and object graph, well-typed or not, every record class, every program, every recursion limit of at least five nested to_bytes calls, every disk fault", "why_tests_cant": "quantifies over all object graphs, shared or not, and all edit programs", "anchors": ["all to_bytes", "src/genieutils/common.py: GenieClass", "src/genieutils/datfile.py: DatFile.save", "README.md"]}
{"id": "C48", "title": "Programs that a type checker accepts", "statement": "A loaded file fits the annotations in the source at every version (int counts for float, as in PEP 484). A program of in-place statements (attribute and element assignments, append, pop, insert, del) whose places and values have the declared types, where the checker is let past '| None', keeps it so: the only exceptions it raises are IndexError and AttributeError/TypeError at a place that is None. Saving the result never raises TypeError, AttributeError or RecursionError, only the errors of C37 (values out of range or too long, lists whose lengths must agree, no train location before 8.8, unknown version); what is saved is the value the program made, and it loads back as that value exactly if the value is well-formed. If the program raises, no file is touched.", "quantifier": "every file that can be loaded, every well-typed program of statements, every version, every disk fault", "why_tests_cant": "quantifies over all typed programs and all files; a type checker is not sound for run-time writers without such a theorem", "anchors": ["all dataclass definitions", "all to_bytes", "src/genieutils/datfile.py: DatFile.parse, DatFile.save"]}
{"id": "C49", "title": "Programs that run at the same time", "statement": "If several processes each load a file, edit it and save it, and none writes to a file that another one reads or writes, then in every schedule of their system calls each ends as it does alone and the disk is the one that running them one after the other in any order gives. With crashes and OSErrors a target is, at any moment, as before or a beginning of what the process alone writes, so loading it gives the old result, zlib.error or the new object. No process ever waits for another one and no schedule is infinite. A load that starts after the save has emptied its target gives the new file or zlib.error. Without independence an edit may be lost silently, and a load that overlaps a save may give an object that was never saved.", "quantifier": "every number of processes, every schedule of their reads and writes in pieces of any size, every fault", "why_tests_cant": "unbounded interleavings of system calls", "anchors": ["src/genieutils/datfile.py: DatFile.parse, DatFile.save", "README.md"]}
{"id": "C50", "title": "Copies, and objects in several places", "statement": "copy.deepcopy of an object graph gives a new graph with the same value and the same sharing, none of whose changeable parts existed before, and changes nothing; it raises only RecursionError, and only when the nesting is deeper than the recursion limit (a whole DatFile needs nine nested calls). A program of assignments, appends, insertions, pops and deletions whose right-hand sides are new objects, deep copies of existing objects or existing immutable objects does what the same program with the values written out does; a copy and its original are independent from then on; if the program is well-typed it keeps the declared types, and one or several files edited by it are saved as the values it makes. Without the copy (data.civs[1].units[4] = data.civs[0].units[4]) a statement changes the object, so its new value appears at exactly the places that hold this object and nowhere else.", "quantifier": "every object graph, every program of such statements on one or several files, every recursion limit", "why_tests_cant": "quantifies over all programs, all graphs and all aliasings between them", "anchors": ["all dataclass definitions", "all to_bytes", "src/genieutils/datfile.py: DatFile.from_bytes, DatFile.to_bytes", "README.md"]}
{"id": "C51", "title": "Python statements on a loaded file", "statement": "Each record of a loaded file is what the expression for its place (data.civs[1].units[4].type_50.attacks[0]) evaluates to, and its attributes are exactly the fields of the record. A program of statements that assign to any attribute of any record, or assign to or delete an element of, append to, insert into or pop from any list, or delete a slice of it, changes the value of the file at the places named and nowhere else: saving writes the bytes of the file with these changes (or raises what they raise), at any fault of the disk. Down to the bytes: after data\u2026.f = i the file has the bytes of i in place of the old ones if i fits and raises otherwise; likewise for floats (and ints given for floats) and texts; after append, insert, pop, deletion or element assignment in a counted list the saved file loads as the old data with the changed list. Assigning to a name that the class does not declare (a typing error) raises nothing and changes no byte of the saved file. A place that is not there raises IndexError, AttributeError or TypeError, and no file changes.", "quantifier": "every file that can be loaded, every place, every attribute and list of every class, every value, every program of such statements", "why_tests_cant": "quantifies over all files, places, fields and values; ties the edits of objects in memory to bytes on disk", "anchors": ["all dataclass definitions", "all from_bytes and to_bytes", "src/genieutils/datfile.py: DatFile.parse, DatFile.save", "README.md"]}
{"id": "C52", "title": "Comparing objects with ==", "statement": "a == b (generated by @dataclass) of objects whose attributes have the declared types never raises, given room for as many nested comparisons as the object is deep (nine for a DatFile), and is True exactly if at every place both have the same kind of object: the same class, the same length, the same text, the same number (int and float compare by value, 0.0 equals -0.0, a NaN equals nothing). So two loads of the same bytes, or a load and the load of what it saves, are equal exactly if the data holds no NaN; a deep copy of NaN-free data is equal to it; and two equal files without negative zeros are saved as the same bytes.", "quantifier": "every two object graphs that fit the annotations, shared or not, loaded or edited; every recursion limit", "why_tests_cant": "quantifies over all pairs of files and all places in them; NaN and signed zeros are the cases a test file does not contain", "anchors": ["all @dataclass(slots=True) definitions", "src/genieutils/datfile.py: DatFile.parse, DatFile.save"]}
{"id": "C53", "title": "The reader accepts exactly the format", "statement": "The file format is a grammar: the objects whose values fit their fields and, per version, the sequence of items of each class, where an item is spelled as it is written or in one of five odd ways (a negative count for an empty list, a signalling NaN, a text padded with NULs, a slot pointer other than 0 and 1, a non-zero filler). DatFile.from_bytes, and from_bytes of every record class, reads an object within the data and moves on by n bytes exactly if the next n bytes are a spelling of that object; otherwise it raises or runs past the end. The grammar is unambiguous and prefix-free, and replacing any item by an odd spelling gives a file that is read as the same object. Also where it runs past the end, a read succeeds exactly if the items can be taken from the data that is left, where the bytes missing at the end stand for zeros, or for 255s in a signed integer cut after a byte of 128 or more, and where floats and struct blocks must be complete; so it raises exactly if that is possible for no well-formed object.", "quantifier": "every byte content, offset, version and object; every record class; every item and odd spelling", "why_tests_cant": "an equivalence over all byte strings and all objects: tests can show neither that nothing else is accepted nor that everything described is", "anchors": ["all from_bytes", "src/genieutils/datfile.py: DatFile.from_bytes", "src/genieutils/common.py: ByteHandler"]}
{"id": "C54", "title": "Which exception a writer raises", "statement": "to_bytes checks the items of an object in the order of the file format, except that the parts of a unit (speed, dead fish, bird, type 50, projectile, creatable, building) come before the unit's own items; a file's version string and the lengths of its terrain tables come first of all. The exception raised is that of the first item that cannot be written, whatever else is wrong with the object; if there is none, the bytes of the items are returned. save raises the same exception before it touches a file.", "quantifier": "every object of every class, every version, every combination of invalid values", "why_tests_cant": "the object may be invalid in any number of places at once; tests cover single faults", "anchors": ["all to_bytes", "src/genieutils/unit.py: Unit.to_bytes", "src/genieutils/datfile.py: DatFile.to_bytes, DatFile.save"]}
{"id": "C55", "title": "python -O", "statement": "Without assertions (python -O) from_bytes of a file and of every class, and to_bytes, give what they give with assertions, unless these raise AssertionError. A file with wrong text markers is then read: as the object that is read, normally, from the same bytes with the markers repaired (and the data completed if it ends early); that object is well-formed, both modes save it as the same bytes, and both read these back as the object, so the next save repairs the file. An object whose lists disagree in length is written, as the bytes of its items, exactly if nothing else is wrong with it; and then no read of any file, in either mode, gives that object back.", "quantifier": "every byte content, offset and version; every object of every class", "why_tests_cant": "compares two execution modes on all inputs; the test suite runs in one of them", "anchors": ["src/genieutils/common.py: ByteHandler.read_debug_string", "src/genieutils/terrainrestriction.py: TerrainRestriction.to_bytes", "src/genieutils/randommaps.py: RandomMaps.to_bytes", "src/genieutils/datfile.py: DatFile.to_bytes"]}
{"id": "C56", "title": "Scripts", "statement": "A script that works with the objects of this package \u2014 reading and assigning attributes and elements, len, is, append, insert, pop, del, new lists, tuples and instances, slices, extend, copy.copy, copy.deepcopy, DatFile.parse and save of any number of files, with any variables, conditions, loops and caught exceptions of its own \u2014 does what it means on values: at every moment of its run, whether it ends or not and whatever happens to the disk, its own state, the answers and exceptions it got, and the files are those of the same script on trees of values, as long as it does not put an object at a second place. What else is in memory does not matter and is not changed. A deep copy, an object taken out of a list and the original are independent; an object put into another one is from then on changed through every name the script has for it. A program that changes all units of all civilizations in two nested loops and saves the file writes the bytes of the file with exactly those changes, for every file.", "quantifier": "every script (also those that never end), every initial memory, every content of the disk, every fault or crash at every write, every moment of the run", "why_tests_cant": "quantifies over all programs a user can write and all their runs; a test runs one program on one file", "anchors": ["src/genieutils/datfile.py: DatFile.parse, DatFile.save", "all @dataclass(slots=True) definitions", "README.md"]}
{"id": "C57", "title": "Scripts that a type checker accepts", "statement": "If a type checker accepts a script \u2014 it uses only attributes that the classes declare, assigns, appends and inserts only what suits the declared types, checks for None where an annotation says so \u2014 then, on every file and disk, none of its actions raises TypeError or AttributeError; each answer has the type that the checker thinks, and so has every object the script knows, at every moment, even if the script lets objects share parts (the same unit in two lists, say). The remaining exceptions are IndexError for an index that does not exist, RecursionError for a deep copy without room for nine nested calls, those of reading a file, those of the disk, and those of values that do not fit their fields. Each DatFile it saves is written as the file with its values; so, if no write fails, each file is always either the one that was there before or the complete file of an object that consists of the declared fields.", "quantifier": "every script and program that type checks (also those that never end), with any sharing of objects; every initial memory, disk, fault and crash; every moment of the run", "why_tests_cant": "quantifies over all well-typed programs and all their runs; aliasing makes the number of cases unbounded", "anchors": ["src/genieutils/datfile.py: DatFile.parse, DatFile.save", "all @dataclass(slots=True) definitions", "all to_bytes", "README.md"]}
{"id": "C58", "title": "Threads", "statement": "Scripts that run as threads of one process and share no objects do what they would do in memories of their own, in whatever order they take turns, with whatever faults of the disk: the package has no hidden shared state, and what one thread does to its objects is invisible to the others; they influence each other through files only. If they use different files, too, each is at any moment where it would be if it ran alone for as many actions as it had turns, with the same content of its files. Threads that do share objects (whose actions do not interrupt each other), in any way, and that a type checker accepts, never make each other raise TypeError or AttributeError: at any moment all objects have the types that the checker thinks.", "quantifier": "every number of threads, every script per thread, every schedule, every moment, every initial memory and disk, every fault or crash of a write", "why_tests_cant": "quantifies over schedules; a test sees few interleavings", "anchors": ["src/genieutils/datfile.py: DatFile.parse, DatFile.save", "all from_bytes and to_bytes", "src/genieutils/common.py: ByteHandler"]}
{"id": "C59", "title": "repr and print", "statement": "repr (and print) of an object that fits the annotations does not raise, given room for as many nested calls as the object is deep (nine for a file), and shows the value and nothing else: Class(name=value, ...) with all declared fields in order, with Python's notation for lists, tuples, strings, numbers and None. Two objects look alike exactly if their values agree at every place, up to payload and sign of NaNs: 2 and 2.0, 0.0 and -0.0, [1] and (1,), 'None' and None look different; strings with quotes, backslashes, control or unprintable characters cannot imitate anything else. So two loaded files without NaN that look alike hold the same data; objects without NaN that look alike are equal; a deep copy looks like its original; loading again gives an object that looks the same. In a well-typed script every instance can be shown at any time. Objects that contain themselves are shown, too: the recursion always ends.", "quantifier": "every object that fits the annotations, in every memory and with any sharing; every pair of byte strings that can be loaded; every memory at all for the end of the recursion", "why_tests_cant": "that two different values never look alike is a statement about all pairs of values", "anchors": ["all @dataclass(slots=True) definitions", "src/genieutils/datfile.py: DatFile.parse"]}
{"id": "C60", "title": "Executing the source is what the theorems are about", "statement": "Executing the actual source text of `from_bytes` of any class of the package \u2014 the syntax tree that Python's parser gives, run by an interpreter for that part of Python \u2014 raises the same exception as the model, or returns the same object, builds the same objects and leaves the reader at the same position; in particular `DatFile.from_bytes` executed from its source loads the value that the model says, as new objects none of which occurs twice.", "quantifier": "all classes, all byte strings, all positions and versions of the reader, all heaps, all recursion limits of at least 13 calls", "why_tests_cant": "Whether a model written by hand (or by a tool) is the program is a question about every input; running both on samples cannot answer it.", "anchors": ["src/genieutils (every from_bytes)", "common.py: ByteHandler", "versions.py: Version"]}
{"id": "C61", "title": "Executing the source of the writers", "statement": "Executing the actual source text of `to_bytes`, of any object \u2014 an instance of any class of the package with any attributes, complete or not, of right or wrong types, or no instance at all \u2014 gives the same bytes, or raises the same exception, as the model, and changes no object. In particular executing `DatFile.from_bytes` and then `to_bytes` of what it returned, both from the source, always succeeds if the first does, gives back the bytes that were read exactly if the file is clean, and bytes that are read as the same value in any case. No function of the package, executed from its source with any arguments, makes an object disappear or change its class, or changes a tuple.", "quantifier": "all objects in all heaps of instances of package classes, all versions, all recursion limits above four calls per level of nesting; all byte strings", "why_tests_cant": "Whether a model is the program is a question about every input, here even every ill-typed object.", "anchors": ["src/genieutils (every to_bytes)", "common.py: GenieClass, write_*", "datfile.py: DatFile"]}
{"id": "C62", "title": "Executing the source of parse, save, dat-to-json and the README programs", "statement": "Executing the actual source text of DatFile.parse, DatFile.save, dat_to_json and main, and the text of the two programs of the README, does what the other properties say about loading, saving, JSON and these programs: the same exceptions, the same files at the end \u2014 also when a write is interrupted by an error or a crash \u2014, the same text on the standard output. parse and dat-to-json change no file; dat-to-json prints the JSON text of the file and one line feed, or nothing at all. The README's first program leaves a file that loads as the old data with 69 as the cost of tech 22, and changes two bytes; the second one leaves a file without the last task of unit 434 of every civ; if a file does not have these techs, units or tasks, they raise and leave all files alone.", "quantifier": "all files on the disk, all lawful compressors, all faults and crash points of a write, all command lines, all objects that already exist, all recursion limits of at least 23 calls", "why_tests_cant": "It combines every file content with every place where a write can be interrupted.", "anchors": ["datfile.py: DatFile.parse, DatFile.save", "scripts.py: dat_to_json, main", "README.md: both programs"]}
{"id": "C63", "title": "python -O, from the source", "statement": "Executing any function of the package from its source with `python -O` \u2014 where assert statements are left out \u2014 has the same outcome as without: the same result, the same objects, the same reader position, or the same exception; unless, without -O, an assertion raises. Reading a file differs only where it is an AssertionError, writing objects with a file's values only where it is an AssertionError and lists that belong together differ in length. What can be loaded loads and saves with -O to the same bytes.", "quantifier": "all functions of the package, all receivers and arguments, all heaps, all positions and contents of the reader, all recursion limits", "why_tests_cant": "Whether the condition of an assertion has an effect the rest depends on is a question about all calls; a test run uses one of the two modes.", "anchors": ["common.py: ByteHandler.read_debug_string", "terrainrestriction.py: TerrainRestriction.to_bytes", "randommaps.py: RandomMaps.to_bytes", "datfile.py: DatFile.to_bytes", "src/genieutils (all functions)"]}
{"id": "C64", "title": "The recursion limit, from the source", "statement": "An execution of any function of the package, with or without -O, of parse, save and dat_to_json, or of a program that uses them like the README's, that does not end in RecursionError has the same outcome \u2014 result, objects, files, output, exception \u2014 with every larger recursion limit. Reading never needs more than 13 calls inside each other, whatever the file.", "quantifier": "all functions of the package, all receivers and arguments, all heaps, files, faults and crash points, all pairs of recursion limits; all byte strings", "why_tests_cant": "It compares executions with every pair of limits, on every input.", "anchors": ["src/genieutils (all functions)", "scripts.py: dat_to_json, main", "README.md: both programs"]}
{"id": "C65", "title": "The text of the package means what is proved about it", "statement": "The classes, functions, field lists, defaults, imports, constants and statements that properties C60 to C64 execute are exactly those written in the files of the package and in the README's two programs: parsing every line of every file, none of which may be refused, gives these and nothing else. Blank lines and lines with only a comment never change what a text means, wherever they are put.", "quantifier": "every line of every module of the package, of scripts.py and of the README's programs; for blank lines and comments: all texts and all places in them", "why_tests_cant": "A test runs some inputs through the code; which code that is \u2014 that no statement was left out or read differently \u2014 is a statement about all of the text.", "anchors": ["src/genieutils/*.py", "README.md: both programs"]}
{"id": "C66", "title": "Scripts that use the package, from the source", "statement": "A program that creates, reads and changes objects of the package in any order, calls DatFile.parse and DatFile.save wherever it likes, and may go on for ever, does the same to objects and files with the source of parse and save executed as written as property C56 says: after every number of steps, with any faults of the disk, and at a crash. In particular parse, any edit that keeps to the data and save leaves the disk and ends as the same edit of the values does.", "quantifier": "all programs over the operations on objects, parse and save; all numbers of steps; all disks, faults and crash points; all recursion limits from 14", "why_tests_cant": "It ranges over all programs around the package and over every moment of their runs.", "anchors": ["datfile.py: DatFile.parse, DatFile.save", "src/genieutils (all functions)"]}
{"id": "C67", "title": "Numbers and strings, from the source", "statement": "Calling the write methods of any object of the package directly, with their source executed as written: write_int_8, write_int_16 and write_int_32, signed or not, write every number in range as bytes that the matching read method returns the number for, moving the offset behind them, and raise OverflowError outside; all bytes are read as a number that is written as these bytes; write_float never fails and read_float returns the float exactly when single precision can represent it; write_string and write_debug_string write, refuse and return the same strings as C06 and C07 say. Neither the objects nor anything else in the reader is changed.", "quantifier": "all integers, floats, strings and lengths; all bytes; all objects, heaps, surrounding contents, versions and recursion limits from 4", "why_tests_cant": "The ranges are too large to enumerate: 2^32 integers, 2^64 floats, all strings.", "anchors": ["common.py: GenieClass.write_int_8, write_int_16, write_int_32, write_float, write_string, write_debug_string; ByteHandler.read_int_8, read_int_16, read_int_32, read_float, read_string, read_debug_string", "datatypes.py: Int, Float, String"]}
{"id": "C68", "title": "The main guarantees, of the source alone", "statement": "With the source of the package executed as written: any bytes whatsoever are loaded or refused with one of four exceptions, independently of other objects and of the recursion limit; loading changes no object that existed; what was loaded can be saved, and what was saved loads again with the same value and is saved as the same bytes, also with other bytes after it; two loaded files have the same value exactly if they are saved as the same bytes; only the bytes read decide; a file cut inside its first part is refused. What parse returned, saved to any file at any time: without faults the file loads with the same value; at a fault or crash the file is as before, or complete, or refused with zlib.error, and nothing else has changed.", "quantifier": "all byte strings, all existing objects, all recursion limits from 23, all disks, files, faults and crash points", "why_tests_cant": "Each is a statement about all files, all cuts, all faults and crash points.", "anchors": ["datfile.py: DatFile.from_bytes, DatFile.to_bytes, DatFile.parse, DatFile.save", "src/genieutils (all functions)"]}
{"id": "C69", "title": "Every record class, from the source", "statement": "With the source of from_bytes and to_bytes of each of the record classes executed as written, at any version and position of any content: an object is read or one of three exceptions raised, independently of other objects and of the recursion limit, and the position never goes backwards; no existing object is changed; what was read can be written, and is read again wherever these bytes are, all of them and no more, with the same value; same value exactly if same bytes, and no encoding is a proper beginning of another; only the bytes read decide; writing raises only documented exceptions.", "quantifier": "all 45 record classes, all versions, contents, positions, existing objects and recursion limits from 18", "why_tests_cant": "Each is a statement about all contents of all classes.", "anchors": ["src/genieutils (from_bytes, from_bytes_with_count and to_bytes of all record classes)"]}
{"id": "C70", "title": "Edits and conversions, of the source alone", "statement": "Between a load and a save, both executed from the source: a loaded file has one value and one version; any sequence of assignments, append, pop, insert and del at places of the file is executed, or raises IndexError, AttributeError or TypeError if a place is not there; if the edited value is one that files can have, it is saved, and loading gives it back, and otherwise to_bytes raises only for the reasons of C37, without touching a file; assigning one integer, float or text field changes the bytes of that field only, or raises if it does not fit; a program that a type checker accepts never makes the save raise TypeError, AttributeError or RecursionError; setting the version and saving converts the file: upgrades keep all data, downgrades lose exactly the documented data.", "quantifier": "all files, all versions, all places, fields and values, all sequences of statements, all disks and faults, all existing objects and recursion limits from 23", "why_tests_cant": "Tests edit a few fields of one file; this is about every field of every record of every file, and all edit sequences.", "anchors": ["datfile.py: DatFile.from_bytes, DatFile.to_bytes, DatFile.parse, DatFile.save", "README.md (examples)", "unit.py: Creatable.to_bytes, Unit.to_bytes", "tech.py: Tech.to_bytes"]}
{"id": "C71", "title": "Reading expressions: exactly the grammar", "statement": "The reading of source text that the theorems about the source rest on returns, for every sequence of tokens, exactly what the grammar of the Python Language Reference says (for the expressions that occur in the package): whatever is read as an expression is one, with that tree (precedence, associativity, chained comparisons, conditional expressions, calls with named and starred arguments, comprehensions); every expression is read, up to its end; and no sequence of tokens has two trees.", "quantifier": "all token sequences, all trees, all amounts of room for the parser", "why_tests_cant": "Tests of a parser try some expressions; that nothing is misread and nothing is ambiguous is a statement about all token sequences.", "anchors": ["src/genieutils (the text of all modules)", "README.md (examples)"]}
{"id": "C72", "title": "Reading statements: exactly the grammar of modules", "statement": "Whatever text is read as a module or program is one by the grammar of the Python Language Reference (for what occurs in the package), with the tree that the grammar gives it: indentation, if/elif/else, for, assignments with and without annotations, functions with default values, decorators, classes with fields, imports. Every module of that grammar is read, given enough room, and no text is a module in two ways; only relative indentation matters. In particular the classes, functions, constants and imports of the package that the other theorems execute are those that the grammar gives to the text of its files.", "quantifier": "all texts (lists of lines), all modules of the package, scripts.py and the programs of the README", "why_tests_cant": "That indentation and nesting are never misread is a statement about all texts.", "anchors": ["src/genieutils (the text of all modules)", "src/genieutils/scripts.py", "README.md (examples)"]}
{"id": "C73", "title": "Reading characters: the lexical grammar", "statement": "The tokens and logical lines that the text of a file is divided into are exactly those of the lexical grammar of the Python Language Reference (for ASCII text; f-strings, prefixed, adjacent or multi-line strings, floats and other escapes are refused): names, numbers with underscores and prefixes, strings and bytes with escapes, operators by longest match, comments, indentation, lines joined within matching brackets or after a backslash. A line has at most one sequence of tokens, and comments at the ends of lines do not change the logical lines. Hence the trees that the other theorems execute are trees that the grammar gives to the characters of the package's files.", "quantifier": "all texts (lists of lines of characters), all modules of the package, scripts.py and the programs of the README", "why_tests_cant": "Tests of a lexer try some lines; that no text is divided wrongly is a statement about all texts.", "anchors": ["src/genieutils (the text of all modules)", "src/genieutils/scripts.py", "README.md (examples)"]}
