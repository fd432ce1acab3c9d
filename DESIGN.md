# Formal model of genieutils-py in Lean 4

`properties.jsonl` lists the properties (C01 …), `lean/Verif` holds the model, the specifications and
the proofs, `MANIFEST.json` maps properties to theorem names, `seeded/LOG.jsonl` records the seeded-bug
experiments.

## Layout

| directory | content |
|---|---|
| `lean/Verif/Py` | models of the Python built-ins used (ints, floats, `struct`, UTF-8). Trusted base. |
| `lean/Verif/Model` | the repository, function by function, each definition citing file and lines. |
| `lean/Verif/Spec` | small independent specifications: field ranges, well-formedness of each class. |
| `lean/Verif/Proof` | helper lemmas (not to be read to understand the claims). |
| `lean/Verif/Props` | the property theorems, with non-vacuity examples next to them. |
| `seeded` | the seeded-bug runner, the mutant generators, `LOG.jsonl`. |
| `tools` | `gen_model.py` transcribes reader/writer methods from the Python AST (text only, the code is not run); the output is committed and was re-read against the source. |

## Trusted base

### Kernel and axioms

* Lean 4.33.0's kernel.  Every property theorem depends on at most `propext`, `Classical.choice` and
  `Quot.sound`; `AXIOMS.txt` (made by `tools/axioms.sh`) lists the axioms of each theorem of `MANIFEST.json`.
  There are no axioms of our own, no `native_decide`, no `bv_decide`, no Mathlib import.
* `decide` / `decide +kernel` is used for (a) finite tables that *are* the quantified domain (the 11 versions,
  the rows of the format and edit tables) and (b) the non-vacuity examples.  Everything quantified over
  objects, bytes, lists or file systems is proved by induction or by composing such proofs.

### Assumptions about the runtime (modelled in `Verif/Py` and `Verif/Model/Io.lean`)

* `int.from_bytes`/`to_bytes`, `bytes` slices, `bytes.rstrip`, `b''.join`, `Enum` lookup by value, string comparison.
* `struct.pack/unpack` for `'<'` + `b h l f` and native `'f'` on a little-endian IEEE host.  CPython >= 3.11: native
  `'f'` does not check overflow, `'<f'` does; both directions quiet signalling NaNs and keep the payload.  Floats are
  64-bit patterns and all conversion is integer arithmetic on them; nothing depends on Lean's `Float`.
* Strict UTF-8 `encode`/`decode` (no surrogates, no overlong forms, at most U+10FFFF).
* zlib is a parameter `z`; theorems about files assume `Zlib.Lawful z`: decompression inverts compression (ignoring what
  follows the end of the stream) and an incomplete compressed stream is rejected.
* The file system maps paths to contents.  `write_bytes` truncates and then appends in arbitrary pieces; the environment
  decides where it is cut short by a crash or an `OSError`.  Metadata, permissions, links and what survives a *power
  failure* (write-back order) are not modelled.
* For C49, several processes share that file system: `read_bytes` and `write_bytes` are sequences of system calls (open, reads and writes of
  arbitrary size at the position of the file object, close) that the schedule interleaves; nobody renames or removes files, no locks.
* `repr(float)` is a parameter (`Json.FloatRepr`): `Lawful` says that the texts of two different finite floats differ and look
  like numbers, `ReadBy floatOf` (C41) that the text denotes the float.  `json.dumps(..., indent=2)` with
  `ensure_ascii=True` and `allow_nan=True` is modelled in `Verif/Py/Json.lean`.
* `copy.deepcopy` (C50) follows `copy.py` of the standard library: numbers, strings and `None` are their own copies, lists and instances enter the
  memo before they are filled, tuples whose elements are their own copies are their own copy.  Simplified: a list is filled in one go, the room is
  counted in nested calls of `deepcopy`, `o.append(v)` evaluates `v` before `o` (which matters only for which of two exceptions is raised).
* `==` (C52) is the generated dataclass `__eq__` (same class, then the tuples of the declared fields), lists and tuples item by item with the identity
  shortcut of CPython, `int`/`float` comparison exact.  Whether two float objects are the same object is a parameter (`same`); the room is counted
  in nested comparisons.  `__repr__` is modelled in C59; the (absent) `__hash__` is not modelled.
* `assert` is executed, except in C55, which models `python -O` (`Model/Optimized.lean`, generated from the model by
  `tools/gen_optimized.py`).  The theorems C30, C06, C10, C37 that speak about `AssertionError` are about the normal mode.
* CPython's limit on the number of digits of `int` to `str` conversions is irrelevant for parsed files (at most 10 digits) and is not modelled.

### Reading the repository correctly

`tools/gen_model.py` reads the method bodies with Python's `ast` and emits reader and writer **independently** (it never derives
one from the other).  The output is committed, cites file and lines, and was re-read against the source.  `tools/` is
not needed for the build.

C60, C61 and C62 remove this step from the trusted base, for the readers, the writers, and the functions that work on files: there the tool only prints the syntax tree (`tools/gen_source.py`), its meaning is
given by the interpreter `Verif/Py/Interp.lean`, and that the heap model agrees with it is a theorem.  Since C65 the trees are not trusted
either: they are what the parser `Verif/Py/Parse.lean` returns for the text of the files.  Trusted for C60 to C73: that `Model/Text*.lean` is that text (`tools/check_text.py`
compares), and the interpreters (their simplifications are listed at the top of the files).
The lexer and the parser are not trusted since C71, C72 and C73: what they return is what the grammar in `Spec/PythonLexical.lean`, `Spec/PythonGrammar.lean` and
`Spec/PythonStatements.lean` says (these three specifications are to be read against the Python Language Reference)
(annotations are skipped, float literals are only those in use).

`Verif/Tests/RepoTests.lean` runs the repository's own unit tests (`/repo/tests`) on the model, as examples.

### What is modelled, what is not

Modelled: all of `common.py`, `datatypes.py`, `versions.py`, every record class (`from_bytes`, `to_bytes`), `DatFile` including `parse`
and `save`, `scripts.dat_to_json` from the file name to the printed text, the two programs of the README; what `@dataclass` generates: `__init__`, `__eq__`,
`__repr__`, with `copy.copy`, `copy.deepcopy` and `dataclasses.asdict` of instances.

Not modelled: argparse and the encoding of the standard output (the printed text is ASCII, see `C34_program_output_ascii`); memory
consumption and time (C33 is about the *number of objects built*); `memoryview` versus `bytes` (same slice semantics);
`slots=True` dataclass machinery; in the value model, objects with fields of a type other than annotated (e.g. a `float`
in an `int` field, `None` in a non-optional field) — the heap writers of C47 do have dynamic types, for `None`, `int`, `float`, `str`, `list`,
`tuple` and instances of the record classes (no `bool`, `bytes`, `dict` or user-defined subclasses); `raise NotImplementedError` in the abstract base class.

### Modelling decisions

* Exceptions are values: `Py a = Except PyErr a`.  A `ByteHandler` method is a function `ByteHandler -> Py (a x ByteHandler)`.
* Python ints are `Int` (unbounded).  Strings are lists of code points, so lone surrogates are representable.
* Tuples and lists are both `List`; the (unchecked by Python) tuple lengths are therefore visible in the well-formedness predicates.
* `retval or b''` in `write_class` is the identity on bytes; the list in `b''.join([...])` is evaluated left to right, first
  exception wins (`joinB`).
* Objects are values; an edit is a new value.  That this is faithful is C45: the readers are modelled a second time on a heap of objects with
  identity (`Model/Heap.lean`, `Model/HeapReaders.lean`), shown to build a tree without sharing, and in-place programs on such a tree are
  shown to be value updates at a place.  Limits of the heap model: `int`, `float`, `str`, `None` have no identity; the statements
  are attribute and element assignment, `append`, `pop`, `insert`, `del o[i]`, `del o[i:j]` (in C45–C50 with indices that are not negative; the scripts of C56 and C57 have negative ones, too); `bool` is represented by the `int` it equals; assigning to a
  method or property (`data.to_bytes = …`), which replaces code, raises there, and evaluating one does too.
* The `ByteHandler` model has one *ghost* flag `lossy` that no modelled function reads.  The primitives raise it when they accept
  input whose exact bytes cannot be recovered (read past the end, signalling NaN, NUL-padded debug string, negative count,
  slot pointer other than 0/1, `terrains_used` without restrictions).  C15 states for which files load/save is byte-exact; the theorems
  `C15_*_flag` pin down, primitive by primitive and without reference to the flag's implementation, when it is raised.
  `C15_file_exact_iff_no_odd` and its companions (`Props/C15_Pieces.lean`) say the same without the flag: the bytes read are one
  accepted chunk per item of the format (`Spec/Layout.lean`, `Spec/Pieces.lean`), and they are reproduced exactly if no chunk is odd.
* `DatFile.old` in C34: for files below 8.4 the reader stores an `int` in the float field `invulnerability_level`
  (`unit.py:509-514,551`); JSON prints `0` instead of `0.0`.  The model keeps the field a float and the tree carries the flag.

## Proof architecture

* `RW v r w a`: "the writer expression `w` succeeds with some bytes and the reader `r`, in a handler of version `v` positioned at
  those bytes, returns `a`, advances by exactly that many bytes and changes nothing else".  Closed under monadic bind against `joinB`
  cons; one lemma per class.
* `Good v r Q P`: for *arbitrary* content: only parse exceptions; content/version unchanged; offset grows; frame property (depends on
  consumed bytes only); the result satisfies `Q` (well-formedness); if the ghost flag is not raised, `P result consumedBytes`
  (re-encoding gives exactly the consumed bytes).  One lemma per class.
* Byte layout (`Spec/Layout.lean`, C39): per class and version, the list of elementary items (`Spec/Items.lean`: integer of a width and
  signedness, float, text, sub-record list ...) in order.  Written from the format, not from the writers; C39 proves the writers
  equal to it, success and exception included, and C23, C27, C36, C37, C31 are read off it.
* Edits (`Spec/Edits.lean`, `Spec/EditElems.lean`): a `Place` is a path of list indexes from the `DatFile` to a record; tables name every
  integer, float, text and list field with a getter/setter; an edit theorem says which bytes change and that nothing else does.
* Conversions (`Spec/Convert.lean`): the documented effect of saving under another version as a function on objects; the theorem is
  that the *bytes* written for the object under the other version are those of the converted object.

## Findings (properties that are false of the code; the negation is what is proved)

* A file that ends right before any part after the terrain block, inside the random maps or inside the trailing tech tree is accepted
  silently, with empty lists for the missing parts (C28); only earlier cuts are sure to raise; integers past the end read as 0 (or sign-extended).
* Counts are trusted: a constant-size file makes the parser build up to 2^32-1 objects (C33).
* `MapInfo` writes its stored sizes, not the list lengths (C29); restrictions of different sizes are accepted (C30);
  fixed-size lists are not checked (C31): all three produce files that do not read back.
* `write_string` emits more bytes than asked for when the text is too long (C07): the file is corrupt.
* Finite floats beyond single precision are silently written as infinity by `write_float` but raise in struct-packed records (C05).
* `save` is not atomic (C26).
* There is no locking: of two programs that edit a file in place at the same time one may lose its edit without an exception, and a load that
  overlaps a save may get the beginning of the old and the end of the new content; two simultaneous saves to one file may both end without an
  exception and leave a file that is neither (C49).
* Assigning a unit or a list without `copy.deepcopy` puts one object in two places: a later edit at one place changes both (C50).
* A mistyped attribute name on the left (`unit.hitpoints = 5`) is not an error: although the classes are declared with `slots=True`, their base
  class has no `__slots__`, so the assignment creates an attribute that nothing reads; the file that is saved has the old value (C51).
* Downgrading to below 8.8 raises `IndexError` for a creatable without train location (C21).
* Files before 8.4 store an `int` in `Creatable.invulnerability_level: float` (C46), visible in the JSON (C34).
* The format checks are `assert` statements: under `python -O` a file with wrong markers is read and silently repaired on saving, and a unit or
  effect whose objects do not match its type is written without them, without an exception (C55).
* `dat-to-json` may print `NaN`/`Infinity`, which is not JSON (C41), and loses NaN payloads (C34).

## Plan per property

| id | what is modelled / how proved |
|---|---|
| C01-C03 | `intFromBytes`/`intToBytes` arithmetic; induction on byte count. |
| C04-C05 | `F.widen`/`F.narrow` on bit patterns; case analysis on exponent; nearest-even against an independent scaled-integer definition (`Spec/Floats.lean`). |
| C06-C07 | UTF-8 model, decode after encode and encode after decode by induction. |
| C08-C10 | `Good` for every class. |
| C11-C12 | `RW` for every class, under `X.WF` (explicit ranges and lengths in `Spec/Records.lean`). |
| C13-C15 | combination of `RW` and `Good`; C13 and C15 are equivalences. |
| C16, C23 | struct lemmas over code lists; per-class size functions (`Spec/Sizes.lean`). |
| C17 | finite table of versions, `decide` over the whole table. |
| C18, C19 | readers/writers of units, pointer arrays. |
| C20, C21, C35, C40 | conversion functions as specification; equality of encodings of object and converted object; C40 composes them. |
| C22 | corollary of `RW`. |
| C24-C26 | file-system model with crash points. |
| C27, C32 | edits as value updates at a `Place`; layout of the edited record. |
| C28 | frame property; zero-fill simulation between a cut file and its zero extension; sign extension by a concrete family; cuts at part boundaries by front/end lemmas (`Proof/Cut*.lean`), the last float of the terrain block for early cuts. For all files: `Fills` (`Proof/Completed*.lean`, per class): the bytes read are a prefix of the data or its completion (`Spec/Completed.lean`), and zero extension commutes with reading up to `struct.error`; with C53 the completed data is a spelling of the object. |
| C29-C31, C33 | negative results: exact characterisation plus witnesses. |
| C34 | `asdict` as a tree-valued function; injectivity; `json.dumps` as text, injectivity by a unique-reading argument. |
| C36, C37 | error sets of the elementary items, lifted through the layout. |
| C38 | directly from the model. |
| C39 | layout tables, see above. |
| C41 | RFC 8259 grammar as an inductive relation (`Spec/Rfc8259.lean`), both directions. |
| C42 | primitives by computation against an independent table of well-formed UTF-8 (`Spec/Utf8.lean`); per-class exception sets by a closure predicate (`Avoids`); streams: a predicate `Decides` closed under bind, for every class. |
| C43 | the two README programs statement by statement with Python's exceptions (`Model/Readme.lean`); C27/C32 for the edits, C23 sizes for the length, C24 for the file. |
| C44 | abstract object store (`Spec/Store.lean`), simulation of one run, induction over the history; nondeterministic store for interrupted runs. |
| C45 | heap semantics (`Model/Heap*.lean`); representation predicate with footprint (`Spec/Objects.lean`); every heap reader simulates the value reader and owns what it returns; statements by a hole/frame argument. |
| C46 | table of annotations (`Spec/Annotations.lean`), typing relation on object trees, one lemma per class. |
| C47 | the writers a second time on the heap with dynamic types and dispatch by class (`Model/HeapWrite.lean`, `Model/HeapWriters.lean`, generated); every writer on an object that *shows* a value writes what the value writer writes, class by class; files by `Model/HeapIo.lean`. Objects of any type: what can be seen of an object (`Spec/Alike.lean`) decides what is written, writer by writer (`Proof/Heap/AlikeWriters.lean`, generated), and the exceptions by a closure predicate (`Proof/Heap/RaisesWriters.lean`, generated). |
| C48 | typing rules of a checker over the annotation table (`Spec/Fits.lean`); preservation and progress up to `None` and indices by induction on the typing of the place; objects that fit the annotations are exactly the values of the value model (`Proof/Heap/Onto.lean`, generated), so that C47 and C37 apply. |
| C49 | transition system of processes (`Model/Processes.lean`); invariant relating each process to its run alone (`Proof/Schedules.lean`); lexicographic measure for termination (`Proof/Termination.lean`); the findings by explicit schedules. |
| C50 | `copy.deepcopy` with its memo on the heap (`Model/HeapCopy.lean`); the copy is the image of the original under an injective renaming of addresses, by induction on the nesting (`Proof/Heap/Deepcopy`, `Twin`); programs refine programs on values when no changeable object is met twice, and otherwise replace all places of one address at once (`Commands`); types by `Named`, `CopyTypes`. |
| C51 | every attribute and list of every class as getter, setter and object (`Spec/EditObjects.lean`, generated from the object trees), places as expressions (`Place.path`); a statement on an object that shows a file makes it show the edited file (`Proof/Edits/Programs.lean`), so that C45/C47 (objects) and C27/C31/C32/C03 (bytes) combine. |
| C52 | `==` on the heap as `@dataclass` and the built-in containers define it (`Model/HeapEq.lean`; floats have no identity in the model, so whether two NaNs are one object is a parameter); by induction on the room it says `Equal` (`Spec/Equality.lean`, place by place); equal trees of one declared type convert to one value if there is no negative zero, so that C47 gives equal bytes. |
| C53 | The grammar is `WF` (`Spec/Records.lean`, `Spec/Versioned.lean`), the items per class and version (`Spec/Layout.lean`) and the accepted spellings per item (`Spec/Pieces.lean`). Soundness is C13 and C15_Pieces (`Lax`, per class); completeness is `Takes` (`Proof/Takes*.lean`, per class): a reader started anywhere before accepted chunks reads them and stops after them. Unambiguity follows because the reader is a function. `C53_total` and `C53_raises` drop the condition that the read stays within the data: `TakenAs` (`Spec/CutPieces.lean`) says what stands for missing bytes; `Lax` (`Proof/Lax.lean`) reads bytes marked as present or made up, so both directions hold for every byte string. |
| C54 | The order of the checks is a specification of its own (`Spec/Checks.lean`; a permutation of the layout, which is proved); per class `Fails` says that the error of the writer is the cause of the first item (`Proof/Fails.lean`, `Proof/Records/Fails.lean`), composed along `joinB` and the `let`s of `Unit.to_bytes`. |
| C55 | `OMode r rO` (`Proof/Optimized*.lean`, per class): agreement unless `AssertionError`, no `AssertionError` in `rO`, and every success of `rO` is a success of `r` on the bytes with repaired markers (`Mended`, `Spec/Optimized.lean`); closed under bind, so one lemma about `read_debug_string` is lifted to all readers. `WritesO` for the three writers with asserts. |
| C56 | scripts as arbitrary state machines over eighteen operations, `parse` and `save` (`Model/HeapScripts.lean`), and their meaning on a forest of value trees with a spot for every name (`Spec/Forest.lean`); a simulation (`Holds`): every operation in memory does what it means (`Proof/Heap/Forest*.lean`, with a general lemma on replacing one object and moving trees in and out), then induction on the number of actions; `Prog` gives `for`, `if`, `try`; a rule for loops (`Spec/Changes.lean`) proves a two-loop script for every file. Sharing an object (`none`) is C50 |
| C57 | a small type system for scripts and programs (`Spec/TypedScripts.lean`) and store typing: every object in memory that a script can reach has one type, and its parts have the types that this one declares (`Heap.Typed`); preservation and progress per operation (`Proof/Heap/Store*.lean`), for any sharing — aliasing is harmless because an object keeps its type. The classes of the package refer to each other without cycles (`Declares.reach`), so a typed object is a finite tree, and C48 and C47 say how it is written. |
| C58 | threads of one process (`Model/Threads.lean`): one heap, one disk, a list of scripts with their own variables, any schedule; on values each thread has a forest of its own (`Spec/Threads.lean`). The simulation of C56 holds per thread because an action leaves alone what is not part of its trees (`Kept`) and footprints stay disjoint; for threads with files of their own, each is then shown to be where it is when it runs alone (`during`, `turns`). For threads that share objects, the store typing of C57 is an invariant of all threads together (`C58_typed`): one type per object, and types are only ever added. Actions are atomic in the model. |
| C59 | the `__repr__` that `@dataclass` generates and those of `list`, `tuple`, `str`, `int`, `float` (`Py/Repr.lean`, `Model/HeapRepr.lean`, with the `...` of objects under way); text of a value in `Spec/Repr.lean`. `repr` of a heap object is the text of its value by induction over the depth (an object under way is higher than its parts, so `...` is never printed for a tree); the text is injective by a parser-like argument: what follows a text starts with `,`, `)`, `]` or nothing, which no text has in the middle of a token (`Proof/Repr.lean`); the end of the recursion: objects under way are different. Parameters: the shortest digits of a float (assumed injective etc., as in C34) and the table of printable characters above 127 (any). |
| C60 | `Verif/Model/Source*.lean`: the syntax trees of all classes, printed by `tools/gen_source.py` from Python's own parser (no interpretation in the tool). `Verif/Py/Interp.lean`: an interpreter for the Python constructs that occur. Theorem: interpreting `from_bytes` of each of the 45 classes equals the heap model (hence, with C45, the value model); by a simulation `Same` (`Proof/Source/Same.lean`), one rule per kind of statement, the interpreter being run symbolically by the tactic `peel` (definitional unfolding, re-checked by the kernel). |
| C61 | The same interpreter on `to_bytes` of all 46 classes, with their properties, inherited and helper methods. `Proof/Source/Write*.lean`: a simulation `Wr` (interpreted program vs. `Py` value; heap and handler untouched), induction over the depth of the model. `Proof/Source/Keeps.lean`: an invariant of all executions of the interpreter, by induction over the syntax tree and the number of nested calls (used to know that loaded objects are of classes of the package). |
| C62 | `tools/gen_source_io.py` prints the syntax trees of `DatFile.parse`, `DatFile.save`, `scripts.py` and the two README programs (`Model/SourceIo.lean`); `Py/InterpIo.lean` executes them, with files, the standard output, `zlib`, `argparse`, `json` and `asdict`, on top of the interpreter of C60/C61. `Proof/Source/Io*.lean`: the execution, statement by statement, equals `DatFile.parseObject`, `W.save`, `datToJson` and `editFile` (for the loop: induction over the civs, a simulation `Runs`); then C34, C43, C47 apply. |
| C63 | `Py/InterpO.lean`: `python -O` is the interpreter of C60–C61 on blocks without `assert` (`St.opt`, `callO`). `Proof/Source/Upto.lean`: executing source is a congruence for "the same outcome, unless the first raises one of `S`" (induction over expressions and statements); `Proof/Source/Asserts.lean`: the conditions of the four assertions change nothing (checked on their syntax, and `len` is never rebound), so leaving them out is such a step; induction over the depth of calls. |
| C64 | The same congruence, with `S` = `RecursionError` and two recursion limits; for programs on files `Proof/Source/IoRoom.lean` does the same for the interpreter of C62, with `asdict`. |
| C65 | `Model/Text*.lean`: the lines of the files, as numbers; `Py/Parse.lean`: a lexer and a recursive-descent parser for the part of Python's grammar that the package uses, as structurally recursive functions; `Py/AstEq.lean`: a sound comparison of trees. The theorems are equations between closed terms and are computed by the kernel (`decide +kernel`, no compiled code); blank lines and comments by induction on the text. Annotations and the type variable `C` are skipped. |
| C66 | `Py/InterpScripts.lean`: C56's scripts with `parse` and `save` executed by the interpreter. One action agrees with the model (C60_load, C61_save); instances stay instances of classes of the package; induction over the steps of a run and over a program. |
| C67 | C01 to C07 transported to `callN` of the twelve methods by the per-method theorems behind C60 and C61 (`Same`, `Wr`); `write_string` for every length. |
| C68 | C09, C10, C12, C14, C22, C24, C26 and C28 transported to executions of the source by C60_load, C61_save and C62; the statements mention executions, values of objects, bytes and the disk only. |
| C69 | The same for every record class: `Proof/Source/EveryClass.lean` combines the per-class theorems behind C60 (source = heap model) and C45 (heap model = value model), C47_save_record and C61 the writers. |
| C70 | Edits and conversions with loading and saving executed from the source: C60/C61/C62 combined with C45_statements (what statements do to objects is what they do to values), C51, C48, C27, C03, C05, C06 and C20/C21/C35. New: statements keep all instances in classes of the package (`Proof/Source/EditsKeep.lean`, hypothesis `Packaged`: objects that the user's program creates are of classes of the package). The user's statements themselves are `runEdits`, not source of the package. |
| C71 | `Spec/PythonGrammar.lean`: the grammar of expressions of the Python Language Reference as an inductive relation `Derives phrase tree tokens`, without the parser. Soundness: by induction on the parser's room, goal by goal, a sound inner parser makes a sound step. Completeness: by induction on derivations, with what may follow each phrase, how phrases begin, and for the left-recursive rules a continuation; more room never changes a result. Unambiguity follows from both. |
| C72 | `Spec/PythonStatements.lean`: the grammar of statements, suites, functions, classes and modules over logical lines. Soundness of the parser for each, by induction on its room; with C65 the trees of the package are trees of its text by the grammar. Completeness (`Proof/Source/StatementsComplete.lean`): by induction on derivations, with what may follow a block and how its lines begin; every module of the grammar is read by a parser with enough room (the one that reads the package has room 4000). Uniqueness of the tree follows. |
| C73 | `Spec/PythonLexical.lean`: tokens of a line, and the logical lines of a text, as inductive relations over characters, without the lexer. Exactness: by induction on the characters with an invariant per mode of the lexer (what the characters so far are), and conversely by induction on the relation; the longest match as a separate theorem; brackets by a stack. Combined with C72 for the package, `scripts.py` and the README. The text is given as a number per line, and `Characters` says which characters these are. |
