# ohcount in Lean 4 — design

Sections 1-3 are the plan written before the proofs, with the layout kept up to
date. Section 4 is the trusted base, section 5 says what is proved for each
property, section 6 lists defects of the code found on the way, section 7 says
how the theorems were tested against wrong programs.

## 1. Layout

`/verif/lean/Verif/` (all imported from `Verif.lean`):

| modules | models | contents |
|---|---|---|
| `Loc`, `LocProps` | `src/loc.c` | Loc / LocDelta records and lists (C01-C07) |
| `ParsedLanguage`, `ParsedLanguageProps` | `src/parsed_language.c`, `parser_callback` of `src/sourcefile.c` | byte buffers with an explicit out-of-bounds outcome (C08-C10, C56) |
| `SourceFile`, `SourceFileProps`, `ContentsProps` | `src/sourcefile.c` | path splitting, the caching state machine, reading contents, file lists, directory walk (C11-C16, C57) |
| `Diff`, `DiffEquiv`, `DiffSort`, `DiffStone`, `DiffOut`, `DiffProps`, `SourceDiffProps` | `src/diff.c`, `ohcount_sourcefile_diff` | line hash, equivalence classes, stone/search (LCS), output, external diff for large texts (C17-C23, C47) |
| `Licenses`, `LicensesProps` | `src/licenses.c` 738-885 | candidate search, containment, overrides (C24-C26, C48) |
| `Tables`, `Detector`, `DetectorProps`, `DetectorMore`, `DetectorModes`, `DetectorLines`, `DetectorEvidence`, `DetectorScores`, `DetectorFortran`, `DetectorSafety` | `src/detector.c`, `src/hash/*.gperf` | tables and the detection pipeline (C27-C32, C50-C54, C60, C61) |
| `Ragel` | `src/parser_macros.h`, `src/parsers/common.rl` | Ragel expressions, their automata, the scanner loop, the action macros |
| `Gram/G*`, `Gram/All` | `src/parsers/*.rl` | the patterns of 111 line scanners and 94 entity scanners (generated by `tools/gen_grammars.py`) |
| `RagelCheck` | - | finite abstraction of a scanner, checked by a closed table |
| `RagelSafe`, `RagelLines`, `RagelExact`, `RagelStop`, `RagelHistory`, `ParserProps` | - | ranges, termination, one report per line, history (C33-C36, C38, C40-C42) |
| `RagelQueue`, `QueueProps` | - | languages with a callback queue (C37) |
| `Lexis`, `LexisTable`, `LexisStream`, `LexisRef`, `RagelLex`, `RagelLexFast`, `LexisProps`, `CSpec` | - | an independent description of comments and strings and the line kinds it implies; refinement of 65 scanners to it (C39, C55) |
| `RagelEnts`, `EntityProps` | - | entity scanners (C46) |
| `RagelEmbed`, `Gram/Emb*` | `src/parsers/html.rl` and twelve others, macros `saw`, `emb_*`, `check_blank_entry` | parsers with embedded languages: machines that call each other (generated by `tools/gen_embedded.py`) |
| `EmbedSafe`, `EmbedProps` | - | ranges, languages and NULL line starts in mixed files (C62-C64) |
| `EmbedShift`, `EmbedWhole`, `EmbedPages` | - | mixed files are counted piece by piece, whatever was parsed before (C65, C66) |
| `EmbedRegion`, `EmbedEnclose`, `EmbedRegions`, `Cert/ER1`-`ER3` | the regions of `*_css_line`, `*_js_line` and the like | embedded code is counted like a file of its language (C67) |
| `EmbedExact`, `Cert/EP`, `EmbedLines`, `ReadAll`, `ReadProps`, `Cert/Total` | where the scanners of all parsers stop | one report per line in mixed files (C68), files are read to their end (C69) |
| `RagelSolid`, `EmbedSolid`, `EmbedNull`, `Cert/W*`, `Cert/EW`, `Cert/EN`, `Robust` | - | where callbacks end, no NULL line start in Haml; no file makes the library record outside its buffers (C71) |
| `PageCounts` | - | from pages and from files read line by line to line counts (C70, C72) |
| `Mem` | `src/loc.c` | the linked lists as blocks and pointers, `malloc`, `free` |
| `MemLists`, `MemHistory` | - | what the functions do to the blocks of a list; histories of calls (C73) |
| `MemFile` | `src/sourcefile.c:22-253, 329-421`, `src/parsed_language.c`, `src/licenses.c:778-906` | source files, their strings and lists, and lists of source files as blocks in memory |
| `Sep`, `MemSpine`, `MemFiles`, `MemCounts` | - | separation logic for the memory; what each function does to its blocks |
| `MemFileHistory`, `MemFileProps`, `MemHeld` | - | histories of calls on source files (C74, C75); pointers to contents (C76) |
| `MemDiff`, `MemDiffHistory` | `src/sourcefile.c:255-324`, `src/loc_delta.c`, `src/diff.c:624-708` | comparisons of source files in memory, and histories with them (C77, C78) |
| `MemSort`, `MemMain`, `MemMainRun`, `MemMainProps` | `src/ohcount.c:12-308` | the command line program in memory: sorting, the seven commands, `main`; what a run prints and what it leaves behind (C79, C80) |
| `MemQueue`, `MemQueueRun`, `MemQueueLeft`, `MemQueueFree`, `MemQueueProps` | `src/parser_macros.h:17-112`, `src/parsers/common.rl:9-66` | the queue of callbacks as a linked list in memory, with static head and tail; sequences of parse calls (C81, C82) |
| `Gestalt`, `GestaltLangs`, `GestaltTable` | `ruby/gestalt.rb`, `ruby/gestalt/*.rb` | the search for platforms: rules, engine, Maven and project file readers; the 97 definitions (generated by `tools/gen_gestalt.py`) |
| `GestaltSpec`, `GestaltVal`, `GestaltCalc`, `GestaltAgree`, `GestaltProps`, `GestaltMaven`, `GestaltNames` | - | when a definition holds of a project; the loop of the engine; C83-C90 |
| `DiffWords` | `src/diff.c:259-280, 315-333, 431-514, 672-708` | the in-memory diff on blocks of words: static variables, `malloc`, `realloc`, `free`, `member` and `class` laid over the lines |
| `DiffWordsProps` | - | C91 |
| `Pcre` | PCRE, as `src/licenses.c:738-760, 829-836` and `src/detector.c:914-940` use it | syntax, matches and a backtracking matcher for the part of PCRE used there; the matcher finds what matches |
| `LicenseTable` | `src/licenses.c:12-734` | the table with its expressions, verbatim (generated by `tools/gen_licenses.py`) |
| `LicenseNames`, `LicenseFound`, `LicenseMore`, `LicensePieces` | - | which texts name a license (C92-C99) |
| `KnownFile` | - | what is recorded for a file on disk (for C101, C102) |
| `LicenseFile` | - | from a file on disk to its licenses (C101) |
| `DeltaFile` | - | from two files on disk to their difference (C102) |
| `DetectorCalls` | `src/detector.c` (what is opened, compiled, made and released) | what detection leaves behind (C103) |
| `RubyFile` | `ruby/ohcount.i` (file context), `ruby/ohcount.rb` | the file context of source files in a Ruby program (C104) |
| `RubyOwners` | `ruby/ohcount.i` (classes, constructors, destructors), `ruby/ohcount.rb` | objects that a Ruby or Python program gets from other objects, and the garbage collector (C105) |
| `Additive` | `src/parsers/*.rl` of the 65 classified languages, `src/sourcefile.c`, `src/loc.c` | files put together from pieces (C106) |
| `LineEndings` | as `Additive` | files with other line ends or another indentation (C107, C108) |
| `AnyText` | `src/parsers/*.rl` of the line-oriented languages | C106-C108 for any text |
| `Moves` | as `Additive`, with `src/sourcefile.c` (directories, `ohcount_sourcefile_list_analyze_languages`) | code moved between the files of a project (C109) |
| `Additions` | as `DeltaFile` and `Additive` | the difference of files with lines put in or taken out (C110) |
| `Indented` | as `Additions` and C108 | the difference of files that differ in their indentation only (C110) |
| `LocEqual` | `src/loc.c` (`ohcount_loc_is_equal`, `ohcount_loc_delta_is_equal`) | equal counts and differences (C111) |
| `RubyView` | `ruby/ohcount.rb` (`languages`, `language_breakdown`, `each_source_file`, `each`, `size`) | what a Ruby program sees of files and lists (C112) |
| `DetectorPcre` | `src/detector.c:895-949` | the three expressions of the detector with the model of PCRE (C100) |
| `Cert/*` | - | literal automata and the tables of the static checks (generated by `tools/gen_certs.py` and `tools/gen_embcerts.py`; every table is checked by the kernel) |
| `Cli`, `CliProps` | `src/ohcount.c` | option selection, sorting, summary, annotate, detect (C43-C45, C49, C58) |
| `Library`, `LibraryProps` | all of the above | the models composed, from a directory tree to its counts (C59) |

Models are in files of their own; property theorems are in `*Props.lean` and
`Detector*.lean` files, with specifications that do not mention the model's
helpers. `tools/manifest.py` collects the theorems named `Cnn_...` into
`MANIFEST.json`.

## 2. Modelling conventions

* C `int` counters are `Int` (no overflow: files below 2^31 lines; stated in
  the trusted base), sizes and offsets are `Nat`/`Int`.
* Bytes are `UInt8`/`Nat < 256`; C strings are byte lists.
* Linked lists (`head`, `tail`, `next`) are Lean lists: the only mutations in
  the code are append at the tail and in-place change of an entry.
* Undefined behaviour (out-of-bounds access, NULL arithmetic) is a distinct
  outcome, never silently totalised.
* External code (libmagic, PCRE, the file system, the external `diff`
  program) is a parameter of the model and universally quantified, except that C92-C101 speak
  about a model of PCRE.

### Ragel

A `.rl` line machine is transcribed as a value of a small expression type
(characters, concatenation, union, star, `:>>`, `when`, and the embedding
operators `>` `@` `$` `%`), and compiled in Lean to a position automaton.
The scanner loop (longest match, earliest pattern wins ties, backtracking to
`te`, actions executed while scanning even if the token is later abandoned)
follows Ragel 6; the rules used are written out in the comments of
`Ragel.lean`. That Ragel itself behaves like this is trusted; section 4 says how
the transcription was checked.

Parsers with embedded languages consist of several machines. `RagelEmbed.lean` adds `fcall`, `fret`, `fgoto`, the
assignment `p = ts`, plain machines (no tokens) and the macros for embedded languages; the language of every callback is
kept. A callback computed from a NULL `line_start` is left out of the list of callbacks and recorded in the flag `ub`;
for the library as a whole (`EParser.callbacks`, `parseText`) it is represented by a callback that starts before the
buffer, so that recording it is undefined.

## 3. Properties: what is modelled, how it is proved

| id | plan |
|---|---|
| C01-C04 | fold of `add` over a history; induction over the history, specification = filtered sums |
| C05 | negation by a concrete history; `_partial`: head language exact, totals, and exact when every non-head language is added once |
| C06, C07 | induction over the list |
| C08, C09 | buffers as offset + bytes with explicit bounds check; invariant "used < size + 5"; disjoint ranges sum to at most the file size |
| C10 | induction over the reports |
| C11 | last-separator/last-dot specification; out-of-bounds read before the buffer made explicit |
| C12-C14 | transition system over API calls, invariants over all histories; C14 negated with a witness, partial up to the first parse |
| C15, C16 | inductive directory trees; permutation invariance |
| C17-C22 | functional model of diff.c; Hunt-McIlroy invariant for `stone`; LCS specification independent of the code |
| C23 | composition of C17 with the parsed languages |
| C24-C26 | regex matcher is a parameter; induction over the license table; C25 negated |
| C27-C32 | tables transcribed from gperf; closed-world facts by kernel evaluation over the complete table, lifted to all paths and contents |
| C33, C34 | invariant of the scanner loop, with a decidable per-parser check of the automaton |
| C35, C36 | generic theorem for line-oriented scanners, instantiated per parser by a decidable check |
| C37 | queue invariant |
| C38, C39 | witnesses of the negation; refinement of the C parser to a reference line classifier for closed inputs |
| C40 | the initialisation resets everything that is read |
| C41 | measure on (buffer position, state) |
| C42 | theorem over all continuations |
| C43, C44, C45 | induction |
| C46 | invariant of the scanner loop in entity mode |
| C62-C64 | invariant of the loop over several machines (position, stack, line start, queue, languages), with a decidable check of each machine |
| C65 | relation between the run in a page and the run on the text from a line start on, with a check that entities are set before they are used |
| C66 | relation between two runs that differ in variables nobody reads |
| C67 | simulation of the scanner of a language by the scanner of the region, by tables that the kernel checks (`RegCert`), composed with the runs on the opening and closing lines |
| C68 | witnesses; induction over the pieces of a page; for MetaPost with TeX a checked table of abstract states and an invariant of the run |
| C69 | every byte but the vertical tab is matched by a pattern of one byte (checked on the automata), so that a token in progress always has a match to go back to: invariant over the run; the negative results by runs that do not look at the text that follows |
| C70 | callbacks of a page are those of its pieces (C67), one for each line (C68), none from a NULL pointer (threaded through the pieces), each can be recorded (C71), so C10 gives the counts; sum over a directory as for C59 |
| C71 | every callback ends next to a byte that is neither blank nor tab, or at the end of the buffer (tables for every automaton), hence it can be recorded (C08); invariant over all histories of calls |
| C72 | C35 and C36 give one callback for each line, C71 that it can be recorded, C10 the counts |
| C73 | memory is a partial map from addresses to blocks; for each function what it does to the blocks of a list (induction on the chain of nodes); invariant over all histories: the blocks in use are those of the live objects, disjoint |
| C74 | Hoare triples with a frame rule: for each function, the part of the memory that represents a source file before and after the call of `SourceFile.lean`; induction on histories; the library satisfies the two assumptions on detection and parsers |
| C75 | counting the blocks of the assertions; the lost buffers are counted by the functional account; witness with a C file |
| C76 | triples that keep the address of the contents; a second kind of triple for programs that fail from every memory with a given part |
| C77 | as C74, with both files, or one file twice, taken out of the assertion of all objects; definedness by the cases of the functional account |
| C78 | counting the blocks; what a comparison loses is counted by the functional account; witness with a C file |
| C79 | triples for the sort functions (a swap permutes the cells), for what each command does with a file, for loops over the files, and for `main`; the result is tied to `Cli` (C43-C45, C58); annotating is proved to be undefined in memory |
| C80 | the number of blocks that the account of C79 counts; witness `ohcount -l a.c` |
| C81 | `enqueue`, `free_queue` and the walk of `commit` over blocks in memory; simulation of every step of the scanners against `Ragel.lean` and `RagelEmbed.lean`; the queue a call starts with does not matter, because the action `enqueue` frees it and the action `commit` looks at the queue only after an `enqueue` of the same call |
| C82 | the chain of blocks left is the queue of one of the calls; no `enqueue` in a pattern means no queue; witness Ruby `x 'a` |
| C83 | each pass uses up a definition or finds nothing; partial fixed point with an explicit measure |
| C84 | counters and shares are sums over the files; the loop sees only which definitions hold |
| C85 | invariant of the passes: settled gestalts stay as they are, rules that held still hold (monotone outside of `not`); a check of the order of the definitions, evaluated by the kernel on the 97 definitions; uniqueness along a ranking; witness for definitions of one's own |
| C86 | every definition is used at most once; the two definitions of OpenESB have equal rules |
| C87 | induction on XML trees, with a state machine for the listener; witness with `<exclusions>` |
| C88 | a listener that has seen a text never fails; witness `<project><groupId/></project>` |
| C89 | list of the names in the definitions against `src/languages.h`, evaluated by the kernel; then C85 |
| C90 | induction on XML trees; witness with a reference to a project |
| C91 | the diff on words of memory simulates the diff on lists phase by phase; the blocks it owns are tracked to the end |
| C92 | the matcher is correct for a declarative semantics (induction on expressions); an expression is the list of its rows without alternatives; kernel-evaluated comparison with the list of names |
| C93 | a match within a stretch of text is a match within the same stretch in other surroundings (induction on expressions); the 66 names evaluated by the kernel; then C26 |
| C94, C97 | from C92; witnesses |
| C98, C99 | the remaining expressions as lists of passages, a passage as a list of pieces (`Composed`); the rows of the compiled expression are compared with the rows of the pieces, once, by the kernel; C99 from C98 and a witness |
| C100 | as C98, for the expressions of `.pp` and `.pl` files |
| C101 | C59's path from the disk to the reports of the parser, C56 for the text of the comments, C26 and C93 for what is found in it; a line of comment of the file is followed into the text that is searched |
| C102 | C59's path for both files, C56 for the recorded text; the lines of the diff are the lines of the parser if all end with a line feed (`Rows`), then C23; the negation with a file with a carriage return |
| C103 | the calls that obtain and release, in order, beside each function of the detector; induction over the recursion through `.in` |
| C104 | strings of the program, their buffers, a collector that may free any string without reference, arrays of pointers and source files; refinement to a machine in which a context is a value |
| C105 | objects of the library with the object whose destructor frees them, references of the program and a collector that may take any dropped reference; simulation between a run and the same run without the collector, with an invariant that ties each object to the reference that owns it |
| C106 | the line classification of C53/C59: a scan of two texts, the first of which ends with a line feed outside of comments and strings, is the two scans one after the other; transferred to the parsers by the classification theorem and to files by C59_file |
| C107 | the same classification read byte by byte: a carriage return before a line feed does not change how the reading goes on, and adds a byte without label to the line |
| C108 | spaces and tabs outside of comments and strings get no label and leave the reading as it is; with C106 for each piece |
| C109 | C106 for each file and C59 for the directory: the totals are sums over pieces, which do not depend on the order |
| C110 | C19 for the lines recorded for two files, as in C102; a file is a subsequence of the same file with a piece put in, by C106 for the texts of the lines; indentation: the lines without the blanks before them are the same, by C108's labels |
| C111 | cases over the fields; for the converse the list is empty, or the other difference is zero |
| C112 | invariant that stored licenses are those of the parsed languages, with C13 for the counts; C15 for directories; detection is not repeated |
| C95, C96 | the rows of the expressions, evaluated by the kernel, against a description in terms of stretches of the text; witnesses |

## 4. Trusted base

**Logic.** Lean's kernel (version 4.33.0). Every theorem depends on at most the
axioms `propext`, `Classical.choice` and `Quot.sound`. No axiom is added, no
`sorry`, no `native_decide`, no `bv_decide`. Finite facts (closed tables,
gperf tables, concrete counterexamples) are by `decide` / `decide +kernel`,
that is by kernel evaluation.

**Transcription.** That the Lean definitions say what the C and Ragel text says;
each definition cites the lines it models. The gperf tables are generated
by `tools/gen_tables.py`, the grammars by `tools/gen_grammars.py`
(a parser for `.rl` files), both are ordinary programs outside the proofs.

**Ragel.** The meaning of Ragel 6 operators and of its scanner loop. Two checks were made; they
are evidence about the transcription, not proofs.

* `tools/check_tables.py` compares automata with the tables of the scanners generated by Ragel that are
  contained in the library checked in at `/repo/ruby/x86_64-linux_ubuntu/ohcount.so`. That file is a
  binary; it was read as data with `readelf` and `nm` and never loaded or run. The automata compared are those of the Python
  program `tools/nfa.py`, which compiles the same `.rl` text by the same rules as `Ragel.lean`; the
  Lean automata themselves are not compared. The tables do not name actions, entry states or the
  layout of condition keys, so these are fitted: the check says that some assignment makes the
  tables equal, and whether an action stands before or after the action of its pattern is compared too. 342 machines
  are compared with success, among them 193 of the 195 scanners of `Gram/G*.lean` (the two of julia have no tables in
  the library) and all machines of `Gram/Emb*.lean`. The entity scanners of bfpp and brainfuck do not agree. Which revision of the sources the library was
  built from is not known.
* `tools/validate_parsers.py` evaluates the Lean line scanners on `/repo/test/src_dir` and compares
  with `/repo/test/expected_dir`, ignoring leading blanks of a line. 151 of 153 files agree. For `components.cu` and `ts1.ts` the model's
  output is a proper prefix of the expected file, which has lines the source file does not have; the
  test program of the project reads one expected line per callback and does not notice.

**Machine.** C `int` does not overflow; `malloc` succeeds; static variables are used by
one thread; `qsort` sorts. Reads or writes outside an array are an explicit
outcome; where a theorem speaks about a machine that tolerates them it says so
(`C31` and the detector theorems quantify over the bytes next to the arrays).

**Parameters** (universally quantified): the answers of libmagic, PCRE matching
(but for C92-C100), the file system, the external `diff` program, the shell command lines, the
detector and parsers in the theorems of the source file state machine (instantiated in
`Library`).

### What is modelled

`src/loc.c` (all), `src/parsed_language.c` (all), `src/parser.c` (all),
`src/parser_macros.h` (all macros), `src/parsers/common.rl`, all 124 parse functions of
`src/parsers/*.rl` (111 in `Ragel.lean`, 13 with embedded languages or other actions of their own in `RagelEmbed.lean`; the theorems about whole
files, C58 and C59, use the 111), `src/sourcefile.c` (all; the `free` functions in `MemFile`, `ohcount_sourcefile_parse_entities_with_callback`
in `MemMain`), `src/diff.c` (all; the external program is a
parameter), `src/licenses.c` (all; C24-C26 leave the engine for the
expressions open, C92-C99 use `Pcre`), `src/detector.c` (all disambiguators; libmagic is a parameter; its three
Perl regular expressions are parameters of most theorems and modelled in `DetectorPcre`), `src/hash/*.gperf` (all), `src/ohcount.c`
(all; not the text of `help` and the layout of the other texts).

### What is not modelled

* `src/log.c`, `src/hash/generate_headers`, the build scripts, `doc/`, the `python/` binding and what SWIG generates;
  of the `ruby/` binding only the search for platforms (C83-C90), the file context (C104) and the
  ownership of objects (C105, also for Python; by SWIG's rule that a returned pointer is not owned unless declared `%newobject`) are modelled.
* In the search for platforms (C83-C90): Ruby's regular expressions and REXML, which are parameters; `GestaltFacts`,
  `Base.find_gestalts` and `process` of a list (which call a method that does not exist), `analyze`; the share of a language is
  compared as a fraction, not as a floating point number.
* PCRE itself. `Pcre` models its documented behaviour for the expressions of the table of licenses, on
  bytes and in the C locale, without its limits on memory and on the number of backtracking steps (with which `pcre_exec`
  gives up on some texts for the two BSD-like entries). C24-C26 and C48 hold for any engine.
* Concurrency: the library keeps its state in static variables and is not
  re-entrant; nothing is claimed about two threads.
* Freed memory: `free` is modelled for the lists of `src/loc.c` (C73) and for source
  files and their lists (C74-C76), comparisons (C77, C78), the command line (C79, C80), the queue of callbacks of the parsers (C81, C82), and the arrays of the diff (C91); what detection opens and compiles is in C103; nothing is claimed about the memory
  that the two stacks of the parsers use for themselves. A callback that calls a parser again is not modelled, nor is
  the user data pointer that a queued callback carries. A parsed language and
  its two buffers are one block. `malloc` does not fail.

## 5. Results

Exact theorem names are in `MANIFEST.json`. "Partial" means: the property as
stated in `properties.jsonl` is false of the code (then there is a theorem named
`_negation` or a named defect) or is proved for part of what it ranges over.

| id | property | status | remark |
|---|---|---|---|
| C01 | Per-language totals of a line-count list | proved |  |
| C02 | Grand totals are order independent sums | proved |  |
| C03 | Merging lists is adding everything | proved |  |
| C04 | Compacting a line-count list | proved | The file count of the compacted list can differ; shown separately. |
| C05 | Per-language lookup in a delta list | partial | The property is false of the code (C05_negation). Proved for lists in which the language is the first entry or is added once (C05_lookup_partial), plus an exact description of what the code does (C05_actual_behaviour). |
| C06 | Delta list totals | proved |  |
| C07 | Compacting a delta list | proved |  |
| C08 | Text buffers never overflow | proved | For every sequence of in-range reports; a report over blanks only that is followed by further blanks is undefined behaviour (C08_blank_code_line_is_ub). |
| C09 | No line is lost between the parser and the counts | proved | Under the stated hypothesis of disjoint in-range reports; C09_overlapping_reports_dropped shows the hypothesis is needed. |
| C10 | Language order and file count of a parsed file | proved |  |
| C11 | Path splitting | partial | Proved for file name and directory, and for the extension unless the byte the code reads before its buffer is a dot (only for paths without dot and separator, C11_reads_before_iff); C11_extension_defect shows what happens otherwise. |
| C12 | Language caching and forcing | proved | For every detector, parser, disk and call history. |
| C13 | Parsing happens once and results are stable | proved | For every call history. |
| C14 | Contents given by the caller stay the file's contents | partial | False of the code (C14_negation): the first parse drops the contents. Proved for all other histories. |
| C15 | Directory listing | proved | Path buffer FILENAME_MAX assumed large enough. |
| C16 | Project totals are sums over files | proved |  |
| C17 | Diff: net change | partial | false as stated (C17_negation): a line of hash value 0 in the new text makes the code read out of bounds; proved for all texts without such a line, in particular all ASCII texts with lines of at most 1000 bytes (C19_ascii) |
| C18 | Diff: unchanged text has an empty diff | proved |  |
| C19 | Diff: minimality | partial | false as stated (C19_negation); proved for all texts whose new side has no line of hash value 0, in particular ASCII texts with lines of at most 1000 bytes |
| C20 | Diff: reversal | partial | false as stated (C20_negation); proved when no line of either text has hash value 0 |
| C21 | Diff: bounds and termination | partial | proved when no line of the new text has hash value 0; defects proved: zero hash read, copy stored one past the end for every text |
| C22 | Line hash and trailing white space | proved |  |
| C23 | Per-language delta of two files | partial | languages and blanks proved in full; net change proved for texts within the in-memory limit and without zero-hash lines |
| C24 | Each license is reported at most once | proved |  |
| C25 | Licenses are found in every language's comments | partial | false of the code (C25_negation): only the last parsed language counts (C25_others_ignored); proved for that language |
| C26 | More specific licenses override general ones | proved |  |
| C27 | Unambiguous extensions decide the language | proved | For every path, contents, file context, libmagic answer and machine. |
| C28 | Extension case | proved | For every extension whose lower-case form is listed. |
| C29 | Detection returns known languages | partial | False as stated: C29_negation (.dat gives the internal binary marker; coffeescript and tex_dtx are not accepted by set_language). Proved: every other result is an identifier and accepted. |
| C30 | Detected languages can be counted | proved | Every result other than the binary marker of C29 has a parser. |
| C31 | Disambiguation does not write out of bounds | partial | False as stated: overruns for long lines, every .h file, unterminated mode lines, libmagic text starting with script. Proved for listed extensions when lines are at most 80 characters, and for any contents if the bytes next to the buffers are harmless. |
| C32 | Language tables are functions | proved |  |
| C33 | Line callbacks have valid ranges | proved | All 111 modelled line parsers, every buffer and every left-over state; the parsers with embedded languages are in C62. |
| C34 | Line callbacks have known kinds and languages | proved | Kinds are closed by the type of the callback; the language is the one asked for; the parser table names only these parsers and 13 others (see C63). |
| C35 | Exactly one report per line (line-oriented languages) | partial | 25 parsers, unconditionally for buffers without vertical tab and final carriage return. Exact extents hold for code and comment lines; for blank lines the start may be later in the line (C35_negation). |
| C36 | Blank lines are exactly the white-space lines (line-oriented languages) | proved | The same 25 parsers; 35 more under a closedness hypothesis in C38. |
| C37 | Exactly one report per line (queued languages) | partial | Proved for the seven parsers with a queue for which it holds (cmake, crystal, grace, jam, limbo, ruby, shell): every line end reported exactly once, in order, by a report that starts in its line; false, with counterexamples, for lua, powershell and php. Kind and start of the line are not claimed: a string opened directly after one that was given up saves overwritten variables. Buffers without vertical tab and not ending in a carriage return. |
| C38 | Exactly one report per line (C and other direct multi-line languages) | partial | False in general (C38_negation); proved for 108 parsers for runs in which the scanner does not go back over a line end and passes none without callback; C55_kinds gives the same from a condition on the text alone for 65 parsers. |
| C39 | C line classification | proved | For every C source with closed comments and literals (CSpec.Correct), through ohcount_parse; C39_negation_continued shows a continued string whose last line is only the quote. |
| C40 | Parsing is history free | proved | For every sequence of calls of scanners (line or entity) on any buffers, with the static variables that init does not assign handed on from call to call, each call makes the callbacks it makes in a fresh process. |
| C41 | Parsers terminate | proved | Bound n*(n+8) steps for all 111 modelled line parsers. |
| C42 | A vertical tab silently ends counting | proved | For every one of the 111 modelled parsers: if the scanner is between tokens at a vertical tab, no text after it is reported, except that one last line may be extended to the end of the buffer; concrete instances for all continuations. |
| C43 | Sorting for display is a permutation and sorted | proved |  |
| C44 | Summary figures are consistent | proved |  |
| C45 | Command-line selection | proved |  |
| C46 | Entity ranges are in order and do not overlap | proved | Order, ranges and disjointness for all 94 entity scanners without recursive calls at every moment of the parse; 90 of them read the whole buffer; for eight the ranges are the whole buffer. |
| C47 | Diff of large texts | partial | proved when printed lines are shorter than 9999 bytes; longer lines are double counted (C47_long_line_counted_twice) |
| C48 | License search sees the whole comment text | proved |  |
| C49 | Annotated lines are printed within bounds | partial | false of the code (C49_negation, C49_always_overruns); proved that the text part of the buffer is right |
| C50 | Binary file names | proved | On a machine that tolerates the byte behind the array (see C31_negation). |
| C51 | Well-known file names decide | partial | False for init.pp (C51_negation); proved for all other names except configure.in, which is handled as a .in file. |
| C52 | Content markers decide ambiguous extensions | proved | libmagic and the Perl expression are parameters. |
| C53 | Mode lines decide | proved |  |
| C54 | Script descriptions | proved |  |
| C55 | Each line is reported with its right kind | proved | 65 parsers, each with the table of its constructs in LexisTable.lean. |
| C56 | Text collected for a language | proved | For files without NUL bytes. |
| C57 | Contents come from the file's path | proved |  |
| C58 | The detect action | proved |  |
| C59 | From files to line counts | proved | Detection by extension, parsing, recording and counting composed, for one file (C59_file) and for a directory tree (C59_tree); Library.lean fills the parameters of the source file model with the models of detection, parsers and licenses. |
| C60 | Line evidence decides ambiguous extensions | proved | Lines are looked at up to 81 bytes and up to a NUL; on a machine that tolerates the overruns of C31. |
| C61 | Evidence decides .in, .st, .b, .m and Fortran files | proved | `.b` leaves open text whose only marks stand behind an include clause; `.m` asks that reads next to the line buffer are harmless (C31). |
| C62 | Parsers with embedded languages stop and stay inside the buffer | proved | 13 parsers, every buffer and left-over state. A callback from a NULL line start (C64) is left out. |
| C63 | Mixed files are reported in their own languages only | proved | 13 parsers. |
| C64 | No callback from a NULL line start in mixed files | partial | Decided for all 13 parsers: proved for MXML, Nix, CoffeeScript, MetaPost with TeX, Perl and Haml, and for HTML without line ends inside end tags; false for each of the seven page parsers with such an end tag, for PHP also with closed tags. |
| C65 | Pages are counted piece by piece | proved | 9 parsers; that a text consists of complete lines is a decidable condition (`EParser.whole`), shown for examples. |
| C66 | Parsers of mixed files do not depend on earlier files | proved | All 13 parsers. |
| C67 | Embedded code is counted like a file of its language | proved | 21 kinds of regions in 9 parsers with one form of the opening and closing line each. Ruby in RHTML and PHP in PHP pages are left out: the table for Ruby is too large, and in PHP code a question mark already ends the region. `<% %>` in ASPX is left out because its closing line is reported as C# or VB after a line of code. |
| C68 | One report per line in mixed files | partial | False for 12 of 13 parsers (a witness for each, `C68_negation`); proved for pages composed of regular pieces (`C68_pages_partial`). Proved in full for MetaPost with TeX (`C68_metapost`), so `C68_exactly` says for which parsers it holds. |
| C69 | Files are read to their end | partial | True for 110 of 111 parsers of one language and for 6 of 13 others, false for the rest (`C69_decided`); the negative results are for every text that follows. |
| C70 | From pages to line counts | proved | Pages made of pieces; the lines of the page itself are counted as the parser reports them alone. |
| C71 | No file makes the library record outside its buffers | partial | All 124 parsers, all histories; false for pages with a split end tag (C71_negation_page), and only pages can do it. |
| C72 | A file has as many counted lines as lines | proved | 25 languages, all texts without vertical tab. |
| C73 | Lists of counts in memory | proved | All histories that use live pointers and add no list to itself, all allocators. |
| C74 | Source files in memory | proved | All histories that use live pointers, all allocators. |
| C75 | Source files leave nothing behind | partial | False: the buffers of `src/licenses.c:804`. Proved without license queries; the exact number of lost blocks in general. |
| C76 | Returned contents stay readable | partial | False: freed by parsing, and by setting them before they are read; at every reachable point. Proved for the calls that do not parse. |
| C77 | Comparing source files uses memory safely | proved | All histories with comparisons; the arrays inside the in-memory diff are modelled by value (all are freed, `src/diff.c:688-707`). |
| C78 | Comparing source files leaves nothing behind | partial | False: `blank` of `src/sourcefile.c:292` is never freed, nor the names of temporary files. Proved: the exact number of lost blocks, at least one for each entry returned; nothing is lost when the lists are empty. |
| C79 | A run of the program uses memory safely and prints the answers | proved | All arguments, trees, disks and allocators. What parsers report in entity mode is a parameter; the text of `help` and the layout of `printf` are not modelled. |
| C80 | A run of the program frees what it allocates | partial | False for `-l` (the buffer of `src/licenses.c:804`). Proved for all other commands, and the exact number of blocks for `-l`. |
| C81 | The queue of callbacks uses memory safely | proved |  |
| C82 | Parsers free what they queue | partial | False (C82_negation). Proved: at most one queue is left, its length, and none by 101 of 111 parsers, 7 of the 13 with embedded languages and all entity scanners of the others. |
| C83 | The search for platforms ends | proved |  |
| C84 | Platforms do not depend on the order of files | proved | Also for definitions of one's own that take no name from a file. |
| C85 | Platforms are found exactly when their definitions say so | partial | Proved for the 97 definitions of the library, with uniqueness. False for definitions of one's own (C85_negation); proved for those whose order settles what is below a `not`. |
| C86 | No platform is reported twice | partial | False for OpenESB (C86_negation). Proved for all others. |
| C87 | Maven dependencies are those of the project file | partial | False (C87_negation: exclusions). Proved for flat dependencies and plugins. |
| C88 | The search for platforms raises no exception | partial | False (C88_negation). Proved: exactly which files raise one. |
| C89 | Definitions name languages that exist | partial | False (C89_negation). Proved for all but two definitions, with the consequence for `native_code`. |
| C90 | Imports of a project file are read | partial | False for a file of another namespace with an inner project element (C90_negation). Proved for all others. |
| C91 | Diff: memory | partial | False for a new text with a line of hash value 0 (C91_negation). Proved for all others, and for sequences of diffs. |
| C92 | Licenses: which texts name a license | proved | For 62 of 72 entries; three more in C95 and C96, the others in C98. |
| C93 | Licenses: every license is found by its own name | partial | False for six entries (C93_negation, C93_unnamed). Proved for the 66 others. |
| C94 | Licenses: WTFPL | partial | False (C94_negation). Proved: what is found in texts without form feeds. |
| C95 | Licenses: Apache and Eiffel | partial | False (C95_negation). Proved: exactly when they are found. |
| C96 | Licenses: GPL 3 or later | partial | False (C96_negation, C96_gpl2_notice). Proved: exactly when it is found. |
| C97 | Licenses: Mozilla 1.1 | partial | False (C97_negation, C97_notice). Proved: exactly when it is found. |
| C98 | Licenses found by longer passages | proved | |
| C99 | Licenses: GPL 3 only | partial | False (C99_negation, C99_notice). Proved: what is found if it is found, and that the excluded words are not inside it. |
| C100 | Detector: Puppet, Pascal and Perl | proved | |
| C101 | From files to licenses | proved | |
| C102 | From two files to their difference | partial | False (C102_negation). Proved: for ordinary files that are compared in memory, without lines of hash value 0. |
| C103 | Detection gives back what it takes | partial | False (C103_negation, C103_pl, C103_pp, C103_unreadable, C103_no_bound). Proved: what a readable file leaves, and that other languages leave nothing. |
| C104 | File context given from Ruby | partial | False (C104_negation, C104_changed, C104_collected, C104_unset). Proved for programs that keep their strings; the exact number of arrays lost for all. |
| C105 | Objects got from other objects | partial | False (C105_negation). C105_exact says for every program whether it crashes; C105_partial: programs that keep the owner read the right values; C105_leaks: exactly what is never freed. |
| C106 | Counts of a file put together from pieces | proved | C106_kinds: line kinds of the pieces one after the other; C106_order: any order of pieces; C106_files: code, comment and blank counts of files are sums; C106_open: pieces that leave a comment open are excluded for a reason. C106_any: line and blank line counts of any text in the line-oriented languages. |
| C107 | Line ends of Windows and Unix | proved | C107_kinds, C107_files; C107_twice: a text that has carriage returns already is excluded for a reason. C107_any: the same for any text in the line-oriented languages. |
| C108 | Indentation | proved | C108_kinds, C108_files; C108_string: lines inside of strings are excluded for a reason. C108_any: the same for any text in the line-oriented languages. |
| C109 | Code moved between files | proved | C109_totals, for directories in which all files are of the 65 classified languages. |
| C110 | Lines put into or taken out of a file | proved | C110_least, C110_added, C110_removed, C110_inserted, C110_deleted; C110_line_ends for changed line ends. C110_indented for changed indentation. Hypotheses as in C102. |
| C111 | Equal counts and equal differences | proved | C111_counts, C111_differences, C111_unchanged. |
| C112 | What a Ruby program sees of files and lists | proved | C112_licenses, C112_breakdowns, C112_each, C112_directory. Objects and the garbage collector are C105; strings are taken as bytes, without encodings. |

### How far the line parsers are covered

| what | parsers |
|---|---|
| ranges, termination, language, history, vertical tab (C33, C34, C40-C42) | all 111 |
| one report per line and blank iff white space, every buffer (C35, C36) | 25 |
| the same if the scanner never goes back over a line end (C38) | 35 more |
| one report per line with weaker statements about kinds (C38) | 48 more |
| each line end once although strings may stay open (C37) | 7 |
| right kind of every line, from the text alone (C55, C39) | 65 |
| no line theorem but C33, C34, C40-C42 | lua, rebol, vim |

All line theorems except C33, C34 and C40-C42 are for buffers without vertical tab and whose last byte is not a
carriage return: at those bytes the scanners stop (C42).

## 6. Defects and surprises found

An item with a theorem name is proved. The others are not theorems: under *Line parsers* they are
evaluations of the model on the input given, elsewhere they were found by reading the code.

Counting and records: the lookup in a delta list returns the wrong entry after the first language
(C05_negation); merging a delta list with itself does not end (C05_self_merge_diverges); the first parse
drops contents set by the caller (C14_negation); the extension search reads one
byte before its buffer (C11_extension_defect); a code report over blanks only is undefined
behaviour when recorded (C08_blank_code_line_is_ub); a page with an end tag that goes on in the next line makes a callback
from a NULL pointer (C64_negation_page), which is then recorded (C71_negation_page).

Diff: a line with hash value 0 in the new text reads out of bounds
(C17_negation, C21_zero_hash_out_of_bounds); the copy of a text is stored with one
byte past the end (C21_copy_out_of_bounds); different lines with the same hash are taken for equal (C22_collision); with the
external diff a line of 9999 bytes or more counts twice (C47_long_line_counted_twice).

Licenses: only the comments of the last parsed language are searched
(C25_negation, C25_others_ignored).

Detector: every `.h` file overruns the array `path[length]`; lines of 81 or more
characters overrun `line[81]`; an unterminated mode line is read past its end; libmagic text
that starts with `script` is read before its start (C31 theorems);
`is_binary_filename`, `.in` and ASP.NET names overrun their arrays;
`.dat` returns the internal marker `"\1"`; `coffeescript` and `tex_dtx` are not accepted by
`ohcount_sourcefile_set_language` (C29_negation); the file name entry `init.pp` is dead (C51_negation);
`.r` misses `rebol` at the very end; the `.m` context counts only a file named exactly `.h`; the keyword scan for `.h`
reads `line[-1]`; `::=` hides `:=` in `.st`; in `.b` a marker directly after `include ` is skipped.
The `.m` rule for Limbo's `include` never scores and the `.b` rule only matches `include ";`
(DetectorScores.include_never, C61_b); the `.in` test of the inner extension is true for every file that
is reached by its extension; one line of fewer than five columns, or an empty first line, makes a Fortran file free
form (C61_fortran).

Line parsers, proved: a vertical tab between tokens ends counting silently (C42); an unterminated block
comment in C counts its lines twice (C38_negation); a raw newline in a C string is passed without a report
(C38_negation_swallowed); lua reports a line end twice for `'` newline `x` (C37_negation_lua); in
PowerShell and PHP an unclosed quote before a block comment loses lines of the comment
(C37_negation_powershell, C37_negation_php); the closing quote of a continued string alone on its line is
counted blank (C39_negation_continued); the start of a blank report can leave out leading white space
(C35_negation).

Line parsers, evaluated (`\n` is a newline):

* Pascal `(* a *)\n` and Puppet `/* a */\n`: counted as code.
* Python `"""a\nb\nc\n`: five reports for three lines.
* vim `x "a\nb\nc\n`: one report for three lines.
* rebol `x "a\nb\nc\n`: two reports for three lines.
* C, a `//` comment line that ends in two backslashes: the next line is counted as a comment.

Found by reading only: `parse_php` has no entry in the parser table (php files use the embedded
parser); the entity action of `limbo` uses an entity of C; `cs_aspx` marks the C
language, not C#, as seen when a block of C# starts.

Search for platforms: OpenESB is reported twice (C86_negation); a Maven dependency with an exclusion is read as a dependency
on what it excludes (C87_excluded); an empty identifier before any text ends the analysis with an exception (C88_negation);
`native_code` names languages that do not exist (C89_native). By reading only: `Base.find_gestalts` and `process` of a list raise
`NoMethodError`, because `process_source_file_list` is not defined (`ruby/gestalt/gestalt_engine.rb:40`); `analyze(:languages)`, as
documented, analyses nothing (`ruby/gestalt.rb:66` tests for `:language`); a header counts twice, because `MatchData#size` counts the
group too (`ruby/gestalt/rules/c_header_rule.rb:19`).

## 7. Wrong programs

`seeded/LOG.jsonl` has one line for each edit of the model that was tried in a scratch
copy: the definition, the edit, the claim it breaks, the theorems that failed and
what was tightened. For most edits that survived, a theorem was added or tightened.

One edit still survives: leaving out one case of the test for the inner extension of `.in` files
(`disambiguate`). For files that are reached by their extension the edited program behaves the same, because
the test is always true there.

One further entry (`loadContents`, claim "noop") is an edit that changes nothing and is a control.
