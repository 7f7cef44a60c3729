{"id": "C01", "title": "Per-language totals of a line-count list", "statement": "Whatever Locs are added to a LocList, in whatever order, looking a language up afterwards returns exactly the field-wise sums (code, comments, blanks, filecount) of all Locs added for that language; a language that was never added is not found, and no language occurs twice in the list.", "quantifier": "every finite history of add_loc calls on a fresh list, every language name", "why_tests_cant": "needs every history of additions with every interleaving of languages; tests add a handful of Locs", "anchors": ["src/loc.c:ohcount_loc_list_add_loc", "src/loc.c:ohcount_loc_list_get_loc", "src/loc.c:ohcount_loc_add_loc"]}
{"id": "C02", "title": "Grand totals are order independent sums", "statement": "The list totals (code, comments, blanks, total, filecount) equal the sums over all Locs ever added, total = code + comments + blanks, and any permutation of the additions gives the same per-language lookups and totals.", "quantifier": "every history of additions and every permutation of it", "why_tests_cant": "permutations and lengths are unbounded", "anchors": ["src/loc.c:ohcount_loc_list_code", "src/loc.c:ohcount_loc_list_comments", "src/loc.c:ohcount_loc_list_blanks", "src/loc.c:ohcount_loc_list_total", "src/loc.c:ohcount_loc_list_filecount"]}
{"id": "C03", "title": "Merging lists is adding everything", "statement": "Adding one LocList to another gives, for every language, the sum of the two lookups, and adds the grand totals; merging several per-file lists one by one gives the same lookups as adding all of their Locs to one list.", "quantifier": "all pairs (and sequences) of lists reachable through the API, all languages", "why_tests_cant": "ranges over all pairs of histories", "anchors": ["src/loc.c:ohcount_loc_list_add_loc_list"]}
{"id": "C04", "title": "Compacting a line-count list", "statement": "Compacting keeps exactly the languages whose line total is non-zero, in the same order and with the same counts, and leaves the total number of lines unchanged; with non-negative counts the code, comment and blank totals are unchanged too.", "quantifier": "every list reachable through the API", "why_tests_cant": "all list shapes", "anchors": ["src/loc.c:ohcount_loc_list_new_compact"]}
{"id": "C05", "title": "Per-language lookup in a delta list", "statement": "After any additions to a LocDeltaList, looking a language up returns the sums of all deltas added for it. (False of the code: only the first language is merged; other languages get duplicate entries. The grand totals are nevertheless right.)", "quantifier": "every history of add_loc_delta calls, every language", "why_tests_cant": "only some histories (a non-first language added twice) show the defect", "anchors": ["src/loc.c:ohcount_loc_delta_list_add_loc_delta", "src/loc.c:ohcount_loc_delta_list_get_loc_delta"]}
{"id": "C06", "title": "Delta list totals", "statement": "The grand totals of a delta list (six counters and the four net values) equal the sums over everything added; net_total = net_code + net_comments + net_blanks.", "quantifier": "every history of additions and merges", "why_tests_cant": "unbounded histories", "anchors": ["src/loc.c:ohcount_loc_delta_list_code_added", "src/loc.c:ohcount_loc_delta_list_net_total", "src/loc.c:ohcount_loc_delta_net_total"]}
{"id": "C07", "title": "Compacting a delta list", "statement": "Compacting a delta list removes exactly the unchanged entries as far as totals are concerned: all grand totals are unchanged and no entry of the result is unchanged whenever the kept entries are of distinct languages; a delta is 'changed' exactly when one of its six counters is non-zero.", "quantifier": "every delta list", "why_tests_cant": "all list shapes", "anchors": ["src/loc.c:ohcount_loc_delta_list_new_compact", "src/loc.c:ohcount_loc_delta_is_changed"]}
{"id": "C08", "title": "Text buffers never overflow", "statement": "For any sequence of code/comment lines with in-range positions recorded for a file, the per-language text buffers are never written outside their allocation, and always hold a NUL-terminated string.", "quantifier": "every file size and every sequence of recorded lines", "why_tests_cant": "overflow depends on the sum of an unbounded sequence of lengths", "anchors": ["src/parsed_language.c:ohcount_parsed_language_add_code", "src/parsed_language.c:ohcount_parsed_language_add_comment", "src/sourcefile.c:parser_callback"]}
{"id": "C09", "title": "No line is lost between the parser and the counts", "statement": "If the line ranges reported by a parser are in-range and pairwise disjoint, then every reported line is counted: per language, code/comment/blank counts equal the number of lcode/lcomment/lblank reports. (Without disjointness a line can be silently dropped: witness.)", "quantifier": "every file, every sequence of reports with disjoint ranges", "why_tests_cant": "the guard in the buffer code is only reached for particular sums of lengths", "anchors": ["src/sourcefile.c:parser_callback", "src/parsed_language.c"]}
{"id": "C10", "title": "Language order and file count of a parsed file", "statement": "The line-count list of one file has one entry per reported language, in order of first appearance, each with filecount 1, and its total is the number of reported lines.", "quantifier": "every sequence of reports", "why_tests_cant": "unbounded sequences of reports in any language order", "anchors": ["src/sourcefile.c:ohcount_sourcefile_get_loc_list", "src/sourcefile.c:parser_callback"]}
{"id": "C11", "title": "Path splitting", "statement": "For every path, the file name is the part after the last '/' or '\\\\', the extension is the part after the last '.' of the file name (empty if there is none), and directory + separator + file name reassemble the path.", "quantifier": "every byte string used as a path", "why_tests_cant": "all paths, including degenerate ones (no dot, no separator: the code then reads one byte before the buffer)", "anchors": ["src/sourcefile.c:ohcount_sourcefile_new"]}
{"id": "C12", "title": "Language caching and forcing", "statement": "Setting a known language makes every later query return that language without running detection; setting an unknown name changes nothing; without setting, detection runs at most once and every query returns the same answer whatever other calls are made in between.", "quantifier": "every history of API calls on a source file", "why_tests_cant": "history property over unbounded call sequences", "anchors": ["src/sourcefile.c:ohcount_sourcefile_set_language", "src/sourcefile.c:ohcount_sourcefile_get_language"]}
{"id": "C13", "title": "Parsing happens once and results are stable", "statement": "Once a file has been parsed, the parsed languages and the line counts never change again, whatever calls follow (including set_contents and set_language), and computing the counts twice gives the same result.", "quantifier": "every history of API calls after the first parse", "why_tests_cant": "unbounded call histories", "anchors": ["src/sourcefile.c:ohcount_sourcefile_parse", "src/sourcefile.c:ohcount_sourcefile_get_loc_list"]}
{"id": "C14", "title": "Contents given by the caller stay the file's contents", "statement": "After set_contents, get_contents returns those contents until set_contents is called again. (False of the code: the first parse frees the contents, later queries read the disk; it holds up to the first parse.)", "quantifier": "every history of API calls", "why_tests_cant": "the defect needs a particular order of calls", "anchors": ["src/sourcefile.c:ohcount_sourcefile_set_contents", "src/sourcefile.c:ohcount_sourcefile_get_contents", "src/sourcefile.c:ohcount_sourcefile_parse"]}
{"id": "C15", "title": "Directory listing", "statement": "Adding a directory adds exactly the regular files reachable from it through non-hidden, non-symlink directories, each exactly once per directory entry, files with hidden names included; adding a file appends it at the end.", "quantifier": "every directory tree of any depth and width", "why_tests_cant": "unbounded recursive structure", "anchors": ["src/sourcefile.c:ohcount_sourcefile_list_add_directory", "src/sourcefile.c:ohcount_sourcefile_list_add_file"]}
{"id": "C16", "title": "Project totals are sums over files", "statement": "The language summary of a list of files equals, for every language, the sum of the per-file counts, its filecount is the number of files that report the language, and it does not depend on the order of the files.", "quantifier": "every list of files", "why_tests_cant": "unbounded lists and permutations", "anchors": ["src/sourcefile.c:ohcount_sourcefile_list_analyze_languages"]}
{"id": "C17", "title": "Diff: net change", "statement": "For any two texts, lines added minus lines removed equals the difference of the numbers of non-empty lines.", "quantifier": "all pairs of texts (within the in-memory size limit)", "why_tests_cant": "all pairs of texts", "anchors": ["src/diff.c:ohcount_calc_diff"]}
{"id": "C18", "title": "Diff: unchanged text has an empty diff", "statement": "Comparing a text with itself reports nothing added and nothing removed.", "quantifier": "every text", "why_tests_cant": "all texts", "anchors": ["src/diff.c:ohcount_calc_diff"]}
{"id": "C19", "title": "Diff: minimality", "statement": "The number of unchanged lines found is the length of a longest common subsequence of the two line sequences (lines identified by the code's hash), so that added = lines(new) - LCS and removed = lines(old) - LCS.", "quantifier": "all pairs of texts", "why_tests_cant": "optimality over all subsequences of all inputs", "anchors": ["src/diff.c:stone", "src/diff.c:search", "src/diff.c:unravel", "src/diff.c:output"]}
{"id": "C20", "title": "Diff: reversal", "statement": "Swapping the two texts swaps the added and removed counts.", "quantifier": "all pairs of texts", "why_tests_cant": "all pairs", "anchors": ["src/diff.c:ohcount_calc_diff"]}
{"id": "C21", "title": "Diff: bounds and termination", "statement": "The diff of any two texts terminates with 0 <= removed <= lines(old) and 0 <= added <= lines(new), and all internal array accesses are in bounds, provided no line hashes to zero (witness of a read past the end otherwise).", "quantifier": "all pairs of texts", "why_tests_cant": "index arithmetic over unbounded arrays", "anchors": ["src/diff.c:equiv", "src/diff.c:prune", "src/diff.c:sort"]}
{"id": "C22", "title": "Line hash and trailing white space", "statement": "Two lines that are equal get the same line hash and hence are identified by the diff; the converse fails (witness of two different lines identified).", "quantifier": "all lines", "why_tests_cant": "all byte strings", "anchors": ["src/diff.c:readhash"]}
{"id": "C23", "title": "Per-language delta of two files", "statement": "The delta list of two files has an entry for exactly the languages of either file, each once, blank-line changes are reported as a pure net change, and for each language the net code change is the difference of the numbers of non-empty code lines recorded.", "quantifier": "all pairs of parsed files", "why_tests_cant": "all pairs of parses", "anchors": ["src/sourcefile.c:ohcount_sourcefile_diff", "src/sourcefile.c:ohcount_sourcefile_calc_loc_delta"]}
{"id": "C24", "title": "Each license is reported at most once", "statement": "The license list of a file contains no license twice and lists licenses in the order of the license table.", "quantifier": "every file and every behaviour of the regular-expression matcher", "why_tests_cant": "all contents and match sets", "anchors": ["src/licenses.c:ohcount_detect_license"]}
{"id": "C25", "title": "Licenses are found in every language's comments", "statement": "If the comments of some language of the file contain a license text (and no overriding license is present), that license is reported. (False of the code: the potential set is reset for each language, so only the last language counts.)", "quantifier": "all files with any number of languages", "why_tests_cant": "needs a file with two languages and licenses in the first", "anchors": ["src/licenses.c:ohcount_detect_license"]}
{"id": "C26", "title": "More specific licenses override general ones", "statement": "A general license (e.g. plain GPL) is never reported together with a license that overrides it, and a license whose match lies inside the match of another reported candidate is removed.", "quantifier": "all match sets", "why_tests_cant": "all combinations of matches", "anchors": ["src/licenses.c:ohcount_detect_license", "src/licenses.c:overrides"]}
{"id": "C27", "title": "Unambiguous extensions decide the language", "statement": "If the extension of a file is listed as an unambiguous extension of a language, the language of the file is that language whatever the directory, the base name, the contents, the emacs mode line and libmagic say; a binary extension gives no language.", "quantifier": "every path and every contents", "why_tests_cant": "all contents and paths", "anchors": ["src/detector.c:ohcount_detect_language", "src/hash/extensions.gperf"]}
{"id": "C28", "title": "Extension case", "statement": "An extension in any mixture of upper and lower case that is not listed itself is treated like its lower-case form.", "quantifier": "every path", "why_tests_cant": "all spellings", "anchors": ["src/detector.c:ohcount_detect_language"]}
{"id": "C29", "title": "Detection returns known languages", "statement": "Whatever the file, a non-null detected language is an identifier from the language list, i.e. one that is displayable and that set_language accepts. (False for a few identifiers / disambiguators: witnesses.)", "quantifier": "every file, every contents, every libmagic answer", "why_tests_cant": "closed-world property of tables and 20 disambiguators over all contents", "anchors": ["src/detector.c", "src/hash/languages.gperf", "src/hash/extensions.gperf", "src/hash/filenames.gperf"]}
{"id": "C30", "title": "Detected languages can be counted", "statement": "Every language that the tables can produce has a parser, so lines of a detected file are actually counted. (Exceptions listed and proved.)", "quantifier": "every table entry and disambiguator result", "why_tests_cant": "finite but large cross product of tables; must hold for all entries", "anchors": ["src/hash/parsers.gperf", "src/hash/extensions.gperf", "src/hash/filenames.gperf"]}
{"id": "C31", "title": "Disambiguation does not write out of bounds", "statement": "Looking at the first lines of a file to guess its language never writes outside the fixed line buffer, however long the lines are. (False of the code for lines of 81 or more characters.)", "quantifier": "every contents", "why_tests_cant": "needs lines of exactly the critical length", "anchors": ["src/detector.c:ohcount_detect_language", "src/detector.c:disambiguate_basic"]}
{"id": "C32", "title": "Language tables are functions", "statement": "No key occurs twice with different values in the extension, file-name, language and parser tables, and every disambiguation id used in the extension table has a disambiguator.", "quantifier": "every table key", "why_tests_cant": "whole-table property", "anchors": ["src/hash/extensions.gperf", "src/hash/filenames.gperf", "src/hash/languages.gperf", "src/hash/parsers.gperf", "src/hash/disambiguatefuncs.gperf"]}
{"id": "C33", "title": "Line callbacks have valid ranges", "statement": "Every lcode/lcomment/lblank callback of a line parser has 0 <= start < end <= length of the buffer.", "quantifier": "every buffer (all byte sequences of any length), every modelled parser, every state left over by an earlier parse", "why_tests_cant": "all inputs; the defects need an unterminated or split construct at a particular place", "anchors": ["src/parser_macros.h", "src/parsers/*.rl"]}
{"id": "C34", "title": "Line callbacks have known kinds and languages", "statement": "Every callback of a line parser is lcode, lcomment or lblank and names a language from the fixed set of that parser.", "quantifier": "every buffer, every modelled parser", "why_tests_cant": "all inputs", "anchors": ["src/parsers/*.rl", "src/parser_macros.h"]}
{"id": "C35", "title": "Exactly one report per line (line-oriented languages)", "statement": "For languages whose lexical constructs do not span lines, each line of the file is reported exactly once, in order, with its exact extent, and the total equals the number of lines; the last line without newline is reported iff it is not blank.", "quantifier": "every buffer without vertical tab and without final lone carriage return, every line-oriented parser", "why_tests_cant": "all inputs of any length", "anchors": ["src/parsers/*.rl", "src/parsers/common.rl", "src/parser_macros.h"]}
{"id": "C36", "title": "Blank lines are exactly the white-space lines (line-oriented languages)", "statement": "A line is reported lblank if and only if it consists of spaces and tabs only; otherwise it is code or comment.", "quantifier": "every buffer as in the previous property", "why_tests_cant": "all inputs", "anchors": ["src/parsers/*.rl", "src/parser_macros.h"]}
{"id": "C37", "title": "Exactly one report per line (queued languages)", "statement": "For languages whose multi-line strings are queued until the closing delimiter is seen, each line end is reported exactly once even if a string is never closed.", "quantifier": "every buffer, every parser of this kind", "why_tests_cant": "depends on backtracking over arbitrarily long text", "anchors": ["src/parsers/ruby.rl", "src/parsers/shell.rl", "src/parsers/common.rl", "src/parser_macros.h:enqueue"]}
{"id": "C38", "title": "Exactly one report per line (C and other direct multi-line languages)", "statement": "For C-like languages each line of the file is reported exactly once. (False of the code: an unterminated block comment makes lines count twice, a vertical tab stops the parser, and a raw newline in a string swallows lines; proved for inputs where every construct is closed.)", "quantifier": "every buffer", "why_tests_cant": "needs particular malformed inputs to fail and all well-formed inputs to hold", "anchors": ["src/parsers/c.rl", "src/parser_macros.h"]}
{"id": "C39", "title": "C line classification", "statement": "For C sources without the excluded constructs, a line is reported as code iff it contains a character that is neither white space nor inside a comment, else as comment iff it contains a comment character, else blank.", "quantifier": "every such C source", "why_tests_cant": "all inputs", "anchors": ["src/parsers/c.rl"]}
{"id": "C40", "title": "Parsing is history free", "statement": "The callbacks produced for a buffer depend only on the buffer and the parser, not on what was parsed before by any parser in the same process.", "quantifier": "every history of parser calls", "why_tests_cant": "the parser state is global; only particular histories could leak", "anchors": ["src/parser_macros.h:init", "src/parsers/*.rl"]}
{"id": "C41", "title": "Parsers terminate", "statement": "Every modelled line parser stops on every buffer, after a number of steps bounded by a function of the buffer length.", "quantifier": "every buffer", "why_tests_cant": "all inputs; loops through p-- and p = ts", "anchors": ["src/parsers/*.rl"]}
{"id": "C42", "title": "A vertical tab silently ends counting", "statement": "There are buffers in which everything after some point is not reported: a vertical tab outside every construct stops the C-like scanners (negative result recorded as theorem for all continuations).", "quantifier": "every text following the vertical tab", "why_tests_cant": "all continuations", "anchors": ["src/parsers/common.rl", "src/parsers/c.rl"]}
{"id": "C43", "title": "Sorting for display is a permutation and sorted", "statement": "Sorting a line-count list for display keeps exactly the same entries and orders them by language name (individual list) or by decreasing code (summary).", "quantifier": "every list", "why_tests_cant": "all lists", "anchors": ["src/ohcount.c:sort_loc_list_by_language", "src/ohcount.c:sort_loc_list_by_code"]}
{"id": "C44", "title": "Summary figures are consistent", "statement": "The totals row of the summary equals the sums of the displayed rows, and the comment percentage divides by a non-zero number.", "quantifier": "every file list", "why_tests_cant": "all lists", "anchors": ["src/ohcount.c:summary", "src/ohcount.c:individual"]}
{"id": "C45", "title": "Command-line selection", "statement": "The first argument selects the action exactly when it is one of the documented options; otherwise the default summary is run on all arguments; with no paths the current directory is used.", "quantifier": "every argument vector", "why_tests_cant": "all argument vectors", "anchors": ["src/ohcount.c:main"]}
{"id": "C46", "title": "Entity ranges are in order and do not overlap", "statement": "In entity mode, the reported token ranges are in order, non-empty, do not overlap and lie inside the buffer.", "quantifier": "every buffer, every modelled entity parser without recursive calls", "why_tests_cant": "all inputs", "anchors": ["src/parsers/*.rl", "src/parsers/common.rl"]}
{"id": "C47", "title": "Diff of large texts", "statement": "For texts of more than 100000 bytes the numbers of added and removed lines are the numbers of lines the external diff prints with a leading '>' and '<', whatever it prints.", "quantifier": "all outputs of the external program", "why_tests_cant": "the output is read in fixed-size pieces; all lengths of lines matter", "anchors": ["src/diff.c:ohcount_calc_diff_with_disk"]}
{"id": "C48", "title": "License search sees the whole comment text", "statement": "Before licenses are searched, the comments of a language are normalised without reading or writing outside the buffers and without losing text: the searched text is exactly the comment lines, each without its leading blanks and punctuation and followed by one space.", "quantifier": "every comments buffer, of any length and content", "why_tests_cant": "all lengths and line structures, and out-of-bounds stores need not crash", "anchors": ["src/licenses.c:ohcount_detect_license"]}
{"id": "C49", "title": "Annotated lines are printed within bounds", "statement": "The annotate action prints, for every reported line, exactly the text of the line, and stores nothing outside its line buffer. (False of the code: the terminator is always stored one byte past the buffer.)", "quantifier": "every file content and every reported line", "why_tests_cant": "the overrun is silent and depends on the stack layout", "anchors": ["src/ohcount.c:annotate_callback"]}
{"id": "C50", "title": "Binary file names", "statement": "ohcount_is_binary_filename says yes exactly when what follows the last dot of the name is, as written or in lower case, a binary extension; such a file never gets a language.", "quantifier": "every file name, every contents", "why_tests_cant": "The claim ranges over all names and relates two functions on all inputs.", "anchors": ["src/detector.c:ohcount_is_binary_filename", "src/detector.c:ohcount_detect_language"]}
{"id": "C51", "title": "Well-known file names decide", "statement": "A file whose name is in the file-name table has the listed language in every directory and whatever libmagic says, unless a mode line says otherwise. (False for init.pp, whose extension is looked at first.)", "quantifier": "every directory, every contents without a mode line, every libmagic answer", "why_tests_cant": "All directories, contents and libmagic answers.", "anchors": ["src/detector.c:ohcount_detect_language", "src/hash/filenames.gperf"]}
{"id": "C52", "title": "Content markers decide ambiguous extensions", "statement": "For .cs, .inc, .pl, .pro, .r, .rs, .dat and .asx files the language depends only on whether the marker of the rarer language occurs in the contents, at the place where it has to occur.", "quantifier": "every path and every contents", "why_tests_cant": "Markers can be at any offset of contents of any length.", "anchors": ["src/detector.c:disambiguate_cs", "src/detector.c:disambiguate_inc", "src/detector.c:disambiguate_pl", "src/detector.c:disambiguate_pro", "src/detector.c:disambiguate_r", "src/detector.c:disambiguate_rs", "src/detector.c:disambiguate_dat", "src/detector.c:disambiguate_asx"]}
{"id": "C53", "title": "Mode lines decide", "statement": "In a file without a listed extension an Emacs mode line on the first line that names a language decides, whatever else the contents, the file name and libmagic say.", "quantifier": "every path without a listed extension, every text before and after the mode line, every libmagic answer", "why_tests_cant": "All surrounding texts.", "anchors": ["src/detector.c:ohcount_detect_language"]}
{"id": "C54", "title": "Script descriptions", "statement": "A libmagic description '... NAME script ...' gives the language called NAME.", "quantifier": "every description of this form", "why_tests_cant": "All descriptions.", "anchors": ["src/detector.c:magic_parse"]}
{"id": "C55", "title": "Each line is reported with its right kind", "statement": "For a text whose comments and literals are closed and that has no vertical tab and no carriage return without a line feed, the line callbacks of a language are one for each line, in order, and a line is reported as code if it has a byte outside comments that is not white space, else as comment if it has a byte of a comment that is not white space, else as blank; the comments and literals are those of a table of delimiters for the language.", "quantifier": "every correct text, each of 65 line parsers", "why_tests_cant": "all texts; constructs may span any number of lines and contain each other's delimiters", "anchors": ["src/parsers/*.rl", "src/parsers/common.rl", "src/parser_macros.h"]}
{"id": "C56", "title": "Text collected for a language", "statement": "The code text of a language in a parsed file is its reported code lines in order, each without its leading blanks and tabs; the comment text is the same for the comment lines.", "quantifier": "every file without NUL bytes, every sequence of in-range disjoint reports", "why_tests_cant": "unbounded sequences of reports over text of any size", "anchors": ["src/sourcefile.c:parser_callback", "src/parsed_language.c"]}
{"id": "C57", "title": "Contents come from the file's path", "statement": "If the contents are never set, then in any history of calls the contents, their size and the text that is parsed are the bytes of the file at the disk path if one was set, else at the path; a missing or empty file has no contents and size 0. A parse frees the contents and later queries read them again.", "quantifier": "every path, disk and history of calls that does not change the text", "why_tests_cant": "unbounded call histories", "anchors": ["src/sourcefile.c:ohcount_sourcefile_get_contents", "src/sourcefile.c:ohcount_sourcefile_get_contents_size", "src/sourcefile.c:ohcount_sourcefile_parse"]}
{"id": "C58", "title": "The detect action", "statement": "ohcount --detect prints for each path, in order, the language that a query on that file returns, and the path.", "quantifier": "every list of paths and every file system", "why_tests_cant": "all lists of paths", "anchors": ["src/ohcount.c:detect"]}
{"id": "C59", "title": "From files to line counts", "statement": "For a file whose extension stands for a language and whose text is lexically correct for it, the line counts of the file are the numbers of its code, comment and blank lines by the specification of the language; for a directory of such files the summary shows for each language the sums over its files.", "quantifier": "every path, every text of the 65 classified languages, every directory tree, every host (libmagic, regular expressions, memory contents)", "why_tests_cant": "all texts, trees and hosts, through detection, parsing, recording and summing together", "anchors": ["src/sourcefile.c:ohcount_sourcefile_get_loc_list", "src/sourcefile.c:ohcount_sourcefile_list_analyze_languages", "src/detector.c:ohcount_detect_language", "src/parser.c:ohcount_parse"]}
{"id": "C60", "title": "Line evidence decides ambiguous extensions", "statement": "For .def, .mod, .fs, .bas and .h files what the text says decides the language in a fixed way: a .def or .mod file by its first characters that are not white space; a .fs file by whether more lines look like Forth or like F#; a .bas file is classic BASIC iff some line starts with a line number, otherwise Visual Basic iff a file of the context has an extension of Visual Basic, otherwise structured BASIC; a .h file is Objective C iff the context has the .m file of the same name, otherwise C++ iff some line includes a header of C++ or has one of the words class, namespace, template, typename, otherwise C.", "quantifier": "every path, text, context and machine whose arrays have a spare byte", "why_tests_cant": "all texts with evidence at any line", "anchors": ["src/detector.c:disambiguate_def", "src/detector.c:disambiguate_mod", "src/detector.c:disambiguate_fs", "src/detector.c:disambiguate_basic", "src/detector.c:disambiguate_h"]}
{"id": "C61", "title": "Evidence decides .in, .st, .b, .m and Fortran files", "statement": "A file name.in has the language of the file name with the same text. A .st file is Smalltalk iff its lines have an assignment, a block after a colon and a block end with a dot, and has no language otherwise. A .b file is Limbo if a statement of Limbo occurs outside an include clause, and is decided like a .bas file if none occurs. A .m file is decided by comparing the points its lines give to Limbo, Objective C, Mathematica and Matlab (five more for Objective C if the directory has a file .h and no C or C++ file), with Octave told from Matlab by a comment or a word of Octave. A Fortran file is free form iff it starts with a line end or has a line that breaks the rules of fixed form (comment lines, label field, continuation column, no unquoted ampersand in columns 7 to 72).", "quantifier": "every path, text, context and machine whose arrays have a spare byte", "why_tests_cant": "all texts, with evidence at any line, column and quote state", "anchors": ["src/detector.c:disambiguate_in", "src/detector.c:disambiguate_st", "src/detector.c:disambiguate_b", "src/detector.c:disambiguate_m", "src/detector.c:disambiguate_fortran"]}
{"id": "C62", "title": "Parsers with embedded languages stop and stay inside the buffer", "statement": "For every buffer the parsers of languages with embedded languages (HTML, MXML, JSP, PHP, RHTML, ClearSilver and ASPX pages, Nix, CoffeeScript, MetaPost with TeX, Perl, Haml) come to an end by themselves, never exceed nor underflow their stack of return addresses, and every line or entity callback whose start is not computed from a NULL pointer has 0 <= start < end <= length.", "quantifier": "all buffers and all contents of the variables that are not initialised, for 13 parsers, in line mode and in entity mode", "why_tests_cant": "all byte strings: any nesting of tags, scripts, comments and strings, cut off anywhere", "anchors": ["src/parsers/html.rl:parse_html", "src/parsers/phphtml.rl:parse_phtml", "src/parsers/jsp.rl:parse_jsp", "src/parsers/nix.rl:parse_nix", "src/parser_macros.h:init"]}
{"id": "C63", "title": "Mixed files are reported in their own languages only", "statement": "Every callback of a parser with embedded languages names the language of the file or one of the languages that can be embedded in it, all of which are languages of the language table (except CoffeeScript, which the table does not have).", "quantifier": "all buffers, 13 parsers, in line mode and in entity mode", "why_tests_cant": "all byte strings and all switches between the languages", "anchors": ["src/parsers/html.rl:html_line", "src/parser_macros.h:saw", "src/parser_macros.h:emb_newline", "src/hash/parsers.gperf"]}
{"id": "C64", "title": "No callback from a NULL line start in mixed files", "statement": "The parsers with embedded languages never compute the position of a line callback from a line start that is not set.", "quantifier": "all buffers, 13 parsers", "why_tests_cant": "all byte strings: the line start is lost and set again by each of the languages", "anchors": ["src/parser_macros.h:std_internal_newline", "src/parser_macros.h:emb_internal_newline", "src/parsers/html.rl:html_css_outry", "src/parsers/phphtml.rl:phtml_php_outry"]}
{"id": "C65", "title": "Pages are counted piece by piece", "statement": "If the first part of a page consists of complete lines (it ends with a line feed and leaves no tag, script, comment or string open), the callbacks for the page are those for the first part, followed by those for the rest with their positions shifted; so the counts per language and kind are the sums over the parts, for any number of parts.", "quantifier": "all buffers split into parts, for the HTML, MXML, Nix, JSP, PHP, ClearSilver, C# and VB ASPX and RHTML parsers", "why_tests_cant": "all texts before and after the point of division, any number of parts", "anchors": ["src/parsers/html.rl:parse_html", "src/parsers/jsp.rl:parse_jsp", "src/parser_macros.h:process_last_line", "src/sourcefile.c:parser_callback"]}
{"id": "C66", "title": "Parsers of mixed files do not depend on earlier files", "statement": "What a parser with embedded languages reports for a buffer, in line mode and in entity mode, does not depend on what earlier calls have left in its static variables.", "quantifier": "all buffers and all contents of the variables that are not initialised, for 13 parsers", "why_tests_cant": "all histories of earlier calls", "anchors": ["src/parser_macros.h:init", "src/parsers/html.rl:parse_html", "src/parsers/perl.rl:parse_perl"]}
{"id": "C67", "title": "Embedded code is counted like a file of its language", "statement": "In a page the lines between the line that opens a style sheet, a script or a piece of code and the line that closes it are reported, under the name of the embedded language, exactly as the parser of that language reports that text when it is a file of its own; the opening and the closing line are code of the page; the lines before and after are reported as without the region. So the kinds of the lines inside are those of the specification of the language (C55), and the counts of a page are the sums over its pieces.", "quantifier": "all texts of the region that end with a complete line, leave nothing open and do not contain the closing mark; all texts before and after; 21 kinds of regions in 9 parsers (style sheets and scripts in HTML, JSP, PHP, ClearSilver, RHTML and ASPX pages, style and ActionScript in MXML, Java in JSP, ClearSilver, C# and VB server scripts, shell in Nix)", "why_tests_cant": "all texts of the region and around it, any number of regions", "anchors": ["src/parsers/html.rl:html_css_line", "src/parsers/html.rl:html_js_line", "src/parsers/jsp.rl:jsp_java_line", "src/parsers/css.rl:css_line", "src/parsers/cs_aspx.rl:cs_aspx_cs_line", "src/parsers/nix.rl:nix_dq_shell_line", "src/parser_macros.h:check_blank_outry"]}
{"id": "C68", "title": "One report per line in mixed files", "statement": "A parser with embedded languages makes exactly one line callback for every complete line of the file, with the extent of the line.", "quantifier": "all buffers without vertical tab that end with a line end, 13 parsers", "why_tests_cant": "all files; the property is false for twelve of the parsers, holds for the thirteenth, and holds for pages made of regular pieces", "anchors": ["src/parsers/html.rl", "src/parsers/jsp.rl", "src/parsers/haml.rl", "src/parsers/perl.rl", "src/parsers/nix.rl", "src/parsers/coffeescript.rl", "src/parsers/metapost_with_tex.rl", "src/parser_macros.h:std_internal_newline"]}
{"id": "C69", "title": "Files are read to their end", "statement": "A parser in line mode reads its buffer to the end, so that no text is left out of the counts, unless the buffer contains a vertical tab. Where that is false (an unpaired quotation mark after a command in Vim script, a line `=` in Perl, a hyphen inside a comment or a backslash before a line end in an attribute in JSP, PHP, ClearSilver, RHTML and ASPX pages) the rest of the file is reported as part of one line.", "quantifier": "all buffers, all contents of the static variables, 124 parsers; in the negative results every text that follows", "why_tests_cant": "all files; all continuations", "anchors": ["src/parsers/vim.rl:vim_dq_str", "src/parsers/perl.rl:perl_block_comment", "src/parsers/jsp.rl:jsp_comment", "src/parsers/jsp.rl:jsp_sq_str", "src/parsers/common.rl:newline", "src/parser_macros.h:process_last_line"]}
{"id": "C70", "title": "From pages to line counts", "statement": "For a file whose extension stands for a page language (HTML, PHP, JSP, RHTML, MXML, Nix) and whose text consists of complete lines of the page and of regions in embedded languages (C67), the line counts of a new source file show, for the page language and for each embedded language, the numbers of code, comment and blank lines: those of the specification of the embedded language (C55) for the text of the region, one line of code of the page for each line that opens or closes a region, and for the lines of the page what the parser reports for them alone. The summary of a directory of such files and of files known from C59 shows for every language the sums over all files and the number of files with lines in it.", "quantifier": "all sequences of pieces of any number and length in which each line of the page has one callback and none is computed from a NULL pointer, all directory trees, disks, hosts", "why_tests_cant": "all pages and all directories; the counts of one language come from many regions in many files", "anchors": ["src/sourcefile.c:ohcount_sourcefile_get_loc_list", "src/sourcefile.c:ohcount_sourcefile_list_analyze_languages", "src/parsers/html.rl", "src/parsers/jsp.rl", "src/parsers/phtml.rl", "src/parsed_language.c", "src/hash/extensions.gperf"]}
{"id": "C71", "title": "No file makes the library record outside its buffers", "statement": "Whatever the contents of a file, its name, the state of the disk and the order of the calls on a source file, recording the lines of the file (parsed languages, line counts, licenses, summary of a directory) stays inside the buffers of the parsed languages: every line callback is such that the text after its leading blanks starts and ends inside the file. Where that is false (pages with an end tag that goes on in the next line) the file is of one of seven page languages.", "quantifier": "all file contents, names, disks, disk changes, call histories, hosts (magic, PCRE, fresh memory)", "why_tests_cant": "all files, histories and schedules of disk changes; a single unlucky text corrupts memory", "anchors": ["src/sourcefile.c:ohcount_sourcefile_parse", "src/sourcefile.c:parser_callback", "src/parsed_language.c", "src/parser.c:ohcount_parse", "src/parser_macros.h", "src/parsers/html.rl"]}
{"id": "C72", "title": "A file has as many counted lines as lines", "statement": "For a file in one of 25 languages that are read line by line (Ada, Makefile, Fortran, TeX, VHDL, R, Visual Basic and others) the code, comment and blank counts of a new source file add up to the number of lines of the file, the blank count is the number of blank lines, and there is no entry for another language; text after the last line end counts as a line unless it is blank.", "quantifier": "all texts without vertical tab, whether correct in the language or not, all names with an extension of the language, disks, hosts", "why_tests_cant": "all texts, in particular incorrect ones", "anchors": ["src/sourcefile.c:ohcount_sourcefile_get_loc_list", "src/parsers/ada.rl", "src/parsers/makefile.rl", "src/parser_macros.h:std_newline", "src/parser_macros.h:process_last_line", "src/parsed_language.c"]}
{"id": "C73", "title": "Lists of counts in memory", "statement": "Whatever addresses malloc returns (those of freed blocks included) and in whatever order a program creates, merges, adds, copies, searches, sums and frees line counts, line changes and lists of them, as long as it uses only pointers it was given and has not freed and does not add a list to itself: no function reads, writes or frees NULL, a freed block or a block of another kind, every loop ends, every call returns what the lists as sequences of entries say, and the blocks in use are exactly those of the entries and lists that have not been freed (one for an entry, one for an empty list, two for each entry of another list), so that nothing is left when all has been freed.", "quantifier": "all histories of calls, all allocators", "why_tests_cant": "all interleavings of calls on any number of lists and all choices of addresses; use after free shows up in a test only by luck", "anchors": ["src/loc.c:ohcount_loc_list_add_loc", "src/loc.c:ohcount_loc_list_add_loc_list", "src/loc.c:ohcount_loc_list_get_loc", "src/loc.c:ohcount_loc_list_new_compact", "src/loc.c:ohcount_loc_list_free", "src/loc.c:ohcount_loc_delta_list_add_loc_delta", "src/loc.c:ohcount_loc_delta_list_free", "src/structs.h"]}
{"id": "C74", "title": "Source files in memory", "statement": "Whatever addresses malloc returns, whatever is on the disk and however it changes, and in whatever order a program creates source files and lists of source files, adds files and directories to lists, calls the functions for contents, size, language, parsing, licenses and line counts on them (also on the files in lists), sums lists up and frees all that, as long as it uses only what it was given and has not freed: no function reads, writes or frees NULL, a freed block or a block of another kind, every loop ends, every call returns what the functional account of source files (C13-C16, C34, C71) says, and the number of blocks in use is that of the live objects plus the lost buffers of the license search. Apart from misused pointers, the functional account gives a call no result only when a source file is at hand that the library takes for a page (C71).", "quantifier": "all histories of calls, all allocators, all disks and disk changes, all file contents, all hosts", "why_tests_cant": "all interleavings of calls on any number of objects and all choices of addresses; use after free shows up in a test only by luck", "anchors": ["src/sourcefile.c:ohcount_sourcefile_new", "src/sourcefile.c:ohcount_sourcefile_get_contents", "src/sourcefile.c:ohcount_sourcefile_parse", "src/sourcefile.c:parser_callback", "src/sourcefile.c:ohcount_sourcefile_get_loc_list", "src/sourcefile.c:ohcount_sourcefile_free", "src/sourcefile.c:ohcount_sourcefile_list_add_file", "src/sourcefile.c:ohcount_sourcefile_list_analyze_languages", "src/sourcefile.c:ohcount_sourcefile_list_free", "src/parsed_language.c:ohcount_parsed_language_list_free", "src/licenses.c:ohcount_license_list_free"]}
{"id": "C75", "title": "Source files leave nothing behind", "statement": "When a program has freed all source files, lists of source files and summaries that it has created, no block that the library allocated for them is in use any more.", "quantifier": "all histories of calls, all allocators, all disks and disk changes", "why_tests_cant": "all histories; the property is false (one buffer for every parsed language is lost by each first search for licenses) and holds for the histories without such a search", "anchors": ["src/sourcefile.c:ohcount_sourcefile_free", "src/sourcefile.c:ohcount_sourcefile_list_free", "src/licenses.c:ohcount_detect_license"]}
{"id": "C76", "title": "Returned contents stay readable", "statement": "The string that the function for the contents of a source file has returned can be read, and is the same, as long as the source file has not been freed and no other contents have been set; and it may be given back to the source file as its contents. Both are false: the first call that parses the file frees the string, and setting the contents frees the old ones before it reads the new ones.", "quantifier": "all points that a history of calls reaches, all calls made while the string is held, all allocators", "why_tests_cant": "all histories and allocators; reading a freed block often gives the old bytes in a test", "anchors": ["src/sourcefile.c:ohcount_sourcefile_get_contents", "src/sourcefile.c:ohcount_sourcefile_parse", "src/sourcefile.c:ohcount_sourcefile_set_contents"]}
{"id": "C77", "title": "Comparing source files uses memory safely", "statement": "In every history of calls that compares source files (two of them, or one with itself) among all other calls on source files, no freed, unallocated or null block is read, written or freed, and every comparison returns what the account of its results says; a history goes wrong only by using a pointer that must not be used, at a file taken for a page, or at two files with recorded text that cannot be compared.", "quantifier": "all histories of calls, all allocators, all disks and disk changes, all results of the external program diff", "why_tests_cant": "all histories and allocators; a block used after it was freed often still holds its bytes in a test", "anchors": ["src/sourcefile.c:ohcount_sourcefile_diff", "src/sourcefile.c:ohcount_sourcefile_calc_loc_delta", "src/loc_delta.c:ohcount_loc_delta_list_free", "src/diff.c:ohcount_calc_diff"]}
{"id": "C78", "title": "Comparing source files leaves nothing behind", "statement": "When a program has freed its source files and all lists of deltas that comparisons returned, and has not asked for licenses, no block that the library allocated is in use any more. This is false: a comparison loses a block for every language that it compares, and two more for each pair of large texts.", "quantifier": "all histories of calls, all allocators, all disks and disk changes", "why_tests_cant": "all histories; leaks do not change any result", "anchors": ["src/sourcefile.c:ohcount_sourcefile_diff", "src/sourcefile.c:ohcount_sourcefile_calc_loc_delta", "src/diff.c:ohcount_calc_diff_with_disk"]}
{"id": "C79", "title": "A run of the program uses memory safely and prints the answers", "statement": "A run of the command line program prints a complaint for every path that cannot be opened and then what the selected command reports of the files that the paths stand for (languages, counts, licenses, entities), and never reads, writes or frees freed, unallocated or null memory; it goes wrong only at a file taken for a page, or when a line is to be annotated, which always stores outside of an array.", "quantifier": "all argument vectors, directory trees, disks, allocators, regular expression engines and parser reports", "why_tests_cant": "all arguments, trees and allocators; a block used after it was freed often still holds its bytes in a test", "anchors": ["src/ohcount.c:main", "src/ohcount.c:summary", "src/ohcount.c:individual", "src/ohcount.c:licenses", "src/ohcount.c:detect", "src/ohcount.c:raw_entities", "src/ohcount.c:annotate", "src/ohcount.c:sort_loc_list_by_language", "src/ohcount.c:sort_loc_list_by_code"]}
{"id": "C80", "title": "A run of the program frees what it allocates", "statement": "When the command line program ends, no block that it allocated is in use any more. This is false for the option -l, which leaves a block behind for every language found in every file; it holds for all other commands.", "quantifier": "all argument vectors, directory trees, disks and allocators", "why_tests_cant": "all arguments and trees; leaks do not change what is printed", "anchors": ["src/ohcount.c:main", "src/licenses.c:ohcount_detect_license", "src/sourcefile.c:ohcount_sourcefile_list_free"]}
{"id": "C81", "title": "The queue of callbacks uses memory safely", "statement": "However many files a process parses, with whatever parsers, the queue in which parsers hold callbacks back never reads, writes or frees freed, unallocated or null memory, the callbacks made are those that a first parse of each file would make, and freeing the queue restores the memory to what it was before the first parse.", "quantifier": "all sequences of parse calls, all scanners and buffers, all allocators and initial memories", "why_tests_cant": "all histories of calls and allocators; the queue is kept in static variables from one call to the next", "anchors": ["src/parser_macros.h:enqueue", "src/parser_macros.h:free_queue", "src/parser_macros.h:callback_list_head", "src/parsers/common.rl:enqueue", "src/parsers/common.rl:commit"]}
{"id": "C82", "title": "Parsers free what they queue", "statement": "When a parse call returns, no block that the parsers allocated for the queue of callbacks is in use any more. This is false: a file that ends inside a queued construct leaves its last queue behind until the next commit. At most one queue is ever left behind, however many files are parsed, and none by the parsers that queue nothing.", "quantifier": "all sequences of parse calls, all allocators and initial memories", "why_tests_cant": "all histories and all buffers; leaks do not change any result", "anchors": ["src/parser_macros.h:enqueue", "src/parser_macros.h:free_queue", "src/parsers/ruby.rl:ruby_line", "src/parsers/common.rl:commit"]}
{"id": "C83", "title": "The search for platforms ends", "statement": "The analysis of a list of source files for platforms and tools ends with a list of results for any definitions and any files, unless a test of a file raises an exception; calculating the results a second time changes nothing.", "quantifier": "all lists of definitions, all lists of files, all behaviours of the regular expression engine and of the XML parser", "why_tests_cant": "the loop runs until nothing new is found, and definitions depend on results of other definitions", "anchors": ["ruby/gestalt/gestalt_engine.rb:calc_gestalts", "ruby/gestalt.rb:analyze_gestalt"]}
{"id": "C84", "title": "Platforms do not depend on the order of files", "statement": "The platforms and tools found in a project, their order and whether an exception is raised do not depend on the order in which the files of the project are given.", "quantifier": "all projects and all permutations of their files", "why_tests_cant": "all orders of all lists of files; rules keep counters from file to file", "anchors": ["ruby/gestalt/gestalt_engine.rb:process_source_file", "ruby/gestalt.rb:analyze_gestalt"]}
{"id": "C85", "title": "Platforms are found exactly when their definitions say so", "statement": "With the definitions that come with the library, a platform is found exactly if the rules of one of its definitions hold of the files and of the platforms found, and only one set of platforms has this property. For definitions of one's own this is false: a rule 'not' above a gestalt that is defined later is taken as true.", "quantifier": "all projects; all lists of definitions without cycles", "why_tests_cant": "definitions refer to each other, also negatively, and the engine evaluates them in passes while it adds results", "anchors": ["ruby/gestalt/gestalt_engine.rb:calc_gestalts", "ruby/gestalt/definition.rb:gestalts", "ruby/gestalt/rules/not_rule.rb:triggers", "ruby/gestalt/definitions.rb"]}
{"id": "C86", "title": "No platform is reported twice", "statement": "In the list of platforms of a project each platform occurs once. This is false: OpenESB is defined twice and is reported twice whenever it is reported; every other platform is reported at most once, and all counts are 1.", "quantifier": "all projects", "why_tests_cant": "all projects and all combinations of 97 definitions", "anchors": ["ruby/gestalt/java_definitions.rb", "ruby/gestalt/gestalt_engine.rb:calc_gestalts"]}
{"id": "C87", "title": "Maven dependencies are those of the project file", "statement": "What the library reads of a Maven project file are the plugins and dependencies with their own groups and artifacts. This is false: a dependency with an exclusion is read as a dependency on what it excludes, and a plugin with dependencies as the last of these; it holds for files in which plugins and dependencies have no identifiers in inner elements.", "quantifier": "all XML documents", "why_tests_cant": "all trees; the reader keeps one group and one artifact whatever the depth", "anchors": ["ruby/gestalt/rules/maven_parser.rb:MavenListener", "ruby/gestalt/rules/maven_rule.rb:process_source_file"]}
{"id": "C88", "title": "The search for platforms raises no exception", "statement": "The analysis of a project raises no exception, whatever the files contain. This is false: a Maven project file with an identifier that ends before any text raises one, and nothing else does.", "quantifier": "all projects, all behaviours of the regular expression engine and of the XML parser", "why_tests_cant": "all contents of all files", "anchors": ["ruby/gestalt/rules/maven_parser.rb:clean", "ruby/gestalt/rules/maven_parser.rb:tag_end"]}
{"id": "C89", "title": "Definitions name languages that exist", "statement": "The languages that the definitions of platforms name are languages that the library reports, so that a project in such a language can have the platform. This is false for cncpp, assembly, d, fortran, cobol and vb: a project is taken for native code exactly if it has enough C, C++ or Haskell.", "quantifier": "all definitions and all projects", "why_tests_cant": "that a rule never holds is a claim about all projects", "anchors": ["ruby/gestalt/definitions.rb", "src/languages.h", "ruby/gestalt/rules/language_rule.rb:triggers"]}
{"id": "C90", "title": "Imports of a project file are read", "statement": "What the library reads of a project file of C# are the projects that it imports, and nothing for a file of another namespace. This is false for a file of another namespace that names another project before an import; it holds for all files in which the inner project elements are of the same kind as the file.", "quantifier": "all XML documents", "why_tests_cant": "all trees; the reader keeps one flag whatever the depth", "anchors": ["ruby/gestalt/rules/csproj_parser.rb:CsprojListener", "ruby/gestalt/rules/csproj_rule.rb:process_source_file"]}
{"id": "C91", "title": "Diff: memory", "statement": "A diff of two texts held in memory ends, reads and writes only memory that it has allocated itself, within bounds, although its arrays are laid over each other; it counts what it would count with separate arrays, whatever an earlier diff has left in the static variables; and it leaves the memory as it was, nothing stays allocated. (False for a new text with a line whose hash value is 0.)", "quantifier": "all pairs of texts of at most 100000 bytes, all sequences of diffs, all contents of the memory and of fresh memory, all places at which malloc and realloc put blocks", "why_tests_cant": "arrays of two element types share memory; whether a store hits what is read later depends on all lengths, prefixes and repetitions", "anchors": ["src/diff.c:ohcount_calc_diff", "src/diff.c:equiv", "src/diff.c:unsort", "src/diff.c:prepare", "src/diff.c:prune"]}
{"id": "C92", "title": "Licenses: which texts name a license", "statement": "For 62 of the 72 licenses that are looked for, the license is found in a text exactly if one of a short list of names occurs in it: as separate words, in upper or lower case, with any white space or none between the words (white space is required for the Affero and Apache 2 licenses).", "quantifier": "all texts, all licenses of the list, both versions of white space in PCRE", "why_tests_cant": "an expression matches infinitely many texts; that it matches no others, with any text around it, cannot be enumerated", "anchors": ["src/licenses.c:license_map", "src/licenses.c:compile_regexps", "src/licenses.c:ohcount_detect_license"]}
{"id": "C93", "title": "Licenses: every license is found by its own name", "statement": "A license of the table is found in every text that contains its name as the library displays it, as separate words and in upper or lower case; if the name is in a line of the comments, a license is reported for the file. This is false for six licenses (GPL 3, GPL 3 or later, SugarCRM, and the three \"-ish\" ones); it holds for all others, for Apache and Eiffel if no 2 follows.", "quantifier": "all licenses of the table, all texts around the name", "why_tests_cant": "the text around the name is arbitrary and the expressions look at it", "anchors": ["src/licenses.c:license_map", "src/licenses.c:ohcount_detect_license"]}
{"id": "C94", "title": "Licenses: WTFPL", "statement": "The WTFPL is found by its name in words. This is false: the expression has a form feed where the letter f should be, so that in texts without form feeds the license is found only as \"WTFPL\" or \"WTF public license\".", "quantifier": "all texts", "why_tests_cant": "that a part of an expression never matches ordinary texts is a claim about all of them", "anchors": ["src/licenses.c:license_map"]}
{"id": "C95", "title": "Licenses: Apache and Eiffel", "statement": "A text that names the Apache license is found to be under it or under its version 2. This is false for \"Apache License,2.0\", which is neither. It is found as the first exactly if its name occurs and, white space and commas aside, no 2 follows; as the second if there is white space before the 2. The Eiffel Forum license likewise.", "quantifier": "all texts", "why_tests_cant": "lookahead over any number of characters", "anchors": ["src/licenses.c:license_map"]}
{"id": "C96", "title": "Licenses: GPL 3 or later", "statement": "A file is reported as under the GPL version 3 or later only if its comments give 3 as the version of a license. This is false: a notice of version 2 that mentions a clause 3 and the word later is reported as version 3 or later, and not as GPL. It is found exactly if the name of the GPL is followed within 100 characters by a 3 and within 50 more by the word later.", "quantifier": "all texts", "why_tests_cant": "all texts between the words, of all lengths", "anchors": ["src/licenses.c:license_map", "src/licenses.c:OVERRIDE_LICENSE"]}
{"id": "C97", "title": "Licenses: Mozilla 1.1", "statement": "The Mozilla Public License 1.1 is found by its name and version. This is false for the usual notice (\"Mozilla Public License Version 1.1\"), which is reported as 1.0; it is found exactly if the version follows the name after one blank.", "quantifier": "all texts", "why_tests_cant": "all texts around the name", "anchors": ["src/licenses.c:license_map"]}
{"id": "C98", "title": "Licenses found by longer passages", "statement": "The GPL 3, the LGPL 3, Eiffel 2, Lucent Plan 9 and the licenses like Apache's and like BSD's (three and two clauses) are found exactly in the texts that have one of the passages listed for them: these words, in this order, with so many characters of these kinds between them. The stretch found is the first such passage, and the license counts as found exactly if that stretch has none of the passages that exclude it (later versions, the Regents of the University of California, the endorsement clause). Together with C92, C95 and C96 this settles every entry of the table.", "quantifier": "all texts, all entries of the table", "why_tests_cant": "the gaps can hold any text, and some are unbounded", "anchors": ["src/licenses.c:license_map", "src/licenses.c:ohcount_detect_license"]}
{"id": "C99", "title": "Licenses: GPL 3 only", "statement": "A text that allows any later version at the reader's option is not found to be under the GPL version 3 only. This is false: the stretch in which these words are looked for ends at the version, so what comes after it does not count, and \"GNU GPL v3 or at your option any later version\" is reported as version 3. If the GPL 3 is found, the words are not between the name and the version.", "quantifier": "all texts", "why_tests_cant": "all texts around and between the words", "anchors": ["src/licenses.c:license_map", "src/licenses.c:ohcount_detect_license"]}
{"id": "C100", "title": "Detector: Puppet, Pascal and Perl", "statement": "A .pp file is Puppet exactly if, in the first 10000 bytes of its text, a line starts (after white space) with one of the constructs of Puppet: ensure, content, notify, require or source with an arrow, a definition with its parenthesis, a class with its brace or parenthesis, a node with its brace, an import with a quote, an include with a name; otherwise it is Pascal. A .pl file is Perl if its first line, within the first 100 bytes, starts with #! and has the word perl in either case, or if it has no Prolog rule; otherwise it is Prolog.", "quantifier": "all paths, all contents", "why_tests_cant": "the constructs can be at any offset, with names and white space of any length", "anchors": ["src/detector.c:disambiguate_pp", "src/detector.c:disambiguate_pl", "src/detector.c:mystrnlen"]}
{"id": "C101", "title": "From files to licenses", "statement": "For a file on disk without NUL bytes, in a language with a single lexical structure (the files of C59), the license list of a new source file is what is found in its lines of comment, put one after the other without the blanks before them: the code does not count, so a file without comments has no licenses, and two files with the same lines of comment have the same licenses, in whatever languages. If a line of comment has the nice name of a license of the table, in upper or lower case and as separate words, then the list is not empty (but for Apache and Eiffel, which a later version disables, and the six licenses found only by longer passages).", "quantifier": "all paths, all contents of files in these languages, all lines and all texts around the name", "why_tests_cant": "all texts; reading, detection of the language, parsing, collection of the comments and matching together", "anchors": ["src/sourcefile.c:ohcount_sourcefile_get_license_list", "src/licenses.c:ohcount_detect_license", "src/sourcefile.c:parser_callback"]}
{"id": "C102", "title": "From two files to their difference", "statement": "For two files on disk in languages with a single lexical structure (the files of C59), comparing the two new source files returns one entry for each language that has lines in either, and in it added minus removed is the difference of the numbers of lines of code, comment and blank lines of the two files. This is false: lines that end with a carriage return alone are counted one by one but compared as one line. It holds if lines end with line feeds, lines of code and comment have more than blanks and tabs, the texts have at most 100000 bytes and no line has the hash value 0. Two files with the same lines of code and of comment but for their indentation, and equally many blank lines, are not different, always.", "quantifier": "all pairs of paths, all contents of files in these languages", "why_tests_cant": "all pairs of texts; reading, detection of the language, parsing, recording and comparing together", "anchors": ["src/sourcefile.c:ohcount_sourcefile_diff", "src/sourcefile.c:ohcount_sourcefile_calc_loc_delta", "src/diff.c:ohcount_calc_diff"]}
{"id": "C103", "title": "Detection gives back what it takes", "statement": "Detecting the language of a file gives back everything it obtains: handles of libmagic, compiled expressions and source files made on the way. This is false: every .pl file that can be read leaves one compiled expression, every .pp file one or two, so the number held grows with the number of files without bound, and a file without contents and without a place on disk whose name says nothing leaves an open handle of libmagic. For a file that can be read the handle is closed and the source file made for a name in .in is freed, always, and at most two expressions are left; none is left if the language is none of Perl, Prolog, Puppet and Pascal. A file x.in leaves what x would.", "quantifier": "all paths, contents, file contexts, answers of libmagic and of the expressions, all lists of files", "why_tests_cant": "a test sees the language; what is held grows with the history of calls", "anchors": ["src/detector.c:detect_language_magic", "src/detector.c:disambiguate_pp", "src/detector.c:disambiguate_pl", "src/detector.c:disambiguate_in", "src/detector.c:ohcount_detect_language"]}
{"id": "C104", "title": "File context given from Ruby", "statement": "A Ruby program that sets the filenames of a source file reads the names it has given, as they were when it gave them, whatever else it and the garbage collector do. This is false: the source file points into the strings of the program and does not keep them. If a string of the context is appended to, or dropped by the program and collected, the next use of the context crashes, at every point of every program; and reading the context of a source file that was given none crashes. It holds for every program that keeps the strings unchanged as long as a source file has them. Each context given to a source file that had one leaves an array that is never freed, and nothing else does.", "quantifier": "all histories of a Ruby program: strings made, changed, dropped, collected in any order, source files made, freed, contexts set and read", "why_tests_cant": "depends on when the garbage collector runs and on all histories", "anchors": ["ruby/ohcount.i:set_filenames", "ruby/ohcount.i:~SourceFile", "ruby/ohcount.rb:SourceFile#filenames="]}
{"id": "C105", "title": "Objects that a Ruby or Python program gets from other objects", "statement": "A Ruby or Python program that takes a source file from a list, or a language or line count from a source file, can use it as long as it has it, and reads the same values whenever the garbage collector runs. This is false: such an object does not keep the list or file it came from. A program that could run if memory were never reclaimed crashes exactly if it uses an object after the list or file that this object came from was dropped and collected; every other program reads what it would read without a collector. When a program has dropped everything and everything is collected, the results of diff and analyze_languages are still allocated, and the file contexts that were replaced or belong to files of lists, and nothing else.", "quantifier": "all histories of a program: source files and lists made, files added, objects taken from others, comparisons, analyses, contexts set, references dropped, in any order, and all runs of the collector between them; all results the library may compute", "why_tests_cant": "depends on when the garbage collector runs and on all histories", "anchors": ["ruby/ohcount.i:SourceFile", "ruby/ohcount.i:SourceFileListItem", "ruby/ohcount.i:_diff", "ruby/ohcount.i:analyze_languages", "ruby/ohcount.rb:array_from_list", "ruby/ohcount.rb:each_source_file"]}
{"id": "C106", "title": "Counts of a file put together from pieces", "statement": "If a file is put together from the texts of other files of its language, each of which but the last consists of complete lines and leaves no comment or string open, then its numbers of code, comment and blank lines are the sums of those of the files it was put together from. Its lines are reported with the kinds that they have in the pieces, and the numbers do not depend on the order of the pieces. A piece that leaves a comment open must be excluded: the lines after it are then comments. In the line-oriented languages the number of lines and of blank lines behaves so for every text, also if comments or strings are left open.", "quantifier": "all 65 languages whose lines are classified by their comments and strings; all texts, any number of pieces; all earlier uses of the parser; for the last sentence all line-oriented languages and all texts without vertical tab", "why_tests_cant": "ranges over all texts and all ways to divide them", "anchors": ["src/parsers/java.rl:parse_java", "src/parsers/c.rl:parse_c", "src/sourcefile.c:ohcount_sourcefile_get_loc_list", "src/parser.c:ohcount_parse"]}
{"id": "C107", "title": "Line ends of Windows and Unix", "statement": "A file whose lines end with a line feed, and the same file with a carriage return before each line feed, have the same numbers of code, comment and blank lines, and their lines are reported with the same kinds, in order. This includes lines inside of comments and strings and lines that are continued by a backslash. A file that has carriage returns already is excluded: another one before each line feed can add lines. In the line-oriented languages the number of lines and of blank lines behaves so for every text, also if comments or strings are left open.", "quantifier": "all 65 languages whose lines are classified by their comments and strings; all texts without carriage returns and vertical tabs in which every comment and string is closed; all earlier uses of the parser; for the last sentence all line-oriented languages and all texts without vertical tab", "why_tests_cant": "ranges over all texts", "anchors": ["src/parsers/common.rl:newline", "src/parsers/c.rl:parse_c", "src/parser_macros.h:std_newline", "src/sourcefile.c:ohcount_sourcefile_get_loc_list"]}
{"id": "C108", "title": "Indentation", "statement": "Spaces and tabs that are added before lines that do not begin inside of a comment or string change neither the numbers of code, comment and blank lines of a file nor the kinds that its lines are reported with. Lines that begin inside of a string are excluded: in PHP a space makes a blank line of a string a line of code. In the line-oriented languages the number of lines and of blank lines behaves so for every text, also if comments or strings are left open.", "quantifier": "all 65 languages whose lines are classified by their comments and strings; all texts, divided into pieces of complete lines in which every comment and string is closed, and all indentations of the pieces; all earlier uses of the parser; for the last sentence all line-oriented languages and all texts without vertical tab", "why_tests_cant": "ranges over all texts and indentations", "anchors": ["src/parsers/common.rl:ws", "src/parsers/c.rl:parse_c", "src/parser_macros.h:ls", "src/sourcefile.c:ohcount_sourcefile_get_loc_list"]}
{"id": "C109", "title": "Code moved between files", "statement": "If in two states of a project the files of each language are put together from the same pieces, each of which consists of complete lines and leaves no comment or string open, then the summaries of the two directories show the same numbers of code, comment and blank lines for each language. The pieces may be distributed over files and directories in any way and order, and the files may be renamed, as long as their names say their language.", "quantifier": "all directory trees with files of the 65 languages whose lines are classified by their comments and strings; all texts and all ways to divide them into pieces; all distributions of the pieces", "why_tests_cant": "ranges over all projects and all ways to rearrange them", "anchors": ["src/sourcefile.c:ohcount_sourcefile_list_analyze_languages", "src/sourcefile.c:ohcount_sourcefile_list_add_directory", "src/loc.c:ohcount_loc_list_add_loc_list", "src/parsers/java.rl:parse_java"]}
{"id": "C110", "title": "Lines put into or taken out of a file", "statement": "For two files in one language, the lines of code and the lines of comment that the difference does not count as added or removed are a longest common subsequence of the lines of the two files, compared by their hash values and without the blanks before them; blank lines are compared by number. So if a piece of complete lines, with no comment or string left open, is put into a file at a place where none is open, the difference shows exactly the lines of the piece as added, each with its kind, and nothing as removed, and the other way round if it is taken out. A carriage return before the line feed is part of the line: a file whose line ends are changed has the same counts, but its lines count as added and removed. Blanks and tabs put before lines that do not begin inside of a comment or string make no difference.", "quantifier": "all pairs of files in the languages whose lines are classified, with lines that end with a line feed, at most 100000 bytes of code and of comment, no NUL byte and no line of hash value 0 in the second (all ASCII lines of at most 1000 bytes are such); all pieces and places", "why_tests_cant": "ranges over all pairs of files and all insertions; minimality is a statement about all common subsequences", "anchors": ["src/sourcefile.c:ohcount_sourcefile_diff", "src/sourcefile.c:ohcount_sourcefile_calc_loc_delta", "src/diff.c:ohcount_calc_diff", "src/diff.c:prepare", "src/parsers/java.rl:parse_java"]}
{"id": "C111", "title": "Equal counts and equal differences", "statement": "Two counts are reported as equal exactly if it makes no difference which of them is added to a list: for every list, all later lookups and totals are the same. The same holds for differences. A difference is reported as unchanged exactly if it equals the one of its language with nothing added or removed, and exactly if adding it to any difference leaves that one equal to what it was, so a line added and another removed is a change although the net change is 0.", "quantifier": "all pairs of counts and of differences, all lists they are added to", "why_tests_cant": "ranges over all counts, all lists and all later lookups", "anchors": ["src/loc.c:ohcount_loc_is_equal", "src/loc.c:ohcount_loc_delta_is_equal", "src/loc.c:ohcount_loc_delta_is_changed"]}
{"id": "C112", "title": "What a Ruby program sees of files and lists", "statement": "In every history of calls on a source file the licenses that are returned are always the same, and are those of the parsed languages that are returned; the array of languages has the languages of the line counts, each once and in the same order; and the breakdown of a language is there exactly if the language is in that array, and has its line counts. Going through a list of source files yields, in order, exactly the files for which a language is returned, then and at any later time, and going through it again yields the same files even if the disk has changed; the size of a list grows by the number of files that can be reached in a directory that is added, and their names follow those from before.", "quantifier": "all detectors, parsers and license detectors; all histories of calls, with any contents and languages set and any changes of the disk in between; all lists and directory trees", "why_tests_cant": "ranges over all histories of calls and all lists of files", "anchors": ["ruby/ohcount.rb:SourceFile", "ruby/ohcount.rb:SourceFileList", "src/sourcefile.c:ohcount_sourcefile_get_license_list", "src/sourcefile.c:ohcount_sourcefile_get_loc_list", "src/sourcefile.c:ohcount_sourcefile_list_add_directory"]}
