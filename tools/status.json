{
 "C01": [
  "proved",
  ""
 ],
 "C02": [
  "proved",
  ""
 ],
 "C03": [
  "proved",
  ""
 ],
 "C04": [
  "proved",
  "The file count of the compacted list can differ; shown separately."
 ],
 "C05": [
  "partial",
  "The property is false of the code (C05_negation). Proved for lists in which the language is the first entry or is added once (C05_lookup_partial), plus an exact description of what the code does (C05_actual_behaviour)."
 ],
 "C06": [
  "proved",
  ""
 ],
 "C07": [
  "proved",
  ""
 ],
 "C08": [
  "proved",
  "For every sequence of in-range reports; a report over blanks only that is followed by further blanks is undefined behaviour (C08_blank_code_line_is_ub)."
 ],
 "C09": [
  "proved",
  "Under the stated hypothesis of disjoint in-range reports; C09_overlapping_reports_dropped shows the hypothesis is needed."
 ],
 "C10": [
  "proved",
  ""
 ],
 "C100": [
  "proved",
  ""
 ],
 "C101": [
  "proved",
  ""
 ],
 "C102": [
  "partial",
  "Full statement C102_full is false (C102_negation: lines that end with a carriage return). Proved: C102_net_partial for ordinary files compared in memory, C102_unchanged."
 ],
 "C103": [
  "partial",
  "False (C103_negation, C103_pl, C103_pp, C103_unreadable, C103_no_bound). Proved: C103_readable_partial, C103_other_languages, C103_history, C103_in."
 ],
 "C104": [
  "partial",
  "False (C104_negation, C104_changed, C104_collected, C104_unset). Proved: C104_kept_partial for programs that keep their strings; C104_arrays, the arrays lost, for all."
 ],
 "C105": [
  "partial",
  "False (C105_negation). Proved: C105_exact, whether a program crashes, for all; C105_partial, programs that keep the owner; C105_leaks, what is never freed, for all."
 ],
 "C106": [
  "proved",
  "65 classified languages. C106_kinds, C106_order: line kinds of texts put together; C106_files: counts of files are sums; C106_open: why pieces may leave nothing open; C106_any: lines and blank lines of any text, line-oriented languages."
 ],
 "C107": [
  "proved",
  "65 classified languages. C107_kinds: line kinds; C107_files: counts of files; C107_twice: why texts with carriage returns are excluded; C107_any: lines and blank lines of any text, line-oriented languages."
 ],
 "C108": [
  "proved",
  "65 classified languages. C108_kinds: line kinds; C108_files: counts of files; C108_string: why lines inside of strings are excluded; C108_any: lines and blank lines of any text, line-oriented languages."
 ],
 "C109": [
  "proved",
  "C109_totals, for directories in which all files are of the 65 classified languages."
 ],
 "C11": [
  "partial",
  "Proved for file name and directory, and for the extension unless the byte the code reads before its buffer is a dot (only for paths without dot and separator, C11_reads_before_iff); C11_extension_defect shows what happens otherwise."
 ],
 "C110": [
  "proved",
  "Least differences of two files (C110_least), files with lines put in or taken out (C110_added, C110_removed, C110_inserted, C110_deleted), and changed line ends (C110_line_ends), for the files of C102_net_partial. C110_indented: blanks and tabs put before lines that do not begin inside of a comment or string show no difference."
 ],
 "C111": [
  "proved",
  "Equality of counts and of differences, by what can be observed of lists they are added to (C111_counts, C111_differences), and unchanged differences (C111_unchanged)."
 ],
 "C112": [
  "proved",
  "Licenses, languages, breakdowns and counts of one file agree in every history (C112_licenses, C112_breakdowns); iteration and size of lists (C112_each, C112_directory)."
 ],
 "C12": [
  "proved",
  "For every detector, parser, disk and call history."
 ],
 "C13": [
  "proved",
  "For every call history."
 ],
 "C14": [
  "partial",
  "False of the code (C14_negation): the first parse drops the contents. Proved for all other histories."
 ],
 "C15": [
  "proved",
  "Path buffer FILENAME_MAX assumed large enough."
 ],
 "C16": [
  "proved",
  ""
 ],
 "C17": [
  "partial",
  "false as stated (C17_negation): a line of hash value 0 in the new text makes the code read out of bounds; proved for all texts without such a line, in particular all ASCII texts with lines of at most 1000 bytes (C19_ascii)"
 ],
 "C18": [
  "proved",
  ""
 ],
 "C19": [
  "partial",
  "false as stated (C19_negation); proved for all texts whose new side has no line of hash value 0, in particular ASCII texts with lines of at most 1000 bytes"
 ],
 "C20": [
  "partial",
  "false as stated (C20_negation); proved when no line of either text has hash value 0"
 ],
 "C21": [
  "partial",
  "proved when no line of the new text has hash value 0; defects proved: zero hash read, copy stored one past the end for every text"
 ],
 "C22": [
  "proved",
  ""
 ],
 "C23": [
  "partial",
  "languages and blanks proved in full; net change proved for texts within the in-memory limit and without zero-hash lines"
 ],
 "C24": [
  "proved",
  ""
 ],
 "C25": [
  "partial",
  "false of the code (C25_negation): only the last parsed language counts (C25_others_ignored); proved for that language"
 ],
 "C26": [
  "proved",
  ""
 ],
 "C27": [
  "proved",
  "For every path, contents, file context, libmagic answer and machine."
 ],
 "C28": [
  "proved",
  "For every extension whose lower-case form is listed."
 ],
 "C29": [
  "partial",
  "False as stated: C29_negation (.dat gives the internal binary marker; coffeescript and tex_dtx are not accepted by set_language). Proved: every other result is an identifier and accepted."
 ],
 "C30": [
  "proved",
  "Every result other than the binary marker of C29 has a parser."
 ],
 "C31": [
  "partial",
  "False as stated: overruns for long lines, every .h file, unterminated mode lines, libmagic text starting with script. Proved for listed extensions when lines are at most 80 characters, and for any contents if the bytes next to the buffers are harmless."
 ],
 "C32": [
  "proved",
  ""
 ],
 "C33": [
  "proved",
  "All 111 modelled line parsers, every buffer and every left-over state; the 13 parsers with embedded languages or actions of their own are in C62."
 ],
 "C34": [
  "proved",
  "Kinds are closed by the type of the callback; the language is the one asked for; the parser table names only modelled parsers and 13 listed others."
 ],
 "C35": [
  "partial",
  "25 parsers, unconditionally for buffers without vertical tab and final carriage return. Exact extents hold for code and comment lines; for blank lines the start may be later in the line (C35_negation)."
 ],
 "C36": [
  "proved",
  "The same 25 parsers; 35 more under a closedness hypothesis in C38."
 ],
 "C37": [
  "partial",
  "Proved for the seven parsers with a queue for which it holds (cmake, crystal, grace, jam, limbo, ruby, shell): every line end reported exactly once, in order, by a report that starts in its line; false, with counterexamples, for lua, powershell and php. Kind and start of the line are not claimed: a string opened directly after one that was given up saves overwritten variables. Buffers without vertical tab and not ending in a carriage return."
 ],
 "C38": [
  "partial",
  "False in general (C38_negation); proved for 108 parsers for runs in which the scanner does not go back over a line end and passes none without callback; C55_kinds gives the same from a condition on the text alone for 65 parsers."
 ],
 "C39": [
  "proved",
  "For every C source with closed comments and literals (CSpec.Correct), through ohcount_parse; C39_negation_continued shows a continued string whose last line is only the quote."
 ],
 "C40": [
  "proved",
  "For every sequence of calls of scanners (line or entity) on any buffers, with the static variables that init does not assign handed on from call to call, each call makes the callbacks it makes in a fresh process."
 ],
 "C41": [
  "proved",
  "Bound n*(n+8) steps for all 111 modelled line parsers."
 ],
 "C42": [
  "proved",
  "For every one of the 111 modelled parsers: if the scanner is between tokens at a vertical tab, no text after it is reported, except that one last line may be extended to the end of the buffer; concrete instances for all continuations."
 ],
 "C43": [
  "proved",
  ""
 ],
 "C44": [
  "proved",
  ""
 ],
 "C45": [
  "proved",
  ""
 ],
 "C46": [
  "proved",
  "Order, ranges and disjointness for all 94 entity scanners without recursive calls at every moment of the parse; 90 of them read the whole buffer; for eight the ranges are the whole buffer."
 ],
 "C47": [
  "partial",
  "proved when printed lines are shorter than 9999 bytes; longer lines are double counted (C47_long_line_counted_twice)"
 ],
 "C48": [
  "proved",
  ""
 ],
 "C49": [
  "partial",
  "false of the code (C49_negation, C49_always_overruns); proved that the text part of the buffer is right"
 ],
 "C50": [
  "proved",
  "On a machine that tolerates the byte behind the array (see C31_negation)."
 ],
 "C51": [
  "partial",
  "False for init.pp (C51_negation); proved for all other names except configure.in, which is handled as a .in file."
 ],
 "C52": [
  "proved",
  "libmagic and the Perl expression are parameters."
 ],
 "C53": [
  "proved",
  ""
 ],
 "C54": [
  "proved",
  ""
 ],
 "C55": [
  "proved",
  "65 parsers, each with the table of its constructs in LexisTable.lean."
 ],
 "C56": [
  "proved",
  "For files without NUL bytes."
 ],
 "C57": [
  "proved",
  ""
 ],
 "C58": [
  "proved",
  ""
 ],
 "C59": [
  "proved",
  "Detection by extension, parsing, recording and counting composed, for one file (C59_file) and for a directory tree (C59_tree); Library.lean fills the parameters of the source file model with the models of detection, parsers and licenses."
 ],
 "C60": [
  "proved",
  "Lines are looked at up to 81 bytes and up to a NUL; on a machine that tolerates the overruns of C31."
 ],
 "C61": [
  "proved",
  "Lines are looked at up to column 81 or a NUL (not for Fortran). C61_b leaves open a text whose only Limbo marks stand behind an include clause."
 ],
 "C62": [
  "proved",
  "13 parsers. A callback computed from a NULL line start (C64) is not among the callbacks the ranges are about."
 ],
 "C63": [
  "proved",
  "13 parsers."
 ],
 "C64": [
  "partial",
  "Decided for all 13: proved for MXML, Nix, CoffeeScript, MetaPost with TeX, Perl and Haml and, without line ends in end tags, for HTML; false for each of the seven page parsers (C64_negation_page), for PHP also with closed tags."
 ],
 "C65": [
  "proved",
  "9 parsers; \"complete\" is the decidable condition EParser.whole, shown true for examples of pages with scripts."
 ],
 "C66": [
  "proved",
  "All 13 parsers, every buffer."
 ],
 "C67": [
  "proved",
  "21 kinds of regions in 9 parsers, with one form of the opening and closing line each; the text inside must be settled (ends with a complete line, nothing open) and free of the closing mark."
 ],
 "C68": [
  "partial",
  "False of 12 of the 13 parsers: C68_negation has a witness for each. C68_metapost proves it for the other, MetaPost with TeX, and C68_exactly says so. C68_pages_partial proves it for pages of regular pieces in the 9 parsers of C67."
 ],
 "C69": [
  "partial",
  "C69_decided: true of 110 of the 111 parsers of one language and of 6 of the 13 others, false of vim, Perl and the six parsers of pages with server-side code; C69_vim, C69_perl, C69_hyphen and C69_attribute hold for every text that follows."
 ],
 "C70": [
  "proved",
  "Pages made of complete lines and regions, by extension (HTML, PHP, JSP, RHTML, MXML, Nix), and directories of such pages and of files known from C59. The lines of the page itself have the kinds that the parser reports for them alone; they must have one callback each and none from a NULL pointer."
 ],
 "C71": [
  "partial",
  "All 124 parsers: every callback of a language other than the seven page languages can be recorded, HTML too if no end tag contains a line end; a history that leaves the buffers has a point where the language is a page language; false in full for a page with a split end tag (C71_negation_page). A callback from a NULL line start is represented by one that starts before the buffer."
 ],
 "C72": [
  "proved",
  "The 25 parsers of C35, all texts without vertical tab, languages found by the extension."
 ],
 "C73": [
  "proved",
  "All histories of calls of src/loc.c that use live pointers and add no list to itself, and all allocators: no invalid access, results as the list model, exactly the blocks of live objects in use."
 ],
 "C74": [
  "proved",
  "all histories of calls on source files and lists of source files, all allocators; a history is undefined only by pointer misuse or at a page (C71)"
 ],
 "C75": [
  "partial",
  "negation: the buffer of src/licenses.c:804 is lost; proved: histories without license queries leave nothing, in general exactly the lost buffers are left"
 ],
 "C76": [
  "partial",
  "negation: parsing frees the contents that were returned; set_contents(get_contents()) reads freed memory from every reachable point; proved for calls that do not parse"
 ],
 "C77": [
  "proved",
  "all histories of calls with comparisons of source files, all allocators; a history is undefined only by pointer misuse, at a page (C71) or at incomparable texts (C21)"
 ],
 "C78": [
  "partial",
  "negation: blank of src/sourcefile.c:292 is never freed; proved: in general exactly the lost blocks are left, at least one for every delta returned, and none when the deltas are empty"
 ],
 "C79": [
  "proved",
  "All arguments, trees, disks and allocators; entity reports are a parameter"
 ],
 "C80": [
  "partial",
  "False for -l; proved for all other commands, and the exact number of blocks for -l"
 ],
 "C81": [
  "proved",
  ""
 ],
 "C82": [
  "partial",
  "False (C82_negation). Proved: at most one queue is left behind by any number of calls, its length, and nothing by 101 of 111 parsers, 7 of 13 with embedded languages and all entity scanners of the others."
 ],
 "C83": [
  "proved",
  ""
 ],
 "C84": [
  "proved",
  "Also for definitions of one's own that take no name from a file."
 ],
 "C85": [
  "partial",
  "Proved for the 97 definitions of the library, with uniqueness. False for definitions of one's own (C85_negation); proved for those whose order settles what is below a `not`."
 ],
 "C86": [
  "partial",
  "False for OpenESB (C86_negation). Proved for all others."
 ],
 "C87": [
  "partial",
  "False (C87_negation: exclusions). Proved for flat dependencies and plugins."
 ],
 "C88": [
  "partial",
  "False (C88_negation). Proved: exactly which files raise one."
 ],
 "C89": [
  "partial",
  "False (C89_negation). Proved for all but two definitions, with the consequence for `native_code`."
 ],
 "C90": [
  "partial",
  "False for a file of another namespace with an inner project element (C90_negation). Proved for all others."
 ],
 "C91": [
  "partial",
  "False for a new text with a line of hash value 0 (C91_negation). Proved for all others, and for sequences of diffs."
 ],
 "C92": [
  "proved",
  "For 62 of 72 entries; three more in C95 and C96, the others in C98."
 ],
 "C93": [
  "partial",
  "Full statement C93_full is false for six entries (C93_negation, C93_unnamed). Proved for the 66 others in any surroundings, and from a line of comments to the report."
 ],
 "C94": [
  "partial",
  "Full statement C94_full is false (C94_negation). Proved: what is found in texts without form feeds."
 ],
 "C95": [
  "partial",
  "Full statement C95_full is false (C95_negation). Proved: exactly when Apache and Eiffel are found, and sufficient conditions for Apache 2."
 ],
 "C96": [
  "partial",
  "Full statement C96_full is false (C96_negation; C96_gpl2_notice for the report). Proved: exactly when it is found."
 ],
 "C97": [
  "partial",
  "Full statement C97_full is false (C97_negation; C97_notice for the report). Proved: exactly when it is found."
 ],
 "C98": [
  "proved",
  ""
 ],
 "C99": [
  "partial",
  "False (C99_negation, C99_notice). Proved: C99_gpl3_partial, what is found if it is found, and that the excluded words are not inside it."
 ]
}