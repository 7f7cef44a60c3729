{
 "claims": [
  {
   "property": "C01",
   "status": "proved",
   "theorems": [
    "Ohcount.LocProps.C01_lookup_is_sum",
    "Ohcount.LocProps.C01_one_entry_per_language"
   ],
   "note": ""
  },
  {
   "property": "C02",
   "status": "proved",
   "theorems": [
    "Ohcount.LocProps.C02_totals",
    "Ohcount.LocProps.C02_total_is_sum",
    "Ohcount.LocProps.C02_order_independent"
   ],
   "note": ""
  },
  {
   "property": "C03",
   "status": "proved",
   "theorems": [
    "Ohcount.LocProps.C03_merge",
    "Ohcount.LocProps.C03_merge_many"
   ],
   "note": ""
  },
  {
   "property": "C04",
   "status": "proved",
   "theorems": [
    "Ohcount.LocProps.C04_compact_is_filter",
    "Ohcount.LocProps.C04_compact_total",
    "Ohcount.LocProps.C04_compact_parts",
    "Ohcount.LocProps.C04_filecount_can_change"
   ],
   "note": "The file count of the compacted list can differ; shown separately."
  },
  {
   "property": "C05",
   "status": "partial",
   "theorems": [
    "Ohcount.LocProps.C05_negation",
    "Ohcount.LocProps.C05_lookup_partial",
    "Ohcount.LocProps.C05_actual_behaviour",
    "Ohcount.LocProps.C05_self_merge_diverges"
   ],
   "note": "The property is false of the code (C05_negation). Proved for lists in which the language is the first entry or is added once (C05_lookup_partial), plus an exact description of what the code does (C05_actual_behaviour)."
  },
  {
   "property": "C06",
   "status": "proved",
   "theorems": [
    "Ohcount.LocProps.C06_delta_totals",
    "Ohcount.LocProps.C06_net_totals",
    "Ohcount.LocProps.C06_merge_totals"
   ],
   "note": ""
  },
  {
   "property": "C07",
   "status": "proved",
   "theorems": [
    "Ohcount.LocProps.C07_changed_iff",
    "Ohcount.LocProps.C07_compact_totals",
    "Ohcount.LocProps.C07_compact_is_filter"
   ],
   "note": ""
  },
  {
   "property": "C08",
   "status": "proved",
   "theorems": [
    "Ohcount.ParsedLanguageProps.C08_memory_safe",
    "Ohcount.ParsedLanguageProps.C08_blank_code_line_is_ub"
   ],
   "note": "For every sequence of in-range reports; a report over blanks only that is followed by further blanks is undefined behaviour (C08_blank_code_line_is_ub)."
  },
  {
   "property": "C09",
   "status": "proved",
   "theorems": [
    "Ohcount.ParsedLanguageProps.C09_every_line_counted",
    "Ohcount.ParsedLanguageProps.C09_overlapping_reports_dropped"
   ],
   "note": "Under the stated hypothesis of disjoint in-range reports; C09_overlapping_reports_dropped shows the hypothesis is needed."
  },
  {
   "property": "C10",
   "status": "proved",
   "theorems": [
    "Ohcount.ParsedLanguageProps.C10_loc_list"
   ],
   "note": ""
  },
  {
   "property": "C11",
   "status": "partial",
   "theorems": [
    "Ohcount.SourceFileProps.C11_filename_and_directory",
    "Ohcount.SourceFileProps.C11_extension",
    "Ohcount.SourceFileProps.C11_reads_before_iff",
    "Ohcount.SourceFileProps.C11_extension_defect"
   ],
   "note": "Proved for file name and directory, and for the extension unless the byte the code reads before its buffer is a dot (only for paths without dot and separator, C11_reads_before_iff); C11_extension_defect shows what happens otherwise."
  },
  {
   "property": "C12",
   "status": "proved",
   "theorems": [
    "Ohcount.SourceFileProps.C12_forced",
    "Ohcount.SourceFileProps.C12_unknown_name_ignored",
    "Ohcount.SourceFileProps.C12_detected_once"
   ],
   "note": "For every detector, parser, disk and call history."
  },
  {
   "property": "C13",
   "status": "proved",
   "theorems": [
    "Ohcount.SourceFileProps.C13_stable"
   ],
   "note": "For every call history."
  },
  {
   "property": "C14",
   "status": "partial",
   "theorems": [
    "Ohcount.SourceFileProps.C14_negation",
    "Ohcount.SourceFileProps.C14_contents_partial"
   ],
   "note": "False of the code (C14_negation): the first parse drops the contents. Proved for all other histories."
  },
  {
   "property": "C15",
   "status": "proved",
   "theorems": [
    "Ohcount.SourceFileProps.C15_exactly_the_reachable_files",
    "Ohcount.SourceFileProps.C15_each_file_once",
    "Ohcount.SourceFileProps.C15_appends"
   ],
   "note": "Path buffer FILENAME_MAX assumed large enough."
  },
  {
   "property": "C16",
   "status": "proved",
   "theorems": [
    "Ohcount.SourceFileProps.C16_sum_over_files",
    "Ohcount.SourceFileProps.C16_order_independent"
   ],
   "note": ""
  },
  {
   "property": "C17",
   "status": "partial",
   "theorems": [
    "Ohcount.DiffProps.C17_negation",
    "Ohcount.DiffProps.C17_net_change_partial"
   ],
   "note": "false as stated (C17_negation): a line of hash value 0 in the new text makes the code read out of bounds; proved for all texts without such a line, in particular all ASCII texts with lines of at most 1000 bytes (C19_ascii)"
  },
  {
   "property": "C18",
   "status": "proved",
   "theorems": [
    "Ohcount.DiffProps.C18_no_change",
    "Ohcount.DiffProps.C18_empty_lines_ignored",
    "Ohcount.DiffProps.C18_converse_partial"
   ],
   "note": ""
  },
  {
   "property": "C19",
   "status": "partial",
   "theorems": [
    "Ohcount.DiffProps.C19_minimal_partial",
    "Ohcount.DiffProps.C19_negation",
    "Ohcount.DiffProps.C19_ascii"
   ],
   "note": "false as stated (C19_negation); proved for all texts whose new side has no line of hash value 0, in particular ASCII texts with lines of at most 1000 bytes"
  },
  {
   "property": "C20",
   "status": "partial",
   "theorems": [
    "Ohcount.DiffProps.C20_negation",
    "Ohcount.DiffProps.C20_reversal_partial"
   ],
   "note": "false as stated (C20_negation); proved when no line of either text has hash value 0"
  },
  {
   "property": "C21",
   "status": "partial",
   "theorems": [
    "Ohcount.DiffProps.C21_bounds_partial",
    "Ohcount.DiffProps.C21_zero_hash_out_of_bounds",
    "Ohcount.DiffProps.C21_copy_out_of_bounds",
    "Ohcount.DiffProps.C21_ascii_hash_nonzero"
   ],
   "note": "proved when no line of the new text has hash value 0; defects proved: zero hash read, copy stored one past the end for every text"
  },
  {
   "property": "C22",
   "status": "proved",
   "theorems": [
    "Ohcount.DiffProps.C22_equal_lines_identified",
    "Ohcount.DiffProps.C22_collision",
    "Ohcount.DiffProps.C22_never_more_changes_partial"
   ],
   "note": ""
  },
  {
   "property": "C23",
   "status": "partial",
   "theorems": [
    "Ohcount.DiffProps.C23_languages",
    "Ohcount.DiffProps.C23_blanks",
    "Ohcount.DiffProps.C23_net_change_partial",
    "Ohcount.DiffProps.C23_defined_partial"
   ],
   "note": "languages and blanks proved in full; net change proved for texts within the in-memory limit and without zero-hash lines"
  },
  {
   "property": "C24",
   "status": "proved",
   "theorems": [
    "Ohcount.Licenses.C24_defined",
    "Ohcount.Licenses.C24_once_in_table_order"
   ],
   "note": ""
  },
  {
   "property": "C25",
   "status": "partial",
   "theorems": [
    "Ohcount.Licenses.C25_last_language_partial",
    "Ohcount.Licenses.C25_others_ignored",
    "Ohcount.Licenses.C25_negation"
   ],
   "note": "false of the code (C25_negation): only the last parsed language counts (C25_others_ignored); proved for that language"
  },
  {
   "property": "C26",
   "status": "proved",
   "theorems": [
    "Ohcount.Licenses.C26_reported_iff",
    "Ohcount.Licenses.C26_never_together",
    "Ohcount.Licenses.C26_not_contained"
   ],
   "note": ""
  },
  {
   "property": "C27",
   "status": "proved",
   "theorems": [
    "Ohcount.Detector.C27_unambiguous",
    "Ohcount.Detector.C27_binary",
    "Ohcount.Detector.C27_all_plain"
   ],
   "note": "For every path, contents, file context, libmagic answer and machine."
  },
  {
   "property": "C28",
   "status": "proved",
   "theorems": [
    "Ohcount.Detector.C28_case"
   ],
   "note": "For every extension whose lower-case form is listed."
  },
  {
   "property": "C29",
   "status": "partial",
   "theorems": [
    "Ohcount.Detector.C29_negation",
    "Ohcount.Detector.C29_known_partial",
    "Ohcount.Detector.C29_listed_partial"
   ],
   "note": "False as stated: C29_negation (.dat gives the internal binary marker; coffeescript and tex_dtx are not accepted by set_language). Proved: every other result is an identifier and accepted."
  },
  {
   "property": "C30",
   "status": "proved",
   "theorems": [
    "Ohcount.Detector.C30_parser"
   ],
   "note": "Every result other than the binary marker of C29 has a parser."
  },
  {
   "property": "C31",
   "status": "partial",
   "theorems": [
    "Ohcount.Detector.C31_long_first_line",
    "Ohcount.Detector.C31_every_header",
    "Ohcount.Detector.C31_long_line",
    "Ohcount.Detector.C31_negation",
    "Ohcount.Detector.C31_listed_partial",
    "Ohcount.Detector.C31_padded_partial"
   ],
   "note": "False as stated: overruns for long lines, every .h file, unterminated mode lines, libmagic text starting with script. Proved for listed extensions when lines are at most 80 characters, and for any contents if the bytes next to the buffers are harmless."
  },
  {
   "property": "C32",
   "status": "proved",
   "theorems": [
    "Ohcount.Detector.C32_functions"
   ],
   "note": ""
  },
  {
   "property": "C33",
   "status": "proved",
   "theorems": [
    "Ohcount.Ragel.C33_ranges",
    "Ohcount.Ragel.C33_no_null",
    "Ohcount.Ragel.C33_parse"
   ],
   "note": "All 111 modelled line parsers, every buffer and every left-over state; the 13 parsers with embedded languages or actions of their own are in C62."
  },
  {
   "property": "C34",
   "status": "proved",
   "theorems": [
    "Ohcount.Ragel.C34_language",
    "Ohcount.Ragel.C34_table"
   ],
   "note": "Kinds are closed by the type of the callback; the language is the one asked for; the parser table names only modelled parsers and 13 listed others."
  },
  {
   "property": "C35",
   "status": "partial",
   "theorems": [
    "Ohcount.Ragel.C35_one_report_per_line",
    "Ohcount.Ragel.C35_count",
    "Ohcount.Ragel.C35_lines_tile",
    "Ohcount.Ragel.C35_negation"
   ],
   "note": "25 parsers, unconditionally for buffers without vertical tab and final carriage return. Exact extents hold for code and comment lines; for blank lines the start may be later in the line (C35_negation)."
  },
  {
   "property": "C36",
   "status": "proved",
   "theorems": [
    "Ohcount.Ragel.C36_blank_iff"
   ],
   "note": "The same 25 parsers; 35 more under a closedness hypothesis in C38."
  },
  {
   "property": "C37",
   "status": "partial",
   "theorems": [
    "Ohcount.Ragel.C37_ends_partial",
    "Ohcount.Ragel.C37_positions",
    "Ohcount.Ragel.C37_count",
    "Ohcount.Ragel.C37_negation_lua",
    "Ohcount.Ragel.C37_negation_powershell",
    "Ohcount.Ragel.C37_negation_php"
   ],
   "note": "Proved for the seven parsers with a queue for which it holds (cmake, crystal, grace, jam, limbo, ruby, shell): every line end reported exactly once, in order, by a report that starts in its line; false, with counterexamples, for lua, powershell and php. Kind and start of the line are not claimed: a string opened directly after one that was given up saves overwritten variables. Buffers without vertical tab and not ending in a carriage return."
  },
  {
   "property": "C38",
   "status": "partial",
   "theorems": [
    "Ohcount.Ragel.C38_negation",
    "Ohcount.Ragel.C38_negation_swallowed",
    "Ohcount.Ragel.C38_closed_partial",
    "Ohcount.Ragel.C38_levels_partial"
   ],
   "note": "False in general (C38_negation); proved for 108 parsers for runs in which the scanner does not go back over a line end and passes none without callback; C55_kinds gives the same from a condition on the text alone for 65 parsers."
  },
  {
   "property": "C39",
   "status": "proved",
   "theorems": [
    "Ohcount.Ragel.C39_c_lines",
    "Ohcount.Ragel.C39_parse",
    "Ohcount.Ragel.C39_negation_continued"
   ],
   "note": "For every C source with closed comments and literals (CSpec.Correct), through ohcount_parse; C39_negation_continued shows a continued string whose last line is only the quote."
  },
  {
   "property": "C40",
   "status": "proved",
   "theorems": [
    "Ohcount.Ragel.C40_history",
    "Ohcount.Ragel.C40_parse"
   ],
   "note": "For every sequence of calls of scanners (line or entity) on any buffers, with the static variables that init does not assign handed on from call to call, each call makes the callbacks it makes in a fresh process."
  },
  {
   "property": "C41",
   "status": "proved",
   "theorems": [
    "Ohcount.Ragel.C41_stops",
    "Ohcount.Ragel.C41_exec"
   ],
   "note": "Bound n*(n+8) steps for all 111 modelled line parsers."
  },
  {
   "property": "C42",
   "status": "proved",
   "theorems": [
    "Ohcount.Ragel.C42_rest_not_counted",
    "Ohcount.Ragel.C42_at_start",
    "Ohcount.Ragel.C42_after_a_line"
   ],
   "note": "For every one of the 111 modelled parsers: if the scanner is between tokens at a vertical tab, no text after it is reported, except that one last line may be extended to the end of the buffer; concrete instances for all continuations."
  },
  {
   "property": "C43",
   "status": "proved",
   "theorems": [
    "Ohcount.CliProps.C43_by_language",
    "Ohcount.CliProps.C43_by_code"
   ],
   "note": ""
  },
  {
   "property": "C44",
   "status": "proved",
   "theorems": [
    "Ohcount.CliProps.C44_rows",
    "Ohcount.CliProps.C44_totals",
    "Ohcount.CliProps.C44_percentages",
    "Ohcount.CliProps.C44_individual"
   ],
   "note": ""
  },
  {
   "property": "C45",
   "status": "proved",
   "theorems": [
    "Ohcount.CliProps.C45_selects_total",
    "Ohcount.CliProps.C45_selects_unique",
    "Ohcount.CliProps.C45_runs"
   ],
   "note": ""
  },
  {
   "property": "C46",
   "status": "proved",
   "theorems": [
    "Ohcount.Ragel.C46_in_order",
    "Ohcount.Ragel.C46_always",
    "Ohcount.Ragel.C46_reads_all",
    "Ohcount.Ragel.C46_tile"
   ],
   "note": "Order, ranges and disjointness for all 94 entity scanners without recursive calls at every moment of the parse; 90 of them read the whole buffer; for eight the ranges are the whole buffer."
  },
  {
   "property": "C47",
   "status": "partial",
   "theorems": [
    "Ohcount.DiffProps.C47_large_texts_partial",
    "Ohcount.DiffProps.C47_long_line_counted_twice"
   ],
   "note": "proved when printed lines are shorter than 9999 bytes; longer lines are double counted (C47_long_line_counted_twice)"
  },
  {
   "property": "C48",
   "status": "proved",
   "theorems": [
    "Ohcount.Licenses.C48_characters",
    "Ohcount.Licenses.C48_search_text"
   ],
   "note": ""
  },
  {
   "property": "C49",
   "status": "partial",
   "theorems": [
    "Ohcount.CliProps.C49_text_partial",
    "Ohcount.CliProps.C49_always_overruns",
    "Ohcount.CliProps.C49_negation"
   ],
   "note": "false of the code (C49_negation, C49_always_overruns); proved that the text part of the buffer is right"
  },
  {
   "property": "C50",
   "status": "proved",
   "theorems": [
    "Ohcount.Detector.C50_binary_name",
    "Ohcount.Detector.C50_agrees"
   ],
   "note": "On a machine that tolerates the byte behind the array (see C31_negation)."
  },
  {
   "property": "C51",
   "status": "partial",
   "theorems": [
    "Ohcount.Detector.C51_negation",
    "Ohcount.Detector.C51_filename_partial"
   ],
   "note": "False for init.pp (C51_negation); proved for all other names except configure.in, which is handled as a .in file."
  },
  {
   "property": "C52",
   "status": "proved",
   "theorems": [
    "Ohcount.Detector.C52_cs",
    "Ohcount.Detector.C52_inc",
    "Ohcount.Detector.C52_pl",
    "Ohcount.Detector.C52_pro",
    "Ohcount.Detector.C52_r",
    "Ohcount.Detector.C52_rs",
    "Ohcount.Detector.C52_dat",
    "Ohcount.Detector.C52_asx"
   ],
   "note": "libmagic and the Perl expression are parameters."
  },
  {
   "property": "C53",
   "status": "proved",
   "theorems": [
    "Ohcount.Detector.C53_modeline"
   ],
   "note": ""
  },
  {
   "property": "C54",
   "status": "proved",
   "theorems": [
    "Ohcount.Detector.C54_script"
   ],
   "note": ""
  },
  {
   "property": "C55",
   "status": "proved",
   "theorems": [
    "Ohcount.Ragel.C55_kinds",
    "Ohcount.Ragel.C55_counts"
   ],
   "note": "65 parsers, each with the table of its constructs in LexisTable.lean."
  },
  {
   "property": "C56",
   "status": "proved",
   "theorems": [
    "Ohcount.ParsedLanguageProps.C56_recorded_text"
   ],
   "note": "For files without NUL bytes."
  },
  {
   "property": "C57",
   "status": "proved",
   "theorems": [
    "Ohcount.SourceFileProps.C57_reads_path",
    "Ohcount.SourceFileProps.C57_reads_diskpath"
   ],
   "note": ""
  },
  {
   "property": "C58",
   "status": "proved",
   "theorems": [
    "Ohcount.CliProps.C58_detect"
   ],
   "note": ""
  },
  {
   "property": "C59",
   "status": "proved",
   "theorems": [
    "Ohcount.LibraryProps.C59_file",
    "Ohcount.LibraryProps.C59_tree"
   ],
   "note": "Detection by extension, parsing, recording and counting composed, for one file (C59_file) and for a directory tree (C59_tree); Library.lean fills the parameters of the source file model with the models of detection, parsers and licenses."
  },
  {
   "property": "C60",
   "status": "proved",
   "theorems": [
    "Ohcount.Detector.C60_def",
    "Ohcount.Detector.C60_mod",
    "Ohcount.Detector.C60_fs",
    "Ohcount.Detector.C60_basic",
    "Ohcount.Detector.C60_h"
   ],
   "note": "Lines are looked at up to 81 bytes and up to a NUL; on a machine that tolerates the overruns of C31."
  },
  {
   "property": "C61",
   "status": "proved",
   "theorems": [
    "Ohcount.Detector.C61_in",
    "Ohcount.Detector.C61_st",
    "Ohcount.Detector.C61_b",
    "Ohcount.Detector.C61_fortran",
    "Ohcount.Detector.C61_m"
   ],
   "note": "Lines are looked at up to column 81 or a NUL (not for Fortran). C61_b leaves open a text whose only Limbo marks stand behind an include clause."
  },
  {
   "property": "C62",
   "status": "proved",
   "theorems": [
    "Ohcount.Ragel.C62_lines",
    "Ohcount.Ragel.C62_entities",
    "Ohcount.Ragel.C62_parse"
   ],
   "note": "13 parsers. A callback computed from a NULL line start (C64) is not among the callbacks the ranges are about."
  },
  {
   "property": "C63",
   "status": "proved",
   "theorems": [
    "Ohcount.Ragel.C63_lines",
    "Ohcount.Ragel.C63_entities",
    "Ohcount.Ragel.C63_which",
    "Ohcount.Ragel.C63_known",
    "Ohcount.Ragel.C63_table"
   ],
   "note": "13 parsers."
  },
  {
   "property": "C64",
   "status": "partial",
   "theorems": [
    "Ohcount.Ragel.C64_no_null_partial",
    "Ohcount.Ragel.C64_html_partial",
    "Ohcount.Ragel.C64_negation_page",
    "Ohcount.Ragel.C64_negation_php",
    "Ohcount.Ragel.C64_negation"
   ],
   "note": "Decided for all 13: proved for MXML, Nix, CoffeeScript, MetaPost with TeX, Perl and Haml and, without line ends in end tags, for HTML; false for each of the seven page parsers (C64_negation_page), for PHP also with closed tags."
  },
  {
   "property": "C65",
   "status": "proved",
   "theorems": [
    "Ohcount.Ragel.C65_two_parts",
    "Ohcount.Ragel.C65_parts",
    "Ohcount.Ragel.C65_counts"
   ],
   "note": "9 parsers; \"complete\" is the decidable condition EParser.whole, shown true for examples of pages with scripts."
  },
  {
   "property": "C66",
   "status": "proved",
   "theorems": [
    "Ohcount.Ragel.C66_history"
   ],
   "note": "All 13 parsers, every buffer."
  },
  {
   "property": "C67",
   "status": "proved",
   "theorems": [
    "Ohcount.Ragel.C67_region",
    "Ohcount.Ragel.C67_in_page",
    "Ohcount.Ragel.C67_kinds",
    "Ohcount.Ragel.C67_page",
    "Ohcount.Ragel.C67_counts"
   ],
   "note": "21 kinds of regions in 9 parsers, with one form of the opening and closing line each; the text inside must be settled (ends with a complete line, nothing open) and free of the closing mark."
  },
  {
   "property": "C68",
   "status": "partial",
   "theorems": [
    "Ohcount.Ragel.C68_negation",
    "Ohcount.Ragel.C68_metapost",
    "Ohcount.Ragel.C68_exactly",
    "Ohcount.Ragel.C68_pages_partial"
   ],
   "note": "False of 12 of the 13 parsers: C68_negation has a witness for each. C68_metapost proves it for the other, MetaPost with TeX, and C68_exactly says so. C68_pages_partial proves it for pages of regular pieces in the 9 parsers of C67."
  },
  {
   "property": "C69",
   "status": "partial",
   "theorems": [
    "Ohcount.Ragel.C69_read_partial",
    "Ohcount.Ragel.C69_mixed_partial",
    "Ohcount.Ragel.C69_vim",
    "Ohcount.Ragel.C69_hyphen",
    "Ohcount.Ragel.C69_attribute",
    "Ohcount.Ragel.C69_perl",
    "Ohcount.Ragel.C69_negation",
    "Ohcount.Ragel.C69_negation_mixed",
    "Ohcount.Ragel.C69_decided",
    "Ohcount.Ragel.C69_entities"
   ],
   "note": "C69_decided: true of 110 of the 111 parsers of one language and of 6 of the 13 others, false of vim, Perl and the six parsers of pages with server-side code; C69_vim, C69_perl, C69_hyphen and C69_attribute hold for every text that follows."
  },
  {
   "property": "C70",
   "status": "proved",
   "theorems": [
    "Ohcount.PageCounts.C70_file",
    "Ohcount.PageCounts.C70_tree"
   ],
   "note": "Pages made of complete lines and regions, by extension (HTML, PHP, JSP, RHTML, MXML, Nix), and directories of such pages and of files known from C59. The lines of the page itself have the kinds that the parser reports for them alone; they must have one callback each and none from a NULL pointer."
  },
  {
   "property": "C71",
   "status": "partial",
   "theorems": [
    "Ohcount.Robust.C71_reports_partial",
    "Ohcount.Robust.C71_html_partial",
    "Ohcount.Robust.C71_histories_partial",
    "Ohcount.Robust.C71_tree_partial",
    "Ohcount.Robust.C71_negation_page",
    "Ohcount.Robust.C71_negation"
   ],
   "note": "All 124 parsers: every callback of a language other than the seven page languages can be recorded, HTML too if no end tag contains a line end; a history that leaves the buffers has a point where the language is a page language; false in full for a page with a split end tag (C71_negation_page). A callback from a NULL line start is represented by one that starts before the buffer."
  },
  {
   "property": "C72",
   "status": "proved",
   "theorems": [
    "Ohcount.PageCounts.C72_total"
   ],
   "note": "The 25 parsers of C35, all texts without vertical tab, languages found by the extension."
  },
  {
   "property": "C73",
   "status": "proved",
   "theorems": [
    "Ohcount.Mem.C73_lists",
    "Ohcount.Mem.C73_noLeak"
   ],
   "note": "All histories of calls of src/loc.c that use live pointers and add no list to itself, and all allocators: no invalid access, results as the list model, exactly the blocks of live objects in use."
  },
  {
   "property": "C74",
   "status": "proved",
   "theorems": [
    "Ohcount.Mem.C74_files",
    "Ohcount.Mem.C74_defined"
   ],
   "note": "all histories of calls on source files and lists of source files, all allocators; a history is undefined only by pointer misuse or at a page (C71)"
  },
  {
   "property": "C75",
   "status": "partial",
   "theorems": [
    "Ohcount.Mem.C75_lost",
    "Ohcount.Mem.C75_noLeak_partial",
    "Ohcount.Mem.C75_negation"
   ],
   "note": "negation: the buffer of src/licenses.c:804 is lost; proved: histories without license queries leave nothing, in general exactly the lost buffers are left"
  },
  {
   "property": "C76",
   "status": "partial",
   "theorems": [
    "Ohcount.Mem.C76_kept_partial",
    "Ohcount.Mem.C76_parse",
    "Ohcount.Mem.C76_setBack",
    "Ohcount.Mem.C76_negation"
   ],
   "note": "negation: parsing frees the contents that were returned; set_contents(get_contents()) reads freed memory from every reachable point; proved for calls that do not parse"
  },
  {
   "property": "C77",
   "status": "proved",
   "theorems": [
    "Ohcount.Mem.C77_compare",
    "Ohcount.Mem.C77_defined"
   ],
   "note": "all histories of calls with comparisons of source files, all allocators; a history is undefined only by pointer misuse, at a page (C71) or at incomparable texts (C21)"
  },
  {
   "property": "C78",
   "status": "partial",
   "theorems": [
    "Ohcount.Mem.C78_lost",
    "Ohcount.Mem.C78_each",
    "Ohcount.Mem.C78_noLeak_partial",
    "Ohcount.Mem.C78_negation"
   ],
   "note": "negation: blank of src/sourcefile.c:292 is never freed; proved: in general exactly the lost blocks are left, at least one for every delta returned, and none when the deltas are empty"
  },
  {
   "property": "C79",
   "status": "proved",
   "theorems": [
    "Ohcount.Mem.C79_program",
    "Ohcount.Mem.C79_defined",
    "Ohcount.Mem.C79_annotate",
    "Ohcount.Mem.C79_licenses",
    "Ohcount.Mem.C79_entities"
   ],
   "note": "All arguments, trees, disks and allocators; entity reports are a parameter"
  },
  {
   "property": "C80",
   "status": "partial",
   "theorems": [
    "Ohcount.Mem.C80_nothingLeft_partial",
    "Ohcount.Mem.C80_licenses",
    "Ohcount.Mem.C80_negation"
   ],
   "note": "False for -l; proved for all other commands, and the exact number of blocks for -l"
  },
  {
   "property": "C81",
   "status": "proved",
   "theorems": [
    "Ohcount.Queue.C81_safe",
    "Ohcount.Queue.C81_reports"
   ],
   "note": ""
  },
  {
   "property": "C82",
   "status": "partial",
   "theorems": [
    "Ohcount.Queue.C82_oneQueue_partial",
    "Ohcount.Queue.C82_nothingLeft_partial",
    "Ohcount.Queue.C82_quiet",
    "Ohcount.Queue.C82_one",
    "Ohcount.Queue.C82_negation"
   ],
   "note": "False (C82_negation). Proved: at most one queue is left behind by any number of calls, its length, and nothing by 101 of 111 parsers, 7 of 13 with embedded languages and all entity scanners of the others."
  },
  {
   "property": "C83",
   "status": "proved",
   "theorems": [
    "Ohcount.Gestalt.C83_ends",
    "Ohcount.Gestalt.C83_again"
   ],
   "note": ""
  },
  {
   "property": "C84",
   "status": "proved",
   "theorems": [
    "Ohcount.Gestalt.C84_order",
    "Ohcount.Gestalt.C84_own"
   ],
   "note": "Also for definitions of one's own that take no name from a file."
  },
  {
   "property": "C85",
   "status": "partial",
   "theorems": [
    "Ohcount.Gestalt.C85_exact",
    "Ohcount.Gestalt.C85_own_partial",
    "Ohcount.Gestalt.C85_negation"
   ],
   "note": "Proved for the 97 definitions of the library, with uniqueness. False for definitions of one's own (C85_negation); proved for those whose order settles what is below a `not`."
  },
  {
   "property": "C86",
   "status": "partial",
   "theorems": [
    "Ohcount.Gestalt.C86_negation",
    "Ohcount.Gestalt.C86_once_partial"
   ],
   "note": "False for OpenESB (C86_negation). Proved for all others."
  },
  {
   "property": "C87",
   "status": "partial",
   "theorems": [
    "Ohcount.Gestalt.has.C87_flat_partial",
    "Ohcount.Gestalt.has.C87_negation",
    "Ohcount.Gestalt.has.C87_excluded"
   ],
   "note": "False (C87_negation: exclusions). Proved for flat dependencies and plugins."
  },
  {
   "property": "C88",
   "status": "partial",
   "theorems": [
    "Ohcount.Gestalt.has.C88_raises_partial",
    "Ohcount.Gestalt.has.C88_negation"
   ],
   "note": "False (C88_negation). Proved: exactly which files raise one."
  },
  {
   "property": "C89",
   "status": "partial",
   "theorems": [
    "Ohcount.Gestalt.C89_negation",
    "Ohcount.Gestalt.C89_known_partial",
    "Ohcount.Gestalt.C89_native"
   ],
   "note": "False (C89_negation). Proved for all but two definitions, with the consequence for `native_code`."
  },
  {
   "property": "C90",
   "status": "partial",
   "theorems": [
    "Ohcount.Gestalt.has.C90_imports_partial",
    "Ohcount.Gestalt.has.C90_negation"
   ],
   "note": "False for a file of another namespace with an inner project element (C90_negation). Proved for all others."
  },
  {
   "property": "C91",
   "status": "partial",
   "theorems": [
    "Ohcount.DiffWords.C91_memory_partial",
    "Ohcount.DiffWords.C91_negation",
    "Ohcount.DiffWords.C91_history_partial"
   ],
   "note": "False for a new text with a line of hash value 0 (C91_negation). Proved for all others, and for sequences of diffs."
  },
  {
   "property": "C92",
   "status": "proved",
   "theorems": [
    "Ohcount.Licenses.C92_found_iff",
    "Ohcount.Licenses.C92_characters"
   ],
   "note": "For 62 of 72 entries; three more in C95 and C96, the others in C98."
  },
  {
   "property": "C93",
   "status": "partial",
   "theorems": [
    "Ohcount.Licenses.C93_nice_name_partial",
    "Ohcount.Licenses.C93_unnamed",
    "Ohcount.Licenses.C93_negation",
    "Ohcount.Licenses.C93_line_partial"
   ],
   "note": "Full statement C93_full is false for six entries (C93_negation, C93_unnamed). Proved for the 66 others in any surroundings, and from a line of comments to the report."
  },
  {
   "property": "C94",
   "status": "partial",
   "theorems": [
    "Ohcount.Licenses.C94_wtfpl_partial",
    "Ohcount.Licenses.C94_negation"
   ],
   "note": "Full statement C94_full is false (C94_negation). Proved: what is found in texts without form feeds."
  },
  {
   "property": "C95",
   "status": "partial",
   "theorems": [
    "Ohcount.Licenses.C95_apache_partial",
    "Ohcount.Licenses.C95_eiffel",
    "Ohcount.Licenses.C95_apache2",
    "Ohcount.Licenses.C95_negation"
   ],
   "note": "Full statement C95_full is false (C95_negation). Proved: exactly when Apache and Eiffel are found, and sufficient conditions for Apache 2."
  },
  {
   "property": "C96",
   "status": "partial",
   "theorems": [
    "Ohcount.Licenses.C96_gpl3_or_later_partial",
    "Ohcount.Licenses.C96_gpl2_notice",
    "Ohcount.Licenses.C96_negation"
   ],
   "note": "Full statement C96_full is false (C96_negation; C96_gpl2_notice for the report). Proved: exactly when it is found."
  },
  {
   "property": "C97",
   "status": "partial",
   "theorems": [
    "Ohcount.Licenses.C97_mozilla_partial",
    "Ohcount.Licenses.C97_notice",
    "Ohcount.Licenses.C97_negation"
   ],
   "note": "Full statement C97_full is false (C97_negation; C97_notice for the report). Proved: exactly when it is found."
  },
  {
   "property": "C98",
   "status": "proved",
   "theorems": [
    "Ohcount.Licenses.C98_passage_iff",
    "Ohcount.Licenses.C98_stretch",
    "Ohcount.Licenses.C98_excluded_iff",
    "Ohcount.Licenses.C98_found_iff",
    "Ohcount.Licenses.C98_all",
    "Ohcount.Licenses.C98_not_excluded"
   ],
   "note": ""
  },
  {
   "property": "C99",
   "status": "partial",
   "theorems": [
    "Ohcount.Licenses.C99_gpl3_partial",
    "Ohcount.Licenses.C99_notice",
    "Ohcount.Licenses.C99_negation"
   ],
   "note": "False (C99_negation, C99_notice). Proved: C99_gpl3_partial, what is found if it is found, and that the excluded words are not inside it."
  },
  {
   "property": "C100",
   "status": "proved",
   "theorems": [
    "Ohcount.Detector.C100_pp",
    "Ohcount.Detector.C100_pl"
   ],
   "note": ""
  },
  {
   "property": "C101",
   "status": "proved",
   "theorems": [
    "Ohcount.Licenses.C101_named_in_comment",
    "Ohcount.Licenses.C101_reported_iff",
    "Ohcount.Licenses.C101_no_comments",
    "Ohcount.Licenses.C101_only_comments"
   ],
   "note": ""
  },
  {
   "property": "C102",
   "status": "partial",
   "theorems": [
    "Ohcount.LibraryProps.C102_net_partial",
    "Ohcount.LibraryProps.C102_unchanged",
    "Ohcount.LibraryProps.C102_negation"
   ],
   "note": "Full statement C102_full is false (C102_negation: lines that end with a carriage return). Proved: C102_net_partial for ordinary files compared in memory, C102_unchanged."
  },
  {
   "property": "C103",
   "status": "partial",
   "theorems": [
    "Ohcount.Detector.C103_readable_partial",
    "Ohcount.Detector.C103_other_languages",
    "Ohcount.Detector.C103_pl",
    "Ohcount.Detector.C103_pp",
    "Ohcount.Detector.C103_unreadable",
    "Ohcount.Detector.C103_in",
    "Ohcount.Detector.C103_negation",
    "Ohcount.Detector.C103_no_bound",
    "Ohcount.Detector.C103_history"
   ],
   "note": "False (C103_negation, C103_pl, C103_pp, C103_unreadable, C103_no_bound). Proved: C103_readable_partial, C103_other_languages, C103_history, C103_in."
  },
  {
   "property": "C104",
   "status": "partial",
   "theorems": [
    "Ohcount.Ruby.C104_kept_partial",
    "Ohcount.Ruby.C104_negation",
    "Ohcount.Ruby.C104_unset",
    "Ohcount.Ruby.C104_changed",
    "Ohcount.Ruby.C104_collected",
    "Ohcount.Ruby.C104_arrays"
   ],
   "note": "False (C104_negation, C104_changed, C104_collected, C104_unset). Proved: C104_kept_partial for programs that keep their strings; C104_arrays, the arrays lost, for all."
  },
  {
   "property": "C105",
   "status": "partial",
   "theorems": [
    "Ohcount.Owners.C105_exact",
    "Ohcount.Owners.C105_partial",
    "Ohcount.Owners.C105_negation",
    "Ohcount.Owners.C105_leaks"
   ],
   "note": "False (C105_negation). Proved: C105_exact, whether a program crashes, for all; C105_partial, programs that keep the owner; C105_leaks, what is never freed, for all."
  },
  {
   "property": "C106",
   "status": "proved",
   "theorems": [
    "Ohcount.Ragel.C106_kinds",
    "Ohcount.Ragel.C106_order",
    "Ohcount.Ragel.C106_open",
    "Ohcount.LibraryProps.C106_files",
    "Ohcount.Ragel.C106_any"
   ],
   "note": "65 classified languages. C106_kinds, C106_order: line kinds of texts put together; C106_files: counts of files are sums; C106_open: why pieces may leave nothing open; C106_any: lines and blank lines of any text, line-oriented languages."
  },
  {
   "property": "C107",
   "status": "proved",
   "theorems": [
    "Ohcount.Ragel.C107_any",
    "Ohcount.Ragel.C107_kinds",
    "Ohcount.Ragel.C107_twice",
    "Ohcount.LibraryProps.C107_files"
   ],
   "note": "65 classified languages. C107_kinds: line kinds; C107_files: counts of files; C107_twice: why texts with carriage returns are excluded; C107_any: lines and blank lines of any text, line-oriented languages."
  },
  {
   "property": "C108",
   "status": "proved",
   "theorems": [
    "Ohcount.Ragel.C108_any",
    "Ohcount.Ragel.C108_kinds",
    "Ohcount.Ragel.C108_string",
    "Ohcount.LibraryProps.C108_files"
   ],
   "note": "65 classified languages. C108_kinds: line kinds; C108_files: counts of files; C108_string: why lines inside of strings are excluded; C108_any: lines and blank lines of any text, line-oriented languages."
  },
  {
   "property": "C109",
   "status": "proved",
   "theorems": [
    "Ohcount.LibraryProps.C109_totals"
   ],
   "note": "C109_totals, for directories in which all files are of the 65 classified languages."
  },
  {
   "property": "C110",
   "status": "proved",
   "theorems": [
    "Ohcount.LibraryProps.C110_least",
    "Ohcount.LibraryProps.C110_added",
    "Ohcount.LibraryProps.C110_removed",
    "Ohcount.LibraryProps.C110_inserted",
    "Ohcount.LibraryProps.C110_deleted",
    "Ohcount.LibraryProps.C110_line_ends",
    "Ohcount.LibraryProps.C110_indented"
   ],
   "note": "Least differences of two files (C110_least), files with lines put in or taken out (C110_added, C110_removed, C110_inserted, C110_deleted), and changed line ends (C110_line_ends), for the files of C102_net_partial. C110_indented: blanks and tabs put before lines that do not begin inside of a comment or string show no difference."
  },
  {
   "property": "C111",
   "status": "proved",
   "theorems": [
    "Ohcount.LocProps.C111_counts",
    "Ohcount.LocProps.C111_differences",
    "Ohcount.LocProps.C111_unchanged"
   ],
   "note": "Equality of counts and of differences, by what can be observed of lists they are added to (C111_counts, C111_differences), and unchanged differences (C111_unchanged)."
  },
  {
   "property": "C112",
   "status": "proved",
   "theorems": [
    "Ohcount.SourceFileProps.C112_licenses",
    "Ohcount.SourceFileProps.C112_breakdowns",
    "Ohcount.SourceFileProps.C112_each",
    "Ohcount.SourceFileProps.C112_directory"
   ],
   "note": "Licenses, languages, breakdowns and counts of one file agree in every history (C112_licenses, C112_breakdowns); iteration and size of lists (C112_each, C112_directory)."
  }
 ]
}