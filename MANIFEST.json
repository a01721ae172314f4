{
 "claims": [
  {
   "property": "C01",
   "status": "proved",
   "theorems": [
    "Reqtrace.C01_coverage_exact",
    "Reqtrace.C01_coverage_list"
   ],
   "note": "exact set, and exact list with order and multiplicity; hypothesis: maps keyed by ids (established by C18)"
  },
  {
   "property": "C02",
   "status": "proved",
   "theorems": [
    "Reqtrace.C02_uncovered_complement"
   ],
   "note": ""
  },
  {
   "property": "C03",
   "status": "proved",
   "theorems": [
    "Reqtrace.C03_derived_exact"
   ],
   "note": ""
  },
  {
   "property": "C04",
   "status": "proved",
   "theorems": [
    "Reqtrace.C04_covers_unknown",
    "Reqtrace.C04_once"
   ],
   "note": ""
  },
  {
   "property": "C05",
   "status": "proved",
   "theorems": [
    "Reqtrace.C05_depends_unknown",
    "Reqtrace.C05_once"
   ],
   "note": ""
  },
  {
   "property": "C06",
   "status": "proved",
   "theorems": [
    "Reqtrace.C06_covers_title",
    "Reqtrace.C06_depends_title"
   ],
   "note": ""
  },
  {
   "property": "C07",
   "status": "proved",
   "theorems": [
    "Reqtrace.C07_untitled"
   ],
   "note": ""
  },
  {
   "property": "C08",
   "status": "proved",
   "theorems": [
    "Reqtrace.C08_duplicates",
    "Reqtrace.C08_once",
    "Reqtrace.C08_none_iff_unique"
   ],
   "note": ""
  },
  {
   "property": "C09",
   "status": "proved",
   "theorems": [
    "Reqtrace.C09_unused_relation"
   ],
   "note": ""
  },
  {
   "property": "C10",
   "status": "proved",
   "theorems": [
    "Reqtrace.C10_no_panic",
    "Reqtrace.C10_panic_unknown_upper",
    "Reqtrace.C10_traceable"
   ],
   "note": ""
  },
  {
   "property": "C100",
   "status": "partial",
   "theorems": [
    "Reqtrace.C100_errors_partial",
    "Reqtrace.C100_false"
   ],
   "note": "False as listed: errors in JSON files have no line, errors of reading neither. Proved: errors of readable Markdown and Rust files give the line, errors of JSON files the file, and mono-requirement files have no error but that of their name."
  },
  {
   "property": "C101",
   "status": "proved",
   "theorems": [
    "Reqtrace.C101_markdown",
    "Reqtrace.C101_mono",
    "Reqtrace.C101_location",
    "Reqtrace.C101_ascii"
   ],
   "note": "So the examples, which use the ASCII tables, hold for every table."
  },
  {
   "property": "C102",
   "status": "proved",
   "theorems": [
    "Reqtrace.C102_run",
    "Reqtrace.C102_every",
    "Reqtrace.C102_arguments"
   ],
   "note": "clap's reading is modelled from its documentation"
  },
  {
   "property": "C103",
   "status": "proved",
   "theorems": [
    "Reqtrace.C103_help",
    "Reqtrace.C103_version",
    "Reqtrace.C103_usage"
   ],
   "note": ""
  },
  {
   "property": "C104",
   "status": "proved",
   "theorems": [
    "Reqtrace.C104_command",
    "Reqtrace.C104_no_run"
   ],
   "note": "without the log"
  },
  {
   "property": "C105",
   "status": "proved",
   "theorems": [
    "Reqtrace.C105_same"
   ],
   "note": "the log is not part of the modelled effects; the field quiet is never read by the program"
  },
  {
   "property": "C106",
   "status": "partial",
   "theorems": [
    "Reqtrace.C106_reimport_partial",
    "Reqtrace.C106_projects_partial",
    "Reqtrace.C106_false"
   ],
   "note": "the description is not kept: it follows the attribute Origin and is read as part of it (C106_false); everything else holds, a missing title becomes an empty one, attribute texts are trimmed"
  },
  {
   "property": "C107",
   "status": "proved",
   "theorems": [
    "Reqtrace.C107_tags",
    "Reqtrace.C107_determined",
    "Reqtrace.C107_ids"
   ],
   "note": ""
  },
  {
   "property": "C108",
   "status": "partial",
   "theorems": [
    "Reqtrace.C108_no_loops_partial",
    "Reqtrace.C108_loops_accepted",
    "Reqtrace.C108_false"
   ],
   "note": "loops of relations are accepted without complaint (C108_false, C108_loops_accepted); if the configuration has none and no id is defined twice, no requirement is covered by itself through any chain"
  },
  {
   "property": "C109",
   "status": "partial",
   "theorems": [
    "Reqtrace.C109_json_partial",
    "Reqtrace.C109_false"
   ],
   "note": "no report carries a hash, time or version of a file, so text outside of requirements can differ (C109_false); the JSON trace identifies all that was understood: the artefacts with their files, requirements and errors, and the relations, also across projects"
  },
  {
   "property": "C11",
   "status": "proved",
   "theorems": [
    "Reqtrace.C11_frame"
   ],
   "note": ""
  },
  {
   "property": "C110",
   "status": "proved",
   "theorems": [
    "Reqtrace.C110_ident",
    "Reqtrace.C110_markdown",
    "Reqtrace.C110_mono"
   ],
   "note": ""
  },
  {
   "property": "C111",
   "status": "proved",
   "theorems": [
    "Reqtrace.C111_refused"
   ],
   "note": ""
  },
  {
   "property": "C112",
   "status": "proved",
   "theorems": [
    "Reqtrace.C112_some_lower",
    "Reqtrace.C112_no_lower"
   ],
   "note": ""
  },
  {
   "property": "C113",
   "status": "proved",
   "theorems": [
    "Reqtrace.C113_gnu",
    "Reqtrace.C113_markdown",
    "Reqtrace.C113_list",
    "Reqtrace.C113_json"
   ],
   "note": "for the tags file there is no such statement: it never lists errors"
  },
  {
   "property": "C114",
   "status": "proved",
   "theorems": [
    "Reqtrace.C114_order"
   ],
   "note": "without the condition on destinations it is false: the last job wins (C66)"
  },
  {
   "property": "C115",
   "status": "proved",
   "theorems": [
    "Reqtrace.C115_more"
   ],
   "note": "title errors can appear and disappear: they depend on the target"
  },
  {
   "property": "C116",
   "status": "proved",
   "theorems": [
    "Reqtrace.C116_rename",
    "Reqtrace.renameAll_renames"
   ],
   "note": "renameAll_renames: every graph and every renaming meets the hypotheses"
  },
  {
   "property": "C117",
   "status": "partial",
   "theorems": [
    "Reqtrace.C117_exactly_partial",
    "Reqtrace.C117_artefact_partial",
    "Reqtrace.C117_tracing_partial",
    "Reqtrace.C117_found_partial",
    "Reqtrace.C117_false"
   ],
   "note": "false as stated: repeated ids in different artefacts, wrong and missing titles, unusable patterns and repeated artefacts are reported but not logged (DESIGN.md:161 asks for the first).  Exact: the info records are those of the parsers, in order, then the unused relations and references to unknown requirements."
  },
  {
   "property": "C118",
   "status": "proved",
   "theorems": [
    "Reqtrace.C118_only_stderr",
    "Reqtrace.C118_failure",
    "Reqtrace.C118_no_failure",
    "Reqtrace.C118_silent",
    "Reqtrace.C118_line"
   ],
   "note": "a panic's own message is left out"
  },
  {
   "property": "C119",
   "status": "partial",
   "theorems": [
    "Reqtrace.C119_ignored_partial",
    "Reqtrace.C119_filter_partial",
    "Reqtrace.C119_false"
   ],
   "note": "false: `quiet` is never read; two command lines that differ only in it do the same (C119_ignored_partial)"
  },
  {
   "property": "C12",
   "status": "proved",
   "theorems": [
    "Reqtrace.C12_independent",
    "Reqtrace.C12_permutation"
   ],
   "note": ""
  },
  {
   "property": "C120",
   "status": "proved",
   "theorems": [
    "Reqtrace.C120_warnings",
    "Reqtrace.C120_reasons",
    "Reqtrace.C120_reason_iff",
    "Reqtrace.C120_summary",
    "Reqtrace.C120_no_jobs"
   ],
   "note": ""
  },
  {
   "property": "C121",
   "status": "proved",
   "theorems": [
    "Reqtrace.C121_white_space",
    "Reqtrace.C121_patterns",
    "Reqtrace.C121_trim",
    "Reqtrace.C121_decimal",
    "Reqtrace.C121_one",
    "Reqtrace.C121_places"
   ],
   "note": "White space is that of Rust's `char::is_whitespace` and `\\s` of the regex crate, which both are the Unicode property."
  },
  {
   "property": "C122",
   "status": "proved",
   "theorems": [
    "Reqtrace.C122_problem",
    "Reqtrace.C122_controller",
    "Reqtrace.C122_derived"
   ],
   "note": "Assumes that `Debug` of paths shows them in quotes, different ones differently."
  },
  {
   "property": "C123",
   "status": "proved",
   "theorems": [
    "Reqtrace.C123_bad_config",
    "Reqtrace.C123_no_jobs",
    "Reqtrace.C123_unknown_job",
    "Reqtrace.C123_done",
    "Reqtrace.C123_stopped",
    "Reqtrace.C123_trace"
   ],
   "note": "Said of the records before the filter. Positions (file and line) in records are in the model, but not in the statement. The problems announced while files are read are given by ReadLog (see C117). The log of a run that panics while the files are read is C160."
  },
  {
   "property": "C124",
   "status": "partial",
   "theorems": [
    "Reqtrace.C124_false",
    "Reqtrace.C124_location_partial",
    "Reqtrace.C124_requirement_partial",
    "Reqtrace.C124_error_partial",
    "Reqtrace.C124_relation",
    "Reqtrace.C124_complaint",
    "Reqtrace.C124_complaint_equal",
    "Reqtrace.C124_location_equal",
    "Reqtrace.C124_requirement_equal",
    "Reqtrace.C124_equal_compares",
    "Reqtrace.C124_location_first",
    "Reqtrace.C124_error_kinds"
   ],
   "note": "False as listed: requirements compare by their id only, a line equals its column 0. Proved: swap and transitivity for all five types, the full claim for Relation and ControllerError, exactly when the others compare Equal, what == is (paths up to spelling), that == implies Equal, and that the file decides first and errors are ordered by kind."
  },
  {
   "property": "C125",
   "status": "partial",
   "theorems": [
    "Reqtrace.C125_false",
    "Reqtrace.C125_partial",
    "Reqtrace.C125_lines_partial",
    "Reqtrace.C125_loss",
    "Reqtrace.C125_printed",
    "Reqtrace.C125_determined"
   ],
   "note": "False as listed: a JSON report does not end in a line feed, its last byte waits in the line buffer of the standard library, and a failure to write it at exit is ignored. Proved: what the program writes is exactly the reports; that closing brace, when nothing is printed after it, is all that can be missing; otherwise everything arrives. However the program ends only part of the last line can be missing. With a closed standard output nothing arrives and the exit code is as if it had."
  },
  {
   "property": "C126",
   "status": "proved",
   "theorems": [
    "Reqtrace.C126_version",
    "Reqtrace.C126_example"
   ],
   "note": "That no other requirement has the old id is needed: otherwise its references lead to that one afterwards. Tracing of the changed graph does not panic either."
  },
  {
   "property": "C127",
   "status": "partial",
   "theorems": [
    "Reqtrace.C127_false",
    "Reqtrace.C127_searched_partial",
    "Reqtrace.C127_not_searched_partial"
   ],
   "note": "False as listed: if one path is no valid pattern or a directory cannot be listed, everything that the other paths give is lost and this is the only error of the artefact. Proved: that this is what happens then, and the property when the further path can be searched."
  },
  {
   "property": "C128",
   "status": "partial",
   "theorems": [
    "Reqtrace.C128_false",
    "Reqtrace.C128_single_partial",
    "Reqtrace.C128_rust_partial"
   ],
   "note": "False as listed for Rust artefacts: a pattern without a match is as good as not there, alone it gives an empty artefact without error. Proved for the other parsers, with the exact error."
  },
  {
   "property": "C129",
   "status": "partial",
   "theorems": [
    "Reqtrace.C129_false",
    "Reqtrace.C129_twice_partial",
    "Reqtrace.C129_disjoint_partial"
   ],
   "note": "False as listed: the file is read again and every one of its requirements is reported as a duplicate of itself; this is proved, and the property for patterns without a common file."
  },
  {
   "property": "C13",
   "status": "proved",
   "theorems": [
    "Reqtrace.C13_monotone"
   ],
   "note": ""
  },
  {
   "property": "C130",
   "status": "partial",
   "theorems": [
    "Reqtrace.C130_false",
    "Reqtrace.C130_order_partial"
   ],
   "note": "False as listed: of two requirements with the same id the first counts. Proved: if all paths can be searched, the same files are read and the same ids found, and if no id is reported as duplicate everything else is the same as well."
  },
  {
   "property": "C131",
   "status": "proved",
   "theorems": [
    "Reqtrace.C131_places",
    "Reqtrace.C131_verdict",
    "Reqtrace.C131_same"
   ],
   "note": "An equation between the results of tracing, for every graph and without hypotheses about it. `C131_verdict`: a trace job detects errors as before if the change keeps which artefacts have errors; `C131_same`: two graphs that differ only in places have results that differ only in places."
  },
  {
   "property": "C132",
   "status": "proved",
   "theorems": [
    "Reqtrace.C132_file",
    "Reqtrace.C132_project",
    "Reqtrace.C132_verdict",
    "Reqtrace.C132_exit"
   ],
   "note": "The files of each artefact are found in the same order before and after. Error texts of the operating system are taken to be the same."
  },
  {
   "property": "C133",
   "status": "partial",
   "theorems": [
    "Reqtrace.C133_false",
    "Reqtrace.C133_identifier_partial",
    "Reqtrace.C133_string_partial"
   ],
   "note": "False as listed: the macro takes an id given as a string with a title, the parser reports it as an error (`C133_false`). Proved: with an identifier first every accepted mark is a reference with its title, whatever separates the two; with a string first every accepted mark is an error at that string, so nothing is lost silently."
  },
  {
   "property": "C134",
   "status": "partial",
   "theorems": [
    "Reqtrace.C134_false",
    "Reqtrace.C134_sections_partial",
    "Reqtrace.C134_exact_partial"
   ],
   "note": "False as listed: a section that a plain heading or a wrong line cuts off is lost if it is the last of the document and kept elsewhere (`C134_false`). Proved for all documents and orders where the last section before and after is not cut off. For all documents and orders: the requirements are the same together with that of the last section, which is lost if the section is cut off (`C134_exact_partial`)."
  },
  {
   "property": "C135",
   "status": "partial",
   "theorems": [
    "Reqtrace.C135_false",
    "Reqtrace.C135_items_partial",
    "Reqtrace.C135_marks_partial"
   ],
   "note": "False as listed: the marks in two items of the same name are one requirement if nothing with a mark stands between them, otherwise a requirement and a duplicate (`C135_false`). Proved for all files where the marks in different pieces have different names around them. For all files: the errors and the marks with the names around them are the same, only which of them make one requirement is not (`C135_marks_partial`)."
  },
  {
   "property": "C136",
   "status": "proved",
   "theorems": [
    "Reqtrace.C136_project",
    "Reqtrace.C136_verdict",
    "Reqtrace.C136_exit",
    "Reqtrace.C131_requirements"
   ],
   "note": "`C136_project` needs that no id is given twice in an artefact, since the first of two is kept; `C136_verdict` and `C136_exit` do not. Example: `ShuffledExample`, with documents, items and files in another order at once."
  },
  {
   "property": "C137",
   "status": "proved",
   "theorems": [
    "Reqtrace.C137_project",
    "Reqtrace.C137_uncovered"
   ],
   "note": "The document before must be of whole lines, with nothing cut off at its end (a requirement cut off there is lost, see C31 and C134)."
  },
  {
   "property": "C138",
   "status": "proved",
   "theorems": [
    "Reqtrace.C138_green",
    "Reqtrace.C138_section_then_mark"
   ],
   "note": ""
  },
  {
   "property": "C139",
   "status": "partial",
   "theorems": [
    "Reqtrace.C139_no_dead_links_partial",
    "Reqtrace.C139_id_partial",
    "Reqtrace.C139_false"
   ],
   "note": "False as listed: if two artefacts define the same id, only one of the two requirements is shown, and a link to the other one has no section. Proved if no id is defined in two artefacts; in every case there is a section about a requirement with that id."
  },
  {
   "property": "C14",
   "status": "partial",
   "theorems": [
    "Reqtrace.C14_aggregate_ok_iff_partial",
    "Reqtrace.C14_false"
   ],
   "note": "False as listed: tracing ignores an unknown lower artefact when the upper artefact is empty, aggregation then panics (C14_false). Proved: aggregation of a traced graph returns iff all artefacts named by relations exist."
  },
  {
   "property": "C140",
   "status": "proved",
   "theorems": [
    "Reqtrace.C140_titles",
    "Reqtrace.C140_one",
    "Reqtrace.C140_project",
    "Reqtrace.C140_green"
   ],
   "note": ""
  },
  {
   "property": "C141",
   "status": "proved",
   "theorems": [
    "Reqtrace.C141_file",
    "Reqtrace.C141_project",
    "Reqtrace.C141_more",
    "Reqtrace.C141_same",
    "Reqtrace.C141_code"
   ],
   "note": ""
  },
  {
   "property": "C142",
   "status": "proved",
   "theorems": [
    "Reqtrace.C142_formats",
    "Reqtrace.C142_reports",
    "Reqtrace.C142_json",
    "Reqtrace.C142_export"
   ],
   "note": ""
  },
  {
   "property": "C143",
   "status": "proved",
   "theorems": [
    "Reqtrace.C143_moved",
    "Reqtrace.C136_project",
    "Reqtrace.C136_verdict",
    "Reqtrace.C136_exit"
   ],
   "note": "`FilesReordered.spread` is the premise of the artefact; `C143_moved` is its meaning for the files, C136 for the project. `ShuffledExample.project_spread` moves two functions to another file. Without different names it is false, as C135."
  },
  {
   "property": "C144",
   "status": "proved",
   "theorems": [
    "Reqtrace.C144_problem",
    "Reqtrace.C144_lines",
    "Reqtrace.C144_line",
    "Reqtrace.C144_places"
   ],
   "note": "The place of a problem is `ProblemSite`, that of any line `LogSite`, with level and text. `log.debugPath` shows a path without line feed (`{:?}` escapes it)."
  },
  {
   "property": "C145",
   "status": "proved",
   "theorems": [
    "Reqtrace.C145_file",
    "Reqtrace.C145_project",
    "Reqtrace.C145_trace",
    "Reqtrace.C145_green"
   ],
   "note": "`OnlyOne` says that no other artefact has the id; that the artefact itself gives it once is the hypothesis on its errors. Both follow when there is no fault. A section at the end of the file must not leave a section cut off at the end (`kept`)."
  },
  {
   "property": "C146",
   "status": "proved",
   "theorems": [
    "Reqtrace.C146_repair",
    "Reqtrace.C146_section_then_reference"
   ],
   "note": "`CleanBut` (C138) says what is wrong before. `ReadsClean` is the exact condition of C68 for an artefact without errors."
  },
  {
   "property": "C147",
   "status": "proved",
   "theorems": [
    "Reqtrace.C147_project",
    "Reqtrace.C147_trace",
    "Reqtrace.C147_green"
   ],
   "note": "`TraceReduced` (C145) is used the other way round. A Markdown file that ends with a single character on a line of its own is excluded (the parser panics, C30)."
  },
  {
   "property": "C148",
   "status": "proved",
   "theorems": [
    "Reqtrace.C148_requirement",
    "Reqtrace.C148_coverage",
    "Reqtrace.C148_errors",
    "Reqtrace.C148_artefact_errors"
   ],
   "note": "`InLineOf`, `RefersAt`, `StandsAt`, `WrongAt` and `CitedAt` are in Spec/Leads.lean. The places in Rust are those that `syn` gives to macros and items. JSON artefacts carry places of their own."
  },
  {
   "property": "C149",
   "status": "partial",
   "theorems": [
    "Reqtrace.C149_false",
    "Reqtrace.C149_ignored_partial",
    "Reqtrace.C149_taken_out_partial"
   ],
   "note": "False of the code. A heading that starts no requirement, of whatever level, ends what is read of the requirement above. Exactly: the heading and all lines up to the next requirement are ignored, whatever they are (`C149_ignored_partial`), and if a requirement follows they can be taken out without changing anything but places (`C149_taken_out_partial`). At the end of the text the requirement itself is lost (C94)."
  },
  {
   "property": "C15",
   "status": "proved",
   "theorems": [
    "Reqtrace.C15_requirements",
    "Reqtrace.C15_depends",
    "Reqtrace.C15_covers",
    "Reqtrace.C15_inverse",
    "Reqtrace.C15_artefacts"
   ],
   "note": "For every graph on which trace and aggregation return. When an id is defined twice the entry shows the last artefact's definition. Equal relations listed twice share one entry, with the coverages of both."
  },
  {
   "property": "C150",
   "status": "proved",
   "theorems": [
    "Reqtrace.C150_markdown",
    "Reqtrace.C150_rust",
    "Reqtrace.C150_mono",
    "Reqtrace.C150_json",
    "Reqtrace.C150_file",
    "Reqtrace.C150_path",
    "Reqtrace.C150_trace",
    "Reqtrace.C150_project",
    "Reqtrace.C150_verdict",
    "Reqtrace.C150_exit"
   ],
   "note": "From the bytes of the files to the exit code. `PathRenamed` is what the project theorem needs of a file; `C150_markdown`, `C150_rust`, `C150_mono`, `C150_json` and `C150_file` show it for files that differ section by section, macro call by macro call, or requirement by requirement only in the names. Places may change as well. The configuration lists the same artefacts."
  },
  {
   "property": "C151",
   "status": "proved",
   "theorems": [
    "Reqtrace.C151_trace",
    "Reqtrace.C151_duplicate",
    "Reqtrace.C151_project",
    "Reqtrace.C151_exit"
   ],
   "note": "The roots (default of ignore_derived_requirements) follow the names as well. That the trace depends on the names if an id is in two artefacts is shown by an example beside the theorems; such an id is reported with all names, which is why the verdict does not."
  },
  {
   "property": "C152",
   "status": "proved",
   "theorems": [
    "Reqtrace.C152_exact",
    "Reqtrace.C152_unknown",
    "Reqtrace.C152_sides",
    "Reqtrace.C152_verdict",
    "Reqtrace.C152_exit"
   ],
   "note": "That ids have to be unique is shown by an example beside the theorems (twice_differ)."
  },
  {
   "property": "C153",
   "status": "proved",
   "theorems": [
    "Reqtrace.C153_more",
    "Reqtrace.C153_same",
    "Reqtrace.C153_nothing"
   ],
   "note": "That a report can be written is an assumption (exit code 0 or 1): a format that is not implemented or a file that cannot be written ends the run otherwise, see C28."
  },
  {
   "property": "C154",
   "status": "proved",
   "theorems": [
    "Reqtrace.C154_part",
    "Reqtrace.C154_verdict",
    "Reqtrace.C154_project",
    "Reqtrace.C154_exit"
   ],
   "note": "References may name requirements of the other part: they are unknown in the part as in the whole, so the hypothesis is only about relations and ids. The exit code needs that the reports can be written and the aggregate formats do not panic (codes at most 1)."
  },
  {
   "property": "C155",
   "status": "proved",
   "theorems": [
    "Reqtrace.C155_divided",
    "Reqtrace.C155_verdict",
    "Reqtrace.C155_project",
    "Reqtrace.C155_exit"
   ],
   "note": "The tracing part is for any graph and any number of pieces of any number of artefacts (`Divides`); the project part divides the paths of one Rust artefact in two. The hypothesis that no id is in both pieces is needed: see the last example."
  },
  {
   "property": "C156",
   "status": "proved",
   "theorems": [
    "Reqtrace.C156_settings",
    "Reqtrace.C156_laxer",
    "Reqtrace.C156_project",
    "Reqtrace.C156_relaxed",
    "Reqtrace.C156_exit"
   ],
   "note": "`C156_settings` and `C156_laxer` are about any two graphs with the same relations and requirements; the others about the project."
  },
  {
   "property": "C157",
   "status": "proved",
   "theorems": [
    "Reqtrace.C157_split",
    "Reqtrace.C157_verdict",
    "Reqtrace.C157_project",
    "Reqtrace.C157_exit"
   ],
   "note": "The last example shows that the converse fails: a requirement which is designed but not tested."
  },
  {
   "property": "C158",
   "status": "proved",
   "theorems": [
    "Reqtrace.C158_down",
    "Reqtrace.C158_up",
    "Reqtrace.C158_complete",
    "Reqtrace.C158_reported",
    "Reqtrace.C158_run"
   ],
   "note": "`C158_complete` needs ids which are defined once; `C158_run` gets that from the exit code."
  },
  {
   "property": "C159",
   "status": "partial",
   "theorems": [
    "Reqtrace.C159_false",
    "Reqtrace.C159_crash_partial"
   ],
   "note": "False of the code: a misspelt artefact in a relation makes it panic (`C159_false`). `C159_crash_partial` says exactly when the program panics (given that Rust items have names): an unknown artefact in a relation, a Markdown file with a last line of one ASCII character without line feed, a mono-requirement file which is not readable text, a coverage mark outside of all items in Rust code, or a job with a format that is not supported for its query, e.g. tags for a trace. There is an example for each."
  },
  {
   "property": "C16",
   "status": "proved",
   "theorems": [
    "Reqtrace.C16_uncovered_agrees",
    "Reqtrace.C16_above_agrees"
   ],
   "note": ""
  },
  {
   "property": "C160",
   "status": "proved",
   "theorems": [
    "Reqtrace.C160_relation",
    "Reqtrace.C160_file",
    "Reqtrace.C160_exact"
   ],
   "note": "Said of the records before the filter. With C123 this gives the log of every run."
  },
  {
   "property": "C161",
   "status": "partial",
   "theorems": [
    "Reqtrace.C161_exact_partial",
    "Reqtrace.C161_all_partial",
    "Reqtrace.C161_false"
   ],
   "note": "False as listed, though documented (REQ_LATE_ERROR, doc/requirements/REQUIREMENTS.md): the first job that fails is the last one that is run. Proved instead, for every run: the files of the jobs before that one contain their output, those of the jobs after it are as they were; if no job fails, all files have their output."
  },
  {
   "property": "C162",
   "status": "proved",
   "theorems": [
    "Reqtrace.C162_config",
    "Reqtrace.C162_good",
    "Reqtrace.C162_unique",
    "Reqtrace.C162_written",
    "Reqtrace.Toml.C162_read"
   ],
   "note": "Under the hypothesis ReadsToml: for each document that the reader Verif.Toml accepts, toml::from_slice gives the same tree. The reader covers the part of TOML described in the statement (no dates, floats, multi-line texts, dotted names in entries, lists of anything but texts, or headings with three names)."
  },
  {
   "property": "C163",
   "status": "partial",
   "theorems": [
    "Reqtrace.C163_partial",
    "Reqtrace.C163_wildcards_partial",
    "Reqtrace.C163_pattern_partial",
    "Reqtrace.C163_tree_partial",
    "Reqtrace.C163_false"
   ],
   "note": "False as listed: glob_paths puts the base directory in front of the pattern as it is, so that a base directory such as p[1] is itself read as a pattern, and the file p1/a.rs is found instead of p[1]/a.rs (C163_false). Proved for base directories without the characters * ? [ (and without empty, . or .. parts, except . itself), under the hypothesis GlobWorks: in the given state of the file system glob::glob returns, for the patterns that Verif.Glob understands, the paths that match, in any order, and no errors. Patterns with empty, . or .. parts, with wildcards in names that begin with a dot, or with ** at the end are left out. C163_wildcards_partial says what is found below base directories with wildcards: what fits the pattern below any directory that fits the base directory, taken as a pattern."
  },
  {
   "property": "C164",
   "status": "proved",
   "theorems": [
    "Reqtrace.RustText.C164_reader",
    "Reqtrace.RustText.C164_file",
    "Reqtrace.RustText.C164_layout",
    "Reqtrace.RustText.C164_project",
    "Reqtrace.RustText.C164_exit"
   ],
   "note": "Under the hypothesis ReadsRust: for texts that the reader Verif.RustText accepts, syn::parse_file gives a tree with the same macro calls in the same items. The reader covers the part of Rust described in the statement, with names of ASCII letters, digits and _, texts without escapes, whole numbers without suffix, documentation only with three slashes, no nested comments, types with at most one argument each, no if with else, no calls inside of calls, no operators; C164_reader says exactly which texts these are. C164_exit is for runs that end with status 0 or 1."
  },
  {
   "property": "C165",
   "status": "proved",
   "theorems": [
    "Reqtrace.JsonLayout.C165_file",
    "Reqtrace.JsonLayout.C165_path",
    "Reqtrace.JsonLayout.C165_project",
    "Reqtrace.JsonLayout.C165_exit",
    "Reqtrace.JsonLayout.C165_unknown",
    "Reqtrace.JsonLayout.C165_member"
   ],
   "note": "Two texts are related if both are documents of RFC 8259 and their values are the same but for the order of members. C165_exit is for runs that end with status 0 or 1."
  },
  {
   "property": "C166",
   "status": "proved",
   "theorems": [
    "Reqtrace.TwoLayers.C166_green",
    "Reqtrace.TwoLayers.C166_gaps"
   ],
   "note": "For runs that end with status 0 or 1 (all jobs run). Under the hypotheses ReadsToml and ReadsRust of C162 and C164 about the libraries, for texts in the parts of TOML and Rust modelled there. The items of the code that have marks have different names, which are no ids of requirements; which files the patterns of the code mean is C163."
  },
  {
   "property": "C167",
   "status": "proved",
   "theorems": [
    "Reqtrace.C167_markdown",
    "Reqtrace.C167_rust",
    "Reqtrace.C167_json",
    "Reqtrace.C167_moved",
    "Reqtrace.C167_project",
    "Reqtrace.C167_verdict",
    "Reqtrace.C167_exit"
   ],
   "note": "A description must not contain a paragraph that starts like an attribute, or a line that starts with #, before or after; a negative example stands beside the theorem. `C167_moved` takes any two files that say the same but for places, so it covers mono-requirements and unchanged files."
  },
  {
   "property": "C168",
   "status": "proved",
   "theorems": [
    "Reqtrace.CodeTree.C168_green",
    "Reqtrace.CodeTree.C168_gaps"
   ],
   "note": "The glob library is assumed to find, among the paths that are there, those that match, each once for a pattern; a library that lists a file twice would make the program report duplicate requirements."
  },
  {
   "property": "C169",
   "status": "proved",
   "theorems": [
    "Reqtrace.ProjectReport.C169_file",
    "Reqtrace.ProjectReport.C169_stdout",
    "Reqtrace.ProjectReport.C169_tree",
    "Reqtrace.ProjectReport.C169_determined"
   ],
   "note": "The quoted form of titles and names depends, as in C85, on which characters the library prints as they are."
  },
  {
   "property": "C17",
   "status": "proved",
   "theorems": [
    "Reqtrace.C17_first_kept",
    "Reqtrace.C17_none_vanishes",
    "Reqtrace.C17_returns"
   ],
   "note": ""
  },
  {
   "property": "C170",
   "status": "proved",
   "theorems": [
    "Reqtrace.TextProject.C170_green",
    "Reqtrace.TextProject.C170_exact",
    "Reqtrace.TextProject.C170_uncovered",
    "Reqtrace.TextProject.C170_derived"
   ],
   "note": "In the first part the base directory is without wildcards, the library lists a file once for a pattern, and no file is meant by two patterns of an artefact. The other parts need no assumptions on texts and libraries."
  },
  {
   "property": "C171",
   "status": "proved",
   "theorems": [
    "Reqtrace.ListText.C171_file",
    "Reqtrace.ListText.C171_stdout",
    "Reqtrace.ListText.C171_determined"
   ],
   "note": "A file is that of the last job that writes to it; on the standard output the job is the only one. The base directory is without wildcards, the library lists a file once for a pattern, and no file is meant by two patterns of an artefact."
  },
  {
   "property": "C172",
   "status": "proved",
   "theorems": [
    "Reqtrace.AnyReport.C172_file",
    "Reqtrace.AnyReport.C172_stdout",
    "Reqtrace.AnyReport.C172_determined"
   ],
   "note": "Covers any number of artefacts and relations, where C169 has one of each side. A file is that of the last job that writes to it; on the standard output the job is the only one. The base directory is without wildcards, the library lists a file once for a pattern, and no file is meant by two patterns of an artefact."
  },
  {
   "property": "C173",
   "status": "proved",
   "theorems": [
    "Reqtrace.AnyMarkdown.C173_file",
    "Reqtrace.AnyMarkdown.C173_stdout",
    "Reqtrace.AnyMarkdown.C173_determined"
   ],
   "note": "The counterpart of C172 for the Markdown report. A file is that of the last job that writes to it; on the standard output the job is the only one. A relation that is there twice in the configuration has its coverages twice. The base directory is without wildcards, the library lists a file once for a pattern, and no file is meant by two patterns of an artefact."
  },
  {
   "property": "C174",
   "status": "proved",
   "theorems": [
    "Reqtrace.AnyJson.C174_file",
    "Reqtrace.AnyJson.C174_stdout",
    "Reqtrace.AnyJson.C174_determined"
   ],
   "note": "The counterpart of C172 and C173 for JSON; with C171 the output of every supported format is said from the texts. A file is that of the last job that writes to it; on the standard output the job is the only one. The base directory is without wildcards, the library lists a file once for a pattern, and no file is meant by two patterns of an artefact."
  },
  {
   "property": "C175",
   "status": "proved",
   "theorems": [
    "Reqtrace.C175_ends",
    "Reqtrace.C175_leaves",
    "Reqtrace.C175_determined"
   ],
   "note": "Joins C171 to C174 for any list of jobs, with the verdict of C170. That the configuration can be worked with is enough for the run to get to its end if writing never fails (Reliable); the outcome is said for every run that gets to its end. Determined are files, standard output and standard error; of directories it is said which may be new."
  },
  {
   "property": "C18",
   "status": "proved",
   "theorems": [
    "Reqtrace.C18_consistent",
    "Reqtrace.C18_no_panic",
    "Reqtrace.C18_returns_iff"
   ],
   "note": "Reporting cannot panic except for a job whose format is not available for its query (see C57)."
  },
  {
   "property": "C19",
   "status": "proved",
   "theorems": [
    "Reqtrace.C19_default_root"
   ],
   "note": ""
  },
  {
   "property": "C20",
   "status": "proved",
   "theorems": [
    "Reqtrace.C20_appended",
    "Reqtrace.C20_exactly"
   ],
   "note": ""
  },
  {
   "property": "C21",
   "status": "partial",
   "theorems": [
    "Reqtrace.C21_never_accepted_partial",
    "Reqtrace.C21_false"
   ],
   "note": "The first half holds. The second is false: Controller::new panics, so the process ends with 101 instead of 2."
  },
  {
   "property": "C22",
   "status": "partial",
   "theorems": [
    "Reqtrace.C22_last_entries_partial",
    "Reqtrace.C22_distinct_partial",
    "Reqtrace.C22_false"
   ],
   "note": "False as listed: of two entries with the same id the earlier is dropped without an error. Proved for the last entry of each id, so for all entries if ids are distinct."
  },
  {
   "property": "C23",
   "status": "proved",
   "theorems": [
    "Reqtrace.C23_verdict"
   ],
   "note": ""
  },
  {
   "property": "C24",
   "status": "proved",
   "theorems": [
    "Reqtrace.C24_return_code",
    "Reqtrace.C24_order"
   ],
   "note": ""
  },
  {
   "property": "C25",
   "status": "proved",
   "theorems": [
    "Reqtrace.C25_unknown_job",
    "Reqtrace.C25_only_unknown"
   ],
   "note": ""
  },
  {
   "property": "C26",
   "status": "proved",
   "theorems": [
    "Reqtrace.C26_stops",
    "Reqtrace.C26_in_order"
   ],
   "note": ""
  },
  {
   "property": "C27",
   "status": "proved",
   "theorems": [
    "Reqtrace.C27_stdout",
    "Reqtrace.C27_file",
    "Reqtrace.C27_jobs",
    "Reqtrace.C27_main"
   ],
   "note": "The meaning of paths is a parameter that does not change during a run."
  },
  {
   "property": "C28",
   "status": "partial",
   "theorems": [
    "Reqtrace.C28_exit_code_partial",
    "Reqtrace.C28_stderr_partial",
    "Reqtrace.C28_false"
   ],
   "note": "False as listed: if a relation names an unknown artefact, the program panics (101) before it notices a missing or unknown job. Everything else is proved, with the exact condition for each of the codes 0, 1, 2."
  },
  {
   "property": "C29",
   "status": "proved",
   "theorems": [
    "Reqtrace.C29_trace_implies_parse"
   ],
   "note": ""
  },
  {
   "property": "C30",
   "status": "partial",
   "theorems": [
    "Reqtrace.C30_panics_iff_partial",
    "Reqtrace.C30_false"
   ],
   "note": "False as listed: a last line of one ASCII character without line feed fails the assertion at markdown.rs:91 (C30_false). Proved: the parser panics for exactly these texts, for every read failure."
  },
  {
   "property": "C31",
   "status": "partial",
   "theorems": [
    "Reqtrace.C31_every_heading_partial",
    "Reqtrace.C31_false"
   ],
   "note": "False as listed: a heading without id, or a Format error, after the last requirement heading makes the parser forget that requirement (C31_false). Proved: all requirements are there exactly if neither occurs in the last section."
  },
  {
   "property": "C32",
   "status": "proved",
   "theorems": [
    "Reqtrace.C32_only_headings",
    "Reqtrace.C32_headings_determined"
   ],
   "note": "For every text and read failure."
  },
  {
   "property": "C33",
   "status": "partial",
   "theorems": [
    "Reqtrace.C33_well_formed_partial",
    "Reqtrace.C33_false"
   ],
   "note": "False as listed: `# REQ_1: ` gives an empty title (C33_false). Proved: everything else, and an empty title only if nothing but white space follows the colon."
  },
  {
   "property": "C34",
   "status": "proved",
   "theorems": [
    "Reqtrace.C34_sections_independent"
   ],
   "note": ""
  },
  {
   "property": "C35",
   "status": "proved",
   "theorems": [
    "Reqtrace.C35_no_heading",
    "Reqtrace.C35_preamble_ignored"
   ],
   "note": ""
  },
  {
   "property": "C36",
   "status": "proved",
   "theorems": [
    "Reqtrace.C36_locations",
    "Reqtrace.C36_ids_occur"
   ],
   "note": "Also: what is wrong with the line that an error names, and which requirement a DuplicateAttribute error names."
  },
  {
   "property": "C37",
   "status": "proved",
   "theorems": [
    "Reqtrace.C37_round_trip"
   ],
   "note": "For every list of well-formed items (Spec/MdWriter): ids, titles, one-paragraph descriptions, reference lists, text attributes."
  },
  {
   "property": "C38",
   "status": "partial",
   "theorems": [
    "Reqtrace.C38_description_exact_partial",
    "Reqtrace.C38_one_paragraph",
    "Reqtrace.C38_false"
   ],
   "note": "False as listed: the first line of each paragraph after an empty line is lost (C38_false). Proved: exactly which text the description consists of, and that one paragraph is kept whole."
  },
  {
   "property": "C39",
   "status": "proved",
   "theorems": [
    "Reqtrace.C39_reported",
    "Reqtrace.C39_only_repeated"
   ],
   "note": "Reported for a repeated attribute; and only for one that already has a value."
  },
  {
   "property": "C40",
   "status": "partial",
   "theorems": [
    "Reqtrace.C40_malformed_partial",
    "Reqtrace.C40_ignored_partial",
    "Reqtrace.C40_false"
   ],
   "note": "False as listed: a line below a list that merely ends with a word is silently taken as a reference (C40_false). Proved for the lines the parser does not take as a reference."
  },
  {
   "property": "C41",
   "status": "partial",
   "theorems": [
    "Reqtrace.C41_document_partial",
    "Reqtrace.C41_panic_partial",
    "Reqtrace.C41_headings_partial",
    "Reqtrace.C41_false"
   ],
   "note": "False as listed: an empty line with CR LF is not empty for the parser, so attributes end up in the description (C41_false). Proved: of a document in which no empty line matters (none below a requirement heading or in a description, at most one below a list of references, and no heading or item that ends with a colon) CR LF gives the same requirements, references and errors, and the texts of attributes differ by carriage returns only (C41_document_partial); of any document whose headings do not end with a colon the same requirements are found (location, id, title), up to the last that may be missing (C41_headings_partial); whether the assertion fails never depends on the line ends (C41_panic_partial). Missing: nothing that is true of the code for the documents named; for the others the statement is false, with a witness for each case."
  },
  {
   "property": "C42",
   "status": "proved",
   "theorems": [
    "Reqtrace.C42_one_requirement",
    "Reqtrace.C42_no_stem",
    "Reqtrace.C42_determined"
   ],
   "note": "With BufRead::lines, Path::file_stem and the regex modelled. A path without file name gives the requirement README and a Config error (C42_no_stem)."
  },
  {
   "property": "C43",
   "status": "partial",
   "theorems": [
    "Reqtrace.C43_marks_partial",
    "Reqtrace.C43_plain_title_partial",
    "Reqtrace.C43_false"
   ],
   "note": "False of the code for string literals with escapes: all quotes are dropped, escapes stay (C43_false). Proved otherwise: one reference or error per mark, in order. syn's tree is an arbitrary parameter; marks that syn does not deliver as ExprMacro (brace macros, nested macros) are out of scope."
  },
  {
   "property": "C44",
   "status": "partial",
   "theorems": [
    "Reqtrace.C44_paths_partial",
    "Reqtrace.C44_attributed_partial",
    "Reqtrace.C44_false"
   ],
   "note": "False of the code: items with the same path in sequence are merged, so a reference may belong to a requirement located at another item (C44_false). Proved: ids, grouping into runs, location of each run's first mark."
  },
  {
   "property": "C45",
   "status": "partial",
   "theorems": [
    "Reqtrace.C45_returns_partial",
    "Reqtrace.C45_false"
   ],
   "note": "False of the code: a mark outside items, for example in a const block, panics (C45_false). Proved: it returns exactly if there is no such mark."
  },
  {
   "property": "C46",
   "status": "partial",
   "theorems": [
    "Reqtrace.C46_kept_or_reported_partial",
    "Reqtrace.C46_distinct_partial",
    "Reqtrace.C46_false"
   ],
   "note": "False as listed: marks behind a nested function with marks make a second requirement with the same id, which is dropped with an error. Proved: each mark is kept, or an error names the requirement that has it."
  },
  {
   "property": "C47",
   "status": "proved",
   "theorems": [
    "Reqtrace.C47_round_trip"
   ],
   "note": "For every Unicode digit table satisfying the stated laws. Numbers must fit usize."
  },
  {
   "property": "C48",
   "status": "proved",
   "theorems": [
    "Reqtrace.C48_parse_total"
   ],
   "note": ""
  },
  {
   "property": "C49",
   "status": "partial",
   "theorems": [
    "Reqtrace.C49_swap_partial",
    "Reqtrace.C49_trans_partial",
    "Reqtrace.C49_equal_partial",
    "Reqtrace.C49_comparable",
    "Reqtrace.C49_false"
   ],
   "note": "False as listed: Line(5) and LineAndColumn(5,0) compare Equal but differ (C49_false). Proved: antisymmetry, transitivity, Equal exactly for the same place where a line is its column 0."
  },
  {
   "property": "C50",
   "status": "proved",
   "theorems": [
    "Reqtrace.C50_tags",
    "Reqtrace.C50_lines_determined"
   ],
   "note": "The lines are those of an inductive specification that leaves no choice; sorted and complete."
  },
  {
   "property": "C51",
   "status": "proved",
   "theorems": [
    "Reqtrace.C51_export"
   ],
   "note": "At the level of the JSON value and its printed text; sort_unstable_by_key on errors is an arbitrary sort."
  },
  {
   "property": "C52",
   "status": "partial",
   "theorems": [
    "Reqtrace.C52_member_partial",
    "Reqtrace.C52_never",
    "Reqtrace.C52_false"
   ],
   "note": "False as listed, for every graph: the export is an object and the Json parser expects an array. Proved at the level of text, through a model of serde_json's reader: the member 'requirements' of the export, as a file of its own, gives the requirements again (positions that fit into usize)."
  },
  {
   "property": "C53",
   "status": "partial",
   "theorems": [
    "Reqtrace.C53_no_panic_partial",
    "Reqtrace.C53_gnu_partial",
    "Reqtrace.C53_false"
   ],
   "note": "False as listed: with a relation from an empty artefact to an unknown one, trace returns and the Markdown report panics. Proved for both reports when the relations name existing artefacts (which Controller::new ensures), and for the GNU-error report always."
  },
  {
   "property": "C54",
   "status": "proved",
   "theorems": [
    "Reqtrace.C54_reported",
    "Reqtrace.C54_sections",
    "Reqtrace.C54_gnu_names",
    "Reqtrace.C54_markdown_names",
    "Reqtrace.C54_location_link",
    "Reqtrace.C54_gnu_report",
    "Reqtrace.C54_markdown_report"
   ],
   "note": "Both reports contain the text for each problem, in the words of Spec.gnuLines and Spec.markdownError; each of these texts names its places and what the error is about; sections and how often a text is there. The Markdown half needs that the relations name existing artefacts (C53)."
  },
  {
   "property": "C55",
   "status": "partial",
   "theorems": [
    "Reqtrace.C55_report_partial",
    "Reqtrace.C55_false"
   ],
   "note": "False as listed: the Markdown report exchanges the two places. Proved for the GNU-error report, with what the Markdown report says instead."
  },
  {
   "property": "C56",
   "status": "proved",
   "theorems": [
    "Reqtrace.C56_anchor"
   ],
   "note": "str::to_lowercase is a parameter."
  },
  {
   "property": "C57",
   "status": "partial",
   "theorems": [
    "Reqtrace.C57_never_ok_partial",
    "Reqtrace.C57_false"
   ],
   "note": "False as listed: the output is opened and emptied first, then the program panics (todo!)."
  },
  {
   "property": "C58",
   "status": "proved",
   "theorems": [
    "Reqtrace.C58_artefact",
    "Reqtrace.C58_graph"
   ],
   "note": ""
  },
  {
   "property": "C59",
   "status": "proved",
   "theorems": [
    "Reqtrace.C59_no_panic"
   ],
   "note": ""
  },
  {
   "property": "C60",
   "status": "partial",
   "theorems": [
    "Reqtrace.C60_exact_partial",
    "Reqtrace.C60_plain_partial",
    "Reqtrace.C60_false"
   ],
   "note": "False of the code: the first line is taken untrimmed (C60_false). Exactly: the title is the documented one if and only if there is no line at all or the first line starts and ends with a word character."
  },
  {
   "property": "C61",
   "status": "partial",
   "theorems": [
    "Reqtrace.C61_exact_partial",
    "Reqtrace.C61_line_end_partial",
    "Reqtrace.C61_false"
   ],
   "note": "False of the code: only the leftmost arrow whose id (and title) extends to the end of the line counts, and none in the first line (C61_false). Exactly: these are the references, and nothing else is."
  },
  {
   "property": "C62",
   "status": "partial",
   "theorems": [
    "Reqtrace.C62_panics_iff_partial",
    "Reqtrace.C62_false"
   ],
   "note": "False of the code: todo!() on a read error (C62_false). Proved: it panics exactly then."
  },
  {
   "property": "C63",
   "status": "partial",
   "theorems": [
    "Reqtrace.C63_exact_partial",
    "Reqtrace.C63_anchor_partial",
    "Reqtrace.C63_heading",
    "Reqtrace.C63_false"
   ],
   "note": "False as listed: letters outside ASCII are dropped from the link but stay in the heading's anchor. Proved exactly: the anchors agree if and only if the id and the title in lower case have no letter or digit outside ASCII (for a lower-casing that acts on id and title separately, as Rust's does; without that assumption for ASCII ids and titles)."
  },
  {
   "property": "C64",
   "status": "partial",
   "theorems": [
    "Reqtrace.C64_distinct_partial",
    "Reqtrace.C64_exact_partial",
    "Reqtrace.C64_false"
   ],
   "note": "False as listed (case, characters outside ASCII, A-B against A with title B). Exactly: two links lead to the same anchor if and only if id and title look the same in lower case without what is outside letters, digits, '_' and '-' of ASCII. In particular ids of letters, digits and '_' that differ in more than case have different anchors."
  },
  {
   "property": "C65",
   "status": "proved",
   "theorems": [
    "Reqtrace.C65_trace",
    "Reqtrace.C65_parse"
   ],
   "note": "Through a reader of JSON text that is proved to read back what is printed."
  },
  {
   "property": "C66",
   "status": "proved",
   "theorems": [
    "Reqtrace.C66_content",
    "Reqtrace.C66_beginning",
    "Reqtrace.C66_last",
    "Reqtrace.C66_stdout"
   ],
   "note": ""
  },
  {
   "property": "C67",
   "status": "proved",
   "theorems": [
    "Reqtrace.C67_errors",
    "Reqtrace.C67_result",
    "Reqtrace.C67_no_errors_iff",
    "Reqtrace.C67_covered_iff",
    "Reqtrace.C67_derived_iff"
   ],
   "note": "Spec/Trace.lean gives the lists as comprehensions, Spec/Project.lean the logical conditions. For graphs whose maps are keyed by the ids of their values, which C18 shows of every graph the controller builds."
  },
  {
   "property": "C68",
   "status": "proved",
   "theorems": [
    "Reqtrace.C68_no_errors_iff",
    "Reqtrace.C68_named"
   ],
   "note": "FilesOf, Holds, CleanArtefact in Spec/Input.lean. A mono requirement that cannot be read makes the program panic, so there is no graph then."
  },
  {
   "property": "C69",
   "status": "proved",
   "theorems": [
    "Reqtrace.C69_files",
    "Reqtrace.C69_only_listed"
   ],
   "note": "Globbing is a parameter; which files match is part of the hypothesis."
  },
  {
   "property": "C70",
   "status": "proved",
   "theorems": [
    "Reqtrace.C70_read_failure",
    "Reqtrace.C70_invalid_utf8"
   ],
   "note": "At the level of bytes."
  },
  {
   "property": "C71",
   "status": "proved",
   "theorems": [
    "Reqtrace.C71_report",
    "Reqtrace.C71_determined",
    "Reqtrace.C71_uncovered",
    "Reqtrace.C71_derived"
   ],
   "note": "RequirementSection in Spec/Report.lean; it determines the text. How a link looks is C56."
  },
  {
   "property": "C72",
   "status": "proved",
   "theorems": [
    "Reqtrace.C72_list",
    "Reqtrace.C72_determined"
   ],
   "note": "RequirementEntry in Spec/Report.lean. For a requirement without title the heading ends in ': ' (markdown.rs:64-68)."
  },
  {
   "property": "C73",
   "status": "proved",
   "theorems": [
    "Reqtrace.C73_references_help"
   ],
   "note": "MoreReferences (Spec/Project.lean) compares the referenced ids only."
  },
  {
   "property": "C74",
   "status": "proved",
   "theorems": [
    "Reqtrace.C74_ids_only"
   ],
   "note": "Two graphs with MoreReferences in both directions."
  },
  {
   "property": "C75",
   "status": "proved",
   "theorems": [
    "Reqtrace.C75_green"
   ],
   "note": "CleanProject in Spec/Input.lean. Of several entries with the same id only the last is considered (C22)."
  },
  {
   "property": "C76",
   "status": "proved",
   "theorems": [
    "Reqtrace.C76_exists",
    "Reqtrace.C76_complete",
    "Reqtrace.C76_determined"
   ],
   "note": "Spec/Document.lean: grammar of lines, attributes, sections; every text has exactly one meaning. The panic at markdown.rs:91 is excluded (C30)."
  },
  {
   "property": "C77",
   "status": "proved",
   "theorems": [
    "Reqtrace.C77_accepted",
    "Reqtrace.C77_rejected",
    "Reqtrace.JsonRead.document_iff"
   ],
   "note": "Against a grammar of RFC 8259 and a relation between JSON values and requirements, both stated apart from the reader."
  },
  {
   "property": "C78",
   "status": "proved",
   "theorems": [
    "Reqtrace.C78_config",
    "Reqtrace.toml_ok",
    "Reqtrace.toml_err",
    "Reqtrace.getConfig_ok",
    "Reqtrace.getConfig_err",
    "Reqtrace.ConfigRead.C78_written"
   ],
   "note": "From the value tree of the TOML document on; the reading of the text is a parameter. The exit code is part of C28. `C78_written`: every configuration has a document that says it."
  },
  {
   "property": "C79",
   "status": "partial",
   "theorems": [
    "Reqtrace.C79_mandatory_partial",
    "Reqtrace.C79_ignored_partial",
    "Reqtrace.C79_false"
   ],
   "note": "False as listed: unknown names are ignored, so a misspelled optional setting (e.g. set_return_code) has no effect and no message. Proved: a misspelled mandatory setting is reported, in every table (C79_mandatory_partial); and adding a name that is no setting never changes the configuration, in every table (C79_ignored_partial), so that nothing else is reported."
  },
  {
   "property": "C80",
   "status": "proved",
   "theorems": [
    "Reqtrace.C80_rust",
    "Reqtrace.C80_determined"
   ],
   "note": "For every syntax tree, position and text that syn may deliver (parameter Syn) and every read result. Panics are the files without meaning, C45 says which."
  },
  {
   "property": "C81",
   "status": "proved",
   "theorems": [
    "Reqtrace.C81_file",
    "Reqtrace.C81_determined"
   ],
   "note": "FileMeans in Spec/Files.lean, built from the format specifications (Markdown, mono requirement, Rust, JSON) and not from the parsers. The text of the serde_json error and the syn result are parameters."
  },
  {
   "property": "C82",
   "status": "proved",
   "theorems": [
    "Reqtrace.C82_controller",
    "Reqtrace.C82_determined",
    "Reqtrace.C82_none_iff",
    "Reqtrace.C82_no_meaning"
   ],
   "note": "IsInput in Spec/Whole.lean. Globbing is a parameter."
  },
  {
   "property": "C83",
   "status": "proved",
   "theorems": [
    "Reqtrace.C83_parent",
    "Reqtrace.C83_no_parent",
    "Reqtrace.C83_ancestors"
   ],
   "note": "Spec/Path.lean describes paths as texts (Unix). `Parent` and `Parents` do not use the functions of the model."
  },
  {
   "property": "C84",
   "status": "proved",
   "theorems": [
    "Reqtrace.C84_program",
    "Reqtrace.C84_determined"
   ],
   "note": "`ProgramEnds` is an independent relation in Spec/Run.lean; `C84_determined` shows that it determines the outcome. The texts of the reports are those of C85."
  },
  {
   "property": "C85",
   "status": "proved",
   "theorems": [
    "Reqtrace.C85_report",
    "Reqtrace.C85_determined",
    "Reqtrace.C85_tags",
    "Reqtrace.C85_gnu",
    "Reqtrace.C85_list",
    "Reqtrace.C85_markdown",
    "Reqtrace.C85_export",
    "Reqtrace.C85_json"
   ],
   "note": "`Report` in Spec/Output.lean is an independent relation between the graph and the text. What remains open (parameters in `FmtEnv`): lower case of letters, which characters `Debug` shows unescaped, the order of exported errors with equal text."
  },
  {
   "property": "C86",
   "status": "proved",
   "theorems": [
    "Reqtrace.C86_encode",
    "Reqtrace.C86_string",
    "Reqtrace.C86_decode",
    "Reqtrace.C86_invalid"
   ],
   "note": "Against `String.utf8EncodeChar` and `ByteArray.IsValidUTF8` of Lean's library."
  },
  {
   "property": "C87",
   "status": "proved",
   "theorems": [
    "Reqtrace.C87_location"
   ],
   "note": "`LocationText` and `Count` in Spec/Location.lean are independent relations."
  },
  {
   "property": "C88",
   "status": "proved",
   "theorems": [
    "Reqtrace.C88_same_input",
    "Reqtrace.C88_rerun"
   ],
   "note": "Reliable, SameInput, SameEffect and OutputsApart are in Spec/Rerun.lean."
  },
  {
   "property": "C89",
   "status": "proved",
   "theorems": [
    "Reqtrace.C89_order"
   ],
   "note": "For every c: `Controller::new` returns c for the one configuration iff it does for the other."
  },
  {
   "property": "C90",
   "status": "proved",
   "theorems": [
    "Reqtrace.C90_unrelated",
    "Reqtrace.C90_config"
   ],
   "note": "AddsArtefact and Isolated are in Spec/Project.lean; the errors are compared as a set, since the new ones stand between the old ones."
  },
  {
   "property": "C91",
   "status": "partial",
   "theorems": [
    "Reqtrace.C91_ids_partial",
    "Reqtrace.C91_file_partial",
    "Reqtrace.C91_false"
   ],
   "note": "False as listed: the id of a mono-requirement is the stem of the file name, JSON and Rust ids are not checked, ids right after `Covers:` and `Depends:` are not checked. Proved: ids of requirements of Markdown artefacts and references of mono-requirement artefacts have the form; in a Markdown file all ids have it if those right after `Covers:` and `Depends:` do; in a mono-requirement file exactly if the stem does."
  },
  {
   "property": "C92",
   "status": "partial",
   "theorems": [
    "Reqtrace.C92_file_partial",
    "Reqtrace.C92_false"
   ],
   "note": "False as listed: only UTF-8 is accepted. Proved exactly what happens to other files: a read error at the file for Markdown and Rust and in no other case, no requirements for Rust, a format error for JSON, and no normal return for mono-requirements."
  },
  {
   "property": "C93",
   "status": "partial",
   "theorems": [
    "Reqtrace.C93_normalised_partial",
    "Reqtrace.C93_exact_partial",
    "Reqtrace.C93_false"
   ],
   "note": "False as listed: ids are compared code point by code point; é in one and in two code points do not match. Proved for ids that are normalised already; `C93_exact_partial` says for all ids what coverage is instead: a reference in one direction or the other which is the id, code point by code point."
  },
  {
   "property": "C94",
   "status": "partial",
   "theorems": [
    "Reqtrace.C94_no_headings_partial",
    "Reqtrace.C94_heading_loses",
    "Reqtrace.C94_false"
   ],
   "note": "False: the heading inside of the description ends the section, and because another requirement does not follow, the requirement is lost without an error, with all tables and paths. Proved that it is read as documented without the two headings that start no requirement."
  },
  {
   "property": "C95",
   "status": "partial",
   "theorems": [
    "Reqtrace.C95_no_tags_partial",
    "Reqtrace.C95_false"
   ],
   "note": "False: tags stay the text of an attribute. Proved that Markdown, mono-requirement and Rust files never give tags; that the text is kept is C76."
  },
  {
   "property": "C96",
   "status": "proved",
   "theorems": [
    "Reqtrace.C96_requirements",
    "Reqtrace.C96_trace"
   ],
   "note": "`JsonText.Document` is the grammar of JSON in Spec/Json.lean."
  },
  {
   "property": "C97",
   "status": "partial",
   "theorems": [
    "Reqtrace.C97_array_partial",
    "Reqtrace.C97_object_rejected",
    "Reqtrace.C97_false"
   ],
   "note": "False: no object is accepted, whatever its members. Proved that the list alone is accepted."
  },
  {
   "property": "C98",
   "status": "proved",
   "theorems": [
    "Reqtrace.C98_derived"
   ],
   "note": ""
  },
  {
   "property": "C99",
   "status": "partial",
   "theorems": [
    "Reqtrace.C99_consumed_partial",
    "Reqtrace.C99_listed_partial",
    "Reqtrace.C99_false"
   ],
   "note": "False as listed: of two entries with the same id the files of the first are read but not listed. Proved for different ids, and exactly which files are listed: those of the last entry for each id (if the files of all artefacts can be told). The configuration file is not listed either."
  }
 ]
}