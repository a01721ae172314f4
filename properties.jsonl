{"id": "C01", "title": "Coverage is reported exactly where a reference establishes it", "statement": "In the result of `trace(graph)`, the `covered` list of the i-th traced relation contains a coverage (upper id, lower id, location, Downwards) iff some requirement U of the relation's upper artefact has a `depends` reference to that lower id at that location and one of the relation's lower artefacts is the owner of a requirement with that id; and contains (.., Upwards) iff a requirement L owned by one of the lower artefacts has a `covers` reference to the id of a requirement of the upper artefact at that location. (An artefact owns the requirement ids that no artefact with a smaller id defines.) Nothing is invented, nothing is missed, for every relation.", "quantifier": "every graph whose maps are keyed by the ids of their values, every relation of it, every coverage record", "why_tests_cant": "coverage must be exact for every combination of artefacts, references and relations; a test fixes one graph", "anchors": ["src/trace.rs::Tracer::trace_relation", "src/trace.rs::Tracer::add_artefact", "src/trace.rs::trace"]}
{"id": "C02", "title": "Uncovered is exactly the complement of covered", "statement": "For every traced relation, `uncovered` lists exactly the ids of the requirements of the upper artefact that are the upper end of no coverage in that relation's `covered` list, each once and in increasing id order.", "quantifier": "every graph on which trace returns, every traced relation, every requirement of the upper artefact", "why_tests_cant": "the partition must hold for every set of references including dangling, duplicated and self references", "anchors": ["src/trace.rs::Tracer::trace_relation"]}
{"id": "C03", "title": "Derived is exactly the set of owned requirements that cover nothing", "statement": "For every artefact A in the result of trace, `derived[A]` is, in increasing id order, empty if A ignores derived requirements, and otherwise exactly the requirement ids owned by A that are the lower end of no coverage of any relation.", "quantifier": "every graph on which trace returns, every artefact, every requirement id", "why_tests_cant": "depends on the interplay of all relations, both reference directions and duplicate ownership at once", "anchors": ["src/trace.rs::Tracer::add_artefact", "src/trace.rs::Tracer::trace_relation", "src/trace.rs::Tracer::data"]}
{"id": "C04", "title": "A dangling `covers` reference is reported, and only a dangling one", "statement": "trace reports CoversUnknownRequirement(req, upper id, location) iff req is an owned requirement with a `covers` reference to the upper id, no relation's covered list has an Upwards coverage for (upper id, req.id), and location is that of the first such reference; one error per dangling (upper id, req.id) pair.", "quantifier": "every graph on which trace returns, every requirement and reference", "why_tests_cant": "an error must appear for each possible dangling link and for no resolved one, across all relations of the graph", "anchors": ["src/trace.rs::Tracer::validate_upwards", "src/trace.rs::Tracer::trace_relation"]}
{"id": "C05", "title": "A dangling `depends` reference is reported, and only a dangling one", "statement": "trace reports DependOnUnknownRequirement(req, lower id, location) iff req is an owned requirement with a `depends` reference to the lower id, no relation's covered list has a Downwards coverage for (req.id, lower id), and location is that of the first such reference; one error per dangling pair.", "quantifier": "every graph on which trace returns, every requirement and reference", "why_tests_cant": "an error must appear for each possible dangling link and for no resolved one, across all relations of the graph", "anchors": ["src/trace.rs::Tracer::validate_downwards", "src/trace.rs::Tracer::trace_relation"]}
{"id": "C06", "title": "A wrong title in a resolved reference is always reported, a right one never", "statement": "trace reports CoveredWithWrongTitle (resp. DependWithWrongTitle) for exactly those references that establish an Upwards (resp. Downwards) coverage along some relation and carry a title different from the title of the referenced requirement (a referenced requirement without title differs from every title); the error names the two requirements, the wrong title and the location of the reference.", "quantifier": "every graph on which trace returns, every relation, every reference", "why_tests_cant": "title equality has to be checked for every reference in both directions", "anchors": ["src/trace.rs::Tracer::trace_relation"]}
{"id": "C07", "title": "Artefacts that require titles get every untitled reference reported", "statement": "trace reports ReferencedWithoutTitle(referenced, location) for exactly those references without title that establish a coverage along some relation and whose referenced requirement lives in an artefact with reference_with_title: the upper artefact for `covers` references and the lower one for `depends` references.", "quantifier": "every graph on which trace returns, every relation, every reference", "why_tests_cant": "must hold for every mix of title policies on both sides of a relation", "anchors": ["src/trace.rs::Tracer::trace_relation"]}
{"id": "C08", "title": "An id defined in two artefacts is always reported", "statement": "trace reports DuplicateRequirement(first, again) exactly once for each requirement whose id is already owned by an artefact with a smaller id, naming the owned definition first; it reports none iff requirement ids are unique across the graph.", "quantifier": "every graph on which trace returns", "why_tests_cant": "uniqueness is a global property of all artefacts", "anchors": ["src/trace.rs::Tracer::add_artefact"]}
{"id": "C09", "title": "A relation along which nothing is covered is reported", "statement": "trace reports UnusedRelation(rel) exactly for the relations of the graph whose covered list is empty (counted with multiplicity).", "quantifier": "every graph on which trace returns", "why_tests_cant": "must hold for each possible graph, including empty upper artefacts and empty lower lists", "anchors": ["src/trace.rs::Tracer::trace_relation"]}
{"id": "C10", "title": "Tracing never panics on a graph whose relations name existing artefacts", "statement": "trace(graph) returns for every graph in which each relation's upper and lower ids are artefacts of the graph: none of the index, expect, unwrap or panic sites in the tracer is reachable. If some relation's upper id is unknown it panics.", "quantifier": "every graph keyed by ids, including duplicate requirement ids, self relations, repeated relations and repeated lower artefacts", "why_tests_cant": "absence of a panic on every input cannot be sampled", "anchors": ["src/trace.rs::Tracer::new", "src/trace.rs::Tracer::trace_relation", "src/trace.rs::Tracer::validate_upwards", "src/trace.rs::Tracer::validate_downwards"]}
{"id": "C11", "title": "Tracing keeps the input: same artefacts, same relations, same order", "statement": "The traced graph has exactly the artefacts of the graph, one derived list per artefact, and exactly one traced relation per relation of the graph in the same order.", "quantifier": "every graph on which trace returns", "why_tests_cant": "frame property over all graphs", "anchors": ["src/trace.rs::Tracer::data", "src/trace.rs::Tracer::trace_relation"]}
{"id": "C12", "title": "Relations are independent and their order does not matter", "statement": "The covered and uncovered lists of a relation depend only on the artefacts and that relation. Reordering the relations of a graph reorders the traced relations alike, leaves every derived list unchanged and yields the same multiset of errors.", "quantifier": "every graph on which trace returns, every permutation of its relations", "why_tests_cant": "quantifies over all permutations", "anchors": ["src/trace.rs::Tracer::new", "src/trace.rs::Tracer::trace_relation"]}
{"id": "C13", "title": "Adding a relation never makes tracing of references worse", "statement": "Appending relations to a graph never adds a derived requirement to any artefact and never adds a CoversUnknownRequirement or DependOnUnknownRequirement error; all traced relations that were there stay as they were.", "quantifier": "every graph, every list of additional relations on which trace still returns", "why_tests_cant": "monotonicity over all extensions", "anchors": ["src/trace.rs::Tracer::trace_relation", "src/trace.rs::Tracer::validate"]}
{"id": "C14", "title": "Cross-referencing a traced graph never panics", "statement": "AggregatedGraph::new(trace(graph)) returns for every graph on which trace returns: every unwrap and index in it succeeds.", "quantifier": "every graph keyed by ids on which trace returns", "why_tests_cant": "panic freedom on every graph, including duplicate ids and repeated relations", "anchors": ["src/aggregator.rs::AggregatedGraph::new"]}
{"id": "C15", "title": "Cross references are exactly the coverages, in both directions", "statement": "For each requirement id r of the graph and relation rel, the aggregated `depends[rel]` of r has an entry iff r is in rel.upper and its list is exactly the (lower requirement, location) pairs of rel's coverages with upper = r; `covers[rel]` of r has an entry iff r is in one of rel.lower and its list is exactly the (upper requirement, location) pairs with lower = r. So l appears below u at a location iff u appears above l at that location.", "quantifier": "every graph on which trace returns, every relation and requirement id", "why_tests_cant": "inverse-relation property over all graphs", "anchors": ["src/aggregator.rs::AggregatedGraph::new", "src/aggregator.rs::RequirementTrace"]}
{"id": "C16", "title": "The traceability matrix agrees with the uncovered list", "statement": "In the aggregated graph of trace(graph), requirement r of relation rel's upper artefact has an empty list below it along rel iff r is in the uncovered list of rel; and r has no entry above it along any relation iff no coverage has lower = r.", "quantifier": "every graph on which trace returns", "why_tests_cant": "agreement of two independently computed views, for all graphs", "anchors": ["src/aggregator.rs::AggregatedGraph::new", "src/formatters/markdown.rs::traced_requirement", "src/trace.rs::Tracer::trace_relation"]}
{"id": "C17", "title": "No parsed requirement vanishes silently inside an artefact", "statement": "parse_from_config keeps, for each id, the first parsed requirement with that id, and adds one DuplicateRequirement(kept, dropped) error per further one, after the parser's errors and in order; so every parsed requirement is either in the map or named by an error.", "quantifier": "every artefact configuration and every list of requirements a parser can return", "why_tests_cant": "list-wide property for arbitrary duplicates", "anchors": ["src/controller.rs::parse_from_config"]}
{"id": "C18", "title": "The controller builds a consistent graph", "statement": "If Controller::new returns, the graph's artefacts are keyed by their ids, each artefact's requirements by their ids, every relation names existing artefacts, so tracing and reporting cannot panic on it.", "quantifier": "every configuration and every content of the file system", "why_tests_cant": "invariant needed for all configurations", "anchors": ["src/controller.rs::Controller::new", "src/controller.rs::parse_from_config"]}
{"id": "C19", "title": "Default of ignore_derived_requirements is 'is a root artefact'", "statement": "An artefact configured without ignore_derived_requirements ignores derived requirements iff no relation lists it as lower; a configured value always wins.", "quantifier": "every configuration", "why_tests_cant": "depends on all relations of the configuration", "anchors": ["src/controller.rs::Controller::new"]}
{"id": "C20", "title": "An artefact that requires titles reports each of its own untitled requirements", "statement": "If reference_with_title is set, the artefact's errors contain RequirementWithoutTitle(r) exactly for its requirements without title (each once, appended in id order); otherwise the check adds nothing.", "quantifier": "every configuration and file content", "why_tests_cant": "for every requirement of every artefact", "anchors": ["src/controller.rs::Controller::new"]}
{"id": "C21", "title": "A relation naming an unknown artefact is never accepted, and is reported with exit code 2", "statement": "Controller::new does not return a controller if a relation names an artefact that is not configured; the process then ends with exit code 2 as documented in DSG_CLI_RETURN_CODE.", "quantifier": "every configuration", "why_tests_cant": "every position of the unknown name in every configuration", "anchors": ["src/controller.rs::Controller::new", "src/main.rs::main_rc", "doc/requirements/DESIGN.md::DSG_CLI_RETURN_CODE"]}
{"id": "C22", "title": "Every configured artefact takes part in the trace", "statement": "For every entry of config.artefacts, the graph contains an artefact with the requirements and errors parsed for that entry (two entries with the same id are reported, not dropped).", "quantifier": "every configuration", "why_tests_cant": "all configurations, including repeated ids", "anchors": ["src/controller.rs::Controller::new", "src/models.rs::Error::DuplicateArtefact"]}
{"id": "C23", "title": "The verdict of a job is exact", "statement": "A Trace job that writes its output detects errors iff there is a tracing error, an artefact with a parse error, a relation with an uncovered requirement or an artefact with a derived requirement; a Parse job iff some artefact has a parse error.", "quantifier": "every controller state and job", "why_tests_cant": "disjunction over unbounded collections", "anchors": ["src/controller.rs::Controller::run"]}
{"id": "C24", "title": "The result of running jobs reflects exactly the jobs that may set the return code", "statement": "If all jobs run, run_jobs_by_name returns ErrorsDetected iff some requested job whose set_return_code is not false detected errors, independent of order and repetition of the jobs.", "quantifier": "every controller, every list of job names", "why_tests_cant": "for every sequence of jobs", "anchors": ["src/controller.rs::Controller::run_jobs", "src/controller.rs::Controller::run_jobs_by_name"]}
{"id": "C25", "title": "An unknown job name prevents every job from running", "statement": "If any requested name is not a configured job, run_jobs_by_name returns UnknownJob of the first unknown name and no output is written and no directory created.", "quantifier": "every controller, every list of names, every position of the unknown one", "why_tests_cant": "for every list and position", "anchors": ["src/controller.rs::Controller::run_jobs_by_name"]}
{"id": "C26", "title": "Jobs run in order and stop at the first fatal error", "statement": "If a job fails with an I/O error, its error is the result, the jobs before it have had all their effects, and no later job has any effect.", "quantifier": "every controller, list of jobs and failure position of the file system", "why_tests_cant": "every crash point", "anchors": ["src/controller.rs::Controller::run_jobs", "src/controller.rs::Controller::run"]}
{"id": "C27", "title": "A job writes only to its own output", "statement": "Running a job with file '-' leaves the file system unchanged; any other job changes the content of no file but the configured one (relative names are taken below the base directory) and creates no directories but its parents.", "quantifier": "every controller, job, file-system state and failure", "why_tests_cant": "frame property over all files", "anchors": ["src/controller.rs::Controller::run"]}
{"id": "C28", "title": "Exit code contract", "statement": "The process exits with 0 iff the requested jobs all ran and none that sets the return code detected errors, 1 iff they all ran and one did, and 2 for an unreadable or invalid configuration file, an unknown configuration version, missing default jobs, an unknown job and an I/O error of a job.", "quantifier": "every command line, configuration and file-system content", "why_tests_cant": "total case analysis over all runs", "anchors": ["src/main.rs::main_rc", "src/main.rs::get_config", "src/main.rs::run_cli_jobs", "src/controller.rs::Controller::run_default_jobs"]}
{"id": "C29", "title": "A successful Trace job implies a successful Parse job", "statement": "If a Trace job of a controller succeeds then every Parse job of it whose output can be written succeeds: Trace never hides a parse error.", "quantifier": "every configuration and file content, all pairs of jobs", "why_tests_cant": "implication between two modes over all states", "anchors": ["src/controller.rs::Controller::run"]}
{"id": "C30", "title": "The Markdown parser never panics", "statement": "parsers::markdown::parse returns for every input text and every read failure.", "quantifier": "every byte sequence that a reader can deliver, every point of read failure", "why_tests_cant": "all inputs", "anchors": ["src/parsers/markdown.rs::parse", "src/parsers/markdown.rs::parse_states", "src/parsers/markdown.rs::commit_attr", "src/parsers/markdown.rs::commit_link_attr"]}
{"id": "C31", "title": "Every requirement heading becomes a requirement", "statement": "For every text without read failure, the parsed requirements are, in order, exactly the lines of the form `#.. ID: Title`, with that id and title and the line number of the heading as location.", "quantifier": "every text", "why_tests_cant": "all texts", "anchors": ["src/parsers/markdown.rs::parse", "src/parsers/markdown.rs::add_req", "src/parsers/markdown.rs::parse_state_eof"]}
{"id": "C32", "title": "Requirements only come from requirement headings, in order, at their line", "statement": "Each parsed requirement's id, title and line are those of a requirement heading line of the text, in the same order without repetition, and at most the last heading's requirement is missing.", "quantifier": "every text and every read failure", "why_tests_cant": "all texts", "anchors": ["src/parsers/markdown.rs::parse", "src/parsers/markdown.rs::add_req", "src/parsers/markdown.rs::maybe_commit_req"]}
{"id": "C33", "title": "Requirement ids and titles from Markdown headings are well formed", "statement": "Each requirement parsed from Markdown has an id of at least two characters matching XID_Start XID_Continue+ and a non-empty title without line breaks and without leading or trailing white space.", "quantifier": "every text", "why_tests_cant": "all texts, all of Unicode", "anchors": ["src/parsers/markdown.rs::REQUIREMENT_LINE", "src/parsers/markdown.rs::add_req"]}
{"id": "C34", "title": "Sections are parsed independently: an error never spreads past the next requirement heading", "statement": "If a text is a prefix (of whole lines) followed by a text starting with a requirement heading, then the requirements and errors of the second part are those of parsing it alone, shifted by the number of lines of the prefix, whatever the prefix contains; they come after those of the prefix.", "quantifier": "every pair of texts", "why_tests_cant": "all prefixes, including malformed ones", "anchors": ["src/parsers/markdown.rs::parse_state_req", "src/parsers/markdown.rs::add_req"]}
{"id": "C35", "title": "Text before the first requirement heading is ignored", "statement": "Lines before the first requirement heading contribute neither requirements nor errors; a text without requirement heading yields nothing.", "quantifier": "every text", "why_tests_cant": "all texts", "anchors": ["src/parsers/markdown.rs::parse_state_line", "src/parsers/markdown.rs::parse_state_heading", "src/parsers/markdown.rs::parse_state_empty"]}
{"id": "C36", "title": "Each parse error and reference points at the line that caused it", "statement": "Every location in the result of parsing Markdown text names the parsed file and a line number between 1 and the number of lines; each reference's id occurs in the line its location names and each requirement's id in its line.", "quantifier": "every text", "why_tests_cant": "all texts", "anchors": ["src/parsers/markdown.rs::Context::location", "src/parsers/markdown.rs::parse_link_attr", "src/parsers/markdown.rs::parse_state_line"]}
{"id": "C37", "title": "A canonical requirement document parses back to the requirements it was written from", "statement": "Writing any list of requirements as Markdown (heading `## ID: Title`, a one-paragraph description, a long list of Covers and Depends references with optional titles, text attributes) and parsing the text yields exactly these ids, titles, references, attributes and no error, with locations at the right lines.", "quantifier": "every list of requirements whose ids, titles and attributes are in the documented format", "why_tests_cant": "round trip over unbounded documents", "anchors": ["src/parsers/markdown.rs::parse", "doc/requirements/FORMATS.md::FMT_MD_ATTRIBUTES"]}
{"id": "C38", "title": "Description text is kept completely", "statement": "The Description attribute of a requirement contains every line of the paragraphs between its heading and its first attribute, as promised by FMT_MD_DESC.", "quantifier": "every text", "why_tests_cant": "all texts", "anchors": ["src/parsers/markdown.rs::parse_state_line", "doc/requirements/FORMATS.md::FMT_MD_DESC"]}
{"id": "C39", "title": "A repeated attribute is reported", "statement": "When an attribute paragraph starts whose name already has a non-empty value in the current requirement, a DuplicateAttribute error with the line, the name and the requirement's id is reported; without repetition none is.", "quantifier": "every text", "why_tests_cant": "all texts", "anchors": ["src/parsers/markdown.rs::start_attribute"]}
{"id": "C40", "title": "Malformed lines in attribute sections are reported, not skipped silently", "statement": "A non-blank line that is neither a reference nor an attribute start right after a reference list yields exactly one Format error at its line, and after it everything up to the next requirement heading is ignored without further errors.", "quantifier": "every text", "why_tests_cant": "all texts", "anchors": ["src/parsers/markdown.rs::parse_state_line"]}
{"id": "C41", "title": "Line ending style does not change what is parsed", "statement": "A text and the same text with CR LF line ends give the same requirements (ids, titles, references) and errors.", "quantifier": "every text without carriage returns", "why_tests_cant": "all texts", "anchors": ["src/parsers/markdown.rs::parse"]}
{"id": "C42", "title": "A mono-requirement file gives exactly one requirement", "statement": "parsers::monoreq::parse returns, for every readable text, exactly one requirement with the file stem as id, the first line as title, no covers, and as depends exactly one reference for each later line ending in `=> ID` or `=> ID: title`, in order, with its line number.", "quantifier": "every text and path", "why_tests_cant": "all texts", "anchors": ["src/parsers/monoreq.rs::parse", "src/parsers/monoreq.rs::REF_LINK_LINE"]}
{"id": "C43", "title": "Every coverage mark in Rust code becomes exactly one reference or one error", "statement": "For every syntax tree in which all coverage marks are inside an item, visiting it yields one `covers` reference per well-formed requirement_covered! mark, in source order, with the mark's id, title and position, and one Format error per malformed mark.", "quantifier": "every syntax tree", "why_tests_cant": "all trees", "anchors": ["src/parsers/rust.rs::Parser::parse_macro", "src/parsers/rust.rs::parse"]}
{"id": "C44", "title": "A coverage mark is attributed to the path of its enclosing items", "statement": "Each reference from Rust code belongs to a requirement whose id is the names of the enclosing mod/impl/trait/fn items joined by '::', located at the innermost enclosing item; leaving an item restores the surrounding path.", "quantifier": "every syntax tree", "why_tests_cant": "all nestings", "anchors": ["src/parsers/rust.rs::Parser::visit_item_fn", "src/parsers/rust.rs::Parser::visit_item_impl", "src/parsers/rust.rs::Parser::parse_macro"]}
{"id": "C45", "title": "The Rust parser never panics", "statement": "Visiting any syntax tree returns.", "quantifier": "every syntax tree", "why_tests_cant": "all trees", "anchors": ["src/parsers/rust.rs::Parser::parse_macro"]}
{"id": "C46", "title": "Coverage marks of Rust code are not lost on the way into the artefact", "statement": "Every reference found by the Rust parser in a file is a `covers` reference of some requirement of the artefact built from that file.", "quantifier": "every syntax tree", "why_tests_cant": "all trees", "anchors": ["src/parsers/rust.rs::Parser::parse_macro", "src/controller.rs::parse_from_config"]}
{"id": "C47", "title": "Location text round trip", "statement": "Location::parse(loc.to_string()) = loc for every location without position or with line or line and column, whose file name is non-empty, contains no line break and does not itself end in a colon and digits.", "quantifier": "every file name and every number that fits usize", "why_tests_cant": "all strings and numbers", "anchors": ["src/models.rs::Location::parse", "src/models.rs::Location::fmt", "src/models.rs::LOCATION_RE"]}
{"id": "C48", "title": "Location::parse never panics and keeps all text", "statement": "Location::parse returns for every string; when it is Ok, the file, line and column re-assemble to the given string up to leading zeros of the numbers, and the rightmost number fields are the position.", "quantifier": "every string", "why_tests_cant": "all strings", "anchors": ["src/models.rs::Location::parse"]}
{"id": "C49", "title": "Comparison of positions in a file is a lawful partial order", "statement": "partial_cmp on LocationInFile is reversed when its arguments are swapped, transitive, and Equal exactly for equal positions.", "quantifier": "all positions", "why_tests_cant": "all pairs and triples", "anchors": ["src/models.rs::LocationInFile::partial_cmp"]}
{"id": "C50", "title": "The tags file is sorted and complete", "statement": "The ctags output is four header lines followed by exactly one line `id TAB file TAB line;\" TAB r` per requirement that has a line position, sorted as strings.", "quantifier": "every graph", "why_tests_cant": "all graphs", "anchors": ["src/formatters/tags.rs::requirements"]}
{"id": "C51", "title": "The JSON export is complete and sorted", "statement": "The exported requirement list is a permutation of all requirements of all artefacts, in increasing id order, equal ids in artefact order; the error list is a permutation of all artefacts' errors sorted by their text.", "quantifier": "every graph", "why_tests_cant": "all graphs", "anchors": ["src/formatters/serialize.rs::Requirements::new", "src/formatters/mod.rs::requirements"]}
{"id": "C52", "title": "JSON requirements can be imported again", "statement": "A JSON export of requirements can be used as a Json artefact again (FMT_IMPORT_JSON) and gives the same requirements.", "quantifier": "every graph", "why_tests_cant": "round trip over all graphs", "anchors": ["src/formatters/serialize.rs::Requirements", "src/controller.rs::parse_single_file", "doc/requirements/FORMATS.md::FMT_IMPORT_JSON"]}
{"id": "C53", "title": "Reports never panic on a traced graph", "statement": "Writing the GNU-error report and the Markdown report of trace(graph) returns for every graph on which trace returns.", "quantifier": "every graph", "why_tests_cant": "all graphs", "anchors": ["src/formatters/gnuerr.rs::tracing", "src/formatters/markdown.rs::tracing"]}
{"id": "C54", "title": "The reports mention every problem", "statement": "The Markdown report and the GNU-error report of trace(graph) contain, for each artefact error, tracing error, uncovered and derived requirement, the text for it; the Markdown report writes each tracing error text once and has each problem section iff there is a problem of its kind.", "quantifier": "every graph", "why_tests_cant": "all graphs and all problems", "anchors": ["src/formatters/gnuerr.rs::tracing", "src/formatters/markdown.rs::tracing"]}
{"id": "C55", "title": "Duplicate requirement reports name the first definition as first", "statement": "In the text for DuplicateRequirement, the location given as first seen is that of the definition that was kept, and the other one that of the dropped one, in both report formats.", "quantifier": "every pair of requirements", "why_tests_cant": "all pairs", "anchors": ["src/formatters/markdown.rs::err", "src/formatters/gnuerr.rs::errors"]}
{"id": "C56", "title": "Links to requirements are valid anchors", "statement": "The anchor in a Markdown link to a requirement consists only of ASCII letters, digits, '_' and '-', and two mentions of the same requirement have the same anchor.", "quantifier": "every requirement", "why_tests_cant": "all of Unicode", "anchors": ["src/formatters/markdown.rs::requirement_link"]}
{"id": "C57", "title": "Unsupported combinations of query and format are rejected before the output is touched", "statement": "A job whose format is not available for its query (Trace with Tags or a template, Parse with GnuError or a template) is reported as an error and leaves existing output untouched.", "quantifier": "every job", "why_tests_cant": "every job and file-system state", "anchors": ["src/controller.rs::Controller::run", "src/formatters/mod.rs::requirements", "src/formatters/mod.rs::tracing"]}
{"id": "C58", "title": "A missing or unreadable input file is an artefact error and nothing else is lost", "statement": "If an input file of an artefact cannot be opened, the artefact has an Io error naming the path, and all requirements of the artefact's other files and of other artefacts are as without the failure.", "quantifier": "every configuration and every set of unreadable files", "why_tests_cant": "every failure point", "anchors": ["src/controller.rs::parse_single_file", "src/controller.rs::parse_multiple_files"]}
{"id": "C59", "title": "Tracing and cross-referencing never panic when relations name existing artefacts", "statement": "If every relation of the graph names existing artefacts, trace(graph) returns and AggregatedGraph::new of its result returns.", "quantifier": "every graph keyed by ids whose relations name existing artefacts, including duplicate ids, repeated and self relations", "why_tests_cant": "panic freedom over all graphs; six unwrap/index sites", "anchors": ["src/aggregator.rs::AggregatedGraph::new", "src/trace.rs::trace"]}
{"id": "C60", "title": "The mono-requirement title is the documented one", "statement": "The title of the requirement parsed from a mono-requirement file is the first line containing word characters, without the non-word characters at both ends, as promised by FMT_IMPORT_MONO_REQ.", "quantifier": "every text", "why_tests_cant": "all texts", "anchors": ["src/parsers/monoreq.rs::parse", "doc/requirements/FORMATS.md::FMT_IMPORT_MONO_REQ"]}
{"id": "C61", "title": "Every arrow in a mono-requirement file is a reference", "statement": "Every requirement id that immediately follows a fat arrow `=>` in a mono-requirement file is a depends reference with the number of its line, as promised by FMT_IMPORT_MONO_REQ.", "quantifier": "every text", "why_tests_cant": "all texts and all places of arrows", "anchors": ["src/parsers/monoreq.rs::parse", "src/parsers/monoreq.rs::REF_LINK_LINE"]}
{"id": "C62", "title": "A read failure does not crash the mono-requirement parser", "statement": "parsers::monoreq::parse returns for every text and every read failure.", "quantifier": "every text, every point of failure", "why_tests_cant": "read errors are not produced by tests", "anchors": ["src/parsers/monoreq.rs::parse"]}
{"id": "C63", "title": "Links lead to the section of the requirement", "statement": "The anchor in a Markdown link to a requirement is the anchor that a Markdown viewer (GitHub's rule: lower case, only letters, digits, '_', '-' and spaces, spaces become '-') gives the heading of the requirement's section in the report.", "quantifier": "every requirement", "why_tests_cant": "all of Unicode", "anchors": ["src/formatters/markdown.rs::requirement_link", "src/formatters/markdown.rs::traced_requirement"]}
{"id": "C64", "title": "Links to different requirements are different", "statement": "Two requirements with different ids have different anchors in Markdown links.", "quantifier": "every pair of requirements", "why_tests_cant": "all pairs", "anchors": ["src/formatters/markdown.rs::requirement_link"]}
{"id": "C65", "title": "JSON exports lose nothing", "statement": "Two traces with the same JSON export are equal (artefacts, requirements, relations, coverages, uncovered and derived requirements, errors), and two parses with the same JSON export have the same requirements and the same errors.", "quantifier": "every pair of graphs", "why_tests_cant": "all pairs of graphs, all strings that need escaping", "anchors": ["src/formatters/serialize.rs::Trace", "src/formatters/serialize.rs::Requirements", "src/formatters/mod.rs::tracing"]}
{"id": "C66", "title": "A job leaves exactly its output", "statement": "After a job has run, its output file contains exactly what its formatter wrote, whatever the file contained before; after several jobs each file contains the output of the last job that writes to it, and the standard output has the outputs of the jobs with file '-' in order. If a job fails, its file is as before or contains a beginning of its output.", "quantifier": "every controller, list of jobs, file-system state and failure", "why_tests_cant": "for every earlier content, every sequence of jobs and every failure position", "anchors": ["src/controller.rs::Controller::run", "src/controller.rs::Controller::run_jobs"]}
{"id": "C67", "title": "The result of tracing is exactly determined", "statement": "Tracing reports, in this order and each as often as it occurs: ids defined again; for each relation the wrong or missing titles in the order of its coverages and whether it is unused; covers references and then depends references that lead along no relation to a requirement. There is no error exactly if ids are unique across artefacts, every relation is used, every reference leads along a relation to a requirement, and every title is right (or absent where this is allowed). Nothing is uncovered exactly if every requirement of the upper artefact of each relation is covered along it, and nothing is derived exactly if every requirement of an artefact that does not ignore derived requirements covers something.", "quantifier": "every graph", "why_tests_cant": "both directions for all graphs: no fault is overlooked and no fault is invented", "anchors": ["src/trace.rs::Tracer::trace", "src/trace.rs::Tracer::validate_upwards", "src/trace.rs::Tracer::validate_downwards"]}
{"id": "C68", "title": "No problem with the input is silent", "statement": "An artefact has no errors exactly if its files can be told from its configuration (one path; for Rust at least one pattern, all of which can be searched), each file could be opened, read to the end and decoded as UTF-8, the parser had nothing to complain about, the ids are all different and titles are present where the configuration asks for them; and then it contains exactly the requirements in these files. A file that cannot be opened, read or decoded gives an error that names this file.", "quantifier": "every configuration, file-system state and failure", "why_tests_cant": "all combinations of contents and failures", "anchors": ["src/controller.rs::parse_from_config", "src/controller.rs::parse_single_file", "src/controller.rs::parse_multiple_files", "src/controller.rs::glob_paths"]}
{"id": "C69", "title": "The listed files are the input", "statement": "The files listed for an artefact are exactly the files it consists of, in the order of patterns and matches, relative paths being below the base directory. If another state of the file system has the same matches and the same contents of the listed files, then requirements, errors and tracing are the same there (artefact ids being distinct): a build system may rely on the list (REQ_CACHE_FRIENDLY).", "quantifier": "every configuration and pair of file-system states", "why_tests_cant": "all pairs of file-system states", "anchors": ["src/controller.rs::Controller::new", "src/controller.rs::glob_paths", "doc/requirements/REQUIREMENTS.md::REQ_CACHE_FRIENDLY"]}
{"id": "C70", "title": "A Markdown file that breaks off", "statement": "If reading a Markdown file fails, or a line is not UTF-8, an Io error with the path is reported after the errors of the lines before. The requirements are the first ones of those of the complete file, unchanged; of the requirement headings before the failure only the last has no requirement.", "quantifier": "every text, every position of the failure", "why_tests_cant": "all texts and positions", "anchors": ["src/parsers/markdown.rs::parse"]}
{"id": "C71", "title": "The report says everything about each requirement", "statement": "If no id is defined twice, the Markdown report of a trace has for each requirement of each artefact, in this order, a section with its id and title, origin, description, all other attributes that are not blank, for each relation (once, in order) to an upper artefact everything it covers and for each relation to lower artefacts everything that covers it, each with a link and the place of every establishing reference; it says UNCOVERED for exactly the relations along which the trace counts it as uncovered, and Derived exactly if nothing is above it, which for artefacts that do not ignore derived requirements is if the trace counts it as derived. The lists of uncovered and derived requirements link to these requirements.", "quantifier": "every graph with unique ids and existing relations", "why_tests_cant": "complete text for all graphs", "anchors": ["src/formatters/markdown.rs::traced_requirement", "src/formatters/markdown.rs::tracing", "src/aggregator.rs::aggregate"]}
{"id": "C72", "title": "The Markdown list of requirements is complete", "statement": "The Markdown list of requirements consists of the input errors of each artefact that has any and then of all requirements sorted by id (equal ids in artefact order), each with id, title, origin, description, covered and depended-on references with titles, and all other attributes that are not blank; nothing else.", "quantifier": "every graph", "why_tests_cant": "complete text for all graphs", "anchors": ["src/formatters/markdown.rs::requirements", "src/formatters/markdown.rs::requirement"]}
{"id": "C73", "title": "References only help", "statement": "If references are added to requirements and nothing else is removed, then all that was covered stays covered, no requirement becomes uncovered or derived, and tracing does not begin to panic.", "quantifier": "every pair of graphs where the second has at least the references of the first", "why_tests_cant": "all pairs of graphs", "anchors": ["src/trace.rs::trace"]}
{"id": "C74", "title": "Coverage depends on ids only", "statement": "Titles, locations, attributes, tags, repeated references and the order of references have no influence on which requirement is covered by which along which relation, which ones are uncovered, and which ones are derived.", "quantifier": "every pair of graphs with the same ids and referenced ids", "why_tests_cant": "all pairs of graphs", "anchors": ["src/trace.rs::trace"]}
{"id": "C75", "title": "A green run means a clean project", "statement": "A run that requests a Trace job which sets the return code exits with 0 exactly if the configuration can be read, all requested jobs run, every artefact (the last entry of each id) could be read completely and without complaint, ids are unique, every reference leads along a relation to an existing requirement with the right title, every relation is used, every requirement of an upper artefact is covered along each relation, and every requirement of an artefact that does not ignore derived requirements covers something.", "quantifier": "every configuration, command line, file-system state and failure", "why_tests_cant": "no overlooked fault in any project: both directions for all inputs", "anchors": ["src/main.rs::main", "src/controller.rs::Controller::run", "src/controller.rs::Controller::new", "src/trace.rs::trace"]}
{"id": "C76", "title": "What a Markdown document means", "statement": "A Markdown text that does not end in a lone character after the last line feed consists of lines before the first heading, and sections. Each section begins at a heading with an id, has the attributes that its lines spell (text, or lists of references) and is ended by the next heading, a line that does not fit, or the end. The result of the parser is exactly: the requirements of the sections with id, title and line of the heading, the last value given for each attribute and its references with their lines, except the last one if it is cut off by a line that does not fit or by a read failure, and one error, with line, for each repeated attribute and each line that cuts a section off, and one for the read failure.", "quantifier": "every text and every read failure", "why_tests_cant": "full semantics for all texts", "anchors": ["src/parsers/markdown.rs::parse", "src/parsers/markdown.rs::Context"]}
{"id": "C77", "title": "Which JSON artefact files are accepted, and what they mean", "statement": "A JSON artefact file is accepted exactly if it can be read to its end, is a JSON text as RFC 8259 defines it (nothing before or after the value but white space) and its value is an array of requirements: an object, or an array in field order, with id, optional title, location, covers, depends, tags and attributes, no known member twice, unknown members ignored, line and column numbers below 2^64. The requirements are then those of the array, in its order. Otherwise there is exactly one error and no requirement.", "quantifier": "every text and every read failure", "why_tests_cant": "full language of accepted texts", "anchors": ["src/controller.rs::Controller", "src/models.rs::Requirement", "src/models.rs::Location"]}
{"id": "C78", "title": "What the configuration file says", "statement": "A TOML document is taken as configuration exactly if its top table has artefacts and relations (and possibly version, jobs, default_jobs), each artefact has id, paths and a known parser, each relation upper and lower, each job query, format and file, all with values of the right kind, and no setting twice; the settings are then those in the document, in its order; and every configuration can be written as such a document. Otherwise the process reports an error and ends with 2.", "quantifier": "every document", "why_tests_cant": "all documents", "anchors": ["src/models.rs::Config", "src/models.rs::ArtefactConfig", "src/models.rs::Job", "src/models.rs::Format", "src/main.rs::get_config"]}
{"id": "C79", "title": "A misspelled setting is reported", "statement": "A name that is no setting (for example a misspelled one) in the configuration file, in an artefact, a relation or a job makes the configuration file invalid.", "quantifier": "every document and every name", "why_tests_cant": "all documents and names", "anchors": ["src/models.rs::Config", "src/models.rs::ArtefactConfig", "src/models.rs::Job", "src/models.rs::Relation"]}
{"id": "C80", "title": "The complete result for a Rust file", "statement": "The requirements and errors found in a Rust file are exactly: one input error if the file cannot be read; one error at the position of the mistake if it is no Rust; otherwise, in source order, one reference per well formed requirement_covered! mark, collected into one requirement per run of marks with the same path of enclosing items, and one error per malformed mark, at the mark or the offending argument and with the text that says what is wrong (no arguments, not an identifier, not a string, too many).", "quantifier": "every file, every syntax tree", "why_tests_cant": "all syntax trees", "anchors": ["src/parsers/rust.rs::parse", "src/parsers/rust.rs::Parser::parse_macro"]}
{"id": "C81", "title": "The complete result for an input file", "statement": "For every file and parser, the requirements and errors are exactly those that the format gives to the bytes of the file: for Markdown and mono requirements those of the lines before the first line that cannot be read (a failure of reading or invalid UTF-8), with that failure as the input error; for Rust those of the whole file or one input error; for JSON those of the document or exactly one error naming the file without a position.", "quantifier": "every file content, including contents that are no UTF-8 and files where reading fails at any byte, every parser", "why_tests_cant": "all byte sequences and failures", "anchors": ["src/parsers/markdown.rs::parse", "src/parsers/monoreq.rs::parse", "src/parsers/rust.rs::parse", "src/controller.rs::parse_single_file"]}
{"id": "C82", "title": "The graph is exactly what the configuration and the files mean", "statement": "The controller is created exactly if every relation names configured artefacts, every configured artefact has a meaning and tracing can end; its graph is then uniquely determined: the relations of the configuration, and for each id the artefact of the last entry with it, with the files, the first requirement of each id, and the errors in order (those of the files, with exact texts for a wrong number of paths and failing patterns; one per duplicate; one per requirement without title if titles are demanded).", "quantifier": "every configuration, file system and environment", "why_tests_cant": "all configurations and file systems", "anchors": ["src/controller.rs::Controller::new", "src/controller.rs::parse_from_config", "src/controller.rs::parse_single_file", "src/controller.rs::parse_multiple_files"]}
{"id": "C83", "title": "The parent directories of an output file", "statement": "The parent of a path is the path without its last component (that is: without trailing separators and `.` components, the last name, and the separators and `.` components before it); a path has no parent exactly if it has no component but the root; the directories created for an output file are exactly the chain of parents of its path, nearest first.", "quantifier": "every path text", "why_tests_cant": "infinitely many paths", "anchors": ["src/controller.rs::Controller::run"]}
{"id": "C84", "title": "The whole run of the program", "statement": "Exit code, standard output, standard error (apart from the log lines, which come before), files and directories after a run are exactly: code 2 and one message if the configuration cannot be read, is no configuration, has a version above 0, if no job is requested, if a requested job does not exist (before any job is run), or if a job fails (jobs before it have been done, later ones have not begun); code 101 if the input cannot be traced or a job is not implemented; 1 if all jobs have been done and one that sets the exit code found a fault; 0 otherwise. Each job creates the directories of its file, truncates it and writes the report, or prints it for `-`; a failing operation leaves what was written before.", "quantifier": "every command line, configuration, file system, environment and failure of every operation", "why_tests_cant": "all environments and failures", "anchors": ["src/main.rs::main", "src/main.rs::try_main", "src/controller.rs::Controller::run", "src/controller.rs::Controller::run_jobs_by_name"]}
{"id": "C85", "title": "The exact text of every report", "statement": "For every format that is implemented for the query, and no other, there is exactly one text a job writes, and it is: tags — the four header lines and the sorted lines of the requirements that have a line; GNU errors — the four sections with one line per error, uncovered and derived requirement and the lines of notes; Markdown list — input errors by artefact, then one entry per requirement ordered by id; Markdown trace — input errors, tracing errors without repeated items, uncovered and derived requirements, then for each requirement of each artefact the section of the requirement that the last artefact with that id defines; JSON — the two documents with all members in a fixed order, indented by two blanks, with exactly the escapes that JSON demands.", "quantifier": "every graph whose relations name existing artefacts, every query and format", "why_tests_cant": "all graphs and all texts in them", "anchors": ["src/formatters/mod.rs::tracing", "src/formatters/mod.rs::requirements", "src/formatters/tags.rs::requirements", "src/formatters/gnuerr.rs::tracing", "src/formatters/markdown.rs::requirements", "src/formatters/markdown.rs::tracing", "src/formatters/serialize.rs::Requirements", "src/formatters/serialize.rs::Trace"]}
{"id": "C86", "title": "Text in files is UTF-8", "statement": "What is written for a text are the bytes of its UTF-8 encoding; bytes are read as the text whose encoding they are, and refused exactly if they are not valid UTF-8.", "quantifier": "every text and every sequence of bytes", "why_tests_cant": "infinitely many byte sequences", "anchors": ["src/controller.rs::Controller::run", "src/parsers/markdown.rs::parse", "src/parsers/monoreq.rs::parse", "src/parsers/rust.rs::parse"]}
{"id": "C87", "title": "What the text of a location means", "statement": "`Location::parse` never panics; it refuses exactly the empty text and texts with a line break with `Invalid Location`; otherwise the last two fields of colon and digits with text before them are column and line, a single one is the line, and the rest is the file; if the digits are not ASCII or the number needs more than 64 bits the result is the message that names the field, its text and whichever of the two faults comes first.", "quantifier": "every text", "why_tests_cant": "infinitely many texts", "anchors": ["src/models.rs::Location::parse"]}
{"id": "C88", "title": "A run depends only on what it reads, and a second run changes nothing", "statement": "If creating and writing never fails, two runs that find the same content in the configuration file and in the files of the configured artefacts exit with the same code, write the same files with the same bytes, make the same directories and print the same, whatever else there is in the file system. In particular, if no requested job writes a file that is read, and its files do not change what the configured patterns match and what can be opened, a second run exits with the same code, leaves all files and directories as they are, and prints the same again.", "quantifier": "every command line, every two states of the file system with the same input", "why_tests_cant": "all file systems, all configurations", "anchors": ["src/main.rs::main", "src/controller.rs::Controller::new", "src/controller.rs::Controller::run"]}
{"id": "C89", "title": "The order of configured artefacts does not matter", "statement": "If the ids of the configured artefacts differ, reordering the `[[artefacts]]` entries does not change the controller: the same graph, the same errors in the same order, the same jobs, and the same panics.", "quantifier": "every configuration with different artefact ids and every permutation of its artefacts", "why_tests_cant": "all permutations of all configurations", "anchors": ["src/controller.rs::Controller::new"]}
{"id": "C90", "title": "An unrelated artefact changes nothing about the others", "statement": "Adding an artefact that no relation names, and whose requirements have ids of their own, leaves every traced relation (coverage and uncovered requirements) and the derived requirements of every other artefact as they were; the errors are the old ones and an unresolved reference for each id its requirements cover or depend on. Adding an entry with a new id to the configuration is such an addition.", "quantifier": "every graph and every added artefact", "why_tests_cant": "all graphs", "anchors": ["src/trace.rs::TracedGraph::trace", "src/controller.rs::Controller::new"]}
{"id": "C91", "title": "Ids have the documented form", "statement": "Every requirement id and every referenced id in the graph matches the documented expression \\p{XID_Start}\\p{XID_Continue}+ (FMT_ID_v2).", "quantifier": "every configuration and content of the files", "why_tests_cant": "all texts of all formats", "anchors": ["src/parsers/markdown.rs::parse", "src/parsers/monoreq.rs::parse", "src/parsers/rust.rs::parse"]}
{"id": "C92", "title": "The encoding of files", "statement": "A file that can be opened and read never gives a read error, whatever its encoding.", "quantifier": "every artefact, all bytes", "why_tests_cant": "all byte strings", "anchors": ["src/controller.rs::parse_single_file", "src/parsers/markdown.rs::parse"]}
{"id": "C93", "title": "References match after Unicode normalisation", "statement": "References whose ids are the same after normalisation (FMT_UNICODE_NORMALIZE, REQ_UNICODE_SAFE) establish coverage.", "quantifier": "every graph, every function that normalises", "why_tests_cant": "all texts", "anchors": ["src/trace.rs::trace"]}
{"id": "C94", "title": "The documented example of a Markdown requirement", "statement": "The example in doc/requirements/FORMATS.md gives the one requirement that the document says.", "quantifier": "every path and all Unicode tables", "why_tests_cant": "the tests do not have this example", "anchors": ["src/parsers/markdown.rs::parse"]}
{"id": "C95", "title": "The attribute Tags", "statement": "A section with an attribute `Tags: A, B` gives a requirement with these tags (FORMATS.md).", "quantifier": "every heading and every list of tags", "why_tests_cant": "all texts", "anchors": ["src/parsers/markdown.rs::parse"]}
{"id": "C96", "title": "JSON exports say their version", "statement": "Both JSON exports are JSON objects whose member `version` is 0 (FMT_EXPORT_JSON), with exactly the members version, requirements, errors or version, trace.", "quantifier": "every graph", "why_tests_cant": "all graphs", "anchors": ["src/formatters/serialize.rs"]}
{"id": "C97", "title": "The documented JSON import", "statement": "A JSON object with `version` 0 and a list `requirements` can be imported (FMT_IMPORT_JSON).", "quantifier": "every JSON text", "why_tests_cant": "all texts", "anchors": ["src/controller.rs::parse_single_file"]}
{"id": "C98", "title": "Derived requirements, from the configuration on", "statement": "A requirement is listed as derived exactly if its artefact owns it, no coverage of any relation has it as lower end, and its artefact is configured with ignore_derived_requirements = false or not configured and no root.", "quantifier": "every configuration, all files", "why_tests_cant": "all configurations", "anchors": ["src/controller.rs::Controller::new", "src/trace.rs::trace"]}
{"id": "C99", "title": "All files that are read are listed", "statement": "Every file that is read for an artefact is in the list of files of an artefact of the graph, and so in the JSON export (REQ_CACHE_FRIENDLY).", "quantifier": "every configuration and state of the file system", "why_tests_cant": "all configurations", "anchors": ["src/controller.rs::Controller::new"]}
{"id": "C100", "title": "Errors in input files say where they are", "statement": "Every error in an input file gives the file and the line (REQ_PARSER_ERROR).", "quantifier": "every file and parser", "why_tests_cant": "all texts", "anchors": ["src/parsers/markdown.rs::parse", "src/parsers/rust.rs::parse", "src/controller.rs::parse_single_file"]}
{"id": "C101", "title": "Only the characters of a text matter", "statement": "What a Markdown file, a mono-requirement file and the text of a location mean depends on the Unicode tables only by the classes of the characters in the text; texts in ASCII mean the same with all tables.", "quantifier": "all Unicode tables, all texts", "why_tests_cant": "all versions of Unicode", "anchors": ["src/parsers/markdown.rs::parse", "src/parsers/monoreq.rs::parse", "src/models.rs::Location::parse"]}
{"id": "C102", "title": "Which command lines are accepted and what they mean", "statement": "The program runs exactly when the words of the command line can be read as the flag -q/--quiet, the options -l/--log-level, -c/--config, -b/--base with their values and names of jobs, the flag and each option at most once and no path empty; behind -- every word is a job. The paths default to requirements.toml and . ; the jobs are taken in their order. Every pair of non-empty paths and every list of jobs can be given.", "quantifier": "all lists of words", "why_tests_cant": "all words, clusters of letters, orders", "anchors": ["src/main.rs::Arguments", "src/main.rs::try_main"]}
{"id": "C103", "title": "Help, version and complaints", "statement": "Help and version are shown when a word asks for them and the words before it are complete and consistent, whatever follows; every other list of words that is not accepted leads to a complaint.", "quantifier": "all lists of words", "why_tests_cant": "all words", "anchors": ["src/main.rs::Arguments", "src/main.rs::try_main"]}
{"id": "C104", "title": "From the command line to the exit", "statement": "Exit code, standard output, standard error, files and directories after the program are exactly those that the words and the state of the system before determine; help and version exit with 0, complaints with 2, and none of them touches a file.", "quantifier": "all lists of words, all states, all behaviours of the system", "why_tests_cant": "all inputs and failures", "anchors": ["src/main.rs::Arguments", "src/main.rs::try_main", "src/main.rs::main_rc"]}
{"id": "C105", "title": "Quiet and log level change nothing but the log", "statement": "Command lines with the same paths and the same jobs in the same order have the same effect, with or without -q and -l, however and wherever the options are written.", "quantifier": "all pairs of command lines", "why_tests_cant": "all spellings", "anchors": ["src/main.rs::Arguments", "src/main.rs::try_main", "src/main.rs::logging_setup"]}
{"id": "C106", "title": "The Markdown list of requirements can be read again as an artefact", "statement": "The Markdown list of requirements that a Parse job writes, for a graph without artefact errors whose requirements can be written as Markdown, is read by the Markdown parser without errors, also as an artefact of a second project: the same requirements in the order of the list, with the same ids, titles, references, attributes and description.", "quantifier": "all graphs with writable requirements, all Unicode tables, all pairs of projects", "why_tests_cant": "all texts and combinations of attributes and references", "anchors": ["src/formatters/markdown.rs::requirements", "src/parsers/markdown.rs::parse"]}
{"id": "C107", "title": "An editor finds the requirements in the tags file", "statement": "Reading the tags file by the rules of the editors (name, tab, file, tab, line number, ;\" ; lines starting with !_TAG_ are comments) gives exactly one tag for each requirement that has a line, with its file and its line, and the tags are sorted by name as the file says; if the ids contain only characters above '!' (as all documented ids) and the files no tabs or line feeds.", "quantifier": "all graphs with such ids and files", "why_tests_cant": "all ids, files, orders", "anchors": ["src/formatters/tags.rs::requirements"]}
{"id": "C108", "title": "No loops", "statement": "There are no loops in the graph (README, Tracing Graph): a configuration whose relations form a loop is not accepted, so no requirement is covered by itself, directly or through others.", "quantifier": "all configurations and files", "why_tests_cant": "all shapes of graphs, chains of any length", "anchors": ["src/controller.rs::Controller::new", "src/trace.rs::trace", "README.md"]}
{"id": "C109", "title": "The output identifies the input", "statement": "When reading the output, each input is clearly identifiable (REQ_IDENTIFIEABLE): two runs that give the same reports have read files with the same content.", "quantifier": "all pairs of file systems", "why_tests_cant": "all pairs of inputs", "anchors": ["src/formatters/mod.rs", "src/formatters/serialize.rs", "doc/requirements/REQUIREMENTS.md"]}
{"id": "C110", "title": "The recommended ids work everywhere", "statement": "Every id that matches the recommendation of the README, [A-Za-z][a-zA-Z0-9_]+[a-zA-Z0-9], is an identifier for every version of the Unicode tables, and is read as such in Markdown headings and lists of references and in mono-requirement files.", "quantifier": "all recommended ids, all titles, all Unicode tables that agree on ASCII", "why_tests_cant": "infinitely many ids, all Unicode versions", "anchors": ["src/parsers/markdown.rs::parse", "src/parsers/monoreq.rs::parse", "README.md"]}
{"id": "C111", "title": "Configurations of another version are refused", "statement": "If the configuration file is a configuration with a version other than 0, the program ends with exit code 2, prints '<file> has unknown version <v>' on standard error and changes nothing else: no input is read, no job runs, no output is touched.", "quantifier": "all configurations, versions and file systems", "why_tests_cant": "all versions and the absence of effects", "anchors": ["src/main.rs::try_main", "src/controller.rs::Config"]}
{"id": "C112", "title": "One of the lower artefacts is enough", "statement": "A requirement is uncovered along a relation to several artefacts exactly if it is uncovered along each of the relations to one of them alone (ARCH_GRAPH: must be covered by at least one requirement of one of the artefacts). A relation to no artefact is reported as unused, and all requirements of its upper artefact as uncovered.", "quantifier": "all graphs and relations", "why_tests_cant": "all graphs", "anchors": ["src/trace.rs::Tracer::trace_relation", "doc/requirements/ARCHITECTURE.md"]}
{"id": "C113", "title": "The verdict can be read from the report", "statement": "Whoever has only the report of a job knows the outcome of the job: a report in the form of compiler errors consists of nothing but headings if and only if the job succeeded; a Markdown report of a trace begins with the heading of the requirements, and a Markdown list of requirements does not begin with the heading of the errors, if and only if the job succeeded; two equal JSON reports of the same query belong to equal outcomes.", "quantifier": "all projects, all jobs that write one of these reports", "why_tests_cant": "all graphs, titles and names; a name could look like a heading", "anchors": ["src/controller.rs::Controller::run", "src/formatters/gnuerr.rs::tracing", "src/formatters/markdown.rs::tracing", "src/formatters/markdown.rs::requirements", "src/formatters/serialize.rs"]}
{"id": "C114", "title": "The order of jobs does not matter", "statement": "Two runs that are asked for the same jobs in another order, and in which all jobs could be run, end with the same exit code and leave the same files and the same standard output, provided that jobs with the same destination write the same report.", "quantifier": "all configurations, all orders of jobs, all states of the file system", "why_tests_cant": "all permutations of any number of jobs", "anchors": ["src/controller.rs::Controller::run_jobs", "src/controller.rs::Controller::run", "src/main.rs::run_cli_jobs"]}
{"id": "C115", "title": "One more requirement takes nothing away", "statement": "If a requirement with a new id is added to an artefact, tracing still succeeds, all coverages that were reported are reported again and new ones are of or by the new requirement; no other requirement becomes uncovered or derived; no reference of another requirement becomes one to an unknown requirement; no relation becomes unused; and the repeated ids are the same.", "quantifier": "all graphs, all requirements with a new id", "why_tests_cant": "compares all pairs of graphs that differ in one requirement", "anchors": ["src/trace.rs::trace", "src/trace.rs::Tracer"]}
{"id": "C116", "title": "Names of requirements are only names", "statement": "If all requirements get other names, with different names for different requirements, and all references follow, then the result of tracing is the same with the other names: the same coverages, uncovered requirements, derived requirements and errors, each the same number of times, up to the order.", "quantifier": "all graphs, all injective renamings", "why_tests_cant": "all graphs and all renamings; a prefix comparison or a sort by name that influences the result shows for few names only", "anchors": ["src/trace.rs::trace", "src/trace.rs::Tracer"]}
{"id": "C117", "title": "Every reported problem is logged", "statement": "Whatever error a project's artefacts or its trace contain is announced in the log as `found problem …` when it is found.", "quantifier": "all projects, all errors of artefacts and of the trace", "why_tests_cant": "all errors of all parsers; a missing log line shows only for the kind of error that misses it", "anchors": ["src/controller.rs::Controller::new", "src/controller.rs::Controller::parse_from_config", "src/parsers/markdown.rs", "src/parsers/rust.rs", "src/parsers/monoreq.rs", "src/trace.rs::Tracer"]}
{"id": "C118", "title": "The log changes nothing but standard error", "statement": "Whatever is logged and whichever filter is set, exit code, files and standard output are the same. The exit code is 2 exactly if the log has an ERROR record; it is then the only one and the last record, and the line after the log on standard error is its text. With any other exit code standard error consists of the lines of the records that the filter keeps.", "quantifier": "all projects, arguments, filters and states of the file system", "why_tests_cant": "all filters and all failures", "anchors": ["src/main.rs::main_rc", "src/main.rs::logging_setup", "src/controller.rs"]}
{"id": "C119", "title": "The option -q silences the log", "statement": "With the option `-q` nothing is written to standard error unless the program fails.", "quantifier": "all command lines with -q, all projects and filters", "why_tests_cant": "all command lines and runs", "anchors": ["src/main.rs::Arguments", "src/main.rs::logging_setup"]}
{"id": "C120", "title": "The log tells which jobs found fault, and why", "statement": "The warnings of a run are `Job NAME detected Errors` for the jobs that are done and find fault, in the order of the jobs, whether or not they set the return code. If all jobs are done, the DEBUG records are exactly the reasons of the jobs, there is a reason exactly if the job finds fault, and the last record says how many jobs were run and whether the exit code is 0 or 1. If no job can be run, there are neither warnings nor reasons.", "quantifier": "all projects, all lists of jobs, all states of the file system", "why_tests_cant": "all lists of jobs, failures at any position", "anchors": ["src/controller.rs::Controller::run", "src/controller.rs::Controller::run_jobs", "src/main.rs::main_rc"]}
{"id": "C121", "title": "White space and numbers", "statement": "White space, where parsers trim texts and look for it, is exactly the property White_Space of Unicode; trimming removes all white space at both ends and nothing else. Numbers in reports, logs and places are written in decimal notation without leading zeros, each number in one way.", "quantifier": "all characters, all texts, all numbers", "why_tests_cant": "all characters beyond ASCII; all numbers", "anchors": ["src/parsers/markdown.rs", "src/parsers/rust.rs", "src/models.rs::Location", "src/models.rs::LocationInFile"]}
{"id": "C122", "title": "The log identifies the problem", "statement": "Two different problems are never announced by the same log record: from `found problem …` (and from the reason of a failed validation that lists the errors or derived requirements) the kind of problem and all of its data can be determined.", "quantifier": "all problems, with any texts inside of titles, ids, attributes and paths", "why_tests_cant": "all texts inside of fields, such as quotes, braces and line ends that look like the next field", "anchors": ["src/errors.rs::Error", "src/controller.rs::ControllerError", "src/models.rs"]}
{"id": "C123", "title": "The whole log of a run", "statement": "The log of a run is exactly: the name of the configuration file; one record for each problem found while the files are read, then one for each problem the tracer announces; then, if no job is requested or one is not known, one record that names the problem and the ERROR; otherwise for each job that is done where the report goes, one record for each reason it finds fault, and the verdict; if all are done, the number of jobs, the time and the result; if one is not, what was begun of it and the ERROR. At level TRACE there is one record for each relation, one if the default jobs are run, and one for each job that is begun.", "quantifier": "for all environments, worlds, configurations and arguments; one theorem for each way a run can go on once the configuration is read", "why_tests_cant": "the number and order of records depends on all the files, on the graph and on the jobs; a missing or extra record shows only in some combinations", "anchors": ["src/main.rs:60-134", "src/controller.rs:265-408", "src/trace.rs:155-335"]}
{"id": "C124", "title": "Comparison of locations, requirements, relations and errors is lawful and agrees with ==", "statement": "partial_cmp on Location, Requirement, Relation, Error and ControllerError is reversed when its arguments are swapped, transitive, and Equal exactly for values that are ==.", "quantifier": "all values of these types", "why_tests_cant": "all pairs and triples, all spellings of paths", "anchors": ["src/models.rs::Location", "src/models.rs::Requirement::partial_cmp", "src/models.rs::Relation", "src/models.rs::Error", "src/controller.rs::ControllerError"]}
{"id": "C125", "title": "A report on the standard output is complete when the program ends with 0 or 1", "statement": "If the program ends with exit code 0 or 1, every report that its jobs write to \"-\" has arrived in full, in the order of the jobs, at the other end of the standard output.", "quantifier": "all configurations, job lists, input files and behaviours of the operating system, including a reader that goes away", "why_tests_cant": "all moments at which a write can fail", "anchors": ["src/controller.rs::Controller::run", "src/main.rs::main", "src/formatters/mod.rs::tracing", "src/formatters/mod.rs::requirements"]}
{"id": "C126", "title": "Giving a requirement a new id breaks its existing coverage and nothing else", "statement": "If a requirement whose id no other requirement has gets an id that is used nowhere, tracing afterwards reports exactly the coverages from before that do not come from a reference to the old id (with the new id in place of the old), reports a requirement as uncovered along a relation exactly if it has no coverage left, and reports each requirement that refers to the old id as referring to an unknown requirement.", "quantifier": "all graphs on which tracing returns, all requirements in them, all fresh ids", "why_tests_cant": "all graphs", "anchors": ["README.md#versioning", "src/trace.rs::Tracer::trace_relation", "src/trace.rs::Tracer::validate"]}
{"id": "C127", "title": "A further path of an artefact takes nothing away", "statement": "Adding a path to a Rust artefact that has others loses nothing that the others give: each requirement is still in the artefact or named in a report of a duplicate, and each problem with a file is still reported.", "quantifier": "all Rust artefacts, path lists, positions of the further path, file systems", "why_tests_cant": "all file systems and patterns", "anchors": ["src/controller.rs::parse_from_config", "src/controller.rs::parse_multiple_files", "src/controller.rs::glob_paths", "doc/requirements/REQUIREMENTS.md#REQ_LATE_ERROR"]}
{"id": "C128", "title": "A path for which no file is found is reported", "statement": "If one of the paths of an artefact leads to no file, reading the artefact reports an error.", "quantifier": "all artefacts, parsers, path lists, file systems", "why_tests_cant": "all configurations and file systems", "anchors": ["src/controller.rs::parse_from_config", "src/controller.rs::parse_single_file", "src/controller.rs::glob_paths", "doc/requirements/DESIGN.md#DSG_CLI_RETURN_CODE"]}
{"id": "C129", "title": "A file that several paths find is read once", "statement": "If several paths of an artefact find the same file, it is read once.", "quantifier": "all artefacts, path lists, file systems", "why_tests_cant": "all overlapping patterns", "anchors": ["src/controller.rs::parse_multiple_files", "src/controller.rs::glob_paths"]}
{"id": "C130", "title": "The order of the paths of an artefact does not matter", "statement": "If the paths of an artefact are listed in another order, it has the same requirements, and the same files and errors in some order.", "quantifier": "all artefacts, path lists, permutations, file systems", "why_tests_cant": "all permutations and file systems", "anchors": ["src/controller.rs::parse_from_config", "src/controller.rs::parse_multiple_files", "src/controller.rs::glob_paths"]}
{"id": "C131", "title": "Tracing does not depend on places, attributes and tags", "statement": "If the places of requirements and references, the attributes and tags of requirements, and the file names and parsing errors of artefacts are changed in any way, tracing gives the same coverages, uncovered and derived requirements and the same errors, in the same order, with the changed requirements and places in them; and it panics exactly if it did before.", "quantifier": "all graphs, all such changes", "why_tests_cant": "all graphs and all changes", "anchors": ["src/trace.rs::Tracer::new", "src/trace.rs::Tracer::trace_relation", "src/trace.rs::Tracer::validate", "src/models.rs::Requirement"]}
{"id": "C132", "title": "Where the files stand does not matter", "statement": "A file says the same at every path, with its places in that file; only a mono-requirement file must keep its name. If a project is moved, or its files are renamed and the configuration with them, tracing gives the same results but for the places, every job finds fault exactly if it did before, and the exit code is the same if the reports can be written.", "quantifier": "all files of all kinds, all pairs of paths; all projects, configurations and states of the file system in which the same files are found", "why_tests_cant": "all file contents and all moves", "anchors": ["src/parsers/markdown.rs::parse", "src/parsers/rust.rs::parse", "src/parsers/monoreq.rs::parse", "src/controller.rs::parse_from_config", "src/controller.rs::Controller::new", "src/main.rs::main_rc"]}
{"id": "C133", "title": "Every mark that the macro accepts is read", "statement": "An invocation of `requirement_covered!` that one of the macro's arms accepts (an identifier, or an identifier or a string with a title after a comma or a colon) gives a reference with that id and title in a requirement of the Rust file.", "quantifier": "all Rust files, all marks in them that an arm of the macro accepts, with plain strings", "why_tests_cant": "all files and marks", "anchors": ["src/lib.rs::requirement_covered", "src/parsers/rust.rs::Parser::parse_macro"]}
{"id": "C134", "title": "The order of the sections of a Markdown document does not matter", "statement": "Two Markdown documents with the same lines before the first requirement heading and the same sections (a requirement heading with the lines up to the next one), perhaps in another order, have the same requirements and the same errors, but for their places and order.", "quantifier": "all Markdown documents, all orders of their sections", "why_tests_cant": "all documents and all permutations", "anchors": ["src/parsers/markdown.rs::parse", "src/parsers/markdown.rs::parse_requirements"]}
{"id": "C135", "title": "The order of the items of a Rust file does not matter", "statement": "Two Rust files with the same pieces of code in another order have the same requirements and errors, but for their places and order.", "quantifier": "all Rust files, all orders of the items of the file", "why_tests_cant": "all files and all permutations", "anchors": ["src/parsers/rust.rs::parse", "src/parsers/rust.rs::Parser"]}
{"id": "C136", "title": "Tracing does not depend on the order in which things stand", "statement": "If the files of artefacts are given in another order, and files have the sections or items in another order (with the conditions under which C134 and C135 hold), then every job finds fault exactly if it did before, and the exit code is the same if the reports can be written. If no artefact has duplicate requirements, tracing also gives the same requirements, coverages, uncovered and derived requirements and errors, in the same order, but for the places; the errors of the artefacts may be in another order.", "quantifier": "all projects, configurations, states of the file system and orders", "why_tests_cant": "all projects and all permutations at three levels", "anchors": ["src/controller.rs::parse_from_config", "src/controller.rs::Controller::new", "src/trace.rs::trace", "src/main.rs::main_rc"]}
{"id": "C137", "title": "A new section or marked item is one new requirement, and an unreferenced one is uncovered", "statement": "If a section that alone is a document with one requirement is put at the end of a Markdown file, or a piece of code with one marked item of a new name at the end of a Rust file, and the id is new in the project, then the new graph is the old one with exactly that requirement more in that artefact (its line moved by the number of lines before it), with the same jobs; nothing else in the graph changes. If it belongs to the upper artefact of a relation, depends on nothing and no reference names it, it is listed as uncovered along each such relation and a job that traces finds fault.", "quantifier": "all worlds, configurations, base directories, files, sections and items, with any number of other artefacts and files", "why_tests_cant": "A test adds one particular section to one particular file; the claim is about every document, every position of the file in the configuration and every content of the rest of the project.", "anchors": ["src/parsers/markdown.rs::parse", "src/parsers/rust.rs::parse", "src/controller.rs::Controller::new", "src/trace.rs::trace"]}
{"id": "C138", "title": "A mark makes the project green exactly if it is a right mark of the requirement that was missing", "statement": "Let nothing be wrong with the project but that one requirement u is not covered along one relation. After one more marked item at the end of a file of an artefact that is upper in no relation, tracing finds no fault exactly if that artefact is a lower one of the relation, one of its marks names u, and each of its marks leads along a relation to an existing requirement, with the right title or, where allowed, with none. In particular: a green project that gets a new section is not green, and with a new mark is green again exactly if the mark is right.", "quantifier": "all worlds, configurations, files, requirements and marks", "why_tests_cant": "It is an equivalence over all marks and all projects; tests can show that some mark helps and that some other does not.", "anchors": ["src/parsers/rust.rs::parse", "src/controller.rs::Controller::new", "src/trace.rs::trace"]}
{"id": "C139", "title": "No dead links in the Markdown report", "statement": "Each link to a requirement in the Markdown report of a trace (in an error, in the lists of uncovered and derived requirements, or in the tracing of another requirement) is to a requirement that has a section, with its id and title as heading, in the same report.", "quantifier": "every project that can be read, every requirement", "why_tests_cant": "The links come from a dozen kinds of errors and lists; a test sees those of one project.", "anchors": ["src/formatters/markdown.rs::tracing", "src/formatters/markdown.rs::requirement_link", "src/formatters/markdown.rs::traced_requirement"]}
{"id": "C140", "title": "What another title changes", "statement": "If the title of a requirement whose id is defined only once is edited (in its heading in a Markdown file, or in the first line of a file with one requirement) and nothing else, then coverage, uncovered and derived requirements are the same; of the errors only those about wrong titles may differ, and these are exactly the references that now say another title. A project without findings has a finding after the edit exactly if some reference to the requirement says another title than the new one.", "quantifier": "every project that can be read, every requirement whose id is given once, every new title", "why_tests_cant": "A test edits one title in one project; that nothing but the title check depends on titles is a claim about all projects.", "anchors": ["src/trace.rs::Tracer::trace_relation", "src/parsers/markdown.rs::parse", "src/parsers/monoreq.rs::parse", "src/controller.rs::Controller::new"]}
{"id": "C141", "title": "What rewriting the text of one requirement changes", "statement": "If one section of a Markdown file (heading and body, its id apart), or in a Rust file a piece of code with marks within one item whose name no other piece has, is written anew, also with more or fewer lines, then all other sections or pieces of the file give the same requirements and errors, those below at shifted lines; the rest of the project is as before. If the new text refers at least to all ids the old one referred to, all that was covered stays covered and nothing becomes uncovered or derived; if it refers to the same ids, coverage, uncovered and derived requirements are the same.", "quantifier": "every project that can be read, every section that is followed by a heading or the end of the file, every new text of it", "why_tests_cant": "That no edit inside a section leaks into other sections, whatever the text before and after, is a claim about all texts; a test has one text.", "anchors": ["src/parsers/markdown.rs::parse", "src/parsers/monoreq.rs::parse", "src/controller.rs::Controller::new", "src/trace.rs::Tracer::trace_relation", "src/parsers/rust.rs::parse"]}
{"id": "C142", "title": "The format of the input does not matter", "statement": "If two projects have the same relations and artefacts and each artefact has the same requirements in both (first ones of their id), whatever the formats of the files, their number, names and order, then coverage, uncovered and derived requirements and tracing errors are the same, with their places; if also the input errors are the same, all reports are the same text, except the JSON of a trace, which lists the files, and the jobs give the same verdict. In particular an artefact may be replaced by a JSON file that holds its requirements, such as the entries of the JSON export of a parse job which are its requirements.", "quantifier": "every pair of projects that say the same requirements, every job", "why_tests_cant": "A test compares two projects; that the origin of a requirement leaks nowhere into tracing and reports is a claim about all.", "anchors": ["src/controller.rs::Controller::new", "src/trace.rs::trace", "src/formatters/mod.rs::tracing", "src/formatters/mod.rs::requirements", "src/aggregator.rs::AggregatedGraph::new"]}
{"id": "C143", "title": "Moving code to another file changes nothing but places", "statement": "If functions and other pieces of code with marks are moved between the Rust files of an artefact, or files are merged or split, and marks in different pieces are in items of different names, then the artefact has the same requirements, references and errors as before, but for places and order. If no artefact has duplicate requirements, the whole project then has the same coverages, uncovered and derived requirements; the exit code is the same if the reports can be written.", "quantifier": "all Rust files, all ways to spread the pieces of code over files, all projects, configurations and states of the file system", "why_tests_cant": "all code and all distributions over any number of files", "anchors": ["src/parsers/rust.rs::parse", "src/controller.rs::parse_from_config", "src/controller.rs::Controller::new"]}
{"id": "C144", "title": "The text of the log and where its lines come from", "statement": "A problem is logged as `found problem ` and then its kind with all its parts, line by line: each part is on lines of its own, indented by four spaces per level and followed by a comma; a part with a name follows the name and a colon; texts are quoted, a list or map without entries is one line. No line of it contains a line feed. A line of the log is the source file, the line number, the level and the text. Every line of the log comes from the one place of the source that is made for it: a problem from the place where problems of its kind are found, the reasons why a job fails, the files that are written and the results of jobs from theirs, each at its level.", "quantifier": "all problems, all derived requirements, all runs of the program (arguments, configurations, states of the file system)", "why_tests_cant": "all values with nested lists of any length and all runs", "anchors": ["src/controller.rs::parse_from_config", "src/parsers/markdown.rs::parse", "src/parsers/rust.rs::parse", "src/trace.rs::Tracer::trace_relation", "src/main.rs::logging_setup"]}
{"id": "C145", "title": "What taking out a requirement changes", "statement": "If one section of a Markdown file, or a piece of code with the marks of one requirement, whose name no other piece has, at any place of a Rust file, is taken out, all other sections and files give the same requirements, those below at shifted lines, and no new errors. If its id was not given elsewhere, then in what tracing finds: the coverages of and by that requirement are gone and all others stay; a requirement is uncovered if it was, or if only the removed one covered it; derived if it was, or if it covered only the removed one; every reference to the removed requirement is reported as one to an unknown requirement, and no other new one. If the project had no fault, it has none afterwards if and only if no reference leads to the removed requirement, every relation is still used, and whatever it covered or was covered by has another coverage.", "quantifier": "every project that can be read, every section or piece of code with the marks of one requirement", "why_tests_cant": "An exact description of what changes and what does not, for all projects and all texts around the section.", "anchors": ["src/parsers/markdown.rs::parse", "src/parsers/rust.rs::parse", "src/controller.rs::Controller::new", "src/trace.rs::Tracer::trace_relation", "src/trace.rs::Tracer::validate"]}
{"id": "C146", "title": "A gap is closed by the right reference", "statement": "If nothing is wrong with a project but that one requirement is not covered along one relation, and one text (a Markdown section at any place, a piece of code with marks within one item whose name no other piece has, or a mono-requirement file) is written anew with the same id and title, at least the references it had, and whatever else, then afterwards tracing finds nothing wrong if and only if the files of its artefact are read without error, every reference of the text leads along a relation to a requirement that exists and has the right title (or none, where this is allowed), and one of them makes up the missing coverage: it covers the uncovered requirement from a lower artefact of the relation, or the text is that requirement and now depends on something below. In particular, when a requirement is added to a project without problems and then a reference to it.", "quantifier": "every project that can be read, every gap, every text of every artefact, whatever its new references", "why_tests_cant": "An exact condition for every project and every way to rewrite a text.", "anchors": ["src/parsers/markdown.rs::parse", "src/parsers/monoreq.rs::parse", "src/controller.rs::Controller::new", "src/trace.rs::Tracer::trace_relation", "src/trace.rs::Tracer::validate", "src/parsers/rust.rs::parse"]}
{"id": "C147", "title": "What putting in a requirement changes", "statement": "If one section is put into a Markdown file at any place, or into a Rust file at any place a piece of code with the marks of one requirement, whose name no other piece has, and its id was not in use, then all other requirements stay, those below at shifted lines, and in what tracing finds exactly this changes: the coverages of and by the new requirement are added; a requirement is no longer uncovered or derived if the new one covers it or is covered by it; a reference to an unknown requirement is no longer reported if it leads to the new one. If the project had no problem, it has none afterwards if and only if the files are read without error with it, all its references are right, its own references give its coverage along each relation from its artefact, and it covers something unless derived requirements are ignored there.", "quantifier": "every project that can be read, every section or piece of code with a new id at every place", "why_tests_cant": "An exact description of what changes and what does not, for all projects and all texts around the section.", "anchors": ["src/parsers/markdown.rs::parse", "src/parsers/rust.rs::parse", "src/controller.rs::Controller::new", "src/trace.rs::Tracer::trace_relation", "src/trace.rs::Tracer::validate"]}
{"id": "C148", "title": "Places lead to what they are about", "statement": "For every artefact that is not JSON: each requirement of the graph stands at its place in a listed file (its id in that line of the Markdown file, the file of a mono-requirement, the item around the mark in Rust), each reference stands at its place (the id in that line, or a mark with that id at that line and column). At the place of each coverage there is a reference of one of the two requirements to the other, at the place of each tracing error the reference that it is about, at the place of each error of an artefact the line or mark that is wrong or the repeated requirements and attributes.", "quantifier": "every configuration, all file contents, all syntax trees", "why_tests_cant": "all texts and all errors", "anchors": ["src/parsers/markdown.rs::parse", "src/parsers/monoreq.rs::parse", "src/parsers/rust.rs::parse", "src/trace.rs::trace", "src/models.rs::Location"]}
{"id": "C149", "title": "Headings in the description", "statement": "Headings of a lower level that start no requirement are part of the description of the requirement above, with the text below them.", "quantifier": "all texts and all Unicode tables", "why_tests_cant": "all texts", "anchors": ["src/parsers/markdown.rs::parse", "doc/requirements/FORMATS.md::FMT_MD_DESC_HEADINGS"]}
{"id": "C150", "title": "Renaming requirements in all files", "statement": "If all requirements of a project get other ids, no two the same, wherever they are named (headings and references in Markdown, coverage marks and item names in Rust, file names and references of mono-requirements, ids and references in JSON), the program finds the same: the same relations, the same coverage, uncovered and derived requirements and the same errors, with the other ids; only the order may be another. Jobs find fault exactly as before, and if the reports can be written the exit code is the same.", "quantifier": "all projects, worlds, injective renamings, Unicode tables and Rust syntax trees", "why_tests_cant": "all texts, all renamings; ordered maps change their order with the names", "anchors": ["src/controller.rs::Controller::new", "src/trace.rs::trace", "src/parsers/markdown.rs::parse", "src/parsers/rust.rs::parse", "src/parsers/monoreq.rs::parse"]}
{"id": "C151", "title": "Names of artefacts are only names", "statement": "If the artefacts get other ids in the configuration, no two the same, and the relations follow, the program finds the same artefacts under the other ids: the same files, requirements, settings and errors (an artefact whose paths are none or too many has one error, which names it). If no requirement id is in two artefacts, the trace is the same in the same order: coverage, uncovered and derived requirements and errors, with the other ids in the relations. In every case the jobs find fault exactly as before, and if the reports can be written the exit code is the same.", "quantifier": "all configurations, worlds, injective renamings of artefact ids", "why_tests_cant": "all configurations and renamings; artefacts are kept in a map ordered by their names, and the first one with a requirement id owns it", "anchors": ["src/controller.rs::Controller::new", "src/controller.rs::parse_from_config", "src/trace.rs::trace"]}
{"id": "C152", "title": "It does not matter on which side a reference stands", "statement": "If no requirement id is in two artefacts, then along a relation requirement l is reported as covering u exactly if u depends on l or l covers u, u is in the upper and l in a lower artefact of the relation; and a reference between two ids is reported as leading nowhere exactly if no relation has u above and l below, whichever of the two states it. So two projects in which the same requirements refer to each other have the same coverage, uncovered and derived requirements, unused relations and references that lead nowhere; if nothing is wrong with titles, the jobs find fault in both or in none, and the exit codes are the same.", "quantifier": "all graphs and all projects with unique ids", "why_tests_cant": "all graphs, all ways to distribute the references over the two sides", "anchors": ["src/trace.rs::trace", "src/controller.rs::Controller::run"]}
{"id": "C153", "title": "The exit code is about what is asked, not how it is shown", "statement": "With the same artefacts and relations, the exit code (if the reports can be written) depends only on which queries the requested jobs that set the return code have: not on names, order, repetition, formats or output files of the jobs. Asking for more never lowers it, where a trace job finds all that a parse job finds. If no requested job sets the return code, it is 0.", "quantifier": "all configurations, job lists and worlds", "why_tests_cant": "all sets of jobs, all formats, all files", "anchors": ["src/main.rs::main", "src/controller.rs::Controller::run", "src/controller.rs::Controller::new"]}
{"id": "C154", "title": "Parts of a project that have nothing to do with each other", "statement": "If the artefacts of a project fall into two parts such that every relation stays within a part and no requirement id is in both, then tracing one part alone (its artefacts, its relations) gives exactly what tracing the whole says about it: the same traced relations with the same coverages and uncovered requirements in the same order, the same derived requirements, and those errors which are about requirements or relations of the part, in their order. The configuration restricted to the part loads whenever the whole loads and gives that part. The whole has a problem exactly if one of the two parts has one, and where all reports can be written its exit code is the larger one of those of the two parts.", "quantifier": "all graphs, all splittings into two separate parts, all configurations, worlds, environments", "why_tests_cant": "A test traces a few fixed projects; that nothing leaks from one part to the other must hold for every splitting of every graph, whatever the references in it name.", "anchors": ["src/trace.rs::trace", "src/controller.rs::Controller::new", "src/controller.rs::Controller::run"]}
{"id": "C155", "title": "How requirements are divided among lower artefacts does not matter", "statement": "Dividing the paths of a Rust artefact which nothing is required to cover among two artefacts with the same settings, and naming both of them wherever relations name it as lower, changes nothing but names: the project still loads, and if no requirement id is found in both pieces, then every relation has the same coverages and the same uncovered requirements as before, a requirement is derived in one of the two pieces exactly if it was derived in the whole, all tracing errors except unused relations are the same and a relation is unused exactly if it was, and there are errors of reading exactly if there were some. So where all reports can be written the exit code is the same. (If an id is in both pieces, an error of reading becomes an error of tracing.)", "quantifier": "all graphs and their divisions into any number of pieces; all configurations, artefacts, splittings of the paths, worlds, environments", "why_tests_cant": "Tests trace fixed projects in one shape; that the results depend on the requirements only, and not on which lower artefact holds them, is about all pairs of projects.", "anchors": ["src/trace.rs::trace", "src/controller.rs::Controller::new", "src/controller.rs::Controller::run"]}
{"id": "C156", "title": "The settings of an artefact change nothing but what they are for", "statement": "Changing the settings of artefacts (`ignore_derived_requirements`, `reference_with_title`) in a project leaves it loading as before, with the same files and requirements; of the errors of reading only those about requirements without title differ, and these are exactly the untitled requirements of the artefacts which require titles. Tracing it gives the same coverages, uncovered requirements and errors except those about references without title, and the derived requirements of an artefact whose own setting is unchanged are the same (and none if it ignores them). If settings are changed only such that less is asked for, no error and no derived requirement is new, so where all reports can be written the exit code does not become worse.", "quantifier": "all pairs of graphs which differ in settings; all configurations, changes of settings, worlds, environments", "why_tests_cant": "Tests run fixed projects with fixed settings; that nothing else depends on the settings is about all pairs of projects.", "anchors": ["src/trace.rs::trace", "src/controller.rs::Controller::new", "src/controller.rs::Controller::run"]}
{"id": "C157", "title": "One relation or two", "statement": "Replacing a relation of a project by two with the same upper artefact, whose lower artefacts together are those of the one, leaves the project loading with the same artefacts. The other relations are traced as before; the coverages of the relation are those of the two together; what is uncovered for it is exactly what is uncovered for both (in the same order); the derived requirements and all tracing errors except unused relations are the same. So a project without findings for the two relations has none for the one: where all reports can be written the exit code for one relation is not worse than that for two (it may be better: a requirement covered along one of the two only).", "quantifier": "all graphs, relations and splittings of their lower artefacts, also overlapping ones; all configurations, worlds, environments", "why_tests_cant": "Tests trace fixed projects; how the results for differently written relations compare is about all pairs of projects.", "anchors": ["src/trace.rs::trace", "src/controller.rs::Controller::new", "src/controller.rs::Controller::run"]}
{"id": "C158", "title": "A run without findings means that everything is traced end to end", "statement": "If a run whose trace counts for the exit code ends with 0 and the relations have no loops, then every requirement of the files is traced from end to end: along each relation of its artefact a chain of requirements, each refining the one before, leads from it down to an artefact from which no relation leads further, and a chain leads down to it from a requirement of an artefact which needs no reason. Each step of a chain is in the report of the trace as a coverage. For graphs without loops and with unique ids, full coverage means exactly what the README calls complete: every requirement is refined along each relation of its artefact, and all that refine it are complete.", "quantifier": "all graphs without loops of relations; all configurations, worlds, environments", "why_tests_cant": "Tests trace fixed projects of few levels; that coverage between neighbours composes to chains of any length, for every project, is an induction over the relations.", "anchors": ["src/trace.rs::trace", "src/controller.rs::Controller::new", "src/controller.rs::Controller::run"]}
{"id": "C159", "title": "The program never crashes", "statement": "Whatever is in the files, the program ends with one of its exit codes 0, 1 or 2 and does not panic (exit code 101).", "quantifier": "all environments, arguments, worlds", "why_tests_cant": "Absence of panics is about all inputs; tests run some.", "anchors": ["src/main.rs::main", "src/controller.rs::Controller::new", "src/controller.rs::Controller::run", "src/parsers/markdown.rs::parse", "src/parsers/rust.rs::parse"]}
{"id": "C160", "title": "What was found before a crash is in the log", "statement": "If the program crashes while the project is read, the log has what was found until then, and nothing else. If a relation names an artefact that is not configured, it is only the name of the file of the configuration. Otherwise there is a first artefact with a file over which a parser panics: after the name of the file of the configuration come all problems of the artefacts before (except those with a glob that fails), then those of the files of the artefact before that file, then those of the file up to the crash: for Markdown those of the lines before the last one, for a mono requirement none, for Rust those of the coverage marks before the first one outside of all items.", "quantifier": "all environments (in which Rust items have names), configurations, arguments, worlds; all loggers", "why_tests_cant": "A test has to crash the program to see its log, and sees one crash; where the crash is and what was found before varies without bounds.", "anchors": ["src/controller.rs::Controller::new", "src/parsers/markdown.rs::parse", "src/parsers/rust.rs::parse", "src/main.rs::main"]}
{"id": "C161", "title": "A job that fails does not keep the others from their output", "statement": "If some of the jobs that are asked for fail (for example because their file cannot be created), each of the others that could be run has left its output in its file afterwards, as long as no other job writes to that file.", "quantifier": "all environments, controllers, lists of known job names and worlds", "why_tests_cant": "Any of any number of jobs may fail at any of its operations, and each of the others is concerned.", "anchors": ["src/controller.rs::Controller::run_jobs_by_name", "src/controller.rs::Controller::run"]}
{"id": "C162", "title": "The layout of the configuration file does not matter", "statement": "However a configuration is laid out in its TOML file - in any order of the headings and of the entries below them, with any white space, blank lines and comments, with lists over several lines, with names bare or in quotes, with texts in single quotes or in double quotes with escapes, with either kind of line end - the program works with exactly the settings that are written there; a name that is missing counts as not set, and a document that lacks a mandatory setting is refused. No text says two different configurations, and every configuration whose jobs have non-empty names can be written.", "quantifier": "all documents of entries and headings [a], [a.b], [[a]] without duplicate names, all texts in which such a document is laid out, all configurations", "why_tests_cant": "The layouts of a document are unlimited in number, and so are the names, paths and texts in it.", "anchors": ["src/main.rs::get_config", "src/models.rs::Config"]}
{"id": "C163", "title": "A Rust artefact consists of the files that its patterns mean below the base directory", "statement": "Whatever the base directory is called: the files of an artefact with the Rust parser are exactly those that exist and whose path from the base directory fits one of its relative patterns, or whose whole path fits one of its patterns that begin with a slash. `?` stands for one character of a name, `*` for any number, brackets for one of (or with `!` none of) the characters and ranges in them, `**` for any number of directories; for example src/**/*.rs means what is anywhere below src and ends in .rs. The artefact has the requirements of these files and no others.", "quantifier": "all file systems in which the glob library finds what matches, all base directories, all lists of well-formed patterns", "why_tests_cant": "There are unlimited directory trees, directory names and patterns; tests use a few trees below directories with plain names.", "anchors": ["src/controller.rs::glob_paths", "src/controller.rs::parse_multiple_files"]}
{"id": "C164", "title": "The layout of Rust code does not matter", "statement": "In Rust files made of functions and methods, also with parameters for types, with parameters and results of types with at most one argument, modules, traits, impl blocks, structs with named fields or none, enums without values, constants, statics, type aliases and use declarations of single paths, also under other names (with attributes, documentation and visibility), and in the bodies macro calls, also with paths, calls of functions and methods, let statements, assignments, return, break, continue, blocks, if, while, for, loop and unsafe blocks, and at the end of a body a value or a macro call without a semicolon, the white space and the comments between the tokens make no difference to the requirements and references the program finds there, to what is covered or to the exit status, only to the lines and columns; these are those of the token in the text (the name of the macro for a reference, the name of the item for a requirement). The only exception are the texts of errors for marks with a wrong number of arguments, which show the places.", "quantifier": "all texts of such files, all ways to lay out the same tokens, all projects with such files, all parse errors among the marks but those with two or more than three tokens", "why_tests_cant": "A sequence of tokens has unlimited many layouts, and code can be nested to any depth.", "anchors": ["src/parsers/rust.rs::parse", "src/parsers/rust.rs::location_from_span"]}
{"id": "C165", "title": "The layout of JSON artefacts does not matter", "statement": "White space, the way characters are escaped, and the order of the members of objects (in which no name is there twice) make no difference to the requirements that a JSON artefact file gives, to whether it is accepted, to what is covered or to the exit status. Members with names that requirements, references and locations do not have make no difference either.", "quantifier": "all pairs of texts of the same JSON value up to the order of members, all projects with such files", "why_tests_cant": "A JSON value of any depth has unlimited many texts; a test compares a few of them.", "anchors": ["src/controller.rs::Controller::new", "src/models.rs::Requirement", "src/models.rs::Location"]}
{"id": "C166", "title": "From the texts of a project to the verdict", "statement": "In a project as in the introduction of the README (a configuration file with an artefact for a Markdown document, an artefact for Rust code and the relation that the code covers the document), where the document says its requirements without errors and they refer to nothing, and all coverage marks in the code are well formed, a run with a Trace job that counts ends with 0 exactly if there are requirements, every requirement is named by a mark, and every mark names a requirement, with its title or, where the configuration does not ask for titles, without. In any case the requirements reported as uncovered are those that no mark names.", "quantifier": "all texts of the configuration, the document and the code, in any layout, all states of the file system", "why_tests_cant": "Quantifies over all texts of three formats and all combinations of requirements and marks.", "anchors": ["src/main.rs::main", "src/controller.rs::Controller::new", "src/parsers/markdown.rs::parse", "src/parsers/rust.rs::parse", "src/trace.rs::trace"]}
{"id": "C167", "title": "Only ids, titles and references count", "statement": "If in any number of files of a project the texts are reworded (in Markdown the lines before the first requirement, descriptions, the texts of attributes, heading levels and empty lines; in Rust everything but the coverage marks and the names of the items around them; in JSON attributes, tags and places), while ids, titles and references stay, then the program finds the same: the same coverage, uncovered and derived requirements in the same order, the same errors of tracing, and errors in the files of the same artefacts. Every job finds fault with both projects or with none, and if the reports can be written the exit code is the same.", "quantifier": "all projects, all numbers of reworded files, all texts of descriptions and attributes", "why_tests_cant": "Quantifies over all rewordings of all files of all projects; tests try single texts.", "anchors": ["src/main.rs::main", "src/controller.rs::Controller::new", "src/parsers/markdown.rs::parse", "src/parsers/rust.rs::parse", "src/trace.rs::trace"]}
{"id": "C168", "title": "From the directory tree to the verdict", "statement": "In a project with a Markdown document of requirements that refer to nothing and an artefact for all Rust files that its patterns mean below a base directory without wildcards in its name (for example src/**/*.rs), where no two patterns mean the same file, all coverage marks are well formed and no two marked items have the same name: a run with a Trace job that counts ends with 0 exactly if there are requirements, every requirement is named by a mark in a file that exists and is meant, and every mark in every such file names a requirement. Files that are not meant play no part. In any case the requirements reported as uncovered are those that no mark in any of these files names.", "quantifier": "all directory trees, all lists of well-formed patterns, all texts of the configuration, the document and the code, all states of the file system in which the glob library finds what matches, each file once", "why_tests_cant": "Quantifies over all directory trees and patterns in addition to all texts of three formats.", "anchors": ["src/main.rs::main", "src/controller.rs::glob_paths", "src/controller.rs::parse_multiple_files", "src/controller.rs::Controller::new", "src/parsers/rust.rs::parse", "src/trace.rs::trace"]}
{"id": "C169", "title": "From the texts of a project to the text of the report", "statement": "In a project with a Markdown document of requirements that refer to nothing and Rust code (listed files, or all files that patterns mean) whose coverage marks are all well formed, a run that ends with 0 or 1 leaves, as output of a Trace job in the format GnuError, in its file or on the standard output, exactly this text: the heading for parsing errors with nothing below; below the heading for tracing errors, in the order of the requirements' ids and of the items' ids, two lines for each mark with a wrong title (at the mark, and where the requirement is defined) and one for each mark without a title where titles are asked for, then one line if no mark names any requirement, then in the order of the ids one line for each item and each id that its marks name although there is no such requirement, at the first such mark; below the heading for uncovered requirements and the name of the relation one line for each requirement that no mark names, at its place in the document; and below the heading for derived requirements, unless they are to be ignored, one line for each item all whose marks name nothing, at its place in the code.", "quantifier": "all texts of the configuration, the document and the code, all directory trees and patterns, all base directories without wildcards, all states of the file system in which the outputs can be written", "why_tests_cant": "The exact text of the report for all texts of three formats; a test compares the report of one project.", "anchors": ["src/main.rs::main", "src/controller.rs::Controller::new", "src/trace.rs::trace", "src/formatters/gnuerr.rs::tracing", "src/formatters/gnuerr.rs::errors"]}
{"id": "C170", "title": "From the texts of any project to the verdict", "statement": "Take any project, with any number of artefacts of any of the four kinds (Markdown documents, single-requirement files, JSON files, all Rust files that patterns mean) and any relations, whose configuration file and files are well formed, with each artefact configured once. A run with a Trace job that counts and that ends with 0 or 1 ends with 0 if and only if: no id is twice in an artefact or in two artefacts; requirements have titles where the configuration asks for titles; whatever a requirement covers is in the upper artefact of a relation of which its artefact is a lower one, and whatever it depends on is in a lower artefact of a relation of which its artefact is the upper one; each reference gives the title of the requirement it names, or none where the configuration does not ask for titles; along each relation something is covered and every requirement of the upper artefact is covered by, or depends on, one of a lower artefact; and every requirement of an artefact that is configured not to ignore derived requirements, or not configured in this respect and the lower artefact of some relation, covers one above it or is depended on by one. For any state of the file system whatsoever, such a run ends with 0 if and only if the configuration is accepted, nothing is wrong with the files of the configured artefacts, and this holds of the requirements in them. If nothing is wrong with the files and no id is in two artefacts, then in any case the requirements reported as uncovered along a relation, and those reported as derived, are exactly those without such a link.", "quantifier": "all projects with well-formed texts: all numbers of artefacts and relations, all texts of the configuration, documents and code, all directory trees and patterns, all base directories without wildcards", "why_tests_cant": "The verdict is characterised by the texts of the project alone for projects of every shape; tests run a few projects.", "anchors": ["src/main.rs::main", "src/controller.rs::Controller::new", "src/trace.rs::trace", "src/controller.rs::parse_from_config"]}
{"id": "C171", "title": "From the texts of any project to the lists of its requirements", "statement": "Take any project, with any number of artefacts of any of the four kinds and any relations, whose configuration file and files are well formed, in which no id is there twice and requirements have titles where the configuration asks for titles. After a run that ends with 0 or 1, the output of a Parse job is exactly the list of the requirements in the texts: in the format for ctags, four lines about the file and then, for each requirement that stands in a line, the line with its id, file and line, all sorted; in Markdown, for each requirement in the order of their ids its heading, place, description, references and attributes; in JSON, version 0, an object for each requirement in the order of their ids, and no errors. There is only one such text.", "quantifier": "all projects with well-formed texts: all numbers of artefacts and relations, all texts of the configuration, documents and code, all directory trees and patterns, all base directories without wildcards; all three formats; files and standard output", "why_tests_cant": "The complete text of the output is characterised by the texts of the project for projects of every shape; tests compare a few outputs.", "anchors": ["src/main.rs::main", "src/controller.rs::Controller::run", "src/formatters/tags.rs::requirements", "src/formatters/markdown.rs::requirements", "src/formatters/serialize.rs::Requirements::new"]}
{"id": "C172", "title": "From the texts of any project to the report in the form of compiler errors", "statement": "Take any project, with any number of artefacts of any of the four kinds and any relations, whose configuration file and files are well formed, in which no id is there twice and requirements have titles where the configuration asks for titles. After a run that ends with 0 or 1, the output of a Trace job in the format of compiler errors is exactly this text: for each relation in the order of the configuration a line for each reference along it with a wrong title (and a note with the place of the requirement) or without a title that is asked for, and a line if nothing is covered along it; a line for each id that is covered and is in no artefact above, and one for each id that is depended on and is in no artefact below, in the order of the ids, with the place of the first reference; for each relation the requirements of the upper artefact that nothing covers; for each artefact, in the order of the ids, the requirements that must cover something and do not. There is only one such text.", "quantifier": "all projects with well-formed texts: all numbers of artefacts and relations, all texts of the configuration, documents and code, all directory trees and patterns, all base directories without wildcards; files and standard output", "why_tests_cant": "The complete text of the report is characterised by the texts of the project for projects of every shape; tests compare a few reports.", "anchors": ["src/main.rs::main", "src/controller.rs::Controller::run", "src/formatters/gnuerr.rs::tracing", "src/trace.rs::trace"]}
{"id": "C173", "title": "From the texts of any project to the Markdown report of a trace", "statement": "Take any project, with any number of artefacts of any of the four kinds and any relations, whose configuration file and files are well formed, in which no id is there twice and requirements have titles where the configuration asks for titles. After a run that ends with 0 or 1, the output of a Trace job in Markdown is exactly this text: an item for each thing that is wrong (references with a wrong title or without one that is asked for, relations along which nothing is covered, references to nothing), each text once; for each relation with requirements of the upper artefact that nothing covers, links to them; for each artefact, in the order of the ids, with requirements that must cover something and do not, links to them; then for each artefact each of its requirements in the order of the ids, with title, artefact, place, description, attributes, what it covers along each relation to its artefact with the places of the references or that it is derived, and what covers it along each relation from its artefact or that it is uncovered. There is only one such text.", "quantifier": "all projects with well-formed texts: all numbers of artefacts and relations, all texts of the configuration, documents and code, all directory trees and patterns, all base directories without wildcards; files and standard output", "why_tests_cant": "The complete text of the report is characterised by the texts of the project for projects of every shape; tests compare a few reports.", "anchors": ["src/main.rs::main", "src/controller.rs::Controller::run", "src/formatters/markdown.rs::tracing", "src/aggregator.rs::AggregatedGraph::new", "src/trace.rs::trace"]}
{"id": "C174", "title": "From the texts of any project to the result of a trace in JSON", "statement": "Take any project, with any number of artefacts of any of the four kinds and any relations, whose configuration file and files are well formed, in which no id is there twice and requirements have titles where the configuration asks for titles. After a run that ends with 0 or 1, the output of a Trace job in JSON is exactly the text of this value: version 0 and the trace, with each artefact in the order of the ids (its files, whether underived requirements are ignored, whether references need titles, its requirements in the order of their ids as the texts say them, no errors), each relation in the order of the configuration with the references along it (ids, place, direction) and the ids that nothing covers, for each artefact the ids of the requirements that must cover something and do not, and what is wrong. There is only one such text.", "quantifier": "all projects with well-formed texts: all numbers of artefacts and relations, all texts of the configuration, documents and code, all directory trees and patterns, all base directories without wildcards; files and standard output", "why_tests_cant": "The complete text of the result is characterised by the texts of the project for projects of every shape; tests compare a few results.", "anchors": ["src/main.rs::main", "src/controller.rs::Controller::run", "src/formatters/serialize.rs", "src/trace.rs::trace", "src/models.rs"]}
{"id": "C175", "title": "From the texts of any project to everything that a run leaves", "statement": "Take any project, with any number of artefacts, relations and jobs, whose configuration file and files are well formed. On a system on which creating and writing files works, the program gets to its end (exit code 0 or 1) exactly if the relations are between configured artefacts and there are jobs to run, all of them known and with a format that their query has. If it gets to its end and no id is there twice and requirements have titles where the configuration asks for titles, then all that it leaves is said by the texts: the standard output grows by the texts of the jobs for the standard output, in the order in which they run; each file that is the target of a job has the text of the last such job; the standard error and all other files are as they were; no directory is gone, and new ones are only those above target files. The text of a job is the list of all requirements in its format or the report of the trace in its format. The exit code is 1 exactly if one of the jobs is a Trace job that may set the return code and not everything is traced. There is only one such outcome.", "quantifier": "all projects with well-formed texts, all numbers and orders of jobs, all targets (also several jobs with the same target, under different names), all states of the file system", "why_tests_cant": "The whole effect of a run is characterised by the texts of the project, for all projects and all lists of jobs; tests look at a few outputs of single jobs.", "anchors": ["src/main.rs::main", "src/controller.rs::Controller::run", "src/controller.rs::Controller::run_jobs_by_name", "src/formatters/serialize.rs", "src/trace.rs::trace"]}
