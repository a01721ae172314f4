# Formal model of reqtrace in Lean 4: design

`/repo` is modelled as pure Lean functions, file by file.  Every definition of the model cites the Rust lines it
models and says where it simplifies.  Properties are theorems about these functions, for all inputs.  Their
statements use small specifications (`lean/Verif/Spec`) that do not mention the functions of the model.

Contents: 1 layout, 2 conventions, 3 what is modelled, 4 what is not (parameters), 5 trusted base, 6 properties,
7 mutation tests.

## 1 Layout (`lean/Verif`)

| module | models |
|---|---|
| `Basic` | text (`Str := List Char`), panics as values, `BMap`/`BSet` for `BTreeMap`/`BTreeSet` |
| `Regex` | the leftmost-first semantics of the `regex` crate on the operators the code uses; `str::trim*` |
| `Utf8`, `Reader` | UTF-8, `BufRead::read_line`, `lines`, `read_to_string` over bytes with read failures |
| `Path` | `std::path::Path` on Unix: `join`, `parent`, `file_stem`, … |
| `Models`, `Location` | `src/models.rs`: data types, `Location::parse`, `Display`, `partial_cmp` |
| `Json`, `JsonRead` | `serde_json` (pretty printer, compact printer, reader) and the derived `Serialize`/`Deserialize` |
| `ConfigRead` | the derived `Deserialize` of the configuration, on the value tree of a TOML document |
| `Toml` | a reader for the part of TOML that configurations need, and the hypothesis `ReadsToml` that the library agrees with it (used by C162 only) |
| `Glob` | how the patterns of paths are understood, and the hypothesis `GlobWorks` that the library finds what matches (used by C163 only) |
| `RustText` | a reader for a part of Rust, and the hypothesis `ReadsRust` that `syn` agrees with it (used by C164, C166 and C168 to C170) |
| `Trace` | `src/trace.rs` |
| `Aggregator` | `src/aggregator.rs` |
| `Markdown` | `src/parsers/markdown.rs` |
| `MonoReq` | `src/parsers/monoreq.rs` |
| `RustParser` | `src/parsers/rust.rs` (the visitor, on the part of the syntax tree it distinguishes) |
| `Formatters` | `src/formatters/*.rs` |
| `Controller` | `src/controller.rs`, `src/main.rs`, and the operating system as far as the program uses it |
| `Cli` | the declaration of the arguments in `src/main.rs` and `clap`'s reading of the words |
| `Log` | the log: every `log::…!` in `src/main.rs`, `src/controller.rs`, `src/trace.rs`, `src/parsers/*.rs`, `src/formatters` |
| `Spec/*` | specifications: data types, lists, logic, inductive relations; none of the functions of the model |
| `Props/*` | the property theorems, one file per area, with examples that meet the hypotheses |
| `Lemmas/*` | everything else that is proved |
| `Test/*` | the unit tests and the data tests of the repository, run on the model by the kernel; `Test/Repo`: the model makes `reports/tmx.md`, the report of the repository about itself (99 kB), to the last character, run by the interpreter (tests, not proofs) |

## 2 Conventions

* A `panic!`, `unwrap`, `expect`, index, `todo!` or `assert!` is the `panic` value of `PanicM := Except Panic`.
* `BTreeMap` is an association list in strictly increasing key order; the order is that of Rust's `Ord` for `String`
  (by code point, which is the same as by bytes of UTF-8).
* A loop is a fold or a recursion over the list it walks; `&mut self` is state passing; `Rc<T>` is `T`.
* `usize` is `Nat`, except where the code reads numbers: there 2^64 is the bound.
* A writer is `Out`: the text written so far and whether a panic followed.
* The world (`World`) holds the bytes of the files, the directories, standard output and standard error.  Every
  operation on it may fail, at any time, as a parameter (`Os`) decides that may look at the whole world.

## 3 What is modelled

All of `src/trace.rs`, `src/aggregator.rs`, `src/parsers/*.rs`, `src/formatters/*.rs`, `src/models.rs`,
`src/controller.rs` and `src/main.rs`, except for what section 4 lists.  Among the libraries: the regular
expressions, UTF-8 decoding, reading of lines, paths, JSON writing and reading, `Debug` of strings, the derived
`Serialize`, `Deserialize`, `PartialOrd`, `Display`.

## 4 What is not modelled

* The texts that `clap` shows (help, version, complaints) are parameters (`Cli.Texts`).  Words that are not UTF-8 are
  left out.  How `clap` 4.5.3 reads words is modelled from its documentation, because its source is not in the
  repository (`Cli`); all statements other than C102 to C105 take the command line as parsed (`Arguments`).
* Logging is a model of its own (`Log`) beside the one of the program: `Log.main` is `Main.main` with the log lines on
  standard error, and C118 says that nothing else differs.  In all other statements `World.stderr` is what `eprintln!`
  writes, without log lines.  How `env_logger` reads filters (`-l`, `REQTRACE_LOG`) is a parameter (`Logger`), as are
  the `Debug` text of a path and the time a run takes (`LogEnv`).  Log lines are written after all other effects have
  been computed; that standard error and standard output may be the same terminal is left out.
* The message of a panic is not written to `World.stderr`.
* `src/util.rs` is used in tests only.  `src/lib.rs` and `src/parsers/mod.rs` only declare modules.
* The text syntax of TOML, except in C162 (`Verif/Toml.lean`): `Env.tomlTree` delivers the value tree of the document, or the position and text of an
  error.  toml 0.5 refuses an enum spelled as a table of its own (`[jobs.x.format]`) and accepts an inline table; the
  model accepts both.
* `syn`: `Syn.parseFile` delivers a syntax tree or an error; the tree is arbitrary.  Which source text gives
  which tree is modelled for a part of Rust only (`Verif/RustText.lean`, used in C164, C166 and C168 to C170), the `Debug` text of tokens not at all.
* `glob`: `Os.glob` delivers paths and errors; what patterns mean is only assumed in C163 (`GlobWorks`, `Verif/Glob.lean`).
* Texts of library errors (`io::Error`, `serde_json::Error`, `toml::Error`, `syn::Error`) are parameters.
* Unicode tables: `XID_Start`, `XID_Continue`, `Nd` (`Unicode`), lower case, the characters that `Debug` shows as they
  are (`FmtEnv`).  The laws that are assumed of them are fields of these structures: what they are on ASCII;
  `XID_Start ⊆ XID_Continue`; no `XID_Continue` is white space.  `Unicode.ascii` and `FmtEnv.example` meet them.
  `White_Space` is written out.
* The order that `sort_unstable_by_key` gives to errors with equal text (`FmtEnv.sortErrors`, any sort).
* The input files are read as one snapshot.  What a path denotes (`Os.resolve`) does not change during a run.
* A directory given as an input file opens and then fails on reading.  In the model it is a file with no content whose
  reading fails (`Os.readErr`); without that it counts as not found.
* `World.stdout` is what the program has handed to the standard library.  A write failure is one that the program sees.
  What of it arrives at the other end is a matter of `Stdout` (C125).
* `eprintln!` panics if standard error cannot be written; the model's standard error never fails.
* The program itself never compares paths, locations or errors; how `==` and `partial_cmp` compare them is in `Order`.
* serde_json builds values while it reads, the model reads a value first: this matters only for which of several
  errors is reported, and for strings in members that are ignored: unpaired surrogates and bytes that are not UTF-8
  are refused by the model.  The recursion
  limit of 128 concerns only values of unknown members and is left out.
* Memory, time (`Instant`, the millisecond count goes to the log), signals, concurrency: the program has one thread.

## 5 Trusted base

* Lean's kernel (4.33.0).  No axioms are added; there is no `sorry`, `admit`, `native_decide`, `bv_decide`.  Only
  Lean's own library is imported.
* Axioms: every theorem of the manifest depends on at most `propext`, `Classical.choice` and `Quot.sound`.  These depend
  on less:
  * `propext, Quot.sound`: `C101_mono`, `C102_every`, `C107_ids`, `C110_ident`, `C124_error_kinds`, `C167_rust`, `C167_moved`, `C22_distinct_partial`, `C42_determined`, `C43_plain_title_partial`, `C49_comparable`, `C54_gnu_names`, `C54_markdown_names`, `C63_heading`, `C64_distinct_partial`, `C64_exact_partial`, `C72_determined`, `C86_encode`, `C90_config`
  * `propext`: `C101_location`, `C107_determined`, `C118_line`, `C124_false`, `C133_false`, `C135_false`, `C150_mono`, `C150_json`, `C167_json`, `C38_one_paragraph`, `C43_false`, `C44_false`, `C45_false`, `C49_false`, `C50_lines_determined`, `C54_location_link`, `C56_anchor`
* That the model is faithful to the code.  It is written by reading `/repo`; the code was not run.  Comments cite the
  lines, `Test/*` replays the repository's own tests on the model and makes the repository's report about itself.
* That the specifications say what the English says.  They are small and are read together with the theorem.  Where a
  specification is an inductive relation, a `_determined` theorem shows that it leaves no choice, and an example shows
  that it is not empty.

## 6 Properties

A property that the code does not have is kept as listed: `Cxx_statement` is the full statement, `Cxx_false` refutes it
with a concrete input, and the theorems ending in `_partial` prove the part that holds, usually with the exact condition.
All listed properties can be expressed in the model.  The theorems of each property are listed in `MANIFEST.json`.

| id | property | model | specification | how it is proved | status and limits |
|---|---|---|---|---|---|
| C01 | Coverage is reported exactly where a reference establishes it | Trace | Spec/Trace | tracing a relation amounts to a list of coverage events; the static part of the state is invariant; events equal a comprehension over the graph | **proved**. exact set, and exact list with order and multiplicity; hypothesis: maps keyed by ids (established by C18) |
| C02 | Uncovered is exactly the complement of covered | Trace | Spec/Trace | from the event list of C01 | **proved**.  |
| C03 | Derived is exactly the set of owned requirements that cover nothing | Trace | Spec/Trace | the derived sets shrink exactly by the covering ids of the events (fold invariant) | **proved**.  |
| C04 | A dangling `covers` reference is reported, and only a dangling one | Trace | Spec/Trace | the sets of unresolved references shrink exactly by the resolved ones (fold invariant) | **proved**.  |
| C05 | A dangling `depends` reference is reported, and only a dangling one | Trace | Spec/Trace | as C04 | **proved**.  |
| C06 | A wrong title in a resolved reference is always reported, a right one never | Trace | Spec/Trace | errors of a relation as a function of its events | **proved**.  |
| C07 | Artefacts that require titles get every untitled reference reported | Trace | Spec/Trace | as C06 | **proved**.  |
| C08 | An id defined in two artefacts is always reported | Trace | Spec/Trace | invariant of the loop that builds the index of requirements | **proved**.  |
| C09 | A relation along which nothing is covered is reported | Trace | Spec/Trace | as C06 | **proved**.  |
| C10 | Tracing never panics on a graph whose relations name existing artefacts | Trace | Spec/Trace | every lookup of the loops succeeds under the invariant; converse for the upper artefact | **proved**.  |
| C11 | Tracing keeps the input: same artefacts, same relations, same order | Trace | Spec/Trace | frame invariant of the loops | **proved**.  |
| C12 | Relations are independent and their order does not matter | Trace | Spec/Trace | corollary of the exact description of the result | **proved**.  |
| C13 | Adding a relation never makes tracing of references worse | Trace | Spec/Trace | corollary of the exact description of the result | **proved**.  |
| C14 | Cross-referencing a traced graph never panics | Aggregator | Spec/Aggregator | invariants of both loops of `AggregatedGraph::new`; witness for the failure | **partial**. False as listed: tracing ignores an unknown lower artefact when the upper artefact is empty, aggregation then panics (C14_false). Proved: aggregation of a traced graph returns iff all artefacts named by relations exist. |
| C15 | Cross references are exactly the coverages, in both directions | Aggregator | Spec/Aggregator | the maps are folds over the coverages; membership by induction | **proved**. For every graph on which trace and aggregation return. When an id is defined twice the entry shows the last artefact's definition. Equal relations listed twice share one entry, with the coverages of both. |
| C16 | The traceability matrix agrees with the uncovered list | Trace, Aggregator | Spec/Aggregator | C02 with C15 | **proved**.  |
| C17 | No parsed requirement vanishes silently inside an artefact | Controller | Spec/Controller | fold invariant of the insertion of requirements | **proved**.  |
| C18 | The controller builds a consistent graph | Controller | Spec/Controller | invariant over artefacts; C10 for the result | **proved**. Reporting cannot panic except for a job whose format is not available for its query (see C57). |
| C19 | Default of ignore_derived_requirements is 'is a root artefact' | Controller | Spec/Controller | case analysis with the list of relations | **proved**.  |
| C20 | An artefact that requires titles reports each of its own untitled requirements | Controller | Spec/Controller | induction over the requirements | **proved**.  |
| C21 | A relation naming an unknown artefact is never accepted, and is reported with exit code 2 | Controller | Spec/Controller | C10 for the first half; witness run for the second | **partial**. The first half holds. The second is false: Controller::new panics, so the process ends with 101 instead of 2. |
| C22 | Every configured artefact takes part in the trace | Controller | Spec/Controller | the last of equal keys wins in `BTreeMap::insert`; witness | **partial**. False as listed: of two entries with the same id the earlier is dropped without an error. Proved for the last entry of each id, so for all entries if ids are distinct. |
| C23 | The verdict of a job is exact | Controller | Spec/Controller | exact condition for each query | **proved**.  |
| C24 | The result of running jobs reflects exactly the jobs that may set the return code | Controller | Spec/Controller | induction over the jobs | **proved**.  |
| C25 | An unknown job name prevents every job from running | Controller | Spec/Controller | the search for jobs comes before the run | **proved**.  |
| C26 | Jobs run in order and stop at the first fatal error | Controller | Spec/Controller | induction over the jobs | **proved**.  |
| C27 | A job writes only to its own output | Controller | Spec/Controller | frame property of every operation on the world, lifted to runs | **proved**. The meaning of paths is a parameter that does not change during a run. |
| C28 | Exit code contract | Controller | Spec/Controller | case analysis of the whole run; witness | **partial**. False as listed: if a relation names an unknown artefact, the program panics (101) before it notices a missing or unknown job. Everything else is proved, with the exact condition for each of the codes 0, 1, 2. |
| C29 | A successful Trace job implies a successful Parse job | Controller | Spec/Controller | C23 and the inclusion of errors | **proved**.  |
| C30 | The Markdown parser never panics | Markdown | Spec/Markdown | progress of the loop over lines; exact panic condition | **partial**. False as listed: a last line of one ASCII character without line feed fails the assertion at markdown.rs:91 (C30_false). Proved: the parser panics for exactly these texts, for every read failure. |
| C31 | Every requirement heading becomes a requirement | Markdown | Spec/Markdown | invariant over the prefix of lines read | **partial**. False as listed: a heading without id, or a Format error, after the last requirement heading makes the parser forget that requirement (C31_false). Proved: all requirements are there exactly if neither occurs in the last section. |
| C32 | Requirements only come from requirement headings, in order, at their line | Markdown | Spec/Markdown | invariant over the prefix of lines read | **proved**. For every text and read failure. |
| C33 | Requirement ids and titles from Markdown headings are well formed | Markdown, Regex | Spec/Markdown | the meaning of the heading regex, by inversion of the matcher | **partial**. False as listed: `# REQ_1: ` gives an empty title (C33_false). Proved: everything else, and an empty title only if nothing but white space follows the colon. |
| C34 | Sections are parsed independently: an error never spreads past the next requirement heading | Markdown | Spec/Markdown | bisimulation of two runs that differ in line offset and history | **proved**.  |
| C35 | Text before the first requirement heading is ignored | Markdown | Spec/Markdown | invariant of the initial state | **proved**.  |
| C36 | Each parse error and reference points at the line that caused it | Markdown | Spec/Markdown | invariant over the prefix of lines read | **proved**. Also: what is wrong with the line that an error names, and which requirement a DuplicateAttribute error names. |
| C37 | A canonical requirement document parses back to the requirements it was written from | Markdown | Spec/MdWriter | symbolic run over an arbitrary document | **proved**. For every list of well-formed items (Spec/MdWriter): ids, titles, one-paragraph descriptions, reference lists, text attributes. |
| C38 | Description text is kept completely | Markdown | Spec/Markdown | step lemmas lifted to runs; witness | **partial**. False as listed: the first line of each paragraph after an empty line is lost (C38_false). Proved: exactly which text the description consists of, and that one paragraph is kept whole. |
| C39 | A repeated attribute is reported | Markdown | Spec/Markdown | step lemmas lifted to runs | **proved**. Reported for a repeated attribute; and only for one that already has a value. |
| C40 | Malformed lines in attribute sections are reported, not skipped silently | Markdown, Regex | Spec/Markdown | step lemmas; witness | **partial**. False as listed: a line below a list that merely ends with a word is silently taken as a reference (C40_false). Proved for the lines the parser does not take as a reference. |
| C41 | Line ending style does not change what is parsed | Markdown | Spec/Markdown, Spec/Crlf | simulation of the two runs line by line; witnesses | **partial**. False as listed: an empty line with CR LF is not empty for the parser, so attributes end up in the description (C41_false). Proved: of a document in which no empty line matters (none below a requirement heading or in a description, at most one below a list of references, and no heading or item that ends with a colon) CR LF gives the same requirements, references and errors, and the texts of attributes differ by carriage returns only (C41_document_partial); of any document whose headings do not end with a colon the same requirements are found (location, id, title), up to the last that may be missing (C41_headings_partial); whether the assertion fails never depends on the line ends (C41_panic_partial). Missing: nothing that is true of the code for the documents named; for the others the statement is false, with a witness for each case. |
| C42 | A mono-requirement file gives exactly one requirement | MonoReq, Path, Regex | Spec/MonoReq | induction over the lines; meaning of the arrow regex | **proved**. With BufRead::lines, Path::file_stem and the regex modelled. A path without file name gives the requirement README and a Config error (C42_no_stem). |
| C43 | Every coverage mark in Rust code becomes exactly one reference or one error | RustParser | Spec/Rust | structural induction over the syntax tree; witness | **partial**. False of the code for string literals with escapes: all quotes are dropped, escapes stay (C43_false). Proved otherwise: one reference or error per mark, in order. syn's tree is an arbitrary parameter; marks that syn does not deliver as ExprMacro (brace macros, nested macros) are out of scope. |
| C44 | A coverage mark is attributed to the path of its enclosing items | RustParser | Spec/Rust | structural induction over the syntax tree; witness | **partial**. False of the code: items with the same path in sequence are merged, so a reference may belong to a requirement located at another item (C44_false). Proved: ids, grouping into runs, location of each run's first mark. |
| C45 | The Rust parser never panics | RustParser | Spec/Rust | structural induction over the syntax tree; witness | **partial**. False of the code: a mark outside items, for example in a const block, panics (C45_false). Proved: it returns exactly if there is no such mark. |
| C46 | Coverage marks of Rust code are not lost on the way into the artefact | RustParser, Controller | Spec/Rust | C44 and C17; witness | **partial**. False as listed: marks behind a nested function with marks make a second requirement with the same id, which is dropped with an error. Proved: each mark is kept, or an error names the requirement that has it. |
| C47 | Location text round trip | Location, Regex | Spec/Location | the location regex on printed locations | **proved**. For every Unicode digit table satisfying the stated laws. Numbers must fit usize. |
| C48 | Location::parse never panics and keeps all text | Location, Regex | Spec/Location | case analysis of the groups | **proved**.  |
| C49 | Comparison of positions in a file is a lawful partial order | Models | Spec/Location | case analysis; witness | **partial**. False as listed: Line(5) and LineAndColumn(5,0) compare Equal but differ (C49_false). Proved: antisymmetry, transitivity, Equal exactly for the same place where a line is its column 0. |
| C50 | The tags file is sorted and complete | Formatters | Spec/Formatters | merge sort laws, inductive description of lines | **proved**. The lines are those of an inductive specification that leaves no choice; sorted and complete. |
| C51 | The JSON export is complete and sorted | Formatters, Json | Spec/Formatters | shape of the value; sort laws | **proved**. At the level of the JSON value and its printed text; sort_unstable_by_key on errors is an arbitrary sort. |
| C52 | JSON requirements can be imported again | Formatters, JsonRead | Spec/Json | reader applied to printer, by induction over values | **partial**. False as listed, for every graph: the export is an object and the Json parser expects an array. Proved at the level of text, through a model of serde_json's reader: the member 'requirements' of the export, as a file of its own, gives the requirements again (positions that fit into usize). |
| C53 | Reports never panic on a traced graph | Formatters | Spec/Formatters | every lookup succeeds; witness | **partial**. False as listed: with a relation from an empty artefact to an unknown one, trace returns and the Markdown report panics. Proved for both reports when the relations name existing artefacts (which Controller::new ensures), and for the GNU-error report always. |
| C54 | The reports mention every problem | Formatters | Spec/Formatters, Spec/Output | induction over the errors | **proved**. Both reports contain the text for each problem, in the words of Spec.gnuLines and Spec.markdownError; each of these texts names its places and what the error is about; sections and how often a text is there. The Markdown half needs that the relations name existing artefacts (C53). |
| C55 | Duplicate requirement reports name the first definition as first | Formatters | Spec/Formatters, Spec/Report | text of the error; witness | **partial**. False as listed: the Markdown report exchanges the two places. Proved for the GNU-error report, with what the Markdown report says instead. |
| C56 | Links to requirements are valid anchors | Formatters | Spec/Formatters | filter by character class | **proved**. str::to_lowercase is a parameter. |
| C57 | Unsupported combinations of query and format are rejected before the output is touched | Controller, Formatters | Spec/Controller | case analysis; witness run | **partial**. False as listed: the output is opened and emptied first, then the program panics (todo!). |
| C58 | A missing or unreadable input file is an artefact error and nothing else is lost | Controller | Spec/Controller | frame over artefacts | **proved**.  |
| C59 | Tracing and cross-referencing never panic when relations name existing artefacts | Trace, Aggregator | Spec/Trace | C10 and C14 | **proved**.  |
| C60 | The mono-requirement title is the documented one | MonoReq | Spec/MonoReq | trim lemmas; witness | **partial**. False of the code: the first line is taken untrimmed (C60_false). Exactly: the title is the documented one if and only if there is no line at all or the first line starts and ends with a word character. |
| C61 | Every arrow in a mono-requirement file is a reference | MonoReq, Regex | Spec/MonoReq | meaning of the arrow regex; witness | **partial**. False of the code: only the leftmost arrow whose id (and title) extends to the end of the line counts, and none in the first line (C61_false). Exactly: these are the references, and nothing else is. |
| C62 | A read failure does not crash the mono-requirement parser | MonoReq, Reader | Spec/MonoReq | induction over the lines; witness | **partial**. False of the code: todo!() on a read error (C62_false). Proved: it panics exactly then. |
| C63 | Links lead to the section of the requirement | Formatters | Spec/Formatters | character-wise induction; the exact condition by comparing which characters the two filters keep; witness | **partial**. False as listed: letters outside ASCII are dropped from the link but stay in the heading's anchor. Proved exactly: the anchors agree if and only if the id and the title in lower case have no letter or digit outside ASCII (for a lower-casing that acts on id and title separately, as Rust's does; without that assumption for ASCII ids and titles). |
| C64 | Links to different requirements are different | Formatters | Spec/Formatters | injectivity of the anchor text; witness | **partial**. False as listed (case, characters outside ASCII, A-B against A with title B). Exactly: two links lead to the same anchor if and only if id and title look the same in lower case without what is outside letters, digits, '_' and '-' of ASCII. In particular ids of letters, digits and '_' that differ in more than case have different anchors. |
| C65 | JSON exports lose nothing | Formatters, Json | Spec/Json | injectivity of serialisation through the reader | **proved**. Through a reader of JSON text that is proved to read back what is printed. |
| C66 | A job leaves exactly its output | Controller | Spec/Controller | effect of create, write and failure on the world | **proved**.  |
| C67 | The result of tracing is exactly determined | Trace | Spec/Trace, Spec/Project | the result as list comprehensions, then as logical conditions | **proved**. Spec/Trace.lean gives the lists as comprehensions, Spec/Project.lean the logical conditions. For graphs whose maps are keyed by the ids of their values, which C18 shows of every graph the controller builds. |
| C68 | No problem with the input is silent | Controller | Spec/Input | C82 | **proved**. FilesOf, Holds, CleanArtefact in Spec/Input.lean. A mono requirement that cannot be read makes the program panic, so there is no graph then. |
| C69 | The listed files are the input | Controller | Spec/Input | induction over the listed files | **proved**. Globbing is a parameter; which files match is part of the hypothesis. |
| C70 | A Markdown file that breaks off | Markdown, Reader, Utf8 | Spec/Markdown | a failing read is the text before it followed by the end | **proved**. At the level of bytes. |
| C71 | The report says everything about each requirement | Formatters | Spec/Report | inductive relation, shown to determine the text | **proved**. RequirementSection in Spec/Report.lean; it determines the text. How a link looks is C56. |
| C72 | The Markdown list of requirements is complete | Formatters | Spec/Report | as C71 | **proved**. RequirementEntry in Spec/Report.lean. For a requirement without title the heading ends in ': ' (markdown.rs:64-68). |
| C73 | References only help | Trace | Spec/Project | C67 | **proved**. MoreReferences (Spec/Project.lean) compares the referenced ids only. |
| C74 | Coverage depends on ids only | Trace | Spec/Project | C67, C73 both ways | **proved**. Two graphs with MoreReferences in both directions. |
| C75 | A green run means a clean project | Controller | Spec/Input | C67, C68, C23 | **proved**. CleanProject in Spec/Input.lean. Of several entries with the same id only the last is considered (C22). |
| C76 | What a Markdown document means | Markdown, Regex | Spec/Document | grammar of lines and sections, each parser state corresponds to an open section | **proved**. Spec/Document.lean: grammar of lines, attributes, sections; every text has exactly one meaning. The panic at markdown.rs:91 is excluded (C30). |
| C77 | Which JSON artefact files are accepted, and what they mean | JsonRead | Spec/Json | reader against a grammar of RFC 8259: soundness, completeness, unambiguity | **proved**. Against a grammar of RFC 8259 and a relation between JSON values and requirements, both stated apart from the reader. |
| C78 | What the configuration file says | ConfigRead | Spec/Config | reader against a relation between value trees and configurations | **proved**. From the value tree of the TOML document on; the reading of the text is a parameter. The exit code is part of C28. `C78_written`: every configuration has a document that says it. |
| C79 | A misspelled setting is reported | ConfigRead | Spec/Config | C78; witness | **partial**. False as listed: unknown names are ignored, so a misspelled optional setting (e.g. set_return_code) has no effect and no message. Proved: a misspelled mandatory setting is reported, in every table (C79_mandatory_partial); and adding a name that is no setting never changes the configuration, in every table (C79_ignored_partial), so that nothing else is reported. |
| C80 | The complete result for a Rust file | RustParser | Spec/Rust | inductive meaning of the tree, structural induction | **proved**. For every syntax tree, position and text that syn may deliver (parameter Syn) and every read result. Panics are the files without meaning, C45 says which. |
| C81 | The complete result for an input file | all parsers | Spec/Files | C42, C76, C77, C80 joined | **proved**. FileMeans in Spec/Files.lean, built from the format specifications (Markdown, mono requirement, Rust, JSON) and not from the parsers. The text of the serde_json error and the syn result are parameters. |
| C82 | The graph is exactly what the configuration and the files mean | Controller | Spec/Whole | C81 lifted over files, artefacts and relations | **proved**. IsInput in Spec/Whole.lean. Globbing is a parameter. |
| C83 | The parent directories of an output file | Path | Spec/Path | components of a text against a description by concatenation | **proved**. Spec/Path.lean describes paths as texts (Unix). `Parent` and `Parents` do not use the functions of the model. |
| C84 | The whole run of the program | Controller | Spec/Run | relation between the worlds before and after; case analysis of the run; determinism | **proved**. `ProgramEnds` is an independent relation in Spec/Run.lean; `C84_determined` shows that it determines the outcome. The texts of the reports are those of C85. |
| C85 | The exact text of every report | Formatters, Json | Spec/Output | inductive relation between graph and text for every query and format; determinism | **proved**. `Report` in Spec/Output.lean is an independent relation between the graph and the text. What remains open (parameters in `FmtEnv`): lower case of letters, which characters `Debug` shows unescaped, the order of exported errors with equal text. |
| C86 | Text in files is UTF-8 | Utf8 | Lean library | against `String.utf8EncodeChar` and `ByteArray.IsValidUTF8` | **proved**. Against `String.utf8EncodeChar` and `ByteArray.IsValidUTF8` of Lean's library. |
| C87 | What the text of a location means | Location, Regex | Spec/Location | all results of the location regex, backwards from the end of the text | **proved**. `LocationText` and `Count` in Spec/Location.lean are independent relations. |
| C88 | A run depends only on what it reads, and a second run changes nothing | Controller, Main | Spec/Rerun | both runs are described by C84, whose description depends on the state only through the input; `C27` for the second run | **proved**. Reliable, SameInput, SameEffect and OutputsApart are in Spec/Rerun.lean. |
| C89 | The order of configured artefacts does not matter | Controller | Spec/Rerun | the description of the input graph (C82) does not mention the order, except for which of equal ids is last | **proved**. For every c: `Controller::new` returns c for the one configuration iff it does for the other. |
| C90 | An unrelated artefact changes nothing about the others | Trace, Controller | Spec/Project | the description of the traced graph (C01-C09) relative to the relations; C82 for the configuration | **proved**. AddsArtefact and Isolated are in Spec/Project.lean; the errors are compared as a set, since the new ones stand between the old ones. |
| C91 | Ids have the documented form | parsers, Controller | Spec/Doc (`GoodIds`), `IsIdent` | each requirement of the graph stands in a file whose meaning (C81) has it `C91_file_partial` is by induction over the relations of `Spec/Document.lean`. | **partial**. False as listed: the id of a mono-requirement is the stem of the file name, JSON and Rust ids are not checked, ids right after `Covers:` and `Depends:` are not checked. Proved: ids of requirements of Markdown artefacts and references of mono-requirement artefacts have the form; in a Markdown file all ids have it if those right after `Covers:` and `Depends:` do; in a mono-requirement file exactly if the stem does. |
| C92 | The encoding of files | Reader, Utf8, Controller | Spec/Files | case distinction on the meaning of the file (C81) | **partial**. False as listed: only UTF-8 is accepted. Proved exactly what happens to other files: a read error at the file for Markdown and Rust and in no other case, no requirements for Rust, a format error for JSON, and no normal return for mono-requirements. |
| C93 | References match after Unicode normalisation | Trace | Spec/Trace | C01 | **partial**. False as listed: ids are compared code point by code point; é in one and in two code points do not match. Proved for ids that are normalised already; `C93_exact_partial` says for all ids what coverage is instead: a reference in one direction or the other which is the id, code point by code point. |
| C94 | The documented example of a Markdown requirement | Markdown | Spec/Doc (`docExample`, `DocExampleResult`) | evaluation for the ASCII tables, C101 for all others | **partial**. False: the heading inside of the description ends the section, and because another requirement does not follow, the requirement is lost without an error, with all tables and paths. Proved that it is read as documented without the two headings that start no requirement. |
| C95 | The attribute Tags | Markdown, MonoReq, RustParser | Spec/Document | the meanings of files (C81) all have no tags | **partial**. False: tags stay the text of an attribute. Proved that Markdown, mono-requirement and Rust files never give tags; that the text is kept is C76. |
| C96 | JSON exports say their version | Formatters, Json | Spec/Json | the text is read back with the reader proved correct in C77 | **proved**. `JsonText.Document` is the grammar of JSON in Spec/Json.lean. |
| C97 | The documented JSON import | JsonRead | Spec/Doc (`DocJson`) | C77 | **partial**. False: no object is accepted, whatever its members. Proved that the list alone is accepted. |
| C98 | Derived requirements, from the configuration on | Controller, Trace | Spec/Trace, Spec/Controller | C03 and C19 | **proved**.  |
| C99 | All files that are read are listed | Controller | Spec/Doc (`Consumed`) | C22 and C69 | **partial**. False as listed: of two entries with the same id the files of the first are read but not listed. Proved for different ids, and exactly which files are listed: those of the last entry for each id (if the files of all artefacts can be told). The configuration file is not listed either. |
| C100 | Errors in input files say where they are | parsers | Spec/Doc (`InLine`, `InFile`) | the meanings of files (C81) | **partial**. False as listed: errors in JSON files have no line, errors of reading neither. Proved: errors of readable Markdown and Rust files give the line, errors of JSON files the file, and mono-requirement files have no error but that of their name. |
| C101 | Only the characters of a text matter | Regex, Markdown, MonoReq, Location | `SameClass` | expressions whose classes agree on the characters of the text have the same matches, by induction over the expression | **proved**. So the examples, which use the ASCII tables, hold for every table. |
| C102 | Which command lines are accepted and what they mean | `Cli.parse` (main.rs:17-35, clap) | `Spec.CliText.CommandLine`, `Consistent`, `Says`: a grammar of words and what its items say | induction over the words in both directions; a grammar derivation is found for every prefix that is read | **proved**. clap's reading is modelled from its documentation |
| C103 | Help, version and complaints | `Cli.parse` | `AsksHelp`, `AsksVersion` | as C102 | **proved**.  |
| C104 | From the command line to the exit | `Cli.program` | `CommandEnds`, `ProgramEnds` | C102, C103 and C84 | **proved**. without the log |
| C105 | Quiet and log level change nothing but the log | `Cli.program` | `CommandLine`, `valuesOf`, `jobsOf` | C102: the result is a function of the values and the jobs | **proved**. the log is not part of the modelled effects; the field quiet is never read by the program |
| C106 | The Markdown list of requirements can be read again as an artefact | `MdOut.requirement`, `Md.parse`, `Controller.run` | `Spec.Writable`, `ReadAgain`, `Pairs` | the text is cut into lines, each line is shown to be read as what it was written for; induction over requirements, references and attributes. The full statement `C106_statement` is refuted by a requirement with a description | **partial**. the description is not kept: it follows the attribute Origin and is read as part of it (C106_false); everything else holds, a missing title becomes an empty one, attribute texts are trimmed |
| C107 | An editor finds the requirements in the tags file | `Tags` (formatters/tags.rs) | `Spec.Tag`, `TagOf`, `TagsOf`, `HaveTags`, `Taggable`: the format from the side of the reader | from C85_tags; the order of whole lines is the order of names because a tab is below every character of a name; `C107_determined`: lines have one reading only | **proved**.  |
| C108 | No loops | `Controller.new`, `trace` | `Spec.DirectlyAbove`, `Steps`, `NoLoops`, `SaysCovered`, `IdsUnique` | induction over the chain: a chain of coverages is a chain of artefacts. The full statement is refuted by an artefact that is above itself | **partial**. loops of relations are accepted without complaint (C108_false, C108_loops_accepted); if the configuration has none and no id is defined twice, no requirement is covered by itself through any chain |
| C109 | The output identifies the input | `Controller.new`, the formatters | `Spec.Report`, `SameFile` | from C85 (report text), C65 (JSON is injective) and C11; refuted by two files that differ in the text before the first heading | **partial**. no report carries a hash, time or version of a file, so text outside of requirements can differ (C109_false); the JSON trace identifies all that was understood: the artefacts with their files, requirements and errors, and the relations, also across projects |
| C110 | The recommended ids work everywhere | `Md.parse`, `MonoReq.parse` | `Spec.Recommended` | the tables agree on ASCII; then C37 and C42 | **proved**.  |
| C111 | Configurations of another version are refused | `Main.main` | final state of the file system, given explicitly | from C84 | **proved**.  |
| C112 | One of the lower artefacts is enough | `trace` | `Spec.Defines`; the other relations are traced by `trace` itself | from C01, C02 and C09: uncovered means that nothing establishes coverage | **proved**.  |
| C113 | The verdict can be read from the report | `Controller.run`, the formatters | `Spec.headingsOnly`, `outputOf` | the parts of the report that belong to errors, uncovered and derived requirements are empty texts only if there are none (length of the text, first line); for JSON from C65; the outcome is C23 | **proved**. for the tags file there is no such statement: it never lists errors |
| C114 | The order of jobs does not matter | `Main.main`, `Controller.runJobs` | `Spec.NoConflict`, `SamePlace` | what a run leaves behind is described without an order (`prints_iff`, `setsFile_iff`, `addsDirs_iff`), and the description does not change under permutation | **proved**. without the condition on destinations it is false: the last job wins (C66) |
| C115 | One more requirement takes nothing away | `trace` | `Spec.AddsRequirement` | from the exact descriptions C01–C05, C08, C09 and C11; each is monotone in the right direction | **proved**. title errors can appear and disappear: they depend on the target |
| C116 | Names of requirements are only names | `trace` | `Spec.Renames`, `renamedCoverage`, `renamedError` | each list in `traced` is a map, filter or flat map over sorted lists of requirements; these are permutations of each other under the renaming | **proved**. renameAll_renames: every graph and every renaming meets the hypotheses |
| C117 | Every reported problem is logged | `Log.new` and what it calls | `Spec.said`, `announced`, `ReadLog`, `Announces` | for each parser: the records are the errors it adds, step by step; for the tracer: filters of the list of errors; the refutation is a requirement in two artefacts | **partial**. false as stated: repeated ids in different artefacts, wrong and missing titles, unusable patterns and repeated artefacts are reported but not logged (DESIGN.md:161 asks for the first).  Exact: the info records are those of the parsers, in order, then the unused relations and references to unknown requirements. |
| C118 | The log changes nothing but standard error | `Log.main`, `Log.mainRc` | `Main.main` | level by level: no function but `main_rc` logs an ERROR; standard error is untouched before `main_rc` | **proved**. a panic's own message is left out |
| C119 | The option -q silences the log | `Log.program`, `Cli.parse` | `Cli.Seen.quiet` | witness; `Seen.quiet` does not occur in `Log.program`; with a filter that keeps nothing from C118 and C28 | **partial**. false: `quiet` is never read; two command lines that differ only in it do the same (C119_ignored_partial) |
| C120 | The log tells which jobs found fault, and why | `Log.run`, `Log.runEach`, `Log.runJobs`, `Log.mainRc` | `Spec.warnings`, `AreDone`, `Reason` | induction over the jobs along `JobsRun` (C84); what one job logs; the level of all other records | **proved**.  |
| C121 | White space and numbers | `isWs`, `trim`, `Re.ws`, `natStr`, constructors of `Location` | `Spec.whiteSpace`: the 25 code points; `Spec.Decimal` | arithmetic on code points; induction on the number and on the text | **proved**. White space is that of Rust's `char::is_whitespace` and `\s` of the regex crate, which both are the Unicode property. |
| C122 | The log identifies the problem | `Log.dbgError`, `Dbg.pretty` (`{:#?}`) | `Spec.announced`, `Spec.PathsQuoted` | unique readability of pretty printed values: texts in quotes end where they end, words and numbers stop at a separator; by induction on the size of the value; then each `dbg…` is injective | **proved**. Assumes that `Debug` of paths shows them in quotes, different ones differently. |
| C123 | The whole log of a run | Verif/Log.lean | Verif/Spec/Log2.lean: told, beginning, refusal, openLog, verdictText, doneLog, ranText, traceTexts | told (Log.run …) is computed for each end of a job (run_told), lifted to lists of jobs by induction on JobsRun (runEach_told, runEach_stopped), and put together with C117_exactly_partial by mainRc_eq; the TRACE records by induction on the relations (traceRelations_trace) and jobs (runEach_trace) | **proved**. Said of the records before the filter. Positions (file and line) in records are in the model, but not in the statement. The problems announced while files are read are given by ReadLog (see C117). The log of a run that panics while the files are read is C160. |
| C124 | Comparison of locations, requirements, relations and errors is lawful and agrees with == | `Order`: `components`, `pathCmp`, `locationCmp`, `requirementCmp`, `relationCmp`, `errorCmp`, `controllerErrorCmp` and the `…Eq` functions | `Spec/Order`: `Compares` (swap, transitivity, equality), `SamePath` (rewriting of slashes and dots), `SameSpot`, `SameProblem`, `EqualRequirement`, `kindsOfProblems` | lawful comparisons are closed under lexicographic products, options and lists; every path is rewritten to its simplest text, which depends on the components only | **partial**. False as listed: requirements compare by their id only, a line equals its column 0. Proved: swap and transitivity for all five types, the full claim for Relation and ControllerError, exactly when the others compare Equal, what == is (paths up to spelling), that == implies Equal, and that the file decides first and errors are ordered by kind. |
| C125 | A report on the standard output is complete when the program ends with 0 or 1 | `Stdout`: `Pipe.buffered`, `Pipe.arrives`, `Main.process`, around `Main.main` | `Spec/Stdout`: `Printed`, `PrintedBy` (the reports in the order of the jobs), `OfLines` | every piece that a formatter writes ends in a line feed, except JSON, which ends in a line feed and a brace; then induction over the jobs | **partial**. False as listed: a JSON report does not end in a line feed, its last byte waits in the line buffer of the standard library, and a failure to write it at exit is ignored. Proved: what the program writes is exactly the reports; that closing brace, when nothing is printed after it, is all that can be missing; otherwise everything arrives. However the program ends only part of the last line can be missing. With a closed standard output nothing arrives and the exit code is as if it had. |
| C126 | Giving a requirement a new id breaks its existing coverage and nothing else | `Trace` | `Spec/Version`: `Reversioned` (the two graphs by what they define), `named` (the id that the reference of a coverage names) | ownership and `Establishes` in the two graphs compared; then C01, C02, C04 and C05 | **proved**. That no other requirement has the old id is needed: otherwise its references lead to that one afterwards. Tracing of the changed graph does not panic either. |
| C127 | A further path of an artefact takes nothing away | `Controller`: `globPaths`, `parseMultipleFiles`, `parseFromConfig` | `Spec/Patterns`: `Finds`; `Spec/Input`: `Matched` | all patterns can be searched or the first that cannot decides (`matched_or`, `globPaths_failed`) | **partial**. False as listed: if one path is no valid pattern or a directory cannot be listed, everything that the other paths give is lost and this is the only error of the artefact. Proved: that this is what happens then, and the property when the further path can be searched. |
| C128 | A path for which no file is found is reported | `Controller`: `parseFromConfig` | `Spec/Patterns`: `FindsNothing` | cases of `ArtefactMeans` (C82) | **partial**. False as listed for Rust artefacts: a pattern without a match is as good as not there, alone it gives an empty artefact without error. Proved for the other parsers, with the exact error. |
| C129 | A file that several paths find is read once | `Controller`: `parseFromConfig` | `Spec/Patterns`: `Finds`; `PathMeans` | position of the second reading in the list of requirements; `mem_duplicates` | **partial**. False as listed: the file is read again and every one of its requirements is reported as a duplicate of itself; this is proved, and the property for patterns without a common file. |
| C130 | The order of the paths of an artefact does not matter | `Controller`: `parseFromConfig` | `Spec/Patterns`, `Spec/Input` | induction over the permutation (`matched_perm`) | **partial**. False as listed: of two requirements with the same id the first counts. Proved: if all paths can be searched, the same files are read and the same ids found, and if no id is reported as duplicate everything else is the same as well. |
| C131 | Tracing does not depend on places, attributes and tags | `Trace`, all functions | `Spec/Places`: `Repaints`, `RepaintsArtefact` (what may change), `repaintTraced` (how the result changes); `Spec/Moved`: `SameButPlaces`, `SameResult` | each function of the tracer commutes with the change | **proved**. An equation between the results of tracing, for every graph and without hypotheses about it. `C131_verdict`: a trace job detects errors as before if the change keeps which artefacts have errors; `C131_same`: two graphs that differ only in places have results that differ only in places. |
| C132 | Where the files stand does not matter | `Markdown`, `RustParser`, `MonoReq`, `JsonRead`, `Controller`, `Trace`, `Main` | `Spec/Moved`: `reqsInFile`, `errorInFile`, `ProjectMoved`, `SameButPlaces`, `SameResult` | each function of the parsers commutes with the change of the file; building the artefacts commutes with forgetting the places; then C131 and C28 | **proved**. The files of each artefact are found in the same order before and after. Error texts of the operating system are taken to be the same. |
| C133 | Every mark that the macro accepts is read | `RustParser`, all functions | `Spec/Marks`: `MacroArm` (the arms of the macro), `PlainString`; `Spec/Rust`: `occs`, `IsMark` | from `C80_rust`: every mark is either read or a mistake | **partial**. False as listed: the macro takes an id given as a string with a title, the parser reports it as an error (`C133_false`). Proved: with an identifier first every accepted mark is a reference with its title, whatever separates the two; with a string first every accepted mark is an error at that string, so nothing is lost silently. |
| C134 | The order of the sections of a Markdown document does not matter | `Markdown`, all functions | `Spec/Shuffled`: `SectionsReordered`, `LastUncut`, `SameInOrder`, `Lost` | each section contributes what it contributes alone, moved down (`C34_sections_independent`); permutation of a concatenation | **partial**. False as listed: a section that a plain heading or a wrong line cuts off is lost if it is the last of the document and kept elsewhere (`C134_false`). Proved for all documents and orders where the last section before and after is not cut off. For all documents and orders: the requirements are the same together with that of the last section, which is lost if the section is cut off (`C134_exact_partial`). |
| C135 | The order of the items of a Rust file does not matter | `RustParser`, all functions | `Spec/Shuffled`: `CodeReordered`, `SameCode`, `OwnNames`, `SameInOrder`, `namedBy` | from `C80_rust`: the marks of pieces one after another are those of the pieces; grouping of neighbours of the same name stays within a piece; induction | **partial**. False as listed: the marks in two items of the same name are one requirement if nothing with a mark stands between them, otherwise a requirement and a duplicate (`C135_false`). Proved for all files where the marks in different pieces have different names around them. For all files: the errors and the marks with the names around them are the same, only which of them make one requirement is not (`C135_marks_partial`). |
| C136 | Tracing does not depend on the order in which things stand | `Controller`, `Trace`, `Markdown`, `RustParser`, `Main` | `Spec/Shuffled`: `ProjectShuffled`, `SameGraph`, `SameTrace`, `NoDuplicates` | files mean a permutation of what they meant (C134, C135); collecting a permutation gives the same map, or both have duplicates; `C131_places` for the trace; `C28_exit_code_partial` for the exit code | **proved**. `C136_project` needs that no id is given twice in an artefact, since the first of two is kept; `C136_verdict` and `C136_exit` do not. Example: `ShuffledExample`, with documents, items and files in another order at once. |
| C137 | A new section or marked item is one new requirement, and an unreferenced one is uncovered | Controller.lean (new), Markdown.lean, RustParser.lean, Trace.lean | `FileGrows`, `ProjectGrows` in Spec/Grown.lean, with `AddsRequirement` of Spec/Meta.lean | The text at the end is parsed from the state after the document, which has given all its requirements (`parse_after`, `sections_count`), and shifts the lines (C132). The marks at the end make a run of their own. The files, the requirements of the artefact and the map of artefacts are then followed step by step (`paths_grow`, `collect_grows`, `makeArtefacts_other`). | **proved**. The document before must be of whole lines, with nothing cut off at its end (a requirement cut off there is lost, see C31 and C134). |
| C138 | A mark makes the project green exactly if it is a right mark of the requirement that was missing | as C137 | `CleanBut`, `RightMark` in Spec/Grown.lean | C137 gives the new graph; `adds_clean` proves the equivalence from the exact meaning of an empty report (C67, C75), `adds_cleanBut` that a new section leaves a project clean but for it. | **proved**.  |
| C139 | No dead links in the Markdown report | Formatters.lean (MdOut), Trace.lean, Controller.lean | `TraceWith`, `HasLinkTo`, `HasSection` in Spec/Links.lean: there is a link to r if another text for the link to r, and only that, gives another report | The report with given links is a function of the links to defined requirements: errors of tracing name only requirements of events and owners (`linked_defined`), errors of the input only own requirements (`input_linked`, by C20), lists and sections only shown ones. A defined requirement's id has a section (C85). | **partial**. False as listed: if two artefacts define the same id, only one of the two requirements is shown, and a link to the other one has no section. Proved if no id is defined in two artefacts; in every case there is a section about a requirement with that id. |
| C140 | What another title changes | Trace.lean, Markdown.lean, MonoReq.lean, Controller.lean | `Retitles`, `retitle`, `WrongNow`, `SaysOtherTitle`, `FileRetitles`, `ProjectRetitles` in Spec/Titles.lean: the edit is one of one line, in terms of lines, headings and what the file says before | Graph: events with other titles are the events (`Titles.relEvents`), the title errors are looked at by cases, all else does not look at titles. File: the sections of the edited lines are those before with one title changed (`sections_retitle`), so by C76/C81 one requirement is replaced. Project: `project_replace`, then the graph is the one with the changed title. | **proved**.  |
| C141 | What rewriting the text of one requirement changes | Markdown.lean, MonoReq.lean, RustParser.lean, Controller.lean, Trace.lean | `SectionEdited`, `FileEdited`, `ProjectEdited`, `GraphRewritten` in Spec/Edited.lean: the edit in terms of lines, headings and bodies of sections | The sections of the lines above do not depend on what follows the heading (`sections_above`); those below are the same with shifted lines (`shift_*`), so by C76/C81 the file means the same but for one section. A Rust file of three pieces with names of their own says what they say one after another (`code_three`). Project: one requirement of one artefact is replaced, others move (`collect_edited`); then C73/C74 on the graphs. | **proved**.  |
| C142 | The format of the input does not matter | Controller.lean, Trace.lean, Aggregator.lean, Formatters.lean | `Counts`, `SameRequirements`, `ProjectRewritten`, `SameContents`, `SameFindings`, `ListsFiles` in Spec/Formats.lean, on top of the meaning of artefacts (`ArtefactMeans`) | The maps of requirements are the same, as both hold the first requirement of each id; tracing does not look at files and errors of artefacts (C131 with the identity for places); the aggregation commutes with a change of the files of artefacts (`aggregate_map`), and so do the formatters one by one (`requirements_map`, `tracing_map`). | **proved**.  |
| C143 | Moving code to another file changes nothing but places | `Rs.parse`, `makeArtefact`, `Controller.new`, `trace`, `Main.main` | `CodeFiles` cuts the syntax trees of the files into pieces; `CodeReordered` relates the pieces of all files together; `OwnNames` as in C135; `SameInOrder`, `SameGraph`, `SameTrace` | The pieces of all files say what they would say in one file (`codeFiles_say`, `codeFiles_mean`), and there C135 holds; C136 is generalised to such artefacts. | **proved**. `FilesReordered.spread` is the premise of the artefact; `C143_moved` is its meaning for the files, C136 for the project. `ShuffledExample.project_spread` moves two functions to another file. Without different names it is false, as C135. |
| C144 | The text of the log and where its lines come from | `Log.*`: `Dbg.pretty`, `problem`, `mainRc`, `Record.display` | `problemShown` and `derivedShown` list the lines; `ProblemSite` and `LogSite` list the places in the source with their level and text | `Is` relates a text to its lines and is kept by the builders of `{:#?}`; the places by the structure of the functions, with the errors that each step can add (`Adds`). | **proved**. The place of a problem is `ProblemSite`, that of any line `LogSite`, with level and text. `log.debugPath` shows a path without line feed (`{:?}` escapes it). |
| C145 | What taking out a requirement changes | `Md.parse`, `Rs.parse`, `Controller.new`, `trace` | `SectionRemoved`, `FileReduced`, `ProjectReduced` for the files; `GraphReduced`, `TraceReduced`, `Dispensable` for what is read and found | The sections of the lines before and after are put together (`document_append`), as are three pieces of code with names of their own (`code_three`); the graph without the requirement, with all places as before, is one to which the requirement can be added (C115's `AddsRequirement`), and the one that is read differs from it by places only (C131). | **proved**. `OnlyOne` says that no other artefact has the id; that the artefact itself gives it once is the hypothesis on its errors. Both follow when there is no fault. A section at the end of the file must not leave a section cut off at the end (`kept`). |
| C146 | A gap is closed by the right reference | `Md.parse`, `Mono.parse`, `Rs.parse`, `Controller.new`, `trace` | `ProjectEdited` (C141) for the files; `RefsIn`, `RightRefs`, `Fills`, `ReadsClean` | C141 gives the graph after the change; every coverage there is one that was there, at another place, or one of the new references (`edited_establishes_back`). | **proved**. `CleanBut` (C138) says what is wrong before. `ReadsClean` is the exact condition of C68 for an artefact without errors. |
| C147 | What putting in a requirement changes | `Md.parse`, `Rs.parse`, `Controller.new`, `trace` | `ProjectInserted` by `ProjectReduced` (C145) the other way round; `SelfStanding` | The project with the section can be read (C18, C30), and taking the section out again gives the one before (C145); a graph with one more requirement is sound exactly if that requirement stands by itself (`inserted_clean`). | **proved**. `TraceReduced` (C145) is used the other way round. A Markdown file that ends with a single character on a line of its own is excluded (the parser panics, C30). |
| C148 | Places lead to what they are about | Controller, parsers, Trace | Spec/Leads | from the meaning of files (C81, C36) and of tracing (C01, C04 to C07); the lines of a mono-requirement file are parts of the lines of the text | **proved**. `InLineOf`, `RefersAt`, `StandsAt`, `WrongAt` and `CitedAt` are in Spec/Leads.lean. The places in Rust are those that `syn` gives to macros and items. JSON artefacts carry places of their own. |
| C149 | Headings in the description | Markdown | Props/Subheading (statement), Spec/Markdown | the heading puts the parser into the state in which it waits for the next requirement; in that state no line changes anything | **partial**. False of the code. A heading that starts no requirement, of whatever level, ends what is read of the requirement above. Exactly: the heading and all lines up to the next requirement are ignored, whatever they are (`C149_ignored_partial`), and if a requirement follows they can be taken out without changing anything but places (`C149_taken_out_partial`). At the end of the text the requirement itself is lost (C94). |
| C150 | Renaming requirements in all files | Controller, Markdown, RustParser, MonoReq, JsonRead, Trace | Spec/Renamed | per parser: the specification of the file (C76, C80, C42, C81) for both texts, then the requirements and errors correspond one to one; per artefact: the first requirement with an id is found at the same position; per graph: both graphs without places are related by C116, and C131 says that places do not matter | **proved**. From the bytes of the files to the exit code. `PathRenamed` is what the project theorem needs of a file; `C150_markdown`, `C150_rust`, `C150_mono`, `C150_json` and `C150_file` show it for files that differ section by section, macro call by macro call, or requirement by requirement only in the names. Places may change as well. The configuration lists the same artefacts. |
| C151 | Names of artefacts are only names | Controller, Trace | Spec/ArtefactNames | an artefact owns all it has if ids are unique, so events, links and owners of both graphs are equal up to the name of the lower artefact; the controller builds the two maps in step | **proved**. The roots (default of ignore_derived_requirements) follow the names as well. That the trace depends on the names if an id is in two artefacts is shown by an example beside the theorems; such an id is reported with all names, which is why the verdict does not. |
| C152 | It does not matter on which side a reference stands | Trace, Controller | Spec/Sides (Mentions, SameMentions, SameCoverage) | from C01 to C09: with unique ids every requirement is the owner of its id, so a coverage is there exactly if one of the two mentions the other; sorted lists with the same members are equal | **proved**. That ids have to be unique is shown by an example beside the theorems (twice_differ). |
| C153 | The exit code is about what is asked, not how it is shown | Controller | Spec/Asked (Asks) | C28 gives the exit code from the verdicts of the jobs; graph and trace do not depend on the jobs of the configuration | **proved**. That a report can be written is an assumption (exit code 0 or 1): a format that is not implemented or a file that cannot be written ends the run otherwise, see C28. |
| C154 | Parts of a project that have nothing to do with each other | `trace`, `Controller.new`, `Main.main` (`Verif/Trace.lean`, `Verif/Controller.lean`) | `Separates`, `IsPart`, `AboutPart`, `aboutPart`, `partOfConfig` (`Spec/Parts.lean`) | The owner of an id is the same in part and whole, hence the events of each relation of the part; the three lists of errors are filtered piece by piece (`Parts.*`), so that order is kept. The project is constructed through `IsInput` (C82). | **proved**. References may name requirements of the other part: they are unknown in the part as in the whole, so the hypothesis is only about relations and ids. The exit code needs that the reports can be written and the aggregate formats do not panic (codes at most 1). |
| C155 | How requirements are divided among lower artefacts does not matter | `trace`, `Controller.new`, `Main.main` (`Verif/Trace.lean`, `Verif/Controller.lean`) | `Divides`, `RelationDivided`, `SameDivided`, `MayDivide`, `divideConfig`, `undivide` (`Spec/Divided.lean`) | With unique ids every requirement is owned by the artefact that defines it, so the coverages along a relation (`Establishes`) of the pieces are those of the whole; errors are compared kind by kind. For the project, `Matched` and the lists of requirements are split at the division, and the other artefacts are carried over through `IsInput` (C82). | **proved**. The tracing part is for any graph and any number of pieces of any number of artefacts (`Divides`); the project part divides the paths of one Rust artefact in two. The hypothesis that no id is in both pieces is needed: see the last example. |
| C156 | The settings of an artefact change nothing but what they are for | `trace`, `Controller.new`, `Main.main` (`Verif/Trace.lean`, `Verif/Controller.lean`) | `SameButSettings`, `isUntitled`, `LaxerGraph`, `Resets`, `Relaxes`, `resetConfig` (`Spec/Settings.lean`) | All parts of `traced` are rewritten to depend on the requirement maps only; errors are filtered kind by kind. The project part goes through `IsInput` (C82) and C28. | **proved**. `C156_settings` and `C156_laxer` are about any two graphs with the same relations and requirements; the others about the project. |
| C157 | One relation or two | `trace`, `Controller.new`, `Main.main` (`Verif/Trace.lean`, `Verif/Controller.lean`) | `LowerUnion`, `splitRelations`, `SplitResult` (`Spec/Split.lean`) | The events along a relation are, as a set, those along the two; uncovered, derived and errors are functions of that set. The project part goes through `IsInput` (C82) and C28. | **proved**. The last example shows that the converse fails: a requirement which is designed but not tested. |
| C158 | A run without findings means that everything is traced end to end | `trace`, `Controller.new`, `Main.main` (`Verif/Trace.lean`, `Verif/Controller.lean`) | `RefinedBy`, `LeadsDown`, `AtBottom`, `NeedsNoReason`, `TracedDown`, `TracedUp`, `Complete` (`Spec/EndToEnd.lean`) | Induction over the relations, which is well founded if there are no loops; each step is full coverage (C02) or the absence of derived requirements (C03). The run goes through C75 (an exit code of 0 means no findings). | **proved**. `C158_complete` needs ids which are defined once; `C158_run` gets that from the exit code. |
| C159 | The program never crashes | `Main.main` (`Verif/Controller.lean`), the parsers | `Crashes`, `NamesGiven` (`Spec/Crash.lean`) | The cases of a run (C84) with exit code 101, the exact condition for a project without meaning (C82) and for an opened file without meaning per parser; a run of jobs which panics is split at the panicking one. | **partial**. False of the code: a misspelt artefact in a relation makes it panic (`C159_false`). `C159_crash_partial` says exactly when the program panics (given that Rust items have names): an unknown artefact in a relation, a Markdown file with a last line of one ASCII character without line feed, a mono-requirement file which is not readable text, a coverage mark outside of all items in Rust code, or a job with a format that is not supported for its query, e.g. tags for a trace. There is an example for each. |
| C160 | What was found before a crash is in the log | `Log.mainRc`, `Log.new`, `Log.makeArtefacts`, `Log.parseFiles`, `Log.mdLoop`, `Log.rustVisit` (`Verif/Log.lean`) | `FoundUntil`, `ReadUntil`, `Stray` (`Spec/CrashLog.lean`), `ReadLog` (`Spec/Log.lean`) | The artefacts and the files are split at the first that fails; what is logged before is as in a run that does not crash (C117). The log of the visitor of Rust code is the errors of one pass over the calls, which panics exactly at the first stray mark; the last line of Markdown trips before it is parsed. `C160_exact`: the description determines the log, since a list is split at its first crashing file in one way only. | **proved**. Said of the records before the filter. With C123 this gives the log of every run. |
| C161 | A job that fails does not keep the others from their output | `Controller.runJobsByName`, `Controller.run` | `JobsOf`, `Done`, `target`, `outputOf` (Spec/Controller.lean) | C26 splits the jobs at the one that fails; C66 for the files of those before, C27 for those after; witness run. | **partial**. False as listed, though documented (REQ_LATE_ERROR, doc/requirements/REQUIREMENTS.md): the first job that fails is the last one that is run. Proved instead, for every run: the files of the jobs before that one contain their output, those of the jobs after it are as they were; if no job fails, all files have their output. |
| C162 | The layout of the configuration file does not matter | `Toml.read` (Verif/Toml.lean), a reader for the part of TOML that configurations need; `Env.toml`, `Main.getConfig` | `Laid`, `Proper`, `Member`, `Says`, `written` (Spec/Toml.lean): how a document may be written down and what it says | Each part of the reader is shown to undo each way to write; the tables are collected with an invariant over the headings read so far; then C78. | **proved**. Under the hypothesis ReadsToml: for each document that the reader Verif.Toml accepts, toml::from_slice gives the same tree. The reader covers the part of TOML described in the statement (no dates, floats, multi-line texts, dotted names in entries, lists of anything but texts, or headings with three names). |
| C163 | A Rust artefact consists of the files that its patterns mean below the base directory | `Glob.compile`, `Glob.matchPath` (Verif/Glob.lean): patterns as glob 0.3 reads them; `globPaths`, `parseFromConfig` | `NameFits`, `PathFits`, `Means`, `Proper`, `PlainDirectory` (Spec/Glob.lean): inductive rules on the text of the pattern | The parsed pattern is shown to match exactly what fits the text, by induction over the text; the names of a plain base directory fit only themselves; then the files of the artefact (C127's lemmas). | **partial**. False as listed: glob_paths puts the base directory in front of the pattern as it is, so that a base directory such as p[1] is itself read as a pattern, and the file p1/a.rs is found instead of p[1]/a.rs (C163_false). Proved for base directories without the characters * ? [ (and without empty, . or .. parts, except . itself), under the hypothesis GlobWorks: in the given state of the file system glob::glob returns, for the patterns that Verif.Glob understands, the paths that match, in any order, and no errors. Patterns with empty, . or .. parts, with wildcards in names that begin with a dot, or with ** at the end are left out. C163_wildcards_partial says what is found below base directories with wildcards: what fits the pattern below any directory that fits the base directory, taken as a pattern. |
| C164 | The layout of Rust code does not matter | `RustText.lex`, `RustText.code`, `RustText.read` (Verif/RustText.lean), a reader for a part of Rust; `Rs.parse` | `Laid`, `Written`, `IsCode`, `Relaid`, `ProjectFilewise` (Spec/RustText.lean): how tokens may be laid out, where they are then, and which tokens are code | Every test of the reader on tokens is shown equivalent to a small grammar (Lemmas/RustKinds.lean). The reader is shown to accept exactly the code, with the positions counted along; two layouts of the same tokens give the same tree but for the places, so that C147 and C150 (with all names kept) apply. | **proved**. Under the hypothesis ReadsRust: for texts that the reader Verif.RustText accepts, syn::parse_file gives a tree with the same macro calls in the same items. The reader covers the part of Rust described in the statement, with names of ASCII letters, digits and _, texts without escapes, whole numbers without suffix, documentation only with three slashes, no nested comments, types with at most one argument each, no if with else, no calls inside of calls, no operators; C164_reader says exactly which texts these are. C164_exit is for runs that end with status 0 or 1. |
| C165 | The layout of JSON artefacts does not matter | `JsonRead.fromReader`, `Controller.new`, `Main.main` | `Same`, `Rewritten`, `FileRewritten`, `ProjectFilewise` (Spec/JsonLayout.lean, Spec/RustText.lean) | Every predicate that says what a requirement, reference, location or map is in JSON is shown to respect the order of members (names that are there once are found wherever they are; the map is built from a permutation of distinct keys); with C77 and `document_iff` this gives the files, with C150 (all names kept) the project and the exit status. | **proved**. Two texts are related if both are documents of RFC 8259 and their values are the same but for the order of members. C165_exit is for runs that end with status 0 or 1. |
| C166 | From the texts of a project to the verdict | `Main.main`, `Controller.new`, all readers | `TwoLayers`, `MarkedFiles`, `Names` (Spec/TwoLayers.lean), built from the formats: `IsConfigText`, `FileMeans`, `IsCode`, `AllMarks` | C162 gives the configuration, C164 and C81 the requirements and marks, C68 the graph; on a graph of this shape the conditions of C75 are computed: coverage goes upwards only and exactly along the marks. | **proved**. For runs that end with status 0 or 1 (all jobs run). Under the hypotheses ReadsToml and ReadsRust of C162 and C164 about the libraries, for texts in the parts of TOML and Rust modelled there. The items of the code that have marks have different names, which are no ids of requirements; which files the patterns of the code mean is C163. |
| C167 | Only ids, titles and references count | `Md.parse`, `Rs.parse`, `Controller.new`, `trace`, `Main.main` | `AttrsReworded`, `BodyReworded`, `DocumentReworded` (lines of Markdown), `RustReworded`, `gistOf`, `ProjectReworded`, `SameVerdicts` (Spec/Reworded.lean) | Both documents get sections by C76 that agree but for texts and lines (induction over the rewording); collecting and tracing commute with forgetting everything but ids, titles and references (C131). | **proved**. A description must not contain a paragraph that starts like an attribute, or a line that starts with #, before or after; a negative example stands beside the theorem. `C167_moved` takes any two files that say the same but for places, so it covers mono-requirements and unchanged files. |
| C168 | From the directory tree to the verdict | `globPaths`, `parseFromConfig`, `Controller.new`, `Main.main` | `IsMeant`, `CodeTree` (Spec/CodeTree.lean), with `Means` (C163), `Names` (C166) | The files found for the patterns are those meant (C163), without repetition because the patterns are disjoint; with the marks and items of these files in the order found the project is one as in C166. | **proved**. The glob library is assumed to find, among the paths that are there, those that match, each once for a pattern; a library that lists a file twice would make the program report duplicate requirements. |
| C169 | From the texts of a project to the text of the report | `Fmt.tracing`, `trace`, `Controller.new`, `Main.main` | `ProjectReport`, `titleLines`, `NamesNothing`, `InOrder`, `WritesLast` (Spec/ProjectReport.lean), with `TwoLayers` (C166), `CodeTree` (C168) | The graph of the project has two artefacts without errors and one relation (C166); each part of the report that C85 gives for a graph is calculated for it, the marks for unknown requirements as a sorted list of item and first mark; the output of the job is that of C66. | **proved**. The quoted form of titles and names depends, as in C85, on which characters the library prints as they are. |
| C170 | From the texts of any project to the verdict | `Main.main`, `Controller.new`, `trace`, all parsers | `TextProject`, `Says`, `MarkedTree`, `AllHold`, `Linked`, `CoveredAlong`, `MustCover`, `AllTraced`, `AllRight` (Spec/TextProject.lean) | The graph defines exactly the requirements in the files and has the settings of the configuration (C68, C19, C20; for texts C164, C163, C162); if ids are unique, establishing a coverage is being linked along the relation, so that the conditions of C75 on the graph are those on the requirements in the files; the lists are those of C02 and C03. | **proved**. In the first part the base directory is without wildcards, the library lists a file once for a pattern, and no file is meant by two patterns of an artefact. The other parts need no assumptions on texts and libraries. |
| C171 | From the texts of any project to the lists of its requirements | `Main.main`, `Controller.new`, `Fmt.requirements`, all parsers | `TextProject` (Spec/TextProject.lean), `EachOnce`, `RequirementList` (Spec/ListText.lean), `InOrder`, `WritesLast` (Spec/ProjectReport.lean) | The graph defines exactly the requirements in the texts (C170) and has no errors (C68); sorted by id, the requirements of the artefacts are all of them in the order of their ids, because ids are unique; the text is that of C85, and the output that of C66. | **proved**. A file is that of the last job that writes to it; on the standard output the job is the only one. The base directory is without wildcards, the library lists a file once for a pattern, and no file is meant by two patterns of an artefact. |
| C172 | From the texts of any project to the report in the form of compiler errors | `Main.main`, `Controller.new`, `trace`, `Gnu.tracing`, all parsers | `TextProject` (Spec/TextProject.lean), `EachOnce` (Spec/ListText.lean), `AnyReport` (Spec/AnyReport.lean), `InOrder`, `WritesLast` (Spec/ProjectReport.lean) | The graph mirrors the texts (C170) and has no errors (C68). Since ids are unique, each artefact owns all its requirements; the coverages along a relation, the references to nothing, what is uncovered and what is derived are rewritten from the graph to the texts, each list with its order; the text is that of C85, and the output that of C66. | **proved**. Covers any number of artefacts and relations, where C169 has one of each side. A file is that of the last job that writes to it; on the standard output the job is the only one. The base directory is without wildcards, the library lists a file once for a pattern, and no file is meant by two patterns of an artefact. |
| C173 | From the texts of any project to the Markdown report of a trace | `Main.main`, `Controller.new`, `trace`, `aggregate`, `MdOut.tracing`, all parsers | `TextProject` (Spec/TextProject.lean), `EachOnce` (Spec/ListText.lean), `AnyMarkdown`, `AnySection`, `faults`, `referencesAlong` (Spec/AnyMarkdown.lean), `InOrder`, `WritesLast` (Spec/ProjectReport.lean) | The graph mirrors the texts (C170) and has no errors (C68). Since ids are unique, the requirement that is shown for an id is the one with it; errors, references, sections and items are rewritten from the graph to the texts; the text is that of C85, and the output that of C66. | **proved**. The counterpart of C172 for the Markdown report. A file is that of the last job that writes to it; on the standard output the job is the only one. A relation that is there twice in the configuration has its coverages twice. The base directory is without wildcards, the library lists a file once for a pattern, and no file is meant by two patterns of an artefact. |
| C174 | From the texts of any project to the result of a trace in JSON | `Main.main`, `Controller.new`, `trace`, `Serialize.traceJson`, `Json`, all parsers | `TextProject` (Spec/TextProject.lean), `EachOnce` (Spec/ListText.lean), `AnyJson`, `JsonOut.AnyTrace` (Spec/AnyJson.lean), `faults`, `openAlong`, `freeOf` (Spec/AnyMarkdown.lean), `FilesOf` (Spec/Input.lean) | The graph mirrors the texts (C170) and has no errors (C68); the files are those of C69. The schema of C85 for the graph is rewritten to the schema for the texts, with the lists that were rewritten for C172 and C173; the text of a value is that of C85, and the output that of C66. | **proved**. The counterpart of C172 and C173 for JSON; with C171 the output of every supported format is said from the texts. A file is that of the last job that writes to it; on the standard output the job is the only one. The base directory is without wildcards, the library lists a file once for a pattern, and no file is meant by two patterns of an artefact. |
| C175 | From the texts of any project to everything that a run leaves | `Main.main`, `Controller.new`, `runJobsByName`, `Controller.run`, all parsers and formatters | `TextProject` (Spec/TextProject.lean), `EachOnce` (Spec/ListText.lean), `JobText`, `JobTexts`, `RunLeaves`, `Runnable` (Spec/RunLeaves.lean), `Reliable` (Spec/Rerun.lean), `AllTraced` (Spec/TextProject.lean) | The cases of the specification of the program (C84) that do not get to an end are excluded: the input has a meaning (C82), no job fails (Reliable) and none panics (C159). Each job has a supported format, so its text is that of C171 to C174; where it goes is C66, what is kept is C27, the exit code is C28, and a problem of the trace is the negation of C170. | **proved**. Joins C171 to C174 for any list of jobs, with the verdict of C170. That the configuration can be worked with is enough for the run to get to its end if writing never fails (Reliable); the outcome is said for every run that gets to its end. Determined are files, standard output and standard error; of directories it is said which may be new. |

## 7 Mutation tests

`seeded/LOG.jsonl` has one line per wrong program: the definition edited, the edit, the claim it breaks, the theorems
that failed, and those that were tightened because of it.  `proofs_failed` are the theorems whose own proof no longer
checks; `theorems_failed` are the theorems of the manifest that depend on one of them.  Mutants with names like
`AMarkdown_57` are generated (exchanged constants, comparisons, branches, arguments, dropped updates), the others are
written by hand as realistic bugs.  A mutant that no theorem refutes is either an equivalent program (the note says why)
or led to a stronger theorem (`tightened`).

## 8 Documented requirements and properties

What the project documents in `doc/requirements` and which properties are about it.  A property with status *partial* is one
the code does not have as documented; the manifest says what it has instead.

| documented | properties |
|---|---|
| REQ_TRACE, ARCH_TRACE, DSG_TRACE, DSG_TRACE_RELATION | C01, C02, C03, C12, C67, C158, C170 |
| REQ_ARTEFACT, ARCH_ARTEFACT, DSG_ART_FILES | C17, C58, C69, C82, C127 to C130 |
| REQ_UNIQUE_ID_v2, DSG_CTRL_DETECT_DUPLICATE_REQS, DSG_TRACE_DETECT_DUPLICATE | C08, C17, C55 |
| REQ_MACHINE_FRIENDLY, ARCH_CLI, DSG_CLI | C84, C102 to C105 |
| REQ_EXTENSIBLE, FMT_IMPORT_JSON | C52, C77, C97, C142 |
| REQ_IDENTIFIEABLE | C109 |
| REQ_MACHINE_READABLE, FMT_EXPORT_JSON | C51, C65, C85, C96 |
| REQ_HUMAN_READABLE, FMT_EXPORT_MARKDOWN, ARCH_FORMATTER, DSG_FORMATTER | C16, C54, C63, C64, C71, C72, C85, C106, C113, C139 |
| REQ_FORMATS | C76, C77, C80, C81, C85 |
| REQ_UNICODE_SAFE, FMT_FILE_ENCODINGS, FMT_UNICODE_NORMALIZE | C86, C92, C93, C101 |
| REQ_UP, REQ_DOWN, REQ_MATCH_ID, DSG_TRACE_UPWARDS, DSG_TRACE_DOWNWARDS | C01, C74, C152 |
| REQ_PARSER_ERROR | C36, C100, C148 |
| REQ_LATE_ERROR, DSG_ART_PARSE_COLLECT_ERRORS | C30, C34, C45, C58, C62, C68, C159, C161 |
| REQ_VAL_TITLE, DSG_TRACE_CHECK_TITLE, DSG_TRACE_REQUIRE_CHECK_TITLE | C06, C07, C20, C140 |
| REQ_VAL_COVERAGE, DSG_TRACE_REFERENCE_EXIST | C04, C05 |
| REQ_CONFIG, DSG_CTRL_CONFIG, FMT_CONFIG_TOML, FMT_CONFIG_STRUCTURE | C78, C79, C111, C162 |
| REQ_CACHE_FRIENDLY | C88, C99 |
| UC_PARSE, UC_TMX, UC_CHECK, ARCH_CONTROLLER, DSG_CTRL_PARSE, DSG_CTRL_GRAPH, DSG_CTRL_TRACE, DSG_CTRL_FORMAT | C18, C66, C75, C82, C84, C166 to C170 |
| DSG_CLI_RETURN_CODE, DSG_CTRL_RETURN_CODE | C23, C24, C28, C153 |
| DSG_JOBS | C25, C26, C27, C57, C66, C114, C125 |
| ARCH_PARSER, DSG_PARSER | C81 |
| DSG_TRACE_COLLECT, DSG_TRACE_DERIVED, DSG_ART_IGNORE_DERIVED | C03, C19, C98, C156 |
| DSG_TRACE_UNCOVERED | C02, C112 |
| DSG_TRACE_VALIDATE_EDGE | C09 |
| DSG_AGGREGATOR | C14, C15, C59 |
| ARCH_REQUIREMENT, DSG_REQ_FIELDS | C37, C42, C76, C80, C95 |
| ARCH_GRAPH, DSG_GRAPH, DSG_GRAPH_RELATION | C10, C18, C21, C22, C108, C112, C157 |
| ARCH_TRACED_GRAPH, DSG_TRACED_GRAPH | C01, C11, C67 |
| FMT_ID_v2 | C33, C91, C110 |
| FMT_EXPORT_CTAGS | C50, C57, C107 |
| FMT_IMPORT_MARKDOWN_REQUIREMENT, FMT_MD_START | C31, C32, C35, C76, C94 |
| FMT_MD_DESC, FMT_MD_DESC_HEADINGS | C38, C94, C149 |
| FMT_MD_ATTRIBUTES | C37, C39, C40, C95 |
| FMT_IMPORT_MONO_REQ | C42, C60, C61 |
| FMT_IMPORT_RUS_COV_MARK | C43, C44, C46, C80, C133 |
| REQ_INSTALL, REQ_FAST, FMT_MD_OPT_PREFIX | none: the first two are about distribution and time, the third is not implemented |
