import Verif.Props.Jobs

/-!
# The data tests of the code, run on the model

`tests/data/*`: the program is run on each of these projects, and its output is compared with the expected file.
These are tests of the model, not proofs about it: the whole way from the text of the input files to the text of the
report is evaluated by Lean.  The configuration is written out as data, because reading TOML is not modelled.  `tests/data_tests.rs`
calls `run_jobs_by_name` with the names in `test.jobs` and expects `test.success`.
-/

namespace Reqtrace.DataTest

open CtrlExample (world)

/-- Paths denote themselves, only missing files fail. -/
def os : Os :=
  { CtrlExample.os with notFound := fun _ => c!"No such file or directory (os error 2)" }

def env : Env := { CtrlExample.env .nil ⟨none, [], [], none, none⟩ with os := os }

/-- The result of the jobs and the content of an output file. -/
def result (config : Config) (base : Path) (files : List (Path × Str)) (jobs : List Str) (out : Path) :
    Option (Controller.Res JobSuccess × Option Str) :=
  match Controller.new env (world files) config base with
  | .error _ => none
  | .ok c =>
    let (r, w) := c.runJobsByName env jobs (world files)
    some (r, (w.files out).bind Utf8.decode)

/-! ## `tests/data/artefact_read_err` -/

def artefactReadErrConfig : Config where
  version := none
  artefacts := [⟨c!"Artefact with missing path", [c!"missing.md"], .markdown, none, none⟩]
  relations := []
  jobs := some (.ofList [(c!"parse", ⟨.parse, .markdown, c!"out/tmx.md", none⟩)])
  defaultJobs := none

def artefactReadErrFiles : List (Path × Str) := []

def artefactReadErrExpected : Str := [
    c!"\n",
    c!"\n",
    c!"# Input Errors\n",
    c!"\n",
    c!"\n",
    c!"## Artefact with missing path\n",
    c!"\n",
    c!"*   IO Error: No such file or directory (os error 2)\n",
    c!"   tests/data/artefact_read_err/missing.md\n"].flatten

example : result artefactReadErrConfig c!"tests/data/artefact_read_err" artefactReadErrFiles [c!"parse"] c!"tests/data/artefact_read_err/out/tmx.md" =
    some (.ok .errorsDetected, some artefactReadErrExpected) := by decide +kernel

/-! ## `tests/data/continue_parsing_after_errors` -/

def continueParsingAfterErrorsConfig : Config where
  version := none
  artefacts := [⟨c!"Upper Artefact", [c!"upper.md"], .markdown, some true, none⟩,
    ⟨c!"Lower Artefact", [c!"lower.md"], .markdown, none, none⟩]
  relations := [⟨c!"Upper Artefact", [c!"Lower Artefact"]⟩]
  jobs := some (.ofList [(c!"trace", ⟨.trace, .markdown, c!"out/tmx.md", none⟩)])
  defaultJobs := none

def continueParsingAfterErrorsFiles : List (Path × Str) := [(c!"tests/data/continue_parsing_after_errors/lower.md", [
    c!"\n",
    c!"The lower Artefact\n",
    c!"==================\n",
    c!"\n",
    c!"## COV_1: A Coverage\n",
    c!"\n",
    c!"Covers:\n",
    c!"*   REQ_1\n",
    c!"*   REQ_2\n",
    c!"\n",
    c!"a\n",
    c!"\n",
    c!"## COV_2: Another Coverage\n",
    c!"\n",
    c!"Covers:\n",
    c!"a\n"].flatten),
    (c!"tests/data/continue_parsing_after_errors/upper.md", [
    c!"\n",
    c!"The upper Artefact\n",
    c!"==================\n",
    c!"\n",
    c!"## REQ_1: A Requirement\n",
    c!"\n",
    c!"Depends:\n",
    c!"*   COV_1\n",
    c!"*\n",
    c!"\n",
    c!"## REQ_2: Another Requirement\n",
    c!"\n",
    c!"Bar: foo\n",
    c!"\n",
    c!"Bar:\n",
    c!"\n",
    c!"Bar:\n"].flatten)]

def continueParsingAfterErrorsExpected : Str := [
    c!"\n",
    c!"\n",
    c!"# Input Errors\n",
    c!"\n",
    c!"\n",
    c!"## Lower Artefact\n",
    c!"\n",
    c!"*   Format Error: Expected an Attribute line like `Comment:`\n",
    c!"    in [tests/data/continue_parsing_after_errors/lower.md:11](../tests/data/continue_parsing_after_errors/lower.md?plain=1#L11)\n",
    c!"*   Format Error: Expected a Reference like `* REQ_ID: Title`\n",
    c!"    in [tests/data/continue_parsing_after_errors/lower.md:16](../tests/data/continue_parsing_after_errors/lower.md?plain=1#L16)\n",
    c!"\n",
    c!"## Upper Artefact\n",
    c!"\n",
    c!"*   Format Error: Expected a Reference like `* REQ_ID: Title`\n",
    c!"    in [tests/data/continue_parsing_after_errors/upper.md:9](../tests/data/continue_parsing_after_errors/upper.md?plain=1#L9)\n",
    c!"*   Duplicate Attribute: Bar when parsing REQ_2\n",
    c!"    [tests/data/continue_parsing_after_errors/upper.md:15](../tests/data/continue_parsing_after_errors/upper.md?plain=1#L15)\n",
    c!"*   Duplicate Attribute: Bar when parsing REQ_2\n",
    c!"    [tests/data/continue_parsing_after_errors/upper.md:17](../tests/data/continue_parsing_after_errors/upper.md?plain=1#L17)\n",
    c!"\n",
    c!"\n",
    c!"# Requirements\n",
    c!"\n",
    c!"## Lower Artefact\n",
    c!"\n",
    c!"### COV_1: A Coverage\n",
    c!"\n",
    c!"Origin: Lower Artefact, [tests/data/continue_parsing_after_errors/lower.md:5](../tests/data/continue_parsing_after_errors/lower.md?plain=1#L5)\n",
    c!"\n",
    c!"Upwards Tracing:\n",
    c!"*   Upper Artefact => [Lower Artefact]\n",
    c!"    *   [REQ_1](#req_1-a-requirement \"A Requirement\")\n",
    c!"        Reference: [tests/data/continue_parsing_after_errors/upper.md:8](../tests/data/continue_parsing_after_errors/upper.md?plain=1#L8)\n",
    c!"    *   [REQ_1](#req_1-a-requirement \"A Requirement\")\n",
    c!"        Reference: [tests/data/continue_parsing_after_errors/lower.md:8](../tests/data/continue_parsing_after_errors/lower.md?plain=1#L8)\n",
    c!"    *   [REQ_2](#req_2-another-requirement \"Another Requirement\")\n",
    c!"        Reference: [tests/data/continue_parsing_after_errors/lower.md:9](../tests/data/continue_parsing_after_errors/lower.md?plain=1#L9)\n",
    c!"\n",
    c!"Downwards Tracing:\n",
    c!"## Upper Artefact\n",
    c!"\n",
    c!"### REQ_1: A Requirement\n",
    c!"\n",
    c!"Origin: Upper Artefact, [tests/data/continue_parsing_after_errors/upper.md:5](../tests/data/continue_parsing_after_errors/upper.md?plain=1#L5)\n",
    c!"\n",
    c!"Upwards Tracing:\n",
    c!"    *   Derived\n",
    c!"\n",
    c!"Downwards Tracing:\n",
    c!"*   Upper Artefact => [Lower Artefact]\n",
    c!"    *   [COV_1](#cov_1-a-coverage \"A Coverage\")\n",
    c!"        Reference: [tests/data/continue_parsing_after_errors/upper.md:8](../tests/data/continue_parsing_after_errors/upper.md?plain=1#L8)\n",
    c!"    *   [COV_1](#cov_1-a-coverage \"A Coverage\")\n",
    c!"        Reference: [tests/data/continue_parsing_after_errors/lower.md:8](../tests/data/continue_parsing_after_errors/lower.md?plain=1#L8)\n",
    c!"\n",
    c!"### REQ_2: Another Requirement\n",
    c!"\n",
    c!"Origin: Upper Artefact, [tests/data/continue_parsing_after_errors/upper.md:11](../tests/data/continue_parsing_after_errors/upper.md?plain=1#L11)\n",
    c!"\n",
    c!"Upwards Tracing:\n",
    c!"    *   Derived\n",
    c!"\n",
    c!"Downwards Tracing:\n",
    c!"*   Upper Artefact => [Lower Artefact]\n",
    c!"    *   [COV_1](#cov_1-a-coverage \"A Coverage\")\n",
    c!"        Reference: [tests/data/continue_parsing_after_errors/lower.md:9](../tests/data/continue_parsing_after_errors/lower.md?plain=1#L9)\n"].flatten

example : result continueParsingAfterErrorsConfig c!"tests/data/continue_parsing_after_errors" continueParsingAfterErrorsFiles [c!"trace"] c!"tests/data/continue_parsing_after_errors/out/tmx.md" =
    some (.ok .errorsDetected, some continueParsingAfterErrorsExpected) := by decide +kernel

/-! ## `tests/data/reference_without_title` -/

def referenceWithoutTitleConfig : Config where
  version := none
  artefacts := [⟨c!"Upper Artefact using readable IDs", [c!"upper_readable.md"], .markdown, none, none⟩,
    ⟨c!"Upper Artefact using numeric IDs", [c!"upper_numeric.md"], .markdown, none, some true⟩,
    ⟨c!"Lower Artefact using readable IDs", [c!"lower_readable.md"], .markdown, none, none⟩,
    ⟨c!"Lower Artefact using numeric IDs", [c!"lower_numeric.md"], .markdown, none, some true⟩]
  relations := [⟨c!"Upper Artefact using readable IDs", [c!"Lower Artefact using readable IDs"]⟩, ⟨c!"Upper Artefact using numeric IDs", [c!"Lower Artefact using numeric IDs"]⟩]
  jobs := some (.ofList [(c!"trace", ⟨.trace, .markdown, c!"out/tmx.md", none⟩)])
  defaultJobs := none

def referenceWithoutTitleFiles : List (Path × Str) := [(c!"tests/data/reference_without_title/lower_numeric.md", [
    c!"\n",
    c!"The lower Artefact\n",
    c!"==================\n",
    c!"\n",
    c!"## COV_NUM_1: A Coverage\n",
    c!"\n",
    c!"Covers:\n",
    c!"*   REQ_NUM_1\n",
    c!"\n",
    c!"## COV_NUM_2: Another Coverage\n",
    c!"\n",
    c!"\n"].flatten),
    (c!"tests/data/reference_without_title/lower_readable.md", [
    c!"\n",
    c!"The lower Artefact with Readable Ids\n",
    c!"==================\n",
    c!"\n",
    c!"## COV_WITH_GOOD_NAME: A Coverage\n",
    c!"Covers: REQ_WITH_GOOD_NAME\n",
    c!"\n",
    c!"\n",
    c!"## COV_WITH_ANOTHER_GOOD_NAME: Another Coverage\n",
    c!"\n",
    c!"\n"].flatten),
    (c!"tests/data/reference_without_title/upper_numeric.md", [
    c!"\n",
    c!"The upper Artefact\n",
    c!"==================\n",
    c!"\n",
    c!"## REQ_NUM_1: A Requirement\n",
    c!"\n",
    c!"## REQ_NUM_2: Another Requirement\n",
    c!"\n",
    c!"Depends:\n",
    c!"*   COV_NUM_2\n"].flatten),
    (c!"tests/data/reference_without_title/upper_readable.md", [
    c!"\n",
    c!"The upper Artefact with Readable IDs\n",
    c!"==================\n",
    c!"\n",
    c!"REQs here can be covered by id only\n",
    c!"\n",
    c!"## REQ_WITH_GOOD_NAME: A Requirement\n",
    c!"\n",
    c!"## REQ_WITH_ANOTHER_GOOD_NAME: Another Requirement\n",
    c!"\n",
    c!"Depends: COV_WITH_ANOTHER_GOOD_NAME\n",
    c!"\n",
    c!"\n"].flatten)]

def referenceWithoutTitleExpected : Str := [
    c!"\n",
    c!"\n",
    c!"# Tracing Errors\n",
    c!"\n",
    c!"*   [REQ_NUM_1](#req_num_1-a-requirement \"A Requirement\") covered without title\n",
    c!"    tests/data/reference_without_title/lower_numeric.md:8\n",
    c!"*   [COV_NUM_2](#cov_num_2-another-coverage \"Another Coverage\") covered without title\n",
    c!"    tests/data/reference_without_title/upper_numeric.md:10\n",
    c!"\n",
    c!"\n",
    c!"# Requirements\n",
    c!"\n",
    c!"## Lower Artefact using numeric IDs\n",
    c!"\n",
    c!"### COV_NUM_1: A Coverage\n",
    c!"\n",
    c!"Origin: Lower Artefact using numeric IDs, [tests/data/reference_without_title/lower_numeric.md:5](../tests/data/reference_without_title/lower_numeric.md?plain=1#L5)\n",
    c!"\n",
    c!"Upwards Tracing:\n",
    c!"*   Upper Artefact using numeric IDs => [Lower Artefact using numeric IDs]\n",
    c!"    *   [REQ_NUM_1](#req_num_1-a-requirement \"A Requirement\")\n",
    c!"        Reference: [tests/data/reference_without_title/lower_numeric.md:8](../tests/data/reference_without_title/lower_numeric.md?plain=1#L8)\n",
    c!"\n",
    c!"Downwards Tracing:\n",
    c!"\n",
    c!"### COV_NUM_2: Another Coverage\n",
    c!"\n",
    c!"Origin: Lower Artefact using numeric IDs, [tests/data/reference_without_title/lower_numeric.md:10](../tests/data/reference_without_title/lower_numeric.md?plain=1#L10)\n",
    c!"\n",
    c!"Upwards Tracing:\n",
    c!"*   Upper Artefact using numeric IDs => [Lower Artefact using numeric IDs]\n",
    c!"    *   [REQ_NUM_2](#req_num_2-another-requirement \"Another Requirement\")\n",
    c!"        Reference: [tests/data/reference_without_title/upper_numeric.md:10](../tests/data/reference_without_title/upper_numeric.md?plain=1#L10)\n",
    c!"\n",
    c!"Downwards Tracing:\n",
    c!"## Lower Artefact using readable IDs\n",
    c!"\n",
    c!"### COV_WITH_ANOTHER_GOOD_NAME: Another Coverage\n",
    c!"\n",
    c!"Origin: Lower Artefact using readable IDs, [tests/data/reference_without_title/lower_readable.md:9](../tests/data/reference_without_title/lower_readable.md?plain=1#L9)\n",
    c!"\n",
    c!"Upwards Tracing:\n",
    c!"*   Upper Artefact using readable IDs => [Lower Artefact using readable IDs]\n",
    c!"    *   [REQ_WITH_ANOTHER_GOOD_NAME](#req_with_another_good_name-another-requirement \"Another Requirement\")\n",
    c!"        Reference: [tests/data/reference_without_title/upper_readable.md:11](../tests/data/reference_without_title/upper_readable.md?plain=1#L11)\n",
    c!"\n",
    c!"Downwards Tracing:\n",
    c!"\n",
    c!"### COV_WITH_GOOD_NAME: A Coverage\n",
    c!"\n",
    c!"Origin: Lower Artefact using readable IDs, [tests/data/reference_without_title/lower_readable.md:5](../tests/data/reference_without_title/lower_readable.md?plain=1#L5)\n",
    c!"\n",
    c!"Upwards Tracing:\n",
    c!"*   Upper Artefact using readable IDs => [Lower Artefact using readable IDs]\n",
    c!"    *   [REQ_WITH_GOOD_NAME](#req_with_good_name-a-requirement \"A Requirement\")\n",
    c!"        Reference: [tests/data/reference_without_title/lower_readable.md:6](../tests/data/reference_without_title/lower_readable.md?plain=1#L6)\n",
    c!"\n",
    c!"Downwards Tracing:\n",
    c!"## Upper Artefact using numeric IDs\n",
    c!"\n",
    c!"### REQ_NUM_1: A Requirement\n",
    c!"\n",
    c!"Origin: Upper Artefact using numeric IDs, [tests/data/reference_without_title/upper_numeric.md:5](../tests/data/reference_without_title/upper_numeric.md?plain=1#L5)\n",
    c!"\n",
    c!"Upwards Tracing:\n",
    c!"    *   Derived\n",
    c!"\n",
    c!"Downwards Tracing:\n",
    c!"*   Upper Artefact using numeric IDs => [Lower Artefact using numeric IDs]\n",
    c!"    *   [COV_NUM_1](#cov_num_1-a-coverage \"A Coverage\")\n",
    c!"        Reference: [tests/data/reference_without_title/lower_numeric.md:8](../tests/data/reference_without_title/lower_numeric.md?plain=1#L8)\n",
    c!"\n",
    c!"### REQ_NUM_2: Another Requirement\n",
    c!"\n",
    c!"Origin: Upper Artefact using numeric IDs, [tests/data/reference_without_title/upper_numeric.md:7](../tests/data/reference_without_title/upper_numeric.md?plain=1#L7)\n",
    c!"\n",
    c!"Upwards Tracing:\n",
    c!"    *   Derived\n",
    c!"\n",
    c!"Downwards Tracing:\n",
    c!"*   Upper Artefact using numeric IDs => [Lower Artefact using numeric IDs]\n",
    c!"    *   [COV_NUM_2](#cov_num_2-another-coverage \"Another Coverage\")\n",
    c!"        Reference: [tests/data/reference_without_title/upper_numeric.md:10](../tests/data/reference_without_title/upper_numeric.md?plain=1#L10)\n",
    c!"## Upper Artefact using readable IDs\n",
    c!"\n",
    c!"### REQ_WITH_ANOTHER_GOOD_NAME: Another Requirement\n",
    c!"\n",
    c!"Origin: Upper Artefact using readable IDs, [tests/data/reference_without_title/upper_readable.md:9](../tests/data/reference_without_title/upper_readable.md?plain=1#L9)\n",
    c!"\n",
    c!"Upwards Tracing:\n",
    c!"    *   Derived\n",
    c!"\n",
    c!"Downwards Tracing:\n",
    c!"*   Upper Artefact using readable IDs => [Lower Artefact using readable IDs]\n",
    c!"    *   [COV_WITH_ANOTHER_GOOD_NAME](#cov_with_another_good_name-another-coverage \"Another Coverage\")\n",
    c!"        Reference: [tests/data/reference_without_title/upper_readable.md:11](../tests/data/reference_without_title/upper_readable.md?plain=1#L11)\n",
    c!"\n",
    c!"### REQ_WITH_GOOD_NAME: A Requirement\n",
    c!"\n",
    c!"Origin: Upper Artefact using readable IDs, [tests/data/reference_without_title/upper_readable.md:7](../tests/data/reference_without_title/upper_readable.md?plain=1#L7)\n",
    c!"\n",
    c!"Upwards Tracing:\n",
    c!"    *   Derived\n",
    c!"\n",
    c!"Downwards Tracing:\n",
    c!"*   Upper Artefact using readable IDs => [Lower Artefact using readable IDs]\n",
    c!"    *   [COV_WITH_GOOD_NAME](#cov_with_good_name-a-coverage \"A Coverage\")\n",
    c!"        Reference: [tests/data/reference_without_title/lower_readable.md:6](../tests/data/reference_without_title/lower_readable.md?plain=1#L6)\n"].flatten

set_option maxRecDepth 100000 in
example : result referenceWithoutTitleConfig c!"tests/data/reference_without_title" referenceWithoutTitleFiles [c!"trace"] c!"tests/data/reference_without_title/out/tmx.md" =
    some (.ok .errorsDetected, some referenceWithoutTitleExpected) := by decide +kernel

/-! ## `tests/data/requirement_twice_in_1_artefact` -/

def requirementTwiceIn1ArtefactConfig : Config where
  version := none
  artefacts := [⟨c!"Upper Artefact", [c!"upper.md"], .markdown, some true, none⟩]
  relations := []
  jobs := some (.ofList [(c!"parse", ⟨.trace, .markdown, c!"out/tmx.md", none⟩)])
  defaultJobs := none

def requirementTwiceIn1ArtefactFiles : List (Path × Str) := [(c!"tests/data/requirement_twice_in_1_artefact/upper.md", [
    c!"\n",
    c!"An artefact with the same Req twice\n",
    c!"==================\n",
    c!"\n",
    c!"## REQ_1: A Coverage\n",
    c!"\n",
    c!"## REQ_2: Another Coverage\n",
    c!"\n",
    c!"\n",
    c!"## REQ_1: Third requirement with conflicting ID\n"].flatten)]

def requirementTwiceIn1ArtefactExpected : Str := [
    c!"\n",
    c!"\n",
    c!"# Input Errors\n",
    c!"\n",
    c!"\n",
    c!"## Upper Artefact\n",
    c!"\n",
    c!"*   Duplicate Requirement: REQ_1\n",
    c!"    first seen in [tests/data/requirement_twice_in_1_artefact/upper.md:10](../tests/data/requirement_twice_in_1_artefact/upper.md?plain=1#L10)\n",
    c!"    then again in [tests/data/requirement_twice_in_1_artefact/upper.md:5](../tests/data/requirement_twice_in_1_artefact/upper.md?plain=1#L5)\n",
    c!"\n",
    c!"\n",
    c!"# Requirements\n",
    c!"\n",
    c!"## Upper Artefact\n",
    c!"\n",
    c!"### REQ_1: A Coverage\n",
    c!"\n",
    c!"Origin: Upper Artefact, [tests/data/requirement_twice_in_1_artefact/upper.md:5](../tests/data/requirement_twice_in_1_artefact/upper.md?plain=1#L5)\n",
    c!"\n",
    c!"Upwards Tracing:\n",
    c!"    *   Derived\n",
    c!"\n",
    c!"Downwards Tracing:\n",
    c!"\n",
    c!"### REQ_2: Another Coverage\n",
    c!"\n",
    c!"Origin: Upper Artefact, [tests/data/requirement_twice_in_1_artefact/upper.md:7](../tests/data/requirement_twice_in_1_artefact/upper.md?plain=1#L7)\n",
    c!"\n",
    c!"Upwards Tracing:\n",
    c!"    *   Derived\n",
    c!"\n",
    c!"Downwards Tracing:\n"].flatten

example : result requirementTwiceIn1ArtefactConfig c!"tests/data/requirement_twice_in_1_artefact" requirementTwiceIn1ArtefactFiles [c!"parse"] c!"tests/data/requirement_twice_in_1_artefact/out/tmx.md" =
    some (.ok .errorsDetected, some requirementTwiceIn1ArtefactExpected) := by decide +kernel

/-! ## `tests/data/requirement_twice_in_2_artefacts` -/

def requirementTwiceIn2ArtefactsConfig : Config where
  version := none
  artefacts := [⟨c!"Upper Artefact", [c!"upper.md"], .markdown, some true, none⟩,
    ⟨c!"Lower Artefact", [c!"lower.md"], .markdown, none, none⟩]
  relations := [⟨c!"Upper Artefact", [c!"Lower Artefact"]⟩]
  jobs := some (.ofList [(c!"parse", ⟨.parse, .markdown, c!"out/tmx.md", none⟩), (c!"trace", ⟨.trace, .markdown, c!"out/tmx.md", none⟩)])
  defaultJobs := none

def requirementTwiceIn2ArtefactsFiles : List (Path × Str) := [(c!"tests/data/requirement_twice_in_2_artefacts/lower.md", [
    c!"\n",
    c!"The lower Artefact\n",
    c!"==================\n",
    c!"\n",
    c!"## COV_1: A Coverage\n",
    c!"Covers: REQ_1\n",
    c!"\n",
    c!"## REQ_1: Conflicting Req defined in lower\n"].flatten),
    (c!"tests/data/requirement_twice_in_2_artefacts/upper.md", [
    c!"\n",
    c!"The upper Artefact\n",
    c!"==================\n",
    c!"\n",
    c!"## REQ_1: A Requirement\n",
    c!"\n"].flatten)]

def requirementTwiceIn2ArtefactsExpected : Str := [
    c!"\n",
    c!"\n",
    c!"# Tracing Errors\n",
    c!"\n",
    c!"*   Duplicate Requirement: REQ_1\n",
    c!"    first seen in [tests/data/requirement_twice_in_2_artefacts/upper.md:5](../tests/data/requirement_twice_in_2_artefacts/upper.md?plain=1#L5)\n",
    c!"    then again in [tests/data/requirement_twice_in_2_artefacts/lower.md:8](../tests/data/requirement_twice_in_2_artefacts/lower.md?plain=1#L8)\n",
    c!"\n",
    c!"\n",
    c!"# Derived Requirements\n",
    c!"\n",
    c!"\n",
    c!"## Lower Artefact\n",
    c!"\n",
    c!"*   [REQ_1](#req_1-a-requirement \"A Requirement\")\n",
    c!"\n",
    c!"\n",
    c!"# Requirements\n",
    c!"\n",
    c!"## Lower Artefact\n",
    c!"\n",
    c!"### COV_1: A Coverage\n",
    c!"\n",
    c!"Origin: Lower Artefact, [tests/data/requirement_twice_in_2_artefacts/lower.md:5](../tests/data/requirement_twice_in_2_artefacts/lower.md?plain=1#L5)\n",
    c!"\n",
    c!"Upwards Tracing:\n",
    c!"*   Upper Artefact => [Lower Artefact]\n",
    c!"    *   [REQ_1](#req_1-a-requirement \"A Requirement\")\n",
    c!"        Reference: [tests/data/requirement_twice_in_2_artefacts/lower.md:6](../tests/data/requirement_twice_in_2_artefacts/lower.md?plain=1#L6)\n",
    c!"\n",
    c!"Downwards Tracing:\n",
    c!"\n",
    c!"### REQ_1: A Requirement\n",
    c!"\n",
    c!"Origin: Upper Artefact, [tests/data/requirement_twice_in_2_artefacts/upper.md:5](../tests/data/requirement_twice_in_2_artefacts/upper.md?plain=1#L5)\n",
    c!"\n",
    c!"Upwards Tracing:\n",
    c!"*   Upper Artefact => [Lower Artefact]\n",
    c!"    *   Derived\n",
    c!"\n",
    c!"Downwards Tracing:\n",
    c!"*   Upper Artefact => [Lower Artefact]\n",
    c!"    *   [COV_1](#cov_1-a-coverage \"A Coverage\")\n",
    c!"        Reference: [tests/data/requirement_twice_in_2_artefacts/lower.md:6](../tests/data/requirement_twice_in_2_artefacts/lower.md?plain=1#L6)\n",
    c!"## Upper Artefact\n",
    c!"\n",
    c!"### REQ_1: A Requirement\n",
    c!"\n",
    c!"Origin: Upper Artefact, [tests/data/requirement_twice_in_2_artefacts/upper.md:5](../tests/data/requirement_twice_in_2_artefacts/upper.md?plain=1#L5)\n",
    c!"\n",
    c!"Upwards Tracing:\n",
    c!"*   Upper Artefact => [Lower Artefact]\n",
    c!"    *   Derived\n",
    c!"\n",
    c!"Downwards Tracing:\n",
    c!"*   Upper Artefact => [Lower Artefact]\n",
    c!"    *   [COV_1](#cov_1-a-coverage \"A Coverage\")\n",
    c!"        Reference: [tests/data/requirement_twice_in_2_artefacts/lower.md:6](../tests/data/requirement_twice_in_2_artefacts/lower.md?plain=1#L6)\n"].flatten

example : result requirementTwiceIn2ArtefactsConfig c!"tests/data/requirement_twice_in_2_artefacts" requirementTwiceIn2ArtefactsFiles [c!"trace"] c!"tests/data/requirement_twice_in_2_artefacts/out/tmx.md" =
    some (.ok .errorsDetected, some requirementTwiceIn2ArtefactsExpected) := by decide +kernel

/-! ## `tests/data/trace_down` -/

def traceDownConfig : Config where
  version := none
  artefacts := [⟨c!"Upper", [c!"upper.md"], .markdown, some true, none⟩,
    ⟨c!"Lower", [c!"lower.md"], .markdown, none, none⟩]
  relations := [⟨c!"Upper", [c!"Lower"]⟩]
  jobs := some (.ofList [(c!"trace", ⟨.trace, .markdown, c!"out/tmx.md", none⟩)])
  defaultJobs := none

def traceDownFiles : List (Path × Str) := [(c!"tests/data/trace_down/lower.md", [
    c!"\n",
    c!"# REQ_LOWER: The Lower Requirement\n",
    c!"\n",
    c!"\n"].flatten),
    (c!"tests/data/trace_down/upper.md", [
    c!"# REQ_UPPER: The Upper Requirement\n",
    c!"Depends: REQ_LOWER\n"].flatten)]

def traceDownExpected : Str := [
    c!"\n",
    c!"\n",
    c!"# Requirements\n",
    c!"\n",
    c!"## Lower\n",
    c!"\n",
    c!"### REQ_LOWER: The Lower Requirement\n",
    c!"\n",
    c!"Origin: Lower, [tests/data/trace_down/lower.md:2](../tests/data/trace_down/lower.md?plain=1#L2)\n",
    c!"\n",
    c!"Upwards Tracing:\n",
    c!"*   Upper => [Lower]\n",
    c!"    *   [REQ_UPPER](#req_upper-the-upper-requirement \"The Upper Requirement\")\n",
    c!"        Reference: [tests/data/trace_down/upper.md:2](../tests/data/trace_down/upper.md?plain=1#L2)\n",
    c!"\n",
    c!"Downwards Tracing:\n",
    c!"## Upper\n",
    c!"\n",
    c!"### REQ_UPPER: The Upper Requirement\n",
    c!"\n",
    c!"Origin: Upper, [tests/data/trace_down/upper.md:1](../tests/data/trace_down/upper.md?plain=1#L1)\n",
    c!"\n",
    c!"Upwards Tracing:\n",
    c!"    *   Derived\n",
    c!"\n",
    c!"Downwards Tracing:\n",
    c!"*   Upper => [Lower]\n",
    c!"    *   [REQ_LOWER](#req_lower-the-lower-requirement \"The Lower Requirement\")\n",
    c!"        Reference: [tests/data/trace_down/upper.md:2](../tests/data/trace_down/upper.md?plain=1#L2)\n"].flatten

example : result traceDownConfig c!"tests/data/trace_down" traceDownFiles [c!"trace"] c!"tests/data/trace_down/out/tmx.md" =
    some (.ok .success, some traceDownExpected) := by decide +kernel

/-! ## `tests/data/trace_up` -/

def traceUpConfig : Config where
  version := none
  artefacts := [⟨c!"Upper", [c!"upper.md"], .markdown, some true, none⟩,
    ⟨c!"Lower", [c!"lower.md"], .markdown, none, none⟩]
  relations := [⟨c!"Upper", [c!"Lower"]⟩]
  jobs := some (.ofList [(c!"trace", ⟨.trace, .markdown, c!"out/tmx.md", none⟩)])
  defaultJobs := none

def traceUpFiles : List (Path × Str) := [(c!"tests/data/trace_up/lower.md", [
    c!"\n",
    c!"# REQ_LOWER: The Lower Requirement\n",
    c!"\n",
    c!"Covers: REQ_UPPER\n",
    c!"\n"].flatten),
    (c!"tests/data/trace_up/upper.md", [
    c!"# REQ_UPPER: The Upper Requirement\n"].flatten)]

def traceUpExpected : Str := [
    c!"\n",
    c!"\n",
    c!"# Requirements\n",
    c!"\n",
    c!"## Lower\n",
    c!"\n",
    c!"### REQ_LOWER: The Lower Requirement\n",
    c!"\n",
    c!"Origin: Lower, [tests/data/trace_up/lower.md:2](../tests/data/trace_up/lower.md?plain=1#L2)\n",
    c!"\n",
    c!"Upwards Tracing:\n",
    c!"*   Upper => [Lower]\n",
    c!"    *   [REQ_UPPER](#req_upper-the-upper-requirement \"The Upper Requirement\")\n",
    c!"        Reference: [tests/data/trace_up/lower.md:4](../tests/data/trace_up/lower.md?plain=1#L4)\n",
    c!"\n",
    c!"Downwards Tracing:\n",
    c!"## Upper\n",
    c!"\n",
    c!"### REQ_UPPER: The Upper Requirement\n",
    c!"\n",
    c!"Origin: Upper, [tests/data/trace_up/upper.md:1](../tests/data/trace_up/upper.md?plain=1#L1)\n",
    c!"\n",
    c!"Upwards Tracing:\n",
    c!"    *   Derived\n",
    c!"\n",
    c!"Downwards Tracing:\n",
    c!"*   Upper => [Lower]\n",
    c!"    *   [REQ_LOWER](#req_lower-the-lower-requirement \"The Lower Requirement\")\n",
    c!"        Reference: [tests/data/trace_up/lower.md:4](../tests/data/trace_up/lower.md?plain=1#L4)\n"].flatten

example : result traceUpConfig c!"tests/data/trace_up" traceUpFiles [c!"trace"] c!"tests/data/trace_up/out/tmx.md" =
    some (.ok .success, some traceUpExpected) := by decide +kernel

end Reqtrace.DataTest
