import Verif.Test.Data

/-!
# The unit tests and the other integration tests of the code, run on the model

The positions of Rust tokens are given by hand where the code has them from `syn`.
-/

namespace Reqtrace.UnitTest

/-! ## `src/models.rs:449-517` -/

def locationParse (s : Str) : Option (Except Str Location) := (Location.parse .ascii s).toOption

example : locationParse [] = some (.error c!"Invalid Location") := by decide +kernel
example : locationParse c!"path/to/file.txt" = some (.ok (.newWithNoPos c!"path/to/file.txt")) := by decide +kernel
example : locationParse c!"path/to/file.txt:42" = some (.ok (.newWithLineNo c!"path/to/file.txt" 42)) := by
  decide +kernel
example : locationParse c!"path/to/file.txt:42:67" =
    some (.ok (.newWithLineAndColumn c!"path/to/file.txt" 42 67)) := by decide +kernel
example : locationParse c!"path/to/file.txt:42:67:111" =
    some (.ok (.newWithLineAndColumn c!"path/to/file.txt:42" 67 111)) := by decide +kernel
example : locationParse c!"path/to/f ile.txt:42:67" =
    some (.ok (.newWithLineAndColumn c!"path/to/f ile.txt" 42 67)) := by decide +kernel
example : locationParse c!"C:\\path\\to\\file.txt:42:67" =
    some (.ok (.newWithLineAndColumn c!"C:\\path\\to\\file.txt" 42 67)) := by decide +kernel

/-! ## `src/parsers/markdown.rs:422-562` -/

/-- Letters of Latin-1 besides those of ASCII -/
def latin (c : Char) : Bool := 0xC0 ≤ c.toNat && c.toNat ≤ 0xFF && c.toNat != 0xD7 && c.toNat != 0xF7

def latin1 : Unicode where
  xidStart c := Unicode.ascii.xidStart c || latin c
  xidContinue c := Unicode.ascii.xidContinue c || latin c
  digit := Unicode.ascii.digit
  start_continue c h := by
    rcases (by simpa using h : _ ∨ _) with h | h
    · simp [Unicode.ascii.start_continue c h]
    · simp [h]
  continue_ws c h := by
    rcases (by simpa using h : _ ∨ _) with h | h
    · exact Unicode.ascii.continue_ws c h
    · simp only [latin, Bool.and_eq_true, decide_eq_true_eq] at h
      unfold isWs
      simp only [Bool.or_eq_false_iff, Bool.and_eq_false_iff, decide_eq_false_iff_not, beq_eq_false_iff_ne]
      omega
  digit_ascii := Unicode.ascii.digit_ascii
  start_ascii c h := by
    have : latin c = false := by simp [latin]; omega
    simp [this, Unicode.ascii.start_ascii c h]
  continue_ascii c h := by
    have : latin c = false := by simp [latin]; omega
    simp [this, Unicode.ascii.continue_ascii c h]

/-- The named groups of a match -/
def groups (r : Re) (s : Str) (gs : List Nat) : Option (List (Option Str)) := (r.captures s).map fun c => gs.map c.get

example : groups (Md.requirementRe .ascii) c!"## REQ_VCS: Allow Version Control\n" [1, 2, 3] =
    some [some c!"##", some c!"REQ_VCS", some c!"Allow Version Control"] := by decide +kernel
example : groups (Md.requirementRe latin1) c!"## ÄÅÉËÞÜÚÍÓÖÁÐFGHÏ: Allow Unicode IDs\n" [1, 2] =
    some [some c!"##", some c!"ÄÅÉËÞÜÚÍÓÖÁÐFGHÏ"] := by decide +kernel
example : groups (Md.requirementRe .ascii) c!"## REQ-ID: No Dash\n" [] = none := by decide +kernel
example : groups (Md.requirementRe .ascii) c!"## REQ#ID: No Dash\n" [] = none := by decide +kernel
example : groups (Md.requirementRe latin1) c!"## REQ🍔: No Burgers in requirement ids\n" [] = none := by decide +kernel
example : groups Md.attributeRe c!"Covers: COV, Cov\n" [1, 2] = some [some c!"Covers", some c!"COV, Cov"] := by
  decide +kernel
example : groups Md.attributeRe c!"Covers: \n" [1, 2] = some [some c!"Covers", some []] := by decide +kernel
example : groups (Md.refLinkRe .ascii) c!"*   REQ: Title of req \n" [1, 2] =
    some [some c!"REQ", some c!"Title of req"] := by decide +kernel
example : groups (Md.refLinkRe .ascii) c!"*   REQ \n" [1, 2] = some [some c!"REQ", none] := by decide +kernel

/-- What the tests look at in a requirement -/
structure View where
  id : Str
  title : Option Str
  covers : List (Str × Option Str)
  depends : List (Str × Option Str)
  deriving DecidableEq

def view (r : Requirement) : View :=
  ⟨r.id, r.title, r.covers.map fun c => (c.id, c.title), r.depends.map fun c => (c.id, c.title)⟩

def views (r : PanicM (List Requirement × List Error)) : Option (List View × List Error) :=
  r.toOption.map fun (reqs, errs) => (reqs.map view, errs)

def oneRequirement : Str := [
    c!"\n",
    c!"## REQ: Title Title\n",
    c!"\n",
    c!"Description\n",
    c!"\n",
    c!"Descriotion\n",
    c!"\n",
    c!"Covers: COV, Cov\n",
    c!"*   COV3: Title 3\n",
    c!"*   COV4\n",
    c!"\n",
    c!"Depends:\n",
    c!"*   DEP\n",
    c!"*   DEP_WT: T\n",
    c!"        "].flatten

example : views (Md.parse .ascii ⟨oneRequirement, none⟩ c!"Test.md") =
    some ([⟨c!"REQ", some c!"Title Title",
      [(c!"COV", none), (c!"Cov", none), (c!"COV3", some c!"Title 3"), (c!"COV4", none)],
      [(c!"DEP", none), (c!"DEP_WT", some c!"T")]⟩], []) := by decide +kernel

example : views (Md.parse .ascii ⟨c!"\n## REQ: Title Title\nCovers:\n        ", none⟩ c!"Test.md") =
    some ([⟨c!"REQ", some c!"Title Title", [], []⟩], []) := by decide +kernel

/-! ## `src/parsers/monoreq.rs:83-120` -/

example : groups (MonoReq.refLinkRe .ascii) c!"Some text => REQ_ID" [1, 2] = some [some c!"REQ_ID", none] := by
  decide +kernel
example : groups (MonoReq.refLinkRe .ascii) c!"Some text => REQ_ID:     Req Title        " [1, 2] =
    some [some c!"REQ_ID", some c!"Req Title"] := by decide +kernel

def monoText : Str := [
    c!"First Line\n",
    c!"            second line\n",
    c!"            some text => REQ_1\n",
    c!"            some more text\n",
    c!"            another requirement =>REQ_2: title\n",
    c!"            "].flatten

example : views (MonoReq.parse .ascii ⟨monoText, none⟩ c!"path/to/Read_Me.md") =
    some ([⟨c!"Read_Me", some c!"First Line", [], [(c!"REQ_1", none), (c!"REQ_2", some c!"title")]⟩], []) := by
  decide +kernel

/-! ## `src/parsers/rust.rs:284-345` -/

/-- `mod module_name { impl Trait for Struct { fn foo() { requirement_covered!(..) } } }` -/
def rustFile (line column : Nat) (tokens : List Rs.Tok) : Rs.Forest :=
  .item (.mod c!"module_name") 2 16
    (.item (.impl c!"Struct" (some (false, c!"Trait"))) 3 31
      (.item (.implMethod c!"foo") 4 23
        (.node (.mac ⟨[c!"requirement_covered"], line, column, tokens⟩ .nil) .nil) .nil) .nil) .nil

example : Rs.parse ⟨fun _ => .ok (rustFile 5 24 [⟨true, c!"REQ_ID", 5, 45⟩]), fun _ => []⟩ ⟨[], none⟩ c!"src/filename.rs" =
    .ok ([⟨c!"module_name::(Struct as Trait)::foo", none, .newWithLineAndColumn c!"src/filename.rs" 4 23,
      [⟨c!"REQ_ID", none, .newWithLineAndColumn c!"src/filename.rs" 5 24⟩], [], [], .empty⟩], []) := by decide +kernel

example : Rs.parse ⟨fun _ => .ok (rustFile 10 32 [⟨true, c!"REQ_ID", 10, 53⟩, ⟨false, c!",", 10, 59⟩,
      ⟨false, c!"\"Title String\"", 10, 61⟩]), fun _ => []⟩ ⟨[], none⟩ c!"src/filename.rs" =
    .ok ([⟨c!"module_name::(Struct as Trait)::foo", none, .newWithLineAndColumn c!"src/filename.rs" 4 23,
      [⟨c!"REQ_ID", some c!"Title String", .newWithLineAndColumn c!"src/filename.rs" 10 32⟩], [], [], .empty⟩], []) := by
  decide +kernel

/-! ## `tests/controller_returns_job_return_code` -/

def codeConfig : Config where
  version := none
  artefacts := [⟨c!"misconfigured_artefact", [], .json, none, none⟩]
  relations := []
  jobs := some (.ofList [(c!"fails", ⟨.parse, .markdown, c!"out/requirements.md", none⟩),
    (c!"succeeds", ⟨.parse, .markdown, c!"out/requirements.md", some false⟩)])
  defaultJobs := none

def codeOf (jobs : List Str) : Option (Controller.Res JobSuccess) :=
  (DataTest.result codeConfig c!"tests/controller_returns_job_return_code" [] jobs []).map (·.1)

example : codeOf [c!"succeeds"] = some (.ok .success) := by decide +kernel
example : codeOf [c!"fails"] = some (.ok .errorsDetected) := by decide +kernel
example : codeOf [c!"fails", c!"fails"] = some (.ok .errorsDetected) := by decide +kernel
example : codeOf [c!"succeeds", c!"fails"] = some (.ok .errorsDetected) := by decide +kernel
example : codeOf [c!"fails", c!"succeeds"] = some (.ok .errorsDetected) := by decide +kernel

/-! ## `tests/parse_all_artefacts` -/

def allConfig : Config where
  version := none
  artefacts := [⟨c!"a1", [c!"a1.json"], .json, none, none⟩, ⟨c!"a2", [c!"a2.json"], .json, none, none⟩,
    ⟨c!"readme", [c!"readme.md"], .monoRequirement, none, none⟩]
  relations := []
  jobs := some (.ofList [(c!"parse", ⟨.parse, .json, c!"out/requirements.json", none⟩)])
  defaultJobs := none

def allFiles : List (Path × Str) := [(c!"tests/parse_all_artefacts/a1.json", [
    c!"[\n",
    c!"  {\n",
    c!"    \"id\": \"ARCH_ARTEFACT\",\n",
    c!"    \"title\": \"Artefact\",\n",
    c!"    \"location\": {\n",
    c!"      \"file\": \"doc/requirements/ARCHITECTURE.md\",\n",
    c!"      \"location_in_file\": {\n",
    c!"        \"Line\": 69\n",
    c!"      }\n",
    c!"    },\n",
    c!"    \"covers\": [],\n",
    c!"    \"depends\": [],\n",
    c!"    \"tags\": [],\n",
    c!"    \"attributes\": {\n",
    c!"    }\n",
    c!"  },\n",
    c!"  {\n",
    c!"    \"id\": \"ARCH_CLI\",\n",
    c!"    \"title\": \"Command Line Interface\",\n",
    c!"    \"location\": {\n",
    c!"      \"file\": \"doc/requirements/ARCHITECTURE.md\",\n",
    c!"      \"location_in_file\": {\n",
    c!"        \"Line\": 22\n",
    c!"      }\n",
    c!"    },\n",
    c!"    \"covers\": [],\n",
    c!"    \"depends\": [],\n",
    c!"    \"tags\": [],\n",
    c!"    \"attributes\": {\n",
    c!"    }\n",
    c!"  }\n",
    c!"]\n"].flatten),
    (c!"tests/parse_all_artefacts/a2.json", [
    c!"[\n",
    c!"  {\n",
    c!"    \"id\": \"REQ_CACHE_FRIENDLY\",\n",
    c!"    \"title\": \"Work well with build systems that cache\",\n",
    c!"    \"location\": {\n",
    c!"      \"file\": \"doc/requirements/REQUIREMENTS.md\",\n",
    c!"      \"location_in_file\": {\n",
    c!"        \"Line\": 132\n",
    c!"      }\n",
    c!"    },\n",
    c!"    \"covers\": [],\n",
    c!"    \"depends\": [],\n",
    c!"    \"tags\": [],\n",
    c!"    \"attributes\": {\n",
    c!"    }\n",
    c!"  },\n",
    c!"  {\n",
    c!"    \"id\": \"REQ_CONFIG\",\n",
    c!"    \"title\": \"Simple Configuration in One File\",\n",
    c!"    \"location\": {\n",
    c!"      \"file\": \"doc/requirements/REQUIREMENTS.md\",\n",
    c!"      \"location_in_file\": {\n",
    c!"        \"Line\": 123\n",
    c!"      }\n",
    c!"    },\n",
    c!"    \"covers\": [],\n",
    c!"    \"depends\": [],\n",
    c!"    \"tags\": [],\n",
    c!"    \"attributes\": {\n",
    c!"    }\n",
    c!"  }\n",
    c!"]\n"].flatten),
    (c!"tests/parse_all_artefacts/readme.md", [
    c!"Readme's Title\n",
    c!"======\n",
    c!"\n",
    c!"\n",
    c!"Readme Description\n",
    c!"\n",
    c!"Pointing to other requirements:\n",
    c!"*   foo => REQ_FOO\n",
    c!"*   bar => REQ_BAR\n",
    c!"\n",
    c!"\n"].flatten)]

def allExpected : Str := [
    c!"{\n",
    c!"  \"version\": 0,\n",
    c!"  \"requirements\": [\n",
    c!"    {\n",
    c!"      \"id\": \"ARCH_ARTEFACT\",\n",
    c!"      \"title\": \"Artefact\",\n",
    c!"      \"location\": {\n",
    c!"        \"file\": \"doc/requirements/ARCHITECTURE.md\",\n",
    c!"        \"location_in_file\": {\n",
    c!"          \"Line\": 69\n",
    c!"        }\n",
    c!"      },\n",
    c!"      \"covers\": [],\n",
    c!"      \"depends\": [],\n",
    c!"      \"tags\": [],\n",
    c!"      \"attributes\": {}\n",
    c!"    },\n",
    c!"    {\n",
    c!"      \"id\": \"ARCH_CLI\",\n",
    c!"      \"title\": \"Command Line Interface\",\n",
    c!"      \"location\": {\n",
    c!"        \"file\": \"doc/requirements/ARCHITECTURE.md\",\n",
    c!"        \"location_in_file\": {\n",
    c!"          \"Line\": 22\n",
    c!"        }\n",
    c!"      },\n",
    c!"      \"covers\": [],\n",
    c!"      \"depends\": [],\n",
    c!"      \"tags\": [],\n",
    c!"      \"attributes\": {}\n",
    c!"    },\n",
    c!"    {\n",
    c!"      \"id\": \"REQ_CACHE_FRIENDLY\",\n",
    c!"      \"title\": \"Work well with build systems that cache\",\n",
    c!"      \"location\": {\n",
    c!"        \"file\": \"doc/requirements/REQUIREMENTS.md\",\n",
    c!"        \"location_in_file\": {\n",
    c!"          \"Line\": 132\n",
    c!"        }\n",
    c!"      },\n",
    c!"      \"covers\": [],\n",
    c!"      \"depends\": [],\n",
    c!"      \"tags\": [],\n",
    c!"      \"attributes\": {}\n",
    c!"    },\n",
    c!"    {\n",
    c!"      \"id\": \"REQ_CONFIG\",\n",
    c!"      \"title\": \"Simple Configuration in One File\",\n",
    c!"      \"location\": {\n",
    c!"        \"file\": \"doc/requirements/REQUIREMENTS.md\",\n",
    c!"        \"location_in_file\": {\n",
    c!"          \"Line\": 123\n",
    c!"        }\n",
    c!"      },\n",
    c!"      \"covers\": [],\n",
    c!"      \"depends\": [],\n",
    c!"      \"tags\": [],\n",
    c!"      \"attributes\": {}\n",
    c!"    },\n",
    c!"    {\n",
    c!"      \"id\": \"readme\",\n",
    c!"      \"title\": \"Readme's Title\",\n",
    c!"      \"location\": {\n",
    c!"        \"file\": \"tests/parse_all_artefacts/readme.md\",\n",
    c!"        \"location_in_file\": null\n",
    c!"      },\n",
    c!"      \"covers\": [],\n",
    c!"      \"depends\": [\n",
    c!"        {\n",
    c!"          \"id\": \"REQ_FOO\",\n",
    c!"          \"title\": null,\n",
    c!"          \"location\": {\n",
    c!"            \"file\": \"tests/parse_all_artefacts/readme.md\",\n",
    c!"            \"location_in_file\": {\n",
    c!"              \"Line\": 8\n",
    c!"            }\n",
    c!"          }\n",
    c!"        },\n",
    c!"        {\n",
    c!"          \"id\": \"REQ_BAR\",\n",
    c!"          \"title\": null,\n",
    c!"          \"location\": {\n",
    c!"            \"file\": \"tests/parse_all_artefacts/readme.md\",\n",
    c!"            \"location_in_file\": {\n",
    c!"              \"Line\": 9\n",
    c!"            }\n",
    c!"          }\n",
    c!"        }\n",
    c!"      ],\n",
    c!"      \"tags\": [],\n",
    c!"      \"attributes\": {}\n",
    c!"    }\n",
    c!"  ],\n",
    c!"  \"errors\": []\n",
    c!"}"].flatten

set_option maxRecDepth 100000 in
example : DataTest.result allConfig c!"tests/parse_all_artefacts" allFiles [c!"parse"] c!"tests/parse_all_artefacts/out/requirements.json" =
    some (.ok .success, some allExpected) := by decide +kernel

end Reqtrace.UnitTest
