import Verif.Spec.Log2

/-!
# The text of the log

What is shown of a problem, line by line, and where in the program each line of the log is written.
-/

namespace Reqtrace.Spec

open Log

/-! ## Lines -/

/-- A comma at the end of the last line. -/
def withComma : List Str → List Str
  | [] => []
  | [l] => [l ++ c!","]
  | l :: ls => l :: withComma ls

/-- A part of something: moved to the right, with a comma at the end. -/
def part (ls : List Str) : List Str := (withComma ls).map (c!"    " ++ ·)

/-- A name in front of the first line. -/
def labelled (name : Str) : List Str → List Str
  | [] => [name]
  | l :: ls => (name ++ c!": " ++ l) :: ls

/-- The parts of something between its first and its last line. -/
def group (first last : Str) (parts : List (List Str)) : List Str := first :: parts.flatMap part ++ [last]

def tupleShown (name : Str) (parts : List (List Str)) : List Str := group (name ++ c!"(") c!")" parts

def structShown (name : Str) (fields : List (Str × List Str)) : List Str :=
  group (name ++ c!" {") c!"}" (fields.map fun f => labelled f.1 f.2)

def listShown (parts : List (List Str)) : List Str := if parts = [] then [c!"[]"] else group c!"[" c!"]" parts

/-- Names or keys are one line, too. -/
def mapShown (entries : List (Str × List Str)) : List Str :=
  if entries = [] then [c!"{}"] else group c!"{" c!"}" (entries.map fun e => labelled e.1 e.2)

def optionShown : Option (List Str) → List Str
  | none => [c!"None"]
  | some ls => tupleShown c!"Some" [ls]

/-! ## Values -/

def idShown (env : Env) (id : RequirementId) : List Str := tupleShown c!"RequirementId" [[quoted env.fmt id]]

def artefactIdShown (env : Env) (id : ArtefactId) : List Str := tupleShown c!"ArtefactId" [[quoted env.fmt id]]

def positionShown (env : Env) : LocationInFile → List Str
  | .line l => tupleShown c!"Line" [[natStr l]]
  | .lineAndColumn l c => tupleShown c!"LineAndColumn" [[natStr l], [natStr c]]
  | .string s => tupleShown c!"String" [[quoted env.fmt s]]

def locationShown (env : Env) (log : LogEnv) (l : Location) : List Str :=
  structShown c!"Location" [(c!"file", [log.debugPath l.file]),
    (c!"location_in_file", optionShown (l.locationInFile.map (positionShown env)))]

def titleShown (env : Env) (t : Option Str) : List Str := optionShown (t.map fun s => [quoted env.fmt s])

def referenceShown (env : Env) (log : LogEnv) (r : Reference) : List Str :=
  structShown c!"Reference" [(c!"id", idShown env r.id), (c!"title", titleShown env r.title),
    (c!"location", locationShown env log r.location)]

def requirementShown (env : Env) (log : LogEnv) (r : Requirement) : List Str :=
  structShown c!"Requirement" [(c!"id", idShown env r.id), (c!"title", titleShown env r.title),
    (c!"location", locationShown env log r.location), (c!"covers", listShown (r.covers.map (referenceShown env log))),
    (c!"depends", listShown (r.depends.map (referenceShown env log))),
    (c!"tags", listShown (r.tags.map fun t => [quoted env.fmt t])),
    (c!"attributes", mapShown (r.attributes.entries.map fun e => (quoted env.fmt e.1, [quoted env.fmt e.2])))]

/-- What the log shows of a problem. -/
def problemShown (env : Env) (log : LogEnv) : Error → List Str
  | .format loc text => tupleShown c!"Format" [locationShown env log loc, [quoted env.fmt text]]
  | .duplicateRequirement a b =>
    tupleShown c!"DuplicateRequirement" [requirementShown env log a, requirementShown env log b]
  | .duplicateAttribute loc attr id =>
    tupleShown c!"DuplicateAttribute" [locationShown env log loc, [quoted env.fmt attr], idShown env id]
  | .io path text => tupleShown c!"Io" [[log.debugPath path], [quoted env.fmt text]]
  | .config text => tupleShown c!"Config" [[quoted env.fmt text]]
  | .duplicateArtefact a => tupleShown c!"DuplicateArtefact" [[quoted env.fmt a]]
  | .unknownArtefact a => tupleShown c!"UnknownArtefact" [artefactIdShown env a]
  | .coveredWithWrongTitle upper lower t loc => structShown c!"CoveredWithWrongTitle"
      [(c!"upper", requirementShown env log upper), (c!"lower", requirementShown env log lower),
       (c!"wrong_title", [quoted env.fmt t]), (c!"location", locationShown env log loc)]
  | .dependWithWrongTitle upper lower t loc => structShown c!"DependWithWrongTitle"
      [(c!"upper", requirementShown env log upper), (c!"lower", requirementShown env log lower),
       (c!"wrong_title", [quoted env.fmt t]), (c!"location", locationShown env log loc)]
  | .referencedWithoutTitle r loc => structShown c!"ReferencedWithoutTitle"
      [(c!"referenced", requirementShown env log r), (c!"location", locationShown env log loc)]
  | .requirementWithoutTitle r => tupleShown c!"RequirementWithoutTitle" [requirementShown env log r]
  | .dependOnUnknownRequirement r id loc => tupleShown c!"DependOnUnknownRequirement"
      [requirementShown env log r, idShown env id, locationShown env log loc]
  | .coversUnknownRequirement r id loc => tupleShown c!"CoversUnknownRequirement"
      [requirementShown env log r, idShown env id, locationShown env log loc]
  | .emptyGraph => [c!"EmptyGraph"]
  | .unusedRelation rel => tupleShown c!"UnusedRelation" [structShown c!"Relation"
      [(c!"upper", artefactIdShown env rel.upper), (c!"lower", listShown (rel.lower.map (artefactIdShown env)))]]

/-- What the log shows of the derived requirements.  The keys are several lines, and the value begins on the last of
them. -/
def derivedShown (env : Env) (d : BMap ArtefactId (List RequirementId)) : List Str :=
  if d.entries = [] then [c!"{}"] else
    group c!"{" c!"}" (d.entries.map fun e =>
      [c!"ArtefactId(", c!"    " ++ quoted env.fmt e.1 ++ c!","] ++ labelled c!")" (listShown (e.2.map (idShown env))))

/-- The text of some lines. -/
def text (ls : List Str) : Str := List.intercalate c!"\n" ls

/-- The word for a level. -/
def levelWord : Level → Str
  | .error => c!"ERROR"
  | .warn => c!"WARN"
  | .info => c!"INFO"
  | .debug => c!"DEBUG"
  | .trace => c!"TRACE"

/-! ## Places in the program -/

/-- The place in the program where a problem is announced. -/
inductive ProblemSite : Error → Str → Nat → Prop
  | unreadable {p t} : ProblemSite (.io p t) c!"src/parsers/markdown.rs" 86
  | attribute {loc} : ProblemSite (.format loc c!"Expected an Attribute line like `Comment:`") c!"src/parsers/markdown.rs" 183
  | reference {loc} : ProblemSite (.format loc c!"Expected a Reference like `* REQ_ID: Title`") c!"src/parsers/markdown.rs" 218
  | covers {loc id} : ProblemSite (.duplicateAttribute loc c!"Covers" id) c!"src/parsers/markdown.rs" 361
  | depends {loc id} : ProblemSite (.duplicateAttribute loc c!"Depends" id) c!"src/parsers/markdown.rs" 379
  | text {loc a id} : a ≠ c!"Covers" → a ≠ c!"Depends" → ProblemSite (.duplicateAttribute loc a id) c!"src/parsers/markdown.rs" 397
  | stem {path} : ProblemSite (.config (c!"file for 'MonoReq' parser `" ++ path ++ c!" has no stem")) c!"src/parsers/monoreq.rs" 57
  | rustRead {p t} : ProblemSite (.io p t) c!"src/parsers/rust.rs" 27
  | syntax {loc t} : ProblemSite (.format loc t) c!"src/parsers/rust.rs" 37
  | noArgument {loc} : ProblemSite (.format loc c!"requirement_covered!() has no arguments") c!"src/parsers/rust.rs" 87
  | single {loc} : ProblemSite (.format loc c!"requirement_covered!() single argument is not an identifier") c!"src/parsers/rust.rs" 107
  | second {loc} : ProblemSite (.format loc c!"requirement_covered!() 2nd argument is not String") c!"src/parsers/rust.rs" 127
  | first {loc} : ProblemSite (.format loc c!"requirement_covered!() 1st argument is not an identifier") c!"src/parsers/rust.rs" 137
  | more {loc ts} : ProblemSite (.format loc (c!"requirement_covered!() called with more than 2 argument/token " ++ ts))
      c!"src/parsers/rust.rs" 149
  | notOne {t} : ProblemSite (.config (c!"Expected only 1 file for artefact " ++ t)) c!"src/controller.rs" 65
  | closed {p t} : ProblemSite (.io p t) c!"src/controller.rs" 74
  | json {p t} : ProblemSite (.format ⟨p, none⟩ t) c!"src/controller.rs" 88
  | noPaths {t} : ProblemSite (.config (c!"No Paths for artefact " ++ t)) c!"src/controller.rs" 106
  | closedRust {p t} : ProblemSite (.io p t) c!"src/controller.rs" 124
  | duplicate {a b} : ProblemSite (.duplicateRequirement a b) c!"src/controller.rs" 167
  | unused {rel} : ProblemSite (.unusedRelation rel) c!"src/trace.rs" 276
  | upwards {r id loc} : ProblemSite (.coversUnknownRequirement r id loc) c!"src/trace.rs" 307
  | downwards {r id loc} : ProblemSite (.dependOnUnknownRequirement r id loc) c!"src/trace.rs" 328

/-- A line of the log: its place in the program, its level and the beginning of its text. -/
inductive LogSite (env : Env) (log : LogEnv) : Record → Prop
  | problem {e file line} : ProblemSite e file line → LogSite env log ⟨file, line, .info, c!"found problem " ++ Spec.text (problemShown env log e)⟩
  | configFile {t} : LogSite env log ⟨c!"src/main.rs", 62, .info, c!"using config file " ++ t⟩
  | failed {t} : LogSite env log ⟨c!"src/main.rs", 127, .error, t⟩
  | relation {t} : LogSite env log ⟨c!"src/trace.rs", 158, .trace, c!"Trace Relation { " ++ t⟩
  | defaults : LogSite env log ⟨c!"src/controller.rs", 266, .trace, c!"Running default jobs"⟩
  | noJobs : LogSite env log ⟨c!"src/controller.rs", 271, .info,
      c!"found problem " ++ Spec.text (tupleShown c!"Config" [[quoted env.fmt c!"no default_jobs configured"]])⟩
  | unknownJob {name} : LogSite env log ⟨c!"src/controller.rs", 283, .info,
      c!"found problem " ++ Spec.text (tupleShown c!"UnknownJob" [[quoted env.fmt name]])⟩
  | ran {t} : LogSite env log ⟨c!"src/controller.rs", 309, .info, c!"ran " ++ t⟩
  | job {name t} : LogSite env log ⟨c!"src/controller.rs", 320, .trace, c!"Job " ++ name ++ c!" Job { " ++ t⟩
  | stdout {t} : LogSite env log ⟨c!"src/controller.rs", 326, .info, c!"writing \"" ++ t ++ c!"\" to stdout"⟩
  | file {t} : LogSite env log ⟨c!"src/controller.rs", 341, .info, c!"writing " ++ t⟩
  | tracing : LogSite env log ⟨c!"src/controller.rs", 353, .debug, c!"Job did not succeed because: Tracing Errors"⟩
  | parsing : LogSite env log ⟨c!"src/controller.rs", 357, .debug, c!"Job did not succeed because: Artefact Parsing Errors"⟩
  | uncovered : LogSite env log ⟨c!"src/controller.rs", 365, .debug, c!"Job did not succeed because: uncovered relations"⟩
  | derived {d} : LogSite env log ⟨c!"src/controller.rs", 370, .debug,
      c!"Job did not succeed because: derived Requirements: " ++ Spec.text (derivedShown env d)⟩
  | parseJob : LogSite env log ⟨c!"src/controller.rs", 388, .debug, c!"Job did not succeed because: Artefact Parsing Errors"⟩
  | success {name} : LogSite env log ⟨c!"src/controller.rs", 399, .info, c!"Job " ++ name ++ c!" successful"⟩
  | fault {name} : LogSite env log ⟨c!"src/controller.rs", 402, .warn, c!"Job " ++ name ++ c!" detected Errors"⟩

end Reqtrace.Spec
