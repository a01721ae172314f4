import Verif.Models

/-!
# `src/trace.rs`: the tracer
-/

namespace Reqtrace

/-- `trace.rs:16-25` -/
structure TracedArtefact where
  artefact : Artefact
  requirementsById : BMap RequirementId Requirement
  requirementsThatCover : BMap RequirementId (List (Requirement × Reference))
  derived : BSet RequirementId

/-- `trace.rs:27-47` -/
structure Tracer where
  tracedArtefacts : BMap ArtefactId TracedArtefact
  relations : List TracedRelation
  errors : List Error
  reqById : BMap RequirementId (ArtefactId × Requirement)
  invalidDependsLinks : BSet (RequirementId × RequirementId)
  invalidCoversLinks : BSet (RequirementId × RequirementId)

/-- `trace.rs:51-58` -/
def Tracer.empty : Tracer :=
  { tracedArtefacts := .empty, relations := [], errors := [], reqById := .empty,
    invalidDependsLinks := .empty, invalidCoversLinks := .empty }

/-- The mutable variables of `add_artefact` (`trace.rs:98-102`): the tracer, `requirements_by_id`,
`requirements_that_cover` and `derived`. -/
structure AddState where
  tracer : Tracer
  requirementsById : BMap RequirementId Requirement
  requirementsThatCover : BMap RequirementId (List (Requirement × Reference))
  derived : BSet RequirementId

/-- `trace.rs:133-140`: append `(req, cov)` to the vector under `cov.id` -/
def pushCover (m : BMap RequirementId (List (Requirement × Reference))) (req : Requirement)
    (cov : Reference) : BMap RequirementId (List (Requirement × Reference)) :=
  match m.get cov.id with
  | none => m.insert cov.id [(req, cov)]
  | some v => m.insert cov.id (v ++ [(req, cov)])

/-- `trace.rs:104-144`: the body of the loop over the artefact's requirements -/
def addRequirement (artefact : Artefact) (s : AddState) (req : Requirement) : AddState :=
  match s.tracer.reqById.get req.id with
  | some (_, oldReq) =>
    { s with tracer := { s.tracer with
        errors := s.tracer.errors ++ [.duplicateRequirement oldReq req] } }
  | none =>
    { tracer := { s.tracer with
        reqById := s.tracer.reqById.insert req.id (artefact.id, req)
        invalidCoversLinks := req.covers.foldl
          (fun l cov => BSet.add l (cov.id, req.id)) s.tracer.invalidCoversLinks
        invalidDependsLinks := req.depends.foldl
          (fun l dep => BSet.add l (req.id, dep.id)) s.tracer.invalidDependsLinks }
      derived := if !artefact.ignoreDerivedRequirements then s.derived.add req.id else s.derived
      requirementsById := s.requirementsById.insert req.id req
      requirementsThatCover := req.covers.foldl (fun m cov => pushCover m req cov)
        s.requirementsThatCover }

/-- `trace.rs:97-154` -/
def addArtefact (t : Tracer) (artefact : Artefact) : Tracer :=
  let s := artefact.requirements.values.foldl (addRequirement artefact)
    { tracer := t, requirementsById := .empty, requirementsThatCover := .empty, derived := .empty }
  let ta : TracedArtefact :=
    { artefact := artefact, requirementsById := s.requirementsById,
      requirementsThatCover := s.requirementsThatCover, derived := s.derived }
  { s.tracer with tracedArtefacts := s.tracer.tracedArtefacts.insert ta.artefact.id ta }

/-- The mutable variables of `trace_relation` (`trace.rs:157-162`) within the loop over the upper
requirements: the tracer, `covered` and the current requirement's `is_covered`. -/
structure RelState where
  tracer : Tracer
  covered : List Coverage
  isCovered : Bool

/-- `trace.rs:173-215`: one lower artefact for one `depends` reference of the upper requirement -/
def traceDependsLower (upperReq : Requirement) (depends : Reference) (s : RelState)
    (lower : ArtefactId) : PanicM RelState := do
  let lowerArt ← orPanic .traceLower (s.tracer.tracedArtefacts.get lower)
  match lowerArt.requirementsById.get depends.id with
  | none => return s
  | some lowerReq =>
    let errs : List Error := match depends.title with
      | some title =>
        if some title != lowerReq.title then
          [.dependWithWrongTitle upperReq lowerReq title depends.location]
        else []
      | none =>
        if lowerArt.artefact.referenceWithTitle then
          [.referencedWithoutTitle lowerReq depends.location]
        else []
    return {
      tracer := { s.tracer with
        errors := s.tracer.errors ++ errs
        tracedArtefacts := s.tracer.tracedArtefacts.modify lower
          (fun a => { a with derived := a.derived.erase lowerReq.id })
        invalidDependsLinks := s.tracer.invalidDependsLinks.erase (upperReq.id, lowerReq.id) }
      covered := s.covered ++
        [{ upper := upperReq.id, lower := lowerReq.id, location := depends.location,
           direction := .downwards }]
      isCovered := true }

/-- `trace.rs:168-216`: all `depends` references of the upper requirement -/
def traceDepends (rel : Relation) (upperReq : Requirement) (s : RelState) : PanicM RelState :=
  upperReq.depends.foldlM (fun s depends =>
    rel.lower.foldlM (traceDependsLower upperReq depends) s) s

/-- `trace.rs:228-264`: one lower requirement that covers the upper requirement -/
def traceCover (upperArt : Artefact) (upperReq : Requirement) (lowerId : ArtefactId) (s : RelState)
    (e : Requirement × Reference) : RelState :=
  let lowerReq := e.1
  let covers := e.2
  let errs : List Error := match covers.title with
    | some title =>
      if some title != upperReq.title then
        [.coveredWithWrongTitle upperReq lowerReq title covers.location]
      else []
    | none =>
      if upperArt.referenceWithTitle then
        [.referencedWithoutTitle upperReq covers.location]
      else []
  { tracer := { s.tracer with
      errors := s.tracer.errors ++ errs
      tracedArtefacts := s.tracer.tracedArtefacts.modify lowerId
        (fun a => { a with derived := a.derived.erase lowerReq.id })
      invalidCoversLinks := s.tracer.invalidCoversLinks.erase (upperReq.id, lowerReq.id) }
    covered := s.covered ++
      [{ upper := upperReq.id, lower := lowerReq.id, location := covers.location,
         direction := .upwards }]
    isCovered := true }

/-- `trace.rs:218-266`: one lower artefact's requirements that cover the upper requirement -/
def traceCoversLower (upperArt : Artefact) (upperReq : Requirement) (s : RelState)
    (lowerId : ArtefactId) : PanicM RelState := do
  let lowerArt ← orPanic .traceLower (s.tracer.tracedArtefacts.get lowerId)
  match lowerArt.requirementsThatCover.get upperReq.id with
  | none => return s
  | some lower => return lower.foldl (traceCover upperArt upperReq lowerId) s

/-- The variables of `trace_relation` that live across upper requirements (`trace.rs:160-162`) -/
structure RelAcc where
  tracer : Tracer
  covered : List Coverage
  uncovered : List RequirementId
  anyReqCovered : Bool

/-- `trace.rs:166-272`: the body of the loop over the upper requirements -/
def traceUpperReq (rel : Relation) (upperArt : Artefact) (acc : RelAcc) (upperReq : Requirement) :
    PanicM RelAcc := do
  let s ← traceDepends rel upperReq
    { tracer := acc.tracer, covered := acc.covered, isCovered := false }
  let s ← rel.lower.foldlM (traceCoversLower upperArt upperReq) s
  return {
    tracer := s.tracer
    covered := s.covered
    uncovered := if !s.isCovered then acc.uncovered ++ [upperReq.id] else acc.uncovered
    anyReqCovered := acc.anyReqCovered || s.isCovered }

/-- `trace.rs:156-285` -/
def traceRelation (t : Tracer) (rel : Relation) : PanicM Tracer := do
  let upperArt := (← orPanic .traceUpper (t.tracedArtefacts.get rel.upper)).artefact
  let acc ← upperArt.requirements.values.foldlM (traceUpperReq rel upperArt)
    { tracer := t, covered := [], uncovered := [], anyReqCovered := false }
  return { acc.tracer with
    errors := if !acc.anyReqCovered then acc.tracer.errors ++ [.unusedRelation rel]
              else acc.tracer.errors
    relations := acc.tracer.relations ++
      [{ relation := rel, covered := acc.covered, uncovered := acc.uncovered }] }

/-- `trace.rs:293-309`: one link of `validate_upwards` -/
def validateUpward (t : Tracer) (link : RequirementId × RequirementId) : PanicM Tracer := do
  let (upperId, lowerId) := link
  let (_, req) ← orPanic .traceReqById (t.reqById.get lowerId)
  let reference ← orPanic .traceLink (req.covers.find? (fun r => r.id == upperId))
  return { t with errors := t.errors ++
    [.coversUnknownRequirement req upperId reference.location] }

/-- `trace.rs:292-310` -/
def validateUpwards (t : Tracer) : PanicM Tracer :=
  t.invalidCoversLinks.toList.foldlM validateUpward t

/-- `trace.rs:313-330`: one link of `validate_downwards` -/
def validateDownward (t : Tracer) (link : RequirementId × RequirementId) : PanicM Tracer := do
  let (upperId, lowerId) := link
  let (_, req) ← orPanic .traceReqById (t.reqById.get upperId)
  let reference ← orPanic .traceLink (req.depends.find? (fun r => r.id == lowerId))
  return { t with errors := t.errors ++
    [.dependOnUnknownRequirement req lowerId reference.location] }

/-- `trace.rs:312-331` -/
def validateDownwards (t : Tracer) : PanicM Tracer :=
  t.invalidDependsLinks.toList.foldlM validateDownward t

/-- `trace.rs:287-290` -/
def validate (t : Tracer) : PanicM Tracer := do
  validateDownwards (← validateUpwards t)

/-- `trace.rs:50-69` -/
def Tracer.new (graph : Graph) : PanicM Tracer := do
  let t := graph.artefacts.values.foldl addArtefact Tracer.empty
  let t ← graph.relations.foldlM traceRelation t
  validate t

/-- `trace.rs:71-95` -/
def Tracer.data (t : Tracer) : TracedGraph :=
  { artefacts := t.tracedArtefacts.mapValues (·.artefact)
    tracedRelations := t.relations
    derived := t.tracedArtefacts.mapValues (·.derived.toList)
    errors := t.errors }

/-- `trace.rs:12-14` -/
def trace (graph : Graph) : PanicM TracedGraph := do
  return (← Tracer.new graph).data

end Reqtrace
