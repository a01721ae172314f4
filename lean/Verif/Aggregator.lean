import Verif.Models

/-!
# `src/aggregator.rs`: cross references
-/

namespace Reqtrace

/-- `aggregator.rs:8-26`; a shared reference `&'g T` is `T` -/
structure RequirementTrace where
  covers : BMap Relation (List (Requirement × Location))
  depends : BMap Relation (List (Requirement × Location))
  artefact : Artefact
  requirement : Requirement

/-- `aggregator.rs:28-39` -/
structure ArtefactRelations where
  upper : List TracedRelation
  lower : List TracedRelation
  artefact : Artefact

/-- `aggregator.rs:41-53` -/
structure AggregatedGraph where
  tracedGraph : TracedGraph
  artefacts : BMap ArtefactId ArtefactRelations
  requirements : BMap RequirementId RequirementTrace

/-- `map.get_mut(k).unwrap()` followed by an update of the value. -/
def getMut {κ ν : Type} [Ord κ] [Std.TransOrd κ] (p : Panic) (m : BMap κ ν) (k : κ)
    (f : ν → PanicM ν) : PanicM (BMap κ ν) := do
  let v ← orPanic p (m.get k)
  return m.insert k (← f v)

/-- `aggregator.rs:57-70` -/
def initArtefacts (tg : TracedGraph) : BMap ArtefactId ArtefactRelations :=
  .ofList (tg.artefacts.entries.map (fun e => (e.1, { upper := [], lower := [], artefact := e.2 })))

/-- `aggregator.rs:72-88` -/
def initRequirements (tg : TracedGraph) : BMap RequirementId RequirementTrace :=
  .ofList (tg.artefacts.values.flatMap (fun a => a.requirements.entries.map (fun e =>
    (e.1, { covers := .empty, depends := .empty, requirement := e.2, artefact := a }))))

/-- `aggregator.rs:99-104` and `aggregator.rs:109-114`: insert an empty list for the relation in
every requirement of the artefact; `upd` selects `depends` or `covers`. -/
def insertEmpty (upd : RequirementTrace → RequirementTrace)
    (reqs : BMap RequirementId RequirementTrace) (keys : List RequirementId) :
    PanicM (BMap RequirementId RequirementTrace) :=
  keys.foldlM (fun reqs id => getMut .aggRequirement reqs id (fun r => pure (upd r))) reqs

/-- The mutable maps of `AggregatedGraph::new`. -/
abbrev AggState := BMap ArtefactId ArtefactRelations × BMap RequirementId RequirementTrace

/-- `aggregator.rs:106-115`: one lower artefact of a relation -/
def aggLower (tg : TracedGraph) (rel : TracedRelation) (s : AggState) (a : ArtefactId) :
    PanicM AggState := do
  let arts ← getMut .aggArtefact s.1 a (fun ar => pure { ar with upper := ar.upper ++ [rel] })
  let art ← orPanic .aggArtefact (tg.artefacts.get a)
  let reqs ← insertEmpty (fun r => { r with covers := r.covers.insert rel.relation [] })
    s.2 art.requirements.keys
  return (arts, reqs)

/-- `aggregator.rs:90-116`: one relation in the first loop -/
def aggRelation (tg : TracedGraph) (s : AggState) (rel : TracedRelation) : PanicM AggState := do
  let arts ← getMut .aggArtefact s.1 rel.relation.upper
    (fun ar => pure { ar with lower := ar.lower ++ [rel] })
  let art ← orPanic .aggArtefact (tg.artefacts.get rel.relation.upper)
  let reqs ← insertEmpty (fun r => { r with depends := r.depends.insert rel.relation [] })
    s.2 art.requirements.keys
  rel.relation.lower.foldlM (aggLower tg rel) (arts, reqs)

/-- `aggregator.rs:119-138`: one coverage in the second loop -/
def aggCoverage (rel : Relation) (reqs : BMap RequirementId RequirementTrace) (cov : Coverage) :
    PanicM (BMap RequirementId RequirementTrace) := do
  let upperReq := (← orPanic .aggRequirement (reqs.get cov.upper)).requirement
  let lowerReq := (← orPanic .aggRequirement (reqs.get cov.lower)).requirement
  let reqs ← getMut .aggRequirement reqs cov.upper (fun r => do
    let depends ← getMut .aggRelation r.depends rel (fun l => pure (l ++ [(lowerReq, cov.location)]))
    return { r with depends := depends })
  getMut .aggRequirement reqs cov.lower (fun r => do
    let covers ← getMut .aggRelation r.covers rel (fun l => pure (l ++ [(upperReq, cov.location)]))
    return { r with covers := covers })

/-- `aggregator.rs:55-147` `AggregatedGraph::new` -/
def aggregate (tg : TracedGraph) : PanicM AggregatedGraph := do
  let s ← tg.tracedRelations.foldlM (aggRelation tg) (initArtefacts tg, initRequirements tg)
  let reqs ← tg.tracedRelations.foldlM (fun reqs rel =>
    rel.covered.foldlM (aggCoverage rel.relation) reqs) s.2
  return { tracedGraph := tg, artefacts := s.1, requirements := reqs }

end Reqtrace
