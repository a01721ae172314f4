import Verif.Props.Trace
import Verif.Spec.Controller
import Verif.Spec.Places

/-!
# C131: tracing does not depend on places and texts

The tracer commutes with any change of the places, attributes and tags of the requirements: each of its functions does.
-/

namespace Reqtrace

open Spec

namespace BMap

variable {κ ν μ : Type} [Ord κ] [Std.TransOrd κ] [Std.LawfulEqOrd κ] [DecidableEq κ]

theorem mapValues_insert (m : BMap κ ν) (f : ν → μ) (k : κ) (v : ν) :
    (m.insert k v).mapValues f = (m.mapValues f).insert k (f v) := by
  apply BMap.ext_get
  intro k'
  rw [get_mapValues, get_insert, get_insert, get_mapValues]
  split <;> rfl

theorem mapValues_modify (m : BMap κ ν) (f : ν → μ) (k : κ) (g : ν → ν) (g' : μ → μ) (h : ∀ v, f (g v) = g' (f v)) :
    (m.modify k g).mapValues f = (m.mapValues f).modify k g' := by
  apply BMap.ext_get
  intro k'
  rw [get_mapValues, get_modify, get_modify, get_mapValues]
  split
  · cases m.get k' <;> simp [h]
  · rfl

theorem values_mapValues (m : BMap κ ν) (f : ν → μ) : (m.mapValues f).values = m.values.map f := by
  simp [values, mapValues, List.map_map, Function.comp_def]

theorem mapValues_mapValues {ρ : Type} (m : BMap κ ν) (f : ν → μ) (g : μ → ρ) :
    (m.mapValues f).mapValues g = m.mapValues (fun v => g (f v)) := by
  apply BMap.ext_get
  intro k
  rw [get_mapValues, get_mapValues, get_mapValues, Option.map_map]
  rfl

theorem mapValues_empty (f : ν → μ) : (BMap.empty : BMap κ ν).mapValues f = BMap.empty := by
  apply BMap.ext_get
  intro k
  rw [get_mapValues]
  rfl

end BMap

namespace Places

variable {φ : Location → Location} {h : Requirement → Requirement} {k : Artefact → Artefact}

/-- The traced artefact with the changed requirements. -/
def onArtefact (φ : Location → Location) (h : Requirement → Requirement) (k : Artefact → Artefact)
    (a : TracedArtefact) : TracedArtefact :=
  { artefact := k a.artefact
    requirementsById := a.requirementsById.mapValues h
    requirementsThatCover := a.requirementsThatCover.mapValues (fun l => l.map fun e => (h e.1, moveRef φ e.2))
    derived := a.derived }

/-- The tracer with the changed requirements. -/
def onTracer (φ : Location → Location) (h : Requirement → Requirement) (k : Artefact → Artefact) (t : Tracer) : Tracer :=
  { tracedArtefacts := t.tracedArtefacts.mapValues (onArtefact φ h k)
    relations := t.relations.map fun tr => { tr with covered := tr.covered.map (moveCoverage φ) }
    errors := t.errors.map (repaintError φ h)
    reqById := t.reqById.mapValues (fun e => (e.1, h e.2))
    invalidDependsLinks := t.invalidDependsLinks
    invalidCoversLinks := t.invalidCoversLinks }

/-- The variables of `add_artefact` with the changed requirements. -/
def onAdd (φ : Location → Location) (h : Requirement → Requirement) (k : Artefact → Artefact) (s : AddState) : AddState :=
  { tracer := onTracer φ h k s.tracer
    requirementsById := s.requirementsById.mapValues h
    requirementsThatCover := s.requirementsThatCover.mapValues (fun l => l.map fun e => (h e.1, moveRef φ e.2))
    derived := s.derived }

/-- The variables of `trace_relation` with the changed requirements. -/
def onRel (φ : Location → Location) (h : Requirement → Requirement) (k : Artefact → Artefact) (s : RelState) : RelState :=
  { tracer := onTracer φ h k s.tracer, covered := s.covered.map (moveCoverage φ), isCovered := s.isCovered }

/-- The variables of `trace_relation` across requirements with the changed requirements. -/
def onAcc (φ : Location → Location) (h : Requirement → Requirement) (k : Artefact → Artefact) (s : RelAcc) : RelAcc :=
  { tracer := onTracer φ h k s.tracer, covered := s.covered.map (moveCoverage φ), uncovered := s.uncovered,
    anyReqCovered := s.anyReqCovered }

theorem foldl_map {α β γ : Type} (p : α → α) (q : γ → β) (f : α → β → α) (f' : α → γ → α) (l : List γ)
    (hf : ∀ a c, f (p a) (q c) = p (f' a c)) (a : α) : (l.map q).foldl f (p a) = p (l.foldl f' a) := by
  induction l generalizing a with
  | nil => rfl
  | cons c l ih => simp only [List.map_cons, List.foldl_cons, hf, ih]

theorem foldlM_map {α β γ : Type} (p : α → α) (q : γ → β) (f : α → β → PanicM α) (f' : α → γ → PanicM α) (l : List γ)
    (hf : ∀ a c, f (p a) (q c) = (f' a c).map p) (a : α) : (l.map q).foldlM f (p a) = (l.foldlM f' a).map p := by
  induction l generalizing a with
  | nil => rfl
  | cons c l ih =>
    simp only [List.map_cons, List.foldlM_cons, hf]
    cases f' a c with
    | error e => rfl
    | ok b => exact ih b

theorem pushCover_map (m : BMap RequirementId (List (Requirement × Reference))) (req : Requirement) (cov : Reference) :
    pushCover (m.mapValues (fun l => l.map fun e => (h e.1, moveRef φ e.2))) (h req) (moveRef φ cov) =
      (pushCover m req cov).mapValues (fun l => l.map fun e => (h e.1, moveRef φ e.2)) := by
  unfold pushCover
  rw [BMap.get_mapValues]
  have e : (moveRef φ cov).id = cov.id := rfl
  rw [e]
  cases m.get cov.id with
  | none => simp only [Option.map_none]; rw [BMap.mapValues_insert]; rfl
  | some v =>
    simp only [Option.map_some]
    rw [BMap.mapValues_insert, List.map_append]; rfl

theorem erase_map (m : BMap ArtefactId TracedArtefact) (l : ArtefactId) (id : RequirementId) :
    (m.mapValues (onArtefact φ h k)).modify l (fun a => { a with derived := a.derived.erase id }) =
      (m.modify l (fun a => { a with derived := a.derived.erase id })).mapValues (onArtefact φ h k) :=
  (BMap.mapValues_modify m (onArtefact φ h k) l _ (fun a => { a with derived := a.derived.erase id }) (fun _ => rfl)).symm

variable (hh : Repaints φ h) (hk : RepaintsArtefact h k)
include hh hk

theorem addRequirement_map (a : Artefact) (s : AddState) (r : Requirement) :
    addRequirement (k a) (onAdd φ h k s) (h r) = onAdd φ h k (addRequirement a s r) := by
  unfold addRequirement
  rw [hh.id, hk.ignoreDerived, hk.id]
  show (match (s.tracer.reqById.mapValues (fun e => (e.1, h e.2))).get r.id with | some (_, oldReq) => _ | none => _) = _
  rw [BMap.get_mapValues]
  cases s.tracer.reqById.get r.id with
  | some e =>
    simp only [Option.map_some]
    simp only [onAdd, onTracer, List.map_append, List.map_cons, List.map_nil, repaintError]
  | none =>
    simp only [Option.map_none]
    simp only [onAdd, onTracer, BMap.mapValues_insert, hh.covers, hh.depends, List.foldl_map]
    congr 1
    generalize s.requirementsThatCover = m
    generalize r.covers = cs
    induction cs generalizing m with
    | nil => rfl
    | cons c cs ih => simp only [List.foldl_cons]; rw [pushCover_map, ih]

theorem addArtefact_map (t : Tracer) (a : Artefact) :
    addArtefact (onTracer φ h k t) (k a) = onTracer φ h k (addArtefact t a) := by
  unfold addArtefact
  have e : ((k a).requirements.values.foldl (addRequirement (k a))
      { tracer := onTracer φ h k t, requirementsById := .empty, requirementsThatCover := .empty, derived := .empty }) =
      onAdd φ h k (a.requirements.values.foldl (addRequirement a)
        { tracer := t, requirementsById := .empty, requirementsThatCover := .empty, derived := .empty }) := by
    rw [hk.requirements, BMap.values_mapValues, ← foldl_map (p := onAdd φ h k) (q := h) (f := addRequirement (k a))
      _ _ (fun s r => addRequirement_map hh hk a s r)]
    simp only [onAdd, BMap.mapValues_empty]
  dsimp only
  rw [e]
  simp only [onAdd, onTracer, BMap.mapValues_insert, hk.id, onArtefact]

theorem traceDependsLower_map (u : Requirement) (d : Reference) (s : RelState) (l : ArtefactId) :
    traceDependsLower (h u) (moveRef φ d) (onRel φ h k s) l = (traceDependsLower u d s l).map (onRel φ h k) := by
  unfold traceDependsLower
  show (orPanic _ ((s.tracer.tracedArtefacts.mapValues (onArtefact φ h k)).get l) >>= _) = _
  rw [BMap.get_mapValues]
  cases s.tracer.tracedArtefacts.get l with
  | none => rfl
  | some a =>
    simp only [Option.map_some, orPanic, bind, Except.bind]
    show (match (a.requirementsById.mapValues h).get d.id with | none => _ | some lowerReq => _) = _
    rw [BMap.get_mapValues]
    cases a.requirementsById.get d.id with
    | none => rfl
    | some lr =>
      simp only [Option.map_some, pure, Except.pure, Except.map]
      congr 1
      simp only [onRel, onTracer, RelState.mk.injEq, Tracer.mk.injEq, hh.id, and_true, true_and, List.map_append,
        List.map_cons, List.map_nil, moveCoverage, moveRef]
      refine ⟨?_, ?_⟩
      · exact erase_map _ _ _
      · congr 1
        cases d.title with
        | none =>
          simp only [onArtefact, hk.withTitle]
          split <;> rfl
        | some t =>
          simp only [hh.title]
          split <;> rfl

theorem traceDepends_map (rel : Relation) (u : Requirement) (s : RelState) :
    traceDepends rel (h u) (onRel φ h k s) = (traceDepends rel u s).map (onRel φ h k) := by
  unfold traceDepends
  rw [hh.depends]
  refine foldlM_map (onRel φ h k) (moveRef φ) _ _ _ (fun s d => ?_) _
  have := foldlM_map (onRel φ h k) (fun x => x) (traceDependsLower (h u) (moveRef φ d)) (traceDependsLower u d) rel.lower
    (fun s l => traceDependsLower_map hh hk u d s l) s
  rwa [List.map_id'] at this

theorem traceCover_map (ua : Artefact) (u : Requirement) (l : ArtefactId) (s : RelState) (e : Requirement × Reference) :
    traceCover (k ua) (h u) l (onRel φ h k s) (h e.1, moveRef φ e.2) = onRel φ h k (traceCover ua u l s e) := by
  unfold traceCover
  simp only [onRel, onTracer, RelState.mk.injEq, Tracer.mk.injEq, hh.id, and_true, true_and, List.map_append,
    List.map_cons, List.map_nil, moveCoverage, moveRef]
  refine ⟨?_, ?_⟩
  · exact erase_map _ _ _
  · congr 1
    cases e.2.title with
    | none =>
      simp only [hk.withTitle]
      split <;> rfl
    | some t =>
      simp only [hh.title]
      split <;> rfl

theorem traceCoversLower_map (ua : Artefact) (u : Requirement) (s : RelState) (l : ArtefactId) :
    traceCoversLower (k ua) (h u) (onRel φ h k s) l = (traceCoversLower ua u s l).map (onRel φ h k) := by
  unfold traceCoversLower
  show (orPanic _ ((s.tracer.tracedArtefacts.mapValues (onArtefact φ h k)).get l) >>= _) = _
  rw [BMap.get_mapValues]
  cases s.tracer.tracedArtefacts.get l with
  | none => rfl
  | some a =>
    simp only [Option.map_some, orPanic, bind, Except.bind, hh.id]
    rw [show (onArtefact φ h k a).requirementsThatCover =
      a.requirementsThatCover.mapValues (fun l => l.map fun e => (h e.1, moveRef φ e.2)) from rfl, BMap.get_mapValues]
    cases a.requirementsThatCover.get u.id with
    | none => rfl
    | some lower =>
      simp only [Option.map_some, pure, Except.pure, Except.map]
      congr 1
      exact foldl_map (onRel φ h k) (fun e => (h e.1, moveRef φ e.2)) _ _ lower
        (fun s e => traceCover_map hh hk ua u l s e) s

theorem traceUpperReq_map (rel : Relation) (ua : Artefact) (acc : RelAcc) (u : Requirement) :
    traceUpperReq rel (k ua) (onAcc φ h k acc) (h u) = (traceUpperReq rel ua acc u).map (onAcc φ h k) := by
  unfold traceUpperReq
  have e1 := traceDepends_map hh hk rel u { tracer := acc.tracer, covered := acc.covered, isCovered := false }
  simp only [onRel] at e1
  simp only [onAcc]
  rw [e1]
  cases traceDepends rel u { tracer := acc.tracer, covered := acc.covered, isCovered := false } with
  | error e => rfl
  | ok s =>
    simp only [Except.map, bind, Except.bind]
    have e2 := foldlM_map (onRel φ h k) (fun x => x) (traceCoversLower (k ua) (h u)) (traceCoversLower ua u) rel.lower
      (fun s l => traceCoversLower_map hh hk ua u s l) s
    rw [List.map_id'] at e2
    rw [e2]
    cases rel.lower.foldlM (traceCoversLower ua u) s with
    | error e => rfl
    | ok s' =>
      simp only [Except.map, pure, Except.pure, onRel, hh.id, onAcc]

theorem traceRelation_map (t : Tracer) (rel : Relation) :
    traceRelation (onTracer φ h k t) rel = (traceRelation t rel).map (onTracer φ h k) := by
  unfold traceRelation
  show (orPanic _ ((t.tracedArtefacts.mapValues (onArtefact φ h k)).get rel.upper) >>= _) = _
  rw [BMap.get_mapValues]
  cases t.tracedArtefacts.get rel.upper with
  | none => rfl
  | some a =>
    simp only [Option.map_some, orPanic, bind, Except.bind, onArtefact]
    have e := foldlM_map (onAcc φ h k) h (traceUpperReq rel (k a.artefact)) (traceUpperReq rel a.artefact)
      a.artefact.requirements.values (fun s u => traceUpperReq_map hh hk rel a.artefact s u)
      { tracer := t, covered := [], uncovered := [], anyReqCovered := false }
    rw [hk.requirements, BMap.values_mapValues]
    simp only [onAcc, List.map_nil] at e
    rw [e]
    cases a.artefact.requirements.values.foldlM (traceUpperReq rel a.artefact)
      { tracer := t, covered := [], uncovered := [], anyReqCovered := false } with
    | error e => rfl
    | ok acc =>
      simp only [Except.map, pure, Except.pure, onTracer, Except.ok.injEq, Tracer.mk.injEq, List.map_append, List.map_cons,
        List.map_nil, true_and, and_true]
      simp only [onAcc, onTracer]
      split <;> simp_all [repaintError]

omit hh hk in
theorem find_move (l : List Reference) (id : RequirementId) :
    (l.map (moveRef φ)).find? (fun r => r.id == id) = (l.find? (fun r => r.id == id)).map (moveRef φ) := by
  rw [List.find?_map]
  rfl

theorem validateUpward_map (t : Tracer) (e : RequirementId × RequirementId) :
    validateUpward (onTracer φ h k t) e = (validateUpward t e).map (onTracer φ h k) := by
  unfold validateUpward
  obtain ⟨e1, e2⟩ := e
  simp only [show (onTracer φ h k t).reqById = t.reqById.mapValues (fun e => (e.1, h e.2)) from rfl, BMap.get_mapValues]
  cases t.reqById.get e2 with
  | none => rfl
  | some x =>
    simp only [Option.map_some, orPanic, bind, Except.bind, hh.covers, find_move]
    cases x.2.covers.find? (fun r => r.id == e1) with
    | none => rfl
    | some ref => simp [Except.map, pure, Except.pure, onTracer, repaintError, moveRef]

theorem validateDownward_map (t : Tracer) (e : RequirementId × RequirementId) :
    validateDownward (onTracer φ h k t) e = (validateDownward t e).map (onTracer φ h k) := by
  unfold validateDownward
  obtain ⟨e1, e2⟩ := e
  simp only [show (onTracer φ h k t).reqById = t.reqById.mapValues (fun e => (e.1, h e.2)) from rfl, BMap.get_mapValues]
  cases t.reqById.get e1 with
  | none => rfl
  | some x =>
    simp only [Option.map_some, orPanic, bind, Except.bind, hh.depends, find_move]
    cases x.2.depends.find? (fun r => r.id == e2) with
    | none => rfl
    | some ref => simp [Except.map, pure, Except.pure, onTracer, repaintError, moveRef]

theorem validate_map (t : Tracer) : validate (onTracer φ h k t) = (validate t).map (onTracer φ h k) := by
  unfold validate validateUpwards validateDownwards
  have e := foldlM_map (onTracer φ h k) (fun x => x) validateUpward validateUpward t.invalidCoversLinks.toList
    (fun t e => validateUpward_map hh hk t e) t
  rw [List.map_id'] at e
  rw [show (onTracer φ h k t).invalidCoversLinks = t.invalidCoversLinks from rfl, e]
  cases t.invalidCoversLinks.toList.foldlM validateUpward t with
  | error e => rfl
  | ok t' =>
    simp only [Except.map, bind, Except.bind]
    have e := foldlM_map (onTracer φ h k) (fun x => x) validateDownward validateDownward t'.invalidDependsLinks.toList
      (fun t e => validateDownward_map hh hk t e) t'
    rw [List.map_id'] at e
    rw [show (onTracer φ h k t').invalidDependsLinks = t'.invalidDependsLinks from rfl, e]
    rfl

theorem new_map (g : Graph) :
    Tracer.new { g with artefacts := g.artefacts.mapValues k } = (Tracer.new g).map (onTracer φ h k) := by
  unfold Tracer.new
  simp only [BMap.values_mapValues]
  have e0 : onTracer φ h k Tracer.empty = Tracer.empty := by
    simp only [onTracer, Tracer.empty, BMap.mapValues_empty, List.map_nil]
  have e1 := foldl_map (onTracer φ h k) k addArtefact addArtefact g.artefacts.values
    (fun t a => addArtefact_map hh hk t a) Tracer.empty
  rw [e0] at e1
  rw [e1]
  have e2 := foldlM_map (onTracer φ h k) (fun x => x) traceRelation traceRelation g.relations
    (fun t r => traceRelation_map hh hk t r) (g.artefacts.values.foldl addArtefact Tracer.empty)
  rw [List.map_id'] at e2
  rw [e2]
  cases g.relations.foldlM traceRelation (g.artefacts.values.foldl addArtefact Tracer.empty) with
  | error e => rfl
  | ok t =>
    simp only [Except.map, bind, Except.bind]
    rw [validate_map hh hk]
    rfl

omit hh hk in
theorem data_map (t : Tracer) : (onTracer φ h k t).data = repaintTraced φ h k t.data := by
  simp only [Tracer.data, onTracer, repaintTraced, BMap.mapValues_mapValues, onArtefact]

end Places

open Places

/-- **C131** Tracing commutes with every change of places, attributes, tags, file names and parsing errors: the coverages,
the uncovered and the derived requirements are the same, and the errors are the same errors at the new places; it panics
for the changed graph exactly if it does for the given one. -/
theorem C131_places (φ : Location → Location) (h : Requirement → Requirement) (k : Artefact → Artefact)
    (hh : Repaints φ h) (hk : RepaintsArtefact h k) (g : Graph) :
    trace { g with artefacts := g.artefacts.mapValues k } = (trace g).map (repaintTraced φ h k) := by
  unfold trace
  rw [new_map hh hk]
  cases Tracer.new g with
  | error e => rfl
  | ok t =>
    simp only [Except.map, bind, Except.bind, pure, Except.pure]
    rw [data_map]

/-- **C131**, the verdict: if the change keeps which artefacts have errors of their own, a trace job detects errors for the
changed graph exactly if it does for the given one. -/
theorem C131_verdict (φ : Location → Location) (h : Requirement → Requirement) (k : Artefact → Artefact)
    (he : ∀ a, (k a).errors = [] ↔ a.errors = []) (tg : TracedGraph) :
    TraceProblem (repaintTraced φ h k tg) ↔ TraceProblem tg := by
  have h1 : (∃ e, e ∈ tg.errors.map (repaintError φ h)) ↔ ∃ e, e ∈ tg.errors := by
    cases tg.errors <;> simp
  have h2 : ParseProblem (tg.artefacts.mapValues k) ↔ ParseProblem tg.artefacts := by
    unfold ParseProblem
    have hm : ∀ a, (∃ e, e ∈ (k a).errors) ↔ ∃ e, e ∈ a.errors := by
      intro a
      have ha := he a
      cases h1 : (k a).errors <;> cases h2 : a.errors <;> simp [h1, h2] at ha ⊢
    constructor
    · rintro ⟨a, art, e, h1, h2⟩
      rw [BMap.get_mapValues, Option.map_eq_some_iff] at h1
      obtain ⟨art0, h1, rfl⟩ := h1
      obtain ⟨e', h3⟩ := (hm art0).1 ⟨e, h2⟩
      exact ⟨a, art0, e', h1, h3⟩
    · rintro ⟨a, art, e, h1, h2⟩
      obtain ⟨e', h3⟩ := (hm art).2 ⟨e, h2⟩
      exact ⟨a, k art, e', by rw [BMap.get_mapValues, h1]; rfl, h3⟩
  have h3 : (∃ tr ∈ (repaintTraced φ h k tg).tracedRelations, ∃ r, r ∈ tr.uncovered) ↔
      ∃ tr ∈ tg.tracedRelations, ∃ r, r ∈ tr.uncovered := by
    simp only [repaintTraced, List.mem_map]
    constructor
    · rintro ⟨_, ⟨tr, h1, rfl⟩, r, h2⟩
      exact ⟨tr, h1, r, h2⟩
    · rintro ⟨tr, h1, r, h2⟩
      exact ⟨_, ⟨tr, h1, rfl⟩, r, h2⟩
  unfold TraceProblem
  exact or_congr h1 (or_congr h2 (or_congr h3 Iff.rfl))

namespace PlacesExample

open Example

/-- Everything stands in another file, and each requirement has an attribute. -/
def move (l : Location) : Location := { l with file := c!"elsewhere" }
def repaint (r : Requirement) : Requirement :=
  { r with location := move r.location, covers := r.covers.map (moveRef move), depends := r.depends.map (moveRef move),
           attributes := .ofList [(c!"Comment", c!"new")] }
def redo (a : Artefact) : Artefact :=
  { a with requirements := a.requirements.mapValues repaint, files := [c!"elsewhere"] }

theorem repaints : Repaints move repaint := ⟨fun _ => rfl, fun _ => rfl, fun _ => rfl, fun _ => rfl⟩
theorem redoes : RepaintsArtefact repaint redo := ⟨fun _ => rfl, fun _ => rfl, fun _ => rfl, fun _ => rfl⟩

def there (n : Nat) : Location := .newWithLineNo c!"elsewhere" n

/-- The example with everything elsewhere: all results are the same, and the errors are at the new places. -/
theorem traced_elsewhere : trace { graph with artefacts := graph.artefacts.mapValues redo } = .ok
    { artefacts := graph.artefacts.mapValues redo
      tracedRelations := [
        ⟨⟨c!"UP", [c!"LO"]⟩, [⟨c!"U1", c!"L1", there 1, .downwards⟩, ⟨c!"U1", c!"L2", there 4, .upwards⟩],
          [c!"U2"]⟩,
        ⟨⟨c!"ZZ", [c!"UP"]⟩, [], [c!"L1"]⟩]
      derived := .ofList [(c!"LO", [c!"L3"]), (c!"UP", []), (c!"ZZ", [])]
      errors := [
        .duplicateRequirement (repaint l1) (repaint l1'),
        .referencedWithoutTitle (repaint l1) (there 1),
        .coveredWithWrongTitle (repaint u1) (repaint l2) c!"wrong" (there 4),
        .unusedRelation ⟨c!"ZZ", [c!"UP"]⟩,
        .coversUnknownRequirement (repaint l1) c!"Y" (there 3),
        .dependOnUnknownRequirement (repaint u1) c!"X" (there 2)] } := by
  rw [C131_places move repaint redo repaints redoes, graph_traced]
  rfl

/-- The change keeps the errors of the artefacts. -/
example (a : Artefact) : (redo a).errors = [] ↔ a.errors = [] := Iff.rfl

end PlacesExample

end Reqtrace
