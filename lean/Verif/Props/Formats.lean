import Verif.Props.Shuffled3
import Verif.Props.Json
import Verif.Props.Rerun
import Verif.Spec.Formats

/-!
# C142: the format of the input does not matter
-/

namespace Reqtrace

open Spec

namespace Formats

theorem find_of_counts {reqs : List Requirement} {r : Requirement} (h : Counts reqs r) :
    reqs.find? (fun s => s.id = r.id) = some r := by
  obtain ⟨pre, post, rfl, hp⟩ := h
  rw [List.find?_append, List.find?_eq_none.2 (fun s hs => by simpa using hp s hs)]
  simp

theorem counts_of_find {reqs : List Requirement} {id : RequirementId} {r : Requirement}
    (h : reqs.find? (fun s => s.id = id) = some r) : Counts reqs r := by
  rw [List.find?_eq_some_iff_append] at h
  obtain ⟨h1, pre, post, rfl, h2⟩ := h
  have : r.id = id := by simpa using h1
  exact ⟨pre, post, rfl, fun s hs => by simpa [this] using h2 s hs⟩

theorem find_same {reqs reqs' : List Requirement} (h : ∀ r, Counts reqs r ↔ Counts reqs' r) (id : RequirementId) :
    reqs.find? (fun s => s.id = id) = reqs'.find? (fun s => s.id = id) := by
  have key : ∀ {a b : List Requirement}, (∀ r, Counts a r → Counts b r) → ∀ r, a.find? (fun s => s.id = id) = some r →
      b.find? (fun s => s.id = id) = some r := by
    intro a b hab r hr
    have hid : r.id = id := by simpa using List.find?_some hr
    have := find_of_counts (hab r (counts_of_find hr))
    rwa [hid] at this
  cases h1 : reqs.find? (fun s => s.id = id) with
  | some r => exact (key (fun r => (h r).1) r h1).symm
  | none =>
    cases h2 : reqs'.find? (fun s => s.id = id) with
    | none => rfl
    | some r => rw [key (fun r => (h r).2) r h2] at h1; cases h1

theorem makeArtefact_contents {env : Env} {w w' : World} {base base' : Path} {ac ac' : ArtefactConfig}
    {roots : BMap ArtefactId Bool} (hm : SameRequirements env w w' base base' ac ac') {a : Artefact}
    (h : makeArtefact env w base roots ac = .ok a) :
    ∃ a', makeArtefact env w' base' roots ac' = .ok a' ∧ contents a = contents a' := by
  obtain ⟨fs, fs', reqs, reqs', errs, errs', m1, m2, hs⟩ := hm.means
  obtain ⟨root, files, m, es, h1, h2, rfl⟩ := makeArtefact_ok h
  obtain ⟨rs, perrs, h3, rfl, h4⟩ := parseFromConfig_ok h2
  rw [parseArtefact_iff.2 m1] at h3
  cases h3
  have hmap : (collectRequirements reqs .empty errs).1 = (collectRequirements reqs' .empty errs').1 := by
    apply BMap.ext_get
    intro id
    rw [(collect_eq ..).1, (collect_eq ..).1, find_same hs]
  unfold makeArtefact parseFromConfig
  rw [← hm.id, h1, parseArtefact_iff.2 m2]
  refine ⟨_, rfl, ?_⟩
  simp only [contents, hm.ignore, hm.titles, hmap]

theorem makeArtefacts_contents {env : Env} {w w' : World} {base base' : Path} {acs acs' : List ArtefactConfig}
    {roots : BMap ArtefactId Bool} (hm : Pairs (SameRequirements env w w' base base') acs acs') :
    ∀ {m m' m1 : BMap ArtefactId Artefact}, m.mapValues contents = m'.mapValues contents →
    makeArtefacts env w base roots acs m = .ok m1 →
    ∃ m1', makeArtefacts env w' base' roots acs' m' = .ok m1' ∧ m1.mapValues contents = m1'.mapValues contents := by
  induction hm with
  | nil => intro m m' m1 he h; cases h; exact ⟨m', rfl, he⟩
  | @cons ac ac' acs acs' ha _ ih =>
    intro m m' m1 he h
    simp only [makeArtefacts, bind, Except.bind] at h ⊢
    cases hp : makeArtefact env w base roots ac with
    | error e => rw [hp] at h; cases h
    | ok a =>
      obtain ⟨a', h1, h2⟩ := makeArtefact_contents ha hp
      rw [hp] at h
      rw [h1]
      refine ih ?_ h
      rw [BMap.mapValues_insert, BMap.mapValues_insert, he, h2, ha.id]

theorem ids_same {env : Env} {w w' : World} {base base' : Path} {acs acs' : List ArtefactConfig}
    (hm : Pairs (SameRequirements env w w' base base') acs acs') :
    acs.map (fun ac => (ac.id, true)) = acs'.map (fun ac => (ac.id, true)) := by
  induction hm with
  | nil => rfl
  | cons ha _ ih => rw [List.map_cons, List.map_cons, ih, ha.id]

theorem moveRef_id (r : Reference) : moveRef id r = r := rfl

theorem repaints_id : Repaints id id := by
  have h : ∀ l : List Reference, l = l.map (moveRef id) := fun l => by
    rw [show moveRef id = id from funext moveRef_id, List.map_id]
  exact ⟨fun _ => rfl, fun _ => rfl, fun r => h _, fun r => h _⟩

theorem mapValues_id {κ ν : Type} [Ord κ] [Std.TransOrd κ] [Std.LawfulEqOrd κ] [DecidableEq κ] (m : BMap κ ν) :
    m.mapValues id = m := by
  apply BMap.ext_get
  intro k
  rw [BMap.get_mapValues, Option.map_id]; rfl

theorem contents_redoes : RepaintsArtefact id contents :=
  ⟨fun _ => rfl, fun a => (mapValues_id _).symm, fun _ => rfl, fun _ => rfl⟩

theorem repaintError_id (e : Error) : repaintError id id e = e := by cases e <;> rfl

theorem trace_same {g g' : Graph} (h : SameContents g g') {tg : TracedGraph} (ht : trace g = .ok tg) :
    ∃ tg', trace g' = .ok tg' ∧ SameFindings tg tg' := by
  have h1 := C131_places id id contents repaints_id contents_redoes g
  have h2 := C131_places id id contents repaints_id contents_redoes g'
  rw [h.1, h.2, h2, ht] at h1
  cases ht' : trace g' with
  | error e => rw [ht'] at h1; cases h1
  | ok tg' =>
    rw [ht'] at h1
    simp only [Except.map, Except.ok.injEq, repaintTraced, TracedGraph.mk.injEq] at h1
    have hc : ∀ l : List TracedRelation, l.map (fun tr => { tr with covered := tr.covered.map (moveCoverage id) }) = l := by
      intro l
      have : ∀ tr : TracedRelation, { tr with covered := tr.covered.map (moveCoverage id) } = tr := by
        intro tr
        rw [show moveCoverage id = id from rfl, List.map_id]
      exact (List.map_congr_left fun tr _ => this tr).trans (List.map_id _)
    have he : ∀ l : List Error, l.map (repaintError id id) = l := by
      intro l; exact (List.map_congr_left fun e _ => repaintError_id e).trans (List.map_id _)
    rw [hc, hc, he, he] at h1
    exact ⟨tg', rfl, h1.2.1.symm, h1.2.2.1.symm, h1.2.2.2.symm⟩

/-! ## Reports -/

def withoutFiles (a : Artefact) : Artefact := { a with files := [] }

section reports

variable {κ ν μ : Type} [Ord κ] [Std.TransOrd κ] [Std.LawfulEqOrd κ] [DecidableEq κ]

theorem getMut_map (p : Panic) (m : BMap κ ν) (k : κ) (f : ν → μ) (g : ν → PanicM ν) (g' : μ → PanicM μ)
    (h : ∀ v, g' (f v) = (g v).map f) : getMut p (m.mapValues f) k g' = (getMut p m k g).map (·.mapValues f) := by
  unfold getMut
  rw [BMap.get_mapValues]
  cases m.get k with
  | none => rfl
  | some v =>
    simp only [Option.map_some, orPanic, bind, Except.bind]
    rw [h]
    cases g v with
    | error e => rfl
    | ok v' => simp only [Except.map, pure, Except.pure, BMap.mapValues_insert]

theorem foldlM_map {α σ τ : Type} (φ : σ → τ) (step : σ → α → PanicM σ) (step' : τ → α → PanicM τ)
    (h : ∀ s a, step' (φ s) a = (step s a).map φ) : ∀ (l : List α) (s : σ),
    l.foldlM step' (φ s) = (l.foldlM step s).map φ
  | [], s => rfl
  | a :: l, s => by
    rw [List.foldlM_cons, List.foldlM_cons, h]
    cases step s a with
    | error e => rfl
    | ok s' => exact foldlM_map φ step step' h l s'

end reports

/-- The traced requirement, the artefact of which is changed by `k`. -/
def inArtefact (k : Artefact → Artefact) (rt : RequirementTrace) : RequirementTrace := { rt with artefact := k rt.artefact }
def ofArtefact (k : Artefact → Artefact) (ar : ArtefactRelations) : ArtefactRelations := { ar with artefact := k ar.artefact }

/-- The traced graph with changed artefacts. -/
def changed (k : Artefact → Artefact) (tg : TracedGraph) : TracedGraph := { tg with artefacts := tg.artefacts.mapValues k }

section aggregate

variable {k : Artefact → Artefact} (hk : ∀ a, (k a).requirements = a.requirements)
include hk

omit hk in
theorem insertEmpty_map (upd : RequirementTrace → RequirementTrace)
    (hu : ∀ rt, upd (inArtefact k rt) = inArtefact k (upd rt)) (reqs : BMap RequirementId RequirementTrace)
    (keys : List RequirementId) :
    insertEmpty upd (reqs.mapValues (inArtefact k)) keys = (insertEmpty upd reqs keys).map (·.mapValues (inArtefact k)) :=
  foldlM_map (fun m : BMap RequirementId RequirementTrace => m.mapValues (inArtefact k))
    (fun reqs id => getMut .aggRequirement reqs id (fun r => pure (upd r)))
    (fun reqs id => getMut .aggRequirement reqs id (fun r => pure (upd r)))
    (fun s id => getMut_map .aggRequirement s id (inArtefact k) (fun r => pure (upd r)) (fun r => pure (upd r)) fun rt => by
      rw [hu]; rfl) keys reqs

/-- The state with changed artefacts. -/
def changedState (k : Artefact → Artefact) (s : AggState) : AggState :=
  (s.1.mapValues (ofArtefact k), s.2.mapValues (inArtefact k))

theorem aggLower_map (tg : TracedGraph) (rel : TracedRelation) (s : AggState) (a : ArtefactId) :
    aggLower (changed k tg) rel (changedState k s) a = (aggLower tg rel s a).map (changedState k) := by
  unfold aggLower changedState
  simp only
  rw [getMut_map _ _ _ (ofArtefact k) (fun ar => pure { ar with upper := ar.upper ++ [rel] }) _ (fun ar => rfl)]
  cases getMut .aggArtefact s.1 a (fun ar => pure { ar with upper := ar.upper ++ [rel] }) with
  | error e => rfl
  | ok arts =>
    simp only [Except.map, bind, Except.bind, changed, BMap.get_mapValues]
    cases tg.artefacts.get a with
    | none => rfl
    | some art =>
      simp only [Option.map_some, orPanic, hk]
      rw [insertEmpty_map (k := k) (fun r => { r with covers := r.covers.insert rel.relation [] }) (fun rt => rfl)]
      cases insertEmpty (fun r => { r with covers := r.covers.insert rel.relation [] }) s.2 art.requirements.keys <;> rfl

theorem aggRelation_map (tg : TracedGraph) (s : AggState) (rel : TracedRelation) :
    aggRelation (changed k tg) (changedState k s) rel = (aggRelation tg s rel).map (changedState k) := by
  unfold aggRelation
  rw [show (changedState k s).1 = s.1.mapValues (ofArtefact k) from rfl,
    show (changedState k s).2 = s.2.mapValues (inArtefact k) from rfl]
  rw [getMut_map _ _ _ (ofArtefact k) (fun ar => pure { ar with lower := ar.lower ++ [rel] }) _ (fun ar => rfl)]
  cases getMut .aggArtefact s.1 rel.relation.upper (fun ar => pure { ar with lower := ar.lower ++ [rel] }) with
  | error e => rfl
  | ok arts =>
    simp only [Except.map, bind, Except.bind]
    rw [show (changed k tg).artefacts = tg.artefacts.mapValues k from rfl, BMap.get_mapValues]
    cases tg.artefacts.get rel.relation.upper with
    | none => rfl
    | some art =>
      simp only [Option.map_some, orPanic, hk]
      rw [insertEmpty_map (k := k) (fun r => { r with depends := r.depends.insert rel.relation [] }) (fun rt => rfl)]
      cases insertEmpty (fun r => { r with depends := r.depends.insert rel.relation [] }) s.2 art.requirements.keys with
      | error e => rfl
      | ok reqs => exact foldlM_map (changedState k) _ _ (aggLower_map hk tg rel) _ (arts, reqs)

/-- One more item for the relation, in `depends` or `covers`. -/
def addDepends (rel : Relation) (x : Requirement × Location) (r : RequirementTrace) : PanicM RequirementTrace := do
  let depends ← getMut .aggRelation r.depends rel (fun l => pure (l ++ [x]))
  return { r with depends := depends }

def addCovers (rel : Relation) (x : Requirement × Location) (r : RequirementTrace) : PanicM RequirementTrace := do
  let covers ← getMut .aggRelation r.covers rel (fun l => pure (l ++ [x]))
  return { r with covers := covers }

omit hk in
theorem addDepends_map (rel : Relation) (x : Requirement × Location) (r : RequirementTrace) :
    addDepends rel x (inArtefact k r) = (addDepends rel x r).map (inArtefact k) := by
  unfold addDepends
  rw [show (inArtefact k r).depends = r.depends from rfl]
  cases getMut .aggRelation r.depends rel (fun l => pure (l ++ [x])) <;> rfl

omit hk in
theorem addCovers_map (rel : Relation) (x : Requirement × Location) (r : RequirementTrace) :
    addCovers rel x (inArtefact k r) = (addCovers rel x r).map (inArtefact k) := by
  unfold addCovers
  rw [show (inArtefact k r).covers = r.covers from rfl]
  cases getMut .aggRelation r.covers rel (fun l => pure (l ++ [x])) <;> rfl

omit hk in
theorem aggCoverage_map (rel : Relation) (reqs : BMap RequirementId RequirementTrace) (cov : Coverage) :
    aggCoverage rel (reqs.mapValues (inArtefact k)) cov = (aggCoverage rel reqs cov).map (·.mapValues (inArtefact k)) := by
  have hu : ∀ m : BMap RequirementId RequirementTrace, aggCoverage rel m cov = (do
      let up ← orPanic .aggRequirement (m.get cov.upper)
      let low ← orPanic .aggRequirement (m.get cov.lower)
      let m ← getMut .aggRequirement m cov.upper (addDepends rel (low.requirement, cov.location))
      getMut .aggRequirement m cov.lower (addCovers rel (up.requirement, cov.location))) := fun _ => rfl
  rw [hu, hu, BMap.get_mapValues, BMap.get_mapValues]
  cases reqs.get cov.upper with
  | none => rfl
  | some up =>
    simp only [Option.map_some, orPanic, bind, Except.bind]
    cases reqs.get cov.lower with
    | none => rfl
    | some low =>
      simp only [Option.map_some]
      have e1 : (inArtefact k low).requirement = low.requirement := rfl
      have e2 : (inArtefact k up).requirement = up.requirement := rfl
      rw [e1, e2, getMut_map _ _ _ (inArtefact k) _ _ (addDepends_map rel _)]
      cases getMut .aggRequirement reqs cov.upper (addDepends rel (low.requirement, cov.location)) with
      | error e => rfl
      | ok m => exact getMut_map _ _ _ (inArtefact k) _ _ (addCovers_map rel _)

omit hk in
theorem ofList_map {κ ν μ : Type} [Ord κ] [Std.TransOrd κ] [Std.LawfulEqOrd κ] [DecidableEq κ] (f : ν → μ) (l : List (κ × ν)) :
    (BMap.ofList l).mapValues f = BMap.ofList (l.map fun e => (e.1, f e.2)) := by
  have key : ∀ (l : List (κ × ν)) (m : BMap κ ν), (l.foldl (fun m e => m.insert e.1 e.2) m).mapValues f =
      (l.map fun e => (e.1, f e.2)).foldl (fun m e => m.insert e.1 e.2) (m.mapValues f) := by
    intro l
    induction l with
    | nil => intro m; rfl
    | cons e l ih => intro m; rw [List.foldl_cons, ih, BMap.mapValues_insert]; rfl
  have := key l .empty
  rw [BMap.mapValues_empty] at this
  exact this

theorem aggregate_map (tg : TracedGraph) :
    aggregate (changed k tg) = (aggregate tg).map fun ag =>
      ⟨changed k ag.tracedGraph, ag.artefacts.mapValues (ofArtefact k), ag.requirements.mapValues (inArtefact k)⟩ := by
  have hinit : (initArtefacts (changed k tg), initRequirements (changed k tg)) =
      changedState k (initArtefacts tg, initRequirements tg) := by
    unfold initArtefacts initRequirements changedState
    simp only [ofList_map]
    congr 1
    · congr 1
      simp [changed, BMap.mapValues, ofArtefact, Function.comp_def]
    · congr 1
      rw [show (changed k tg).artefacts = tg.artefacts.mapValues k from rfl, BMap.values_mapValues, List.flatMap_map,
        List.map_flatMap]
      refine flatMap_congr_mem fun a _ => ?_
      rw [hk]
      simp [inArtefact, Function.comp_def]
  unfold aggregate
  rw [show (changed k tg).tracedRelations = tg.tracedRelations from rfl, hinit,
    foldlM_map (changedState k) _ _ (aggRelation_map hk tg)]
  cases tg.tracedRelations.foldlM (aggRelation tg) (initArtefacts tg, initRequirements tg) with
  | error e => rfl
  | ok s =>
    simp only [Except.map, bind, Except.bind]
    rw [show (changedState k s).2 = s.2.mapValues (inArtefact k) from rfl,
      foldlM_map (fun m : BMap RequirementId RequirementTrace => m.mapValues (inArtefact k)) _ _ (fun reqs rel =>
        foldlM_map (fun m : BMap RequirementId RequirementTrace => m.mapValues (inArtefact k)) _ _
          (aggCoverage_map rel.relation) rel.covered reqs)]
    cases tg.tracedRelations.foldlM (fun reqs rel => rel.covered.foldlM (aggCoverage rel.relation) reqs) s.2 <;> rfl

end aggregate

section output

variable {k : Artefact → Artefact} (hi : ∀ a, (k a).id = a.id) (hk : ∀ a, (k a).requirements = a.requirements)
  (he : ∀ a, (k a).errors = a.errors)

include hk in
theorem allRequirements_map (m : BMap ArtefactId Artefact) : allRequirements (m.mapValues k) = allRequirements m := by
  unfold allRequirements
  rw [BMap.values_mapValues, List.flatMap_map]
  simp only [hk]

include he in
theorem allErrors_map (m : BMap ArtefactId Artefact) : allErrors (m.mapValues k) = allErrors m := by
  unfold allErrors
  rw [BMap.values_mapValues, List.flatMap_map]
  simp only [he]

omit hk he in
theorem section_map (title : Str) (has : Artefact → Bool) (body : Artefact → Out) (h1 : ∀ a, has (k a) = has a)
    (h2 : ∀ a, body (k a) = body a) : ∀ (l : List Artefact) (b : Bool),
    MdOut.section_ title has body b (l.map k) = MdOut.section_ title has body b l
  | [], _ => rfl
  | a :: l, b => by
    simp only [List.map_cons, MdOut.section_, h1, h2, section_map title has body h1 h2 l]

include hi he in
theorem inputErrors_map (env : FmtEnv) (m : BMap ArtefactId Artefact) :
    MdOut.inputErrors env (m.mapValues k) = MdOut.inputErrors env m := by
  unfold MdOut.inputErrors
  rw [BMap.values_mapValues]
  exact section_map _ _ _ (fun a => by simp only [he]) (fun a => by simp only [he, hi]) _ _

include hi hk he in
theorem requirements_map (env : FmtEnv) (g : Graph) (f : Format) :
    Fmt.requirements env { g with artefacts := g.artefacts.mapValues k } f = Fmt.requirements env g f := by
  cases f with
  | tags =>
    show Tags.requirements _ = Tags.requirements _
    unfold Tags.requirements
    rw [allRequirements_map hk]
  | markdown =>
    show MdOut.requirements env _ = MdOut.requirements env _
    unfold MdOut.requirements
    rw [allRequirements_map hk, inputErrors_map hi he]
  | json =>
    simp only [Fmt.requirements]
    rw [allRequirements_map hk, allErrors_map he]
  | _ => rfl

include hk he in
theorem gnu_map (env : FmtEnv) (tg : TracedGraph) : GnuErr.tracing env (changed k tg) = GnuErr.tracing env tg := by
  have h1 : ∀ rel id, GnuErr.uncoveredLine (changed k tg) rel id = GnuErr.uncoveredLine tg rel id := by
    intro rel id
    unfold GnuErr.uncoveredLine
    rw [show (changed k tg).artefacts = tg.artefacts.mapValues k from rfl, BMap.get_mapValues]
    cases tg.artefacts.get rel.relation.upper with
    | none => rfl
    | some a => simp only [Option.map_some, orPanic, Out.bind, hk]
  have h2 : ∀ a id, GnuErr.derivedLine (k a) id = GnuErr.derivedLine a id := by
    intro a id
    unfold GnuErr.derivedLine
    rw [hk]
  unfold GnuErr.tracing
  rw [show (changed k tg).artefacts = tg.artefacts.mapValues k from rfl, allErrors_map he]
  simp only [show (changed k tg).tracedRelations = tg.tracedRelations from rfl,
    show (changed k tg).derived = tg.derived from rfl, show (changed k tg).errors = tg.errors from rfl,
    BMap.get_mapValues]
  have h3 : (fun rel : TracedRelation => Out.seq (Out.line (c!"## " ++ rel.relation.display))
      (Out.all (rel.uncovered.map (GnuErr.uncoveredLine (changed k tg) rel)))) =
      fun rel => Out.seq (Out.line (c!"## " ++ rel.relation.display)) (Out.all (rel.uncovered.map (GnuErr.uncoveredLine tg rel))) := by
    funext rel
    rw [show GnuErr.uncoveredLine (changed k tg) rel = GnuErr.uncoveredLine tg rel from funext (h1 rel)]
  have h4 : (fun e : ArtefactId × List RequirementId => Out.bind (orPanic .fmtIndex ((tg.artefacts.get e.1).map k)) fun artefact =>
        Out.seq (Out.line (c!"## " ++ e.1)) (Out.all (e.2.map (GnuErr.derivedLine artefact)))) =
      fun e => Out.bind (orPanic .fmtIndex (tg.artefacts.get e.1)) fun artefact =>
        Out.seq (Out.line (c!"## " ++ e.1)) (Out.all (e.2.map (GnuErr.derivedLine artefact))) := by
    funext e
    cases tg.artefacts.get e.1 with
    | none => rfl
    | some a =>
      simp only [Option.map_some, orPanic, Out.bind]
      rw [show GnuErr.derivedLine (k a) = GnuErr.derivedLine a from funext (h2 a)]
  rw [h3, h4]

include hi hk he in
theorem markdown_map (env : FmtEnv) (ag : AggregatedGraph) :
    MdOut.tracing env ⟨changed k ag.tracedGraph, ag.artefacts.mapValues (ofArtefact k), ag.requirements.mapValues (inArtefact k)⟩ =
      MdOut.tracing env ag := by
  have h1 : ∀ id, MdOut.linkItem env ⟨changed k ag.tracedGraph, ag.artefacts.mapValues (ofArtefact k),
      ag.requirements.mapValues (inArtefact k)⟩ id = MdOut.linkItem env ag id := by
    intro id
    unfold MdOut.linkItem
    simp only [BMap.get_mapValues]
    cases ag.requirements.get id <;> rfl
  have h2 : ∀ rt, MdOut.tracedRequirement env (inArtefact k rt) = MdOut.tracedRequirement env rt := by
    intro rt
    unfold MdOut.tracedRequirement inArtefact
    simp only [hi]
  unfold MdOut.tracing
  have e1 : (changed k ag.tracedGraph).artefacts = ag.tracedGraph.artefacts.mapValues k := rfl
  simp only [e1, inputErrors_map hi he, show (changed k ag.tracedGraph).errors = ag.tracedGraph.errors from rfl]
  congr 1
  congr 1
  congr 1
  have e2 := funext h1
  congr 1
  · unfold MdOut.uncovered
    rw [e2]; rfl
  · congr 1
    · unfold MdOut.derived
      rw [e2]; rfl
    · congr 1
      unfold MdOut.allTraced
      simp only [e1, BMap.values_mapValues, List.map_map, Function.comp_def, hi, hk, BMap.get_mapValues]
      have e3 : (fun id => Out.bind (orPanic .fmtIndex (Option.map (inArtefact k) (ag.requirements.get id)))
          fun rt => Out.put (MdOut.tracedRequirement env rt)) = fun id => Out.bind (orPanic .fmtIndex (ag.requirements.get id))
          fun rt => Out.put (MdOut.tracedRequirement env rt) := by
        funext id
        cases ag.requirements.get id with
        | none => rfl
        | some rt => simp only [Option.map_some, orPanic, Out.bind, h2]
      rw [e3]

include hi hk he in
theorem tracing_map (env : FmtEnv) (tg : TracedGraph) (f : Format) (hf : f ≠ .json) :
    Fmt.tracing env (changed k tg) f = Fmt.tracing env tg f := by
  cases f with
  | gnuError => exact gnu_map hk he env tg
  | markdown =>
    show Out.bind _ _ = Out.bind _ _
    rw [aggregate_map hk]
    cases aggregate tg with
    | error e => rfl
    | ok ag =>
      simp only [Except.map, Out.bind]
      rw [markdown_map hi hk he]
  | json => exact absurd rfl hf
  | _ => rfl

end output

end Formats

open Formats

/-- **C142** Two projects that say the same requirements, whatever the formats, have the same requirements, and the same is
found in them, down to the places. -/
theorem C142_formats {env : Env} {w w' : World} {base base' : Path} {config config' : Config}
    (hm : ProjectRewritten env w w' base base' config config') {c : Controller}
    (h : Controller.new env w config base = .ok c) :
    ∃ c', Controller.new env w' config' base' = .ok c' ∧ SameContents c.graph c'.graph ∧
      SameFindings c.tracedGraph c'.tracedGraph ∧ c'.jobs = c.jobs ∧ c'.defaultJobs = c.defaultJobs := by
  obtain ⟨roots, h1, h2, h3, h4, h5, h6, h7⟩ := new_ok h
  obtain ⟨m', g1, g2⟩ := makeArtefacts_contents hm.artefacts rfl h2
  have hs : SameContents c.graph ⟨m', config'.relations⟩ := ⟨h3.trans hm.relations, g2⟩
  obtain ⟨tg', g3, g4⟩ := trace_same hs h4
  refine ⟨⟨base', ⟨m', config'.relations⟩, tg', config'.jobs.getD .empty, config'.defaultJobs.getD []⟩, ?_, hs, g4, ?_, ?_⟩
  · unfold Controller.new
    rw [← hm.relations, ← ids_same hm.artefacts, h1]
    simp only [bind, Except.bind, g1]
    rw [hm.relations, g3]
    rfl
  · rw [h6, hm.jobs]
  · rw [h7, hm.defaultJobs]

/-- **C142** If also the errors in the input are the same, then so are all reports, except the result of a trace as JSON,
which lists the files; and the jobs find fault with the same. -/
theorem C142_reports {env : Env} {w w' : World} {base base' : Path} {config config' : Config}
    (hm : ProjectRewritten env w w' base base' config config') {c c' : Controller}
    (h : Controller.new env w config base = .ok c) (h' : Controller.new env w' config' base' = .ok c')
    (he : SameErrors c.graph c'.graph) (job : Job) :
    (¬ ListsFiles job → c'.output env job = c.output env job) ∧ (Detects c' job ↔ Detects c job) := by
  obtain ⟨c2, h2, hs, hf, -⟩ := C142_formats hm h
  rw [h'] at h2
  cases h2
  have hart : c.tracedGraph.artefacts = c.graph.artefacts := (C11_frame (C18_consistent h).1 (C18_no_panic h).1).1
  have hart' : c'.tracedGraph.artefacts = c'.graph.artefacts := (C11_frame (C18_consistent h').1 (C18_no_panic h').1).1
  have hmap : c.graph.artefacts.mapValues withoutFiles = c'.graph.artefacts.mapValues withoutFiles := by
    apply BMap.ext_get
    intro a
    have h1 := congrArg (fun m : BMap ArtefactId Artefact => m.get a) hs.2
    simp only [BMap.get_mapValues] at h1
    rw [BMap.get_mapValues, BMap.get_mapValues]
    cases ha : c.graph.artefacts.get a with
    | none =>
      rw [ha] at h1
      cases ha' : c'.graph.artefacts.get a with
      | none => rfl
      | some art' => rw [ha'] at h1; cases h1
    | some art =>
      rw [ha] at h1
      cases ha' : c'.graph.artefacts.get a with
      | none => rw [ha'] at h1; cases h1
      | some art' =>
        rw [ha'] at h1
        have h2 := he a art art' ha ha'
        have h3 : ∀ a : Artefact, withoutFiles a = { contents a with errors := a.errors } := fun _ => rfl
        simp only [Option.map_some, Option.some.injEq] at h1
        rw [Option.map_some, Option.map_some, h3, h3, h1, h2]
  have hg : ({ c.graph with artefacts := c.graph.artefacts.mapValues withoutFiles } : Graph) =
      { c'.graph with artefacts := c'.graph.artefacts.mapValues withoutFiles } := by
    rw [hmap]
    exact congrArg (fun r => (⟨_, r⟩ : Graph)) hs.1
  have ht : changed withoutFiles c.tracedGraph = changed withoutFiles c'.tracedGraph := by
    unfold changed
    rw [hart, hart', hmap, hf.1, hf.2.1, hf.2.2]
  constructor
  · intro hl
    unfold Controller.output
    unfold ListsFiles at hl
    cases hq : job.query with
    | parse =>
      simp only
      rw [← requirements_map (k := withoutFiles) (fun _ => rfl) (fun _ => rfl) (fun _ => rfl) env.fmt c.graph, hg,
        requirements_map (k := withoutFiles) (fun _ => rfl) (fun _ => rfl) (fun _ => rfl)]
    | trace =>
      have hj : job.format ≠ .json := fun hj => hl ⟨hq, hj⟩
      simp only
      rw [← tracing_map (k := withoutFiles) (fun _ => rfl) (fun _ => rfl) (fun _ => rfl) env.fmt c.tracedGraph _ hj, ht,
        tracing_map (k := withoutFiles) (fun _ => rfl) (fun _ => rfl) (fun _ => rfl) _ _ _ hj]
  · have hp : ∀ m : BMap ArtefactId Artefact, ParseProblem (m.mapValues withoutFiles) ↔ ParseProblem m := by
      intro m
      unfold ParseProblem
      constructor
      · rintro ⟨a, art, e, h1, h2⟩
        rw [BMap.get_mapValues] at h1
        cases ha : m.get a with
        | none => rw [ha] at h1; cases h1
        | some b => rw [ha] at h1; cases h1; exact ⟨a, b, e, ha, h2⟩
      · rintro ⟨a, art, e, h1, h2⟩
        exact ⟨a, withoutFiles art, e, by rw [BMap.get_mapValues, h1]; rfl, h2⟩
    have hpp : ParseProblem c'.graph.artefacts ↔ ParseProblem c.graph.artefacts := by
      rw [← hp, ← hmap, hp]
    unfold Detects
    cases job.query with
    | parse => exact hpp
    | trace =>
      simp only
      unfold TraceProblem
      rw [hart, hart', hpp, hf.1, hf.2.1, hf.2.2]

theorem json_rewritten {env : Env} {w w' : World} {base : Path} {config : Config} {before aft : List ArtefactConfig}
    {ac : ArtefactConfig} {p : Path} {file : File} {reqs : List Requirement} {c : Controller}
    (e1 : config.artefacts = before ++ ac :: aft) (e2 : ∀ b ∈ aft, b.id ≠ ac.id)
    (h : Controller.new env w config base = .ok c) (hg : SameMatches env w w')
    (ho : ∀ b ∈ before ++ aft, ∀ fs, FilesOf env w b base fs → ∀ q ∈ fs, SameFile env w w' q)
    (hf : env.os.openFile w' (target base p) = .ok file) (hj : JsonFile file reqs)
    (hr : ∀ r, r ∈ reqs ↔ Defines c.graph ac.id r) :
    ProjectRewritten env w w' base base config { config with artefacts := before ++ fromJson ac p :: aft } := by
  have hin := new_isInput h
  have hl : LastEntry config ac := ⟨before, aft, e1, e2⟩
  suffices hp : Pairs (SameRequirements env w w' base base) config.artefacts (before ++ fromJson ac p :: aft) from
    ⟨rfl, rfl, rfl, hp⟩
  rw [e1]
  have hrefl : ∀ l : List ArtefactConfig, (∀ b ∈ l, b ∈ before ++ aft) →
      Pairs (SameRequirements env w w' base base) l l := by
    intro l
    induction l with
    | nil => intro _; exact .nil
    | cons b l ih =>
      intro hl
      refine .cons ⟨rfl, rfl, rfl, ?_⟩ (ih fun b hb => hl b (.tail _ hb))
      have hb := hl b (.head _)
      obtain ⟨fs, rs, es, hm⟩ := hin.all b (by rw [e1]; simp at hb ⊢; rcases hb with hb | hb <;> simp [hb])
      refine ⟨fs, fs, rs, rs, es, es, hm, ?_, fun r => Iff.rfl⟩
      rw [← parseArtefact_iff, parseArtefact_congr hg (ho b hb)]
      exact parseArtefact_iff.2 hm
  have happ : ∀ {a a' b b' : List ArtefactConfig}, Pairs (SameRequirements env w w' base base) a a' →
      Pairs (SameRequirements env w w' base base) b b' → Pairs (SameRequirements env w w' base base) (a ++ b) (a' ++ b') := by
    intro a a' b b' h1 h2
    induction h1 with
    | nil => exact h2
    | cons h _ ih => exact .cons h ih
  refine happ (hrefl before fun b hb => by simp [hb]) (.cons ⟨rfl, rfl, rfl, ?_⟩ (hrefl aft fun b hb => by simp [hb]))
  obtain ⟨fs, rs, es, hm⟩ := hin.all ac (by rw [e1]; simp)
  refine ⟨fs, [target base p], rs, reqs, es, [], hm, ?_, fun r => ?_⟩
  · refine .files (.inr ⟨by simp [fromJson], p, rfl, rfl⟩) ?_
    have := PathsMean.cons (PathMeans.opened (env := env) (parser := .json) hf (.json hj)) (.nil)
    rw [List.append_nil] at this
    exact this
  · have hd : Defines c.graph ac.id r ↔ Counts rs r := by
      obtain ⟨-, -, -, art, -, ha, -⟩ := C22_last_entries_partial h hl
      obtain ⟨ac2, h1, h2, rs2, es2, un, h3⟩ := (hin.artefacts _ _).1 ha
      cases lastEntry_unique h1 hl h2
      have h4 := parseArtefact_iff.2 h3.means
      rw [parseArtefact_iff.2 hm] at h4
      cases h4
      constructor
      · rintro ⟨art2, g1, g2⟩
        rw [ha] at g1; cases g1
        rw [h3.requirements] at g2
        exact counts_of_find g2
      · intro hc
        exact ⟨art, ha, by rw [h3.requirements]; exact find_of_counts hc⟩
    rw [← hd]
    constructor
    · intro hdef
      obtain ⟨pre, post, hsplit⟩ := List.append_of_mem ((hr r).2 hdef)
      obtain ⟨s, hs⟩ : ∃ s, reqs.find? (fun s => s.id = r.id) = some s := by
        cases hfd : reqs.find? (fun s => s.id = r.id) with
        | some s => exact ⟨s, rfl⟩
        | none => exact absurd (List.find?_eq_none.1 hfd r ((hr r).2 hdef)) (by simp)
      have hid : s.id = r.id := by simpa using List.find?_some hs
      obtain ⟨art, g1, g2⟩ := (hr s).1 (List.mem_of_find?_eq_some hs)
      obtain ⟨art', g3, g4⟩ := hdef
      rw [g1] at g3; cases g3
      rw [hid, g4] at g2; cases g2
      exact counts_of_find hs
    · rintro ⟨pre, post, rfl, -⟩
      exact (hr r).1 (by simp)

/-- **C142** An artefact may be read from a JSON file that has its requirements, as the export has them (C51, C52): the
project has the same requirements and the same is found in it. -/
theorem C142_json {env : Env} {w w' : World} {base : Path} {config : Config} {before aft : List ArtefactConfig}
    {ac : ArtefactConfig} {p : Path} {file : File} {reqs : List Requirement} {c : Controller}
    (e1 : config.artefacts = before ++ ac :: aft) (e2 : ∀ b ∈ aft, b.id ≠ ac.id)
    (h : Controller.new env w config base = .ok c) (hg : SameMatches env w w')
    (ho : ∀ b ∈ before ++ aft, ∀ fs, FilesOf env w b base fs → ∀ q ∈ fs, SameFile env w w' q)
    (hf : env.os.openFile w' (target base p) = .ok file) (hj : JsonFile file reqs)
    (hr : ∀ r, r ∈ reqs ↔ Defines c.graph ac.id r) :
    ∃ c', Controller.new env w' { config with artefacts := before ++ fromJson ac p :: aft } base = .ok c' ∧
      SameContents c.graph c'.graph ∧ SameFindings c.tracedGraph c'.tracedGraph ∧ c'.jobs = c.jobs ∧
      c'.defaultJobs = c.defaultJobs := by
  exact C142_formats (json_rewritten e1 e2 h hg ho hf hj hr) h

/-- **C142** So the entries of the export that are requirements of the artefact, written to a file as an array, may be its
input. -/
theorem C142_export {env : Env} {w w' : World} {base : Path} {config : Config} {before aft : List ArtefactConfig}
    {ac : ArtefactConfig} {p : Path} {c : Controller} {job : Job} {ms : List (Str × Json)} {xs ys : List Json} {i : Nat}
    (e1 : config.artefacts = before ++ ac :: aft) (e2 : ∀ b ∈ aft, b.id ≠ ac.id)
    (h : Controller.new env w config base = .ok c) (hg : SameMatches env w w')
    (ho : ∀ b ∈ before ++ aft, ∀ fs, FilesOf env w b base fs → ∀ q ∈ fs, SameFile env w w' q)
    (hfit : ∀ r, Defines c.graph ac.id r → JsonText.RequirementFits r)
    (hq : job.query = .parse) (hj : job.format = .json)
    (hx : JsonText.Document (c.output env job).text (.obj ms)) (hm : ms.lookup c!"requirements" = some (.arr xs))
    (hy : ∀ y, y ∈ ys ↔ y ∈ xs ∧ ∃ r, Defines c.graph ac.id r ∧ JsonText.IsRequirement y r)
    (hf : env.os.openFile w' (target base p) = .ok ⟨Utf8.encode (Json.pretty i (.arr ys)), none⟩) :
    ∃ c', Controller.new env w' { config with artefacts := before ++ fromJson ac p :: aft } base = .ok c' ∧
      SameContents c.graph c'.graph ∧ SameFindings c.tracedGraph c'.tracedGraph ∧ c'.jobs = c.jobs ∧
      c'.defaultJobs = c.defaultJobs := by
  have hk := (C18_consistent h).1
  obtain ⟨all, errs, h1, hperm, -⟩ := C51_export env.fmt c.graph
  have hall : xs = all.map Json.ofRequirement := by
    have ho : c.output env job = Fmt.requirements env.fmt c.graph .json := by
      unfold Controller.output; rw [hq, hj]
    rw [ho, h1] at hx
    have hx : JsonText.Document (Json.pretty 0 (.obj [(c!"version", .num 0), (c!"requirements", .arr (all.map Json.ofRequirement)),
      (c!"errors", .arr (errs.map Json.ofError))])) (.obj ms) := hx
    have := (JsonRead.document_iff _ _).2 hx
    rw [JsonRead.document_pretty (plain_export all errs) 0] at this
    cases this
    cases hm
    rfl
  have hmem : ∀ r, Defines c.graph ac.id r → r ∈ all := by
    rintro r ⟨art, ha, hr⟩
    rw [hperm.mem_iff]
    exact List.mem_flatMap.2 ⟨_, (BMap.get_eq_some_iff _ _ _).1 ha, List.mem_map.2 ⟨_, (BMap.get_eq_some_iff _ _ _).1 hr, rfl⟩⟩
  have hback : ∀ r, Defines c.graph ac.id r → JsonRead.toRequirement (Json.ofRequirement r) = some r :=
    fun r hr => JsonRead.toRequirement_of (hfit r hr)
  have hread : ∀ l : List Json, (∀ y ∈ l, ∃ r, JsonRead.toRequirement y = some r) →
      ∃ reqs, JsonRead.all JsonRead.toRequirement l = some reqs ∧ ∀ r, r ∈ reqs ↔ ∃ y ∈ l, JsonRead.toRequirement y = some r := by
    intro l
    induction l with
    | nil => intro _; exact ⟨[], rfl, by simp⟩
    | cons y l ih =>
      intro hl
      obtain ⟨r, hr⟩ := hl y List.mem_cons_self
      obtain ⟨reqs, q1, q2⟩ := ih fun z hz => hl z (List.mem_cons_of_mem _ hz)
      refine ⟨r :: reqs, by simp [JsonRead.all, hr, q1], ?_⟩
      intro s
      simp only [List.mem_cons, q2, exists_eq_or_imp, hr, Option.some.injEq]
      exact or_congr_left eq_comm
  have hys : ∀ y ∈ ys, ∃ r, Defines c.graph ac.id r ∧ JsonRead.toRequirement y = some r := by
    intro y hy'
    obtain ⟨-, r, h2, h3⟩ := (hy y).1 hy'
    exact ⟨r, h2, (JsonRead.toRequirement_iff _ _).2 h3⟩
  obtain ⟨reqs, q1, q2⟩ := hread ys fun y hy' => by
    obtain ⟨r, -, h3⟩ := hys y hy'
    exact ⟨r, h3⟩
  refine C142_json (reqs := reqs) e1 e2 h hg ho hf ((jsonFile_iff env _ _).2 ?_) ?_
  · rw [File.whole_encode]
    unfold JsonRead.fromReader
    simp only
    rw [JsonRead.document_pretty (show (Json.arr ys).Plain from .arr fun y hy' => ?_) i]
    · simp only [Option.bind_some, JsonRead.toVec]
      rw [q1]
    · obtain ⟨h2, -⟩ := (hy y).1 hy'
      rw [hall] at h2
      obtain ⟨s, -, rfl⟩ := List.mem_map.1 h2
      exact JsonRead.plain_requirement s
  · intro r
    rw [q2]
    constructor
    · rintro ⟨y, h2, h3⟩
      obtain ⟨s, h4, h5⟩ := hys y h2
      rw [h3] at h5
      cases h5
      exact h4
    · intro hr
      exact ⟨_, (hy _).2 ⟨by rw [hall]; exact List.mem_map.2 ⟨r, hmem r hr, rfl⟩, r, hr, (JsonRead.toRequirement_iff _ _).1 (hback r hr)⟩,
        hback r hr⟩

namespace FormatsExample

open CtrlExample

def design : ArtefactConfig := ⟨c!"DES", [c!"des.md"], .markdown, none, none⟩
def requirements : ArtefactConfig := ⟨c!"REQ", [c!"req.md"], .markdown, none, none⟩
def config : Config := ⟨none, [requirements, design], [⟨c!"REQ", [c!"DES"]⟩], none, none⟩
def e : Env := env .nil config

def des : Str := c!"# DES_A: d\nCovers: REQ_A\n# DES_B: e\nCovers: REQ_B, REQ_C\n"
/-- The requirements in another order, with a member that is ignored. -/
def json : Str := c!"[{\"id\": \"DES_B\", \"title\": \"e\", \"location\": [\"p/des.md\", {\"Line\": 3}], \"depends\": [],
  \"covers\": [{\"id\": \"REQ_B\", \"location\": [\"p/des.md\", {\"Line\": 4}]},
    {\"id\": \"REQ_C\", \"location\": [\"p/des.md\", {\"Line\": 4}]}], \"tags\": [], \"attributes\": {}, \"extra\": 0},
  {\"id\": \"DES_A\", \"title\": \"d\", \"location\": [\"p/des.md\", {\"Line\": 1}],
   \"covers\": [{\"id\": \"REQ_A\", \"location\": [\"p/des.md\", {\"Line\": 2}]}], \"depends\": [], \"tags\": [],
   \"attributes\": {}}]"

def first : World := world [(c!"p/req.md", c!"# REQ_A: a\n# REQ_B: b\n"), (c!"p/des.md", des)]
def second : World := world [(c!"p/req.md", c!"# REQ_A: a\n# REQ_B: b\n"), (c!"p/des.json", json)]

def at' (n : Nat) : Location := lineOf c!"p/des.md" n
def reqs : List Requirement :=
  [⟨c!"DES_B", some c!"e", at' 3, [⟨c!"REQ_B", none, at' 4⟩, ⟨c!"REQ_C", none, at' 4⟩], [], [], .empty⟩,
   ⟨c!"DES_A", some c!"d", at' 1, [⟨c!"REQ_A", none, at' 2⟩], [], [], .empty⟩]

theorem readable : ∃ c, Controller.new e first config c!"p" = .ok c ∧ (c.graph.artefacts.get c!"DES").map (·.requirements) =
    some (.ofList [(c!"DES_A", reqs[1]), (c!"DES_B", reqs[0])]) := by
  have key : (Controller.new e first config c!"p").toOption.map (fun c => (c.graph.artefacts.get c!"DES").map (·.requirements)) =
      some (some (.ofList [(c!"DES_A", reqs[1]), (c!"DES_B", reqs[0])])) := by decide +kernel
  cases h : Controller.new e first config c!"p" with
  | error x => rw [h] at key; cases key
  | ok c => rw [h] at key; exact ⟨c, rfl, Option.some.inj key⟩

def config' : Config := { config with artefacts := [requirements, fromJson design c!"des.json"] }

theorem rewritten : ProjectRewritten e first second c!"p" c!"p" config config' := by
  obtain ⟨c, h, hc⟩ := readable
  cases ha : c.graph.artefacts.get c!"DES" with
  | none => rw [ha] at hc; cases hc
  | some art =>
    rw [ha] at hc
    have hc : art.requirements = _ := Option.some.inj hc
    exact json_rewritten (w' := second) (before := [requirements]) (aft := []) (ac := design)
      (p := c!"des.json") (reqs := reqs) rfl (by simp) h (fun p => rfl) (by
        simp only [List.append_nil, List.mem_singleton, forall_eq]
        rintro fs (⟨h, -⟩ | ⟨-, p, h, rfl⟩) q hq
        · cases h
        · cases h
          rw [List.mem_singleton.1 hq]
          unfold SameFile
          decide +kernel) (file := ⟨Utf8.encode json, none⟩) (by decide +kernel)
        ((jsonFile_iff e _ _).2 (by decide +kernel)) (by
          intro r
          have hg : ∀ k, art.requirements.get k = if k = c!"DES_B" then some reqs[0] else if k = c!"DES_A" then some reqs[1] else none := by
            intro k
            rw [hc]
            show ((BMap.empty.insert c!"DES_A" reqs[1]).insert c!"DES_B" reqs[0]).get k = _
            rw [BMap.get_insert, BMap.get_insert]; rfl
          constructor
          · intro hr
            refine ⟨art, ha, ?_⟩
            rw [hg]
            simp only [reqs, List.mem_cons, List.not_mem_nil, or_false] at hr
            rcases hr with rfl | rfl <;> rfl
          · rintro ⟨art', g1, g2⟩
            have g1 : c.graph.artefacts.get c!"DES" = some art' := g1
            rw [ha] at g1; cases g1
            rw [hg] at g2
            split at g2
            · cases g2; simp [reqs]
            · split at g2
              · cases g2; simp [reqs]
              · cases g2)

/-- All reports but one are the same, and none of them is empty. -/
example : ∃ c c', Controller.new e first config c!"p" = .ok c ∧ Controller.new e second config' c!"p" = .ok c' ∧
    SameContents c.graph c'.graph ∧ SameFindings c.tracedGraph c'.tracedGraph ∧ SameErrors c.graph c'.graph ∧
    ∀ job, ¬ ListsFiles job → c'.output e job = c.output e job := by
  obtain ⟨c, h, -⟩ := readable
  obtain ⟨c', h1, h2, h3, -⟩ := C142_formats rewritten h
  have key : ∀ (w : World) (cfg : Config) (c : Controller), ((Controller.new e w cfg c!"p").toOption.map fun c =>
      c.graph.artefacts.values.all fun a => a.errors.isEmpty) = some true → Controller.new e w cfg c!"p" = .ok c →
      ∀ a art, c.graph.artefacts.get a = some art → art.errors = [] := by
    intro w cfg c hk hc a art ha
    rw [hc] at hk
    have := List.all_eq_true.1 (Option.some.inj hk) art ((BMap.mem_values_iff _ _).2 ⟨a, ha⟩)
    simpa using this
  have he : SameErrors c.graph c'.graph := fun a art art' ha ha' => by
    rw [key first config c (by decide +kernel) h a art ha, key second config' c' (by decide +kernel) h1 a art' ha']
  exact ⟨c, c', h, h1, h2, h3, he, fun job hj => (C142_reports rewritten h h1 he job).1 hj⟩

/-- The requirements of `DES` as the export has them. -/
def exported : World := world [(c!"p/req.md", c!"# REQ_A: a\n# REQ_B: b\n"),
  (c!"p/des.json", Json.pretty 0 (.arr [Json.ofRequirement reqs[1], Json.ofRequirement reqs[0]]))]

theorem fits {r : Requirement} (h : ((r.location :: (r.covers ++ r.depends).map (·.location)).all fun l =>
    l.locationInFile.all fun p => match p with
      | .line n => decide (n < 10)
      | _ => false) = true) : JsonText.RequirementFits r := by
  simp only [List.all_cons, List.all_map, List.all_append, Bool.and_eq_true, List.all_eq_true, Function.comp] at h
  have hp : ∀ p : Option LocationInFile, (p.all fun p => match p with
      | .line n => decide (n < 10)
      | _ => false) = true → JsonText.PositionFits p := by
    intro p hp
    cases p with
    | none => trivial
    | some p =>
      cases p with
      | line n =>
        have : n < 10 := by simpa using hp
        show n ≤ usizeMax
        unfold usizeMax; omega
      | _ => simp at hp
  exact ⟨hp _ h.1, fun c hc => hp _ (h.2.1 c hc), fun c hc => hp _ (h.2.2 c hc)⟩

/-- What was exported may be the input. -/
example : ∃ c c', Controller.new e first config c!"p" = .ok c ∧ Controller.new e exported config' c!"p" = .ok c' ∧
    SameContents c.graph c'.graph ∧ SameFindings c.tracedGraph c'.tracedGraph := by
  obtain ⟨c, h, hc⟩ := readable
  have hdef : ∀ r, Defines c.graph c!"DES" r ↔ r ∈ reqs := by
    cases ha : c.graph.artefacts.get c!"DES" with
    | none => rw [ha] at hc; cases hc
    | some art =>
      rw [ha] at hc
      have hc : art.requirements = _ := Option.some.inj hc
      have hg : ∀ k, art.requirements.get k = if k = c!"DES_B" then some reqs[0] else if k = c!"DES_A" then some reqs[1] else none := by
        intro k
        rw [hc]
        show ((BMap.empty.insert c!"DES_A" reqs[1]).insert c!"DES_B" reqs[0]).get k = _
        rw [BMap.get_insert, BMap.get_insert]; rfl
      intro r
      constructor
      · rintro ⟨art', g1, g2⟩
        rw [ha] at g1; cases g1
        rw [hg] at g2
        split at g2
        · cases g2; simp [reqs]
        · split at g2
          · cases g2; simp [reqs]
          · cases g2
      · intro hr
        refine ⟨art, ha, ?_⟩
        rw [hg]
        simp only [reqs, List.mem_cons, List.not_mem_nil, or_false] at hr
        rcases hr with rfl | rfl <;> rfl
  obtain ⟨all, errs, x1, x2, -⟩ := C51_export e.fmt c.graph
  have hfits : ∀ s ∈ all, JsonText.RequirementFits s := by
    have : ((Controller.new e first config c!"p").toOption.map fun c => (requirementsOf c.graph.artefacts).all fun r =>
        (r.location :: (r.covers ++ r.depends).map (·.location)).all fun l => l.locationInFile.all fun p => match p with
          | .line n => decide (n < 10)
          | _ => false) = some true := by decide +kernel
    rw [h] at this
    have := List.all_eq_true.1 (Option.some.inj this)
    intro s hs
    exact fits (this s (x2.mem_iff.1 hs))
  have hin : ∀ r, Defines c.graph c!"DES" r → r ∈ all := by
    rintro r ⟨art, g1, g2⟩
    refine x2.mem_iff.2 ?_
    exact List.mem_flatMap.2 ⟨_, (BMap.get_eq_some_iff _ _ _).1 g1, List.mem_map.2 ⟨_, (BMap.get_eq_some_iff _ _ _).1 g2, rfl⟩⟩
  have hys : ∀ y, y ∈ [Json.ofRequirement reqs[1], Json.ofRequirement reqs[0]] ↔
      y ∈ all.map Json.ofRequirement ∧ ∃ r, Defines c.graph c!"DES" r ∧ JsonText.IsRequirement y r := by
    have hb : ∀ r ∈ all, JsonRead.toRequirement (Json.ofRequirement r) = some r := fun r hr => JsonRead.toRequirement_of (hfits r hr)
    have hb' : ∀ r, Defines c.graph c!"DES" r → Json.ofRequirement r ∈ all.map Json.ofRequirement ∧
        ∃ s, Defines c.graph c!"DES" s ∧ JsonText.IsRequirement (Json.ofRequirement r) s :=
      fun r hr => ⟨List.mem_map.2 ⟨r, hin r hr, rfl⟩, r, hr, (JsonRead.toRequirement_iff _ _).1 (hb r (hin r hr))⟩
    intro y
    constructor
    · intro hy
      rcases List.mem_cons.1 hy with rfl | hy
      · exact hb' _ ((hdef _).2 (List.getElem_mem _))
      · rw [List.mem_singleton.1 hy]
        exact hb' _ ((hdef _).2 (List.getElem_mem _))
    · rintro ⟨h4, r, h5, h6⟩
      obtain ⟨s, h7, rfl⟩ := List.mem_map.1 h4
      have := (JsonRead.toRequirement_iff _ _).2 h6
      rw [hb s h7] at this
      cases this
      rcases List.mem_cons.1 ((hdef _).1 h5) with e | e
      · rw [e]; exact List.mem_cons_of_mem _ List.mem_cons_self
      · rw [List.mem_singleton.1 e]; exact List.mem_cons_self
  obtain ⟨c', h1, h2, h3, -⟩ := C142_export (w' := exported) (before := [requirements]) (aft := []) (ac := design) (p := c!"des.json")
    (job := ⟨.parse, .json, c!"-", none⟩) (xs := all.map Json.ofRequirement) (ys := [Json.ofRequirement reqs[1], Json.ofRequirement reqs[0]])
    (i := 0) (ms := [(c!"version", .num 0), (c!"requirements", .arr (all.map Json.ofRequirement)), (c!"errors", .arr (errs.map Json.ofError))])
    rfl (by simp) h (fun p => rfl) (by
      simp only [List.append_nil, List.mem_singleton, forall_eq]
      rintro fs (⟨h, -⟩ | ⟨-, p, h, rfl⟩) q hq
      · cases h
      · cases h
        rw [List.mem_singleton.1 hq]
        unfold SameFile
        decide +kernel)
    (fun r hr => hfits r (hin r hr)) rfl rfl
    (by
      rw [show c.output e ⟨.parse, .json, c!"-", none⟩ = Fmt.requirements e.fmt c.graph .json from rfl, x1]
      exact (JsonRead.document_iff _ _).1 (JsonRead.document_pretty (plain_export all errs) 0))
    rfl hys
    (by decide +kernel)
  exact ⟨c, c', h, h1, h2, h3⟩

/-- What is found in both: an unknown requirement, and where. -/
def found : List Str := [c!"Requirement DES_B covers unknown Requirement REQ_C at p/des.md:4"]

example : (Controller.new e second config' c!"p").toOption.map (fun c => c.tracedGraph.errors.map Error.display) = some found ∧
    (Controller.new e second config' c!"p").toOption.map (fun c => c.tracedGraph.tracedRelations.map fun tr =>
        tr.covered.map fun cv => (cv.upper, cv.lower, cv.location)) =
      some [[(c!"REQ_A", c!"DES_A", at' 2), (c!"REQ_B", c!"DES_B", at' 4)]] := by
  constructor <;> decide +kernel

end FormatsExample

end Reqtrace
