import Verif.Lemmas.Formatters
import Verif.Props.Aggregator

/-!
# C50, C51, C53–C56: exports and reports
-/

set_option linter.unusedSimpArgs false

namespace Reqtrace

open Out Spec

/-- An instance of what the formatters take from libraries. -/
def FmtEnv.example : FmtEnv where
  lower s := s.map Char.toLower
  lower_ascii s _ := rfl
  lower_ascii_prefix a b _ := ⟨b.map Char.toLower, by simp⟩
  plain c := 32 ≤ c.toNat && c.toNat < 127
  plain_ascii _ _ := rfl
  sortErrors := sortByKey
  sortErrors_perm key l := sort_perm key l
  sortErrors_sorted key l := sort_sorted key l

/-! ## C50 -/

theorem tagLines_of (rs : List Requirement) : TagLines rs (Tags.lines rs) := by
  induction rs with
  | nil => exact .nil
  | cons r rs ih =>
    unfold Tags.lines
    rw [List.filterMap_cons]
    match h : r.location.locationInFile with
    | none => exact .skip (by intro n hn; unfold AtLine at hn; simp [h] at hn) ih
    | some (.string s) => exact .skip (by intro n hn; unfold AtLine at hn; simp [h] at hn) ih
    | some (.line n) => exact .line (.inl h) ih
    | some (.lineAndColumn n c) => exact .line (.inr ⟨c, h⟩) ih

/-- **C50** The tags file is four header lines and then, sorted, exactly one line per requirement with a line
position. -/
theorem C50_tags (env : FmtEnv) (g : Graph) :
    ∃ header, ∃ unsorted sorted : List Str, Fmt.requirements env g .tags = put (header ++ sorted.flatten) ∧
      header = c!"!_TAG_FILE_SORTED\t1\t/0=unsorted, 1=sorted, 2=foldcase/\n" ++
        c!"!_TAG_PROGRAM_NAME\treqtrace/\n" ++
        c!"!_TAG_PROGRAM_URL\thttps://github.com/wonkodv/reqtrace/\n" ++
        c!"!_TAG_PROGRAM_VERSION\t0\t//\n" ∧
      TagLines (requirementsOf g.artefacts) unsorted ∧ sorted.Perm unsorted ∧
      sorted.Pairwise (fun a b => compare a b ≠ .gt) := by
  refine ⟨Tags.header, Tags.lines (allRequirements g.artefacts), _, ?_, rfl, ?_, sort_perm id _, sort_sorted id _⟩
  · show Tags.requirements g = _
    unfold Tags.requirements
    rw [Out.all_put]
    rfl
  · rw [allRequirements_eq]; exact tagLines_of _

/-- The specification leaves no choice of lines. -/
theorem C50_lines_determined {rs : List Requirement} {a b : List Str} (h1 : TagLines rs a) (h2 : TagLines rs b) :
    a = b := by
  induction h1 generalizing b with
  | nil => cases h2; rfl
  | skip hn _ ih =>
    cases h2 with
    | skip _ h => exact ih h
    | line hl _ => exact absurd hl (hn _)
  | line hl _ ih =>
    cases h2 with
    | skip hn _ => exact absurd hl (hn _)
    | line hl' h =>
      rw [ih h]
      unfold AtLine at hl hl'
      rcases hl with hl | ⟨c, hl⟩ <;> rcases hl' with hl' | ⟨c', hl'⟩ <;> rw [hl] at hl' <;> cases hl' <;> rfl

/-- Of six requirements of the example graph, all have a line. -/
example : (Fmt.requirements FmtEnv.example Example.graph .tags).text = Tags.header ++
    c!"L1\tf\t0;\"\tr\nL1\tf\t0;\"\tr\nL2\tf\t0;\"\tr\nL3\tf\t0;\"\tr\nU1\tf\t0;\"\tr\nU2\tf\t0;\"\tr\n" := by
  decide +kernel

/-! ## C51 -/

/-- **C51** The JSON export is an object with the version, all requirements sorted by id (equal ids in artefact
order), and all errors sorted by text. -/
theorem C51_export (env : FmtEnv) (g : Graph) :
    ∃ (reqs : List Requirement) (errs : List Error), Fmt.requirements env g .json = put (Json.pretty 0 (.obj [(c!"version", .num 0),
        (c!"requirements", .arr (reqs.map Json.ofRequirement)), (c!"errors", .arr (errs.map Json.ofError))])) ∧
      reqs.Perm (requirementsOf g.artefacts) ∧
      reqs.Pairwise (fun r s => compare r.id s.id ≠ .gt) ∧
      (∀ id, reqs.filter (fun r => r.id = id) = (requirementsOf g.artefacts).filter (fun r => r.id = id)) ∧
      errs.Perm (errorsOf g.artefacts) ∧
      errs.Pairwise (fun a b => compare a.display b.display ≠ .gt) := by
  refine ⟨_, _, rfl, ?_, ?_, ?_, ?_, ?_⟩
  · rw [← allRequirements_eq]; exact sort_perm Requirement.id _
  · exact sort_sorted Requirement.id _
  · intro id; rw [← allRequirements_eq]; exact sort_stable Requirement.id _ id
  · rw [← allErrors_eq]; exact env.sortErrors_perm _ _
  · exact env.sortErrors_sorted _ _

/-- The example graph has an id twice; the definition of the first artefact comes first. -/
example : (requirementsOf Example.graph.artefacts).map (·.id) = [c!"L1", c!"L2", c!"L3", c!"U1", c!"U2", c!"L1"] ∧
    ((Serialize.Requirements.new FmtEnv.example (allRequirements Example.graph.artefacts)
      [.config c!"b", .config c!"a"]).requirements.map (fun r => (r.id, r.title))) =
      [(c!"L1", some c!"low"), (c!"L1", none), (c!"L2", none), (c!"L3", none), (c!"U1", some c!"one"), (c!"U2", none)] ∧
    (Serialize.Requirements.new FmtEnv.example [] [.config c!"b", .config c!"a"]).errors =
      [.config c!"a", .config c!"b"] := by
  decide +kernel

/-! ## C53 -/

section
variable {g : Graph} {tg : TracedGraph} (hk : Keyed g) (h : trace g = .ok tg)
include hk h

theorem derived_entry {e : ArtefactId × List RequirementId} (he : e ∈ tg.derived.entries) :
    ∃ art, tg.artefacts.get e.1 = some art ∧ ∀ id ∈ e.2, ∃ r, art.requirements.get id = some r ∧ r.id = id := by
  obtain ⟨f1, f2, _⟩ := C11_frame hk h
  have hmem : e.1 ∈ g.artefacts.keys := by
    rw [← f2]; exact List.mem_map.2 ⟨e, he, rfl⟩
  obtain ⟨art, hart⟩ := (BMap.mem_keys_iff _ _).1 hmem
  obtain ⟨d, hd, _, hd2⟩ := C03_derived_exact hk h hart
  have : d = e.2 := by
    have := (BMap.get_eq_some_iff tg.derived e.1 e.2).2 he
    rw [hd] at this; exact Option.some.inj this
  subst this
  refine ⟨art, by rw [f1]; exact hart, ?_⟩
  intro id hid
  obtain ⟨_, ⟨r, ⟨⟨art', ha', hr⟩, _⟩, hrid⟩, _⟩ := (hd2 id).1 hid
  rw [hart] at ha'
  cases ha'
  exact ⟨r, by rw [← hrid]; exact hr, hrid⟩

theorem uncovered_entry {tr : TracedRelation} (ht : tr ∈ tg.tracedRelations) :
    ∃ art, tg.artefacts.get tr.relation.upper = some art ∧
      ∀ id ∈ tr.uncovered, ∃ r, art.requirements.get id = some r ∧ r.id = id := by
  obtain ⟨f1, _⟩ := C11_frame hk h
  obtain ⟨art, hart, _, hu⟩ := C02_uncovered_complement hk h ht
  refine ⟨art, by rw [f1]; exact hart, ?_⟩
  intro id hid
  obtain ⟨⟨r, hr⟩, _⟩ := (hu id).1 hid
  exact ⟨r, hr, hk.requirement _ _ hart _ _ hr⟩

/-- **C54** for the GNU-error report: its text, with the line for each uncovered and derived requirement. -/
theorem C54_gnu_report (env : FmtEnv) :
    ∃ uncText derText : ArtefactId → RequirementId → Str,
      Fmt.tracing env tg .gnuError = put (
        c!"# Parsing Errors\n" ++ (errorsOf g.artefacts).flatMap (GnuErr.errorText env) ++
        c!"# Tracing Errors\n" ++ tg.errors.flatMap (GnuErr.errorText env) ++
        c!"# Uncovered Requirement\n" ++ tg.tracedRelations.flatMap (fun tr =>
          c!"## " ++ tr.relation.display ++ c!"\n" ++ tr.uncovered.flatMap (uncText tr.relation.upper)) ++
        c!"Derived Requirement\n" ++ tg.derived.entries.flatMap (fun e =>
          c!"## " ++ e.1 ++ c!"\n" ++ e.2.flatMap (derText e.1))) ∧
      ∀ a art id r, g.artefacts.get a = some art → art.requirements.get id = some r →
        uncText a id = r.location.display ++ c!": " ++ id ++ c!" Uncovered\n" ∧
        derText a id = r.location.display ++ c!": " ++ id ++ c!" Derived\n" := by
  obtain ⟨f1, _⟩ := C11_frame hk h
  let txt (suffix : Str) (a : ArtefactId) (id : RequirementId) : Str :=
    match (tg.artefacts.get a).bind (fun art => art.requirements.get id) with
    | some r => r.location.display ++ c!": " ++ r.id ++ suffix
    | none => []
  refine ⟨txt c!" Uncovered\n", txt c!" Derived\n", ?_, ?_⟩
  · show GnuErr.tracing env tg = _
    unfold GnuErr.tracing
    have e1 : ∀ es, GnuErr.errors env es = put (es.flatMap (GnuErr.errorText env)) :=
      fun es => Out.all_map_ok fun _ _ => rfl
    have e2 : all (tg.tracedRelations.map fun rel =>
        seq (line (c!"## " ++ rel.relation.display)) (all (rel.uncovered.map (GnuErr.uncoveredLine tg rel)))) =
        put (tg.tracedRelations.flatMap (fun tr =>
          c!"## " ++ tr.relation.display ++ c!"\n" ++ tr.uncovered.flatMap (txt c!" Uncovered\n" tr.relation.upper))) := by
      refine Out.all_map_ok fun tr htr => ?_
      obtain ⟨art, hart, hu⟩ := uncovered_entry hk h htr
      rw [Out.all_map_ok (t := txt c!" Uncovered\n" tr.relation.upper)]
      · rfl
      · intro id hid
        obtain ⟨r, hr, hrid⟩ := hu id hid
        unfold GnuErr.uncoveredLine
        simp only [hart, hr, orPanic, Out.bind, txt, Option.bind_some]
        simp [Out.line, put]
    have e3 : all (tg.derived.entries.map fun e =>
        bind (orPanic .fmtIndex (tg.artefacts.get e.1)) fun artefact =>
          seq (line (c!"## " ++ e.1)) (all (e.2.map (GnuErr.derivedLine artefact)))) =
        put (tg.derived.entries.flatMap (fun e => c!"## " ++ e.1 ++ c!"\n" ++ e.2.flatMap (txt c!" Derived\n" e.1))) := by
      refine Out.all_map_ok fun e he => ?_
      obtain ⟨art, hart, hd⟩ := derived_entry hk h he
      rw [hart]
      simp only [orPanic, Out.bind]
      rw [Out.all_map_ok (t := txt c!" Derived\n" e.1)]
      · rfl
      · intro id hid
        obtain ⟨r, hr, hrid⟩ := hd id hid
        unfold GnuErr.derivedLine
        simp only [hart, hr, orPanic, Out.bind, txt, Option.bind_some]
        simp [Out.line, put]
    rw [e1, e1, e2, e3, allErrors_eq, f1]
    simp only [all, Out.line, put, Out.seq, List.append_assoc, List.append_nil]
    rfl
  · intro a art id r ha hr
    have hid := hk.requirement a art ha id r hr
    simp only [txt, f1, ha, Option.bind_some, hr, hid, and_self]

/-- **C53** for the GNU-error report. -/
theorem C53_gnu_partial (env : FmtEnv) : (Fmt.tracing env tg .gnuError).panic = none := by
  obtain ⟨_, _, h1, _⟩ := C54_gnu_report hk h env
  rw [h1]; rfl

variable {ag : AggregatedGraph} (ha : aggregate tg = .ok ag)
include ha

theorem aggregated_get {a : ArtefactId} {art : Artefact} {id : RequirementId} {r : Requirement}
    (h1 : tg.artefacts.get a = some art) (h2 : art.requirements.get id = some r) :
    ∃ rt, ag.requirements.get id = some rt ∧ rt.requirement.id = id ∧
      ∃ b, g.artefacts.get b = some rt.artefact ∧ rt.artefact.requirements.get id = some rt.requirement := by
  have hs := (C15_requirements hk h ha id).1.2 ⟨a, art, r, h1, h2⟩
  obtain ⟨rt, hrt⟩ := Option.isSome_iff_exists.1 hs
  obtain ⟨b, h3, h4, _⟩ := (C15_requirements hk h ha id).2 rt hrt
  exact ⟨rt, hrt, hk.requirement _ _ h3 _ _ h4, b, h3, h4⟩

omit hk h ha in
theorem echoOnce_spec (seen ss : List Str) :
    (MdOut.echoOnce seen ss).Nodup ∧ (∀ t, t ∈ MdOut.echoOnce seen ss ↔ t ∈ ss ∧ t ∉ seen) ∧
      (MdOut.echoOnce seen ss).Sublist ss := by
  induction ss generalizing seen with
  | nil => simp [MdOut.echoOnce]
  | cons s ss ih =>
    rw [MdOut.echoOnce]
    by_cases hs : s ∈ seen
    · rw [if_pos hs]
      obtain ⟨h1, h2, h3⟩ := ih seen
      refine ⟨h1, fun t => ?_, h3.cons _⟩
      rw [h2, List.mem_cons]
      constructor
      · rintro ⟨a, b⟩; exact ⟨.inr a, b⟩
      · rintro ⟨rfl | a, b⟩
        · exact absurd hs b
        · exact ⟨a, b⟩
    · rw [if_neg hs]
      obtain ⟨h1, h2, h3⟩ := ih (s :: seen)
      refine ⟨List.nodup_cons.2 ⟨?_, h1⟩, fun t => ?_, h3.cons_cons _⟩
      · rw [h2]; simp
      · rw [List.mem_cons, h2, List.mem_cons, List.mem_cons]
        by_cases ht : t = s
        · subst ht; simp [hs]
        · simp [ht]

omit hk h ha in
theorem problemSection_eq {α : Type} (title : Str) (has : α → Bool) (name body : α → Str) (l : List α) :
    (if (false = true) ∨ l.filter has = [] then [] else MdOut.headline title) ++
      (l.filter has).flatMap (fun a => MdOut.subHeadline (name a) ++ body a) =
    problemSection title ((l.filter has).map fun a => (name a, body a)) := by
  unfold problemSection
  by_cases hl : l.filter has = []
  · simp [hl]
  · have : (l.filter has).map (fun a => (name a, body a)) ≠ [] := by simpa using hl
    rw [if_neg (by simp [hl]), if_neg this, List.flatMap_map]
    simp only [MdOut.headline, MdOut.subHeadline]

/-- The text of the Markdown report. -/
theorem markdown_report (env : FmtEnv) :
    ∃ (tracing : Str) (link : RequirementId → Str) (full : RequirementId → Str),
      Fmt.tracing env tg .markdown = put (
        problemSection c!"Input Errors" ((g.artefacts.values.filter (fun a => !a.errors.isEmpty)).map fun a =>
          (a.id, a.errors.flatMap (MdOut.errorText env))) ++
        tracing ++
        problemSection c!"Uncovered Requirements" ((tg.tracedRelations.filter (fun tr => !tr.uncovered.isEmpty)).map
          fun tr => (tr.relation.display, tr.uncovered.flatMap link)) ++
        problemSection c!"Derived Requirements" ((tg.derived.entries.filter (fun e => !e.2.isEmpty)).map
          fun e => (e.1, e.2.flatMap link)) ++
        c!"\n\n# Requirements\n\n" ++ g.artefacts.values.flatMap (fun a =>
          c!"## " ++ a.id ++ c!"\n" ++ a.requirements.keys.flatMap full)) ∧
      tracing = (MdOut.tracingErrors env tg.errors).text ∧
      (tg.errors = [] → tracing = []) ∧
      (tg.errors ≠ [] → ∃ texts : List Str, tracing = c!"\n\n# Tracing Errors\n\n" ++ texts.flatten ∧ texts.Nodup ∧
        texts.Sublist (tg.errors.map (MdOut.errorText env)) ∧
        ∀ t, t ∈ texts ↔ ∃ e ∈ tg.errors, MdOut.errorText env e = t) ∧
      ∀ a art id r, g.artefacts.get a = some art → art.requirements.get id = some r →
        ∃ rt, ag.requirements.get id = some rt ∧ rt.requirement.id = id ∧
          link id = c!"*   " ++ MdOut.requirementLink env rt.requirement ++ c!"\n" ∧
          full id = MdOut.tracedRequirement env rt := by
  obtain ⟨f1, _⟩ := C11_frame hk h
  have htg : ag.tracedGraph = tg := (aggregated hk h ha).2.1
  let link (id : RequirementId) : Str := match ag.requirements.get id with
    | some rt => c!"*   " ++ MdOut.requirementLink env rt.requirement ++ c!"\n"
    | none => []
  let full (id : RequirementId) : Str := match ag.requirements.get id with
    | some rt => MdOut.tracedRequirement env rt
    | none => []
  have hlink : ∀ id rt, ag.requirements.get id = some rt → MdOut.linkItem env ag id = put (link id) := by
    intro id rt hrt
    simp only [MdOut.linkItem, link, hrt, orPanic, Out.bind, Out.line, put]
  refine ⟨(MdOut.tracingErrors env tg.errors).text, link, full, ?_, rfl, ?_, ?_, ?_⟩
  · show Out.bind (aggregate tg) (MdOut.tracing env) = _
    rw [ha]
    show MdOut.tracing env ag = _
    have e1 : MdOut.inputErrors env tg.artefacts = put (problemSection c!"Input Errors"
        ((g.artefacts.values.filter (fun a => !a.errors.isEmpty)).map fun a =>
          (a.id, a.errors.flatMap (MdOut.errorText env)))) := by
      unfold MdOut.inputErrors
      rw [MdOut.section_ok _ _ _ (fun a : Artefact => MdOut.subHeadline a.id ++ a.errors.flatMap (MdOut.errorText env))
        false, problemSection_eq, f1]
      intro a _ _; rfl
    have e2 : (MdOut.tracingErrors env tg.errors).panic = none := by
      unfold MdOut.tracingErrors Out.when; split <;> rfl
    have e3 : MdOut.uncovered env ag = put (problemSection c!"Uncovered Requirements"
        ((tg.tracedRelations.filter (fun tr => !tr.uncovered.isEmpty)).map
          fun tr => (tr.relation.display, tr.uncovered.flatMap link))) := by
      unfold MdOut.uncovered
      rw [htg, MdOut.section_ok _ _ _ (fun tr : TracedRelation => MdOut.subHeadline tr.relation.display ++
        tr.uncovered.flatMap link) false, problemSection_eq]
      intro tr htr _
      obtain ⟨art, hart, hu⟩ := uncovered_entry hk h htr
      rw [Out.all_map_ok (t := link)]
      · rfl
      · intro id hid
        obtain ⟨r, hr, _⟩ := hu id hid
        obtain ⟨rt, hrt, _⟩ := aggregated_get hk h ha hart hr
        exact hlink id rt hrt
    have e4 : MdOut.derived env ag = put (problemSection c!"Derived Requirements"
        ((tg.derived.entries.filter (fun e => !e.2.isEmpty)).map fun e => (e.1, e.2.flatMap link))) := by
      unfold MdOut.derived
      rw [htg, MdOut.section_ok _ _ _ (fun e : ArtefactId × List RequirementId => MdOut.subHeadline e.1 ++
        e.2.flatMap link) false, problemSection_eq]
      intro e he _
      obtain ⟨art, hart, hd⟩ := derived_entry hk h he
      rw [Out.all_map_ok (t := link)]
      · rfl
      · intro id hid
        obtain ⟨r, hr, _⟩ := hd id hid
        obtain ⟨rt, hrt, _⟩ := aggregated_get hk h ha hart hr
        exact hlink id rt hrt
    have e5 : MdOut.allTraced env ag = put (c!"\n\n# Requirements\n\n" ++ g.artefacts.values.flatMap (fun a =>
          c!"## " ++ a.id ++ c!"\n" ++ a.requirements.keys.flatMap full)) := by
      unfold MdOut.allTraced
      rw [htg, f1, Out.all_map_ok (t := fun a : Artefact => c!"## " ++ a.id ++ c!"\n" ++ a.requirements.keys.flatMap full)]
      · rfl
      · intro a ha'
        obtain ⟨k, hk'⟩ := (BMap.mem_values_iff _ _).1 ha'
        rw [Out.all_map_ok (t := full)]
        · rfl
        · intro id hid
          obtain ⟨r, hr⟩ := (BMap.mem_keys_iff _ _).1 hid
          obtain ⟨rt, hrt, _⟩ := aggregated_get hk h ha (by rw [f1]; exact hk') hr
          simp only [hrt, orPanic, Out.bind, full]
    unfold MdOut.tracing
    rw [htg, e1, e3, e4, e5, Out.eq_put e2]
    simp only [all, Out.seq_put_put, List.append_assoc, List.append_nil]
    rfl
  · intro he; rw [he]; rfl
  · intro he
    obtain ⟨h1, h2, h3⟩ := echoOnce_spec [] (tg.errors.map (MdOut.errorText env))
    refine ⟨_, ?_, h1, h3, ?_⟩
    · unfold MdOut.tracingErrors Out.when
      rw [if_pos (by simpa using he)]
      rfl
    · intro t
      rw [h2]
      simp
  · intro a art id r hart hr
    obtain ⟨rt, hrt, hid, _⟩ := aggregated_get hk h ha (by rw [f1]; exact hart) hr
    exact ⟨rt, hrt, hid, by simp only [link, hrt], by simp only [full, hrt]⟩

/-- **C54** for the Markdown report: its text.  It has a section for each kind of problem that occurs, the
sections list all problems of the kind, and the text of a tracing error is written once. -/
theorem C54_markdown_report (env : FmtEnv) :
    ∃ (tracing : Str) (link : RequirementId → Str) (full : RequirementId → Str),
      Fmt.tracing env tg .markdown = put (
        problemSection c!"Input Errors" ((g.artefacts.values.filter (fun a => !a.errors.isEmpty)).map fun a =>
          (a.id, a.errors.flatMap (MdOut.errorText env))) ++
        tracing ++
        problemSection c!"Uncovered Requirements" ((tg.tracedRelations.filter (fun tr => !tr.uncovered.isEmpty)).map
          fun tr => (tr.relation.display, tr.uncovered.flatMap link)) ++
        problemSection c!"Derived Requirements" ((tg.derived.entries.filter (fun e => !e.2.isEmpty)).map
          fun e => (e.1, e.2.flatMap link)) ++
        c!"\n\n# Requirements\n\n" ++ g.artefacts.values.flatMap (fun a =>
          c!"## " ++ a.id ++ c!"\n" ++ a.requirements.keys.flatMap full)) ∧
      (tg.errors = [] → tracing = []) ∧
      (tg.errors ≠ [] → ∃ texts : List Str, tracing = c!"\n\n# Tracing Errors\n\n" ++ texts.flatten ∧ texts.Nodup ∧
        texts.Sublist (tg.errors.map (MdOut.errorText env)) ∧
        ∀ t, t ∈ texts ↔ ∃ e ∈ tg.errors, MdOut.errorText env e = t) ∧
      ∀ a art id r, g.artefacts.get a = some art → art.requirements.get id = some r →
        ∃ rt, ag.requirements.get id = some rt ∧ rt.requirement.id = id ∧
          link id = c!"*   " ++ MdOut.requirementLink env rt.requirement ++ c!"\n" ∧
          full id = MdOut.tracedRequirement env rt := by
  obtain ⟨t, l, f, h1, _, h2⟩ := markdown_report hk h ha env
  exact ⟨t, l, f, h1, h2⟩

end

/-- **C53 as listed**: both reports of a trace return. -/
def C53_statement : Prop :=
  ∀ env g tg, Keyed g → trace g = .ok tg → (Fmt.tracing env tg .gnuError).panic = none ∧
    (Fmt.tracing env tg .markdown).panic = none

/-- C53 is false as listed: with a relation from an empty artefact to an unknown one, tracing returns and the
Markdown report does not.  (`Controller::new` does not let such a relation pass, see C18.) -/
theorem C53_false : ¬ C53_statement := by
  intro h
  have := (h FmtEnv.example Example.emptyUpper (traced Example.emptyUpper)
    (Example.keyed_of_check (by decide +kernel)) (by decide +kernel)).2
  revert this
  decide +kernel

/-- **C53** for graphs whose relations name existing artefacts. -/
theorem C53_no_panic_partial (env : FmtEnv) {g : Graph} {tg : TracedGraph} (hk : Keyed g) (h : trace g = .ok tg)
    (hr : RelationsExist g) : (Fmt.tracing env tg .gnuError).panic = none ∧
      (Fmt.tracing env tg .markdown).panic = none := by
  obtain ⟨ag, ha⟩ := (C14_aggregate_ok_iff_partial hk h).2 hr
  obtain ⟨_, _, _, h1, _⟩ := C54_markdown_report hk h ha env
  exact ⟨C53_gnu_partial hk h env, by rw [h1]; rfl⟩

/-- The example graph, with problems of every kind, meets the hypotheses. -/
example : Keyed Example.graph ∧ trace Example.graph = .ok (traced Example.graph) ∧ RelationsExist Example.graph := by
  refine ⟨Example.graph_keyed, by decide +kernel, ?_⟩
  have : ∀ rel ∈ Example.graph.relations, (Example.graph.artefacts.get rel.upper).isSome = true ∧
      ∀ a ∈ rel.lower, (Example.graph.artefacts.get a).isSome = true := by decide +kernel
  intro rel hrel
  exact ⟨Option.isSome_iff_exists.1 (this rel hrel).1, fun a ha => Option.isSome_iff_exists.1 ((this rel hrel).2 a ha)⟩

/-! ## C54: what the texts mention -/

theorem intercalate_cons {α : Type} (sep a : List α) (l : List (List α)) :
    List.intercalate sep (a :: l) = a ++ l.flatMap (fun b => sep ++ b) := by
  induction l generalizing a with
  | nil => simp [List.intercalate]
  | cons b l ih =>
    have := ih b
    simp only [List.intercalate, List.intersperse_cons₂, List.flatten_cons, List.flatMap_cons, List.append_assoc] at this ⊢
    rw [this]

theorem joinStr_intercalate (sep : Str) (l : List Str) : joinStr sep l = List.intercalate sep l := by
  induction l with
  | nil => rfl
  | cons a l ih =>
    cases l with
    | nil => simp [joinStr, List.intercalate]
    | cons b l =>
      rw [joinStr, ih, intercalate_cons, intercalate_cons]
      simp

theorem relation_display (rel : Relation) : rel.display = relationText rel := by
  unfold Relation.display relationText
  rw [joinStr_intercalate]

/-- Finds a text in a concatenation. -/
syntax "infixed" : tactic
macro_rules
  | `(tactic| infixed) => `(tactic| first
    | with_reducible exact List.infix_refl _
    | (with_reducible refine List.infix_append_of_infix_left ?_; infixed)
    | (with_reducible refine List.infix_append_of_infix_right ?_; infixed))

/-- **C54** The text for an error in the GNU-error report names its places and what it is about. -/
theorem C54_gnu_mentions (env : FmtEnv) (e : Error) :
    (∀ loc ∈ places e, loc.display <:+: GnuErr.errorText env e) ∧
    (∀ s ∈ subjects e, s <:+: GnuErr.errorText env e) := by
  constructor <;> intro x hx <;> cases e <;>
    simp only [places, subjects, List.mem_cons, List.not_mem_nil, or_false] at hx <;>
    first
    | (subst hx; unfold GnuErr.errorText; infixed)
    | (rcases hx with rfl | rfl <;> (unfold GnuErr.errorText; infixed))

theorem link_mentions (env : FmtEnv) (r : Requirement) : r.id <:+: MdOut.requirementLink env r := by
  unfold MdOut.requirementLink
  cases r.title <;> infixed

/-- **C54** The text for an error in the Markdown report names its places and what it is about. -/
theorem C54_markdown_mentions (env : FmtEnv) (e : Error) :
    (∀ loc ∈ places e, loc.display <:+: MdOut.errorText env e ∨ MdOut.locationLink loc <:+: MdOut.errorText env e) ∧
    (∀ s ∈ subjects e ++ mdSubjects e, s <:+: MdOut.errorText env e) := by
  have hl : ∀ (r : Requirement) (t : Str), MdOut.requirementLink env r <:+: t → r.id <:+: t :=
    fun r t h => (link_mentions env r).trans h
  constructor <;> intro x hx <;> cases e <;>
    simp only [places, subjects, mdSubjects, ← relation_display, List.mem_cons, List.not_mem_nil, or_false, List.mem_append,
      List.append_nil, List.nil_append, List.cons_append] at hx <;>
    first
    | (subst hx; unfold MdOut.errorText; first | infixed | exact .inl (by infixed) | exact .inr (by infixed) |
        exact hl _ _ (by infixed))
    | (rcases hx with rfl | rfl <;> (unfold MdOut.errorText; first | infixed | exact .inr (by infixed) |
        exact hl _ _ (by infixed)))
    | (rcases hx with rfl | rfl | rfl | rfl <;> (unfold MdOut.errorText; first | infixed | exact hl _ _ (by infixed)))

/-- The places, in the link form, name file and line. -/
theorem C54_location_link (loc : Location) : loc.file <:+: MdOut.locationLink loc ∧
    ∀ p, loc.locationInFile = some p → p.display <:+: MdOut.locationLink loc := by
  constructor
  · unfold MdOut.locationLink; simp only; split <;> infixed
  · intro p hp
    unfold MdOut.locationLink
    rw [hp]
    cases p with
    | line l => simp only [LocationInFile.display]; infixed
    | string s => simp only [LocationInFile.display]; infixed
    | lineAndColumn l c =>
      simp only [LocationInFile.display]
      refine ⟨c!"[" ++ loc.file ++ c!":", c!"](../" ++ loc.file ++ c!"?plain=1#L" ++ natStr l ++ c!")", ?_⟩
      simp only [List.append_assoc]

/-- Two of the places in an actual text. -/
example : places (.duplicateRequirement Example.l1 Example.l1') = [Example.loc 0, Example.loc 0] ∧
    MdOut.errorText FmtEnv.example (.coversUnknownRequirement Example.l1 c!"Y" (Example.loc 3)) =
      c!"*   [L1](#l1-low \"low\") covers unknown Requirement Y\n    [f:3](../f?plain=1#L3)\n" := by
  decide +kernel

theorem infix_flatMap {α : Type} {f : α → Str} {l : List α} {a : α} (h : a ∈ l) : f a <:+: l.flatMap f := by
  obtain ⟨s, t, rfl⟩ := List.append_of_mem h
  exact ⟨s.flatMap f, t.flatMap f, by simp⟩

theorem infix_problemSection {title : Str} {parts : List (Str × Str)} {p : Str × Str} (h : p ∈ parts) :
    p.2 <:+: problemSection title parts := by
  unfold problemSection
  rw [if_neg (by rintro rfl; cases h)]
  refine List.infix_append_of_infix_right ?_
  refine List.IsInfix.trans ?_ (infix_flatMap (f := fun p : Str × Str => c!"\n## " ++ p.1 ++ c!"\n\n" ++ p.2) h)
  infixed

/-- **C54** Everything that is wrong is in both reports. -/
theorem C54_all_problems (env : FmtEnv) {g : Graph} {tg : TracedGraph} (hk : Keyed g) (h : trace g = .ok tg)
    (hr : RelationsExist g) :
    ∃ gnu md, Fmt.tracing env tg .gnuError = put gnu ∧ Fmt.tracing env tg .markdown = put md ∧
      (∀ e, e ∈ errorsOf g.artefacts ∨ e ∈ tg.errors →
        GnuErr.errorText env e <:+: gnu ∧ MdOut.errorText env e <:+: md) ∧
      (∀ tr ∈ tg.tracedRelations, ∀ id ∈ tr.uncovered, ∃ art r, g.artefacts.get tr.relation.upper = some art ∧
        art.requirements.get id = some r ∧ r.location.display ++ c!": " ++ id ++ c!" Uncovered\n" <:+: gnu ∧
        c!"*   [" ++ id ++ c!"](#" <:+: md) ∧
      (∀ a ids, tg.derived.get a = some ids → ∀ id ∈ ids, ∃ art r, g.artefacts.get a = some art ∧
        art.requirements.get id = some r ∧ r.location.display ++ c!": " ++ id ++ c!" Derived\n" <:+: gnu ∧
        c!"*   [" ++ id ++ c!"](#" <:+: md) := by
  obtain ⟨f1, _⟩ := C11_frame hk h
  obtain ⟨ag, ha⟩ := (C14_aggregate_ok_iff_partial hk h).2 hr
  obtain ⟨unc, der, hg, hgt⟩ := C54_gnu_report hk h env
  obtain ⟨tracing, link, full, hm, ht0, ht1, hlink⟩ := C54_markdown_report hk h ha env
  have hlink' : ∀ a art id r, g.artefacts.get a = some art → art.requirements.get id = some r →
      c!"*   [" ++ id ++ c!"](#" <:+: link id := by
    intro a art id r h1 h2
    obtain ⟨rt, _, hid, hl, _⟩ := hlink a art id r h1 h2
    rw [hl]
    refine List.infix_append_of_infix_left ?_
    unfold MdOut.requirementLink
    cases rt.requirement.title with
    | none => exact ⟨[], MdOut.anchorText env rt.requirement.id ++ c!")", by simp [hid]⟩
    | some t => exact ⟨[], MdOut.anchorText env (rt.requirement.id ++ c!"-" ++ t) ++ c!" \"" ++ t ++ c!"\")", by simp [hid]⟩
  refine ⟨_, _, hg, hm, ?_, ?_, ?_⟩
  · intro e he
    rcases he with he | he
    · refine ⟨(infix_flatMap (f := GnuErr.errorText env) he).trans (by infixed), ?_⟩
      unfold errorsOf at he
      obtain ⟨⟨a, art⟩, h1, h2⟩ := List.mem_flatMap.1 he
      have h3 : art ∈ g.artefacts.values.filter (fun a => !a.errors.isEmpty) :=
        List.mem_filter.2 ⟨List.mem_map.2 ⟨_, h1, rfl⟩, by
          have h2 : e ∈ art.errors := h2
          cases hh : art.errors with
          | nil => rw [hh] at h2; cases h2
          | cons _ _ => rfl⟩
      have h4 := infix_problemSection (title := c!"Input Errors") (List.mem_map.2 ⟨art, h3, rfl⟩ :
        (art.id, art.errors.flatMap (MdOut.errorText env)) ∈
          (g.artefacts.values.filter (fun a => !a.errors.isEmpty)).map fun a => (a.id, a.errors.flatMap (MdOut.errorText env)))
      exact ((infix_flatMap (f := MdOut.errorText env) h2).trans h4).trans (by infixed)
    · refine ⟨(infix_flatMap (f := GnuErr.errorText env) he).trans (by infixed), ?_⟩
      obtain ⟨texts, h1, _, _, h2⟩ := ht1 (by rintro h0; rw [h0] at he; cases he)
      have h3 := (h2 _).2 ⟨e, he, rfl⟩
      have h4 : MdOut.errorText env e <:+: tracing := by
        rw [h1, ← List.flatMap_id]
        exact (infix_flatMap (f := id) h3).trans (List.infix_append_of_infix_right (List.infix_refl _))
      exact h4.trans (by infixed)
  · intro tr htr id hid
    obtain ⟨art, hart, hu⟩ := uncovered_entry hk h htr
    obtain ⟨r, hr', hrid⟩ := hu id hid
    rw [f1] at hart
    refine ⟨art, r, hart, hr', ?_, ?_⟩
    · rw [← (hgt _ art id r hart hr').1]
      have h1 := infix_flatMap (f := unc tr.relation.upper) hid
      have h2 := infix_flatMap (f := fun tr : TracedRelation => c!"## " ++ tr.relation.display ++ c!"\n" ++
        tr.uncovered.flatMap (unc tr.relation.upper)) htr
      exact ((h1.trans (by infixed)).trans h2).trans (by infixed)
    · have h1 := (hlink' _ art id r hart hr').trans (infix_flatMap (f := link) hid)
      have h3 : tr ∈ tg.tracedRelations.filter (fun tr => !tr.uncovered.isEmpty) :=
        List.mem_filter.2 ⟨htr, by
          cases hh : tr.uncovered with
          | nil => rw [hh] at hid; cases hid
          | cons _ _ => rfl⟩
      have h4 := infix_problemSection (title := c!"Uncovered Requirements") (List.mem_map.2 ⟨tr, h3, rfl⟩ :
        (tr.relation.display, tr.uncovered.flatMap link) ∈
          (tg.tracedRelations.filter (fun tr => !tr.uncovered.isEmpty)).map
            fun tr => (tr.relation.display, tr.uncovered.flatMap link))
      exact (h1.trans h4).trans (by infixed)
  · intro a ids hids id hid
    have hent := (BMap.get_eq_some_iff _ _ _).1 hids
    obtain ⟨art, hart, hd⟩ := derived_entry hk h hent
    obtain ⟨r, hr', hrid⟩ := hd id hid
    rw [f1] at hart
    refine ⟨art, r, hart, hr', ?_, ?_⟩
    · rw [← (hgt _ art id r hart hr').2]
      have h1 := infix_flatMap (f := der a) hid
      have h2 := infix_flatMap (f := fun e : ArtefactId × List RequirementId => c!"## " ++ e.1 ++ c!"\n" ++
        e.2.flatMap (der e.1)) hent
      exact ((h1.trans (by infixed)).trans h2).trans (by infixed)
    · have h1 := (hlink' _ art id r hart hr').trans (infix_flatMap (f := link) hid)
      have h3 : (a, ids) ∈ tg.derived.entries.filter (fun e => !e.2.isEmpty) :=
        List.mem_filter.2 ⟨hent, by
          cases hh : ids with
          | nil => rw [hh] at hid; cases hid
          | cons _ _ => rfl⟩
      have h4 := infix_problemSection (title := c!"Derived Requirements") (List.mem_map.2 ⟨(a, ids), h3, rfl⟩ :
        (a, ids.flatMap link) ∈
          (tg.derived.entries.filter (fun e => !e.2.isEmpty)).map fun e => (e.1, e.2.flatMap link))
      exact (h1.trans h4).trans (by infixed)

/-! ## C56 -/

theorem keep_iff (c : Char) : MdOut.keep c = true ↔ AnchorChar c := by
  unfold MdOut.keep AnchorChar Char.isAlphanum Char.isAlpha Char.isUpper Char.isLower Char.isDigit
  simp only [Bool.or_eq_true, decide_eq_true_eq, Bool.and_eq_true, beq_iff_eq, ge_iff_le, UInt32.le_iff_toNat_le,
    Char.le_def]
  constructor
  · rintro ((((h | h) | h) | h) | h)
    · exact .inr (.inl h)
    · exact .inl h
    · exact .inr (.inr (.inl h))
    · exact .inr (.inr (.inr (.inl h)))
    · exact .inr (.inr (.inr (.inr h)))
  · rintro (h | h | h | h | h)
    · exact .inl (.inl (.inl (.inr h)))
    · exact .inl (.inl (.inl (.inl h)))
    · exact .inl (.inl (.inr h))
    · exact .inl (.inr h)
    · exact .inr h

theorem anchorText_chars (env : FmtEnv) (s : Str) : ∀ c ∈ MdOut.anchorText env s, AnchorChar c := by
  intro c hc
  exact (keep_iff c).1 (List.mem_filter.1 hc).2

/-- **C56** A link to a requirement has an anchor that is determined by id and title and consists of letters,
digits, `_` and `-`. -/
theorem C56_anchor (env : FmtEnv) :
    ∃ anchor : RequirementId → Option Str → Str,
      (∀ id title, ∀ c ∈ anchor id title, AnchorChar c) ∧
      ∀ r : Requirement, MdOut.requirementLink env r = c!"[" ++ r.id ++ c!"](#" ++ anchor r.id r.title ++
        (match r.title with
          | some t => c!" \"" ++ t ++ c!"\")"
          | none => c!")") := by
  refine ⟨fun id title => MdOut.anchorText env (id ++ (match title with
    | some t => c!"-" ++ t
    | none => [])), fun id title => anchorText_chars env _, ?_⟩
  intro r
  unfold MdOut.requirementLink
  cases r.title with
  | none => simp
  | some t => simp

example : MdOut.requirementLink FmtEnv.example
    (Example.req c!"REQ_1" (some c!"Größe: 5 (max)") [] []) =
    c!"[REQ_1](#req_1-gre-5-max \"Größe: 5 (max)\")" := by decide +kernel

/-! ## C63, C64: which section a link leads to -/

theorem ascii_forall {p : Char → Prop} (h : ∀ n < 128, p (Char.ofNat n)) {c : Char} (hc : c.toNat < 128) : p c := by
  have := h c.toNat hc
  rwa [Char.ofNat_toNat] at this

theorem toLower_ascii {c : Char} (h : c.toNat < 128) : c.toLower.toNat < 128 :=
  ascii_forall (p := fun c => c.toLower.toNat < 128) (by decide +kernel) h

/-- The anchor of a requirement as the link gives it. -/
def linkAnchor (env : FmtEnv) (r : Requirement) : Str :=
  MdOut.anchorText env (r.id ++ (match r.title with
    | some t => c!"-" ++ t
    | none => []))

theorem linkAnchor_chars (env : FmtEnv) (r : Requirement) : ∀ c ∈ linkAnchor env r, c ≠ ' ' ∧ c ≠ ')' := by
  intro c hc
  have := anchorText_chars env _ c hc
  constructor <;> (rintro rfl; exact absurd ((keep_iff _).2 this) (by decide))

/-- It is the anchor in the link. -/
theorem linkAnchor_spec (env : FmtEnv) (r : Requirement) :
    LinksTo (MdOut.requirementLink env r) r.id (linkAnchor env r) := by
  refine ⟨linkAnchor_chars env r, ?_⟩
  unfold MdOut.requirementLink linkAnchor
  cases r.title with
  | none => left; simp
  | some t => right; exact ⟨t, by simp⟩

/-- A link has only one anchor. -/
theorem Spec.LinksTo.unique {text label a b : Str} (h1 : LinksTo text label a) (h2 : LinksTo text label b) : a = b := by
  have key : ∀ x, LinksTo text label x →
      ((text.drop (label.length + 4)).takeWhile (fun c => c != ' ' && c != ')')) = x := by
    rintro x ⟨hx, e⟩
    have aux : ∀ rest : Str, text = c!"[" ++ label ++ c!"](#" ++ x ++ rest →
        (rest.takeWhile (fun c => c != ' ' && c != ')')) = [] →
        ((text.drop (label.length + 4)).takeWhile (fun c => c != ' ' && c != ')')) = x := by
      intro rest e hrest
      have : text.drop (label.length + 4) = x ++ rest := by
        rw [e]
        have : label.length + 4 = (c!"[" ++ label ++ c!"](#").length := by simp
        rw [this, List.append_assoc _ x, List.drop_left]
      rw [this, List.takeWhile_append_of_pos, hrest, List.append_nil]
      intro c hc
      have := hx c hc
      simp [this.1, this.2]
    rcases e with e | ⟨tip, e⟩
    · exact aux _ e (by decide)
    · exact aux (c!" \"" ++ tip ++ c!"\")") (by rw [e]; simp) rfl
  rw [← key a h1, ← key b h2]

/-- **C63 as listed**: the anchor of the link is the one that the section heading of the requirement gets. -/
def C63_statement : Prop :=
  ∀ (env : FmtEnv) (isWord : Char → Bool), (∀ c : Char, c.toNat < 128 → isWord c = (c.isAlphanum || c == '_')) →
    ∀ r : Requirement, LinksTo (MdOut.requirementLink env r) r.id (headingAnchor env.lower isWord (headingText r))

/-- C63 is false as listed: a letter outside ASCII stays in the anchor of a heading. -/
theorem C63_false : ¬ C63_statement := by
  intro h
  have := h FmtEnv.example (fun c => c.isAlphanum || c == '_' || c == 'ö') (by
    intro c hc
    have : (c == 'ö') = false := by
      rw [beq_eq_false_iff_ne]; rintro rfl; revert hc; decide
    rw [this, Bool.or_false]) (Example.req c!"R" (some c!"Größe") [] [])
  have := (linkAnchor_spec FmtEnv.example _).unique this
  revert this
  decide +kernel

/-- **C63** for requirements in ASCII. -/
theorem C63_anchor_partial (env : FmtEnv) (isWord : Char → Bool)
    (hw : ∀ c : Char, c.toNat < 128 → isWord c = (c.isAlphanum || c == '_')) (r : Requirement)
    (hid : ∀ c ∈ r.id, c.toNat < 128) (ht : ∀ t, r.title = some t → ∀ c ∈ t, c.toNat < 128) :
    LinksTo (MdOut.requirementLink env r) r.id (headingAnchor env.lower isWord (headingText r)) := by
  suffices e : linkAnchor env r = headingAnchor env.lower isWord (headingText r) by
    rw [← e]; exact linkAnchor_spec env r
  have key : ∀ s : Str, (∀ c ∈ s, c.toNat < 128) →
      ((s.map Char.toLower).map (fun c => if c == ' ' then '-' else c)).filter MdOut.keep =
      ((s.map Char.toLower).filter (fun c => isWord c || c == '-' || c == ' ')).map
        (fun c => if c = ' ' then '-' else c) := by
    intro s hs
    rw [List.filter_map]
    simp only [beq_iff_eq]
    congr 1
    refine List.filter_congr ?_
    intro c hc
    obtain ⟨d, hd, rfl⟩ := List.mem_map.1 hc
    have hd' := toLower_ascii (hs d hd)
    rw [hw _ hd']
    exact ascii_forall (p := fun c => (MdOut.keep ∘ fun c => if c = ' ' then '-' else c) c =
      (c.isAlphanum || c == '_' || c == '-' || c == ' ')) (by decide +kernel) hd'
  unfold linkAnchor headingAnchor headingText MdOut.anchorText
  cases htt : r.title with
  | none =>
    simp only [List.append_nil]
    rw [env.lower_ascii _ hid]
    exact key _ hid
  | some t =>
    have ht' := ht t htt
    have h1 : ∀ c ∈ r.id ++ (c!"-" ++ t), c.toNat < 128 := by
      intro c hc
      rcases List.mem_append.1 hc with hc | hc
      · exact hid c hc
      · rcases List.mem_append.1 hc with hc | hc
        · rw [List.mem_singleton.1 hc]; decide
        · exact ht' c hc
    have h2 : ∀ c ∈ r.id ++ (c!": " ++ t), c.toNat < 128 := by
      intro c hc
      rcases List.mem_append.1 hc with hc | hc
      · exact hid c hc
      · rcases List.mem_append.1 hc with hc | hc
        · rcases List.mem_cons.1 hc with rfl | hc
          · decide
          · rw [List.mem_singleton.1 hc]; decide
        · exact ht' c hc
    simp only
    rw [env.lower_ascii _ h1, env.lower_ascii _ h2, key _ h1]
    have hcol : isWord ':' = false := by rw [hw _ (by decide)]; decide
    simp only [List.map_append, List.filter_append]
    congr 2
    have e1 : List.map Char.toLower c!"-" = c!"-" := by decide
    have e2 : List.map Char.toLower c!": " = c!": " := by decide
    rw [e1, e2]
    simp [hcol]

/-- `headingText` is what the report has as heading. -/
theorem C63_heading (env : FmtEnv) (rt : RequirementTrace) :
    ∃ rest, MdOut.tracedRequirement env rt = c!"\n### " ++ headingText rt.requirement ++ c!"\n" ++ rest := by
  unfold MdOut.tracedRequirement headingText
  cases rt.requirement.title <;>
    (apply Exists.intro; simp only [List.append_assoc, List.nil_append, List.append_cancel_left_eq]; rfl)

/-- The heading `REQ_1: a (b)` has the anchor that the link names. -/
example : linkAnchor FmtEnv.example (Example.req c!"REQ_1" (some c!"a (b)") [] []) = c!"req_1-a-b" ∧
    headingAnchor FmtEnv.example.lower (fun c => c.isAlphanum || c == '_')
      (headingText (Example.req c!"REQ_1" (some c!"a (b)") [] [])) = c!"req_1-a-b" := by decide +kernel

/-- **C64 as listed**: links to requirements with different ids lead to different places. -/
def C64_statement : Prop :=
  ∀ (env : FmtEnv) (r s : Requirement) (anchor : Str), LinksTo (MdOut.requirementLink env r) r.id anchor →
    LinksTo (MdOut.requirementLink env s) s.id anchor → r.id = s.id

/-- C64 is false as listed: case and characters outside ASCII do not count, and a title looks like part of an id. -/
theorem C64_false : ¬ C64_statement ∧
    MdOut.requirementLink FmtEnv.example (Example.req c!"REQ_ä" none [] []) = c!"[REQ_ä](#req_)" ∧
    MdOut.requirementLink FmtEnv.example (Example.req c!"REQ_ö" none [] []) = c!"[REQ_ö](#req_)" ∧
    MdOut.requirementLink FmtEnv.example (Example.req c!"A-B" none [] []) = c!"[A-B](#a-b)" ∧
    MdOut.requirementLink FmtEnv.example (Example.req c!"A" (some c!"B") [] []) = c!"[A](#a-b \"B\")" := by
  refine ⟨?_, by decide +kernel, by decide +kernel, by decide +kernel, by decide +kernel⟩
  intro h
  have := h FmtEnv.example (Example.req c!"R" none [] []) (Example.req c!"r" none [] []) _ (linkAnchor_spec _ _)
    (by
      have e : linkAnchor FmtEnv.example (Example.req c!"R" none [] []) =
        linkAnchor FmtEnv.example (Example.req c!"r" none [] []) := by decide +kernel
      rw [e]; exact linkAnchor_spec _ _)
  revert this
  decide +kernel

theorem anchorChar_ascii {c : Char} (hc : AnchorChar c) : c.toNat < 128 := by
  unfold AnchorChar at hc
  simp only [Char.le_def, UInt32.le_iff_toNat_le] at hc
  have e1 : 'z'.val.toNat = 122 := rfl
  have e2 : 'Z'.val.toNat = 90 := rfl
  have e3 : '9'.val.toNat = 57 := rfl
  have e4 : c.toNat = c.val.toNat := rfl
  rcases hc with hc | hc | hc | rfl | rfl
  · omega
  · omega
  · omega
  · decide
  · decide

/-- The anchor of an id without special characters starts with the id. -/
theorem linkAnchor_word (env : FmtEnv) (r : Requirement) (h : ∀ c ∈ r.id, AnchorChar c) :
    ∃ rest, linkAnchor env r = r.id.map Char.toLower ++ rest ∧ (r.title = none → rest = []) ∧
      (r.title ≠ none → ∃ t, rest = '-' :: t) := by
  have hascii := @anchorChar_ascii
  have hid : ∀ c ∈ r.id, c.toNat < 128 := fun c hc => hascii (h c hc)
  have hkeep : ∀ s : Str, (∀ c ∈ s, AnchorChar c) →
      ((s.map Char.toLower).map (fun c => if c == ' ' then '-' else c)).filter MdOut.keep = s.map Char.toLower := by
    intro s hs
    induction s with
    | nil => rfl
    | cons c s ih =>
      have hc := hs c (List.mem_cons_self ..)
      have hk := (keep_iff c).2 hc
      have : (if c.toLower == ' ' then '-' else c.toLower) = c.toLower ∧ MdOut.keep c.toLower = true :=
        ascii_forall (p := fun c => MdOut.keep c = true → (if c.toLower == ' ' then '-' else c.toLower) = c.toLower ∧
          MdOut.keep c.toLower = true) (by decide +kernel) (hascii hc) hk
      simp only [List.map_cons]
      rw [this.1, List.filter_cons_of_pos this.2, ih fun d hd => hs d (List.mem_cons_of_mem _ hd)]
  unfold linkAnchor MdOut.anchorText
  cases r.title with
  | none =>
    refine ⟨[], ?_, fun _ => rfl, fun h => absurd rfl h⟩
    simp only [List.append_nil]
    rw [env.lower_ascii _ hid, hkeep _ h]
  | some t =>
    have hp : ∀ c ∈ r.id ++ c!"-", AnchorChar c := by
      intro c hc
      rcases List.mem_append.1 hc with hc | hc
      · exact h c hc
      · rw [List.mem_singleton.1 hc]; exact .inr (.inr (.inr (.inr rfl)))
    obtain ⟨b', hb⟩ := env.lower_ascii_prefix (r.id ++ c!"-") t (fun c hc => hascii (hp c hc))
    refine ⟨'-' :: ((b'.map (fun c => if c == ' ' then '-' else c)).filter MdOut.keep), ?_, fun h => (nomatch h),
      fun _ => ⟨_, rfl⟩⟩
    simp only
    rw [← List.append_assoc, hb, List.map_append, List.filter_append, hkeep _ hp]
    simp only [List.map_append, List.append_assoc]
    rfl

/-- **C64** for ids of letters, digits and `_` that differ in more than case. -/
theorem C64_distinct_partial (env : FmtEnv) (r s : Requirement)
    (hr : ∀ c ∈ r.id, AnchorChar c ∧ c ≠ '-') (hs : ∀ c ∈ s.id, AnchorChar c ∧ c ≠ '-')
    (hne : r.id.map Char.toLower ≠ s.id.map Char.toLower) (anchor : Str) :
    ¬ (LinksTo (MdOut.requirementLink env r) r.id anchor ∧ LinksTo (MdOut.requirementLink env s) s.id anchor) := by
  rintro ⟨l1, l2⟩
  have he : linkAnchor env r = linkAnchor env s :=
    ((linkAnchor_spec env r).unique l1).trans ((linkAnchor_spec env s).unique l2).symm
  obtain ⟨x, hx, hx0, hx1⟩ := linkAnchor_word env r fun c hc => (hr c hc).1
  obtain ⟨y, hy, hy0, hy1⟩ := linkAnchor_word env s fun c hc => (hs c hc).1
  have hlow : ∀ c : Char, AnchorChar c ∧ c ≠ '-' → c.toLower ≠ '-' := by
    intro c ⟨hc, hcd⟩
    have : c.toNat < 128 := anchorChar_ascii hc
    exact ascii_forall (p := fun c => c ≠ '-' → c.toLower ≠ '-') (by decide +kernel) this hcd
  have hsplit : ∀ s : Str, (∀ c ∈ s, AnchorChar c ∧ c ≠ '-') → ∀ rest, (rest = [] ∨ ∃ t, rest = '-' :: t) →
      (s.map Char.toLower ++ rest).takeWhile (· != '-') = s.map Char.toLower := by
    intro s hs rest hrest
    rw [List.takeWhile_append_of_pos]
    · rcases hrest with rfl | ⟨t, rfl⟩ <;> simp
    · intro c hc
      obtain ⟨d, hd, rfl⟩ := List.mem_map.1 hc
      simpa using hlow d (hs d hd)
  have hx2 : x = [] ∨ ∃ t, x = '-' :: t := by
    by_cases h : r.title = none
    · exact .inl (hx0 h)
    · exact .inr (hx1 h)
  have hy2 : y = [] ∨ ∃ t, y = '-' :: t := by
    by_cases h : s.title = none
    · exact .inl (hy0 h)
    · exact .inr (hy1 h)
  apply hne
  rw [← hsplit r.id hr x hx2, ← hsplit s.id hs y hy2, ← hx, ← hy, he]

/-- Two such requirements with titles. -/
example : MdOut.requirementLink FmtEnv.example (Example.req c!"REQ_1" (some c!"x") [] []) = c!"[REQ_1](#req_1-x \"x\")" ∧
    MdOut.requirementLink FmtEnv.example (Example.req c!"REQ_2" (some c!"x") [] []) = c!"[REQ_2](#req_2-x \"x\")" := by
  decide +kernel

theorem section_panic {α : Type} (title : Str) (has : α → Bool) (body : α → Out) (hb : ∀ a, (body a).panic = none)
    (l : List α) : ∀ b, (MdOut.section_ title has body b l).panic = none := by
  induction l with
  | nil => intro b; rfl
  | cons a as ih =>
    intro b
    unfold MdOut.section_
    split
    · rw [Out.seq_ok (by unfold Out.when; split <;> rfl), Out.seq_ok (hb a)]
      exact ih true
    · exact ih b

theorem requirements_markdown_panic (env : FmtEnv) (g : Graph) : (Fmt.requirements env g .markdown).panic = none := by
  show (MdOut.requirements env g).panic = none
  unfold MdOut.requirements
  rw [Out.seq_ok]
  · rfl
  · exact section_panic _ _ _ (fun _ => rfl) _ _

end Reqtrace
