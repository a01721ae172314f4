import Verif.Props.Formatters
import Verif.Spec.Report
import Verif.Lemmas.MdSpec

/-!
# Properties C71 and C72: the Markdown reports on each requirement
-/

namespace Reqtrace

open Spec Out

theorem placeLink_eq (loc : Location) : MdOut.locationLink loc = placeLink loc := by
  unfold MdOut.locationLink placeLink
  rcases loc.locationInFile with _ | (_ | _ | _) <;> rfl

theorem description_eq (r : Requirement) : MdOut.description r.attributes = descriptionText r := by
  unfold MdOut.description descriptionText
  cases r.attributes.get c!"Description" <;> rfl

theorem coverageItem_eq (env : FmtEnv) (c : Requirement × Location) :
    MdOut.coverageItem env c = coverageText (MdOut.requirementLink env) c := by
  unfold MdOut.coverageItem coverageText
  rw [placeLink_eq]

theorem blank_iff_trim {s : Str} : Blank s ↔ trim s = [] := by
  constructor
  · intro h
    exact (trimsTo_iff.1 ⟨s, [], by simp, h, by simp [Blank], by simp, by simp⟩).symm
  · intro h
    obtain ⟨a, b, e, ha, hb, -, -⟩ := trimsTo_iff.2 h.symm
    rw [e]
    intro c hc
    simp at hc
    exact hc.elim (ha c) (hb c)

theorem otherAttributes_spec (m : BMap Str Str) : OtherAttributes m.entries (MdOut.otherAttributes m) := by
  unfold MdOut.otherAttributes
  induction m.entries with
  | nil => exact .nil
  | cons e as ih =>
    obtain ⟨a, v⟩ := e
    rw [List.flatMap_cons]
    by_cases h : a = c!"Description"
    · subst h
      simpa using OtherAttributes.description ih
    · by_cases hb : trim v = []
      · simp only [ne_eq, h, not_false_eq_true, if_true, hb, List.isEmpty_nil, List.nil_append]
        exact .blank (blank_iff_trim.2 hb) ih
      · have hb' : (trim v).isEmpty = false := by simpa using hb
        simp only [ne_eq, h, not_false_eq_true, if_true, hb', Bool.false_eq_true, if_false]
        have := OtherAttributes.shown h (trimsTo_iff.2 (rfl : trim v = trim v)) hb ih
        simpa using this

/-- The specification of the attributes leaves no choice. -/
theorem otherAttributes_unique {as : List (Str × Str)} {s t : Str} (h1 : OtherAttributes as s)
    (h2 : OtherAttributes as t) : s = t := by
  induction h1 generalizing t with
  | nil => cases h2; rfl
  | description _ ih =>
    cases h2 with
    | description h2 => exact ih h2
    | blank _ h2 => exact ih h2
    | shown hne => exact absurd rfl hne
  | blank hb _ ih =>
    cases h2 with
    | description h2 => exact ih h2
    | blank _ h2 => exact ih h2
    | shown _ ht hne _ =>
      exact absurd ((trimsTo_iff.1 ht).trans (blank_iff_trim.1 hb)) hne
  | shown hne ht hw _ ih =>
    cases h2 with
    | description _ => exact absurd rfl hne
    | blank hb _ => exact absurd ((trimsTo_iff.1 ht).trans (blank_iff_trim.1 hb)) hw
    | shown _ ht' _ h2 => rw [ih h2, trimsTo_iff.1 ht, trimsTo_iff.1 ht']

/-! ## C72: the list of requirements -/

theorem referenceItem_eq (r : Reference) : MdOut.referenceItem r = referenceText r := by
  unfold MdOut.referenceItem referenceText
  cases r.title <;> simp

theorem references_eq (name : Str) (refs : List Reference) :
    (if refs.isEmpty then [] else c!"\n" ++ name ++ c!":\n" ++ refs.flatMap MdOut.referenceItem) =
      referencesText name refs := by
  unfold referencesText
  have : MdOut.referenceItem = referenceText := funext referenceItem_eq
  cases refs <;> simp [this]

theorem requirementEntry (r : Requirement) : RequirementEntry r (MdOut.requirement r) := by
  refine ⟨_, otherAttributes_spec r.attributes, ?_⟩
  unfold MdOut.requirement
  rw [placeLink_eq, description_eq, ← references_eq c!"Covers", ← references_eq c!"Depends"]
  rfl

/-- **C72** The Markdown list of requirements: the input errors of each artefact that has any, and then all
requirements, sorted by id (equal ids in artefact order), each with everything that is known about it. -/
theorem C72_list (env : FmtEnv) (g : Graph) :
    ∃ (reqs : List Requirement) (entry : Requirement → Str),
      Fmt.requirements env g .markdown = put (
        problemSection c!"Input Errors" ((g.artefacts.values.filter (fun a => !a.errors.isEmpty)).map fun a =>
          (a.id, a.errors.flatMap (MdOut.errorText env))) ++ reqs.flatMap entry) ∧
      (∀ r, RequirementEntry r (entry r)) ∧
      reqs.Perm (requirementsOf g.artefacts) ∧
      reqs.Pairwise (fun r s => compare r.id s.id ≠ .gt) ∧
      ∀ id, reqs.filter (fun r => r.id = id) = (requirementsOf g.artefacts).filter (fun r => r.id = id) := by
  refine ⟨_, MdOut.requirement, ?_, requirementEntry, ?_, sort_sorted Requirement.id (allRequirements g.artefacts), ?_⟩
  · show MdOut.requirements env g = _
    unfold MdOut.requirements MdOut.inputErrors
    rw [MdOut.section_ok _ _ _ (fun a : Artefact => MdOut.subHeadline a.id ++ a.errors.flatMap (MdOut.errorText env))
      false, problemSection_eq]
    · rfl
    · intro a _ _; rfl
  · rw [← allRequirements_eq]; exact sort_perm Requirement.id _
  · intro id; rw [← allRequirements_eq]; exact sort_stable Requirement.id _ id

/-- The specification of an entry leaves no choice. -/
theorem C72_determined {r : Requirement} {s t : Str} (h1 : RequirementEntry r s) (h2 : RequirementEntry r t) :
    s = t := by
  obtain ⟨a, ha, rfl⟩ := h1
  obtain ⟨b, hb, rfl⟩ := h2
  rw [otherAttributes_unique ha hb]

/-! ## C71: the report of a trace -/

theorem BMap.entries_eq {κ ν : Type} [Ord κ] [Std.TransOrd κ] [Std.LawfulEqOrd κ] [DecidableEq κ] (m : BMap κ ν) (f : κ → ν)
    (h : ∀ k v, m.get k = some v → v = f k) : m.entries = m.keys.map fun k => (k, f k) := by
  unfold BMap.keys
  rw [List.map_map]
  conv => lhs; rw [← List.map_id m.entries]
  apply List.map_congr_left
  intro e he
  have := h e.1 e.2 ((BMap.get_eq_some_iff m e.1 e.2).2 he)
  simp [Function.comp, ← this]

theorem establishes_defines {g : Graph} {rel : Relation} {a : ArtefactId} {u l : Requirement} {ref : Reference}
    {d : CoverageDirection} (h : Establishes g rel a u l ref d) : Defines g rel.upper u ∧ Defines g a l := by
  cases h with
  | down hu _ ho _ _ => exact ⟨hu, ho.1⟩
  | up hu _ ho _ _ => exact ⟨hu, ho.1⟩

theorem establishes_lower {g : Graph} {rel : Relation} {a : ArtefactId} {u l : Requirement} {ref : Reference}
    {d : CoverageDirection} (h : Establishes g rel a u l ref d) : a ∈ rel.lower := by
  cases h <;> assumption

theorem flatMap_congr_mem {α β : Type} {f g : α → List β} {l : List α} (h : ∀ a ∈ l, f a = g a) :
    l.flatMap f = l.flatMap g := by
  rw [List.flatMap_def, List.flatMap_def, List.map_congr_left h]

section
variable {g : Graph} {tg : TracedGraph} (hk : Keyed g) (h : trace g = .ok tg)
variable {ag : AggregatedGraph} (ha : aggregate tg = .ok ag) (hu : UniqueIds g)
include hk h ha hu

/-- With unique ids the aggregator finds the requirement, and not one with the same id. -/
theorem aggregated_of_defines {a : ArtefactId} {r : Requirement} (hd : Defines g a r) :
    ∃ rt, ag.requirements.get r.id = some rt ∧ rt.requirement = r ∧ rt.artefact.id = a := by
  obtain ⟨art, h1, h2⟩ := hd
  obtain ⟨f1, _⟩ := C11_frame hk h
  obtain ⟨rt, hrt, hid, b, h3, h4⟩ := aggregated_get hk h ha (f1 ▸ h1) h2
  have hb : a = b := hu a b r rt.requirement ⟨art, h1, h2⟩ ⟨rt.artefact, h3, by rw [hid]; exact h4⟩ hid.symm
  subst hb
  rw [h1] at h3
  cases h3
  rw [h2] at h4
  exact ⟨rt, hrt, (Option.some.inj h4).symm, hk.artefact _ _ h1⟩

omit ha hu in
theorem coveragesAlong_eq (rel : Relation) :
    coveragesAlong tg rel = (g.relations.filter (· = rel)).flatMap fun rel => (relEvents g rel).map Event.coverage := by
  obtain ⟨_, rfl⟩ := (trace_ok_iff hk tg).1 h
  unfold coveragesAlong
  show ((g.relations.map (tracedRelation g)).filter _).flatMap _ = _
  rw [List.filter_map, List.flatMap_map]
  rfl

theorem covers_get {a : ArtefactId} {r : Requirement} (hd : Defines g a r) {rt : RequirementTrace}
    (hrt : ag.requirements.get r.id = some rt) {rel : Relation} {l : List (Requirement × Location)}
    (hl : rt.covers.get rel = some l) : l = coveredOf g rel r := by
  rw [((C15_covers hk h ha hrt rel).2 l hl).1, coveragesAlong_eq hk h]
  unfold coveredOf
  rw [List.filter_flatMap, List.filterMap_flatMap]
  apply flatMap_congr_mem
  intro rel' _
  rw [List.filter_map, List.filterMap_map]
  show List.filterMap _ ((relEvents g rel').filter (fun e => e.lower.id = r.id)) = _
  rw [← List.filterMap_eq_map]
  apply filterMap_congr'
  intro e he
  have hdu := (establishes_defines ((mem_relEvents hk rel' e).1 (List.mem_filter.1 he).1)).1
  obtain ⟨rt', h1, h2, _⟩ := aggregated_of_defines hk h ha hu hdu
  simp [Event.coverage, h1, h2]

theorem depends_get {a : ArtefactId} {r : Requirement} (hd : Defines g a r) {rt : RequirementTrace}
    (hrt : ag.requirements.get r.id = some rt) {rel : Relation} {l : List (Requirement × Location)}
    (hl : rt.depends.get rel = some l) : l = coveredBy g rel r := by
  rw [((C15_depends hk h ha hrt rel).2 l hl).1, coveragesAlong_eq hk h]
  unfold coveredBy
  rw [List.filter_flatMap, List.filterMap_flatMap]
  apply flatMap_congr_mem
  intro rel' _
  rw [List.filter_map, List.filterMap_map]
  show List.filterMap _ ((relEvents g rel').filter (fun e => e.upper.id = r.id)) = _
  rw [← List.filterMap_eq_map]
  apply filterMap_congr'
  intro e he
  have hdl := (establishes_defines ((mem_relEvents hk rel' e).1 (List.mem_filter.1 he).1)).2
  obtain ⟨rt', h1, h2, _⟩ := aggregated_of_defines hk h ha hu hdl
  simp [Event.coverage, h1, h2]

omit ha in
theorem has_iff {a b : ArtefactId} {r : Requirement} (hd : Defines g a r) : Has tg b r.id ↔ b = a := by
  obtain ⟨f1, _⟩ := C11_frame hk h
  constructor
  · rintro ⟨art, s, h1, h2⟩
    rw [f1] at h1
    have hid := hk.requirement _ _ h1 _ _ h2
    exact hu b a s r ⟨art, h1, by rw [hid]; exact h2⟩ hd hid
  · rintro rfl
    obtain ⟨art, h1, h2⟩ := hd
    exact ⟨art, r, by rw [f1]; exact h1, h2⟩

theorem tracedRequirement_section (env : FmtEnv) {a : ArtefactId} {r : Requirement} (hd : Defines g a r)
    {rt : RequirementTrace} (hrt : ag.requirements.get r.id = some rt) :
    RequirementSection (MdOut.requirementLink env) g a r (MdOut.tracedRequirement env rt) := by
  obtain ⟨rt', h1, h2, h3⟩ := aggregated_of_defines hk h ha hu hd
  rw [hrt] at h1
  cases h1
  refine ⟨rt.covers.keys, rt.depends.keys, _, ⟨?_, ?_⟩, ⟨?_, ?_⟩, otherAttributes_spec r.attributes, ?_⟩
  · intro rel
    rw [BMap.mem_keys_iff, ← Option.isSome_iff_exists, (C15_covers hk h ha hrt rel).1]
    constructor
    · rintro ⟨hr, b, hb, hh⟩
      rw [has_iff hk h hu hd] at hh
      exact ⟨hr, hh ▸ hb⟩
    · rintro ⟨hr, hb⟩
      exact ⟨hr, a, hb, (has_iff hk h hu hd).2 rfl⟩
  · exact List.pairwise_map.2 rt.covers.sorted
  · intro rel
    rw [BMap.mem_keys_iff, ← Option.isSome_iff_exists, (C15_depends hk h ha hrt rel).1, has_iff hk h hu hd]
  · exact List.pairwise_map.2 rt.depends.sorted
  · have e1 := BMap.entries_eq rt.covers (fun rel => coveredOf g rel r) (fun rel l hl => covers_get hk h ha hu hd hrt hl)
    have e2 := BMap.entries_eq rt.depends (fun rel => coveredBy g rel r)
      (fun rel l hl => depends_get hk h ha hu hd hrt hl)
    have e3 : MdOut.coverageItem env = coverageText (MdOut.requirementLink env) := funext (coverageItem_eq env)
    unfold MdOut.tracedRequirement upwardsText downwardsText headingText
    rw [e1, e2, e3, h2, h3, placeLink_eq, description_eq]
    simp only [List.flatMap_map, List.all_map, List.append_assoc]
    have e4 : (rt.covers.keys.all ((fun e : Relation × List (Requirement × Location) => e.2.isEmpty) ∘
        fun k => (k, coveredOf g k r)) = true) = ∀ rel ∈ rt.covers.keys, coveredOf g rel r = [] := by
      simp [List.all_eq_true]
    have e5 : ∀ rel, (if (coveredBy g rel r).isEmpty = true then c!"    *    UNCOVERED\n" else []) ++
        (coveredBy g rel r).flatMap (coverageText (MdOut.requirementLink env)) =
        if coveredBy g rel r = [] then c!"    *    UNCOVERED\n"
          else (coveredBy g rel r).flatMap (coverageText (MdOut.requirementLink env)) := by
      intro rel
      cases coveredBy g rel r <;> simp
    simp only [e5, e4]
    rfl

end

/-- **C71** The Markdown report of a trace of a graph in which no id is defined twice: for each requirement of each
artefact there is a section that says where it is, what it says, what it covers and what covers it along each
relation, with the places of the references, and that it is uncovered or derived exactly if that is so.  Before
that, the uncovered and derived requirements are listed with links. -/
theorem C71_report {g : Graph} {tg : TracedGraph} (hk : Keyed g) (h : trace g = .ok tg) (hr : RelationsExist g)
    (hu : UniqueIds g) (env : FmtEnv) :
    ∃ (tracing : Str) (item : RequirementId → Str) (text : ArtefactId → Requirement → Str),
      Fmt.tracing env tg .markdown = put (
        problemSection c!"Input Errors" ((g.artefacts.values.filter (fun a => !a.errors.isEmpty)).map fun a =>
          (a.id, a.errors.flatMap (MdOut.errorText env))) ++
        tracing ++
        problemSection c!"Uncovered Requirements" ((tg.tracedRelations.filter (fun tr => !tr.uncovered.isEmpty)).map
          fun tr => (tr.relation.display, tr.uncovered.flatMap item)) ++
        problemSection c!"Derived Requirements" ((tg.derived.entries.filter (fun e => !e.2.isEmpty)).map
          fun e => (e.1, e.2.flatMap item)) ++
        c!"\n\n# Requirements\n\n" ++ g.artefacts.values.flatMap (fun a =>
          c!"## " ++ a.id ++ c!"\n" ++ a.requirements.values.flatMap (text a.id))) ∧
      (tg.errors = [] → tracing = []) ∧
      (tg.errors ≠ [] → ∃ texts : List Str, tracing = c!"\n\n# Tracing Errors\n\n" ++ texts.flatten ∧ texts.Nodup ∧
        texts.Sublist (tg.errors.map (MdOut.errorText env)) ∧
        ∀ t, t ∈ texts ↔ ∃ e ∈ tg.errors, MdOut.errorText env e = t) ∧
      ∀ a r, Defines g a r → item r.id = c!"*   " ++ MdOut.requirementLink env r ++ c!"\n" ∧
        RequirementSection (MdOut.requirementLink env) g a r (text a r) := by
  obtain ⟨ag, ha⟩ := (C14_aggregate_ok_iff_partial hk h).2 hr
  obtain ⟨tracing, link, full, e, t1, t2, hf⟩ := C54_markdown_report hk h ha env
  refine ⟨tracing, link, fun _ r => full r.id, ?_, t1, t2, ?_⟩
  · rw [e]
    congr 2
    apply flatMap_congr_mem
    intro art hart
    congr 1
    obtain ⟨a, hget⟩ := (BMap.mem_values_iff _ _).1 hart
    unfold BMap.keys BMap.values
    rw [List.flatMap_map, List.flatMap_map]
    apply flatMap_congr_mem
    intro e he
    show full e.1 = full e.2.id
    rw [hk.requirement _ _ hget _ _ ((BMap.get_eq_some_iff _ _ _).2 he)]
  · intro a r hd
    obtain ⟨art, h1, h2⟩ := hd
    obtain ⟨rt, g1, _, g3, g4⟩ := hf a art r.id r h1 h2
    obtain ⟨rt', g5, g6, _⟩ := aggregated_of_defines hk h ha hu ⟨art, h1, h2⟩
    rw [g1] at g5
    cases g5
    refine ⟨by rw [g3, g6], ?_⟩
    show RequirementSection _ g a r (full r.id)
    rw [g4]
    exact tracedRequirement_section hk h ha hu env ⟨art, h1, h2⟩ g1

/-- The specification of a section leaves no choice. -/
theorem C71_determined {link : Requirement → Str} {g : Graph} {a : ArtefactId} {r : Requirement} {s t : Str}
    (h1 : RequirementSection link g a r s) (h2 : RequirementSection link g a r t) : s = t := by
  obtain ⟨x, y, z, hx, hy, hz, rfl⟩ := h1
  obtain ⟨x', y', z', hx', hy', hz', rfl⟩ := h2
  have key : ∀ (P : Relation → Prop) {x x' : List Relation}, RelationsWith g P x → RelationsWith g P x' → x = x' := by
    intro P x x' hx hx'
    exact BMap.keys_ext hx.2 hx'.2 (fun rel => (hx.1 rel).trans (hx'.1 rel).symm)
  rw [key _ hx hx', key _ hy hy', otherAttributes_unique hz hz']

/-- **C71** The remark that a requirement is uncovered along a relation agrees with the result of the trace. -/
theorem C71_uncovered {g : Graph} {tg : TracedGraph} (hk : Keyed g) (h : trace g = .ok tg) {rel : Relation}
    (hrel : rel ∈ g.relations) {r : Requirement} (hd : Defines g rel.upper r) :
    coveredBy g rel r = [] ↔ ∃ tr ∈ tg.tracedRelations, tr.relation = rel ∧ r.id ∈ tr.uncovered := by
  obtain ⟨_, rfl⟩ := (trace_ok_iff hk tg).1 h
  have e : coveredBy g rel r = [] ↔ ∀ c ∈ (tracedRelation g rel).covered, c.upper ≠ r.id := by
    unfold coveredBy tracedRelation
    simp only [List.flatMap_eq_nil_iff, List.mem_filter, decide_eq_true_eq, List.map_eq_nil_iff, List.filter_eq_nil_iff,
      List.forall_mem_map]
    exact ⟨fun hh => hh rel ⟨hrel, rfl⟩, fun hh rel' hr' => by cases hr'.2; exact hh⟩
  have hmem : tracedRelation g rel ∈ (traced g).tracedRelations := List.mem_map.2 ⟨rel, hrel, rfl⟩
  rw [e]
  obtain ⟨art, h1, h2⟩ := hd
  constructor
  · intro hh
    obtain ⟨art', g1, _, g3⟩ := C02_uncovered_complement hk h hmem
    have : art = art' := Option.some.inj (h1.symm.trans g1)
    subst this
    exact ⟨_, hmem, rfl, (g3 r.id).2 ⟨⟨r, h2⟩, hh⟩⟩
  · rintro ⟨tr, htr, hrel', hin⟩
    obtain ⟨rel'', _, rfl⟩ := List.mem_map.1 htr
    cases hrel'
    obtain ⟨art', g1, _, g3⟩ := C02_uncovered_complement hk h htr
    exact ((g3 r.id).1 hin).2

/-- **C71** The remark that a requirement is derived agrees with the result of the trace, unless its artefact is
configured to ignore that. -/
theorem C71_derived {g : Graph} {tg : TracedGraph} (hk : Keyed g) (h : trace g = .ok tg) (hu : UniqueIds g)
    {a : ArtefactId} {art : Artefact} {r : Requirement} (hart : g.artefacts.get a = some art)
    (hd : art.requirements.get r.id = some r) (hi : art.ignoreDerivedRequirements = false) {above : List Relation}
    (habove : RelationsWith g (fun rel => a ∈ rel.lower) above) :
    (∀ rel ∈ above, coveredOf g rel r = []) ↔ ∃ ids, tg.derived.get a = some ids ∧ r.id ∈ ids := by
  obtain ⟨d, hd1, _, hd2⟩ := C03_derived_exact hk h hart
  have hdef : Defines g a r := ⟨art, hart, hd⟩
  have hown : Owns g a r := by
    refine ⟨hdef, ?_⟩
    intro b s hlt hs hid
    have := hu b a s r hs hdef hid
    subst this
    simp at hlt
  have e : (∀ rel ∈ above, coveredOf g rel r = []) ↔
      ∀ tr ∈ tg.tracedRelations, ∀ c ∈ tr.covered, c.lower ≠ r.id := by
    obtain ⟨_, rfl⟩ := (trace_ok_iff hk tg).1 h
    unfold coveredOf traced tracedRelation
    simp only [List.flatMap_eq_nil_iff, List.mem_filter, decide_eq_true_eq, List.map_eq_nil_iff, List.filter_eq_nil_iff,
      List.forall_mem_map]
    constructor
    · intro hh rel hrel ev hev hid
      have he := (mem_relEvents hk rel ev).1 hev
      have ha : ev.lowerArt = a := hu _ _ _ _ (establishes_defines he).2 hdef hid
      have hl : ev.lowerArt ∈ rel.lower := establishes_lower he
      exact hh rel ((habove.1 rel).2 ⟨hrel, ha ▸ hl⟩) rel ⟨hrel, rfl⟩ ev hev hid
    · intro hh rel hrel rel' hrel' ev hev
      exact hh rel' hrel'.1 ev hev
  rw [e]
  constructor
  · intro hh
    exact ⟨d, hd1, (hd2 r.id).2 ⟨hi, ⟨r, hown, rfl⟩, hh⟩⟩
  · rintro ⟨ids, hids, hin⟩
    rw [hd1] at hids
    cases hids
    exact ((hd2 r.id).1 hin).2.2

/-! ## A report -/

namespace ReportExample
open Example

def u1 : Requirement := ⟨c!"U1", some c!"one", loc 1, [], [ref c!"L1" none 2], [], .ofList [(c!"Description", c!"What.\n"),
  (c!"Note", c!" n \n"), (c!"Empty", c!" ")]⟩
def u2 : Requirement := ⟨c!"U2", none, loc 5, [], [], [], .empty⟩
def l1 : Requirement := ⟨c!"L1", none, loc 6, [ref c!"U1" none 7], [], [], .empty⟩

def graph : Graph :=
  ⟨.ofList [(c!"UP", art c!"UP" false false [u1, u2]), (c!"LO", art c!"LO" false false [l1])], [⟨c!"UP", [c!"LO"]⟩]⟩

/-- Decides that ids are unique. -/
def uniqueCheck (g : Graph) : Bool :=
  g.artefacts.entries.all fun e => g.artefacts.entries.all fun f =>
    e.1 = f.1 || e.2.requirements.keys.all fun k => !f.2.requirements.keys.contains k

theorem unique_of_check {g : Graph} (h : uniqueCheck g = true) : UniqueIds g := by
  intro a b r s ⟨x, hx1, hx2⟩ ⟨y, hy1, hy2⟩ hid
  unfold uniqueCheck at h
  simp only [List.all_eq_true, Bool.or_eq_true, decide_eq_true_eq, Bool.not_eq_true', List.contains_eq_mem,
    decide_eq_false_iff_not] at h
  rcases h _ ((BMap.get_eq_some_iff _ _ _).1 hx1) _ ((BMap.get_eq_some_iff _ _ _).1 hy1) with h | h
  · exact h
  · exact absurd ((BMap.mem_keys_iff _ _).2 ⟨s, hid ▸ hy2⟩) (h _ ((BMap.mem_keys_iff _ _).2 ⟨r, hx2⟩))

/-- The hypotheses of the theorems hold for it, -/
example : Keyed graph ∧ UniqueIds graph ∧ RelationsExist graph ∧ ∃ tg, trace graph = .ok tg := by
  refine ⟨keyed_of_check (by decide +kernel), unique_of_check (by decide +kernel), ?_, traced graph, by decide +kernel⟩
  intro rel hrel
  have : rel = ⟨c!"UP", [c!"LO"]⟩ := by simpa [graph] using hrel
  subst this
  refine ⟨Option.isSome_iff_exists.1 (by decide +kernel), ?_⟩
  intro a ha
  have : a = c!"LO" := by simpa using ha
  subst this
  exact Option.isSome_iff_exists.1 (by decide +kernel)

set_option maxRecDepth 100000 in
/-- and this is the report. -/
example : (Fmt.tracing FmtEnv.example (traced graph) .markdown).text = c!"

# Uncovered Requirements


## UP => [LO]

*   [U2](#u2)


# Derived Requirements


## UP

*   [U1](#u1-one \"one\")
*   [U2](#u2)


# Requirements

## LO

### L1

Origin: LO, [f:6](../f?plain=1#L6)

Upwards Tracing:
*   UP => [LO]
    *   [U1](#u1-one \"one\")
        Reference: [f:2](../f?plain=1#L2)
    *   [U1](#u1-one \"one\")
        Reference: [f:7](../f?plain=1#L7)

Downwards Tracing:
## UP

### U1: one

Origin: UP, [f:1](../f?plain=1#L1)


What.


Note:
n

Upwards Tracing:
    *   Derived

Downwards Tracing:
*   UP => [LO]
    *   [L1](#l1)
        Reference: [f:2](../f?plain=1#L2)
    *   [L1](#l1)
        Reference: [f:7](../f?plain=1#L7)

### U2

Origin: UP, [f:5](../f?plain=1#L5)

Upwards Tracing:
    *   Derived

Downwards Tracing:
*   UP => [LO]
    *    UNCOVERED
" := by
  decide +kernel

set_option maxRecDepth 100000 in
/-- The list of the requirements. -/
example : (Fmt.requirements FmtEnv.example graph .markdown).text = c!"
### L1: 

Origin: [f:6](../f?plain=1#L6)

Covers:
*   U1

### U1: one

Origin: [f:1](../f?plain=1#L1)


What.


Depends:
*   L1

Note:
n

### U2: 

Origin: [f:5](../f?plain=1#L5)
" := by
  decide +kernel

end ReportExample

end Reqtrace
