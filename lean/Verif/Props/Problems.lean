import Verif.Props.Output

/-!
# C54, C55: what reports say about problems

The texts are those of `Spec.gnuLines` and `Spec.markdownError`.
-/

namespace Reqtrace

open Spec Out

/-- **C54** Both reports contain the text for each error of an artefact and of the tracer, and for each uncovered and
each derived requirement. -/
theorem C54_reported (env : FmtEnv) {g : Graph} {tg : TracedGraph} (hk : Keyed g) (h : trace g = .ok tg)
    (hr : RelationsExist g) {link : Requirement → Str} (hl : ∀ r, Link env r (link r)) :
    ∃ gnu md, Fmt.tracing env tg .gnuError = put gnu ∧ Fmt.tracing env tg .markdown = put md ∧
      (∀ e, e ∈ errorsOf g.artefacts ∨ e ∈ tg.errors →
        gnuText (gnuLines env e) <:+: gnu ∧ markdownError link e <:+: md) ∧
      (∀ tr ∈ tg.tracedRelations, ∀ id ∈ tr.uncovered, ∃ art r, g.artefacts.get tr.relation.upper = some art ∧
        art.requirements.get id = some r ∧ placeText r.location ++ c!": " ++ id ++ c!" Uncovered\n" <:+: gnu ∧
        c!"*   [" ++ id ++ c!"](#" <:+: md) ∧
      (∀ a ids, tg.derived.get a = some ids → ∀ id ∈ ids, ∃ art r, g.artefacts.get a = some art ∧
        art.requirements.get id = some r ∧ placeText r.location ++ c!": " ++ id ++ c!" Derived\n" <:+: gnu ∧
        c!"*   [" ++ id ++ c!"](#" <:+: md) := by
  have hl := links_iff.1 hl
  subst hl
  obtain ⟨gnu, md, h1, h2, h3, h4, h5⟩ := C54_all_problems env hk h hr
  refine ⟨gnu, md, h1, h2, fun e he => ?_, fun tr htr id hid => ?_, fun a ids ha id hid => ?_⟩
  · rw [← gnu_errorText, ← md_errorText]
    exact h3 e he
  · obtain ⟨art, r, h6, h7, h8, h9⟩ := h4 tr htr id hid
    rw [location_display] at h8
    exact ⟨art, r, h6, h7, h8, h9⟩
  · obtain ⟨art, r, h6, h7, h8, h9⟩ := h5 a ids ha id hid
    rw [location_display] at h8
    exact ⟨art, r, h6, h7, h8, h9⟩

/-- **C54** The Markdown report: a section about problems is there exactly if there are problems of its kind, and the text for
each error of the tracer is there once. -/
theorem C54_sections (env : FmtEnv) {g : Graph} {tg : TracedGraph} (hk : Keyed g) (h : trace g = .ok tg)
    (hr : RelationsExist g) {link : Requirement → Str} (hl : ∀ r, Link env r (link r)) :
    ∃ (tracing : Str) (item full : RequirementId → Str),
      Fmt.tracing env tg .markdown = put (
        problemSection c!"Input Errors" ((g.artefacts.values.filter (fun a => !a.errors.isEmpty)).map fun a =>
          (a.id, a.errors.flatMap (markdownError link))) ++
        tracing ++
        problemSection c!"Uncovered Requirements" ((tg.tracedRelations.filter (fun tr => !tr.uncovered.isEmpty)).map
          fun tr => (relationText tr.relation, tr.uncovered.flatMap item)) ++
        problemSection c!"Derived Requirements" ((tg.derived.entries.filter (fun e => !e.2.isEmpty)).map
          fun e => (e.1, e.2.flatMap item)) ++
        c!"\n\n# Requirements\n\n" ++ g.artefacts.values.flatMap (fun a =>
          c!"## " ++ a.id ++ c!"\n" ++ a.requirements.keys.flatMap full)) ∧
      (tg.errors = [] → tracing = []) ∧
      (tg.errors ≠ [] → ∃ texts : List Str, tracing = c!"\n\n# Tracing Errors\n\n" ++ texts.flatten ∧ texts.Nodup ∧
        texts.Sublist (tg.errors.map (markdownError link)) ∧
        ∀ t, t ∈ texts ↔ ∃ e ∈ tg.errors, markdownError link e = t) ∧
      ∀ a art id r, g.artefacts.get a = some art → art.requirements.get id = some r →
        ∃ b r', Defines g b r' ∧ r'.id = id ∧ item id = c!"*   " ++ link r' ++ c!"\n" := by
  have hl := links_iff.1 hl
  subst hl
  obtain ⟨ag, ha⟩ := (C14_aggregate_ok_iff_partial hk h).2 hr
  obtain ⟨t, l, f, h1, h2, h3, h4⟩ := C54_markdown_report hk h ha env
  rw [md_errorText] at h1 h3
  rw [show (fun tr : TracedRelation => (tr.relation.display, tr.uncovered.flatMap l)) =
    fun tr => (relationText tr.relation, tr.uncovered.flatMap l) by funext tr; rw [relation_display]] at h1
  refine ⟨t, l, f, h1, h2, h3, fun a art id r h5 h6 => ?_⟩
  obtain ⟨rt, h7, h8, h9, _⟩ := h4 a art id r h5 h6
  obtain ⟨b, h10, h11, _⟩ := (C15_requirements hk h ha id).2 rt h7
  exact ⟨b, rt.requirement, ⟨_, h10, by rw [h8]; exact h11⟩, h8, h9⟩

/-- **C54** The lines for an error in the GNU-error report name its places and what it is about. -/
theorem C54_gnu_names (env : FmtEnv) (e : Error) :
    (∀ loc ∈ places e, placeText loc <:+: gnuText (gnuLines env e)) ∧
    (∀ s ∈ subjects e, s <:+: gnuText (gnuLines env e)) := by
  rw [← gnu_errorText]
  refine ⟨fun loc h => ?_, (C54_gnu_mentions env e).2⟩
  rw [← location_display]
  exact (C54_gnu_mentions env e).1 loc h

/-- **C54** The item for an error in the Markdown report names its places and what it is about. -/
theorem C54_markdown_names (env : FmtEnv) {link : Requirement → Str} (hl : ∀ r, Link env r (link r)) (e : Error) :
    (∀ loc ∈ places e, placeText loc <:+: markdownError link e ∨ placeLink loc <:+: markdownError link e) ∧
    (∀ s ∈ subjects e ++ mdSubjects e, s <:+: markdownError link e) := by
  have hl := links_iff.1 hl
  subst hl
  rw [← md_errorText]
  refine ⟨fun loc h => ?_, (C54_markdown_mentions env e).2⟩
  rw [← location_display, ← placeLink_eq]
  exact (C54_markdown_mentions env e).1 loc h

/-- Both reports on the example graph, with all its errors. -/
example : Keyed Example.graph ∧ trace Example.graph = .ok (traced Example.graph) ∧ (traced Example.graph).errors.length = 6 := by
  refine ⟨Example.graph_keyed, by decide +kernel, by decide +kernel⟩

/-! ## C55 -/

/-- **C55** as listed: where a requirement is reported to be defined twice, in both reports the place that was seen first
is that of the definition that was kept. -/
def C55_statement : Prop := ∀ (env : FmtEnv) (g : Graph) (tg : TracedGraph), Keyed g → trace g = .ok tg → RelationsExist g →
  ∃ gnu md, Fmt.tracing env tg .gnuError = put gnu ∧ Fmt.tracing env tg .markdown = put md ∧
    ∀ kept dropped, .duplicateRequirement kept dropped ∈ errorsOf g.artefacts ∨ .duplicateRequirement kept dropped ∈ tg.errors →
      placeText dropped.location ++ c!": Duplicate Requirement: " ++ kept.id ++ c!"\n" ++
        placeText kept.location ++ c!": note: previously seen here\n" <:+: gnu ∧
      c!"*   Duplicate Requirement: " ++ kept.id ++ c!"\n    first seen in " ++ placeLink kept.location ++
        c!"\n    then again in " ++ placeLink dropped.location ++ c!"\n" <:+: md

/-- **C55** for the GNU-error report; the Markdown report exchanges the two places. -/
theorem C55_report_partial (env : FmtEnv) {g : Graph} {tg : TracedGraph} (hk : Keyed g) (h : trace g = .ok tg)
    (hr : RelationsExist g) : ∃ gnu md, Fmt.tracing env tg .gnuError = put gnu ∧ Fmt.tracing env tg .markdown = put md ∧
    ∀ kept dropped, .duplicateRequirement kept dropped ∈ errorsOf g.artefacts ∨ .duplicateRequirement kept dropped ∈ tg.errors →
      placeText dropped.location ++ c!": Duplicate Requirement: " ++ kept.id ++ c!"\n" ++
        placeText kept.location ++ c!": note: previously seen here\n" <:+: gnu ∧
      c!"*   Duplicate Requirement: " ++ kept.id ++ c!"\n    first seen in " ++ placeLink dropped.location ++
        c!"\n    then again in " ++ placeLink kept.location ++ c!"\n" <:+: md := by
  obtain ⟨gnu, md, h1, h2, h3, _⟩ := C54_reported env hk h hr (fun r => link_iff.2 rfl)
  refine ⟨gnu, md, h1, h2, fun kept dropped he => ?_⟩
  obtain ⟨h4, h5⟩ := h3 _ he
  refine ⟨?_, h5⟩
  rw [show placeText dropped.location ++ c!": Duplicate Requirement: " ++ kept.id ++ c!"\n" ++
      placeText kept.location ++ c!": note: previously seen here\n" =
      gnuText (gnuLines env (.duplicateRequirement kept dropped)) by simp [gnuText, gnuLines]]
  exact h4

open OutputExample in
/-- **C55** is false: the Markdown report exchanges the two places. -/
theorem C55_false : ¬ C55_statement := by
  intro h
  obtain ⟨gnu, md, _, h2, h3⟩ := h FmtEnv.example graph (traced graph) (Example.keyed_of_check (by decide +kernel))
    (by decide +kernel) relations_exist
  have h4 := (h3 l0 u1 (.inr (by decide +kernel))).2
  rw [show md = (Fmt.tracing FmtEnv.example (traced graph) .markdown).text by rw [h2]; rfl] at h4
  revert h4
  decide +kernel

end Reqtrace
