import Verif.Spec.Meta
import Verif.Props.Output
import Verif.Props.Run

/-!
# C113 to C116: what can be read from the reports, and how answers for different inputs belong together
-/

namespace Reqtrace

open Spec

/-! ## C113 -/

namespace Meta

theorem gnuText_nil_iff (ls : List GnuLine) : gnuText ls = [] ↔ ls = [] := by
  cases ls with
  | nil => simp [gnuText]
  | cons l t => simp [gnuText]

theorem gnuLines_ne (env : FmtEnv) (e : Error) : gnuLines env e ≠ [] := by cases e <;> simp [gnuLines]

theorem flatMap_gnuLines (env : FmtEnv) (es : List Error) : es.flatMap (gnuLines env) = [] ↔ es = [] := by
  rw [List.flatMap_eq_nil_iff]
  constructor
  · intro h
    cases es with
    | nil => rfl
    | cons e t => exact absurd (h e (List.mem_cons_self ..)) (gnuLines_ne env e)
  · rintro rfl; simp

/-- Texts with additions are the texts without them exactly if nothing was added. -/
theorem flatMap_additions {α : Type} (head add : α → Str) (l : List α) (rest rest' : Str) (hlen : rest.length ≤ rest'.length)
    (h : l.flatMap (fun x => head x ++ add x) ++ rest' = l.flatMap head ++ rest) :
    (∀ x ∈ l, add x = []) ∧ rest' = rest := by
  have hl : ∀ l : List α, (l.flatMap head).length ≤ (l.flatMap (fun x => head x ++ add x)).length := by
    intro l
    induction l with
    | nil => simp
    | cons x t ih => simp only [List.flatMap_cons, List.length_append]; omega
  induction l with
  | nil => exact ⟨by simp, by simpa using h⟩
  | cons x t ih =>
    simp only [List.flatMap_cons, List.append_assoc] at h
    have h := List.append_cancel_left h
    have h0 : add x = [] := by
      have h1 := congrArg List.length h
      simp only [List.length_append] at h1
      have h2 := hl t
      exact List.length_eq_zero_iff.1 (by omega)
    rw [h0, List.nil_append] at h
    obtain ⟨h1, h2⟩ := ih h
    refine ⟨?_, h2⟩
    intro y hy
    rcases List.mem_cons.1 hy with rfl | hy
    · exact h0
    · exact h1 y hy

theorem length_flatMap_le {α : Type} (head add : α → Str) (l : List α) :
    (l.flatMap head).length ≤ (l.flatMap (fun x => head x ++ add x)).length := by
  induction l with
  | nil => simp
  | cons x t ih => simp only [List.flatMap_cons, List.length_append]; omega

theorem parse_iff {g : Graph} : ParseProblem g.artefacts ↔ errorsOf g.artefacts ≠ [] := by
  unfold ParseProblem errorsOf
  rw [Ne, List.flatMap_eq_nil_iff]
  constructor
  · rintro ⟨a, art, e, h1, h2⟩ h3
    have h4 := h3 (a, art) ((BMap.get_eq_some_iff _ _ _).1 h1)
    simp only at h4
    rw [h4] at h2
    cases h2
  · intro h3
    apply Classical.byContradiction
    intro h4
    apply h3
    rintro ⟨a, art⟩ he
    cases hl : art.errors with
    | nil => rfl
    | cons e t => exact absurd ⟨a, art, e, (BMap.get_eq_some_iff _ _ _).2 he, by rw [hl]; simp⟩ h4

variable {g : Graph} {tg : TracedGraph} (hk : Keyed g) (h : trace g = .ok tg)
include hk h

theorem about_nil (a : ArtefactId) (what : Str) (ids : List RequirementId)
    (hids : ∃ art, g.artefacts.get a = some art ∧ ∀ id ∈ ids, ∃ r, art.requirements.get id = some r) :
    gnuText (gnuAbout g a what ids) = [] ↔ ids = [] := by
  rw [gnuText_nil_iff]
  constructor
  · intro he
    cases ids with
    | nil => rfl
    | cons id t =>
      obtain ⟨art, ha, hi⟩ := hids
      obtain ⟨r, hr⟩ := hi id (List.mem_cons_self ..)
      simp [gnuAbout, ha, hr] at he
  · rintro rfl; rfl

/-- No problems, in terms of the parts of the reports. -/
theorem no_problem_iff : ¬ TraceProblem tg ↔ (traced g).errors = [] ∧ errorsOf g.artefacts = [] ∧
    (∀ rel ∈ g.relations, uncovered g rel = []) ∧ ∀ e ∈ g.artefacts.entries, derived g e.1 e.2 = [] := by
  obtain ⟨-, rfl⟩ := (trace_ok_iff hk tg).1 h
  have e1 : ParseProblem (traced g).artefacts ↔ errorsOf g.artefacts ≠ [] := parse_iff
  have e2 : (∃ e, e ∈ (traced g).errors) ↔ (traced g).errors ≠ [] := by
    rw [Ne, List.eq_nil_iff_forall_not_mem]; simp
  have e3 : (∃ tr ∈ (traced g).tracedRelations, ∃ r, r ∈ tr.uncovered) ↔ ¬ ∀ rel ∈ g.relations, uncovered g rel = [] := by
    show (∃ tr ∈ g.relations.map (tracedRelation g), ∃ r, r ∈ tr.uncovered) ↔ _
    constructor
    · rintro ⟨tr, h1, r, h2⟩ h3
      obtain ⟨rel, h4, rfl⟩ := List.mem_map.1 h1
      have h2 : r ∈ uncovered g rel := h2
      rw [h3 rel h4] at h2
      cases h2
    · intro h3
      apply Classical.byContradiction
      intro h4
      apply h3
      intro rel hrel
      cases hl : uncovered g rel with
      | nil => rfl
      | cons r t =>
        exact absurd ⟨tracedRelation g rel, List.mem_map.2 ⟨rel, hrel, rfl⟩, r,
          show r ∈ uncovered g rel by rw [hl]; simp⟩ h4
  have e4 : (∃ a ids r, (traced g).derived.get a = some ids ∧ r ∈ ids) ↔
      ¬ ∀ e ∈ g.artefacts.entries, derived g e.1 e.2 = [] := by
    have hd := derived_entries g
    show (∃ a ids r, (derivedMap g).get a = some ids ∧ r ∈ ids) ↔ _
    constructor
    · rintro ⟨a, ids, r, h1, h2⟩ h3
      have h1 := (BMap.get_eq_some_iff _ _ _).1 h1
      rw [hd] at h1
      obtain ⟨e, he, h4⟩ := List.mem_map.1 h1
      cases h4
      rw [h3 e he] at h2
      cases h2
    · intro h3
      apply Classical.byContradiction
      intro h4
      apply h3
      intro e he
      cases hl : derived g e.1 e.2 with
      | nil => rfl
      | cons r t =>
        refine absurd ⟨e.1, derived g e.1 e.2, r, ?_, by rw [hl]; simp⟩ h4
        rw [BMap.get_eq_some_iff, hd]
        exact List.mem_map.2 ⟨e, he, rfl⟩
  unfold TraceProblem
  rw [e1, e2, e3, e4]
  simp only [not_or, Classical.not_not]

/-- **C113**, for the report in the form of compiler errors. -/
theorem gnu (env : FmtEnv) : gnuReport env g = headingsOnly g ↔ ¬ TraceProblem tg := by
  rw [no_problem_iff hk h]
  have hu := @uncovered_entry g tg hk h
  have hd := @derived_entry g tg hk h
  obtain ⟨-, rfl⟩ := (trace_ok_iff hk tg).1 h
  have hu' : ∀ rel ∈ g.relations, ∃ art, g.artefacts.get rel.upper = some art ∧
      ∀ id ∈ uncovered g rel, ∃ r, art.requirements.get id = some r := by
    intro rel hrel
    obtain ⟨art, h1, h2⟩ := hu (tr := tracedRelation g rel) (List.mem_map.2 ⟨rel, hrel, rfl⟩)
    exact ⟨art, h1, fun id hid => let ⟨r, hr, _⟩ := h2 id hid; ⟨r, hr⟩⟩
  have hd' : ∀ e ∈ g.artefacts.entries, ∃ art, g.artefacts.get e.1 = some art ∧
      ∀ id ∈ derived g e.1 e.2, ∃ r, art.requirements.get id = some r := by
    intro e he
    obtain ⟨art, h1, h2⟩ := hd (e := (e.1, derived g e.1 e.2)) (by
      show _ ∈ (derivedMap g).entries
      rw [derived_entries]
      exact List.mem_map.2 ⟨e, he, rfl⟩)
    exact ⟨art, h1, fun id hid => let ⟨r, hr, _⟩ := h2 id hid; ⟨r, hr⟩⟩
  have hh : headingsOnly g = c!"# Parsing Errors\n" ++ ([] ++ (c!"# Tracing Errors\n" ++ ([] ++ (c!"# Uncovered Requirement\n" ++
      (g.relations.flatMap (fun rel => c!"## " ++ relationText rel ++ c!"\n") ++ (c!"Derived Requirement\n" ++
        g.artefacts.entries.flatMap (fun e => c!"## " ++ e.1 ++ c!"\n"))))))) := by
    unfold headingsOnly BMap.keys relationText
    rw [List.flatMap_map]
    simp
  have hg : gnuReport env g = c!"# Parsing Errors\n" ++ (gnuText ((errorsOf g.artefacts).flatMap (gnuLines env)) ++
      (c!"# Tracing Errors\n" ++ (gnuText ((traced g).errors.flatMap (gnuLines env)) ++ (c!"# Uncovered Requirement\n" ++
      (g.relations.flatMap (fun rel => (c!"## " ++ relationText rel ++ c!"\n") ++
        gnuText (gnuAbout g rel.upper c!" Uncovered" (uncovered g rel))) ++ (c!"Derived Requirement\n" ++
        g.artefacts.entries.flatMap (fun e => (c!"## " ++ e.1 ++ c!"\n") ++
          gnuText (gnuAbout g e.1 c!" Derived" (derived g e.1 e.2))))))))) := by
    unfold gnuReport
    simp only [List.append_assoc]
  rw [hg, hh]
  have l1 := length_flatMap_le (fun rel : Relation => c!"## " ++ relationText rel ++ c!"\n")
    (fun rel => gnuText (gnuAbout g rel.upper c!" Uncovered" (uncovered g rel))) g.relations
  have l2 := length_flatMap_le (fun e : ArtefactId × Artefact => c!"## " ++ e.1 ++ c!"\n")
    (fun e => gnuText (gnuAbout g e.1 c!" Derived" (derived g e.1 e.2))) g.artefacts.entries
  constructor
  · intro he
    have hlen := congrArg List.length he
    simp only [List.length_append, List.length_nil, Nat.zero_add] at hlen l1 l2
    have z1 : gnuText ((errorsOf g.artefacts).flatMap (gnuLines env)) = [] := List.length_eq_zero_iff.1 (by omega)
    have z2 : gnuText ((traced g).errors.flatMap (gnuLines env)) = [] := List.length_eq_zero_iff.1 (by omega)
    rw [z1, z2] at he
    have he := List.append_cancel_left he
    simp only [List.nil_append] at he
    have he := List.append_cancel_left (List.append_cancel_left he)
    obtain ⟨a1, a2⟩ := flatMap_additions _ _ _ _ _ (by simp only [List.length_append]; omega) he
    have a2 := List.append_cancel_left a2
    obtain ⟨b1, -⟩ := flatMap_additions (fun e : ArtefactId × Artefact => c!"## " ++ e.1 ++ c!"\n") (fun e : ArtefactId × Artefact => gnuText (gnuAbout g e.1 c!" Derived" (derived g e.1 e.2)))
      g.artefacts.entries [] [] (Nat.le_refl _) (by rw [List.append_nil, List.append_nil]; exact a2)
    rw [gnuText_nil_iff, flatMap_gnuLines] at z1 z2
    exact ⟨z2, z1, fun rel hrel => (about_nil hk h _ _ _ (hu' rel hrel)).1 (a1 rel hrel),
      fun e hee => (about_nil hk h _ _ _ (hd' e hee)).1 (b1 e hee)⟩
  · rintro ⟨h1, h2, h3, h4⟩
    rw [h1, h2]
    have f1 : g.relations.flatMap (fun rel => (c!"## " ++ relationText rel ++ c!"\n") ++
        gnuText (gnuAbout g rel.upper c!" Uncovered" (uncovered g rel))) =
        g.relations.flatMap (fun rel => c!"## " ++ relationText rel ++ c!"\n") :=
      flatMap_congr' fun rel hrel => by rw [h3 rel hrel]; exact List.append_nil _
    have f2 : g.artefacts.entries.flatMap (fun e => (c!"## " ++ e.1 ++ c!"\n") ++
          gnuText (gnuAbout g e.1 c!" Derived" (derived g e.1 e.2))) =
        g.artefacts.entries.flatMap (fun e => c!"## " ++ e.1 ++ c!"\n") :=
      flatMap_congr' fun e he => by rw [h4 e he]; exact List.append_nil _
    rw [f1, f2]
    rfl

omit hk h in
theorem section_empty (title : Str) (parts : List (Str × Str)) : problemSection title parts = [] ↔ parts = [] := by
  unfold problemSection
  split <;> simp_all

omit hk h in
theorem section_start {title : Str} {parts : List (Str × Str)} (hp : parts ≠ []) :
    ∃ rest, problemSection title parts = c!"\n\n# " ++ (title ++ rest) := by
  unfold problemSection
  rw [if_neg hp]
  exact ⟨_, by simp only [List.append_assoc]; rfl⟩

omit hk h in
theorem inputErrors_nil (link : Requirement → Str) : inputErrorsText link g = [] ↔ errorsOf g.artefacts = [] := by
  unfold inputErrorsText errorsOf
  rw [section_empty, List.map_eq_nil_iff, List.filter_eq_nil_iff, List.flatMap_eq_nil_iff]
  simp

/-- **C113**, for the Markdown report. -/
theorem markdown (env : FmtEnv) {text : Str} (ht : MarkdownTrace env g text) :
    c!"\n\n# Requirements\n" <+: text ↔ ¬ TraceProblem tg := by
  rw [no_problem_iff hk h]
  obtain ⟨link, body, -, -, rfl⟩ := ht
  rw [← inputErrors_nil link]
  have wrong : ∀ {u v : Str}, (∃ x, u = c!"\n\n# " ++ x ∧ x.head? ≠ some 'R' ∧ x ≠ []) →
      ¬ c!"\n\n# Requirements\n" <+: u ++ v := by
    rintro u v ⟨x, rfl, h1, h2⟩ ⟨t, he⟩
    cases x with
    | nil => exact h2 rfl
    | cons c x =>
      simp only [List.cons_append, List.nil_append, List.cons.injEq, true_and] at he
      exact h1 (by rw [← he.1]; rfl)
  have t1 : tracingErrorsText link g = [] ↔ (traced g).errors = [] := by
    unfold tracingErrorsText
    split <;> simp_all
  have u1 : problemSection c!"Uncovered Requirements" ((g.relations.filter (fun rel => uncovered g rel ≠ [])).map fun rel =>
        (relationText rel, (uncovered g rel).flatMap (shownItem link g))) = [] ↔ ∀ rel ∈ g.relations, uncovered g rel = [] := by
    rw [section_empty, List.map_eq_nil_iff, List.filter_eq_nil_iff]
    simp
  have d1 : problemSection c!"Derived Requirements" ((g.artefacts.entries.filter (fun e => derived g e.1 e.2 ≠ [])).map fun e =>
        (e.1, (derived g e.1 e.2).flatMap (shownItem link g))) = [] ↔ ∀ e ∈ g.artefacts.entries, derived g e.1 e.2 = [] := by
    rw [section_empty, List.map_eq_nil_iff, List.filter_eq_nil_iff]
    simp
  rw [← t1, ← u1, ← d1]
  have sec : ∀ {title : Str} {parts : List (Str × Str)}, title.head? ≠ some 'R' → title ≠ [] → problemSection title parts ≠ [] →
      ∃ x, problemSection title parts = c!"\n\n# " ++ x ∧ x.head? ≠ some 'R' ∧ x ≠ [] := by
    intro title parts h1 h2 h3
    rw [Ne, section_empty] at h3
    obtain ⟨rest, h4⟩ := section_start (title := title) h3
    refine ⟨title ++ rest, h4, ?_, by simp [h2]⟩
    cases title with
    | nil => exact absurd rfl h2
    | cons c t => exact h1
  have i2 : inputErrorsText link g ≠ [] → _ := sec (title := c!"Input Errors") (by decide) (by decide)
  have t2 : tracingErrorsText link g ≠ [] →
      ∃ x, tracingErrorsText link g = c!"\n\n# " ++ x ∧ x.head? ≠ some 'R' ∧ x ≠ [] := by
    intro hne
    unfold tracingErrorsText at hne ⊢
    split
    · rename_i he; rw [if_pos he] at hne; exact absurd rfl hne
    · exact ⟨c!"Tracing Errors\n\n" ++ _, rfl, by simp, by simp⟩
  have u2 := sec (title := c!"Uncovered Requirements") (parts := (g.relations.filter (fun rel => uncovered g rel ≠ [])).map fun rel =>
        (relationText rel, (uncovered g rel).flatMap (shownItem link g))) (by decide) (by decide)
  have d2 := sec (title := c!"Derived Requirements") (parts := (g.artefacts.entries.filter (fun e => derived g e.1 e.2 ≠ [])).map fun e =>
        (e.1, (derived g e.1 e.2).flatMap (shownItem link g))) (by decide) (by decide)
  have i2 : inputErrorsText link g ≠ [] → ∃ x, inputErrorsText link g = c!"\n\n# " ++ x ∧ x.head? ≠ some 'R' ∧ x ≠ [] := i2
  generalize inputErrorsText link g = i at *
  generalize tracingErrorsText link g = t at *
  generalize problemSection c!"Uncovered Requirements" _ = u at *
  generalize problemSection c!"Derived Requirements" _ = d at *
  simp only [List.append_assoc]
  constructor
  · intro hp
    by_cases hi : i = []
    · subst hi
      rw [List.nil_append] at hp
      by_cases ht : t = []
      · subst ht
        rw [List.nil_append] at hp
        by_cases hu : u = []
        · subst hu
          rw [List.nil_append] at hp
          by_cases hd : d = []
          · exact ⟨rfl, rfl, rfl, hd⟩
          · exact absurd hp (wrong (d2 hd))
        · exact absurd hp (wrong (u2 hu))
      · exact absurd hp (wrong (t2 ht))
    · exact absurd hp (wrong (i2 hi))
  · rintro ⟨rfl, rfl, rfl, rfl⟩
    simp only [List.nil_append]
    exact ⟨_, rfl⟩

omit hk h in
/-- **C113**, for the Markdown list. -/
theorem list (env : FmtEnv) {text : Str} (ht : MarkdownList env g text) :
    c!"\n\n# Input Errors\n" <+: text ↔ ParseProblem g.artefacts := by
  have hp : ParseProblem g.artefacts ↔ errorsOf g.artefacts ≠ [] := parse_iff
  obtain ⟨link, entry, reqs, -, he, -, rfl⟩ := ht
  rw [hp, Ne, ← inputErrors_nil link]
  constructor
  · rintro ⟨t, h1⟩ h2
    rw [h2, List.nil_append] at h1
    cases reqs with
    | nil => cases h1
    | cons r reqs =>
      obtain ⟨attrs, -, h3⟩ := he r
      rw [List.flatMap_cons, h3] at h1
      simp at h1
  · intro h1
    have h1' := h1
    unfold inputErrorsText at h1 ⊢
    rw [section_empty] at h1
    unfold problemSection
    rw [if_neg h1]
    exact ⟨_, by simp only [List.append_assoc]; rfl⟩

end Meta

/-- A text begins with another exactly if its bytes do. -/
theorem Meta.encode_prefix (p t : Str) : Utf8.encode p <+: Utf8.encode t ↔ p <+: t := by
  constructor
  · rintro ⟨r, h⟩
    induction p generalizing t with
    | nil => exact List.nil_prefix
    | cons c p ih =>
      cases t with
      | nil =>
        have := congrArg List.length h
        have h2 := Utf8.length_encode_cons c p
        simp only [List.length_append] at this
        have h3 : (Utf8.encode []).length = 0 := rfl
        omega
      | cons d t =>
        have e1 : ∀ (x : Char) (y : Str), Utf8.encode (x :: y) = Utf8.encodeChar x ++ Utf8.encode y := by
          intro x y; simp [Utf8.encode]
        rw [e1, e1, List.append_assoc] at h
        have h1 := congrArg Utf8.decodeChar h
        rw [Utf8.decodeChar_encodeChar, Utf8.decodeChar_encodeChar] at h1
        simp only [Option.some.injEq, Prod.mk.injEq] at h1
        exact List.cons_prefix_cons.2 ⟨h1.1, ih t h1.2⟩
  · rintro ⟨r, rfl⟩
    exact ⟨Utf8.encode r, (Utf8.encode_append ..).symm⟩

section
variable {env : Env} {w w' v : World} {config : Config} {base : Path} {c : Controller} {job : Job} {s : JobSuccess}
  (hc : Controller.new env v config base = .ok c) (hr : c.run env w job = (.ok s, w'))
include hc hr

/-- What a job that ran has written is the report of the specification. -/
theorem Meta.written : ∃ text, Report env.fmt c.graph job.query job.format text ∧ outputOf env c job = Utf8.encode text := by
  obtain ⟨hk, hre⟩ := C18_consistent hc
  obtain ⟨_, _, _, _, h2, _⟩ := new_ok hc
  obtain ⟨-, hp, -⟩ := run_ok hr
  refine ⟨(c.output env job).text, ?_, (output_text env c job).symm⟩
  refine (C85_report hk h2 hre env.fmt job.query job.format _).1 ?_
  show c.output env job = _
  generalize c.output env job = o at hp
  cases o
  cases hp
  rfl

/-- **C113** The report in the form of compiler errors has nothing but headings exactly if the job finds no errors. -/
theorem C113_gnu (hq : job.query = .trace) (hf : job.format = .gnuError) :
    outputOf env c job = Utf8.encode (headingsOnly c.graph) ↔ s = .success := by
  obtain ⟨hk, -⟩ := C18_consistent hc
  obtain ⟨_, _, _, _, h2, _⟩ := new_ok hc
  obtain ⟨text, h3, h4⟩ := Meta.written hc hr
  rw [hq, hf] at h3
  cases h3
  rw [h4, (C23_verdict hr).2, Detects, hq]
  simp only
  rw [← Meta.gnu hk h2 env.fmt]
  exact ⟨fun h => Utf8.encode_injective h, fun h => by rw [h]⟩

/-- **C113** The Markdown report begins with the requirements exactly if the job finds no errors. -/
theorem C113_markdown (hq : job.query = .trace) (hf : job.format = .markdown) :
    Utf8.encode c!"\n\n# Requirements\n" <+: outputOf env c job ↔ s = .success := by
  obtain ⟨hk, -⟩ := C18_consistent hc
  obtain ⟨_, _, _, _, h2, _⟩ := new_ok hc
  obtain ⟨text, h3, h4⟩ := Meta.written hc hr
  rw [hq, hf] at h3
  cases h3 with | markdown h3 =>
  rw [h4, (C23_verdict hr).2, Detects, hq, Meta.encode_prefix]
  exact Meta.markdown hk h2 env.fmt h3

/-- **C113** The Markdown list begins with the errors exactly if there are any. -/
theorem C113_list (hq : job.query = .parse) (hf : job.format = .markdown) :
    Utf8.encode c!"\n\n# Input Errors\n" <+: outputOf env c job ↔ s = .errorsDetected := by
  obtain ⟨text, h3, h4⟩ := Meta.written hc hr
  rw [hq, hf] at h3
  cases h3 with | list h3 =>
  rw [h4, (C23_verdict hr).1, Detects, hq, Meta.encode_prefix]
  exact Meta.list env.fmt h3

end

/-- In the example without faults the reports begin as said, in that with faults they do not. -/
example : ((Controller.new (CtrlExample.env CtrlExample.covering CtrlExample.clean) (CtrlExample.world CtrlExample.cleanFiles)
      CtrlExample.clean c!"p").toOption.map (fun c =>
        ((c.run (CtrlExample.env CtrlExample.covering CtrlExample.clean) (CtrlExample.world CtrlExample.cleanFiles)
            ⟨.trace, .gnuError, c!"-", none⟩).1,
        decide ((Fmt.tracing FmtEnv.example c.tracedGraph .gnuError).text = headingsOnly c.graph),
        decide ((Fmt.tracing FmtEnv.example c.tracedGraph .markdown).text.take 18 = c!"\n\n# Requirements\n\n"),
        decide ((Fmt.requirements FmtEnv.example c.graph .markdown).text.take 4 = c!"\n###")))) = some (.ok .success, true, true, true) ∧
    ((Controller.new (CtrlExample.env RustExample.file CtrlExample.config) (CtrlExample.world CtrlExample.files)
      CtrlExample.config c!"p").toOption.map (fun c =>
        ((c.run (CtrlExample.env RustExample.file CtrlExample.config) (CtrlExample.world CtrlExample.files)
            ⟨.trace, .gnuError, c!"-", none⟩).1,
        decide ((Fmt.tracing FmtEnv.example c.tracedGraph .gnuError).text = headingsOnly c.graph),
        decide ((Fmt.tracing FmtEnv.example c.tracedGraph .markdown).text.take 6 = c!"\n\n# Re")))) =
      some (.ok .errorsDetected, false, false) := by
  decide +kernel

/-- **C113** Jobs that wrote the same JSON, in whatever runs, have found the same. -/
theorem C113_json {env : Env} {c d : Controller} {w w' v v' : World} {job job' : Job} {s s' : JobSuccess}
    (hr : c.run env w job = (.ok s, w')) (hr' : d.run env v job' = (.ok s', v')) (hq : job.query = job'.query)
    (hf : job.format = .json) (hf' : job'.format = .json) (ho : outputOf env c job = outputOf env d job') : s = s' := by
  have key : Detects c job ↔ Detects d job' := by
    unfold outputOf at ho
    have ho := Utf8.encode_injective ho
    unfold Detects
    rw [← hq, hf, hf'] at ho
    rw [← hq]
    cases hj : job.query with
    | trace =>
      rw [hj, if_pos rfl, if_pos rfl] at ho
      simp only
      rw [C65_trace env.fmt _ _ ho]
    | parse =>
      rw [hj, if_neg (by decide), if_neg (by decide)] at ho
      simp only
      have h1 := (C65_parse env.fmt _ _ ho).2
      rw [Meta.parse_iff, Meta.parse_iff, Ne, Ne, ← List.length_eq_zero_iff, h1.length_eq, List.length_eq_zero_iff]
  have h1 := (C23_verdict hr).1
  have h2 := (C23_verdict hr').1
  rw [key, ← h2] at h1
  cases s <;> cases s' <;> simp_all

/-! ## C114 -/

namespace Meta

/-- The directories that are made for an output file. -/
def newDirs (p : Path) : List Path :=
  match parent p with
  | none => []
  | some q => ancestors q

/-- How many operations that takes. -/
def ticks (p : Path) : Nat := if newDirs p = [] then 0 else 1

/-- What a job that is done changes. -/
def effect (os : Os) (base : Path) (text : Job → Bytes) (w : World) (j : Job) : World :=
  if j.file = c!"-" then { w with stdout := w.stdout ++ text j, time := w.time + 1 }
  else { w with
    files := fun q => if q = os.resolve (target base j.file) then some (text j) else w.files q
    dirs := fun d => w.dirs d || ((newDirs (target base j.file)).map os.resolve).contains d
    time := w.time + (ticks (target base j.file) + 2) }

theorem effect_comm {env : Env} {base : Path} {text : Job → Bytes} {j k : Job}
    (h : SamePlace env base j k → text j = text k) (w : World) :
    effect env.os base text (effect env.os base text w j) k = effect env.os base text (effect env.os base text w k) j := by
  unfold effect
  by_cases hj : j.file = c!"-"
  · by_cases hk : k.file = c!"-"
    · rw [if_pos hj, if_pos hk, if_pos hj, if_pos hk, h (.inl ⟨hj, hk⟩)]
    · rw [if_pos hj, if_neg hk, if_neg hk, if_pos hj]
      refine World.ext' rfl rfl rfl rfl ?_
      simp only
      omega
  · by_cases hk : k.file = c!"-"
    · rw [if_neg hj, if_pos hk, if_pos hk, if_neg hj]
      refine World.ext' rfl rfl rfl rfl ?_
      simp only
      omega
    · rw [if_neg hj, if_neg hk, if_neg hk, if_neg hj]
      refine World.ext' ?_ ?_ rfl rfl ?_
      · funext q
        simp only
        by_cases h1 : q = env.os.resolve (target base j.file)
        · by_cases h2 : q = env.os.resolve (target base k.file)
          · simp only [if_pos h1, if_pos h2, h (.inr ⟨hj, hk, h1.symm.trans h2⟩)]
          · simp only [if_pos h1, if_neg h2]
        · simp only [if_neg h1]
      · funext d
        simp only
        rw [Bool.or_assoc, Bool.or_assoc, Bool.or_comm (_root_.List.contains _ d)]
      · simp only
        omega

theorem fold_perm {α β : Type} (f : β → α → β) {l l' : List α} (hp : l.Perm l')
    (hc : ∀ x ∈ l, ∀ y ∈ l, ∀ z, f (f z x) y = f (f z y) x) : ∀ z, l.foldl f z = l'.foldl f z := by
  induction hp with
  | nil => intro z; rfl
  | cons x _ ih =>
    intro z
    exact ih (fun a ha b hb => hc a (List.mem_cons_of_mem _ ha) b (List.mem_cons_of_mem _ hb)) _
  | swap x y l =>
    intro z
    simp only [List.foldl_cons]
    rw [hc y (by simp) x (by simp)]
  | trans h1 _ ih1 ih2 =>
    intro z
    rw [ih1 hc, ih2 (fun a ha b hb => hc a (h1.mem_iff.2 ha) b (h1.mem_iff.2 hb))]

theorem makesDirs_none {os : Os} {path : Path} {w w' : World} (h : MakesDirs os path w none w') :
    w' = { w with dirs := fun d => w.dirs d || ((newDirs path).map os.resolve).contains d, time := w.time + ticks path } := by
  have hsame : newDirs path = [] → w = { w with dirs := fun d => w.dirs d || ((newDirs path).map os.resolve).contains d, time := w.time + ticks path } := by
    intro h0
    unfold ticks
    rw [h0]
    refine World.ext' rfl ?_ rfl rfl rfl
    funext d
    simp
  cases h with
  | top h =>
    refine hsame ?_
    unfold newDirs
    have : parent path = none := by
      cases hp : parent path with
      | none => rfl
      | some q => exact absurd ((parent_iff ..).1 hp) (h q)
    rw [this]
  | here h =>
    refine hsame ?_
    unfold newDirs
    rw [(parent_iff ..).2 h]
    exact (ancestors_iff ..).2 .empty
  | @made q ds _ h1 h2 h3 h4 h5 =>
    have hd : newDirs path = ds := by
      unfold newDirs
      rw [(parent_iff ..).2 h1]
      exact (ancestors_iff ..).2 h3
    have hne : ds ≠ [] := by
      rintro rfl
      generalize hx : ([] : List Path) = x at h3
      cases h3 with
      | empty => exact h2 rfl
      | root => cases hx
      | step => simp at hx
    rw [addsDirs_iff.1 h5, hd, ticks, hd, if_neg hne]

theorem jobRuns_effect {env : Env} {base : Path} {g : Graph} {j : Job} {w w' : World} {text : Job → Bytes}
    (ht : ∀ t, Report env.fmt g j.query j.format t → text j = Utf8.encode t) (h : JobRuns env base g j w .done w') :
    w' = effect env.os base text w j := by
  cases h with
  | done h1 h2 =>
    rw [← ht _ h1] at h2
    unfold effect
    cases h2 with
    | printed h3 _ h4 => rw [if_pos h3]; exact prints_iff.1 h4
    | written h3 h4 _ h5 =>
      rw [if_neg h3, setsFile_iff.1 h5]
      cases h4 with
      | created h6 _ h7 =>
        rw [setsFile_iff.1 h7, makesDirs_none h6]
        refine World.ext' ?_ rfl rfl rfl rfl
        funext q
        simp only [Os.setFile]
        split <;> rfl

theorem jobsRun_effect {env : Env} {base : Path} {g : Graph} {js : List Job} {w w' : World} {text : Job → Bytes}
    {e : JobEnd} (he : e = .done)
    (ht : ∀ j t, Report env.fmt g j.query j.format t → text j = Utf8.encode t) (h : JobsRun env base g js w e w') :
    w' = js.foldl (effect env.os base text) w := by
  induction h with
  | nil => rfl
  | next h1 _ ih => rw [ih he, jobRuns_effect (ht _) h1]; rfl
  | stop hne => exact absurd he hne

theorem jobsOf_perm {jobs : BMap Str Job} {ns ns' : List Str} (hp : ns.Perm ns') : ∀ {js js' : List Job},
    JobsOf jobs ns js → JobsOf jobs ns' js' → js.Perm js' := by
  have map : ∀ {ns : List Str} {js : List Job}, JobsOf jobs ns js → js.map some = ns.map jobs.get := by
    intro ns js h
    induction h with
    | nil => rfl
    | cons h1 _ ih => simp [h1, ih]
  intro js js' h h'
  have h1 : (js.map some).Perm (js'.map some) := by rw [map h, map h']; exact hp.map _
  have h2 := h1.filterMap (fun x => x)
  rw [List.filterMap_map, List.filterMap_map] at h2
  have e : ∀ l : List Job, l.filterMap ((fun x => x) ∘ some) = l := fun l => List.filterMap_some
  rwa [e, e] at h2

/-- A run without a fatal error. -/
theorem ends {env : Env} {opt : Arguments} {w w' : World} {n : Nat} (h : ProgramEnds env opt w n w') (hn : n ≤ 1) :
    ∃ config g js, GoodConfig env w opt.configFile config ∧ IsInput env w config opt.baseDir g ∧
      JobsOf (config.jobs.getD .empty) (requested config opt) js ∧ JobsRun env opt.baseDir g js w .done w' ∧
      (n = 1 ↔ ∃ j ∈ js, Sets j ∧ FindsFault g j) := by
  cases h with
  | badConfig | noInput | noJobs | unknownJob | failed | panics => omega
  | fault h1 h2 _ h3 h4 h5 => exact ⟨_, _, _, h1, h2, h3, h4, iff_of_true rfl h5⟩
  | fine h1 h2 _ h3 h4 h5 => exact ⟨_, _, _, h1, h2, h3, h4, iff_of_false (by decide) h5⟩

end Meta

/-- **C114** Runs of the program with the same jobs in another order, both without a fatal error, end with the same exit
code and leave the same files, directories, standard output and standard error, unless different reports go to the same
place. -/
theorem C114_order {env : Env} {opt opt' : Arguments} {w a b : World} {n m : Nat} (h : Main.main env opt w = (n, a))
    (h' : Main.main env opt' w = (m, b)) (hn : n ≤ 1) (hm : m ≤ 1) (hf : opt.configFile = opt'.configFile)
    (hb : opt.baseDir = opt'.baseDir) (hp : opt.jobs.Perm opt'.jobs)
    (hc : ∀ config, GoodConfig env w opt.configFile config → NoConflict env opt.baseDir config (requested config opt)) :
    n = m ∧ a = b := by
  obtain ⟨config, g, js, g1, g2, g3, g4, g5⟩ := Meta.ends ((C84_program ..).1 h) hn
  obtain ⟨config', g', js', k1, k2, k3, k4, k5⟩ := Meta.ends ((C84_program ..).1 h') hm
  rw [← hf] at k1
  cases GoodConfig_unique g1 k1
  rw [← hb] at k2 k4
  cases isInput_unique g2 k2
  have hreq : (requested config opt).Perm (requested config opt') := by
    unfold requested
    by_cases h0 : opt.jobs = []
    · rw [if_pos h0, if_pos (by rw [h0] at hp; exact hp.nil_eq.symm)]
    · rw [if_neg h0, if_neg (fun h1 => h0 (by rw [h1] at hp; exact hp.eq_nil))]
      exact hp
  have hjs := Meta.jobsOf_perm hreq g3 k3
  constructor
  · have : n = 1 ↔ m = 1 := by
      rw [g5, k5]
      simp only [hjs.mem_iff]
    omega
  · have hn := (C82_controller env w config opt.baseDir _).2 ⟨g, g2, rfl⟩
    let c : Controller := ⟨opt.baseDir, g, traced g, config.jobs.getD .empty, config.defaultJobs.getD []⟩
    have hn : Controller.new env w config opt.baseDir = .ok c := hn
    have ht : ∀ (j : Job) t, Report env.fmt g j.query j.format t → outputOf env c j = Utf8.encode t := by
      intro j t ht
      have h1 := (output_report hn j t).1 ht
      rw [← output_text, h1]
      rfl
    rw [Meta.jobsRun_effect rfl ht g4, Meta.jobsRun_effect rfl ht k4]
    refine Meta.fold_perm _ hjs ?_ w
    intro j hj k hk z
    refine Meta.effect_comm ?_ z
    intro hs
    obtain ⟨n1, m1, e1⟩ := (g3.mem j).1 hj
    obtain ⟨n2, m2, e2⟩ := (g3.mem k).1 hk
    obtain ⟨q1, q2⟩ := hc config g1 n1 m1 n2 m2 j k e1 e2 hs
    unfold outputOf
    rw [q1, q2]

/-- In the example, two jobs in both orders; their outputs do not get in each other's way. -/
example : NoConflict (CtrlExample.env RustExample.file CtrlExample.config) c!"p" CtrlExample.config [c!"trace", c!"export"] ∧
    [[c!"trace", c!"export"], [c!"export", c!"trace"]].map (fun names =>
      let r := Main.main (CtrlExample.env RustExample.file CtrlExample.config) ⟨c!"requirements.toml", c!"p", names⟩
        (CtrlExample.world CtrlExample.files)
      (r.1, r.2.time, (r.2.files c!"p/out/trace.txt").map List.length, r.2.stdout.length)) =
      [(1, 4, some 530, 3564), (1, 4, some 530, 3564)] := by
  constructor
  · intro n hn m hm j k hj hk hs
    simp only [List.mem_cons, List.not_mem_nil, or_false] at hn hm
    have e1 : (CtrlExample.config.jobs.getD .empty).get c!"trace" = some ⟨.trace, .gnuError, c!"out/trace.txt", none⟩ := by
      decide +kernel
    have e2 : (CtrlExample.config.jobs.getD .empty).get c!"export" = some ⟨.parse, .json, c!"-", some false⟩ := by
      decide +kernel
    rcases hn with rfl | rfl <;> rcases hm with rfl | rfl <;> simp only [e1, e2, Option.some.injEq] at hj hk <;> subst hj hk
    · exact ⟨rfl, rfl⟩
    · rcases hs with ⟨h1, -⟩ | ⟨-, h1, -⟩
      · exact absurd h1 (by decide)
      · exact absurd rfl h1
    · rcases hs with ⟨-, h1⟩ | ⟨h1, -⟩
      · exact absurd h1 (by decide)
      · exact absurd rfl h1
    · exact ⟨rfl, rfl⟩
  · decide +kernel

end Reqtrace
