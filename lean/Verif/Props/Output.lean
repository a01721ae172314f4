import Verif.Lemmas.Json
import Verif.Props.Report
import Verif.Spec.Output

/-!
# C85: the texts of all reports
-/

set_option linter.unusedSimpArgs false

namespace Reqtrace

open Spec Out

/-! ## Small texts -/

theorem filterMap_eq_flatMap {α β : Type} (f : α → Option β) (l : List α) :
    l.filterMap f = l.flatMap fun a => (f a).toList := by
  induction l with
  | nil => rfl
  | cons a l ih =>
    rw [List.filterMap_cons, List.flatMap_cons, ← ih]
    cases f a <;> rfl

theorem escapeDebug_eq (env : FmtEnv) (c : Char) : env.escapeDebug c = quotedChar env.plain c := by
  unfold FmtEnv.escapeDebug quotedChar
  by_cases h1 : c = Char.ofNat 0
  · subst h1; rfl
  by_cases h2 : c = '\t'
  · subst h2; rfl
  by_cases h3 : c = '\r'
  · subst h3; rfl
  by_cases h4 : c = '\n'
  · subst h4; rfl
  by_cases h5 : c = '"'
  · subst h5; rfl
  by_cases h6 : c = '\\'
  · subst h6; rfl
  have hb : ∀ d : Char, c ≠ d → (c == d) = false := fun d h => beq_eq_false_iff_ne.2 h
  simp only [List.lookup, if_neg h1, if_neg h2, if_neg h3, if_neg h4, if_neg h5, if_neg h6, hb _ h2, hb _ h3, hb _ h4,
    hb _ h5, hb _ h6, hb '\x00' h1]

theorem debugStr_eq (env : FmtEnv) (s : Str) : env.debugStr s = quoted env s := by
  unfold FmtEnv.debugStr quoted
  rw [show env.escapeDebug = quotedChar env.plain from funext (escapeDebug_eq env)]

theorem debugId_eq (env : FmtEnv) (a : ArtefactId) : env.debugId a = quotedId env a := by
  unfold FmtEnv.debugId quotedId
  rw [debugStr_eq]

theorem location_display (loc : Location) : loc.display = placeText loc := by
  unfold Location.display placeText
  rcases loc.locationInFile with _ | (_ | _ | _) <;> simp [LocationInFile.display]

theorem error_display (e : Error) : e.display = message e := by
  cases e <;> simp only [Error.display, message, location_display, relation_display]

theorem sortedBy_unique {α : Type} {key : α → Str} {l m n : List α} (h1 : SortedBy key l m) (h2 : SortedBy key l n) :
    m = n := by
  obtain ⟨p1, s1, f1⟩ := h1
  obtain ⟨p2, s2, f2⟩ := h2
  have hf : ∀ k, m.filter (fun a => key a = k) = n.filter (fun a => key a = k) := fun k => (f1 k).trans (f2 k).symm
  clear f1 f2 p1 p2
  induction m generalizing n with
  | nil =>
    cases n with
    | nil => rfl
    | cons b n => have := hf (key b); simp at this
  | cons a m ih =>
    cases n with
    | nil => have := hf (key a); simp at this
    | cons b n =>
      have ha : a ∈ b :: n := (List.mem_filter.1 ((hf (key a)) ▸ List.mem_filter.2 ⟨List.mem_cons_self .., by simp⟩)).1
      have hb : b ∈ a :: m := (List.mem_filter.1 ((hf (key b)).symm ▸ List.mem_filter.2 ⟨List.mem_cons_self .., by simp⟩)).1
      rw [List.pairwise_cons] at s1 s2
      have hkey : key a = key b := by
        rcases List.mem_cons.1 ha with rfl | ha
        · rfl
        · rcases List.mem_cons.1 hb with rfl | hb
          · rfl
          · have h1 := s1.1 b hb
            have h2 := s2.1 a ha
            apply Std.LawfulEqOrd.eq_of_compare
            rcases hc : compare (key a) (key b) with _ | _ | _
            · rw [Std.OrientedOrd.eq_swap, hc] at h2
              exact absurd rfl h2
            · rfl
            · exact absurd hc h1
      have := hf (key a)
      simp only [List.filter_cons, hkey, decide_true, if_true, List.cons.injEq] at this
      obtain ⟨rfl, _⟩ := this
      refine congrArg _ (ih s1.2 s2.2 ?_)
      intro k
      have := hf k
      simp only [List.filter_cons] at this
      split at this
      · exact (List.cons.inj this).2
      · exact this

theorem sortedBy_sort {α : Type} (key : α → Str) (l : List α) : SortedBy key l (sortByKey key l) :=
  ⟨sort_perm key l, sort_sorted key l, sort_stable key l⟩

theorem sortedBy_iff {α : Type} {key : α → Str} {l m : List α} : SortedBy key l m ↔ m = sortByKey key l :=
  ⟨fun h => sortedBy_unique h (sortedBy_sort key l), fun h => h ▸ sortedBy_sort key l⟩

theorem tagLines_iff {rs : List Requirement} {ls : List Str} : TagLines rs ls ↔ ls = Tags.lines rs :=
  ⟨fun h => C50_lines_determined h (tagLines_of rs), fun h => h ▸ tagLines_of rs⟩

theorem put_inj {s t : Str} : put s = put t ↔ s = t := ⟨fun h => congrArg Out.text h, fun h => h ▸ rfl⟩

/-- **C85** The list for ctags. -/
theorem C85_tags (env : FmtEnv) (g : Graph) (t : Str) : Fmt.requirements env g .tags = put t ↔ TagsText g t := by
  show Tags.requirements g = put t ↔ _
  unfold Tags.requirements TagsText
  rw [Out.all_put, allRequirements_eq, Out.seq_put_put, put_inj]
  constructor
  · rintro rfl
    exact ⟨_, _, tagLines_iff.2 rfl, sortedBy_iff.2 rfl, rfl⟩
  · rintro ⟨u, s, h1, h2, rfl⟩
    rw [tagLines_iff.1 h1] at h2
    rw [sortedBy_iff.1 h2]
    rfl

/-! ## Compiler errors -/

theorem gnu_errorText (env : FmtEnv) (e : Error) : GnuErr.errorText env e = gnuText (gnuLines env e) := by
  have ht : ∀ r, GnuErr.titleOf r = titleOr c!"<no title>" r := by
    intro r; unfold GnuErr.titleOf titleOr; cases r.title <;> rfl
  have hi : env.debugId = quotedId env := funext (debugId_eq env)
  cases e <;> simp [GnuErr.errorText, gnuLines, gnuText, location_display, ht, debugStr_eq, debugId_eq, FmtEnv.debugRelation,
    joinStr_intercalate, hi]

theorem gnu_errors (env : FmtEnv) (es : List Error) :
    es.flatMap (GnuErr.errorText env) = gnuText (es.flatMap (gnuLines env)) := by
  have : GnuErr.errorText env = fun e => gnuText (gnuLines env e) := funext (gnu_errorText env)
  rw [this]
  unfold gnuText
  rw [List.flatMap_assoc]

theorem derived_entries (g : Graph) :
    (derivedMap g).entries = g.artefacts.entries.map fun e => (e.1, derived g e.1 e.2) := by
  unfold derivedMap
  have := JsonRead.ofList_entries (⟨g.artefacts.entries.map fun e => (e.1, derived g e.1 e.2),
    List.pairwise_map.2 g.artefacts.sorted⟩ : BMap ArtefactId (List RequirementId))
  rw [this]

section
variable {g : Graph} {tg : TracedGraph} (hk : Keyed g) (h : trace g = .ok tg)
include hk h

/-- **C85** The report in the form of compiler errors. -/
theorem C85_gnu (env : FmtEnv) : Fmt.tracing env tg .gnuError = put (gnuReport env g) := by
  obtain ⟨unc, der, e, ht⟩ := C54_gnu_report hk h env
  have hu := @uncovered_entry g tg hk h
  have hd := @derived_entry g tg hk h
  obtain ⟨f1, _⟩ := C11_frame hk h
  obtain ⟨_, rfl⟩ := (trace_ok_iff hk tg).1 h
  rw [e, put_inj]
  unfold gnuReport
  have line : ∀ (a : ArtefactId) (art : Artefact) (what : Str) (text : RequirementId → Str) (ids : List RequirementId),
      g.artefacts.get a = some art → (∀ id ∈ ids, ∃ r, art.requirements.get id = some r) →
      (∀ id r, art.requirements.get id = some r → text id = r.location.display ++ c!": " ++ id ++ (what ++ c!"\n")) →
      ids.flatMap text = gnuText (gnuAbout g a what ids) := by
    intro a art what text ids ha hids htext
    unfold gnuText gnuAbout
    rw [List.flatMap_assoc]
    apply flatMap_congr_mem
    intro id hid
    obtain ⟨r, hr⟩ := hids id hid
    rw [htext id r hr, ha]
    simp [hr, location_display]
  rw [gnu_errors, gnu_errors]
  congr 1
  · congr 2
    show (g.relations.map (tracedRelation g)).flatMap _ = _
    rw [List.flatMap_map]
    apply flatMap_congr_mem
    intro rel hrel
    obtain ⟨art, h1, h2⟩ := hu (List.mem_map.2 ⟨rel, hrel, rfl⟩)
    show c!"## " ++ rel.display ++ c!"\n" ++ (uncovered g rel).flatMap (unc rel.upper) = _
    rw [relation_display, line rel.upper art c!" Uncovered" _ _ h1 (fun id hid => ?_) (fun id r hr => ?_)]
    · obtain ⟨r, hr, _⟩ := h2 id hid
      exact ⟨r, hr⟩
    · have := (ht rel.upper _ _ _ h1 hr).1
      rw [this]
      simp
  · show (derivedMap g).entries.flatMap _ = _
    have hd' : ∀ e ∈ (derivedMap g).entries, _ := fun e he => hd he
    rw [derived_entries] at hd' ⊢
    rw [List.flatMap_map]
    apply flatMap_congr_mem
    intro e he
    obtain ⟨art, h1, h2⟩ := hd' _ (List.mem_map.2 ⟨e, he, rfl⟩)
    show c!"## " ++ e.1 ++ c!"\n" ++ (derived g e.1 e.2).flatMap (der e.1) = _
    rw [line e.1 art c!" Derived" _ _ h1 (fun id hid => ?_) (fun id r hr => ?_)]
    · obtain ⟨r, hr, _⟩ := h2 id hid
      exact ⟨r, hr⟩
    · have := (ht e.1 _ _ _ h1 hr).2
      rw [this]
      simp

end

/-! ## Markdown -/

theorem anchor_iff {s t : Str} : Anchor s t ↔ t = (s.map (fun c => if c == ' ' then '-' else c)).filter MdOut.keep := by
  constructor
  · intro h
    induction h with
    | nil => rfl
    | blank _ ih => rw [ih]; rfl
    | @kept c s t hc _ ih =>
      have hne : (c == ' ') = false := by
        rw [beq_eq_false_iff_ne]
        rintro rfl
        revert hc
        unfold AnchorChar
        decide
      simp only [List.map_cons, hne, Bool.false_eq_true, if_false]
      rw [List.filter_cons_of_pos ((keep_iff c).2 hc), ih]
    | @dropped c s t hne hc _ ih =>
      have hne : (c == ' ') = false := by simpa using hne
      simp only [List.map_cons, hne, Bool.false_eq_true, if_false]
      rw [List.filter_cons_of_neg (fun hh => hc ((keep_iff c).1 hh)), ih]
  · rintro rfl
    induction s with
    | nil => exact .nil
    | cons c s ih =>
      by_cases hb : c = ' '
      · subst hb
        exact .blank ih
      · have hne : (c == ' ') = false := by simpa using hb
        simp only [List.map_cons, hne, Bool.false_eq_true, if_false]
        by_cases hc : MdOut.keep c = true
        · rw [List.filter_cons_of_pos hc]
          exact .kept ((keep_iff c).1 hc) ih
        · rw [List.filter_cons_of_neg hc]
          exact .dropped hb (fun hh => hc ((keep_iff c).2 hh)) ih

theorem link_iff {env : FmtEnv} {r : Requirement} {t : Str} : Link env r t ↔ t = MdOut.requirementLink env r := by
  unfold MdOut.requirementLink MdOut.anchorText
  constructor
  · intro h
    cases h with
    | titled h1 h2 => rw [h1, anchor_iff.1 h2]
    | untitled h1 h2 => rw [h1, anchor_iff.1 h2]
  · rintro rfl
    cases h : r.title with
    | some t => exact .titled h (anchor_iff.2 rfl)
    | none => exact .untitled h (anchor_iff.2 rfl)

theorem links_iff {env : FmtEnv} {link : Requirement → Str} : (∀ r, Link env r (link r)) ↔ link = MdOut.requirementLink env :=
  ⟨fun h => funext fun r => link_iff.1 (h r), fun h r => link_iff.2 (by rw [h])⟩

theorem md_errorText (env : FmtEnv) : MdOut.errorText env = markdownError (MdOut.requirementLink env) := by
  have ht : ∀ r : Requirement, r.title.getD [] = titleOr [] r := by
    intro r; unfold titleOr; cases r.title <;> rfl
  funext e
  cases e <;> simp only [MdOut.errorText, markdownError, location_display, relation_display, placeLink_eq, ht,
    List.append_assoc] <;> rfl

theorem inputErrors_eq (env : FmtEnv) (g : Graph) :
    problemSection c!"Input Errors" ((g.artefacts.values.filter (fun a => !a.errors.isEmpty)).map fun a =>
      (a.id, a.errors.flatMap (MdOut.errorText env))) = inputErrorsText (MdOut.requirementLink env) g := by
  unfold inputErrorsText BMap.values
  rw [List.filter_map, List.map_map, md_errorText]
  congr 2
  apply List.filter_congr
  intro e _
  cases h : e.2.errors <;> simp [h]

theorem entry_iff {entry : Requirement → Str} : (∀ r, RequirementEntry r (entry r)) ↔ entry = MdOut.requirement :=
  ⟨fun h => funext fun r => C72_determined (h r) (requirementEntry r), fun h r => h ▸ requirementEntry r⟩

/-- **C85** The Markdown list of requirements. -/
theorem C85_list (env : FmtEnv) (g : Graph) (t : Str) :
    Fmt.requirements env g .markdown = put t ↔ MarkdownList env g t := by
  have e : Fmt.requirements env g .markdown = put (inputErrorsText (MdOut.requirementLink env) g ++
      (sortByKey Requirement.id (requirementsOf g.artefacts)).flatMap MdOut.requirement) := by
    show MdOut.requirements env g = _
    unfold MdOut.requirements MdOut.inputErrors
    rw [MdOut.section_ok _ _ _ (fun a : Artefact => MdOut.subHeadline a.id ++ a.errors.flatMap (MdOut.errorText env))
      false, problemSection_eq, inputErrors_eq, allRequirements_eq]
    · rfl
    · intro a _ _; rfl
  rw [e, put_inj]
  unfold MarkdownList
  constructor
  · rintro rfl
    exact ⟨_, _, _, links_iff.2 rfl, entry_iff.2 rfl, sortedBy_iff.2 rfl, rfl⟩
  · rintro ⟨link, entry, reqs, h1, h2, h3, rfl⟩
    rw [links_iff.1 h1, entry_iff.1 h2, sortedBy_iff.1 h3]

theorem echoOnce_eq (seen l : List Str) : MdOut.echoOnce seen l = (firsts l).filter (fun t => t ∉ seen) := by
  induction l generalizing seen with
  | nil => rfl
  | cons s l ih =>
    rw [MdOut.echoOnce, firsts, ih, ih]
    by_cases hs : s ∈ seen
    · rw [if_pos hs, List.filter_cons_of_neg (by simpa using hs), List.filter_filter]
      apply List.filter_congr
      intro t _
      by_cases ht : t = s
      · subst ht; simp [hs]
      · simp [ht]
    · rw [if_neg hs, List.filter_cons_of_pos (by simpa using hs), List.filter_filter]
      congr 1
      apply List.filter_congr
      intro t _
      by_cases ht : t = s
      · subst ht; simp
      · simp [ht]

theorem tracingErrors_eq (env : FmtEnv) (es : List Error) :
    (MdOut.tracingErrors env es).text = if es = [] then []
      else c!"\n\n# Tracing Errors\n\n" ++ (firsts (es.map (markdownError (MdOut.requirementLink env)))).flatten := by
  unfold MdOut.tracingErrors Out.when
  cases es with
  | nil => rfl
  | cons e es =>
    rw [if_pos (by simp), if_neg (by simp), echoOnce_eq, md_errorText]
    have : ∀ l : List Str, l.filter (fun t => t ∉ ([] : List Str)) = l := fun l => List.filter_eq_self.2 (by simp)
    rw [this]
    rfl

theorem shown_iff {g : Graph} {id : RequirementId} {a : ArtefactId} {r : Requirement} :
    shown g id = some (a, r) ↔ (∃ art, g.artefacts.get a = some art ∧ art.requirements.get id = some r) ∧
      ∀ b art, g.artefacts.get b = some art → (art.requirements.get id).isSome → compare b a ≠ .gt := by
  have hmem : ∀ b s, (b, s) ∈ (g.artefacts.entries.filterMap fun e => (e.2.requirements.get id).map fun r => (e.1, r)) ↔
      ∃ art, g.artefacts.get b = some art ∧ art.requirements.get id = some s := by
    intro b s
    simp only [List.mem_filterMap, BMap.get_eq_some_iff]
    constructor
    · rintro ⟨⟨c, art⟩, h1, h2⟩
      cases h3 : art.requirements.get id with
      | none => simp [h3] at h2
      | some r => 
        simp [h3] at h2
        obtain ⟨rfl, rfl⟩ := h2
        exact ⟨art, h1, (BMap.get_eq_some_iff _ _ _).1 h3⟩
    · rintro ⟨art, h1, h2⟩
      exact ⟨(b, art), h1, by simp [(BMap.get_eq_some_iff _ _ _).2 h2]⟩
  have hsort : (g.artefacts.entries.filterMap fun e => (e.2.requirements.get id).map fun r => (e.1, r)).Pairwise
      (fun x y => compare x.1 y.1 = .lt) := by
    rw [List.pairwise_filterMap]
    refine g.artefacts.sorted.imp ?_
    intro x y hxy p hp q hq
    simp only [Option.map_eq_some_iff] at hp hq
    obtain ⟨_, _, rfl⟩ := hp
    obtain ⟨_, _, rfl⟩ := hq
    exact hxy
  unfold shown
  generalize (g.artefacts.entries.filterMap fun e => (e.2.requirements.get id).map fun r => (e.1, r)) = l at hmem hsort
  constructor
  · intro hl
    obtain ⟨l', rfl⟩ := List.getLast?_eq_some_iff.1 hl
    refine ⟨(hmem a r).1 (by simp), ?_⟩
    intro b art h1 h2
    obtain ⟨s, hs⟩ := Option.isSome_iff_exists.1 h2
    have hb := (hmem b s).2 ⟨art, h1, hs⟩
    rw [List.pairwise_append] at hsort
    rcases List.mem_append.1 hb with hb | hb
    · have := hsort.2.2 _ hb _ (List.mem_singleton.2 rfl)
      simp only at this
      rw [this]; decide
    · cases List.mem_singleton.1 hb
      simp
  · rintro ⟨h1, h2⟩
    have ha := (hmem a r).2 h1
    obtain ⟨l', ⟨b, s⟩, rfl⟩ : ∃ l' x, l = l' ++ [x] := by
      rcases List.eq_nil_or_concat l with rfl | ⟨l', x, h⟩
      · simp at ha
      · exact ⟨l', x, by simpa using h⟩
    obtain ⟨art, g1, g2⟩ := (hmem b s).1 (by simp)
    have hle := h2 b art g1 (by rw [g2]; rfl)
    rw [List.pairwise_append] at hsort
    rcases List.mem_append.1 ha with hb | hb
    · have := hsort.2.2 _ hb _ (List.mem_singleton.2 rfl)
      simp only at this
      rw [Std.OrientedOrd.eq_swap, this] at hle
      exact absurd rfl hle
    · simp only [List.mem_singleton] at hb
      rw [hb]
      simp

section
variable {g : Graph} {tg : TracedGraph} (hk : Keyed g) (h : trace g = .ok tg)
variable {ag : AggregatedGraph} (ha : aggregate tg = .ok ag)
include hk h ha

theorem shown_eq (id : RequirementId) :
    shown g id = (ag.requirements.get id).map fun rt => (rt.artefact.id, rt.requirement) := by
  obtain ⟨f1, _⟩ := C11_frame hk h
  obtain ⟨h1, h2⟩ := C15_requirements hk h ha id
  cases hrt : ag.requirements.get id with
  | some rt =>
    obtain ⟨a, g1, g2, g3⟩ := h2 rt hrt
    rw [Option.map_some, shown_iff]
    refine ⟨⟨rt.artefact, by rw [hk.artefact _ _ g1]; exact g1, g2⟩, ?_⟩
    intro b art hb hs
    obtain ⟨s, hs⟩ := Option.isSome_iff_exists.1 hs
    rw [hk.artefact _ _ g1]
    exact g3 b ⟨art, s, by rw [f1]; exact hb, hs⟩
  | none =>
    rw [Option.map_none]
    cases hs : shown g id with
    | none => rfl
    | some x =>
      obtain ⟨⟨art, g1, g2⟩, _⟩ := shown_iff.1 (show shown g id = some (x.1, x.2) from hs)
      have := h1.2 ⟨x.1, art, x.2, by rw [f1]; exact g1, g2⟩
      rw [hrt] at this
      cases this

theorem shown_req (id : RequirementId) : (shown g id).map Prod.snd = (ag.requirements.get id).map (·.requirement) := by
  rw [shown_eq hk h ha, Option.map_map]
  rfl

theorem shown_covers {id : RequirementId} {rt : RequirementTrace} (hrt : ag.requirements.get id = some rt) {rel : Relation}
    {l : List (Requirement × Location)} (hl : rt.covers.get rel = some l) : l = shownAbove g rel id := by
  rw [((C15_covers hk h ha hrt rel).2 l hl).1, coveragesAlong_eq hk h]
  unfold shownAbove
  rw [List.filter_flatMap, List.filterMap_flatMap]
  apply flatMap_congr_mem
  intro rel' _
  rw [List.filter_map, List.filterMap_map]
  show List.filterMap _ ((relEvents g rel').filter (fun e => e.lower.id = id)) = _
  rw [filterMap_eq_flatMap]
  apply flatMap_congr_mem
  intro e _
  rw [shown_eq hk h ha]
  simp only [Function.comp, Event.coverage]
  cases ag.requirements.get e.upper.id <;> rfl

theorem shown_depends {id : RequirementId} {rt : RequirementTrace} (hrt : ag.requirements.get id = some rt) {rel : Relation}
    {l : List (Requirement × Location)} (hl : rt.depends.get rel = some l) : l = shownBelow g rel id := by
  rw [((C15_depends hk h ha hrt rel).2 l hl).1, coveragesAlong_eq hk h]
  unfold shownBelow
  rw [List.filter_flatMap, List.filterMap_flatMap]
  apply flatMap_congr_mem
  intro rel' _
  rw [List.filter_map, List.filterMap_map]
  show List.filterMap _ ((relEvents g rel').filter (fun e => e.upper.id = id)) = _
  rw [filterMap_eq_flatMap]
  apply flatMap_congr_mem
  intro e _
  rw [shown_eq hk h ha]
  simp only [Function.comp, Event.coverage]
  cases ag.requirements.get e.lower.id <;> rfl

omit ha in
theorem has_iff_hasId (b : ArtefactId) (id : RequirementId) : Has tg b id ↔ HasId g b id := by
  obtain ⟨f1, _⟩ := C11_frame hk h
  constructor
  · rintro ⟨art, r, h1, h2⟩
    rw [f1] at h1
    have hid := hk.requirement _ _ h1 _ _ h2
    exact ⟨r, ⟨art, h1, by rw [hid]; exact h2⟩, hid⟩
  · rintro ⟨r, ⟨art, h1, h2⟩, rfl⟩
    exact ⟨art, r, by rw [f1]; exact h1, h2⟩

theorem tracedRequirement_shown (env : FmtEnv) {id : RequirementId} {rt : RequirementTrace}
    (hrt : ag.requirements.get id = some rt) : rt.requirement.id = id ∧
    ShownSection (MdOut.requirementLink env) g rt.artefact.id rt.requirement (MdOut.tracedRequirement env rt) := by
  obtain ⟨a, g1, g2, g3⟩ := (C15_requirements hk h ha id).2 rt hrt
  have hid := hk.requirement _ _ g1 _ _ g2
  refine ⟨hid, rt.covers.keys, rt.depends.keys, _, ⟨?_, ?_⟩, ⟨?_, ?_⟩, otherAttributes_spec rt.requirement.attributes, ?_⟩
  · intro rel
    rw [BMap.mem_keys_iff, ← Option.isSome_iff_exists, (C15_covers hk h ha hrt rel).1, hid]
    simp only [has_iff_hasId hk h]
  · exact List.pairwise_map.2 rt.covers.sorted
  · intro rel
    rw [BMap.mem_keys_iff, ← Option.isSome_iff_exists, (C15_depends hk h ha hrt rel).1, hid]
    simp only [has_iff_hasId hk h]
  · exact List.pairwise_map.2 rt.depends.sorted
  · rw [hid]
    have e1 := BMap.entries_eq rt.covers (fun rel => shownAbove g rel id) (fun rel l hl => shown_covers hk h ha hrt hl)
    have e2 := BMap.entries_eq rt.depends (fun rel => shownBelow g rel id) (fun rel l hl => shown_depends hk h ha hrt hl)
    have e3 : MdOut.coverageItem env = coverageText (MdOut.requirementLink env) := funext (coverageItem_eq env)
    unfold MdOut.tracedRequirement headingText
    rw [e1, e2, e3, placeLink_eq, description_eq]
    simp only [List.flatMap_map, List.all_map, List.append_assoc, relation_display]
    have e4 : (rt.covers.keys.all ((fun e : Relation × List (Requirement × Location) => e.2.isEmpty) ∘
        fun k => (k, shownAbove g k id)) = true) = ∀ rel ∈ rt.covers.keys, shownAbove g rel id = [] := by
      simp [List.all_eq_true]
    have e5 : ∀ rel, (if (shownBelow g rel id).isEmpty = true then c!"    *    UNCOVERED\n" else []) ++
        (shownBelow g rel id).flatMap (coverageText (MdOut.requirementLink env)) =
        if shownBelow g rel id = [] then c!"    *    UNCOVERED\n"
          else (shownBelow g rel id).flatMap (coverageText (MdOut.requirementLink env)) := by
      intro rel
      cases shownBelow g rel id <;> simp
    simp only [e5, e4]
    rfl

end

theorem shownSection_unique {link : Requirement → Str} {g : Graph} {a : ArtefactId} {r : Requirement} {s t : Str}
    (h1 : ShownSection link g a r s) (h2 : ShownSection link g a r t) : s = t := by
  obtain ⟨x, y, z, hx, hy, hz, rfl⟩ := h1
  obtain ⟨x', y', z', hx', hy', hz', rfl⟩ := h2
  have key : ∀ (P : Relation → Prop) {x x' : List Relation}, RelationsWith g P x → RelationsWith g P x' → x = x' := by
    intro P x x' hx hx'
    exact BMap.keys_ext hx.2 hx'.2 (fun rel => (hx.1 rel).trans (hx'.1 rel).symm)
  rw [key _ hx hx', key _ hy hy', otherAttributes_unique hz hz']

theorem shown_of_get {g : Graph} {a : ArtefactId} {art : Artefact} {id : RequirementId} {r : Requirement}
    (h1 : g.artefacts.get a = some art) (h2 : art.requirements.get id = some r) : ∃ b s, shown g id = some (b, s) := by
  cases hs : shown g id with
  | some x => exact ⟨x.1, x.2, rfl⟩
  | none =>
    unfold shown at hs
    rw [List.getLast?_eq_none_iff, List.filterMap_eq_nil_iff] at hs
    have := hs _ ((BMap.get_eq_some_iff _ _ _).1 h1)
    simp [h2] at this

theorem markdownTrace_unique {env : FmtEnv} {g : Graph} {s t : Str} (h1 : MarkdownTrace env g s)
    (h2 : MarkdownTrace env g t) : s = t := by
  obtain ⟨l1, b1, hl1, hb1, rfl⟩ := h1
  obtain ⟨l2, b2, hl2, hb2, rfl⟩ := h2
  cases links_iff.1 hl1
  cases links_iff.1 hl2
  congr 1
  apply flatMap_congr_mem
  intro e he
  congr 1
  apply flatMap_congr_mem
  intro r hr
  obtain ⟨b, s, hs⟩ := shown_of_get ((BMap.get_eq_some_iff _ _ _).2 he) ((BMap.get_eq_some_iff _ _ _).2 hr)
  exact shownSection_unique (hb1 _ _ _ hs) (hb2 _ _ _ hs)

/-- **C85** The Markdown report of a trace, also for graphs in which an id is defined twice. -/
theorem C85_markdown {g : Graph} {tg : TracedGraph} (hk : Keyed g) (h : trace g = .ok tg) (hr : RelationsExist g)
    (env : FmtEnv) (t : Str) : Fmt.tracing env tg .markdown = put t ↔ MarkdownTrace env g t := by
  obtain ⟨ag, ha⟩ := (C14_aggregate_ok_iff_partial hk h).2 hr
  obtain ⟨tracing, link, full, e, e2, _, _, hf⟩ := markdown_report hk h ha env
  have hu := @uncovered_entry g tg hk h
  have hd := @derived_entry g tg hk h
  obtain ⟨f1, _⟩ := C11_frame hk h
  have hitem : ∀ id b s, shown g id = some (b, s) → link id = shownItem (MdOut.requirementLink env) g id := by
    intro id b s hs
    obtain ⟨⟨art, g1, g2⟩, _⟩ := shown_iff.1 hs
    obtain ⟨rt, g3, _, g4, _⟩ := hf b art id s g1 g2
    unfold shownItem
    rw [g4, shown_eq hk h ha, g3]
    simp
  have hitem' : ∀ a art id r, g.artefacts.get a = some art → art.requirements.get id = some r →
      link id = shownItem (MdOut.requirementLink env) g id := by
    intro a art id r h1 h2
    obtain ⟨b, s, hs⟩ := shown_of_get h1 h2
    exact hitem id b s hs
  have main : ∃ t0, Fmt.tracing env tg .markdown = put t0 ∧ MarkdownTrace env g t0 := by
    refine ⟨_, e, MdOut.requirementLink env, full, links_iff.2 rfl, ?_, ?_⟩
    · intro id a r hs
      obtain ⟨⟨art, g1, g2⟩, _⟩ := shown_iff.1 hs
      obtain ⟨rt, g3, _, _, g5⟩ := hf a art id r g1 g2
      have := shown_eq hk h ha id
      rw [hs, g3] at this
      simp only [Option.map_some, Option.some.injEq, Prod.mk.injEq] at this
      rw [g5, this.1, this.2]
      exact (tracedRequirement_shown hk h ha env g3).2
    · obtain ⟨_, rfl⟩ := (trace_ok_iff hk tg).1 h
      rw [inputErrors_eq, e2, tracingErrors_eq]
      congr 1
      · congr 1
        congr 1
        · congr 1
          congr 1
          show ((g.relations.map (tracedRelation g)).filter _).map _ = _
          rw [List.filter_map, List.map_map]
          have : g.relations.filter ((fun tr : TracedRelation => !tr.uncovered.isEmpty) ∘ tracedRelation g) =
              g.relations.filter (fun rel => uncovered g rel ≠ []) := by
            apply List.filter_congr
            intro rel _
            show (!(uncovered g rel).isEmpty) = _
            cases uncovered g rel <;> simp
          rw [this]
          apply List.map_congr_left
          intro rel hrel
          show (rel.display, (uncovered g rel).flatMap link) = _
          rw [relation_display]
          congr 1
          apply flatMap_congr_mem
          intro id hid
          obtain ⟨art, h1, h2⟩ := hu (List.mem_map.2 ⟨rel, (List.mem_filter.1 hrel).1, rfl⟩)
          obtain ⟨r, hr, _⟩ := h2 id hid
          exact hitem' _ _ _ _ h1 hr
        · congr 1
          have hd' : ∀ e ∈ (derivedMap g).entries, _ := fun e he => hd he
          show ((derivedMap g).entries.filter _).map _ = _
          rw [derived_entries] at hd' ⊢
          rw [List.filter_map, List.map_map]
          have : g.artefacts.entries.filter ((fun e : ArtefactId × List RequirementId => !e.2.isEmpty) ∘
              fun e => (e.1, derived g e.1 e.2)) = g.artefacts.entries.filter (fun e => derived g e.1 e.2 ≠ []) := by
            apply List.filter_congr
            intro e _
            show (!(derived g e.1 e.2).isEmpty) = _
            cases derived g e.1 e.2 <;> simp
          rw [this]
          apply List.map_congr_left
          intro e he
          show (e.1, (derived g e.1 e.2).flatMap link) = _
          congr 1
          apply flatMap_congr_mem
          intro id hid
          obtain ⟨art, h1, h2⟩ := hd' _ (List.mem_map.2 ⟨e, (List.mem_filter.1 he).1, rfl⟩)
          obtain ⟨r, hr, _⟩ := h2 id hid
          exact hitem' _ _ _ _ h1 hr
      · unfold BMap.values BMap.keys
        rw [List.flatMap_map]
        simp only [List.flatMap_map]
  obtain ⟨t0, h0, h1⟩ := main
  rw [h0, put_inj]
  constructor
  · rintro rfl
    exact h1
  · intro h2
    exact markdownTrace_unique h1 h2

/-! ## JSON -/

namespace JsonProof

open Spec.JsonOut Json

theorem digitChar_hex : ∀ n < 16, Nat.digitChar n = hexDigit n := by decide

theorem escaped_iff {c : Char} {t : Str} : Escaped c t ↔ t = escape c := by
  constructor
  · intro h
    cases h with
    | control h1 h2 h3 h4 =>
      rename_i x y
      have hx : x < 2 := by omega
      have e1 : c.toNat / 16 = x := by omega
      have e2 : c.toNat % 16 = y := by omega
      have hne : ∀ d : Char, d.toNat ≥ 32 ∨ d.toNat ∈ [8, 9, 10, 12, 13] → c ≠ d := by
        rintro d hd rfl
        rcases hd with hd | hd
        · omega
        · exact h2 hd
      unfold escape
      rw [if_neg (hne _ (by decide)), if_neg (hne _ (by decide)), if_neg (hne _ (by decide)), if_neg (hne _ (by decide)),
        if_neg (hne _ (by decide)), if_neg (hne _ (by decide)), if_neg (hne _ (by decide)), if_pos h1, e1, e2,
        digitChar_hex x (by omega), digitChar_hex y (by omega)]
    | plain h1 h2 h3 =>
      have hne : ∀ d : Char, d.toNat < 32 → c ≠ d := by
        rintro d hd rfl
        omega
      unfold escape
      rw [if_neg h2, if_neg h3, if_neg (hne _ (by decide)), if_neg (hne _ (by decide)), if_neg (hne _ (by decide)),
        if_neg (hne _ (by decide)), if_neg (hne _ (by decide)), if_neg (by omega)]
    | _ => rfl
  · rintro rfl
    unfold escape
    split
    · rename_i h; subst h; exact .quote
    split
    · rename_i h; subst h; exact .backslash
    split
    · rename_i h; subst h; exact .b
    split
    · rename_i h; subst h; exact .t
    split
    · rename_i h; subst h; exact .n
    split
    · rename_i h; subst h; exact .f
    split
    · rename_i h; subst h; exact .r
    rename_i n1 n2 n3 n4 n5 n6 n7
    split
    · rename_i h
      rw [← digitChar_hex _ (by omega), ← digitChar_hex _ (by omega)]
      refine .control h ?_ (by omega) (by omega)
      have key : ∀ n, c.toNat = n → c = Char.ofNat n := by
        rintro n rfl
        exact (Char.ofNat_toNat c).symm
      simp only [List.mem_cons, List.not_mem_nil, or_false, not_or]
      exact ⟨fun e => n3 (key _ e), fun e => n4 (key _ e), fun e => n5 (key _ e), fun e => n6 (key _ e),
        fun e => n7 (key _ e)⟩
    · exact .plain (by omega) n1 n2

theorem inside_iff {s t : Str} : Inside s t ↔ t = s.flatMap escape := by
  constructor
  · intro h
    induction h with
    | nil => rfl
    | cons h1 _ ih => rw [ih, escaped_iff.1 h1]; rfl
  · rintro rfl
    induction s with
    | nil => exact .nil
    | cons c s ih => exact .cons (escaped_iff.2 rfl) ih

theorem quote_eq (s : Str) : quote s = c!"\"" ++ s.flatMap escape ++ c!"\"" := rfl

theorem newline_eq (n : Nat) : newline n = c!"\n" ++ blanks (2 * n) := rfl

mutual
theorem shows_pretty (n : Nat) : ∀ v : Json, Shows (2 * n) v (pretty n v)
  | .null => .null
  | .bool true => .true
  | .bool false => .false
  | .num _ => .num
  | .real _ => .real
  | .str _ => .str (inside_iff.2 rfl)
  | .arr [] => .noItems
  | .arr (v :: vs) => by
    obtain ⟨ts, h1, h2⟩ := showsItems_pretty (n + 1) vs
    have := Shows.items (n := 2 * n) (vs := v :: vs) (by simp) (.cons (shows_pretty (n + 1) v) h1)
    rw [intercalate_cons] at this
    rw [pretty, h2, newline_eq, newline_eq]
    simpa [Nat.mul_add] using this
  | .obj [] => .noMembers
  | .obj ((k, v) :: ms) => by
    obtain ⟨ts, h1, h2⟩ := showsMembers_pretty (n + 1) ms
    have := Shows.members (n := 2 * n) (ms := (k, v) :: ms) (by simp) (.cons (inside_iff.2 rfl) (shows_pretty (n + 1) v) h1)
    rw [intercalate_cons] at this
    rw [pretty, h2, newline_eq, newline_eq, quote_eq]
    simpa [Nat.mul_add] using this
theorem showsItems_pretty (n : Nat) : ∀ vs : List Json, ∃ ts, ShowsItems (2 * n) vs ts ∧
    prettyItems n vs = ts.flatMap (fun t => c!",\n" ++ t)
  | [] => ⟨[], .nil, rfl⟩
  | v :: vs => by
    obtain ⟨ts, h1, h2⟩ := showsItems_pretty n vs
    refine ⟨_, .cons (shows_pretty n v) h1, ?_⟩
    rw [prettyItems, h2, newline_eq]
    simp
theorem showsMembers_pretty (n : Nat) : ∀ ms : List (Str × Json), ∃ ts, ShowsMembers (2 * n) ms ts ∧
    prettyMembers n ms = ts.flatMap (fun t => c!",\n" ++ t)
  | [] => ⟨[], .nil, rfl⟩
  | (k, v) :: ms => by
    obtain ⟨ts, h1, h2⟩ := showsMembers_pretty n ms
    refine ⟨_, .cons (inside_iff.2 rfl) (shows_pretty n v) h1, ?_⟩
    rw [prettyMembers, h2, newline_eq, quote_eq]
    simp
end

mutual
theorem shows_unique {n : Nat} : ∀ {v : Json} {s t : Str}, Shows n v s → Shows n v t → s = t
  | .null, _, _, .null, .null => rfl
  | .bool _, _, _, .true, .true => rfl
  | .bool _, _, _, .false, .false => rfl
  | .num _, _, _, .num, .num => rfl
  | .real _, _, _, .real, .real => rfl
  | .str _, _, _, .str h1, .str h2 => by rw [inside_iff.1 h1, inside_iff.1 h2]
  | .arr _, _, _, .noItems, .noItems => rfl
  | .arr _, _, _, .noItems, .items h _ => absurd rfl h
  | .arr _, _, _, .items h _, .noItems => absurd rfl h
  | .arr _, _, _, .items _ h1, .items _ h2 => by rw [showsItems_unique h1 h2]
  | .obj _, _, _, .noMembers, .noMembers => rfl
  | .obj _, _, _, .noMembers, .members h _ => absurd rfl h
  | .obj _, _, _, .members h _, .noMembers => absurd rfl h
  | .obj _, _, _, .members _ h1, .members _ h2 => by rw [showsMembers_unique h1 h2]
theorem showsItems_unique {n : Nat} : ∀ {vs : List Json} {s t : List Str}, ShowsItems n vs s → ShowsItems n vs t → s = t
  | [], _, _, .nil, .nil => rfl
  | _ :: _, _, _, .cons h1 h2, .cons h3 h4 => by rw [shows_unique h1 h3, showsItems_unique h2 h4]
theorem showsMembers_unique {n : Nat} : ∀ {ms : List (Str × Json)} {s t : List Str}, ShowsMembers n ms s →
    ShowsMembers n ms t → s = t
  | [], _, _, .nil, .nil => rfl
  | (_, _) :: _, _, _, .cons k1 h1 h2, .cons k2 h3 h4 => by
    rw [shows_unique h1 h3, showsMembers_unique h2 h4, inside_iff.1 k1, inside_iff.1 k2]
end

theorem shows_iff {v : Json} {t : Str} : Shows 0 v t ↔ t = pretty 0 v :=
  ⟨fun h => shows_unique h (shows_pretty 0 v), fun h => h ▸ shows_pretty 0 v⟩

/-! ### What the values are made of -/

/-- A schema that only one value meets -/
def Only (P : Schema) (v : Json) : Prop := ∀ j, P j ↔ j = v

theorem fields_nil {js : List (Str × Json)} : Fields [] js ↔ js = [] :=
  ⟨fun h => by cases h; rfl, fun h => h ▸ .nil⟩

theorem fields_cons {k : Str} {P : Schema} {v : Json} (h : Only P v) {ps : List (Str × Schema)} {vs : List (Str × Json)}
    (hs : ∀ js, Fields ps js ↔ js = vs) (js : List (Str × Json)) : Fields ((k, P) :: ps) js ↔ js = (k, v) :: vs := by
  constructor
  · intro hf
    cases hf with
    | cons h1 h2 => rw [(h _).1 h1, (hs _).1 h2]
  · rintro rfl
    exact .cons ((h _).2 rfl) ((hs _).2 rfl)

theorem items_nil {js : List Json} : Items [] js ↔ js = [] :=
  ⟨fun h => by cases h; rfl, fun h => h ▸ .nil⟩

theorem items_cons {P : Schema} {v : Json} (h : Only P v) {ps : List Schema} {vs : List Json}
    (hs : ∀ js, Items ps js ↔ js = vs) (js : List Json) : Items (P :: ps) js ↔ js = v :: vs := by
  constructor
  · intro hf
    cases hf with
    | cons h1 h2 => rw [(h _).1 h1, (hs _).1 h2]
  · rintro rfl
    exact .cons ((h _).2 rfl) ((hs _).2 rfl)

theorem only_object {ps : List (Str × Schema)} {vs : List (Str × Json)} (h : ∀ js, Fields ps js ↔ js = vs) :
    Only (Object ps) (.obj vs) := by
  intro j
  constructor
  · rintro ⟨ms, rfl, hm⟩
    rw [(h _).1 hm]
  · rintro rfl
    exact ⟨vs, rfl, (h _).2 rfl⟩

theorem only_tuple {ps : List Schema} {vs : List Json} (h : ∀ js, Items ps js ↔ js = vs) : Only (Tuple ps) (.arr vs) := by
  intro j
  constructor
  · rintro ⟨ms, rfl, hm⟩
    rw [(h _).1 hm]
  · rintro rfl
    exact ⟨vs, rfl, (h _).2 rfl⟩

theorem only_text (s : Str) : Only (Text s) (.str s) := fun _ => Iff.rfl
theorem only_number (n : Nat) : Only (Number n) (.num n) := fun _ => Iff.rfl
theorem only_truth (b : Bool) : Only (Truth b) (.bool b) := fun _ => Iff.rfl

theorem only_listOf {α : Type} {P : α → Schema} {f : α → Json} (h : ∀ a, Only (P a) (f a)) (l : List α) :
    Only (ListOf P l) (vec f l) := by
  refine only_tuple (fun js => ?_)
  induction l generalizing js with
  | nil => exact items_nil
  | cons a l ih => exact items_cons (h a) ih js

theorem only_fields {α : Type} {P : α → Schema} {f : α → Json} (l : List (Str × α)) (h : ∀ e ∈ l, Only (P e.2) (f e.2))
    (js : List (Str × Json)) : Fields (l.map fun e => (e.1, P e.2)) js ↔ js = l.map fun e => (e.1, f e.2) := by
  induction l generalizing js with
  | nil => exact fields_nil
  | cons a l ih => exact fields_cons (h a (List.mem_cons_self ..)) (ih fun e he => h e (List.mem_cons_of_mem _ he)) js

theorem only_mapOf {α : Type} {P : α → Schema} {f : α → Json} (h : ∀ a, Only (P a) (f a)) (m : BMap Str α) :
    Only (MapOf P m) (map f m) := only_object (only_fields m.entries fun e _ => h e.2)

theorem only_maybe {α : Type} {P : α → Schema} {f : α → Json} (h : ∀ a, Only (P a) (f a)) (o : Option α) :
    Only (Maybe P o) (opt f o) := by
  cases o with
  | none => exact fun _ => Iff.rfl
  | some a => exact h a

theorem only_variant {k : Str} {P : Schema} {v : Json} (h : Only P v) : Only (Variant k P) (.obj [(k, v)]) :=
  only_object (fields_cons h fun _ => fields_nil)

theorem only_position (p : LocationInFile) : Only (Position p) (ofLocationInFile p) := by
  cases p with
  | line n => exact only_variant (only_number n)
  | lineAndColumn n k => exact only_variant (only_tuple (items_cons (only_number n) (items_cons (only_number k) fun _ => items_nil)))
  | string s => exact only_variant (only_text s)

theorem only_place (l : Location) : Only (Place l) (ofLocation l) :=
  only_object (fields_cons (only_text _) (fields_cons (only_maybe only_position _) fun _ => fields_nil))

theorem only_ref (r : Reference) : Only (Ref r) (ofReference r) :=
  only_object (fields_cons (only_text _) (fields_cons (only_maybe only_text _) (fields_cons (only_place _) fun _ => fields_nil)))

theorem only_req (r : Requirement) : Only (Req r) (ofRequirement r) :=
  only_object (fields_cons (only_text _) (fields_cons (only_maybe only_text _) (fields_cons (only_place _)
    (fields_cons (only_listOf only_ref _) (fields_cons (only_listOf only_ref _) (fields_cons (only_listOf only_text _)
      (fields_cons (only_mapOf only_text _) fun _ => fields_nil)))))))

theorem only_err (e : Error) : Only (Err e) (ofError e) := by
  cases e <;> first
  | exact only_text _
  | exact only_variant (only_text _)
  | exact only_variant (only_req _)
  | exact only_variant (only_tuple (items_cons (only_place _) (items_cons (only_text _) fun _ => items_nil)))
  | exact only_variant (only_tuple (items_cons (only_req _) (items_cons (only_req _) fun _ => items_nil)))
  | exact only_variant (only_tuple (items_cons (only_text _) (items_cons (only_text _) fun _ => items_nil)))
  | exact only_variant (only_tuple (items_cons (only_place _) (items_cons (only_text _) (items_cons (only_text _)
      fun _ => items_nil))))
  | exact only_variant (only_tuple (items_cons (only_req _) (items_cons (only_text _) (items_cons (only_place _)
      fun _ => items_nil))))
  | exact only_variant (only_object (fields_cons (only_req _) (fields_cons (only_req _) (fields_cons (only_text _)
      (fields_cons (only_place _) fun _ => fields_nil)))))
  | exact only_variant (only_object (fields_cons (only_req _) (fields_cons (only_place _) fun _ => fields_nil)))
  | exact only_variant (only_object (fields_cons (only_text _) (fields_cons (only_listOf only_text _) fun _ => fields_nil)))

theorem only_art (a : Artefact) : Only (Art a) (ofArtefact a) :=
  only_object (fields_cons (only_text _) (fields_cons (only_listOf only_text _) (fields_cons (only_truth _)
    (fields_cons (only_truth _) (fields_cons (only_mapOf only_req _) (fields_cons (only_listOf only_err _)
      fun _ => fields_nil))))))

theorem only_direction (d : CoverageDirection) : Only (Direction d) (ofDirection d) := by
  cases d <;> exact only_text _

theorem only_covering (e : Event) : Only (Covering e) (ofCoverage e.coverage) :=
  only_object (fields_cons (only_text _) (fields_cons (only_text _) (fields_cons (only_place _)
    (fields_cons (only_direction _) fun _ => fields_nil))))

theorem only_rel (g : Graph) (rel : Relation) : Only (Rel g rel) (ofTracedRelation (tracedRelation g rel)) := by
  have : ofTracedRelation (tracedRelation g rel) = .obj [(c!"upper", .str rel.upper), (c!"lower", vec .str rel.lower),
      (c!"covered", vec (fun e : Event => ofCoverage e.coverage) (relEvents g rel)),
      (c!"uncovered", vec .str (uncovered g rel))] := by
    simp [ofTracedRelation, tracedRelation, ofRelation, vec, Function.comp_def]
  rw [this]
  exact only_object (fields_cons (only_text _) (fields_cons (only_listOf only_text _)
    (fields_cons (only_listOf only_covering _) (fields_cons (only_listOf only_text _) fun _ => fields_nil))))

theorem only_trace (g : Graph) : Only (Trace g) (Serialize.traceJson (traced g)) := by
  have e1 : Json.map (vec .str) (derivedMap g) =
      .obj ((g.artefacts.entries.map fun e => (e.1, derived g e.1 e.2)).map fun e => (e.1, vec .str e.2)) := by
    unfold Json.map
    rw [derived_entries]
  have e2 : vec ofTracedRelation (g.relations.map (tracedRelation g)) =
      vec (fun rel => ofTracedRelation (tracedRelation g rel)) g.relations := by
    simp [vec, Function.comp_def]
  have h1 : Only (Object (g.artefacts.entries.map fun e => (e.1, ListOf Text (derived g e.1 e.2))))
      (.obj ((g.artefacts.entries.map fun e => (e.1, derived g e.1 e.2)).map fun e => (e.1, vec .str e.2))) := by
    have := only_object (only_fields (P := ListOf Text) (f := vec .str)
      (g.artefacts.entries.map fun e => (e.1, derived g e.1 e.2)) (fun e _ => only_listOf only_text e.2))
    rwa [List.map_map] at this
  unfold Serialize.traceJson ofTracedGraph
  show Only _ (.obj [(c!"version", .num 0), (c!"trace", .obj [(c!"artefacts", Json.map ofArtefact g.artefacts),
    (c!"traced_relations", vec ofTracedRelation (g.relations.map (tracedRelation g))),
    (c!"derived", Json.map (vec .str) (derivedMap g)), (c!"errors", vec ofError (traced g).errors)])])
  rw [e1, e2]
  exact only_object (fields_cons (only_number _) (fields_cons (only_object (fields_cons (only_mapOf only_art _)
    (fields_cons (only_listOf (only_rel g) _) (fields_cons h1 (fields_cons (only_listOf only_err _) fun _ => fields_nil)))))
    fun _ => fields_nil))

theorem only_export (env : FmtEnv) (g : Graph) : Only (Export env g)
    (Serialize.Requirements.new env (allRequirements g.artefacts) (allErrors g.artefacts)).json := by
  have hk : Error.display = message := funext error_display
  have key : ∀ reqs, Only (Object [(c!"version", Number 0), (c!"requirements", ListOf Req reqs),
      (c!"errors", ListOf Err (env.sortErrors message (errorsOf g.artefacts)))])
      (.obj [(c!"version", .num 0), (c!"requirements", vec ofRequirement reqs),
        (c!"errors", vec ofError (env.sortErrors message (errorsOf g.artefacts)))]) := fun reqs =>
    only_object (fields_cons (only_number _) (fields_cons (only_listOf only_req _) (fields_cons (only_listOf only_err _)
      fun _ => fields_nil)))
  intro j
  unfold Export Serialize.Requirements.json Serialize.Requirements.new
  rw [allRequirements_eq, allErrors_eq, hk]
  constructor
  · rintro ⟨reqs, h1, h2⟩
    rw [sortedBy_iff.1 h1] at h2
    exact (key _ j).1 h2
  · intro h
    exact ⟨_, sortedBy_iff.2 rfl, (key _ j).2 h⟩

end JsonProof

/-- **C85** The JSON export of requirements. -/
theorem C85_export (env : FmtEnv) (g : Graph) (t : Str) :
    Fmt.requirements env g .json = put t ↔ ∃ j, JsonOut.Export env g j ∧ JsonOut.Shows 0 j t := by
  show put _ = put t ↔ _
  rw [put_inj]
  constructor
  · rintro rfl
    exact ⟨_, (JsonProof.only_export env g _).2 rfl, JsonProof.shows_iff.2 rfl⟩
  · rintro ⟨j, h1, h2⟩
    rw [JsonProof.shows_iff.1 h2, (JsonProof.only_export env g _).1 h1]

/-- **C85** The result of a trace in JSON. -/
theorem C85_json {g : Graph} {tg : TracedGraph} (hk : Keyed g) (h : trace g = .ok tg) (env : FmtEnv) (t : Str) :
    Fmt.tracing env tg .json = put t ↔ ∃ j, JsonOut.Trace g j ∧ JsonOut.Shows 0 j t := by
  obtain ⟨_, rfl⟩ := (trace_ok_iff hk tg).1 h
  show put _ = put t ↔ _
  rw [put_inj]
  constructor
  · rintro rfl
    exact ⟨_, (JsonProof.only_trace g _).2 rfl, JsonProof.shows_iff.2 rfl⟩
  · rintro ⟨j, h1, h2⟩
    rw [JsonProof.shows_iff.1 h2, (JsonProof.only_trace g _).1 h1]

/-- **C85** All reports. -/
theorem C85_report {g : Graph} {tg : TracedGraph} (hk : Keyed g) (h : trace g = .ok tg) (hr : RelationsExist g)
    (env : FmtEnv) (q : Query) (f : Format) (t : Str) :
    (match q with
      | .trace => Fmt.tracing env tg f
      | .parse => Fmt.requirements env g f) = put t ↔ Report env g q f t := by
  have hp : ∀ p, (⟨[], some p⟩ : Out) = put t ↔ False := by
    intro p
    simp [put]
  cases q with
  | trace =>
    cases f with
    | gnuError =>
      simp only [C85_gnu hk h, put_inj]
      exact ⟨fun e => e ▸ .gnu, fun e => by cases e; rfl⟩
    | markdown =>
      simp only [C85_markdown hk h hr]
      exact ⟨.markdown, fun e => by cases e; assumption⟩
    | json =>
      simp only [C85_json hk h]
      exact ⟨fun ⟨_, h1, h2⟩ => .json h1 h2, fun e => by cases e; exact ⟨_, by assumption, by assumption⟩⟩
    | tags => exact (hp _).trans ⟨False.elim, nofun⟩
    | templateFile _ => exact (hp _).trans ⟨False.elim, nofun⟩
    | templateString _ => exact (hp _).trans ⟨False.elim, nofun⟩
  | parse =>
    cases f with
    | tags =>
      simp only [C85_tags]
      exact ⟨.tags, fun e => by cases e; assumption⟩
    | markdown =>
      simp only [C85_list]
      exact ⟨.list, fun e => by cases e; assumption⟩
    | json =>
      simp only [C85_export]
      exact ⟨fun ⟨_, h1, h2⟩ => .export h1 h2, fun e => by cases e; exact ⟨_, by assumption, by assumption⟩⟩
    | gnuError => exact (hp _).trans ⟨False.elim, nofun⟩
    | templateFile _ => exact (hp _).trans ⟨False.elim, nofun⟩
    | templateString _ => exact (hp _).trans ⟨False.elim, nofun⟩

/-- **C85** There is exactly one text for every format that is supported, and none for the others. -/
theorem C85_determined {g : Graph} (hk : Keyed g) (hr : RelationsExist g) (env : FmtEnv) (q : Query) (f : Format) :
    (∀ t t', Report env g q f t → Report env g q f t' → t = t') ∧ ((∃ t, Report env g q f t) ↔ ¬ Unsupported q f) := by
  have h : trace g = .ok (traced g) := (trace_ok_iff hk _).2 ⟨fun rel hrel => by
    obtain ⟨⟨art, h1⟩, h2⟩ := hr rel hrel
    exact ⟨art, h1, fun _ a ha => Option.isSome_iff_exists.2 (h2 a ha)⟩, rfl⟩
  constructor
  · intro t t' h1 h2
    have h1 := (C85_report hk h hr env q f t).2 h1
    have h2 := (C85_report hk h hr env q f t').2 h2
    exact put_inj.1 (h1.symm.trans h2)
  · have hput : ∀ {o : Out}, o.panic = none → ∃ t, o = put t := by
      rintro ⟨t, p⟩ hp
      exact ⟨t, congrArg (Out.mk t) hp⟩
    simp only [← C85_report hk h hr]
    obtain ⟨hg, hm⟩ := C53_no_panic_partial env hk h hr
    cases q <;> cases f <;> simp only [Unsupported, not_true_eq_false, not_false_eq_true, iff_true, iff_false]
    case parse.json => exact ⟨_, rfl⟩
    case parse.markdown => exact hput (requirements_markdown_panic env g)
    case parse.tags =>
      obtain ⟨_, _, _, ht, _⟩ := C50_tags env g
      exact ⟨_, ht⟩
    case trace.gnuError => exact hput hg
    case trace.json => exact ⟨_, rfl⟩
    case trace.markdown => exact hput hm
    all_goals exact fun ⟨_, h⟩ => nomatch congrArg Out.panic h

/-! ### A graph with an id that is defined twice -/

namespace OutputExample
open Example

def u1 : Requirement := ⟨c!"U1", some c!"say \"one\"", loc 1, [], [ref c!"L1" none 2], [],
  .ofList [(c!"Description", c!"What.\n"), (c!"Note", c!"tab\there")]⟩
def l0 : Requirement := ⟨c!"U1", none, loc 3, [], [], [c!"x"], .empty⟩
def l1 : Requirement := ⟨c!"L1", none, ⟨c!"l.rs", some (.lineAndColumn 4 5)⟩, [⟨c!"U1", some c!"two", loc 7⟩], [], [], .empty⟩
def graph : Graph :=
  ⟨.ofList [(c!"UP", art c!"UP" false false [u1]),
    (c!"LO", { art c!"LO" false false [l0, l1] with errors := [.duplicateAttribute (loc 9) c!"A" c!"L1"] })], [⟨c!"UP", [c!"LO"]⟩]⟩

theorem relations_exist : RelationsExist graph := by
  intro rel hrel
  have : rel = ⟨c!"UP", [c!"LO"]⟩ := by simpa [graph] using hrel
  subst this
  refine ⟨Option.isSome_iff_exists.1 (by decide +kernel), ?_⟩
  intro a ha
  have : a = c!"LO" := by simpa using ha
  subst this
  exact Option.isSome_iff_exists.1 (by decide +kernel)

theorem report {q : Query} {f : Format} {t : Str} (h : (match q with
      | .trace => Fmt.tracing FmtEnv.example (traced graph) f
      | .parse => Fmt.requirements FmtEnv.example graph f) = put t) : Report FmtEnv.example graph q f t := by
  exact (C85_report (keyed_of_check (by decide +kernel)) (tg := traced graph) (by decide +kernel) relations_exist _ q f t).1 h


set_option maxRecDepth 100000 in
example : Report FmtEnv.example graph .trace .gnuError c!"# Parsing Errors
f:9: L1 has duplicate Attribute: A
# Tracing Errors
f:1: Duplicate Requirement: U1
f:3: note: previously seen here
f:7: U1 covered with wrong title. Expected \"say \\\"one\\\"\", actual \"two\"
f:1: note: Defined here
# Uncovered Requirement
## UP => [LO]
Derived Requirement
## LO
f:3: U1 Derived
## UP
" :=
  report (by decide +kernel)

set_option maxRecDepth 100000 in
example : Report FmtEnv.example graph .trace .markdown c!"

# Input Errors


## LO

*   Duplicate Attribute: A when parsing L1
    [f:9](../f?plain=1#L9)


# Tracing Errors

*   Duplicate Requirement: U1
    first seen in [f:1](../f?plain=1#L1)
    then again in [f:3](../f?plain=1#L3)
*   Requirement covered with wrong title:
    *   Upper Requirement [U1](#u1-say-one \"say \"one\"\")
    *   Lower Requirement [L1](#l1)
    *   Title of Upper Requirement:
        *    ````say \"one\"````
    *   Title used to cover it:
        *    ````two````
    *  At: f:7


# Derived Requirements


## LO

*   [U1](#u1-say-one \"say \"one\"\")


# Requirements

## LO

### L1

Origin: LO, [l.rs:4:5](../l.rs?plain=1#L4)

Upwards Tracing:
*   UP => [LO]
    *   [U1](#u1-say-one \"say \"one\"\")
        Reference: [f:2](../f?plain=1#L2)
    *   [U1](#u1-say-one \"say \"one\"\")
        Reference: [f:7](../f?plain=1#L7)

Downwards Tracing:

### U1: say \"one\"

Origin: UP, [f:1](../f?plain=1#L1)


What.


Note:
tab\there

Upwards Tracing:
*   UP => [LO]
    *   Derived

Downwards Tracing:
*   UP => [LO]
    *   [L1](#l1)
        Reference: [f:2](../f?plain=1#L2)
    *   [L1](#l1)
        Reference: [f:7](../f?plain=1#L7)
## UP

### U1: say \"one\"

Origin: UP, [f:1](../f?plain=1#L1)


What.


Note:
tab\there

Upwards Tracing:
*   UP => [LO]
    *   Derived

Downwards Tracing:
*   UP => [LO]
    *   [L1](#l1)
        Reference: [f:2](../f?plain=1#L2)
    *   [L1](#l1)
        Reference: [f:7](../f?plain=1#L7)
" :=
  report (by decide +kernel)

set_option maxRecDepth 100000 in
example : Report FmtEnv.example graph .parse .markdown c!"

# Input Errors


## LO

*   Duplicate Attribute: A when parsing L1
    [f:9](../f?plain=1#L9)

### L1: 

Origin: [l.rs:4:5](../l.rs?plain=1#L4)

Covers:
*   U1: two

### U1: 

Origin: [f:3](../f?plain=1#L3)

### U1: say \"one\"

Origin: [f:1](../f?plain=1#L1)


What.


Depends:
*   L1

Note:
tab\there
" :=
  report (by decide +kernel)

set_option maxRecDepth 100000 in
example : Report FmtEnv.example graph .parse .tags c!"!_TAG_FILE_SORTED\t1\t/0=unsorted, 1=sorted, 2=foldcase/
!_TAG_PROGRAM_NAME\treqtrace/
!_TAG_PROGRAM_URL\thttps://github.com/wonkodv/reqtrace/
!_TAG_PROGRAM_VERSION\t0\t//
L1\tl.rs\t4;\"\tr
U1\tf\t1;\"\tr
U1\tf\t3;\"\tr
" :=
  report (by decide +kernel)

set_option maxRecDepth 100000 in
example : Report FmtEnv.example graph .parse .json c!"{
  \"version\": 0,
  \"requirements\": [
    {
      \"id\": \"L1\",
      \"title\": null,
      \"location\": {
        \"file\": \"l.rs\",
        \"location_in_file\": {
          \"LineAndColumn\": [
            4,
            5
          ]
        }
      },
      \"covers\": [
        {
          \"id\": \"U1\",
          \"title\": \"two\",
          \"location\": {
            \"file\": \"f\",
            \"location_in_file\": {
              \"Line\": 7
            }
          }
        }
      ],
      \"depends\": [],
      \"tags\": [],
      \"attributes\": {}
    },
    {
      \"id\": \"U1\",
      \"title\": null,
      \"location\": {
        \"file\": \"f\",
        \"location_in_file\": {
          \"Line\": 3
        }
      },
      \"covers\": [],
      \"depends\": [],
      \"tags\": [
        \"x\"
      ],
      \"attributes\": {}
    },
    {
      \"id\": \"U1\",
      \"title\": \"say \\\"one\\\"\",
      \"location\": {
        \"file\": \"f\",
        \"location_in_file\": {
          \"Line\": 1
        }
      },
      \"covers\": [],
      \"depends\": [
        {
          \"id\": \"L1\",
          \"title\": null,
          \"location\": {
            \"file\": \"f\",
            \"location_in_file\": {
              \"Line\": 2
            }
          }
        }
      ],
      \"tags\": [],
      \"attributes\": {
        \"Description\": \"What.\\n\",
        \"Note\": \"tab\\there\"
      }
    }
  ],
  \"errors\": [
    {
      \"DuplicateAttribute\": [
        {
          \"file\": \"f\",
          \"location_in_file\": {
            \"Line\": 9
          }
        },
        \"A\",
        \"L1\"
      ]
    }
  ]
}" :=
  report (by decide +kernel)

end OutputExample

end Reqtrace
