import Verif.Props.Output
import Verif.Props.Controller
import Verif.Props.Jobs
import Verif.Props.Report
import Verif.Spec.Links

/-!
# C139: links in the Markdown report lead somewhere
-/

namespace Reqtrace

open Spec Out

/-! ## C64, exactly -/

/-- **C64** Two links lead to the same anchor exactly if the anchors show the same of the ids and titles. -/
theorem C64_exact_partial (env : FmtEnv) (r s : Requirement) :
    (∃ anchor, LinksTo (MdOut.requirementLink env r) r.id anchor ∧ LinksTo (MdOut.requirementLink env s) s.id anchor) ↔
      shownInAnchor env.lower r = shownInAnchor env.lower s := by
  have h : ∀ r, shownInAnchor env.lower r = linkAnchor env r := by
    intro r
    unfold shownInAnchor linkAnchor MdOut.anchorText
    have hk : (fun c => decide (AnchorChar c)) = MdOut.keep := by
      funext c
      by_cases hc : AnchorChar c
      · rw [(keep_iff c).2 hc]; exact decide_eq_true hc
      · rw [decide_eq_false hc]
        cases hk : MdOut.keep c with
        | false => rfl
        | true => exact absurd ((keep_iff c).1 hk) hc
    rw [hk]
    simp only [beq_iff_eq]
    cases r.title <;> rfl
  rw [h, h]
  constructor
  · rintro ⟨a, h1, h2⟩
    rw [(linkAnchor_spec env r).unique h1, (linkAnchor_spec env s).unique h2]
  · intro e
    exact ⟨_, linkAnchor_spec env r, e ▸ linkAnchor_spec env s⟩

/-- Two titles that differ in what is dropped, and two that do not. -/
example : shownInAnchor FmtEnv.example.lower (Example.req c!"REQ_1" (some c!"a, b") [] []) =
      shownInAnchor FmtEnv.example.lower (Example.req c!"REQ_1" (some c!"A b!") [] []) ∧
    shownInAnchor FmtEnv.example.lower (Example.req c!"REQ_1" (some c!"a b") [] []) ≠
      shownInAnchor FmtEnv.example.lower (Example.req c!"REQ_1" (some c!"ab") [] []) := by
  decide +kernel

/-! ## C63, exactly -/

/-- **C63** The anchor of the link is that of the heading exactly if the id and the title, in lower case, have no letters
or digits outside ASCII.  The function for lower case has to treat the id and the title separately, as the one of Rust
does. -/
theorem C63_exact_partial (env : FmtEnv) (isWord : Char → Bool)
    (hw : ∀ c : Char, c.toNat < 128 → isWord c = (c.isAlphanum || c == '_'))
    (hl : ∀ a b, env.lower (a ++ c!"-" ++ b) = env.lower a ++ c!"-" ++ env.lower b)
    (hl' : ∀ a b, env.lower (a ++ c!": " ++ b) = env.lower a ++ c!": " ++ env.lower b) (r : Requirement) :
    LinksTo (MdOut.requirementLink env r) r.id (headingAnchor env.lower isWord (headingText r)) ↔
      ∀ c, (c ∈ env.lower r.id ∨ ∃ t, r.title = some t ∧ c ∈ env.lower t) → isWord c = true → c.toNat < 128 := by
  have hiff : LinksTo (MdOut.requirementLink env r) r.id (headingAnchor env.lower isWord (headingText r)) ↔
      linkAnchor env r = headingAnchor env.lower isWord (headingText r) :=
    ⟨fun h => (linkAnchor_spec env r).unique h, fun e => by rw [← e]; exact linkAnchor_spec env r⟩
  rw [hiff]
  have hlink : ∀ s : Str, (s.map (fun c => if c == ' ' then '-' else c)).filter MdOut.keep =
      (s.filter (fun c => MdOut.keep c || c == ' ')).map (fun c => if c = ' ' then '-' else c) := by
    intro s
    rw [List.filter_map]
    simp only [beq_iff_eq]
    congr 1
    refine List.filter_congr fun c _ => ?_
    by_cases hc : c = ' '
    · subst hc; decide
    · simp [hc]
  have hsub : ∀ c, MdOut.keep c = true → (isWord c || c == '-') = true := by
    intro c hc
    have : c.toNat < 128 := anchorChar_ascii ((keep_iff c).1 hc)
    rw [hw c this]
    unfold MdOut.keep at hc
    simpa [Bool.or_assoc] using hc
  have hcol : isWord ':' = false := by rw [hw _ (by decide)]; decide
  have hkeep : ∀ c : Char, c.toNat < 128 → isWord c = true → MdOut.keep c = true := by
    intro c hc h
    rw [hw c hc] at h
    unfold MdOut.keep
    rw [h]; rfl
  have hhead : ∀ s : Str, (s.filter (fun c => MdOut.keep c || c == ' ')).map (fun c => if c = ' ' then '-' else c) =
      (s.filter (fun c => isWord c || c == '-' || c == ' ')).map (fun c => if c = ' ' then '-' else c) ↔
      ∀ c ∈ s, isWord c = true → c.toNat < 128 := by
    intro s
    constructor
    · intro h c hc hword
      by_cases hlt : c.toNat < 128
      · exact hlt
      exfalso
      have hne : c ≠ ' ' := by rintro rfl; exact hlt (by decide)
      have hne2 : c ≠ '-' := by rintro rfl; exact hlt (by decide)
      have hmem : c ∈ (s.filter (fun c => isWord c || c == '-' || c == ' ')).map (fun c => if c = ' ' then '-' else c) :=
        List.mem_map.2 ⟨c, List.mem_filter.2 ⟨hc, by simp [hword]⟩, by simp [hne]⟩
      rw [← h] at hmem
      obtain ⟨d, hd, he⟩ := List.mem_map.1 hmem
      by_cases hdb : d = ' '
      · rw [if_pos hdb] at he; exact hne2 he.symm
      · rw [if_neg hdb] at he
        subst he
        have := (List.mem_filter.1 hd).2
        simp only [Bool.or_eq_true, beq_iff_eq, hdb, or_false] at this
        exact hlt (anchorChar_ascii ((keep_iff d).1 this))
    · intro h
      congr 1
      refine List.filter_congr fun c hc => ?_
      congr 1
      rw [Bool.eq_iff_iff]
      constructor
      · exact hsub c
      · intro hh
        rcases Bool.or_eq_true_iff.1 hh with hh | hh
        · exact hkeep c (h c hc hh) hh
        · rw [eq_of_beq hh]; decide
  unfold linkAnchor headingAnchor headingText MdOut.anchorText
  cases ht : r.title with
  | none =>
    simp only [List.append_nil]
    rw [hlink, hhead]
    simp
  | some t =>
    simp only [← List.append_assoc]
    rw [hl, hl', hlink]
    have e1 : (List.filter (fun c => isWord c || c == '-' || c == ' ') (env.lower r.id ++ c!": " ++ env.lower t)).map
        (fun c => if c = ' ' then '-' else c) =
        (List.filter (fun c => isWord c || c == '-' || c == ' ') (env.lower r.id ++ c!"-" ++ env.lower t)).map
        (fun c => if c = ' ' then '-' else c) := by
      simp [hcol]
    rw [e1, hhead]
    have hd : isWord '-' = true → ('-' : Char).toNat < 128 := fun _ => by decide
    constructor
    · rintro h c (hc | ⟨t', ht', hc⟩)
      · exact h c (by simp [hc])
      · cases ht'; exact h c (by simp [hc])
    · intro h c hc
      rcases List.mem_append.1 hc with hc | hc
      · rcases List.mem_append.1 hc with hc | hc
        · exact h c (.inl hc)
        · rw [List.mem_singleton.1 hc]; exact hd
      · exact h c (.inr ⟨t, rfl, hc⟩)

/-! ## Which links there are -/

theorem markdownError_congr {link link' : Requirement → Str} {e : Error} (h : ∀ r ∈ linkedFrom e, link r = link' r) :
    markdownError link e = markdownError link' e := by
  cases e with
  | coveredWithWrongTitle u l _ _ =>
    have h1 := h u (by simp [linkedFrom])
    have h2 := h l (by simp [linkedFrom])
    simp only [markdownError, h1, h2]
  | dependWithWrongTitle u l _ _ =>
    have h1 := h u (by simp [linkedFrom])
    have h2 := h l (by simp [linkedFrom])
    simp only [markdownError, h1, h2]
  | dependOnUnknownRequirement r _ _ =>
    have h1 := h r (by simp [linkedFrom])
    simp only [markdownError, h1]
  | coversUnknownRequirement r _ _ =>
    have h1 := h r (by simp [linkedFrom])
    simp only [markdownError, h1]
  | referencedWithoutTitle r _ =>
    have h1 := h r (by simp [linkedFrom])
    simp only [markdownError, h1]
  | requirementWithoutTitle r =>
    have h1 := h r (by simp [linkedFrom])
    simp only [markdownError, h1]
  | _ => rfl

theorem shown_defines {g : Graph} (hk : Keyed g) {id : RequirementId} {a : ArtefactId} {r : Requirement}
    (h : shown g id = some (a, r)) : Defines g a r ∧ r.id = id := by
  obtain ⟨⟨art, h1, h2⟩, -⟩ := shown_iff.1 h
  have := hk.requirement _ _ h1 _ _ h2
  exact ⟨⟨art, h1, this.symm ▸ h2⟩, this⟩

theorem linked_defined {g : Graph} (hk : Keyed g) {e : Error} (he : e ∈ (traced g).errors) :
    ∀ r ∈ linkedFrom e, ∃ a, Defines g a r := by
  intro r hr
  rcases (mem_errors hk e).1 he with ⟨f, s, rfl, -⟩ | ⟨rel, hrel, ⟨ev, hev, ht⟩ | ⟨-, rfl⟩⟩ | ⟨req, up, ref, rfl, ⟨a, ha⟩, -⟩ |
    ⟨req, low, ref, rfl, ⟨a, ha⟩, -⟩
  · cases hr
  · obtain ⟨h1, h2⟩ := establishes_defines ((mem_relEvents hk rel ev).1 hev)
    unfold titleErrors at ht
    split at ht <;> split at ht <;> simp only [List.mem_singleton, List.not_mem_nil] at ht <;> subst ht <;>
      simp only [linkedFrom, List.mem_cons, List.not_mem_nil, or_false] at hr
    · rcases hr with rfl | rfl
      · exact ⟨_, h1⟩
      · exact ⟨_, h2⟩
    · subst hr; exact ⟨_, h2⟩
    · rcases hr with rfl | rfl
      · exact ⟨_, h1⟩
      · exact ⟨_, h2⟩
    · subst hr; exact ⟨_, h1⟩
  · cases hr
  · simp only [linkedFrom, List.mem_singleton] at hr; subst hr; exact ⟨a, ha.1⟩
  · simp only [linkedFrom, List.mem_singleton] at hr; subst hr; exact ⟨a, ha.1⟩

/-- Sections with other links to requirements that are not there are the same. -/
theorem shownSection_congr {g : Graph} (hk : Keyed g) {link link' : Requirement → Str}
    (h : ∀ a r, Defines g a r → link r = link' r) {a : ArtefactId} {r : Requirement} {t : Str}
    (hs : ShownSection link g a r t) : ShownSection link' g a r t := by
  obtain ⟨above, below, attrs, h1, h2, h3, rfl⟩ := hs
  have hcov : ∀ l : List (Requirement × Location), (∀ c ∈ l, ∃ a, Defines g a c.1) →
      l.flatMap (coverageText link) = l.flatMap (coverageText link') := by
    intro l hl
    refine flatMap_congr' fun c hc => ?_
    obtain ⟨b, hb⟩ := hl c hc
    unfold coverageText
    rw [h b _ hb]
  have ha : ∀ rel id, ∀ c ∈ shownAbove g rel id, ∃ a, Defines g a c.1 := by
    intro rel id c hc
    unfold shownAbove at hc
    simp only [List.mem_flatMap, List.mem_map, Option.mem_toList] at hc
    obtain ⟨_, -, ev, -, ⟨b, s⟩, hs, rfl⟩ := hc
    exact ⟨b, (shown_defines hk hs).1⟩
  have hb : ∀ rel id, ∀ c ∈ shownBelow g rel id, ∃ a, Defines g a c.1 := by
    intro rel id c hc
    unfold shownBelow at hc
    simp only [List.mem_flatMap, List.mem_map, Option.mem_toList] at hc
    obtain ⟨_, -, ev, -, ⟨b, s⟩, hs, rfl⟩ := hc
    exact ⟨b, (shown_defines hk hs).1⟩
  refine ⟨above, below, attrs, h1, h2, h3, ?_⟩
  have e1 : (fun rel => c!"*   " ++ relationText rel ++ c!"\n" ++ (shownAbove g rel r.id).flatMap (coverageText link)) =
      fun rel => c!"*   " ++ relationText rel ++ c!"\n" ++ (shownAbove g rel r.id).flatMap (coverageText link') := by
    funext rel; rw [hcov _ (ha rel r.id)]
  have e2 : (fun rel => c!"*   " ++ relationText rel ++ c!"\n" ++ if shownBelow g rel r.id = [] then c!"    *    UNCOVERED\n"
        else (shownBelow g rel r.id).flatMap (coverageText link)) =
      fun rel => c!"*   " ++ relationText rel ++ c!"\n" ++ if shownBelow g rel r.id = [] then c!"    *    UNCOVERED\n"
        else (shownBelow g rel r.id).flatMap (coverageText link') := by
    funext rel; rw [hcov _ (hb rel r.id)]
  rw [e1, e2]

theorem traceWith_unique {link : Requirement → Str} {g : Graph} {s t : Str} (h1 : TraceWith link g s)
    (h2 : TraceWith link g t) : s = t := by
  obtain ⟨b1, hb1, rfl⟩ := h1
  obtain ⟨b2, hb2, rfl⟩ := h2
  congr 1
  refine flatMap_congr' fun e he => ?_
  congr 1
  refine flatMap_congr' fun r hr => ?_
  obtain ⟨b, s, hs⟩ := shown_of_get ((BMap.get_eq_some_iff _ _ _).2 he) ((BMap.get_eq_some_iff _ _ _).2 hr)
  exact shownSection_unique (hb1 _ _ _ hs) (hb2 _ _ _ hs)

/-- Only links to requirements of the project are in the report. -/
theorem traceWith_congr {g : Graph} (hk : Keyed g) {link link' : Requirement → Str}
    (h : ∀ a r, Defines g a r → link r = link' r)
    (hi : ∀ a art, g.artefacts.get a = some art → ∀ e ∈ art.errors, ∀ r ∈ linkedFrom e, ∃ a, Defines g a r) {t : Str}
    (ht : TraceWith link g t) : TraceWith link' g t := by
  obtain ⟨body, hb, rfl⟩ := ht
  refine ⟨body, fun id a r hs => shownSection_congr hk h (hb id a r hs), ?_⟩
  have e1 : inputErrorsText link g = inputErrorsText link' g := by
    unfold inputErrorsText
    rw [List.map_congr_left fun e he => ?_]
    have he := (BMap.get_eq_some_iff _ _ _).2 (List.mem_filter.1 he).1
    rw [flatMap_congr' fun x hx => markdownError_congr fun r hr => ?_]
    obtain ⟨a, ha⟩ := hi _ _ he x hx r hr
    exact h a r ha
  have e2 : tracingErrorsText link g = tracingErrorsText link' g := by
    unfold tracingErrorsText
    rw [List.map_congr_left fun e he => markdownError_congr fun r hr => by
      obtain ⟨a, ha⟩ := linked_defined hk he r hr
      exact h a r ha]
  have e3 : shownItem link g = shownItem link' g := by
    funext id
    unfold shownItem
    refine flatMap_congr' fun s hs => ?_
    rw [h s.1 s.2 (shown_defines hk (Option.mem_toList.1 hs)).1]
  rw [e1, e2, e3]

theorem input_linked {env : Env} {w : World} {config : Config} {base : Path} {c : Controller}
    (h : Controller.new env w config base = .ok c) {a : ArtefactId} {art : Artefact}
    (ha : c.graph.artefacts.get a = some art) : ∀ e ∈ art.errors, ∀ r ∈ linkedFrom e, Defines c.graph a r := by
  intro e he r hr
  by_cases ht : ∃ s, e = .requirementWithoutTitle s
  · obtain ⟨s, rfl⟩ := ht
    simp only [linkedFrom, List.mem_singleton] at hr
    subst hr
    exact ⟨art, ha, ((C20_exactly h ha r).1.1 he).2.1⟩
  · obtain ⟨ac, errs, h1, h2, h3, h4, h5⟩ := C20_appended h ha
    rw [h5] at he
    rcases List.mem_append.1 he with he | he
    · exfalso
      obtain ⟨reqs, perrs, p1, _, rfl⟩ := C17_first_kept h3
      rcases List.mem_append.1 he with hm | hm
      · rcases parseArtefact_errors p1 _ hm with ⟨_, _, h⟩ | ⟨_, _, _, h⟩ | ⟨_, _, h⟩ | ⟨_, h⟩ <;> subst h <;> cases hr
      · unfold duplicates at hm
        obtain ⟨i, _, hi⟩ := List.mem_filterMap.1 hm
        split at hi
        · cases hi
        · rw [Option.map_eq_some_iff] at hi
          obtain ⟨_, _, hi⟩ := hi
          subst hi; cases hr
    · split at he
      · obtain ⟨s, _, rfl⟩ := List.mem_map.1 he
        exact absurd ⟨s, rfl⟩ ht
      · cases he

theorem markdownTrace_with {env : FmtEnv} {g : Graph} {t : Str} :
    MarkdownTrace env g t ↔ TraceWith (MdOut.requirementLink env) g t := by
  constructor
  · rintro ⟨link, body, h1, h2, h3⟩
    cases links_iff.1 h1
    exact ⟨body, h2, h3⟩
  · rintro ⟨body, h2, h3⟩
    exact ⟨_, body, links_iff.2 rfl, h2, h3⟩

/-- **C139** for what holds in every case: a link in the report is to a requirement of the project, and there is a section
about a requirement with its id.  Missing: that it is a section about this requirement. -/
theorem C139_id_partial {env : Env} {w : World} {config : Config} {base : Path} {c : Controller}
    (h : Controller.new env w config base = .ok c) (fenv : FmtEnv) {t : Str}
    (ht : Fmt.tracing fenv c.tracedGraph .markdown = put t) {r : Requirement} (hr : HasLinkTo c.graph r) :
    (∃ a, Defines c.graph a r) ∧ ∃ a s, Defines c.graph a s ∧ s.id = r.id ∧ HasSection t s := by
  obtain ⟨hk, hrel⟩ := C18_consistent h
  have hdef : ∃ a, Defines c.graph a r := by
    refine Classical.byContradiction fun hno => ?_
    obtain ⟨link, link', s, s', h1, h2, h3, h4⟩ := hr
    refine h4 (traceWith_unique (traceWith_congr hk (fun a x hx => ?_) (fun a art ha e he x hx => ?_) h2) h3)
    · exact h1 x (fun e => hno ⟨a, e ▸ hx⟩)
    · exact ⟨a, input_linked h ha e he x hx⟩
  refine ⟨hdef, ?_⟩
  obtain ⟨a, art, h1, h2⟩ := hdef
  obtain ⟨b, s, hs⟩ := shown_of_get h1 h2
  obtain ⟨g1, g2⟩ := shown_defines hk hs
  refine ⟨b, s, g1, g2, ?_⟩
  obtain ⟨body, hb, rfl⟩ := markdownTrace_with.1 ((C85_markdown hk (C18_no_panic h).1 hrel fenv t).1 ht)
  obtain ⟨above, below, attrs, -, -, -, e⟩ := hb _ _ _ hs
  have h3 : HasSection (body r.id) s := by
    unfold HasSection
    rw [e]
    infixed
  have h4 : body r.id <:+: art.requirements.entries.flatMap (fun r => body r.1) :=
    infix_flatMap (f := fun r : RequirementId × Requirement => body r.1) ((BMap.get_eq_some_iff _ _ _).1 h2)
  have h5 := infix_flatMap (f := fun e : ArtefactId × Artefact => c!"## " ++ e.2.id ++ c!"\n" ++ e.2.requirements.entries.flatMap (fun r => body r.1))
    ((BMap.get_eq_some_iff _ _ _).1 h1)
  have h6 : body r.id <:+: c!"## " ++ art.id ++ c!"\n" ++ art.requirements.entries.flatMap (fun r => body r.1) :=
    h4.trans (by infixed)
  exact (h3.trans (h6.trans h5)).trans (by infixed)

/-- **C139** if no two artefacts define the same id: each link in the report is to a requirement with a section. -/
theorem C139_no_dead_links_partial {env : Env} {w : World} {config : Config} {base : Path} {c : Controller}
    (h : Controller.new env w config base = .ok c) (hu : UniqueIds c.graph) (fenv : FmtEnv) {t : Str}
    (ht : Fmt.tracing fenv c.tracedGraph .markdown = put t) {r : Requirement} (hr : HasLinkTo c.graph r) : HasSection t r := by
  obtain ⟨⟨a, h1⟩, b, s, h2, h3, h4⟩ := C139_id_partial h fenv ht hr
  cases hu b a s r h2 h1 h3
  obtain ⟨art, g1, g2⟩ := h1
  obtain ⟨art', g3, g4⟩ := h2
  rw [g1] at g3
  cases g3
  rw [h3, g2] at g4
  cases g4
  exact h4

/-- **C139 as listed**: each link in the report is to a requirement with a section. -/
def C139_statement : Prop := ∀ (env : Env) (w : World) (config : Config) (base : Path) (c : Controller),
  Controller.new env w config base = .ok c → ∀ (fenv : FmtEnv) (t : Str),
    Fmt.tracing fenv c.tracedGraph .markdown = put t → ∀ r, HasLinkTo c.graph r → HasSection t r

/-- For any links there is a report. -/
theorem traceWith_exists {link : Requirement → Str} {g : Graph} {t : Str} (h : TraceWith link g t) (link' : Requirement → Str) :
    ∃ t', TraceWith link' g t' := by
  obtain ⟨body, hb, -⟩ := h
  have key : ∀ id, ∃ x, ∀ a r, shown g id = some (a, r) → ShownSection link' g a r x := by
    intro id
    cases hs : shown g id with
    | none => exact ⟨[], fun a r h => nomatch h⟩
    | some s =>
      obtain ⟨above, below, attrs, h1, h2, h3, -⟩ := hb id s.1 s.2 hs
      obtain ⟨x, hx⟩ : ∃ x, ShownSection link' g s.1 s.2 x := ⟨_, above, below, attrs, h1, h2, h3, rfl⟩
      refine ⟨x, fun a r h => ?_⟩
      cases h
      exact hx
  exact ⟨_, fun id => (key id).choose, fun id => (key id).choose_spec, rfl⟩

/-- There is a link to a requirement if it is seen in the first characters of the report. -/
theorem hasLinkTo_of_input {g : Graph} {link : Requirement → Str} {t : Str} (h : TraceWith link g t) {r : Requirement} (n : Nat)
    (h1 : n ≤ (inputErrorsText (fun _ => []) g).length)
    (h2 : n ≤ (inputErrorsText (fun s => if s = r then c!"link" else []) g).length)
    (h3 : (inputErrorsText (fun _ => []) g).take n ≠ (inputErrorsText (fun s => if s = r then c!"link" else []) g).take n) :
    HasLinkTo g r := by
  obtain ⟨t1, ht1⟩ := traceWith_exists h (fun _ => [])
  obtain ⟨t2, ht2⟩ := traceWith_exists h (fun s => if s = r then c!"link" else [])
  refine ⟨_, _, t1, t2, fun s hs => (if_neg hs).symm, ht1, ht2, fun e => h3 ?_⟩
  obtain ⟨_, -, rfl⟩ := ht1
  obtain ⟨_, -, rfl⟩ := ht2
  have := congrArg (List.take n) e
  simp only [List.append_assoc] at this
  rwa [List.take_append_of_le_length h1, List.take_append_of_le_length h2] at this

theorem not_infix_of_check {p t : Str} (h : (List.range (t.length + 1)).all (fun i => !(p.isPrefixOf (t.drop i))) = true) :
    ¬ p <:+: t := by
  rintro ⟨x, y, rfl⟩
  have := List.all_eq_true.1 h x.length (List.mem_range.2 (by simp; omega))
  rw [List.append_assoc, List.drop_left, List.isPrefixOf_iff_prefix.2 (List.prefix_append p y)] at this
  cases this

namespace LinksExample

open CtrlExample

def upper : ArtefactConfig := ⟨c!"A", [c!"REQ_X.txt"], .monoRequirement, none, some true⟩
def lower : ArtefactConfig := ⟨c!"B", [c!"b.md"], .markdown, none, none⟩
def project : Config := ⟨none, [upper, lower], [], none, none⟩
def e : Env := env .nil project

/-- `REQ_X` has no title in an artefact that needs titles, and a title in another artefact; -/
def twice : World := world [(c!"p/REQ_X.txt", []), (c!"p/b.md", c!"# REQ_X: title\n")]
/-- or it is there only once. -/
def once : World := world [(c!"p/REQ_X.txt", []), (c!"p/b.md", c!"# REQ_Y: title\n")]

def untitled : Requirement := ⟨c!"REQ_X", none, ⟨c!"p/REQ_X.txt", none⟩, [], [], [], .empty⟩

def input (w : World) (link : Requirement → Str) : Option Str :=
  (Controller.new e w project c!"p").toOption.map fun c => inputErrorsText link c.graph

theorem eq_put : {o : Out} → o.panic = none → o = put o.text
  | ⟨_, _⟩, rfl => rfl

theorem linked_at {w : World} {c : Controller} (h : Controller.new e w project c!"p" = .ok c)
    (h1 : ((input w (fun _ => [])).map fun t => decide (50 ≤ t.length)) = some true)
    (h2 : ((input w (fun s => if s = untitled then c!"link" else [])).map fun t => decide (50 ≤ t.length)) = some true)
    (h3 : (input w (fun _ => [])).map (List.take 50) ≠
      (input w (fun s => if s = untitled then c!"link" else [])).map (List.take 50)) :
    HasLinkTo c.graph untitled := by
  obtain ⟨hk, hrel⟩ := C18_consistent h
  obtain ⟨t, ht⟩ := (C85_determined hk hrel FmtEnv.example .trace .markdown).2.2 (by intro h; cases h)
  unfold input at h1 h2 h3
  rw [h] at h1 h2 h3
  refine hasLinkTo_of_input (markdownTrace_with.1
    ((C85_markdown hk (C18_no_panic h).1 hrel _ t).1 ((C85_report hk (C18_no_panic h).1 hrel _ .trace .markdown t).2 ht))) 50
    (by simpa [Except.toOption] using h1) (by simpa [Except.toOption] using h2) (by simpa [Except.toOption] using h3)

set_option maxRecDepth 100000 in
/-- The report has a link to it without a section about it. -/
theorem dead : ∃ c t, Controller.new e twice project c!"p" = .ok c ∧
    Fmt.tracing FmtEnv.example c.tracedGraph .markdown = put t ∧ HasLinkTo c.graph untitled ∧ ¬ HasSection t untitled := by
  have key : ((Controller.new e twice project c!"p").toOption.map fun c =>
      decide ((Fmt.tracing FmtEnv.example c.tracedGraph .markdown).panic = none) &&
      (List.range ((Fmt.tracing FmtEnv.example c.tracedGraph .markdown).text.length + 1)).all fun i =>
        !((c!"\n### " ++ headingText untitled ++ c!"\n\n").isPrefixOf
          ((Fmt.tracing FmtEnv.example c.tracedGraph .markdown).text.drop i))) = some true := by decide +kernel
  cases h : Controller.new e twice project c!"p" with
  | error x => rw [h] at key; cases key
  | ok c =>
    rw [h] at key
    simp only [Except.toOption, Option.map_some, Option.some.injEq, Bool.and_eq_true, decide_eq_true_eq] at key
    exact ⟨c, _, rfl, eq_put key.1, linked_at h (by decide +kernel) (by decide +kernel) (by decide +kernel),
      not_infix_of_check key.2⟩

end LinksExample

/-- **C139** is false as listed: of two requirements with the same id only one has a section. -/
theorem C139_false : ¬ C139_statement := by
  intro h
  obtain ⟨c, t, h1, h2, h3, h4⟩ := LinksExample.dead
  exact h4 (h _ _ _ _ c h1 _ t h2 _ h3)

namespace LinksExample

/-- The hypotheses of `C139_no_dead_links_partial` hold for a project with a link. -/
example : ∃ c, Controller.new e once project c!"p" = .ok c ∧ UniqueIds c.graph ∧ HasLinkTo c.graph untitled := by
  have key : ((Controller.new e once project c!"p").toOption.map fun c => ReportExample.uniqueCheck c.graph) = some true := by
    decide +kernel
  cases h : Controller.new e once project c!"p" with
  | error x => rw [h] at key; cases key
  | ok c =>
    rw [h] at key
    simp only [Except.toOption, Option.map_some, Option.some.injEq] at key
    exact ⟨c, rfl, ReportExample.unique_of_check key, linked_at h (by decide +kernel) (by decide +kernel) (by decide +kernel)⟩

/-- The hypotheses of `C63_exact_partial` hold for these functions, with which `ß` is a letter; -/
def isWord (c : Char) : Bool := c.isAlphanum || c == '_' || c == 'ß'

theorem exact (r : Requirement) :
    LinksTo (MdOut.requirementLink FmtEnv.example r) r.id (headingAnchor FmtEnv.example.lower isWord (headingText r)) ↔
      ∀ c, (c ∈ FmtEnv.example.lower r.id ∨ ∃ t, r.title = some t ∧ c ∈ FmtEnv.example.lower t) → isWord c = true →
        c.toNat < 128 := by
  refine C63_exact_partial _ isWord (fun c hc => ?_) (fun a b => ?_) (fun a b => ?_) r
  · have : (c == 'ß') = false := beq_false_of_ne (by rintro rfl; exact absurd hc (by decide))
    unfold isWord
    rw [this, Bool.or_false]
  · simp [FmtEnv.example]
  · simp [FmtEnv.example]

/-- the link to `REQ_X: max size` leads to its heading, that to `REQ_X: groß` does not. -/
example : LinksTo (MdOut.requirementLink FmtEnv.example { untitled with title := some c!"Max Size" }) c!"REQ_X" c!"req_x-max-size" ∧
    ¬ LinksTo (MdOut.requirementLink FmtEnv.example { untitled with title := some c!"groß" }) c!"REQ_X"
      (headingAnchor FmtEnv.example.lower isWord c!"REQ_X: groß") := by
  constructor
  · refine (exact { untitled with title := some c!"Max Size" }).2 ?_
    rintro c (hc | ⟨t, ht, hc⟩) -
    · revert c; decide +kernel
    · cases ht; revert c; decide +kernel
  · intro h
    exact absurd ((exact { untitled with title := some c!"groß" }).1 h 'ß' (.inr ⟨_, rfl, by decide +kernel⟩) (by decide +kernel))
      (by decide)

end LinksExample

end Reqtrace
