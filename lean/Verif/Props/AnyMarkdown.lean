import Verif.Spec.AnyMarkdown
import Verif.Props.AnyReport

/-!
# C173: from the texts of any project to the Markdown report of a trace
-/

namespace Reqtrace

open Spec RustLayout GlobText

namespace AnyMarkdown

open AnyReport
open ProjectReport (flatMap_congr' values_mem values_sorted unknowns dangling_unknowns unknowns_sorted inOrder_unique)

theorem anySection_unique {link : Requirement → Str} {config : Config} {reqs : ArtefactId → List Requirement} {a : ArtefactId}
    {r : Requirement} {s t : Str} (h1 : AnySection link config reqs a r s) (h2 : AnySection link config reqs a r t) : s = t := by
  obtain ⟨x, y, z, hx, hy, hz, rfl⟩ := h1
  obtain ⟨x', y', z', hx', hy', hz', rfl⟩ := h2
  rw [inOrder_unique hx hx', inOrder_unique hy hy', otherAttributes_unique hz hz']

/-- **C173** There is at most one such report. -/
theorem C173_determined {env : FmtEnv} {config : Config} {reqsOf : ArtefactId → List Requirement} {t t' : Str}
    (h : AnyMarkdown env config reqsOf t) (h' : AnyMarkdown env config reqsOf t') : t = t' := by
  obtain ⟨a, b, c, d, l, f, h1, h2, h3, h4, h5, h6, rfl⟩ := h
  obtain ⟨a', b', c', d', l', f', k1, k2, k3, k4, k5, k6, rfl⟩ := h'
  have : a = a' := funext fun x => inOrder_unique (h1 x) (k1 x)
  subst this
  cases inOrder_unique h2 k2
  cases inOrder_unique h3 k3
  cases inOrder_unique h4 k4
  cases links_iff.1 h5
  cases links_iff.1 k5
  congr 1
  refine flatMap_congr' fun ac _ => ?_
  congr 1
  exact flatMap_congr' fun r hr => anySection_unique (h6 _ r hr) (k6 _ r hr)

variable {g : Graph} {config : Config} {reqsOf : ArtefactId → List Requirement}

section
variable (hk : Keyed g) (hm : TextProject.Mirror g config fun a r => r ∈ reqsOf a)
  (hu : ∀ a b r s, r ∈ reqsOf a → s ∈ reqsOf b → r.id = s.id → a = b)
include hk hm hu

omit hk hm hu in
theorem held_sorted (hk : Keyed g) (a : ArtefactId) :
    (held g a).Pairwise fun r s => compare r.id s.id = .lt := by
  unfold held
  cases h : g.artefacts.get a with
  | none => exact .nil
  | some art => exact values_sorted hk h

theorem titles_errors (ho : (config.artefacts.map (·.id)).Nodup) (rel : Relation) :
    (relEvents g rel).flatMap (titleErrors g rel) = wrongTitles config (held g) rel := by
  unfold relEvents wrongTitles
  show ((held g rel.upper).flatMap (reqEvents g rel)).flatMap _ = _
  rw [List.flatMap_assoc]
  refine flatMap_congr' fun u _ => ?_
  rw [events_held hk hm hu, List.flatMap_append]
  simp only [List.flatMap_assoc, List.flatMap_map]
  congr 1
  · refine flatMap_congr' fun ref _ => flatMap_congr' fun a _ => flatMap_congr' fun l _ => ?_
    unfold titleErrors
    cases ref.title with
    | none => simp only [needs_held hm ho]
    | some t => rfl
  · refine flatMap_congr' fun a _ => flatMap_congr' fun l _ => flatMap_congr' fun ref _ => ?_
    unfold titleErrors
    cases ref.title with
    | none => simp only [needs_held hm ho]
    | some t => rfl

theorem errors_held (ho : (config.artefacts.map (·.id)).Nodup) :
    (traced g).errors = faults config (held g) (unknowns g) (missing g) := by
  have hdup : duplicateErrors g = [] := by
    refine List.eq_nil_iff_forall_not_mem.2 fun e he => ?_
    obtain ⟨first, again, -, a, b, h1, h2, h3, h4⟩ := (mem_duplicateErrors hk e).1 he
    have := hu a b _ _ ((hm.defines _ _).1 h1.1) ((hm.defines _ _).1 h2) h3.symm
    subst this
    rw [Std.ReflCmp.compare_self (cmp := compare)] at h4
    cases h4
  show duplicateErrors g ++ g.relations.flatMap (relationErrors g) ++ danglingCovers g ++ danglingDepends g = _
  unfold faults
  rw [hdup, dangling_unknowns, dangling_missing, List.nil_append, hm.relations]
  congr 2
  refine flatMap_congr' fun rel _ => ?_
  unfold relationErrors
  rw [titles_errors hk hm hu ho]
  congr 1
  have hn : (relEvents g rel).isEmpty = true ↔ ∀ u ∈ held g rel.upper, ¬ CoveredAlong (fun a r => r ∈ held g a) rel u := by
    unfold relEvents
    rw [List.isEmpty_iff, List.flatMap_eq_nil_iff]
    exact forall_congr' fun u => forall_congr' fun _ => by rw [← none_held hk hm hu, List.isEmpty_iff]
  by_cases h : (relEvents g rel).isEmpty = true
  · rw [if_pos h, if_pos (hn.1 h)]
  · rw [if_neg h, if_neg fun k => h (hn.2 k)]

theorem references_held (rel : Relation) :
    (relEvents g rel).map (fun e => (e.upper, e.lower, e.ref)) = referencesAlong (held g) rel := by
  unfold relEvents referencesAlong
  show ((held g rel.upper).flatMap (reqEvents g rel)).map _ = _
  rw [List.map_flatMap]
  refine flatMap_congr' fun u _ => ?_
  rw [events_held hk hm hu, List.map_append]
  simp only [List.map_flatMap, List.map_map]
  rfl

theorem shown_held {a : ArtefactId} {r : Requirement} (h : r ∈ held g a) : shown g r.id = some (a, r) := by
  have h1 := (mem_held hk a r).1 h
  have hr := (hm.defines _ _).1 h1
  refine shown_iff.2 ⟨h1, fun b art h2 h3 => ?_⟩
  obtain ⟨s, hs⟩ := Option.isSome_iff_exists.1 h3
  have hid := hk.requirement _ _ h2 _ _ hs
  have : Defines g b s := ⟨art, h2, hid ▸ hs⟩
  cases hu _ _ _ _ ((hm.defines _ _).1 this) hr hid
  rw [Std.ReflCmp.compare_self (cmp := compare)]
  exact nofun

theorem event_held {rel : Relation} {e : Event} (h : e ∈ relEvents g rel) :
    (∃ a, shown g e.upper.id = some (a, e.upper)) ∧ ∃ a, shown g e.lower.id = some (a, e.lower) := by
  have h1 : (e.upper, e.lower, e.ref) ∈ referencesAlong (held g) rel := by
    rw [← references_held hk hm hu]
    exact List.mem_map.2 ⟨e, h, rfl⟩
  unfold referencesAlong at h1
  obtain ⟨u, h2, h3⟩ := List.mem_flatMap.1 h1
  rcases List.mem_append.1 h3 with h3 | h3
  · obtain ⟨ref, -, h4⟩ := List.mem_flatMap.1 h3
    obtain ⟨a, -, h5⟩ := List.mem_flatMap.1 h4
    obtain ⟨l, h6, h7⟩ := List.mem_map.1 h5
    injection h7 with h7 h8
    injection h8 with h8 h9
    subst h7 h8
    exact ⟨⟨_, shown_held hk hm hu h2⟩, _, shown_held hk hm hu (List.mem_filter.1 h6).1⟩
  · obtain ⟨a, -, h4⟩ := List.mem_flatMap.1 h3
    obtain ⟨l, h5, h6⟩ := List.mem_flatMap.1 h4
    obtain ⟨ref, -, h7⟩ := List.mem_map.1 h6
    injection h7 with h7 h8
    injection h8 with h8 h9
    subst h7 h8
    exact ⟨⟨_, shown_held hk hm hu h2⟩, _, shown_held hk hm hu h5⟩

theorem above_held (rel : Relation) (r : Requirement) : shownAbove g rel r.id = aboveAlong config (held g) rel r := by
  unfold shownAbove aboveAlong
  rw [hm.relations]
  refine flatMap_congr' fun rel _ => ?_
  rw [← references_held hk hm hu, List.filter_map, List.map_map, List.map_eq_flatMap]
  refine flatMap_congr' fun e he => ?_
  obtain ⟨⟨a, h1⟩, -⟩ := event_held hk hm hu (List.mem_filter.1 he).1
  rw [h1]
  rfl

theorem below_held (rel : Relation) (r : Requirement) : shownBelow g rel r.id = belowAlong config (held g) rel r := by
  unfold shownBelow belowAlong
  rw [hm.relations]
  refine flatMap_congr' fun rel _ => ?_
  rw [← references_held hk hm hu, List.filter_map, List.map_map, List.map_eq_flatMap]
  refine flatMap_congr' fun e he => ?_
  obtain ⟨-, a, h1⟩ := event_held hk hm hu (List.mem_filter.1 he).1
  rw [h1]
  rfl

theorem hasId_held {a b : ArtefactId} {r : Requirement} (h : r ∈ held g a) : HasId g b r.id ↔ b = a := by
  have h1 := (mem_held hk a r).1 h
  constructor
  · rintro ⟨s, h2, h3⟩
    exact hu _ _ _ _ ((hm.defines _ _).1 h2) ((hm.defines _ _).1 h1) h3
  · rintro rfl
    exact ⟨r, h1, rfl⟩

theorem section_held {link : Requirement → Str} {a : ArtefactId} {r : Requirement} {t : Str} (h : r ∈ held g a)
    (hs : ShownSection link g a r t) : AnySection link config (held g) a r t := by
  obtain ⟨above, below, attrs, h1, h2, h3, rfl⟩ := hs
  refine ⟨above, below, attrs, ⟨fun rel => ?_, h1.2⟩, ⟨fun rel => ?_, h2.2⟩, h3, ?_⟩
  · rw [h1.1, hm.relations]
    refine and_congr_right fun _ => ?_
    simp only [hasId_held hk hm hu h, exists_eq_right]
  · rw [h2.1, hm.relations]
    exact and_congr_right fun _ => hasId_held hk hm hu h
  · simp only [above_held hk hm hu, below_held hk hm hu]

theorem items_held {link : Requirement → Str} {l : List Requirement} {a : ArtefactId} (h : ∀ r ∈ l, r ∈ held g a) :
    (l.map (·.id)).flatMap (shownItem link g) = l.flatMap fun u => c!"*   " ++ link u ++ c!"\n" := by
  rw [List.flatMap_map]
  refine flatMap_congr' fun r hr => ?_
  unfold shownItem
  rw [shown_held hk hm hu (h r hr)]
  simp

/-- The report on the graph that is read is the one on the project. -/
theorem any_markdown (ho : (config.artefacts.map (·.id)).Nodup) (he : errorsOf g.artefacts = []) {env : FmtEnv} {text : Str}
    (ht : MarkdownTrace env g text) : AnyMarkdown env config reqsOf text := by
  obtain ⟨link, body, hl, hb, rfl⟩ := ht
  have h0 : ∀ e ∈ g.artefacts.entries, e.2.errors = [] := fun e h => List.flatMap_eq_nil_iff.1 he e h
  obtain ⟨arts, ha, hd⟩ := entries_config hm ho
    (f := fun e => if derived g e.1 e.2 ≠ [] then [(e.1, (derived g e.1 e.2).flatMap (shownItem link g))] else [])
    (f' := fun ac => if freeOf config (held g) ac ≠ [] then
      [(ac.id, (freeOf config (held g) ac).flatMap fun l => c!"*   " ++ link l ++ c!"\n")] else []) (by
    intro ac hac art hg
    have h1 : derived g ac.id art = (freeOf config (held g) ac).map (·.id) :=
      derived_held hk hm hu ((TextProject.last ho).2 hac) hg
    simp only [h1, ne_eq, List.map_eq_nil_iff]
    rw [items_held hk hm hu (l := freeOf config (held g) ac) fun r hr => (List.mem_filter.1 hr).1])
  obtain ⟨arts', ha', hr⟩ := entries_config hm ho
    (f := fun e => c!"## " ++ e.2.id ++ c!"\n" ++ e.2.requirements.entries.flatMap (fun r => body r.1))
    (f' := fun ac => c!"## " ++ ac.id ++ c!"\n" ++ (held g ac.id).flatMap fun r => body r.id) (by
    intro ac hac art hg
    have h1 : art.id = ac.id := hk.artefact _ _ hg
    have h2 : held g ac.id = art.requirements.values := by unfold held; rw [hg]
    rw [h1, h2]
    congr 1
    unfold BMap.values
    rw [List.flatMap_map]
    refine flatMap_congr' fun e hm' => ?_
    rw [hk.requirement _ _ hg _ _ ((BMap.get_eq_some_iff _ _ _).2 hm')])
  cases inOrder_unique ha ha'
  have hfm : ∀ {α β : Type} (p : α → Prop) [DecidablePred p] (f : α → β) (l : List α),
      (l.filter fun x => p x).map f = l.flatMap fun x => if p x then [f x] else [] := by
    intro α β p _ f l
    induction l with
    | nil => rfl
    | cons x l ih =>
      rw [List.flatMap_cons, ← ih, List.filter_cons]
      by_cases h : p x <;> simp [h]
  refine ⟨held g, arts, unknowns g, missing g, link, fun _ r => body r.id,
    fun a => ⟨fun r => (mem_held hk a r).trans (hm.defines a r), held_sorted hk a⟩, ha,
    ⟨unknowns_mem hk hm hu, unknowns_sorted hk⟩, ⟨missing_mem hk hm hu, missing_sorted hk⟩, hl,
    fun a r hr => section_held hk hm hu hr (hb _ _ _ (shown_held hk hm hu hr)), ?_⟩
  have hin : inputErrorsText link g = [] := by
    unfold inputErrorsText
    rw [List.filter_eq_nil_iff.2 fun e h => by simp [h0 e h]]
    rfl
  have htr : tracingErrorsText link g = (if faults config (held g) (unknowns g) (missing g) = [] then []
      else c!"\n\n# Tracing Errors\n\n" ++
        (firsts ((faults config (held g) (unknowns g) (missing g)).map (markdownError link))).flatten) := by
    unfold tracingErrorsText
    rw [errors_held hk hm hu ho]
  have hun : ((g.relations.filter (fun rel => uncovered g rel ≠ [])).map fun rel =>
      (relationText rel, (uncovered g rel).flatMap (shownItem link g))) =
      (config.relations.filter fun rel => openAlong (held g) rel ≠ []).map fun rel =>
        (relationText rel, (openAlong (held g) rel).flatMap fun u => c!"*   " ++ link u ++ c!"\n") := by
    have h1 : ∀ rel, uncovered g rel = (openAlong (held g) rel).map (·.id) := uncovered_held hk hm hu
    rw [hm.relations]
    simp only [h1, ne_eq, List.map_eq_nil_iff]
    refine List.map_congr_left fun rel _ => ?_
    rw [items_held hk hm hu (l := openAlong (held g) rel) fun r hr => (List.mem_filter.1 hr).1]
  have hde : ((g.artefacts.entries.filter (fun e => derived g e.1 e.2 ≠ [])).map fun e =>
      (e.1, (derived g e.1 e.2).flatMap (shownItem link g))) =
      (arts.filter fun ac => freeOf config (held g) ac ≠ []).map fun ac =>
        (ac.id, (freeOf config (held g) ac).flatMap fun l => c!"*   " ++ link l ++ c!"\n") := by
    rw [hfm, hfm]
    exact hd
  rw [hin, htr, hun, hde, hr, List.nil_append]

end

variable {env : Env} {w : World} {opt : Arguments} {there : Path → Prop}

theorem markdown_output (hs : ReadsRust env.syn) (hg : env.os.GlobWorks w there)
    (h : Spec.TextProject env w opt there config reqsOf) (he : EachOnce config reqsOf) {c : Controller}
    (hn : Controller.new env w config opt.baseDir = .ok c) {job : Job} (hq : job.query = .trace)
    (hf : job.format = .markdown) :
    ∃ text, AnyMarkdown env.fmt config reqsOf text ∧ outputOf env c job = Utf8.encode text := by
  obtain ⟨k1, k2⟩ := ListText.each_unique h he
  have hh := TextProject.holds_once hs hg h k1 he.titles
  obtain ⟨-, hm⟩ := TextProject.mirror hh hn
  obtain ⟨hk, hr⟩ := C18_consistent hn
  obtain ⟨t, ht⟩ := (C85_determined hk hr env.fmt .trace .markdown).2.2 nofun
  cases ht with
  | markdown ht =>
    refine ⟨t, any_markdown hk hm k2 h.once (AnyReport.no_errors hh hn hm) ht, ?_⟩
    obtain ⟨_, _, _, _, h2, _⟩ := new_ok hn
    unfold outputOf
    rw [if_pos hq, hf, (C85_markdown hk h2 hr env.fmt t).2 ht]
    rfl

/-- **C173** Of any project whose texts are well formed and in which no id is there twice, a run leaves exactly this
report. -/
theorem C173_file (ht : env.ReadsToml) (hs : ReadsRust env.syn) (hg : env.os.GlobWorks w there)
    (h : Spec.TextProject env w opt there config reqsOf) (he : EachOnce config reqsOf) (hm : (Main.main env opt w).1 ≤ 1)
    {job : Job} (hq : job.query = .trace) (hf : job.format = .markdown) (ho : job.file ≠ c!"-")
    (hw : WritesLast env opt config job) :
    ∃ text, AnyMarkdown env.fmt config reqsOf text ∧
      (Main.main env opt w).2.files (env.os.resolve (target opt.baseDir job.file)) = some (Utf8.encode text) := by
  obtain ⟨c, js, hn, hj, hd⟩ := ProjectReport.jobs_done (TextProject.good ht h) hm
  obtain ⟨pre, post, hp, hl⟩ := hw
  cases hj.unique hp
  have hb : c.baseDir = opt.baseDir := by
    obtain ⟨g, -, e⟩ := (C82_controller ..).1 hn
    rw [e]
  obtain ⟨text, h1, h2⟩ := markdown_output hs hg h he hn hq hf
  refine ⟨text, h1, ?_⟩
  rw [← h2, ← hb]
  exact C66_last hd ho (by rw [hb]; exact hl)

/-- **C173** The same on the standard output. -/
theorem C173_stdout (ht : env.ReadsToml) (hs : ReadsRust env.syn) (hg : env.os.GlobWorks w there)
    (h : Spec.TextProject env w opt there config reqsOf) (he : EachOnce config reqsOf) (hm : (Main.main env opt w).1 ≤ 1)
    {job : Job} (hq : job.query = .trace) (hf : job.format = .markdown) (ho : job.file = c!"-")
    (hw : JobsOf (config.jobs.getD .empty) (requested config opt) [job]) :
    ∃ text, AnyMarkdown env.fmt config reqsOf text ∧
      (Main.main env opt w).2.stdout = w.stdout ++ Utf8.encode text := by
  obtain ⟨c, js, hn, hj, hd⟩ := ProjectReport.jobs_done (TextProject.good ht h) hm
  cases hj.unique hw
  obtain ⟨text, h1, h2⟩ := markdown_output hs hg h he hn hq hf
  refine ⟨text, h1, ?_⟩
  rw [← h2, C66_stdout hd]
  simp [ho]

end AnyMarkdown

namespace AnyMarkdownExample

open CtrlExample (world args)
open TwoLayersExample (upper e_toml e_rust)
open TextProjectExample (e listing code issues)
open AnyReportExample (issue reqA reqB reqsOf md text first_mem requirement_cases)
open AnyMarkdown

def job (out : Path) : Job := ⟨.trace, .markdown, out, none⟩

/-- The project of the report in the form of compiler errors, with another format -/
def config (out : Path) : Config := { AnyReportExample.config out with jobs := some (BMap.ofList [(c!"trace", job out)]) }

def w (out : Path) : World := world [(c!"requirements.toml", TomlText.written (config out)), (c!"p/I_1.md", text),
  (c!"p/req.md", md), (c!"p/src/b.rs", CodeTreeExample.b), (c!"p/src/x/c.rs", CodeTreeExample.c)]

theorem tree (out : Path) : MarkedTree e (w out) (· ∈ listing) args.baseDir code CodeTreeExample.items where
  directory := GlobExample.proper_p
  patterns := CodeTreeExample.project.patterns
  once := CodeTreeExample.project.once
  disjoint := CodeTreeExample.project.disjoint
  files := fun x hx => by
    obtain ⟨t, fo, h1, h2⟩ := CodeTreeExample.project.files x hx
    refine ⟨t, fo, _, ?_, h2⟩
    rw [← h1]
    rcases CodeTreeExample.meant x hx with rfl | rfl <;> rfl

theorem project (out : Path) : Spec.TextProject e (w out) args (· ∈ listing) (config out) reqsOf where
  text := ⟨TomlText.written (config out), rfl,
    C162_written (config out) (fun v h => by cases h; decide) (fun m h => by cases h; exact fun hm => by cases List.mem_singleton.1 (hm : _ ∈ [c!"trace"]))⟩
  version := fun v h => by cases h; rfl
  once := TextProjectExample.project.once
  says := fun ac hac => by
    simp only [config, AnyReportExample.config, TextProjectExample.config, List.mem_cons, List.not_mem_nil, or_false] at hac
    rcases hac with rfl | rfl | rfl
    · exact .document (p := c!"I_1.md") (reqs := [issue]) (by decide) rfl
        ⟨text, rfl, (C81_file ..).1 (by decide +kernel)⟩
    · exact .document (p := c!"req.md") (reqs := [reqA, reqB]) (by decide) rfl
        ⟨md, rfl, (C81_file ..).1 (by decide +kernel)⟩
    · exact .code (fs := [c!"p/src/b.rs", c!"p/src/x/c.rs"]) rfl (tree out) (by decide) fun f => by
        exact .trans (by simp) (CodeTreeExample.meant_iff f).symm
  only := (AnyReportExample.project out).only

theorem each (out : Path) : EachOnce (config out) reqsOf where
  ids := (AnyReportExample.each out).ids
  titles := (AnyReportExample.each out).titles

def codeToAll : Relation := ⟨c!"CODE", [c!"ISSUES", c!"REQ"]⟩
def issuesToReq : Relation := ⟨c!"ISSUES", [c!"REQ"]⟩
def reqToCode : Relation := ⟨c!"REQ", [c!"CODE"]⟩

def above (a : ArtefactId) : List Relation :=
  if a == c!"ISSUES" then [codeToAll] else if a == c!"REQ" then [codeToAll, issuesToReq] else [reqToCode]

def below (a : ArtefactId) : List Relation :=
  if a == c!"ISSUES" then [issuesToReq] else if a == c!"REQ" then [reqToCode] else [codeToAll]

def link : Requirement → Str := MdOut.requirementLink e.fmt

def body (out : Path) (a : ArtefactId) (r : Requirement) : Str :=
  c!"\n### " ++ headingText r ++ c!"\n\n" ++
    c!"Origin: " ++ a ++ c!", " ++ placeLink r.location ++ c!"\n" ++ descriptionText r ++ [] ++
    c!"\nUpwards Tracing:\n" ++
    (above a).flatMap (fun rel => c!"*   " ++ relationText rel ++ c!"\n" ++
      (aboveAlong (config out) reqsOf rel r).flatMap (coverageText link)) ++
    (if ∀ rel ∈ above a, aboveAlong (config out) reqsOf rel r = [] then c!"    *   Derived\n" else []) ++
    c!"\nDownwards Tracing:\n" ++
    (below a).flatMap (fun rel => c!"*   " ++ relationText rel ++ c!"\n" ++
      if belowAlong (config out) reqsOf rel r = [] then c!"    *    UNCOVERED\n"
      else (belowAlong (config out) reqsOf rel r).flatMap (coverageText link))

theorem order_of {L : List Relation} {P : Relation → Prop} (h1 : ∀ rel ∈ [issuesToReq, reqToCode, codeToAll], rel ∈ L ↔ P rel)
    (h2 : ∀ rel ∈ L, rel ∈ [issuesToReq, reqToCode, codeToAll]) (h3 : L.Pairwise fun a b => compare a b = .lt) (out : Path) :
    InOrder (fun rel : Relation => rel) (fun rel => rel ∈ (config out).relations ∧ P rel) L :=
  ⟨fun rel => ⟨fun h => ⟨h2 rel h, (h1 rel (h2 rel h)).1 h⟩, fun h => (h1 rel h.1).2 h.2⟩, h3⟩

theorem sections (out : Path) (a : ArtefactId) (r : Requirement) (h : r ∈ reqsOf a) :
    AnySection link (config out) reqsOf a r (body out a r) := by
  rcases requirement_cases h with ⟨rfl, rfl⟩ | ⟨rfl, rfl⟩ | ⟨rfl, rfl⟩ | ⟨rfl, rfl⟩ | ⟨rfl, rfl⟩ <;>
    exact ⟨above _, below _, [], order_of (by decide) (by decide) (by decide) out,
      order_of (by decide) (by decide) (by decide) out, .nil, rfl⟩

def reportText : Str := c!"

# Tracing Errors

*   Requirement depended on with wrong title:
    *   Upper Requirement [I_1](#i_1-the-first-issue \"The first issue\")
    *   Lower Requirement [REQ_A](#req_a-title-a \"title a\")
    *   Title of Lower Requirement:
        *    ````title a````
    *   Title used to cover it:
        *    ````title b````
    *  At: p/I_1.md:3
*   No requirement was traced along the relation CODE => [ISSUES, REQ]. (Configuration error?)
*   [REQ_A](#req_a-title-a \"title a\") covers unknown Requirement I_9
    [p/req.md:4](../p/req.md?plain=1#L4)
*   [I_1](#i_1-the-first-issue \"The first issue\") depends on unknown Requirement REQ_C
    [p/I_1.md:4](../p/I_1.md?plain=1#L4)


# Uncovered Requirements


## CODE => [ISSUES, REQ]

*   [f](#f)
*   [m::g](#mg)


# Derived Requirements


## ISSUES

*   [I_1](#i_1-the-first-issue \"The first issue\")

## REQ

*   [REQ_B](#req_b-title-b \"title b\")


# Requirements

## CODE

### f

Origin: CODE, [p/src/b.rs:1:3](../p/src/b.rs?plain=1#L1)

Upwards Tracing:
*   REQ => [CODE]
    *   [REQ_A](#req_a-title-a \"title a\")
        Reference: [p/src/b.rs:1:9](../p/src/b.rs?plain=1#L1)

Downwards Tracing:
*   CODE => [ISSUES, REQ]
    *    UNCOVERED

### m::g

Origin: CODE, [p/src/x/c.rs:1:11](../p/src/x/c.rs?plain=1#L1)

Upwards Tracing:
*   REQ => [CODE]
    *   [REQ_B](#req_b-title-b \"title b\")
        Reference: [p/src/x/c.rs:1:17](../p/src/x/c.rs?plain=1#L1)

Downwards Tracing:
*   CODE => [ISSUES, REQ]
    *    UNCOVERED
## ISSUES

### I_1: The first issue

Origin: ISSUES, [p/I_1.md](../p/I_1.md)

Upwards Tracing:
*   CODE => [ISSUES, REQ]
    *   Derived

Downwards Tracing:
*   ISSUES => [REQ]
    *   [REQ_A](#req_a-title-a \"title a\")
        Reference: [p/I_1.md:3](../p/I_1.md?plain=1#L3)
    *   [REQ_A](#req_a-title-a \"title a\")
        Reference: [p/req.md:5](../p/req.md?plain=1#L5)
## REQ

### REQ_A: title a

Origin: REQ, [p/req.md:1](../p/req.md?plain=1#L1)

Upwards Tracing:
*   CODE => [ISSUES, REQ]
*   ISSUES => [REQ]
    *   [I_1](#i_1-the-first-issue \"The first issue\")
        Reference: [p/I_1.md:3](../p/I_1.md?plain=1#L3)
    *   [I_1](#i_1-the-first-issue \"The first issue\")
        Reference: [p/req.md:5](../p/req.md?plain=1#L5)

Downwards Tracing:
*   REQ => [CODE]
    *   [f](#f)
        Reference: [p/src/b.rs:1:9](../p/src/b.rs?plain=1#L1)

### REQ_B: title b

Origin: REQ, [p/req.md:7](../p/req.md?plain=1#L7)

Upwards Tracing:
*   CODE => [ISSUES, REQ]
*   ISSUES => [REQ]
    *   Derived

Downwards Tracing:
*   REQ => [CODE]
    *   [m::g](#mg)
        Reference: [p/src/x/c.rs:1:17](../p/src/x/c.rs?plain=1#L1)
"

theorem specified {out : Path} (ho : out = c!"-" ∨ out = c!"report") : AnyMarkdown e.fmt (config out) reqsOf reportText := by
  refine ⟨reqsOf, [code, issues, upper], AnyReportExample.noUpper, AnyReportExample.noLower, link, body out,
    AnyReportExample.in_order, AnyReportExample.arts_order out, AnyReportExample.noUpper_order out,
    AnyReportExample.noLower_order out, links_iff.2 rfl, sections out, ?_⟩
  rcases ho with rfl | rfl <;> decide +kernel

/-- The report in a file and on the standard output -/
example : (Main.main e args (w c!"report")).2.files c!"p/report" = some (Utf8.encode reportText) := by
  obtain ⟨t, h1, h2⟩ := C173_file (env := e) e_toml e_rust (CodeTreeExample.e_works _) (project c!"report")
    (each c!"report") (by decide +kernel) (job := job c!"report") rfl rfl (by decide) ⟨[], [], .cons rfl .nil, nofun⟩
  have := C173_determined (specified (.inr rfl)) h1
  subst this
  rwa [show e.os.resolve (target args.baseDir (job c!"report").file) = c!"p/report" by decide +kernel] at h2

example : (Main.main e args (w c!"-")).2.stdout = Utf8.encode reportText := by
  obtain ⟨t, h1, h2⟩ := C173_stdout (env := e) e_toml e_rust (CodeTreeExample.e_works _) (project c!"-")
    (each c!"-") (by decide +kernel) (job := job c!"-") rfl rfl rfl (.cons rfl .nil)
  have := C173_determined (specified (.inl rfl)) h1
  subst this
  exact h2

end AnyMarkdownExample

end Reqtrace
