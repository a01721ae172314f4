import Verif.Spec.ListText
import Verif.Props.TextProject
import Verif.Props.ProjectReport

/-!
# C171: from the texts of any project to the lists of its requirements
-/

namespace Reqtrace

open Spec RustLayout GlobText

namespace ListText

theorem pairwise_two {α : Type} {P : α → α → Prop} {l : List α} (h : l.Pairwise P) {x y : α} (hx : x ∈ l) (hy : y ∈ l)
    (hne : x ≠ y) : P x y ∨ P y x := by
  induction h with
  | nil => cases hx
  | cons h1 _ ih =>
    rcases List.mem_cons.1 hx with rfl | hx'
    · rcases List.mem_cons.1 hy with rfl | hy'
      · exact absurd rfl hne
      · exact .inl (h1 y hy')
    · rcases List.mem_cons.1 hy with rfl | hy'
      · exact .inr (h1 x hx')
      · exact ih hx' hy'

/-- **C171** There is at most one such list. -/
theorem C171_determined {R : Requirement → Prop} {f : Format} {s t : Str} (h1 : RequirementList R f s)
    (h2 : RequirementList R f t) : s = t := by
  cases h1 with
  | tags a1 a2 a3 a4 =>
    cases h2 with
    | tags b1 b2 b3 b4 =>
      cases ProjectReport.inOrder_unique a1 b1
      cases C50_lines_determined a2 b2
      congr 2
      refine List.Perm.eq_of_pairwise ?_ a4 b4 (a3.trans b3.symm)
      intro x y _ _ h1 h2
      cases hc : compare x y with
      | lt => exact absurd (Std.OrientedCmp.gt_of_lt hc) h2
      | eq => exact Std.LawfulEqCmp.eq_of_compare hc
      | gt => exact absurd hc h1
  | markdown a1 a2 =>
    cases h2 with
    | markdown b1 b2 =>
      cases ProjectReport.inOrder_unique a1 b1
      rw [entry_iff.1 a2, entry_iff.1 b2]
  | @json reqs _ _ a1 a2 a3 =>
    cases h2 with
    | json b1 b2 b3 =>
      cases ProjectReport.inOrder_unique a1 b1
      have key := JsonProof.only_object (JsonProof.fields_cons (k := c!"version") (JsonProof.only_number 0)
        (JsonProof.fields_cons (k := c!"requirements") (JsonProof.only_listOf JsonProof.only_req reqs)
          (JsonProof.fields_cons (k := c!"errors") (JsonProof.only_listOf JsonProof.only_err []) fun _ => JsonProof.fields_nil)))
      rw [JsonProof.shows_iff.1 a3, JsonProof.shows_iff.1 b3, (key _).1 a2, (key _).1 b2]

variable {g : Graph} {config : Config} {R : ArtefactId → Requirement → Prop}

theorem all_mem (hk : Keyed g) (h : ∀ a r, Defines g a r ↔ R a r) (r : Requirement) :
    r ∈ requirementsOf g.artefacts ↔ ∃ a, R a r := by
  unfold requirementsOf
  rw [List.mem_flatMap]
  constructor
  · rintro ⟨e, he, hr⟩
    exact ⟨e.1, (h _ _).1 ((ProjectReport.values_mem hk ((BMap.get_eq_some_iff _ _ _).2 he) r).1 hr)⟩
  · rintro ⟨a, ha⟩
    obtain ⟨art, h1, h2⟩ := (h _ _).2 ha
    exact ⟨(a, art), (BMap.get_eq_some_iff _ _ _).1 h1, (ProjectReport.values_mem hk h1 r).2 ⟨art, h1, h2⟩⟩

theorem all_differ (hk : Keyed g) (h : ∀ a r, Defines g a r ↔ R a r)
    (hu : ∀ a b r s, R a r → R b s → r.id = s.id → a = b) :
    (requirementsOf g.artefacts).Pairwise fun r s => r.id ≠ s.id := by
  unfold requirementsOf
  rw [List.pairwise_flatMap]
  constructor
  · intro e he
    refine (ProjectReport.values_sorted hk ((BMap.get_eq_some_iff _ _ _).2 he)).imp ?_
    intro r s hlt hid
    rw [hid, Std.ReflCmp.compare_self (cmp := compare)] at hlt
    cases hlt
  · refine List.Pairwise.imp_of_mem ?_ g.artefacts.sorted
    intro e f he hf hlt r hr s hs hid
    have h1 := (h _ _).1 ((ProjectReport.values_mem hk ((BMap.get_eq_some_iff _ _ _).2 he) r).1 hr)
    have h2 := (h _ _).1 ((ProjectReport.values_mem hk ((BMap.get_eq_some_iff _ _ _).2 hf) s).1 hs)
    rw [hu _ _ _ _ h1 h2 hid, Std.ReflCmp.compare_self (cmp := compare)] at hlt
    cases hlt

/-- Sorted by id, these are all requirements in the order of their ids. -/
theorem all_inOrder (hk : Keyed g) (h : ∀ a r, Defines g a r ↔ R a r)
    (hu : ∀ a b r s, R a r → R b s → r.id = s.id → a = b) {reqs : List Requirement}
    (hs : SortedBy Requirement.id (requirementsOf g.artefacts) reqs) :
    InOrder Requirement.id (fun r => ∃ a, R a r) reqs := by
  obtain ⟨h1, h2, -⟩ := hs
  refine ⟨fun r => h1.mem_iff.trans (all_mem hk h r), ?_⟩
  have hd := (h1.pairwise_iff (R := fun r s : Requirement => r.id ≠ s.id) fun h => h.symm).2 (all_differ hk h hu)
  refine (h2.and hd).imp ?_
  intro r s ⟨k1, k2⟩
  cases hc : compare r.id s.id with
  | lt => rfl
  | eq => exact absurd (Std.LawfulEqCmp.eq_of_compare hc) k2
  | gt => exact absurd hc k1

theorem lines_perm {a b : List Requirement} (h : a.Perm b) : (Tags.lines a).Perm (Tags.lines b) :=
  h.filterMap _

/-- The list that the program writes is the one of the requirements. -/
theorem list_of (hk : Keyed g) (h : ∀ a r, Defines g a r ↔ R a r)
    (hu : ∀ a b r s, R a r → R b s → r.id = s.id → a = b) (he : errorsOf g.artefacts = []) {env : FmtEnv} {f : Format}
    {text : Str} (hr : Report env g .parse f text) : RequirementList (fun r => ∃ a, R a r) f text := by
  cases hr with
  | tags hr =>
    obtain ⟨unsorted, sorted, h1, h2, rfl⟩ := hr
    have hs := sortedBy_sort Requirement.id (requirementsOf g.artefacts)
    refine .tags (all_inOrder hk h hu hs) (tagLines_iff.2 rfl) ?_ h2.2.1
    refine h2.1.trans ?_
    rw [tagLines_iff.1 h1]
    exact lines_perm hs.1.symm
  | list hr =>
    obtain ⟨link, entry, reqs, h1, h2, h3, rfl⟩ := hr
    have : inputErrorsText link g = [] := by
      have hf : g.artefacts.entries.filter (fun e => e.2.errors ≠ []) = [] := by
        rw [List.filter_eq_nil_iff]
        intro e hm
        have : e.2.errors = [] := List.flatMap_eq_nil_iff.1 he e hm
        simp [this]
      unfold inputErrorsText
      rw [hf]
      rfl
    rw [this]
    exact .markdown (all_inOrder hk h hu h3) h2
  | «export» h1 h2 =>
    obtain ⟨reqs, h3, h4⟩ := h1
    have : env.sortErrors message (errorsOf g.artefacts) = [] := by
      rw [he]
      exact List.Perm.eq_nil (env.sortErrors_perm _ _)
    rw [this] at h4
    exact .json (all_inOrder hk h hu h3) h4 h2

variable {env : Env} {w : World} {opt : Arguments} {there : Path → Prop} {reqsOf : ArtefactId → List Requirement}

theorem each_unique (h : Spec.TextProject env w opt there config reqsOf) (he : EachOnce config reqsOf) :
    (∀ ac ∈ config.artefacts, ((reqsOf ac.id).map (·.id)).Nodup) ∧
    ∀ a b r s, r ∈ reqsOf a → s ∈ reqsOf b → r.id = s.id → a = b := by
  have hi := he.ids
  rw [List.map_flatMap, List.Nodup, List.pairwise_flatMap] at hi
  refine ⟨hi.1, fun a b r s hr hs hid => ?_⟩
  obtain ⟨ac, h1, rfl⟩ := h.only a (List.ne_nil_of_mem hr)
  obtain ⟨bc, h2, rfl⟩ := h.only b (List.ne_nil_of_mem hs)
  by_cases hab : ac = bc
  · rw [hab]
  · rcases pairwise_two hi.2 h1 h2 hab with k | k
    · exact absurd hid (k _ (List.mem_map.2 ⟨r, hr, rfl⟩) _ (List.mem_map.2 ⟨s, hs, rfl⟩))
    · exact absurd hid.symm (k _ (List.mem_map.2 ⟨s, hs, rfl⟩) _ (List.mem_map.2 ⟨r, hr, rfl⟩))

theorem written (hs : ReadsRust env.syn) (hg : env.os.GlobWorks w there)
    (h : Spec.TextProject env w opt there config reqsOf) (he : EachOnce config reqsOf) {c : Controller}
    (hn : Controller.new env w config opt.baseDir = .ok c) {job : Job} (hq : job.query = .parse)
    (hf : ¬ Unsupported job.query job.format) :
    ∃ text, RequirementList (fun r => ∃ ac ∈ config.artefacts, r ∈ reqsOf ac.id) job.format text ∧
      outputOf env c job = Utf8.encode text := by
  obtain ⟨k1, k2⟩ := each_unique h he
  obtain ⟨hc, hm⟩ := TextProject.mirror (TextProject.holds_once hs hg h k1 he.titles) hn
  have hk := (C18_consistent hn).1
  have hR : (fun r => ∃ ac ∈ config.artefacts, r ∈ reqsOf ac.id) = fun r => ∃ a, r ∈ reqsOf a := by
    funext r
    refine propext ⟨fun ⟨ac, _, hr⟩ => ⟨_, hr⟩, fun ⟨a, hr⟩ => ?_⟩
    obtain ⟨ac, h1, rfl⟩ := h.only a (List.ne_nil_of_mem hr)
    exact ⟨ac, h1, hr⟩
  rw [hR]
  have herr : errorsOf c.graph.artefacts = [] := by
    refine List.flatMap_eq_nil_iff.2 fun e hm' => ?_
    have ha := (BMap.get_eq_some_iff _ _ _).2 hm'
    obtain ⟨ac, hl, hid⟩ := hm.configured _ _ ha
    rw [← hid] at ha
    obtain ⟨reqs, h1, -⟩ := (TextProject.holds_once hs hg h k1 he.titles).files ac hl
    exact (C68_no_errors_iff hn hl ha).1.2 ⟨reqs, h1⟩
  have hr : RelationsExist c.graph := (C18_consistent hn).2
  have ht : trace c.graph = .ok c.tracedGraph := (C18_no_panic hn).1
  obtain ⟨text, hrep⟩ := (C85_determined hk hr env.fmt job.query job.format).2.2 hf
  have hput := (C85_report hk ht hr env.fmt job.query job.format text).2 hrep
  rw [hq] at hrep hput
  refine ⟨text, list_of hk hm.defines k2 herr hrep, ?_⟩
  unfold outputOf
  rw [if_neg (by rw [hq]; decide)]
  exact congrArg (fun o : Out => Utf8.encode o.text) hput

/-- **C171** Of any project whose texts are well formed and in which no id is there twice, a run leaves exactly this list
of the requirements. -/
theorem C171_file (ht : env.ReadsToml) (hs : ReadsRust env.syn) (hg : env.os.GlobWorks w there)
    (h : Spec.TextProject env w opt there config reqsOf) (he : EachOnce config reqsOf) (hm : (Main.main env opt w).1 ≤ 1)
    {job : Job} (hq : job.query = .parse) (hf : ¬ Unsupported job.query job.format) (ho : job.file ≠ c!"-")
    (hw : WritesLast env opt config job) :
    ∃ text, RequirementList (fun r => ∃ ac ∈ config.artefacts, r ∈ reqsOf ac.id) job.format text ∧
      (Main.main env opt w).2.files (env.os.resolve (target opt.baseDir job.file)) = some (Utf8.encode text) := by
  obtain ⟨c, js, hn, hj, hd⟩ := ProjectReport.jobs_done (TextProject.good ht h) hm
  obtain ⟨pre, post, hp, hl⟩ := hw
  cases hj.unique hp
  have hb : c.baseDir = opt.baseDir := by
    obtain ⟨g, -, e⟩ := (C82_controller ..).1 hn
    rw [e]
  obtain ⟨text, h1, h2⟩ := written hs hg h he hn hq hf
  refine ⟨text, h1, ?_⟩
  rw [← h2, ← hb]
  exact C66_last hd ho (by rw [hb]; exact hl)

/-- **C171** The same on the standard output. -/
theorem C171_stdout (ht : env.ReadsToml) (hs : ReadsRust env.syn) (hg : env.os.GlobWorks w there)
    (h : Spec.TextProject env w opt there config reqsOf) (he : EachOnce config reqsOf) (hm : (Main.main env opt w).1 ≤ 1)
    {job : Job} (hq : job.query = .parse) (hf : ¬ Unsupported job.query job.format) (ho : job.file = c!"-")
    (hw : JobsOf (config.jobs.getD .empty) (requested config opt) [job]) :
    ∃ text, RequirementList (fun r => ∃ ac ∈ config.artefacts, r ∈ reqsOf ac.id) job.format text ∧
      (Main.main env opt w).2.stdout = w.stdout ++ Utf8.encode text := by
  obtain ⟨c, js, hn, hj, hd⟩ := ProjectReport.jobs_done (TextProject.good ht h) hm
  cases hj.unique hw
  obtain ⟨text, h1, h2⟩ := written hs hg h he hn hq hf
  refine ⟨text, h1, ?_⟩
  rw [← h2, C66_stdout hd]
  simp [ho]

end ListText

namespace ListTextExample

open CtrlExample (world args)
open TwoLayersExample (md reqs upper e_toml e_rust)
open TextProjectExample ListText

def job (f : Format) (out : Path) : Job := ⟨.parse, f, out, none⟩

def config (f : Format) (out : Path) : Config := { TextProjectExample.config with
  jobs := some (BMap.ofList [(c!"trace", job f out)]) }

def w (f : Format) (out : Path) : World := world [(c!"requirements.toml", TomlText.written (config f out)), (c!"p/I_1.md", text),
  (c!"p/req.md", md), (c!"p/src/b.rs", CodeTreeExample.b), (c!"p/src/x/c.rs", CodeTreeExample.c)]

theorem tree (f : Format) (out : Path) : MarkedTree e (w f out) (· ∈ listing) args.baseDir code CodeTreeExample.items where
  directory := GlobExample.proper_p
  patterns := CodeTreeExample.project.patterns
  once := CodeTreeExample.project.once
  disjoint := CodeTreeExample.project.disjoint
  files := fun x hx => by
    obtain ⟨t, fo, h1, h2⟩ := CodeTreeExample.project.files x hx
    refine ⟨t, fo, _, ?_, h2⟩
    rw [← h1]
    rcases CodeTreeExample.meant x hx with rfl | rfl <;> rfl

theorem project (f : Format) (out : Path) :
    Spec.TextProject e (w f out) args (· ∈ listing) (config f out) reqsOf where
  text := ⟨TomlText.written (config f out), rfl,
    C162_written (config f out) (fun v h => by cases h; decide) (fun m h => by cases h; exact fun hm => by cases List.mem_singleton.1 (hm : _ ∈ [c!"trace"]))⟩
  version := fun v h => by cases h; rfl
  once := TextProjectExample.project.once
  says := fun ac hac => by
    simp only [config, TextProjectExample.config, List.mem_cons, List.not_mem_nil, or_false] at hac
    rcases hac with rfl | rfl | rfl
    · exact .document (p := c!"I_1.md") (reqs := [issue]) (by decide) rfl
        ⟨text, rfl, (C81_file ..).1 (by decide +kernel)⟩
    · exact .document (p := c!"req.md") (reqs := reqs) (by decide) rfl
        ⟨md, rfl, (C81_file ..).1 (by decide +kernel)⟩
    · exact .code (fs := [c!"p/src/b.rs", c!"p/src/x/c.rs"]) rfl (tree f out) (by decide) fun f => by
        exact .trans (by simp) (CodeTreeExample.meant_iff f).symm
  only := TextProjectExample.project.only

theorem each (f : Format) (out : Path) : EachOnce (config f out) reqsOf where
  ids := by
    show (([issues, upper, code].flatMap fun ac => reqsOf ac.id).map (·.id)).Nodup
    decide
  titles := TextProjectExample.all.titles

theorem lastJob (f : Format) (out : Path) : WritesLast e args (config f out) (job f out) :=
  ⟨[], [], .cons rfl .nil, nofun⟩

/-- The file with the tags; the issue stands in no line. -/
def tagsText : Str := c!"!_TAG_FILE_SORTED\t1\t/0=unsorted, 1=sorted, 2=foldcase/
!_TAG_PROGRAM_NAME\treqtrace/
!_TAG_PROGRAM_URL\thttps://github.com/wonkodv/reqtrace/
!_TAG_PROGRAM_VERSION\t0\t//
REQ_A\tp/req.md\t1;\"\tr
REQ_B\tp/req.md\t3;\"\tr
f\tp/src/b.rs\t1;\"\tr
m::g\tp/src/x/c.rs\t1;\"\tr
"

def listText : Str := c!"
### I_1: The first issue

Origin: [p/I_1.md](../p/I_1.md)

Depends:
*   REQ_A: title a
*   REQ_B: title b

### REQ_A: title a

Origin: [p/req.md:1](../p/req.md?plain=1#L1)


Text.


### REQ_B: title b

Origin: [p/req.md:3](../p/req.md?plain=1#L3)

### f: 

Origin: [p/src/b.rs:1:3](../p/src/b.rs?plain=1#L1)

Covers:
*   REQ_A: title a

### m::g: 

Origin: [p/src/x/c.rs:1:11](../p/src/x/c.rs?plain=1#L1)

Covers:
*   REQ_B: title b
"

def all : List Requirement := [issue, reqs[0], reqs[1], CodeTreeExample.f, CodeTreeExample.g]

theorem all_order : InOrder Requirement.id (fun r => ∃ ac ∈ (config .tags c!"tags").artefacts, r ∈ reqsOf ac.id) all := by
  refine ⟨fun r => ?_, by decide⟩
  have : (∃ ac ∈ (config .tags c!"tags").artefacts, r ∈ reqsOf ac.id) ↔
      r ∈ ([issues, upper, code].flatMap fun ac => reqsOf ac.id) := List.mem_flatMap.symm
  exact .trans Iff.rfl this.symm

theorem tags_list :
    RequirementList (fun r => ∃ ac ∈ (config .tags c!"tags").artefacts, r ∈ reqsOf ac.id) .tags tagsText := by
  have : tagsText = c!"!_TAG_FILE_SORTED\t1\t/0=unsorted, 1=sorted, 2=foldcase/\n" ++
      c!"!_TAG_PROGRAM_NAME\treqtrace/\n" ++ c!"!_TAG_PROGRAM_URL\thttps://github.com/wonkodv/reqtrace/\n" ++
      c!"!_TAG_PROGRAM_VERSION\t0\t//\n" ++ (Tags.lines all).flatten := by decide +kernel
  rw [this]
  exact .tags all_order (tagLines_iff.2 rfl) (.refl _) (by decide +kernel)

theorem markdown_list :
    RequirementList (fun r => ∃ ac ∈ (config .markdown c!"-").artefacts, r ∈ reqsOf ac.id) .markdown listText := by
  have : listText = all.flatMap MdOut.requirement := by decide +kernel
  rw [this]
  exact .markdown all_order (entry_iff.2 rfl)

/-- The tags file after the run -/
example : (Main.main e args (w .tags c!"tags")).2.files c!"p/tags" = some (Utf8.encode tagsText) := by
  obtain ⟨t, h1, h2⟩ := C171_file (env := e) e_toml e_rust (CodeTreeExample.e_works _) (project .tags c!"tags")
    (each .tags c!"tags") (by decide +kernel) (job := job .tags c!"tags") rfl id (by decide) (lastJob _ _)
  have := C171_determined tags_list h1
  subst this
  rwa [show e.os.resolve (target args.baseDir (job .tags c!"tags").file) = c!"p/tags" by decide +kernel] at h2

/-- The list on the standard output -/
example : (Main.main e args (w .markdown c!"-")).2.stdout = Utf8.encode listText := by
  obtain ⟨t, h1, h2⟩ := C171_stdout (env := e) e_toml e_rust (CodeTreeExample.e_works _) (project .markdown c!"-")
    (each .markdown c!"-") (by decide +kernel) (job := job .markdown c!"-") rfl id rfl (.cons rfl .nil)
  have := C171_determined markdown_list h1
  subst this
  exact h2

/-- In JSON -/
example : ∃ t, RequirementList (fun r => ∃ ac ∈ (config .json c!"-").artefacts, r ∈ reqsOf ac.id) .json t ∧
    (Main.main e args (w .json c!"-")).2.stdout = Utf8.encode t :=
  C171_stdout (env := e) e_toml e_rust (CodeTreeExample.e_works _) (project .json c!"-")
    (each .json c!"-") (by decide +kernel) (job := job .json c!"-") rfl id rfl (.cons rfl .nil)

end ListTextExample

end Reqtrace
