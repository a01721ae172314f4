import Verif.Spec.RunLeaves
import Verif.Props.AnyJson
import Verif.Props.Rerun
import Verif.Props.Crash

/-!
# C175: from the texts of any project to everything that a run leaves
-/

namespace Reqtrace

open Spec RustLayout GlobText

namespace RunLeaves

variable {env : Env} {w : World} {opt : Arguments} {there : Path → Prop} {config : Config}
  {reqsOf : ArtefactId → List Requirement}

theorem text_unique {base : Path} {job : Job} {s t : Str} (h : JobText env w base config reqsOf job s)
    (h' : JobText env w base config reqsOf job t) : s = t := by
  cases h with
  | list h1 h2 =>
    cases h' with
    | list _ k2 => exact ListText.C171_determined h2 k2
    | gnu k1 => rw [h1] at k1; cases k1
    | markdown k1 => rw [h1] at k1; cases k1
    | json k1 => rw [h1] at k1; cases k1
  | gnu h1 h2 h3 =>
    cases h' with
    | list k1 => rw [h1] at k1; cases k1
    | gnu _ _ k3 => exact AnyReport.C172_determined h3 k3
    | markdown _ k2 => rw [h2] at k2; cases k2
    | json _ k2 => rw [h2] at k2; cases k2
  | markdown h1 h2 h3 =>
    cases h' with
    | list k1 => rw [h1] at k1; cases k1
    | gnu _ k2 => rw [h2] at k2; cases k2
    | markdown _ _ k3 => exact AnyMarkdown.C173_determined h3 k3
    | json _ k2 => rw [h2] at k2; cases k2
  | json h1 h2 h3 =>
    cases h' with
    | list k1 => rw [h1] at k1; cases k1
    | gnu _ k2 => rw [h2] at k2; cases k2
    | markdown _ k2 => rw [h2] at k2; cases k2
    | json _ _ k3 => exact AnyJson.C174_determined h3 k3

theorem texts_unique {base : Path} {js : List Job} {ss ts : List Str} (h : JobTexts env w base config reqsOf js ss)
    (h' : JobTexts env w base config reqsOf js ts) : ss = ts := by
  induction h generalizing ts with
  | nil => cases h'; rfl
  | cons h1 _ ih =>
    cases h' with
    | cons k1 k2 => rw [text_unique h1 k1, ih k2]

theorem job_text (hs : ReadsRust env.syn) (hg : env.os.GlobWorks w there)
    (h : Spec.TextProject env w opt there config reqsOf) (he : EachOnce config reqsOf) {c : Controller}
    (hn : Controller.new env w config opt.baseDir = .ok c) {job : Job} (hf : ¬ Unsupported job.query job.format) :
    ∃ text, JobText env w opt.baseDir config reqsOf job text ∧ outputOf env c job = Utf8.encode text := by
  cases hq : job.query with
  | parse =>
    obtain ⟨t, h1, h2⟩ := ListText.written hs hg h he hn hq hf
    exact ⟨t, .list hq h1, h2⟩
  | trace =>
    cases hk : job.format with
    | gnuError =>
      obtain ⟨t, h1, h2⟩ := AnyReport.any_output hs hg h he hn hq hk
      exact ⟨t, .gnu hq hk h1, h2⟩
    | markdown =>
      obtain ⟨t, h1, h2⟩ := AnyMarkdown.markdown_output hs hg h he hn hq hk
      exact ⟨t, .markdown hq hk h1, h2⟩
    | json =>
      obtain ⟨t, h1, h2⟩ := AnyJson.json_output hs hg h he hn hq hk
      exact ⟨t, .json hq hk h1, h2⟩
    | _ => rw [hq, hk] at hf; exact absurd trivial hf

theorem done_supported {c : Controller} {js : List Job} {w' : World} (hn : Controller.new env w config opt.baseDir = .ok c)
    {v : World} (h : Done env c js v w') : ∀ j ∈ js, ¬ Unsupported j.query j.format := by
  induction h with
  | nil => nofun
  | cons hr _ ih =>
    intro j hj
    rcases List.mem_cons.1 hj with rfl | hj
    · exact (output_panic hn _).1 (run_ok hr).2.1
    · exact ih j hj

theorem texts {base : Path} {f : Job → Bytes} : ∀ {js : List Job},
    (∀ j ∈ js, ∃ t, JobText env w base config reqsOf j t ∧ f j = Utf8.encode t) →
    ∃ ts, JobTexts env w base config reqsOf js ts ∧ (js.map f).flatten = Utf8.encode ts.flatten
  | [], _ => ⟨[], .nil, rfl⟩
  | j :: js, h => by
    obtain ⟨t, h1, h2⟩ := h j List.mem_cons_self
    obtain ⟨ts, h3, h4⟩ := texts fun k hk => h k (List.mem_cons_of_mem _ hk)
    refine ⟨t :: ts, .cons h1 h3, ?_⟩
    rw [List.map_cons, List.flatten_cons, List.flatten_cons, h2, h4]
    simp [Utf8.encode]

theorem leaves (hs : ReadsRust env.syn) (hg : env.os.GlobWorks w there)
    (h : Spec.TextProject env w opt there config reqsOf) (he : EachOnce config reqsOf) {c : Controller}
    (hn : Controller.new env w config opt.baseDir = .ok c) {js : List Job} {w' : World} (hd : Done env c js w w') :
    Spec.RunLeaves env opt.baseDir w config reqsOf js w' := by
  have hb : c.baseDir = opt.baseDir := by
    obtain ⟨g, -, e⟩ := (C82_controller ..).1 hn
    rw [e]
  have ht := fun j hj => job_text hs hg h he hn (done_supported hn hd j hj)
  have hk := done_keptAll hd
  refine ⟨?_, hk.stderr, ?_, hb ▸ hk.files, hk.dirsKept, hb ▸ hk.dirsNew⟩
  · obtain ⟨ts, h1, h2⟩ := texts (js := js.filter fun j => j.file = c!"-") fun j hj => ht j (List.mem_filter.1 hj).1
    exact ⟨ts, h1, by rw [C66_stdout hd, h2]⟩
  · rintro pre j post rfl hf hl
    obtain ⟨t, h1, h2⟩ := ht j (by simp)
    exact ⟨t, h1, by rw [← h2, ← hb, C66_last hd hf (hb ▸ hl)]⟩

theorem detected_iff (hs : ReadsRust env.syn) (hg : env.os.GlobWorks w there)
    (h : Spec.TextProject env w opt there config reqsOf) (he : EachOnce config reqsOf) {c : Controller}
    (hn : Controller.new env w config opt.baseDir = .ok c) (js : List Job) :
    Detected c js ↔ (∃ j ∈ js, j.query = .trace ∧ Sets j) ∧ ¬ AllTraced config fun a r => r ∈ reqsOf a := by
  obtain ⟨k1, k2⟩ := ListText.each_unique h he
  obtain ⟨hc, hm⟩ := TextProject.mirror (TextProject.holds_once hs hg h k1 he.titles) hn
  have hp : TraceProblem c.tracedGraph ↔ ¬ AllTraced config fun a r => r ∈ reqsOf a := by
    rw [← hm.clean, iff_comm, ← Classical.not_not (a := TraceProblem _), traceProblem_iff hn]
    exact ⟨fun k l => k l.2, fun k l => k ⟨hc, l⟩⟩
  constructor
  · rintro ⟨j, hj, hset, hdet⟩
    unfold Detects at hdet
    split at hdet
    · rename_i hq
      exact ⟨⟨j, hj, hq, hset⟩, hp.1 hdet⟩
    · exact ((cleanInput_iff hn).2 hc hdet).elim
  · rintro ⟨⟨j, hj, hq, hset⟩, hno⟩
    exact ⟨j, hj, hset, by unfold Detects; rw [hq]; exact hp.2 hno⟩

theorem job_known {jobs : BMap Str Job} {ns : List Str} {js : List Job} (h : JobsOf jobs ns js) :
    ∀ n ∈ ns, ∃ j ∈ js, jobs.get n = some j := by
  induction h with
  | nil => nofun
  | cons h1 _ ih =>
    intro n hn
    rcases List.mem_cons.1 hn with rfl | hn
    · exact ⟨_, List.mem_cons_self, h1⟩
    · obtain ⟨j, hj, k⟩ := ih n hn
      exact ⟨j, List.mem_cons_of_mem _ hj, k⟩

theorem never_fails (hr : Reliable env.os) {base : Path} {g : Graph} {js : List Job} {v v' : World} {e : JobEnd}
    (h : JobsRun env base g js v e v') : ∀ m, e ≠ .failed m := by
  induction h with
  | nil => nofun
  | next _ _ ih => exact ih
  | stop _ h2 =>
    rintro m rfl
    cases h2 with
    | failed _ k => cases (Delivers.effect hr k v).1

theorem input (hs : ReadsRust env.syn) (hg : env.os.GlobWorks w there)
    (h : Spec.TextProject env w opt there config reqsOf) (hr : RelationsConfigured config) :
    ∃ g, IsInput env w config opt.baseDir g := by
  refine Classical.byContradiction fun hno => ?_
  rcases (C82_none_iff ..).1 hno with h1 | ⟨ac, hac, fs, h1, p, hp, file, h2, h3⟩
  · exact h1 hr
  · obtain ⟨fs', rs, k1, k2, -⟩ := TextProject.says_holds hs hg (h.says ac hac)
    cases filesOf_unique h1 k1
    have : ∀ {fs rs}, HoldAll env w ac.parser fs rs → p ∈ fs → ∃ rs', Holds env w ac.parser p rs' := by
      intro fs rs k
      induction k with
      | nil => nofun
      | cons k _ ih =>
        intro hp
        rcases List.mem_cons.1 hp with rfl | hp
        · exact ⟨_, k⟩
        · exact ih hp
    obtain ⟨rs', text, m1, m2⟩ := this k2 hp
    rw [m1] at h2
    cases h2
    exact h3 _ _ m2

end RunLeaves

section

open RunLeaves

variable {env : Env} {w : World} {opt : Arguments} {there : Path → Prop} {config : Config}
  {reqsOf : ArtefactId → List Requirement}

/-- **C175** A run about a project whose texts are well formed, on a system on which writing works, gets to its
end exactly if the configuration can be worked with. -/
theorem C175_ends (ht : env.ReadsToml) (hs : ReadsRust env.syn) (hg : env.os.GlobWorks w there)
    (h : Spec.TextProject env w opt there config reqsOf) (hr : Reliable env.os) :
    (Main.main env opt w).1 ≤ 1 ↔ Runnable config opt := by
  have hgood := TextProject.good ht h
  constructor
  · intro hm
    obtain ⟨c, js, hn, hj, hd⟩ := ProjectReport.jobs_done hgood hm
    refine ⟨((C18_returns_iff ..).1 ⟨c, hn⟩).1, fun h0 => ?_, fun n hn' => ?_⟩
    · have : BadJobs env opt w ∧ ∃ config c, GoodConfig env w opt.configFile config ∧
          Controller.new env w config opt.baseDir = .ok c := ⟨⟨config, hgood, .inl h0⟩, config, c, hgood, hn⟩
      have := (C28_exit_code_partial env opt w).2.2.1.2 (.inr (.inl this))
      omega
    · obtain ⟨j, h1, h2⟩ := job_known hj n hn'
      exact ⟨j, h2, done_supported hn hd j h1⟩
  · intro hrun
    have hsup : ∀ {js}, JobsOf (config.jobs.getD .empty) (requested config opt) js → ∀ j ∈ js, ¬ Unsupported j.query j.format := by
      intro js hj j hm
      obtain ⟨n, h1, h2⟩ := (hj.mem j).1 hm
      obtain ⟨j', k1, k2⟩ := hrun.known n h1
      rw [h2] at k1
      cases k1
      exact k2
    have hend := main_ends env opt w
    generalize (Main.main env opt w).1 = code, (Main.main env opt w).2 = v at hend
    cases hend with
    | badConfig k =>
      have := configComplaint_iff.2 k
      rw [(getConfig_ok ..).2 hgood] at this
      cases this
    | noInput k1 k2 =>
      cases GoodConfig_unique k1 hgood
      obtain ⟨g, hi⟩ := input hs hg h hrun.relations
      exact (k2 g hi).elim
    | noJobs k1 _ k2 =>
      cases GoodConfig_unique k1 hgood
      exact (hrun.jobs k2).elim
    | @unknownJob _ _ _ n _ _ _ k1 _ k2 _ k3 =>
      cases GoodConfig_unique k1 hgood
      obtain ⟨j, m, -⟩ := hrun.known n (by rw [k2]; simp)
      rw [k3] at m
      cases m
    | failed _ _ _ k => exact (never_fails hr k _ rfl).elim
    | panics k1 _ k2 k3 =>
      cases GoodConfig_unique k1 hgood
      obtain ⟨pre, j, post, w1, rfl, -, k4, -⟩ := Crash.jobsRun_panics.1 k3
      exact (hsup k2 j (by simp) k4).elim
    | fault => exact Nat.le_refl 1
    | fine => exact Nat.zero_le 1

/-- **C175** If a run gets to its end, this is what it leaves, and its exit code is 0 unless a trace counts and not
everything is traced. -/
theorem C175_leaves (ht : env.ReadsToml) (hs : ReadsRust env.syn) (hg : env.os.GlobWorks w there)
    (h : Spec.TextProject env w opt there config reqsOf) (he : EachOnce config reqsOf) (hm : (Main.main env opt w).1 ≤ 1) :
    ∃ js, JobsOf (config.jobs.getD .empty) (requested config opt) js ∧
      Spec.RunLeaves env opt.baseDir w config reqsOf js (Main.main env opt w).2 ∧
      ((Main.main env opt w).1 = 1 ↔ (∃ j ∈ js, j.query = .trace ∧ j.setReturnCode ≠ some false) ∧
        ¬ AllTraced config fun a r => r ∈ reqsOf a) := by
  obtain ⟨c, js, hn, hj, hd⟩ := ProjectReport.jobs_done (TextProject.good ht h) hm
  refine ⟨js, hj, leaves hs hg h he hn hd, ?_⟩
  have key := detected_iff hs hg h he hn js
  unfold Sets at key
  rw [← key]
  have same : ∀ {c' js' w'}, AllRun env opt w c' js' w' → c' = c ∧ js' = js := by
    rintro c' js' w' ⟨cfg, h1, h2, -, h3, -⟩
    cases GoodConfig_unique h1 (TextProject.good ht h)
    cases hj.unique h3
    rw [hn] at h2
    cases h2
    exact ⟨rfl, rfl⟩
  constructor
  · intro h1
    obtain ⟨c', js', w', ha, hdet⟩ := (C28_exit_code_partial env opt w).2.1.1 h1
    obtain ⟨rfl, rfl⟩ := same ha
    exact hdet
  · intro hdet
    rcases Nat.le_one_iff_eq_zero_or_eq_one.1 hm with h0 | h1
    · obtain ⟨c', js', w', ha, hno⟩ := (C28_exit_code_partial env opt w).1.1 h0
      obtain ⟨rfl, rfl⟩ := same ha
      exact absurd hdet hno
    · exact h1

/-- **C175** There is only one way to leave this: the same files, the same standard output and error. -/
theorem C175_determined {base : Path} {js : List Job} {w1 w2 : World}
    (h1 : Spec.RunLeaves env base w config reqsOf js w1) (h2 : Spec.RunLeaves env base w config reqsOf js w2) :
    w1.files = w2.files ∧ w1.stdout = w2.stdout ∧ w1.stderr = w2.stderr := by
  refine ⟨funext fun p => ?_, ?_, h1.stderr.trans h2.stderr.symm⟩
  · by_cases hp : ∀ j ∈ js, j.file ≠ c!"-" → p ≠ env.os.resolve (target base j.file)
    · rw [h1.kept p hp, h2.kept p hp]
    · have : ∀ js : List Job, (¬ ∀ j ∈ js, j.file ≠ c!"-" → p ≠ env.os.resolve (target base j.file)) →
          ∃ pre j post, js = pre ++ j :: post ∧ j.file ≠ c!"-" ∧ p = env.os.resolve (target base j.file) ∧
            ∀ k ∈ post, k.file ≠ c!"-" → p ≠ env.os.resolve (target base k.file) := by
        intro js
        induction js with
        | nil => exact fun hp => absurd nofun hp
        | cons j js ih =>
          intro hp
          by_cases hj : ∀ k ∈ js, k.file ≠ c!"-" → p ≠ env.os.resolve (target base k.file)
          · refine ⟨[], j, js, rfl, ?_⟩
            refine Classical.byContradiction fun hno => hp ?_
            intro k hk hf e
            rcases List.mem_cons.1 hk with rfl | hk
            · exact hno ⟨hf, e, hj⟩
            · exact hj k hk hf e
          · obtain ⟨pre, k, post, rfl, k1⟩ := ih hj
            exact ⟨j :: pre, k, post, rfl, k1⟩
      obtain ⟨pre, j, post, e, hf, rfl, hl⟩ := this js hp
      obtain ⟨t1, a1, a2⟩ := h1.written pre j post e hf hl
      obtain ⟨t2, b1, b2⟩ := h2.written pre j post e hf hl
      rw [a2, b2, text_unique a1 b1]
  · obtain ⟨t1, a1, a2⟩ := h1.stdout
    obtain ⟨t2, b1, b2⟩ := h2.stdout
    rw [a2, b2, texts_unique a1 b1]

end

namespace RunLeavesExample

open CtrlExample (world args)
open TwoLayersExample (upper e_toml e_rust)
open TextProjectExample (e listing code issues)
open AnyReportExample (reqsOf issue reqA reqB md text)

def trace : Job := ⟨.trace, .gnuError, c!"-", none⟩
def list : Job := ⟨.parse, .markdown, c!"out/tags", none⟩
def tags : Job := ⟨.parse, .tags, c!"out/tags", none⟩

/-- Three jobs; two of them write the same file. -/
def config : Config := { AnyReportExample.config c!"-" with
  jobs := some (BMap.ofList [(c!"list", list), (c!"tags", tags), (c!"trace", trace)])
  defaultJobs := some [c!"list", c!"trace", c!"tags"] }

def w : World := world [(c!"requirements.toml", TomlText.written config), (c!"p/I_1.md", text),
  (c!"p/req.md", md), (c!"p/src/b.rs", CodeTreeExample.b), (c!"p/src/x/c.rs", CodeTreeExample.c)]

theorem tree : MarkedTree e w (· ∈ listing) args.baseDir code CodeTreeExample.items where
  directory := GlobExample.proper_p
  patterns := CodeTreeExample.project.patterns
  once := CodeTreeExample.project.once
  disjoint := CodeTreeExample.project.disjoint
  files := fun x hx => by
    obtain ⟨t, fo, h1, h2⟩ := CodeTreeExample.project.files x hx
    refine ⟨t, fo, _, ?_, h2⟩
    rw [← h1]
    rcases CodeTreeExample.meant x hx with rfl | rfl <;> rfl

theorem project : Spec.TextProject e w args (· ∈ listing) config reqsOf where
  text := ⟨TomlText.written config, rfl,
    C162_written config (fun v h => by cases h; decide) (fun m h => by cases h; exact (by decide : [] ∉ [c!"list", c!"tags", c!"trace"]))⟩
  version := fun v h => by cases h; rfl
  once := TextProjectExample.project.once
  says := fun ac hac => by
    simp only [config, AnyReportExample.config, TextProjectExample.config, List.mem_cons, List.not_mem_nil, or_false] at hac
    rcases hac with rfl | rfl | rfl
    · exact .document (p := c!"I_1.md") (reqs := [issue]) (by decide) rfl
        ⟨text, rfl, (C81_file ..).1 (by decide +kernel)⟩
    · exact .document (p := c!"req.md") (reqs := [reqA, reqB]) (by decide) rfl
        ⟨md, rfl, (C81_file ..).1 (by decide +kernel)⟩
    · exact .code (fs := [c!"p/src/b.rs", c!"p/src/x/c.rs"]) rfl tree (by decide) fun f => by
        exact .trans (by simp) (CodeTreeExample.meant_iff f).symm
  only := (AnyReportExample.project c!"-").only

theorem each : EachOnce config reqsOf := ⟨(AnyReportExample.each c!"-").ids, (AnyReportExample.each c!"-").titles⟩

theorem runnable : Runnable config args where
  relations := by
    unfold RelationsConfigured Configured
    decide
  jobs := by decide
  known := fun n hn => by
    rcases List.mem_cons.1 (show n ∈ [c!"list", c!"trace", c!"tags"] from hn) with rfl | hn
    · exact ⟨list, rfl, id⟩
    · rcases List.mem_cons.1 hn with rfl | hn
      · exact ⟨trace, rfl, id⟩
      · cases List.mem_singleton.1 hn
        exact ⟨tags, rfl, id⟩

/-- What the last job writes -/
def tagsText : Str := c!"!_TAG_FILE_SORTED\t1\t/0=unsorted, 1=sorted, 2=foldcase/
!_TAG_PROGRAM_NAME\treqtrace/
!_TAG_PROGRAM_URL\thttps://github.com/wonkodv/reqtrace/
!_TAG_PROGRAM_VERSION\t0\t//
REQ_A\tp/req.md\t1;\"\tr
REQ_B\tp/req.md\t7;\"\tr
f\tp/src/b.rs\t1;\"\tr
m::g\tp/src/x/c.rs\t1;\"\tr
"

def all : List Requirement := [issue, reqA, reqB, CodeTreeExample.f, CodeTreeExample.g]

theorem all_order : InOrder Requirement.id (fun r => ∃ ac ∈ config.artefacts, r ∈ reqsOf ac.id) all := by
  refine ⟨fun r => ?_, by decide⟩
  have : (∃ ac ∈ config.artefacts, r ∈ reqsOf ac.id) ↔
      r ∈ ([issues, upper, code].flatMap fun ac => reqsOf ac.id) := List.mem_flatMap.symm
  exact .trans Iff.rfl this.symm

theorem tags_text : JobText e w args.baseDir config reqsOf tags tagsText := by
  have : tagsText = c!"!_TAG_FILE_SORTED\t1\t/0=unsorted, 1=sorted, 2=foldcase/\n" ++
      c!"!_TAG_PROGRAM_NAME\treqtrace/\n" ++ c!"!_TAG_PROGRAM_URL\thttps://github.com/wonkodv/reqtrace/\n" ++
      c!"!_TAG_PROGRAM_VERSION\t0\t//\n" ++ (Tags.lines all).flatten := by decide +kernel
  rw [this]
  exact .list rfl (.tags all_order (tagLines_iff.2 rfl) (.refl _) (by decide +kernel))

theorem trace_text : JobText e w args.baseDir config reqsOf trace AnyReportExample.reportText :=
  .gnu rfl rfl (AnyReportExample.specified (.inl rfl))

theorem not_traced : ¬ AllTraced config fun a r => r ∈ reqsOf a := by
  intro h
  obtain ⟨rel, h1, h2, u, h3, h4⟩ := h.covers c!"REQ" reqA (by decide) ⟨c!"I_9", some c!"none", ⟨c!"p/req.md", some (.line 4)⟩⟩ (by decide)
  rcases AnyReportExample.requirement_cases h3 with ⟨-, rfl⟩ | ⟨-, rfl⟩ | ⟨-, rfl⟩ | ⟨-, rfl⟩ | ⟨-, rfl⟩ <;> cases h4

/-- The list is gone, as the tags are written to the same file; the report is on the standard output; other files are as
they were; the exit code tells of what is not traced. -/
example : (Main.main e args w).2.files c!"p/out/tags" = some (Utf8.encode tagsText) ∧
    (Main.main e args w).2.stdout = Utf8.encode AnyReportExample.reportText ∧
    (Main.main e args w).2.files c!"p/req.md" = some (Utf8.encode md) ∧ (Main.main e args w).1 = 1 := by
  have works := CodeTreeExample.e_works w
  have ends := (C175_ends (env := e) e_toml e_rust works project ⟨fun _ _ => rfl, fun _ _ => rfl, fun _ _ _ => rfl, fun _ _ => rfl⟩).2 runnable
  obtain ⟨js, h1, h2, h3⟩ := C175_leaves (env := e) e_toml e_rust works project each ends
  have : JobsOf (config.jobs.getD .empty) (requested config args) [list, trace, tags] := .cons rfl (.cons rfl (.cons rfl .nil))
  cases h1.unique this
  refine ⟨?_, ?_, ?_, ?_⟩
  · obtain ⟨t, k1, k2⟩ := h2.written [list, trace] tags [] rfl (by decide) nofun
    have := RunLeaves.text_unique tags_text k1
    subst this
    rwa [show e.os.resolve (target args.baseDir tags.file) = c!"p/out/tags" by decide +kernel] at k2
  · obtain ⟨ts, k1, k2⟩ := h2.stdout
    have : JobTexts e w args.baseDir config reqsOf ([list, trace, tags].filter fun j => j.file = c!"-")
      [AnyReportExample.reportText] := .cons trace_text .nil
    have := RunLeaves.texts_unique this k1
    subst this
    rw [k2, List.flatten_cons, List.flatten_nil, List.append_nil]
    rfl
  · rw [h2.kept _ (by decide +kernel)]
    rfl
  · exact h3.2 ⟨⟨trace, by decide, rfl, by decide⟩, not_traced⟩

end RunLeavesExample

end Reqtrace
