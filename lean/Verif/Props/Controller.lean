import Verif.Props.Config
import Verif.Lemmas.Controller
import Verif.Props.Formatters
import Verif.Props.Markdown
import Verif.Props.MonoReq
import Verif.Props.Rust

/-!
# C17–C22, C46, C58: from the configuration to the graph
-/

namespace Reqtrace

open Spec

/-! ## A project to look at -/

namespace CtrlExample

/-- Paths denote themselves, nothing fails unless said otherwise, a pattern matches itself. -/
def os : Os where
  resolve p := p
  notFound _ := c!"not found"
  openErr _ _ := none
  readErr _ _ := none
  glob _ p := .ok [.ok p]
  mkdirErr _ _ := none
  createErr _ _ := none
  writeErr _ _ _ := none
  stdoutErr _ _ := none

def world (l : List (Path × Str)) : World :=
  ⟨fun p => (l.find? (fun e => e.1 == p)).map (fun e => Utf8.encode e.2), fun _ => false, [], [], 0⟩

/-- `syn` finds the given tree in every file, the configuration file has the given content. -/
def env (file : Rs.Forest) (config : Config) : Env where
  U := .ascii
  syn := RustExample.synOf file
  fmt := FmtEnv.example
  jsonErr _ := c!"bad json"
  tomlTree _ := .ok (ConfigRead.tree config)
  tomlErr _ := (none, c!"no configuration")
  os := os

def requirements : ArtefactConfig := ⟨c!"REQ", [c!"req.md"], .markdown, none, some true⟩
def code : ArtefactConfig := ⟨c!"CODE", [c!"a.rs", c!"/src/b.rs"], .rust, none, none⟩
def issue : ArtefactConfig := ⟨c!"ISSUE", [c!"Issue1.txt"], .monoRequirement, none, some true⟩

def jobs : BMap Str Job := BMap.ofList [
  (c!"trace", ⟨.trace, .gnuError, c!"out/trace.txt", none⟩),
  (c!"export", ⟨.parse, .json, c!"-", some false⟩),
  (c!"tags", ⟨.trace, .tags, c!"/tags", none⟩)]

def config : Config where
  version := some 0
  artefacts := [requirements, code, issue]
  relations := [⟨c!"REQ", [c!"CODE"]⟩]
  jobs := some jobs
  defaultJobs := some [c!"trace"]

def files : List (Path × Str) := [
  (c!"p/req.md", c!"# REQ_A: title a\n# REQ_A: again\n# REQ_B: title b\n"),
  (c!"p/a.rs", c!"..."), (c!"p/Issue1.txt", []), (c!"/tags", c!"old\n"), (c!"requirements.toml", c!"...")]

end CtrlExample

open CtrlExample

/-! ## C17 -/

theorem mem_duplicates {reqs : List Requirement} {first again : Requirement} :
    .duplicateRequirement first again ∈ duplicates reqs ↔
      ∃ i, reqs[i]? = some again ∧ (reqs.take i).find? (fun r => r.id = again.id) = some first := by
  unfold duplicates
  rw [List.mem_filterMap]
  constructor
  · rintro ⟨i, hi, h⟩
    split at h
    · cases h
    · next r hr =>
      rw [Option.map_eq_some_iff] at h
      obtain ⟨f, h1, h2⟩ := h
      cases h2
      exact ⟨i, hr, h1⟩
  · rintro ⟨i, h1, h2⟩
    refine ⟨i, List.mem_range.2 (List.getElem?_eq_some_iff.1 h1).1, ?_⟩
    rw [h1]; simp only
    rw [h2]; rfl

/-- **C17** For each id the first requirement is kept, and each further one gives one error after the errors of the
parser, in order. -/
theorem C17_first_kept {env : Env} {w : World} {ac : ArtefactConfig} {base : Path} {files : List Path}
    {m : BMap RequirementId Requirement} {errs : List Error}
    (h : parseFromConfig env w ac base = .ok (files, m, errs)) :
    ∃ reqs perrs, parseArtefact env w ac base = .ok (files, reqs, perrs) ∧
      (∀ id, m.get id = reqs.find? (fun r => r.id = id)) ∧ errs = perrs ++ duplicates reqs := by
  obtain ⟨reqs, perrs, h1, h2, h3⟩ := parseFromConfig_ok h
  exact ⟨reqs, perrs, h1, by rw [h2]; exact (collect_eq reqs perrs).1, h3⟩

/-- **C17** Every parsed requirement is in the map or named by an error, together with the one that is in the map. -/
theorem C17_none_vanishes {env : Env} {w : World} {ac : ArtefactConfig} {base : Path} {files : List Path}
    {m : BMap RequirementId Requirement} {errs : List Error} {reqs : List Requirement} {perrs : List Error}
    (h : parseFromConfig env w ac base = .ok (files, m, errs))
    (hp : parseArtefact env w ac base = .ok (files, reqs, perrs)) :
    (∀ r ∈ reqs, m.get r.id = some r ∨
      ∃ kept, m.get r.id = some kept ∧ .duplicateRequirement kept r ∈ errs) ∧
    ∀ id r, m.get id = some r → r ∈ reqs ∧ r.id = id := by
  obtain ⟨reqs', perrs', h1, h2, rfl⟩ := C17_first_kept h
  rw [hp] at h1; cases h1
  constructor
  · intro r hr
    obtain ⟨i, hi⟩ := List.mem_iff_getElem?.1 hr
    cases hf : (reqs.take i).find? (fun r' => r'.id = r.id) with
    | some first =>
      refine .inr ⟨first, ?_, List.mem_append_right _ (mem_duplicates.2 ⟨i, hi, hf⟩)⟩
      rw [h2, ← List.take_append_drop i reqs, List.find?_append, hf]; rfl
    | none =>
      left
      rw [h2, ← List.take_append_drop i reqs, List.find?_append, hf]
      have : reqs.drop i = r :: reqs.drop (i + 1) := by
        obtain ⟨hlt, he⟩ := List.getElem?_eq_some_iff.1 hi
        rw [List.drop_eq_getElem_cons hlt, he]
      rw [this]; simp
  · intro id r hr
    rw [h2] at hr
    exact ⟨List.mem_of_find?_eq_some hr, by simpa using List.find?_some hr⟩

/-- Collecting never fails. -/
theorem C17_returns (env : Env) (w : World) (ac : ArtefactConfig) (base : Path) (p : Panic) :
    parseFromConfig env w ac base = .error p ↔ parseArtefact env w ac base = .error p := by
  unfold parseFromConfig
  cases parseArtefact env w ac base with
  | error q => simp [bind, Except.bind]
  | ok v => simp [bind, Except.bind, pure, Except.pure]

/-- The second `REQ_A` of the file is reported, the first and `REQ_B` are kept. -/
example : (parseFromConfig (env .nil config) (world files) requirements c!"p").map (fun v => (v.2.1.keys, v.2.2)) =
    .ok ([c!"REQ_A", c!"REQ_B"],
      [.duplicateRequirement
        ⟨c!"REQ_A", some c!"title a", ⟨c!"p/req.md", some (.line 1)⟩, [], [], [], .empty⟩
        ⟨c!"REQ_A", some c!"again", ⟨c!"p/req.md", some (.line 2)⟩, [], [], [], .empty⟩]) := by
  decide +kernel

/-! ## C18 -/

/-- **C18** The maps of the graph are keyed by the ids, and the relations name existing artefacts. -/
theorem C18_consistent {env : Env} {w : World} {config : Config} {base : Path} {c : Controller}
    (h : Controller.new env w config base = .ok c) : Keyed c.graph ∧ RelationsExist c.graph := by
  refine ⟨⟨?_, ?_⟩, ?_⟩
  · intro a art ha
    obtain ⟨ac, root, files, m, errs, _, h1, _, _, rfl⟩ := new_artefact h ha
    exact h1
  · intro a art ha k req hk
    obtain ⟨ac, root, files, m, errs, _, h1, _, h2, rfl⟩ := new_artefact h ha
    obtain ⟨reqs, perrs, _, h3, _⟩ := C17_first_kept h2
    simp only at hk
    rw [h3] at hk
    simpa using List.find?_some hk
  · intro rel hrel
    obtain ⟨_, _, _, hrels, _⟩ := new_ok h
    rw [hrels] at hrel
    obtain ⟨h1, h2⟩ := new_relations h rel hrel
    exact ⟨(new_configured h _).1 h1, fun a ha => (new_configured h _).1 (h2 a ha)⟩

/-- **C18** Tracing has returned, with exactly the artefacts and relations of the configuration, and no report of the
controller panics unless its format is not implemented. -/
theorem C18_no_panic {env : Env} {w : World} {config : Config} {base : Path} {c : Controller}
    (h : Controller.new env w config base = .ok c) :
    trace c.graph = .ok c.tracedGraph ∧ c.graph.relations = config.relations ∧
    (∀ a, Configured config a ↔ a ∈ c.graph.artefacts.keys) ∧
    ∀ job, ¬ Unsupported job.query job.format → (c.output env job).panic = none := by
  obtain ⟨hk, hr⟩ := C18_consistent h
  obtain ⟨_, _, _, h1, h2, _⟩ := new_ok h
  refine ⟨h2, h1, fun a => by rw [BMap.mem_keys_iff]; exact new_configured h a, ?_⟩
  intro job hu
  obtain ⟨hg, hm⟩ := C53_no_panic_partial env.fmt hk h2 hr
  unfold Controller.output
  cases hq : job.query <;> cases hf : job.format <;> simp only [Unsupported, hq, hf, not_true_eq_false] at hu ⊢
  · rfl
  · exact requirements_markdown_panic env.fmt c.graph
  · obtain ⟨_, _, _, ht, _⟩ := C50_tags env.fmt c.graph
    rw [ht]; rfl
  · exact hg
  · rfl
  · exact hm

/-- **C18** The controller is built exactly if the relations name configured artefacts and no parser panics. -/
theorem C18_returns_iff (env : Env) (w : World) (config : Config) (base : Path) :
    (∃ c, Controller.new env w config base = .ok c) ↔
      RelationsConfigured config ∧ ∀ ac ∈ config.artefacts, ∃ v, parseArtefact env w ac base = .ok v := by
  constructor
  · rintro ⟨c, h⟩
    refine ⟨new_relations h, fun ac hac => ?_⟩
    obtain ⟨roots, _, h2, _⟩ := new_ok h
    obtain ⟨art, ha⟩ := (makeArtefacts_ok _ _ _ h2).1 ac hac
    obtain ⟨_, files, m, errs, _, h3, _⟩ := makeArtefact_ok ha
    obtain ⟨reqs, perrs, h4, _⟩ := C17_first_kept h3
    exact ⟨_, h4⟩
  · rintro ⟨hr, hp⟩
    obtain ⟨roots, h1, h2⟩ := (roots_ok config).1 hr
    obtain ⟨arts, h3⟩ := makeArtefacts_returns (env := env) (w := w) (base := base) (roots := roots)
      config.artefacts .empty (by
      intro ac hac
      obtain ⟨b, hb, _⟩ := h2 ac hac
      obtain ⟨v, hv⟩ := hp ac hac
      unfold makeArtefact parseFromConfig
      rw [hb, hv]
      exact ⟨_, rfl⟩)
    -- the graph is consistent, so tracing returns
    have hart : ∀ a art, arts.get a = some art → ∃ ac ∈ config.artefacts, ∃ root files m errs, ac.id = a ∧
        roots.get ac.id = some root ∧ parseFromConfig env w ac base = .ok (files, m, errs) ∧
        art.id = ac.id ∧ art.requirements = m := by
      intro a art ha
      rcases (makeArtefacts_ok _ _ _ h3).2 a with ⟨pre, ac, post, art', h4, _, rfl, h6, h7⟩ | ⟨_, h4⟩
      · rw [ha] at h7; cases h7
        obtain ⟨root, files, m, errs, m1, m2, rfl⟩ := makeArtefact_ok h6
        exact ⟨ac, by rw [h4]; simp, root, files, m, errs, rfl, m1, m2, rfl, rfl⟩
      · rw [ha] at h4; cases h4
    have hconf : ∀ a, Configured config a → ∃ art, arts.get a = some art := by
      rintro a ⟨ac, hac, rfl⟩
      rcases (makeArtefacts_ok _ _ _ h3).2 ac.id with ⟨_, _, _, art, _, _, _, _, h7⟩ | ⟨h4, _⟩
      · exact ⟨art, h7⟩
      · exact absurd rfl (h4 ac hac)
    have hk : Keyed ⟨arts, config.relations⟩ := by
      refine ⟨?_, ?_⟩
      · intro a art ha
        obtain ⟨ac, _, _, _, _, _, rfl, _, _, h5, _⟩ := hart a art ha
        exact h5
      · intro a art ha k req hk
        obtain ⟨ac, _, _, _, m, _, rfl, _, h4, _, rfl⟩ := hart a art ha
        obtain ⟨reqs, perrs, _, h5, _⟩ := C17_first_kept h4
        rw [h5] at hk
        simpa using List.find?_some hk
    obtain ⟨tg, ht⟩ := C10_no_panic hk fun rel hrel =>
      ⟨hconf _ (hr rel hrel).1, fun a ha => hconf _ ((hr rel hrel).2 a ha)⟩
    unfold Controller.new
    simp only [bind, Except.bind]
    rw [h1]
    simp only
    rw [h3]
    simp only
    rw [ht]
    exact ⟨_, rfl⟩

/-- The example project is built. -/
example : (Controller.new (env RustExample.file config) (world files) config c!"p").toOption.map
    (fun c => (c.graph.artefacts.keys, c.tracedGraph.errors.length)) =
      some ([c!"CODE", c!"ISSUE", c!"REQ"], 2) := by decide +kernel

/-! ## C19 -/

/-- **C19** Without a configured value, derived requirements are ignored exactly for the roots. -/
theorem C19_default_root {env : Env} {w : World} {config : Config} {base : Path} {c : Controller}
    (h : Controller.new env w config base = .ok c) {a : ArtefactId} {art : Artefact}
    (ha : c.graph.artefacts.get a = some art) :
    ∃ ac, LastEntry config ac ∧ ac.id = a ∧
      (∀ b, ac.ignoreDerivedRequirements = some b → art.ignoreDerivedRequirements = b) ∧
      (ac.ignoreDerivedRequirements = none → (art.ignoreDerivedRequirements = true ↔ IsRoot config a)) := by
  obtain ⟨ac, root, files, m, errs, h1, rfl, h3, _, rfl⟩ := new_artefact h ha
  refine ⟨ac, h1, rfl, fun b hb => by simp [hb], fun hn => ?_⟩
  simp only [hn, Option.getD_none]
  exact h3

/-- In the example, requirements and issue are roots, the code is not. -/
example : ((Controller.new (env RustExample.file config) (world files) config c!"p").toOption.map
    (fun c => c.graph.artefacts.values.map (fun a => (a.id, a.ignoreDerivedRequirements)))) =
      some [(c!"CODE", false), (c!"ISSUE", true), (c!"REQ", true)] := by decide +kernel

/-! ## C20 -/

theorem marks_format {path : Path} {os : List Occ} {es : List Entry} {errs : List Error}
    (h : Marks path os es errs) : ∀ e ∈ errs, ∃ l m, e = .format l m := by
  induction h with
  | nil => intro e he; cases he
  | other _ _ ih => exact ih
  | good _ _ _ ih => exact ih
  | bad _ _ _ _ ih =>
    intro e he
    rcases List.mem_cons.1 he with rfl | he
    · exact ⟨_, _, rfl⟩
    · exact ih e he

/-- The errors that parsers give. -/
def ParserError (e : Error) : Prop :=
  (∃ l m, e = .format l m) ∨ (∃ l a i, e = .duplicateAttribute l a i) ∨ (∃ p m, e = .io p m) ∨ ∃ m, e = .config m

theorem fileResult_errors {env : Env} {parser : ArtefactParser} {file : File} {path : Path}
    {reqs : List Requirement} {errs : List Error} (h : fileResult env parser file path = .ok (reqs, errs)) :
    ∀ e ∈ errs, ParserError e := by
  intro e he
  unfold fileResult at h
  cases parser with
  | markdown =>
    have := (C36_locations env.U file.lines path reqs errs _ h (lines_splitLines _)).2 e he
    cases e with
    | format l m => exact .inl ⟨_, _, rfl⟩
    | duplicateAttribute l a i => exact .inr (.inl ⟨_, _, _, rfl⟩)
    | io p m => exact .inr (.inr (.inl ⟨_, _, rfl⟩))
    | _ => exact absurd this id
  | monoRequirement =>
    simp only at h
    unfold MonoReq.parse at h
    cases hl : MonoReq.loop env.U path 0 (bufLines file.lines.text) none [] with
    | error p => rw [hl] at h; cases h
    | ok v =>
      rw [hl] at h
      simp only [bind, Except.bind] at h
      split at h
      · cases h
      · cases h
        unfold MonoReq.idOf at he
        split at he
        · cases he
        · simp at he; subst he; exact .inr (.inr (.inr ⟨_, rfl⟩))
  | rust =>
    simp only at h
    cases hf : file.whole.failure with
    | some f =>
      unfold Rs.parse at h
      rw [hf] at h; cases h
      simp at he; subst he
      exact .inr (.inr (.inl ⟨_, _, rfl⟩))
    | none =>
      cases hs : env.syn.parseFile file.whole.text with
      | error v =>
        unfold Rs.parse at h
        rw [hf] at h
        simp only [hs] at h
        cases h
        simp at he; subst he
        exact .inl ⟨_, _, rfl⟩
      | ok tree =>
        obtain ⟨es, h1, _⟩ := C44_paths_partial env.syn file.whole path tree reqs errs hf hs h
        exact .inl (marks_format h1 e he)
  | json =>
    simp only at h
    split at h
    · cases h; cases he
    · cases h
      simp at he; subst he
      exact .inl ⟨_, _, rfl⟩

/-- What the parsing of an artefact is made of. -/
theorem parseSingleFile_eq (env : Env) (w : World) (ac : ArtefactConfig) (base p : Path) (hp : ac.paths = [p])
    (hr : ac.parser ≠ .rust) :
    parseArtefact env w ac base = match env.os.openFile w (joinPath base p) with
      | .error e => .ok ([joinPath base p], [], [.io (joinPath base p) e])
      | .ok src => (fileResult env ac.parser src (joinPath base p)).map (fun v => ([joinPath base p], v.1, v.2)) := by
  have hs : parseArtefact env w ac base = parseSingleFile env w ac base := by
    unfold parseArtefact
    cases h : ac.parser <;> simp_all
  rw [hs]
  unfold parseSingleFile
  rw [hp]
  simp only
  cases env.os.openFile w (joinPath base p) with
  | error e => rfl
  | ok src =>
    simp only
    cases h : ac.parser with
    | rust => exact absurd h hr
    | markdown =>
      simp only [fileResult]
      cases Md.parse env.U src.lines (joinPath base p) <;> rfl
    | monoRequirement =>
      simp only [fileResult]
      cases MonoReq.parse env.U src.lines (joinPath base p) <;> rfl
    | json =>
      simp only [fileResult]
      cases JsonRead.fromReader (env.jsonErr src) src.whole <;> rfl

/-- The result of one file, with failing to open it as an error. -/
def oneFile (env : Env) (w : World) (parser : ArtefactParser) (p : Path) : PanicM (List Requirement × List Error) :=
  match env.os.openFile w p with
  | .error e => .ok ([], [.io p e])
  | .ok src => fileResult env parser src p

theorem parseFiles_iff (env : Env) (w : World) (ps : List Path) : ∀ v,
    parseFiles env w .rust ps = .ok v ↔
      (∀ p ∈ ps, ∃ u, oneFile env w .rust p = .ok u) ∧
      v = (ps.flatMap (requirementsIn env w .rust), ps.flatMap (errorsIn env w .rust)) := by
  induction ps with
  | nil =>
    intro v
    unfold parseFiles
    constructor
    · intro h; cases h; exact ⟨by simp, rfl⟩
    · rintro ⟨-, rfl⟩; rfl
  | cons p ps ih =>
    intro v
    have hone : parseFiles env w .rust (p :: ps) = (oneFile env w .rust p >>= fun u =>
        parseFiles env w .rust ps >>= fun us => pure (u.1 ++ us.1, u.2 ++ us.2)) := by
      show (_ : PanicM _) = _
      unfold oneFile fileResult
      rw [parseFiles]
      cases env.os.openFile w p <;> rfl
    rw [hone]
    cases ho : oneFile env w .rust p with
    | error q =>
      constructor
      · intro h; cases h
      · rintro ⟨h, _⟩
        obtain ⟨u, hu⟩ := h p (List.mem_cons_self ..)
        rw [ho] at hu; cases hu
    | ok u =>
      have hu : requirementsIn env w .rust p = u.1 ∧ errorsIn env w .rust p = u.2 := by
        unfold oneFile at ho
        unfold requirementsIn errorsIn
        cases hf : env.os.openFile w p with
        | error e => rw [hf] at ho; cases ho; exact ⟨rfl, rfl⟩
        | ok src =>
          rw [hf] at ho
          simp only at ho
          simp [ho]
      rw [List.flatMap_cons, List.flatMap_cons, hu.1, hu.2]
      cases hm : parseFiles env w .rust ps with
      | error q =>
        constructor
        · intro h; cases h
        · rintro ⟨h, _⟩
          have := (ih (_, _)).2 ⟨fun q hq => h q (List.mem_cons_of_mem _ hq), rfl⟩
          rw [hm] at this; cases this
      | ok us =>
        obtain ⟨h1, rfl⟩ := (ih us).1 hm
        constructor
        · intro h
          cases h
          refine ⟨?_, rfl⟩
          intro q hq
          rcases List.mem_cons.1 hq with rfl | hq
          · exact ⟨u, ho⟩
          · exact h1 q hq
        · rintro ⟨_, rfl⟩; rfl

/-- The requirements and errors of an artefact are those of its files, one file after the other. -/
theorem parseArtefact_files {env : Env} {w : World} {ac : ArtefactConfig} {base : Path} (hn : ¬ NoFiles env w ac base) :
    ∃ fs : List Path, (ac.parser = .rust → globPaths env w base ac.paths = .ok fs) ∧
      (ac.parser ≠ .rust → ∃ p, ac.paths = [p] ∧ fs = [joinPath base p]) ∧
      ∀ v, parseArtefact env w ac base = .ok v ↔
        (∀ p ∈ fs, ∃ u, oneFile env w ac.parser p = .ok u) ∧
        v = (fs, fs.flatMap (requirementsIn env w ac.parser), fs.flatMap (errorsIn env w ac.parser)) := by
  unfold NoFiles at hn
  by_cases hr : ac.parser = .rust
  · rw [if_pos hr] at hn
    cases hg : globPaths env w base ac.paths with
    | error e => exact absurd (.inr ⟨e, hg⟩) hn
    | ok fs =>
      refine ⟨fs, fun _ => rfl, fun h => absurd hr h, fun v => ?_⟩
      have hne : ac.paths ≠ [] := fun h => hn (.inl h)
      unfold parseArtefact
      rw [hr]
      simp only
      unfold parseMultipleFiles
      rw [if_neg hne, hg, hr]
      simp only
      cases hm : parseFiles env w .rust fs with
      | error q =>
        constructor
        · intro h; cases h
        · rintro ⟨h, _⟩
          have := (parseFiles_iff env w fs (_, _)).2 ⟨h, rfl⟩
          rw [hm] at this; cases this
      | ok us =>
        obtain ⟨h1, rfl⟩ := (parseFiles_iff env w fs us).1 hm
        constructor
        · intro h; cases h; exact ⟨h1, rfl⟩
        · rintro ⟨_, rfl⟩; rfl
  · rw [if_neg hr] at hn
    obtain ⟨p, hp⟩ := List.length_eq_one_iff.1 (Classical.not_not.1 hn)
    refine ⟨[joinPath base p], fun h => absurd h hr, fun _ => ⟨p, hp, rfl⟩, fun v => ?_⟩
    rw [parseSingleFile_eq env w ac base p hp hr]
    unfold oneFile requirementsIn errorsIn
    simp only [List.mem_singleton, forall_eq, List.flatMap_cons, List.flatMap_nil, List.append_nil]
    cases env.os.openFile w (joinPath base p) with
    | error e =>
      constructor
      · intro h; cases h; exact ⟨⟨_, rfl⟩, rfl⟩
      · rintro ⟨_, rfl⟩; rfl
    | ok src =>
      simp only
      cases hf : fileResult env ac.parser src (joinPath base p) with
      | error q =>
        constructor
        · intro h; cases h
        · rintro ⟨⟨_, h⟩, _⟩; cases h
      | ok u =>
        constructor
        · intro h; cases h; exact ⟨⟨_, rfl⟩, rfl⟩
        · rintro ⟨_, rfl⟩; rfl

theorem globEntries_error {es : List (Except (Path × Str) Path)} {e : Error} (h : globEntries es = .error e) :
    ∃ p m, e = .io p m := by
  induction es with
  | nil => cases h
  | cons x es ih =>
    cases x with
    | error v => cases h; exact ⟨_, _, rfl⟩
    | ok p =>
      unfold globEntries at h
      cases hg : globEntries es with
      | error e' => rw [hg] at h; cases h; exact ih hg
      | ok ps => rw [hg] at h; cases h

theorem globPaths_error {env : Env} {w : World} {base : Path} {ps : List Str} {e : Error}
    (h : globPaths env w base ps = .error e) : ∃ p m, e = .io p m := by
  induction ps with
  | nil => cases h
  | cons x ps ih =>
    unfold globPaths at h
    simp only at h
    cases hx : env.os.glob w (if isAbsolute x then x else base ++ c!"/" ++ x) with
    | error e' => rw [hx] at h; cases h; exact ⟨_, _, rfl⟩
    | ok entries =>
      rw [hx] at h
      simp only at h
      cases hh : globEntries entries with
      | error e' => rw [hh] at h; cases h; exact globEntries_error hh
      | ok here =>
        rw [hh] at h
        cases hg : globPaths env w base ps with
        | error e' => rw [hg] at h; cases h; exact ih hg
        | ok more => rw [hg] at h; cases h

/-- Without files, there is one error and no requirement. -/
theorem parseArtefact_noFiles {env : Env} {w : World} {ac : ArtefactConfig} {base : Path} (hn : NoFiles env w ac base) :
    ∃ fs e, parseArtefact env w ac base = .ok (fs, [], [e]) ∧ ((∃ p m, e = .io p m) ∨ ∃ m, e = .config m) ∧
      ((∃ m, e = .config m) → fs = []) := by
  unfold NoFiles at hn
  by_cases hr : ac.parser = .rust
  · rw [if_pos hr] at hn
    unfold parseArtefact
    rw [hr]
    simp only
    unfold parseMultipleFiles
    by_cases hp : ac.paths = []
    · rw [if_pos hp]
      exact ⟨_, _, rfl, .inr ⟨_, rfl⟩, fun _ => rfl⟩
    · rw [if_neg hp]
      rcases hn with hn | ⟨e, he⟩
      · exact absurd hn hp
      · rw [he]
        obtain ⟨p, m, rfl⟩ := globPaths_error he
        exact ⟨_, _, rfl, .inl ⟨p, m, rfl⟩, fun ⟨m, h⟩ => by cases h⟩
  · rw [if_neg hr] at hn
    have hs : parseArtefact env w ac base = parseSingleFile env w ac base := by
      unfold parseArtefact
      cases h : ac.parser <;> simp_all
    rw [hs]
    unfold parseSingleFile
    split
    · next p hp => rw [hp] at hn; exact absurd rfl hn
    · exact ⟨_, _, rfl, .inr ⟨_, rfl⟩, fun _ => rfl⟩

theorem parseArtefact_errors {env : Env} {w : World} {ac : ArtefactConfig} {base : Path} {fs : List Path}
    {reqs : List Requirement} {errs : List Error} (h : parseArtefact env w ac base = .ok (fs, reqs, errs)) :
    ∀ e ∈ errs, ParserError e := by
  intro e he
  by_cases hn : NoFiles env w ac base
  · obtain ⟨fs', e', h1, h2, _⟩ := parseArtefact_noFiles hn
    rw [h] at h1; cases h1
    simp at he; subst he
    rcases h2 with ⟨p, m, rfl⟩ | ⟨m, rfl⟩
    · exact .inr (.inr (.inl ⟨_, _, rfl⟩))
    · exact .inr (.inr (.inr ⟨_, rfl⟩))
  · obtain ⟨fs', _, _, h1⟩ := parseArtefact_files hn
    obtain ⟨_, h2⟩ := (h1 _).1 h
    cases h2
    obtain ⟨p, hp, hep⟩ := List.mem_flatMap.1 he
    unfold errorsIn at hep
    split at hep
    · simp at hep; subst hep; exact .inr (.inr (.inl ⟨_, _, rfl⟩))
    · split at hep
      · next hf => exact fileResult_errors hf e hep
      · cases hep

/-- **C20** The check of titles adds the errors for the untitled requirements, in id order, behind those of parsing, if
the entry asks for it, and nothing otherwise. -/
theorem C20_appended {env : Env} {w : World} {config : Config} {base : Path} {c : Controller}
    (h : Controller.new env w config base = .ok c) {a : ArtefactId} {art : Artefact}
    (ha : c.graph.artefacts.get a = some art) :
    ∃ ac errs, LastEntry config ac ∧ ac.id = a ∧
      parseFromConfig env w ac base = .ok (art.files, art.requirements, errs) ∧
      (art.referenceWithTitle = true ↔ ac.referenceWithTitle = some true) ∧
      art.errors = errs ++ (if ac.referenceWithTitle = some true then
        (art.requirements.values.filter (fun r => r.title = none)).map .requirementWithoutTitle else []) := by
  obtain ⟨ac, root, files, m, errs, h1, h2, h3, h4, rfl⟩ := new_artefact h ha
  refine ⟨ac, errs, h1, h2, h4, ?_, ?_⟩
  · simp only
    cases ac.referenceWithTitle with
    | none => simp
    | some b => simp
  · simp only
    have hf : m.values.filter (fun r => r.title.isNone) = m.values.filter (fun r => decide (r.title = none)) :=
      List.filter_congr fun r _ => by cases r.title <;> rfl
    rw [hf]
    cases ac.referenceWithTitle with
    | none => simp
    | some b => cases b <;> simp

/-- **C20** The artefact's errors contain `RequirementWithoutTitle` exactly for its untitled requirements, each once. -/
theorem C20_exactly {env : Env} {w : World} {config : Config} {base : Path} {c : Controller}
    (h : Controller.new env w config base = .ok c) {a : ArtefactId} {art : Artefact}
    (ha : c.graph.artefacts.get a = some art) (r : Requirement) :
    (.requirementWithoutTitle r ∈ art.errors ↔
      art.referenceWithTitle = true ∧ art.requirements.get r.id = some r ∧ r.title = none) ∧
    art.errors.count (.requirementWithoutTitle r) ≤ 1 := by
  obtain ⟨ac, errs, h1, h2, h3, h4, h5⟩ := C20_appended h ha
  obtain ⟨hk, -⟩ := C18_consistent h
  have hno : .requirementWithoutTitle r ∉ errs := by
    intro hm
    obtain ⟨reqs, perrs, p1, _, rfl⟩ := C17_first_kept h3
    rcases List.mem_append.1 hm with hm | hm
    · rcases parseArtefact_errors p1 _ hm with ⟨_, _, h⟩ | ⟨_, _, _, h⟩ | ⟨_, _, h⟩ | ⟨_, h⟩ <;> cases h
    · unfold duplicates at hm
      obtain ⟨i, _, hi⟩ := List.mem_filterMap.1 hm
      split at hi
      · cases hi
      · rw [Option.map_eq_some_iff] at hi
        obtain ⟨_, _, hi⟩ := hi
        cases hi
  have hval : ∀ r, r ∈ art.requirements.values ↔ art.requirements.get r.id = some r := by
    intro r
    rw [BMap.mem_values_iff]
    constructor
    · rintro ⟨k, hk'⟩
      rw [hk.requirement a art ha k r hk']; exact hk'
    · intro h; exact ⟨_, h⟩
  rw [h5]
  constructor
  · rw [List.mem_append, h4]
    by_cases hr : ac.referenceWithTitle = some true
    · rw [if_pos hr]
      constructor
      · rintro (hm | hm)
        · exact absurd hm hno
        · obtain ⟨r', hr', he⟩ := List.mem_map.1 hm
          cases he
          obtain ⟨h6, h7⟩ := List.mem_filter.1 hr'
          exact ⟨hr, (hval r).1 h6, by simpa using h7⟩
      · rintro ⟨_, h6, h7⟩
        exact .inr (List.mem_map.2 ⟨r, List.mem_filter.2 ⟨(hval r).2 h6, by simpa using h7⟩, rfl⟩)
    · rw [if_neg hr]
      simp [hno, hr]
  · rw [List.count_append, List.count_eq_zero.2 hno, Nat.zero_add]
    split
    · have hnd : art.requirements.values.Nodup := by
        have := BMap.keys_nodup art.requirements
        have hmap : art.requirements.values.map (·.id) = art.requirements.keys := by
          unfold BMap.values BMap.keys
          rw [List.map_map]
          refine List.map_congr_left fun e he => ?_
          exact hk.requirement a art ha e.1 e.2 ((BMap.get_eq_some_iff _ _ _).2 he)
        rw [← hmap] at this
        exact (List.pairwise_map.1 this).imp (fun hne he => hne (by rw [he]))
      have : ((art.requirements.values.filter (fun r => r.title = none)).map Error.requirementWithoutTitle).Nodup := by
        unfold List.Nodup
        rw [List.pairwise_map]
        exact (hnd.filter _).imp (fun hne he => hne (by cases he; rfl))
      exact List.nodup_iff_count.1 this _
    · simp

/-- The issue of the example has an empty file and so no title, which its entry asks for. -/
example : ((Controller.new (env RustExample.file config) (world files) config c!"p").toOption.bind
    (fun c => c.graph.artefacts.get c!"ISSUE")).map (fun a => (a.referenceWithTitle, a.errors)) =
      some (true, [.requirementWithoutTitle ⟨c!"Issue1", none, ⟨c!"p/Issue1.txt", none⟩, [], [], [], .empty⟩]) := by
  decide +kernel

/-! ## C21 -/

/-- **C21**, what holds: a relation with an unknown artefact is never accepted. -/
theorem C21_never_accepted_partial (env : Env) (w : World) (config : Config) (base : Path)
    (h : ¬ RelationsConfigured config) : Controller.new env w config base = .error .ctrlUnknownArtefact := by
  unfold Controller.new
  rw [(roots_ok config).2 h]
  rfl

/-- **C21 as listed**. -/
def C21_statement : Prop := ∀ (env : Env) (opt : Arguments) (w : World) (config : Config),
  GoodConfig env w opt.configFile config → ¬ RelationsConfigured config → (Main.main env opt w).1 = 2

namespace CtrlExample

/-- A relation names the artefact `CDOE`. -/
def typo : Config := { config with relations := [⟨c!"REQ", [c!"CDOE"]⟩] }

def args : Arguments := ⟨c!"requirements.toml", c!"p", []⟩

theorem typo_unknown : ¬ RelationsConfigured typo := by
  intro h
  obtain ⟨ac, h1, h2⟩ := (h ⟨c!"REQ", [c!"CDOE"]⟩ (by simp [typo])).2 c!"CDOE" (by simp)
  simp [typo, config] at h1
  rcases h1 with rfl | rfl | rfl <;> revert h2 <;> decide

theorem typo_good : GoodConfig (env .nil typo) (world files) args.configFile typo :=
  ⟨⟨Utf8.encode c!"...", none⟩, _, by decide +kernel, rfl, rfl, (C78_config _ _).1 rfl, fun v hv => by cases hv; rfl⟩

theorem typo_exit : (Main.main (env .nil typo) args (world files)).1 = 101 := by decide +kernel

end CtrlExample

/-- C21 is false as listed: the process panics (exit code 101). -/
theorem C21_false : ¬ C21_statement := by
  intro h
  have := h (env .nil typo) args (world files) typo typo_good typo_unknown
  rw [typo_exit] at this
  cases this

example : Controller.new (env .nil typo) (world files) typo c!"p" = .error .ctrlUnknownArtefact :=
  C21_never_accepted_partial _ _ _ _ typo_unknown

/-! ## C22 -/

/-- **C22 as listed**: each entry has its artefact in the graph, or there is an error that tells of it. -/
def C22_statement : Prop := ∀ (env : Env) (w : World) (config : Config) (base : Path) (c : Controller),
  Controller.new env w config base = .ok c → ∀ ac ∈ config.artefacts,
    ∃ files reqs errs, parseFromConfig env w ac base = .ok (files, reqs, errs) ∧
      ((∃ art, c.graph.artefacts.get ac.id = some art ∧ art.requirements = reqs ∧ ∀ e ∈ errs, e ∈ art.errors) ∨
        .duplicateArtefact ac.id ∈ c.tracedGraph.errors ∨
        ∃ art ∈ c.graph.artefacts.values, .duplicateArtefact ac.id ∈ art.errors)

namespace CtrlExample

/-- Two entries for `REQ`. -/
def double : Config := ⟨none, [requirements, { issue with id := c!"REQ" }], [], none, none⟩

/-- Does the artefact of the graph have the requirements of the entry, or is a duplicate artefact reported? -/
def accounted (env : Env) (w : World) (base : Path) (c : Controller) (ac : ArtefactConfig) : Bool :=
  match parseFromConfig env w ac base with
  | .error _ => false
  | .ok (_, reqs, _) =>
    (c.graph.artefacts.get ac.id).any (fun art => art.requirements == reqs) ||
      c.tracedGraph.errors.contains (.duplicateArtefact ac.id) ||
      c.graph.artefacts.values.any (fun art => art.errors.contains (.duplicateArtefact ac.id))

theorem double_lost : (Controller.new (env .nil double) (world files) double c!"p").toOption.map
    (fun c => accounted (env .nil double) (world files) c!"p" c requirements) = some false := by decide +kernel

end CtrlExample

/-- C22 is false as listed: of two entries with the same id the first is dropped without a word. -/
theorem C22_false : ¬ C22_statement := by
  intro h
  have hl := double_lost
  cases hn : Controller.new (env .nil double) (world files) double c!"p" with
  | error p => rw [hn] at hl; cases hl
  | ok c =>
    rw [hn] at hl
    obtain ⟨fs, reqs, errs, h1, h2⟩ := h _ _ _ _ c hn requirements (by simp [double])
    simp only [Except.toOption, Option.map_some, Option.some.injEq] at hl
    unfold accounted at hl
    rw [h1] at hl
    simp only [Bool.or_eq_false_iff] at hl
    obtain ⟨⟨l1, l2⟩, l3⟩ := hl
    rcases h2 with ⟨art, a1, a2, -⟩ | h2 | ⟨art, a1, a2⟩
    · rw [a1] at l1; simp [a2] at l1
    · rw [List.contains_iff_mem.2 h2] at l2; cases l2
    · have := List.any_eq_false.1 l3 art a1
      exact this (List.contains_iff_mem.2 a2)

theorem lastEntry_unique {config : Config} {ac ac' : ArtefactConfig} (h' : LastEntry config ac')
    (h : LastEntry config ac) (hid : ac'.id = ac.id) : ac' = ac := by
  obtain ⟨pre, post, hc, hpost⟩ := h
  obtain ⟨pre', post', hc', hpost'⟩ := h'
  rw [hc] at hc'
  rcases List.append_eq_append_iff.1 hc' with ⟨as, h1, h2⟩ | ⟨bs, h1, h2⟩
  · cases as with
    | nil => simp at h2; exact h2.1.symm
    | cons x as =>
      simp at h2
      exact absurd hid (hpost ac' (by rw [h2.2]; simp))
  · cases bs with
    | nil => simp at h2; exact h2.1
    | cons x bs =>
      simp at h2
      exact absurd hid.symm (hpost' ac (by rw [h2.2]; simp))

/-- **C22** for the last entry of each id, so for all entries if the ids are distinct. -/
theorem C22_last_entries_partial {env : Env} {w : World} {config : Config} {base : Path} {c : Controller}
    (h : Controller.new env w config base = .ok c) {ac : ArtefactConfig} (hl : LastEntry config ac) :
    ∃ files reqs errs art, parseFromConfig env w ac base = .ok (files, reqs, errs) ∧
      c.graph.artefacts.get ac.id = some art ∧ art.requirements = reqs ∧ art.files = files ∧
      ∀ e ∈ errs, e ∈ art.errors := by
  have hl' := hl
  obtain ⟨pre, post, hc, hpost⟩ := hl
  obtain ⟨art, ha⟩ := (new_configured h ac.id).1 ⟨ac, by rw [hc]; simp, rfl⟩
  obtain ⟨ac', root, files, m, errs, hl2, hid, _, hp, rfl⟩ := new_artefact h ha
  have hac : ac' = ac := lastEntry_unique hl2 hl' hid
  subst hac
  refine ⟨files, m, errs, _, hp, ha, rfl, rfl, fun e he => ?_⟩
  simp only
  split
  · exact List.mem_append_left _ he
  · exact he

/-- With distinct ids, every entry is the last of its id. -/
theorem C22_distinct_partial {config : Config} (hd : (config.artefacts.map (·.id)).Nodup) {ac : ArtefactConfig}
    (hac : ac ∈ config.artefacts) : LastEntry config ac := by
  obtain ⟨pre, post, h⟩ := List.append_of_mem hac
  refine ⟨pre, post, h, fun b hb hid => ?_⟩
  rw [h, List.map_append, List.map_cons] at hd
  have := (List.nodup_append.1 hd).2.1
  rw [List.nodup_cons] at this
  exact this.1 (List.mem_map.2 ⟨b, hb, hid⟩)

example : (config.artefacts.map (·.id)).Nodup := by decide +kernel

/-! ## C46 -/

/-- **C46 as listed**. -/
def C46_statement : Prop := ∀ (env : Env) (w : World) (ac : ArtefactConfig) (base : Path) (files : List Path)
    (m : BMap RequirementId Requirement) (errs : List Error), ac.parser = .rust →
  parseFromConfig env w ac base = .ok (files, m, errs) → ∀ p ∈ files, ∀ src reqs es,
    env.os.openFile w p = .ok src → Rs.parse env.syn src.whole p = .ok (reqs, es) →
    ∀ r ∈ reqs, ∀ ref ∈ r.covers, ∃ id r', m.get id = some r' ∧ ref ∈ r'.covers

namespace CtrlExample

/-- `fn f() { requirement_covered!(REQ_A); fn g() { requirement_covered!(REQ_B); } requirement_covered!(REQ_C); }` -/
def nested : Rs.Forest :=
  .item (.fn c!"f") 1 3
    (.mac (RustExample.mark 1 [RustExample.ident c!"REQ_A" 1 31])
    (.item (.fn c!"g") 2 3 (.mac (RustExample.mark 2 [RustExample.ident c!"REQ_B" 2 31]) .nil)
    (.mac (RustExample.mark 3 [RustExample.ident c!"REQ_C" 3 31]) .nil))) .nil

def nestedReqs : List Requirement :=
  [⟨c!"f", none, ⟨c!"p/a.rs", some (.lineAndColumn 1 3)⟩,
    [⟨c!"REQ_A", none, ⟨c!"p/a.rs", some (.lineAndColumn 1 8)⟩⟩], [], [], .empty⟩,
   ⟨c!"f::g", none, ⟨c!"p/a.rs", some (.lineAndColumn 2 3)⟩,
    [⟨c!"REQ_B", none, ⟨c!"p/a.rs", some (.lineAndColumn 2 8)⟩⟩], [], [], .empty⟩,
   ⟨c!"f", none, ⟨c!"p/a.rs", some (.lineAndColumn 1 3)⟩,
    [⟨c!"REQ_C", none, ⟨c!"p/a.rs", some (.lineAndColumn 3 8)⟩⟩], [], [], .empty⟩]

def oneSource : ArtefactConfig := ⟨c!"CODE", [c!"a.rs"], .rust, none, none⟩

theorem nested_parsed : parseArtefact (env nested config) (world files) oneSource c!"p" =
    .ok ([c!"p/a.rs"], nestedReqs, []) := by decide +kernel

end CtrlExample

/-- C46 is false as listed: marks behind an inner function with marks make a second requirement with the same id,
which is dropped. -/
theorem C46_false : ¬ C46_statement := by
  intro h
  have hp : parseFromConfig (env nested config) (world files) oneSource c!"p" =
      .ok ([c!"p/a.rs"], (collectRequirements nestedReqs .empty []).1, (collectRequirements nestedReqs .empty []).2) := by
    unfold parseFromConfig; rw [nested_parsed]; rfl
  obtain ⟨id, r', h1, h2⟩ := h _ _ oneSource _ _ _ _ rfl hp c!"p/a.rs" (by simp) ⟨Utf8.encode c!"...", none⟩ nestedReqs []
    (by decide +kernel) (by decide +kernel) _ (List.mem_cons_of_mem _ (List.mem_cons_of_mem _ (List.mem_singleton.2 rfl)))
    ⟨c!"REQ_C", none, ⟨c!"p/a.rs", some (.lineAndColumn 3 8)⟩⟩ (by simp)
  have hm : r' ∈ (collectRequirements nestedReqs .empty []).1.values := (BMap.mem_values_iff _ _).2 ⟨id, h1⟩
  have : ∀ r ∈ (collectRequirements nestedReqs .empty []).1.values,
      (⟨c!"REQ_C", none, ⟨c!"p/a.rs", some (.lineAndColumn 3 8)⟩⟩ : Reference) ∉ r.covers := by decide +kernel
  exact this r' hm h2

/-- **C46**, what holds: a reference is in a requirement of the artefact, or an error names the dropped requirement
with it. -/
theorem C46_kept_or_reported_partial {env : Env} {w : World} {ac : ArtefactConfig} {base : Path} {files : List Path}
    {m : BMap RequirementId Requirement} {errs : List Error} (hr : ac.parser = .rust)
    (h : parseFromConfig env w ac base = .ok (files, m, errs)) {p : Path} (hp : p ∈ files)
    (hn : ¬ NoFiles env w ac base)
    {src : File} {reqs : List Requirement} {es : List Error} (ho : env.os.openFile w p = .ok src)
    (hs : Rs.parse env.syn src.whole p = .ok (reqs, es)) {r : Requirement} (hrr : r ∈ reqs) :
    m.get r.id = some r ∨ ∃ kept, m.get r.id = some kept ∧ .duplicateRequirement kept r ∈ errs := by
  obtain ⟨rs, perrs, h1, -⟩ := C17_first_kept h
  obtain ⟨fs, -, -, hfs⟩ := parseArtefact_files hn
  obtain ⟨-, h2⟩ := (hfs _).1 h1
  cases h2
  refine (C17_none_vanishes h h1).1 r (List.mem_flatMap.2 ⟨p, hp, ?_⟩)
  unfold requirementsIn
  rw [ho, hr]
  simp only [fileResult]
  rw [hs]
  exact hrr

/-- **C46** if the parser gives all requirements of the artefact different ids. -/
theorem C46_distinct_partial {env : Env} {w : World} {ac : ArtefactConfig} {base : Path} {files : List Path}
    {m : BMap RequirementId Requirement} {errs : List Error} {reqs : List Requirement} {perrs : List Error}
    (h : parseFromConfig env w ac base = .ok (files, m, errs))
    (hp : parseArtefact env w ac base = .ok (files, reqs, perrs)) (hd : (reqs.map (·.id)).Nodup) :
    ∀ r ∈ reqs, m.get r.id = some r := by
  intro r hr
  obtain ⟨rs, es, h1, h2, -⟩ := C17_first_kept h
  rw [hp] at h1; cases h1
  rw [h2]
  cases hf : reqs.find? (fun x => x.id = r.id) with
  | none =>
    have := List.find?_eq_none.1 hf r hr
    simp at this
  | some y =>
    have hy := List.mem_of_find?_eq_some hf
    have hid : y.id = r.id := by simpa using List.find?_some hf
    have : y = r := by
      obtain ⟨i, hi⟩ := List.mem_iff_getElem?.1 hy
      obtain ⟨j, hj⟩ := List.mem_iff_getElem?.1 hr
      have hi' : (reqs.map (·.id))[i]? = some y.id := by rw [List.getElem?_map, hi]; rfl
      have hj' : (reqs.map (·.id))[j]? = some r.id := by rw [List.getElem?_map, hj]; rfl
      have hij : i = j := (List.getElem?_inj (List.getElem?_eq_some_iff.1 hi').1 hd).1 (by rw [hi', hj', hid])
      rw [hij, hj] at hi; cases hi; rfl
    rw [this]

/-- The tree above without the last mark has distinct ids. -/
example : (RustExample.fnReq.id, RustExample.methodReq.id) = (c!"m::f", c!"m::(S as T)::g") ∧
    ([RustExample.fnReq, RustExample.methodReq].map (·.id)).Nodup := by decide +kernel

/-! ## C58 -/

theorem flatMap_congr' {α β : Type} {f g : α → List β} {l : List α} (h : ∀ a ∈ l, f a = g a) :
    l.flatMap f = l.flatMap g := by
  induction l with
  | nil => rfl
  | cons a t ih =>
    rw [List.flatMap_cons, List.flatMap_cons, h a (List.mem_cons_self ..), ih fun b hb => h b (List.mem_cons_of_mem _ hb)]

section
variable {env : Env} {os' : Os} {w : World} {bad : Path → Prop}
  (hg : os'.glob = env.os.glob) (hbad : ∀ p, bad p → ∃ e, os'.openFile w p = .error e)
  (hok : ∀ p, ¬ bad p → os'.openFile w p = env.os.openFile w p)

include hg in
theorem globPaths_congr (base : Path) (ps : List Str) :
    globPaths { env with os := os' } w base ps = globPaths env w base ps := by
  induction ps with
  | nil => rfl
  | cons p ps ih => unfold globPaths; rw [ih]; simp only [hg]

include hg in
theorem noFiles_congr (ac : ArtefactConfig) (base : Path) :
    NoFiles { env with os := os' } w ac base ↔ NoFiles env w ac base := by
  unfold NoFiles
  simp only [globPaths_congr hg]

include hg in
theorem parseArtefact_noFiles_congr {ac : ArtefactConfig} {base : Path} (hn : NoFiles env w ac base) :
    parseArtefact { env with os := os' } w ac base = parseArtefact env w ac base := by
  have hn' := hn
  unfold NoFiles at hn
  unfold parseArtefact
  by_cases hr : ac.parser = .rust
  · rw [if_pos hr] at hn
    rw [hr]
    simp only
    unfold parseMultipleFiles
    rw [globPaths_congr hg]
    split
    · rfl
    · next hp =>
      rcases hn with hn | ⟨e, he⟩
      · exact absurd hn hp
      · rw [he]
  · rw [if_neg hr] at hn
    have : parseSingleFile { env with os := os' } w ac base = parseSingleFile env w ac base := by
      unfold parseSingleFile
      split
      · next p hp => rw [hp] at hn; exact absurd rfl hn
      · rfl
    rw [this]
    split
    · next h => exact absurd h hr
    · rfl

include hok in
theorem good_congr {parser : ArtefactParser} {p : Path} (hp : ¬ bad p) :
    requirementsIn { env with os := os' } w parser p = requirementsIn env w parser p ∧
    errorsIn { env with os := os' } w parser p = errorsIn env w parser p ∧
    oneFile { env with os := os' } w parser p = oneFile env w parser p := by
  unfold requirementsIn errorsIn oneFile
  simp only [hok p hp]
  exact ⟨rfl, rfl, rfl⟩

include hbad in
theorem bad_eq {parser : ArtefactParser} {p : Path} (hp : bad p) :
    requirementsIn { env with os := os' } w parser p = [] ∧
    ∃ e, os'.openFile w p = .error e ∧ errorsIn { env with os := os' } w parser p = [.io p e] ∧
      oneFile { env with os := os' } w parser p = .ok ([], [.io p e]) := by
  obtain ⟨e, he⟩ := hbad p hp
  unfold requirementsIn errorsIn oneFile
  simp [he]

include hg hbad hok in
/-- **C58** for one artefact.  `os'` fails to open the files in `bad` and otherwise does what `env.os` does.  The
artefact keeps its files; every file that fails gives an `Io` error naming it; requirements and errors of the other
files are unchanged. -/
theorem C58_artefact {ac : ArtefactConfig} {base : Path} {fs : List Path} {reqs : List Requirement}
    {errs : List Error} (h : parseArtefact env w ac base = .ok (fs, reqs, errs)) :
    ∃ reqs' errs', parseArtefact { env with os := os' } w ac base = .ok (fs, reqs', errs') ∧
      ((NoFiles env w ac base ∧ reqs' = reqs ∧ errs' = errs) ∨
        (reqs = fs.flatMap (requirementsIn env w ac.parser) ∧ errs = fs.flatMap (errorsIn env w ac.parser) ∧
         (∀ (sel : Path → Bool), (∀ p, sel p = true ↔ ¬ bad p) →
            reqs' = (fs.filter sel).flatMap (requirementsIn env w ac.parser)) ∧
         (∀ p ∈ fs, bad p → ∃ e, os'.openFile w p = .error e ∧ .io p e ∈ errs') ∧
         ∀ p ∈ fs, ¬ bad p → ∀ e ∈ errorsIn env w ac.parser p, e ∈ errs')) ∧
      ((∀ p ∈ fs, ¬ bad p) → reqs' = reqs ∧ errs' = errs) := by
  by_cases hn : NoFiles env w ac base
  · rw [parseArtefact_noFiles_congr hg hn, h]
    exact ⟨reqs, errs, rfl, .inl ⟨hn, rfl, rfl⟩, fun _ => ⟨rfl, rfl⟩⟩
  · obtain ⟨fs1, g1, g2, g3⟩ := parseArtefact_files hn
    obtain ⟨h1, h2⟩ := (g3 _).1 h
    cases h2
    obtain ⟨fs2, g1', g2', g3'⟩ := parseArtefact_files (fun h => hn ((noFiles_congr hg ac base).1 h))
    have hfs : fs2 = fs := by
      by_cases hr : ac.parser = .rust
      · have a := g1 hr
        have b := g1' hr
        rw [globPaths_congr hg] at b
        rw [a] at b; cases b; rfl
      · obtain ⟨p, a1, a2⟩ := g2 hr
        obtain ⟨q, b1, b2⟩ := g2' hr
        rw [a1] at b1; cases b1
        rw [a2, b2]
    subst hfs
    refine ⟨_, _, (g3' _).2 ⟨?_, rfl⟩, .inr ⟨rfl, rfl, ?_, ?_, ?_⟩, ?_⟩
    · intro p hp
      by_cases hb : bad p
      · obtain ⟨_, e, _, _, he⟩ := bad_eq hbad (parser := ac.parser) hb
        exact ⟨_, he⟩
      · rw [(good_congr hok hb).2.2]; exact h1 p hp
    · intro sel hsel
      clear h g1 g2 g3 g1' g2' g3' h1
      induction fs2 with
      | nil => rfl
      | cons p ps ih =>
        rw [List.flatMap_cons, ih, List.filter_cons]
        by_cases hb : bad p
        · have : sel p ≠ true := fun h => (hsel p).1 h hb
          rw [if_neg this, (bad_eq hbad hb).1]; rfl
        · rw [if_pos ((hsel p).2 hb), (good_congr hok hb).1]; rfl
    · intro p hp hb
      obtain ⟨_, e, he, h2, _⟩ := bad_eq hbad (parser := ac.parser) hb
      exact ⟨e, he, List.mem_flatMap.2 ⟨p, hp, by rw [h2]; simp⟩⟩
    · intro p hp hb e he
      exact List.mem_flatMap.2 ⟨p, hp, by rw [(good_congr hok hb).2.1]; exact he⟩
    · intro hall
      constructor
      · exact flatMap_congr' fun p hp => (good_congr hok (hall p hp)).1
      · exact flatMap_congr' fun p hp => (good_congr hok (hall p hp)).2.1

include hg hbad hok in
/-- **C58** for the whole graph: the controller is still built, and the artefacts without a failing file are the
same. -/
theorem C58_graph {config : Config} {base : Path} {c : Controller}
    (h : Controller.new env w config base = .ok c) :
    ∃ c', Controller.new { env with os := os' } w config base = .ok c' ∧
      ∀ a art, c.graph.artefacts.get a = some art →
        ∃ art', c'.graph.artefacts.get a = some art' ∧ art'.files = art.files ∧
          ((∀ p ∈ art.files, ¬ bad p) → art' = art) := by
  obtain ⟨hr, hp⟩ := (C18_returns_iff env w config base).1 ⟨c, h⟩
  obtain ⟨c', h'⟩ := (C18_returns_iff { env with os := os' } w config base).2 ⟨hr, fun ac hac => by
    obtain ⟨⟨fs, reqs, errs⟩, hv⟩ := hp ac hac
    obtain ⟨_, _, h1, _⟩ := C58_artefact hg hbad hok hv
    exact ⟨_, h1⟩⟩
  refine ⟨c', h', fun a art ha => ?_⟩
  obtain ⟨ac, root, files, m, errs, hl, rfl, hroot, hpa, rfl⟩ := new_artefact h ha
  obtain ⟨files', m', errs', art', p1, p2, p3, p4, p5⟩ := C22_last_entries_partial h' hl
  obtain ⟨ac2, root2, files2, m2, errs2, hl2, hid2, hroot2, hpa2, hart2⟩ := new_artefact h' p2
  have hac : ac2 = ac := lastEntry_unique hl2 hl hid2
  subst hac
  obtain ⟨reqs, perrs, q1, -, rfl⟩ := C17_first_kept hpa
  obtain ⟨reqs', perrs', q1', _, q3⟩ := C58_artefact hg hbad hok q1
  have hpa2' : parseFromConfig { env with os := os' } w ac2 base = .ok (files, (collectRequirements reqs' .empty perrs').1,
      (collectRequirements reqs' .empty perrs').2) := by
    unfold parseFromConfig; rw [q1']; rfl
  have hpa' : parseFromConfig env w ac2 base = .ok (files, (collectRequirements reqs .empty perrs).1,
      (collectRequirements reqs .empty perrs).2) := by
    unfold parseFromConfig; rw [q1]; rfl
  rw [hpa2'] at hpa2
  cases hpa2
  refine ⟨art', p2, by rw [hart2], fun hall => ?_⟩
  obtain ⟨rfl, rfl⟩ := q3 hall
  rw [hart2]
  rw [hpa'] at hpa
  have e1 := Except.ok.inj hpa
  have e2 : (collectRequirements reqs' .empty perrs').1 = m := congrArg (fun x => x.2.1) e1
  have e3 : (collectRequirements reqs' .empty perrs').2 = perrs' ++ duplicates reqs' := congrArg (fun x => x.2.2) e1
  have e4 : root2 = root := by
    cases root2 <;> cases root <;> simp_all
  rw [e2, e3, e4]

end

/-- In the example `/src/b.rs` is missing: an error names it, the requirements of `a.rs` are there. -/
example : (parseFromConfig (env RustExample.file config) (world files) code c!"p").map
    (fun v => (v.1, v.2.1.keys, v.2.2)) = .ok ([c!"p/a.rs", c!"/src/b.rs"], [c!"m::(S as T)::g", c!"m::f"],
      [.format ⟨c!"p/a.rs", some (.lineAndColumn 5 8)⟩ c!"requirement_covered!() has no arguments",
       .io c!"/src/b.rs" c!"not found"]) := by decide +kernel

namespace CtrlExample

/-- `p/req.md` cannot be opened. -/
def denied : Os := { os with openErr := fun _ p => if p = c!"p/req.md" then some c!"denied" else none }

end CtrlExample

/-- The hypotheses of C58 hold, and the artefact `REQ` has lost its requirements and has the error. -/
example : denied.glob = (env RustExample.file config).os.glob ∧
    (∀ p, p = c!"p/req.md" → ∃ e, denied.openFile (world files) p = .error e) ∧
    (∀ p, ¬ p = c!"p/req.md" → denied.openFile (world files) p = (env RustExample.file config).os.openFile (world files) p) := by
  refine ⟨rfl, ?_, ?_⟩
  · rintro p rfl; exact ⟨c!"denied", by decide +kernel⟩
  · intro p hp
    simp [Os.openFile, denied, hp, env, os]

example : ((Controller.new { env RustExample.file config with os := denied } (world files) config c!"p").toOption.map
    (fun c => c.graph.artefacts.values.map (fun a => (a.id, a.requirements.keys.length, a.errors.contains (.io c!"p/req.md" c!"denied"))))) =
    ((Controller.new (env RustExample.file config) (world files) config c!"p").toOption.map
    (fun c => c.graph.artefacts.values.map (fun a => if a.id = c!"REQ" then (a.id, 0, true) else (a.id, a.requirements.keys.length, false)))) := by
  decide +kernel

end Reqtrace
