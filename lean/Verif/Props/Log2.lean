import Verif.Props.Cli
import Verif.Props.Log

/-!
# C118–C120: standard error, the option `-q`, and what is logged about jobs
-/

namespace Reqtrace

open Spec Log

/-! ## The levels -/

/-- No record has the level. -/
def Without (l : Level) (rs : List Record) : Prop := ∀ r ∈ rs, r.level ≠ l

theorem Without.nil (l : Level) : Without l [] := fun _ h => by cases h
theorem Without.cons {l : Level} {r : Record} {rs : List Record} (h : r.level ≠ l) (hs : Without l rs) : Without l (r :: rs) :=
  fun x hx => (List.mem_cons.1 hx).elim (fun e => e ▸ h) (hs x)
theorem Without.append {l : Level} {a b : List Record} (ha : Without l a) (hb : Without l b) : Without l (a ++ b) :=
  fun r h => (List.mem_append.1 h).elim (ha r) (hb r)
theorem AllOf.without {l l' : Level} {rs : List Record} (h : AllOf l rs) (hl : l ≠ l') : Without l' rs :=
  fun r hr he => hl ((h r hr).symm.trans he)
theorem Without.ofLevel {l : Level} {rs : List Record} (h : Without l rs) : ofLevel l rs = [] :=
  List.filter_eq_nil_iff.2 (fun r hr => by simp [h r hr])

section
variable (env : Env) (log : LogEnv)

theorem allOf_single (file : Str) (line : Nat) (e : Error) : AllOf .info [problem env log file line e] := by
  intro r hr; cases List.mem_singleton.1 hr; rfl

theorem mdLoop_info (failure : Option Str) (ls : List Str) : ∀ (s : Md.State) (c : Md.Context),
    AllOf .info (mdLoop env log failure ls s c) := by
  induction ls with
  | nil =>
    intro s c
    unfold mdLoop
    split
    · exact allOf_single env log _ _ _
    · exact .nil _
  | cons l ls ih =>
    intro s c
    unfold mdLoop
    simp only
    split
    · exact .nil _
    · split
      · exact .nil _
      · exact (allOf_problems env log _ mdLine _).append (ih _ _)

theorem rustVisit_info (path : Path) (f : Rs.Forest) : ∀ (p : Rs.Parser), AllOf .info (rustVisit env log path f p) := by
  induction f with
  | nil => intro p; exact .nil _
  | mac m rest ih =>
    intro p
    unfold rustVisit
    split
    · exact .nil _
    · exact (allOf_problems env log _ rustLine _).append (ih _)
  | item i l c inner rest ih1 ih2 =>
    intro p
    unfold rustVisit
    refine (ih1 _).append ?_
    split
    · exact .nil _
    · split
      · exact .nil _
      · exact ih2 _
  | node inner rest ih1 ih2 =>
    intro p
    unfold rustVisit
    refine (ih1 _).append ?_
    split
    · exact .nil _
    · exact ih2 _

theorem rustParse_info (src : Source) (path : Path) : AllOf .info (rustParse env log src path) := by
  unfold rustParse
  split
  · exact allOf_single env log _ _ _
  · split
    · exact allOf_single env log _ _ _
    · exact rustVisit_info env log _ _ _

theorem parseFiles_info (w : World) (parser : ArtefactParser) (ps : List Path) :
    AllOf .info (Log.parseFiles env log w parser ps) := by
  induction ps with
  | nil => exact .nil _
  | cons p ps ih =>
    unfold Log.parseFiles
    split
    · exact (allOf_single env log _ _ _).append ih
    · split
      · refine (rustParse_info env log _ _).append ?_
        split
        · exact .nil _
        · exact ih
      · exact .nil _

theorem parseArtefact_info (w : World) (ac : ArtefactConfig) (base : Path) :
    AllOf .info (Log.parseArtefact env log w ac base) := by
  have single : AllOf .info (Log.parseSingleFile env log w ac base) := by
    unfold Log.parseSingleFile
    split
    · simp only
      split
      · exact allOf_single env log _ _ _
      · split
        · exact mdLoop_info env log _ _ _ _
        · unfold monoParse
          split
          · exact .nil _
          · exact allOf_problems env log _ (fun _ => 57) _
        · split
          · exact .nil _
          · exact allOf_single env log _ _ _
        · exact .nil _
    · exact allOf_single env log _ _ _
  unfold Log.parseArtefact
  split
  · unfold Log.parseMultipleFiles
    split
    · exact allOf_single env log _ _ _
    · split
      · exact .nil _
      · exact parseFiles_info env log _ _ _
  · exact single

theorem makeArtefacts_info (w : World) (base : Path) (roots : BMap ArtefactId Bool) (acs : List ArtefactConfig) :
    AllOf .info (Log.makeArtefacts env log w base roots acs) := by
  induction acs with
  | nil => exact .nil _
  | cons ac acs ih =>
    unfold Log.makeArtefacts Log.parseFromConfig
    refine ((parseArtefact_info env log _ _ _).append ?_).append ?_
    · split
      · exact .nil _
      · exact allOf_problems env log _ (fun _ => 167) _
    · split
      · exact .nil _
      · exact ih

/-- Reading and tracing log at the levels INFO and TRACE only. -/
theorem new_levels (w : World) (config : Config) (base : Path) :
    ∀ r ∈ Log.new env log w config base, r.level = .info ∨ r.level = .trace := by
  have links : ∀ line step ls t, AllOf .info (validateLinks env log line step t ls) := by
    intro line step ls
    induction ls with
    | nil => intro t; exact .nil _
    | cons l ls ih =>
      intro t
      unfold validateLinks
      split
      · exact .nil _
      · exact (allOf_problems env log _ (fun _ => line) _).append (ih _)
  have rels : ∀ rels t, ∀ r ∈ traceRelations env log t rels, r.level = .info ∨ r.level = .trace := by
    intro rels
    induction rels with
    | nil => intro t r h; cases h
    | cons rel rels ih =>
      intro t r h
      unfold traceRelations at h
      rcases List.mem_cons.1 h with rfl | h
      · exact .inr rfl
      · split at h
        · cases h
        · split at h
          · cases h
          · rcases List.mem_append.1 h with h | h
            · split at h
              · cases List.mem_singleton.1 h; exact .inl rfl
              · cases h
            · split at h
              · cases h
              · exact ih _ r h
  intro r h
  unfold Log.new at h
  split at h
  · cases h
  · rcases List.mem_append.1 h with h | h
    · exact .inl (makeArtefacts_info env log _ _ _ _ r h)
    · split at h
      · cases h
      · unfold Log.trace at h
        rcases List.mem_append.1 h with h | h
        · exact rels _ _ r h
        · split at h
          · cases h
          · rcases List.mem_append.1 h with h | h
            · exact .inl (links _ _ _ _ r h)
            · split at h
              · cases h
              · exact .inl (links _ _ _ _ r h)

theorem new_without (w : World) (config : Config) (base : Path) {l : Level} (h1 : l ≠ .info) (h2 : l ≠ .trace) :
    Without l (Log.new env log w config base) := by
  intro r hr he
  rcases new_levels env log w config base r hr with h | h
  · exact h1 (he.symm.trans h)
  · exact h2 (he.symm.trans h)

theorem reasons_debug (c : Controller) (q : Query) : AllOf .debug (reasons env c q) := by
  have key : ∀ (b : Bool) (r : Record), r.level = .debug → AllOf .debug (if b = true then [r] else []) := by
    intro b r hr x hx
    split at hx
    · cases List.mem_singleton.1 hx; exact hr
    · cases hx
  cases q with
  | trace =>
    unfold reasons
    exact (((key _ _ rfl).append (key _ _ rfl)).append (key _ _ rfl)).append (key _ _ rfl)
  | parse => exact key _ _ rfl

theorem writing_info (c : Controller) (job : Job) (name : Str) : (writing env c job name).level = .info := by
  unfold writing; split <;> rfl

theorem run_noError (c : Controller) (w : World) (job : Job) (name : Str) : Without .error (Log.run env log c w job name) := by
  unfold Log.run
  refine .cons (fun h => by cases h) ?_
  split
  · exact .nil _
  · refine Without.append (.cons (by rw [writing_info]; intro h; cases h)
      ((reasons_debug env c job.query).without (fun h => by cases h))) ?_
    split
    · rename_i s _ _
      refine .cons ?_ (.nil _)
      cases s <;> (intro h; cases h)
    · exact .nil _

theorem runEach_noError (c : Controller) (l : List (Job × Str)) : ∀ w, Without .error (Log.runEach env log c l w) := by
  induction l with
  | nil => intro w; exact .nil _
  | cons x l ih =>
    intro w
    unfold Log.runEach
    refine (run_noError env log c w _ _).append ?_
    split
    · exact ih _
    · exact .nil _

theorem runCliJobs_noError (c : Controller) (opt : Arguments) (w : World) : Without .error (Log.runCliJobs env log c opt w) := by
  have byName : ∀ ns, Without .error (Log.runJobsByName env log c ns w) := by
    intro ns
    unfold Log.runJobsByName
    split
    · exact .cons (fun h => by cases h) (.nil _)
    · unfold Log.runJobs
      refine (runEach_noError env log c _ w).append ?_
      split
      · exact .cons (fun h => by cases h) (.nil _)
      · exact .nil _
  unfold Log.runCliJobs
  split
  · unfold Log.runDefaultJobs
    refine .cons (fun h => by cases h) ?_
    split
    · exact byName _
    · exact .cons (fun h => by cases h) (.nil _)
  · exact byName _

theorem tryMain_noError (opt : Arguments) (w : World) : Without .error (Log.tryMain env log opt w) := by
  unfold Log.tryMain
  refine .cons (fun h => by cases h) ?_
  split
  · exact .nil _
  · refine (new_without env log _ _ _ (fun h => by cases h) (fun h => by cases h)).append ?_
    split
    · exact .nil _
    · exact runCliJobs_noError env log _ _ _

/-! ## C118 -/

theorem tryMain_stderr {env : Env} {opt : Arguments} {w w' : World} {e : Main.Ending}
    (h : Main.tryMain env opt w = (e, w')) : w'.stderr = w.stderr := by
  unfold Main.tryMain at h
  cases hc : Main.getConfig env w opt with
  | error m => rw [hc] at h; cases h; rfl
  | ok config =>
    rw [hc] at h
    simp only at h
    cases hn : Controller.new env w config opt.baseDir with
    | error p => rw [hn] at h; cases h; rfl
    | ok c =>
      rw [hn] at h
      simp only at h
      have hk : (Main.runCliJobs env c opt w).2.stderr = w.stderr := by
        have byName : ∀ ns, (c.runJobsByName env ns w).2.stderr = w.stderr := fun ns => by
          obtain ⟨_, _, hk⟩ := C27_jobs env c ns w
          exact hk.stderr
        unfold Main.runCliJobs Controller.runDefaultJobs
        split
        · split
          · exact byName _
          · rfl
        · exact byName _
      cases hr : Main.runCliJobs env c opt w with
      | mk r w1 =>
        rw [hr] at h hk
        cases r <;> (cases h; exact hk)

/-- What the program does without its log, and what the log adds. -/
theorem main_log (keep : Record → Bool) (opt : Arguments) (w : World) : ∃ rest,
    (Main.main env opt w).2.stderr = w.stderr ++ rest ∧
    Log.main env log keep opt w = ((Main.main env opt w).1, { (Main.main env opt w).2 with
      stderr := w.stderr ++ Utf8.encode (lines keep (Log.mainRc env log opt w)) ++ rest }) ∧
    ((Main.main env opt w).1 = 2 → ∃ m, rest = Utf8.encode (m ++ c!"\n") ∧
      Log.mainRc env log opt w = Log.tryMain env log opt w ++ [⟨c!"src/main.rs", 127, .error, m⟩]) ∧
    ((Main.main env opt w).1 ≠ 2 → rest = [] ∧ Log.mainRc env log opt w = Log.tryMain env log opt w) := by
  unfold Log.main Log.mainRc Main.main
  cases ht : Main.tryMain env opt w with
  | mk ending w' =>
    have hw := tryMain_stderr ht
    cases ending with
    | ok s =>
      cases s with
      | success => exact ⟨[], by simpa using hw, by simp, fun h => (by cases h), fun _ => ⟨rfl, by simp⟩⟩
      | errorsDetected => exact ⟨[], by simpa using hw, by simp, fun h => (by cases h), fun _ => ⟨rfl, by simp⟩⟩
    | panic p => exact ⟨[], by simpa using hw, by simp, fun h => (by cases h), fun _ => ⟨rfl, by simp⟩⟩
    | err e =>
      refine ⟨Utf8.encode (e ++ c!"\n"), ?_, ?_, fun _ => ⟨e, rfl, rfl⟩, fun h => absurd rfl h⟩
      · simp only [hw]
      · simp

/-- **C118** The log goes to standard error and changes nothing else: exit code, files and standard output are as
without it. -/
theorem C118_only_stderr (keep : Record → Bool) (opt : Arguments) (w : World) :
    (Log.main env log keep opt w).1 = (Main.main env opt w).1 ∧
    (Log.main env log keep opt w).2.files = (Main.main env opt w).2.files ∧
    (Log.main env log keep opt w).2.dirs = (Main.main env opt w).2.dirs ∧
    (Log.main env log keep opt w).2.stdout = (Main.main env opt w).2.stdout := by
  obtain ⟨rest, _, h, _⟩ := main_log env log keep opt w
  rw [h]
  exact ⟨rfl, rfl, rfl, rfl⟩

/-- **C118** With exit code 2 the last line on standard error is the message, whatever the filter keeps; before it comes
the log, and its last record is the same message at the level ERROR, the only one at that level. -/
theorem C118_failure (keep : Record → Bool) (opt : Arguments) (w : World) (h : (Log.main env log keep opt w).1 = 2) :
    ∃ m rs, Log.mainRc env log opt w = rs ++ [⟨c!"src/main.rs", 127, .error, m⟩] ∧ (∀ r ∈ rs, r.level ≠ .error) ∧
      (Main.main env opt w).2.stderr = w.stderr ++ Utf8.encode (m ++ c!"\n") ∧
      (Log.main env log keep opt w).2.stderr =
        w.stderr ++ Utf8.encode (lines keep (Log.mainRc env log opt w)) ++ Utf8.encode (m ++ c!"\n") := by
  obtain ⟨rest, h1, h2, h3, _⟩ := main_log env log keep opt w
  rw [h2] at h
  obtain ⟨m, rfl, h4⟩ := h3 h
  exact ⟨m, _, h4, tryMain_noError env log opt w, h1, by rw [h2]⟩

/-- **C118** With another exit code nothing but the log is on standard error, and no record has the level ERROR. -/
theorem C118_no_failure (keep : Record → Bool) (opt : Arguments) (w : World) (h : (Log.main env log keep opt w).1 ≠ 2) :
    (∀ r ∈ Log.mainRc env log opt w, r.level ≠ .error) ∧
    (Log.main env log keep opt w).2.stderr = w.stderr ++ Utf8.encode (lines keep (Log.mainRc env log opt w)) := by
  obtain ⟨rest, h1, h2, _, h3⟩ := main_log env log keep opt w
  rw [h2] at h
  obtain ⟨rfl, h4⟩ := h3 h
  rw [h4]
  exact ⟨tryMain_noError env log opt w, by rw [h2, h4]; simp⟩

/-- **C118** If the filter keeps nothing, standard error is as without the log. -/
theorem C118_silent (keep : Record → Bool) (hk : ∀ r, keep r = false) (opt : Arguments) (w : World) :
    Log.main env log keep opt w = Main.main env opt w := by
  obtain ⟨rest, h1, h2, _⟩ := main_log env log keep opt w
  have hl : lines keep (Log.mainRc env log opt w) = [] := by
    unfold lines
    rw [List.filter_eq_nil_iff.2 (fun r _ => by simp [hk r])]
    rfl
  rw [h2, hl]
  refine Prod.ext rfl (World.ext' rfl rfl rfl ?_ rfl)
  rw [h1]
  simp [Utf8.encode]

/-- **C118** The line of a record in the log. -/
theorem C118_line (r : Record) : lines (fun _ => true) [r] =
    r.file ++ c!":" ++ natStr r.line ++ c!": [" ++ r.level.display ++ c!"] " ++ r.text ++ c!"\n" := by
  simp [lines, Record.display]

end

namespace LogExample

open CtrlExample

/-- `env_logger` if neither the variable nor the option is there: from INFO up. -/
def default : Logger := ⟨fun _ _ r => r.level = .error || r.level = .warn || r.level = .info⟩

/-- An unknown job: the log, its ERROR, and the message. -/
example : (Main.main (env .nil config) { args with jobs := [c!"x"] } (world files)).1 = 2 ∧
    (Log.main (env .nil config) log (fun r => r.level = .error || r.line = 62 || r.line = 283)
      { args with jobs := [c!"x"] } (world files)).2.stderr = Utf8.encode c!"src/main.rs:62: [INFO] using config file requirements.toml
src/controller.rs:283: [INFO] found problem UnknownJob(
    \"x\",
)
src/main.rs:127: [ERROR] Unknown Job x
Unknown Job x
" := by decide +kernel

end LogExample

/-! ## C119 -/

/-- **C119** as listed: with `-q` nothing is written to standard error unless the program fails. -/
def C119_statement : Prop := ∀ (env : Env) (log : LogEnv) (logger : Logger) (texts : Cli.Texts) (var : Option Str)
  (words : List Str) (s : Cli.Seen) (w : World), Cli.parse words = .run s → s.quiet = true →
  (Log.program env log logger texts var words w).1 ≠ 2 → (Log.program env log logger texts var words w).2.stderr = w.stderr

open CtrlExample LogExample in
/-- **C119** is false: with `-q` and the default filter the log is written. -/
theorem C119_false : ¬ C119_statement := by
  intro h
  have h1 := h (env RustExample.file config) LogExample.log default ⟨fun _ => [], [], fun _ => []⟩ none
    [c!"-q", c!"export", c!"-b", c!"p"] ⟨true, none, none, some c!"p", [c!"export"]⟩ (world files) (by decide +kernel) rfl
  revert h1
  decide +kernel

/-- **C119** The option `-q` changes nothing. -/
theorem C119_ignored_partial (env : Env) (log : LogEnv) (logger : Logger) (texts : Cli.Texts) (var : Option Str)
    {words words' : List Str} {s : Cli.Seen} (h : Cli.parse words = .run s) {b : Bool}
    (h' : Cli.parse words' = .run { s with quiet := b }) (w : World) :
    Log.program env log logger texts var words' w = Log.program env log logger texts var words w := by
  unfold Log.program
  rw [h, h']
  rfl

/-- **C119** A filter that keeps nothing does what `-q` should do. -/
theorem C119_filter_partial (env : Env) (log : LogEnv) (logger : Logger) (texts : Cli.Texts) (var : Option Str)
    {words : List Str} {s : Cli.Seen} (h : Cli.parse words = .run s) (hf : ∀ r, logger.filter var s.logLevel r = false)
    (w : World) (h2 : (Log.program env log logger texts var words w).1 ≠ 2) :
    (Log.program env log logger texts var words w).2.stderr = w.stderr := by
  unfold Log.program at h2 ⊢
  rw [h] at h2 ⊢
  simp only at h2 ⊢
  rw [C118_silent env log _ hf] at h2 ⊢
  exact (C28_stderr_partial env s.arguments w).2 h2

/-! ## C120 -/

section
variable {env : Env} {w0 : World} {config : Config} {base : Path} {c : Controller} (log : LogEnv)

theorem run_warn (w : World) (job : Job) (name : Str) : ofLevel .warn (Log.run env log c w job name) =
    match c.run env w job with
    | (.ok .errorsDetected, _) => [verdictRecord name .errorsDetected]
    | _ => [] := by
  unfold Log.run
  have h1 : Without .warn [(⟨ctrlFile, 320, .trace, c!"Job " ++ name ++ c!" " ++ debugJob env log job⟩ : Record)] :=
    .cons (fun h => by cases h) (.nil _)
  rw [← List.singleton_append, ofLevel_append, h1.ofLevel, List.nil_append]
  cases ho : c.openOutput env w job with
  | mk r w1 =>
    cases r with
    | error e =>
      have : c.run env w job = (.err e, w1) := by unfold Controller.run; rw [ho]
      rw [this]
      rfl
    | ok sink =>
      simp only
      have h2 : Without .warn (writing env c job name :: reasons env c job.query) :=
        .cons (by rw [writing_info]; intro h; cases h) ((reasons_debug env c job.query).without (fun h => by cases h))
      rw [ofLevel_append, h2.ofLevel, List.nil_append]
      cases hr : c.run env w job with
      | mk s w2 =>
        cases s with
        | ok s => cases s <;> rfl
        | err e => rfl
        | panic p => rfl

open Classical in
theorem runEach_warn (hn : Controller.new env w0 config base = .ok c) (done rest : List Job) : ∀ (ns : List Str) (w w1 : World),
    ns.length = (done ++ rest).length → JobsRun env base c.graph done w .done w1 →
    (∀ j more, rest = j :: more → ∃ e w2, e ≠ .done ∧ JobRuns env base c.graph j w1 e w2) →
    said (ofLevel .warn (Log.runEach env log c ((done ++ rest).zip ns) w)) = warnings c.graph (ns.zip done) := by
  induction done with
  | nil =>
    intro ns w w1 hlen hrun hrest
    have : w1 = w := by
      cases hrun with
      | nil => rfl
    subst this
    have hz : ns.zip ([] : List Job) = [] := by cases ns <;> rfl
    rw [hz]
    cases rest with
    | nil => rfl
    | cons j more =>
      cases ns with
      | nil => cases hlen
      | cons n ns =>
        obtain ⟨e, w2, he, hj⟩ := hrest j more rfl
        have hj := (jobRuns_iff hn).2 hj
        rw [List.nil_append, List.zip_cons_cons]
        unfold Log.runEach
        rw [ofLevel_append, run_warn]
        cases hr : c.run env w1 j with
        | mk s w3 =>
          rw [hr] at hj
          cases s with
          | ok s => exact absurd hj.1.symm he
          | err _ => rfl
          | panic _ => rfl
  | cons j done ih =>
    intro ns w w1 hlen hrun hrest
    cases ns with
    | nil => cases hlen
    | cons n ns =>
      generalize he : JobEnd.done = e at hrun
      cases hrun with
      | stop hne _ => exact absurd he.symm hne
      | @next _ _ _ wm _ _ h1 h2 =>
        subst he
        have hj := (jobRuns_iff hn).2 h1
        rw [List.cons_append, List.zip_cons_cons]
        unfold Log.runEach
        rw [ofLevel_append, said_append, run_warn]
        have hih := ih ns wm w1 (by simpa using hlen) h2 hrest
        rw [List.zip_cons_cons]
        cases hr : c.run env w j with
        | mk s w3 =>
          rw [hr] at hj
          obtain ⟨hj1, rfl⟩ := hj
          cases s with
          | err _ => cases hj1
          | panic _ => cases hj1
          | ok s =>
            simp only
            have hv := C23_verdict hr
            rw [findsFault_iff hn] at hv
            rw [hih]
            cases s with
            | success =>
              have hf : ¬ FindsFault c.graph j := hv.2.1 rfl
              simp [warnings, hf, said, ofLevel]
            | errorsDetected =>
              have hf : FindsFault c.graph j := hv.1.1 rfl
              simp [warnings, hf, said, verdictRecord]

end

theorem jobsOf_length {jobs : BMap Str Job} {ns : List Str} {js : List Job} (h : JobsOf jobs ns js) :
    ns.length = js.length := by
  induction h with
  | nil => rfl
  | cons _ _ ih => simp [ih]

/-- The records of a run whose jobs are known. -/
theorem mainRc_jobs {env : Env} (log : LogEnv) {opt : Arguments} {w : World} {config : Config} {c : Controller}
    (hg : GoodConfig env w opt.configFile config) (hn : Controller.new env w config opt.baseDir = .ok c)
    (hq : requested config opt ≠ []) {js : List Job} (hj : JobsOf (config.jobs.getD .empty) (requested config opt) js) :
    ∃ pre post, Log.mainRc env log opt w = pre ++ Log.runJobs env log c js (requested config opt) w ++ post ∧
      (∀ r ∈ pre, r.level = .info ∨ r.level = .trace) ∧ (∀ r ∈ post, r.level = .error) ∧
      (∀ s w', c.runJobsByName env (requested config opt) w = (.ok s, w') → post = []) := by
  have hjobs : c.jobs = config.jobs.getD .empty := by obtain ⟨_, _, _, _, _, _, h, _⟩ := new_ok hn; exact h
  have hdef : c.defaultJobs = config.defaultJobs.getD [] := by obtain ⟨_, _, _, _, _, _, _, h⟩ := new_ok hn; exact h
  have hc := (getConfig_ok ..).2 hg
  rw [← hjobs] at hj
  have hf := (findJobs_ok ..).2 hj
  have hrc : ∃ d, (∀ r ∈ d, r.level = Level.trace) ∧
      Log.runCliJobs env log c opt w = d ++ Log.runJobs env log c js (requested config opt) w := by
    have hby : Log.runJobsByName env log c (requested config opt) w = Log.runJobs env log c js (requested config opt) w := by
      unfold Log.runJobsByName
      rw [hf]
    unfold Log.runCliJobs
    by_cases ho : opt.jobs = []
    · have hr : requested config opt = c.defaultJobs := by unfold requested; rw [if_pos ho, hdef]
      rw [if_pos ho]
      unfold Log.runDefaultJobs
      rw [if_pos (by rw [← hr]; exact hq), ← hr, hby]
      exact ⟨[⟨ctrlFile, 266, .trace, c!"Running default jobs"⟩], fun r h => by cases List.mem_singleton.1 h; rfl, rfl⟩
    · have hr : requested config opt = opt.jobs := by unfold requested; rw [if_neg ho]
      rw [if_neg ho, ← hr, hby]
      exact ⟨[], fun r h => (by cases h), rfl⟩
  obtain ⟨d, hd, hrc⟩ := hrc
  refine ⟨⟨mainFile, 62, .info, c!"using config file " ++ opt.configFile⟩ :: Log.new env log w config opt.baseDir ++ d,
    match Main.tryMain env opt w with
    | (.err e, _) => [⟨mainFile, 127, .error, e⟩]
    | _ => [], ?_, ?_, ?_, ?_⟩
  · unfold Log.mainRc Log.tryMain
    rw [hc]
    simp only
    rw [hn]
    simp only
    rw [hrc]
    simp only [List.cons_append, List.append_assoc]
    cases Main.tryMain env opt w with
    | mk e w' => cases e <;> rfl
  · intro r h
    rcases List.mem_append.1 h with h | h
    · rcases List.mem_cons.1 h with rfl | h
      · exact .inl rfl
      · exact new_levels env log _ _ _ r h
    · exact .inr (hd r h)
  · intro r h
    split at h
    · cases List.mem_singleton.1 h; rfl
    · cases h
  · intro s w' hr
    have hm : Main.tryMain env opt w = (.ok s, w') := by
      unfold Main.tryMain
      rw [hc]
      simp only
      rw [hn]
      simp only
      have : Main.runCliJobs env c opt w = c.runJobsByName env (requested config opt) w := by
        unfold Main.runCliJobs Controller.runDefaultJobs
        by_cases ho : opt.jobs = []
        · have hr : requested config opt = c.defaultJobs := by unfold requested; rw [if_pos ho, hdef]
          rw [if_pos ho, if_pos (by rw [← hr]; exact hq), ← hr]
        · have hr : requested config opt = opt.jobs := by unfold requested; rw [if_neg ho]
          rw [if_neg ho, ← hr]
      rw [this, hr]
    rw [hm]

theorem runJobs_eq {env : Env} (log : LogEnv) (c : Controller) (js : List Job) (ns : List Str) (w : World) :
    ∃ last, Log.runJobs env log c js ns w = Log.runEach env log c (js.zip ns) w ++ last ∧ (∀ r ∈ last, r.level = .info) ∧
      ∀ s w', c.runJobs env js ns w = (.ok s, w') → last = [⟨ctrlFile, 309, .info, c!"ran " ++ natStr ns.length ++
        c!" jobs in " ++ natStr (log.elapsed w') ++ c!"ms, result: " ++ debugSuccess s⟩] := by
  unfold Log.runJobs
  cases hr : c.runJobs env js ns w with
  | mk r w1 =>
    cases r with
    | ok s =>
      refine ⟨_, rfl, fun r h => ?_, fun s w' h => ?_⟩
      · cases List.mem_singleton.1 h; rfl
      · cases h; rfl
    | err _ => exact ⟨_, rfl, fun r h => (by cases h), fun s w' h => (by cases h)⟩
    | panic _ => exact ⟨_, rfl, fun r h => (by cases h), fun s w' h => (by cases h)⟩

/-- **C120** The warnings in the log are those for the jobs that are done and find fault, in the order of the jobs. -/
theorem C120_warnings {env : Env} (log : LogEnv) {opt : Arguments} {w : World} {config : Config} {g : Graph}
    (hg : GoodConfig env w opt.configFile config) (hi : IsInput env w config opt.baseDir g)
    (hq : requested config opt ≠ []) {js : List Job} (hj : JobsOf (config.jobs.getD .empty) (requested config opt) js)
    {done : List Job} (hd : AreDone env opt.baseDir g js done w) :
    said (ofLevel .warn (Log.mainRc env log opt w)) = warnings g ((requested config opt).zip done) := by
  have hn := (C82_controller env w config opt.baseDir _).2 ⟨g, hi, rfl⟩
  obtain ⟨pre, post, h1, h2, h3, _⟩ := mainRc_jobs log hg hn hq hj
  obtain ⟨rest, w1, rfl, hrun, hrest⟩ := hd
  have hpre : Without .warn pre := fun r hr he => by
    rcases h2 r hr with h | h <;> (rw [h] at he; cases he)
  have hpost : Without .warn post := fun r hr he => by have := h3 r hr; rw [this] at he; cases he
  rw [h1, ofLevel_append, ofLevel_append, hpre.ofLevel, hpost.ofLevel, List.nil_append, List.append_nil]
  obtain ⟨last, h4, h5, _⟩ := runJobs_eq (env := env) log _ (done ++ rest) (requested config opt) w
  have hlast : Without .warn last := fun r hr he => by have := h5 r hr; rw [this] at he; cases he
  rw [h4, ofLevel_append, hlast.ofLevel, List.append_nil]
  exact runEach_warn log hn done rest _ w w1 (jobsOf_length hj) hrun hrest

/-- The reasons that are logged. -/
theorem reasons_iff {env : Env} {w : World} {config : Config} {base : Path} {c : Controller}
    (hn : Controller.new env w config base = .ok c) (job : Job) (text : Str) :
    (Level.debug, text) ∈ said (reasons env c job.query) ↔
      ∃ t, Reason env c.graph job t ∧ text = c!"Job did not succeed because: " ++ t := by
  obtain ⟨g, hg, rfl⟩ := (C82_controller ..).1 hn
  have hmem : ∀ (b : Bool) (r : Record), (Level.debug, text) ∈ said (if b then [r] else []) ↔
      b = true ∧ (Level.debug, text) = (r.level, r.text) := by
    intro b r
    cases b <;> simp [said]
  have hj : ∀ t : Str, (Level.debug, text) = (Level.debug, c!"Job did not succeed because: " ++ t) ↔
      text = c!"Job did not succeed because: " ++ t := fun t => ⟨fun h => (Prod.mk.inj h).2, fun h => by rw [h]⟩
  unfold Reason
  cases job.query with
  | parse =>
    show (Level.debug, text) ∈ said (if _ then _ else _) ↔ _
    rw [hmem, parseProblem_iff]
    constructor
    · rintro ⟨h1, h2⟩
      exact ⟨_, ⟨rfl, h1⟩, (hj c!"Artefact Parsing Errors").1 h2⟩
    · rintro ⟨t, ⟨rfl, h1⟩, h2⟩
      exact ⟨h1, (hj _).2 h2⟩
  | trace =>
    show (Level.debug, text) ∈ said ((if _ then _ else _) ++ (if _ then _ else _) ++ (if _ then _ else _) ++
      (if _ then _ else _)) ↔ _
    rw [said_append, said_append, said_append, List.mem_append, List.mem_append, List.mem_append, hmem, hmem, hmem, hmem,
      parseProblem_iff, not_isEmpty_iff, List.any_eq_true, List.any_eq_true]
    have hd : (∃ x, x ∈ (traced g).derived.values ∧ (!x.isEmpty) = true) ↔
        ∃ a ids r, (traced g).derived.get a = some ids ∧ r ∈ ids := by
      simp only [not_isEmpty_iff, BMap.mem_values_iff]
      exact ⟨fun ⟨ids, ⟨a, h1⟩, r, h2⟩ => ⟨a, ids, r, h1, h2⟩, fun ⟨a, ids, r, h1, h2⟩ => ⟨ids, ⟨a, h1⟩, r, h2⟩⟩
    have hu : (∃ x, x ∈ (traced g).tracedRelations ∧ (!x.uncovered.isEmpty) = true) ↔
        ∃ tr ∈ (traced g).tracedRelations, ∃ r, r ∈ tr.uncovered := by
      simp only [not_isEmpty_iff]
    have hd' := hd
    have hu' := hu
    constructor
    · rintro (((⟨h1, h2⟩ | ⟨h1, h2⟩) | ⟨h1, h2⟩) | ⟨h1, h2⟩)
      · exact ⟨_, .inl ⟨rfl, h1⟩, (hj c!"Tracing Errors").1 h2⟩
      · exact ⟨_, .inr (.inl ⟨rfl, h1⟩), (hj c!"Artefact Parsing Errors").1 h2⟩
      · exact ⟨_, .inr (.inr (.inl ⟨rfl, hu.1 h1⟩)), (hj c!"uncovered relations").1 h2⟩
      · exact ⟨_, .inr (.inr (.inr ⟨rfl, hd.1 h1⟩)), (Prod.mk.inj h2).2⟩
    · rintro ⟨t, ⟨rfl, h1⟩ | ⟨rfl, h1⟩ | ⟨rfl, h1⟩ | ⟨rfl, h1⟩, h2⟩
      · exact .inl (.inl (.inl ⟨h1, (hj _).2 h2⟩))
      · exact .inl (.inl (.inr ⟨h1, (hj _).2 h2⟩))
      · exact .inl (.inr ⟨hu.2 h1, (hj _).2 h2⟩)
      · exact .inr ⟨hd.2 h1, (hj _).2 h2⟩

/-- A job finds fault if there is a reason. -/
theorem C120_reason_iff (env : Env) (g : Graph) (job : Job) : (∃ t, Reason env g job t) ↔ FindsFault g job := by
  unfold Reason FindsFault TraceProblem
  cases job.query with
  | parse => exact ⟨fun ⟨_, _, h⟩ => h, fun h => ⟨_, rfl, h⟩⟩
  | trace =>
    constructor
    · rintro ⟨t, ⟨_, h⟩ | ⟨_, h⟩ | ⟨_, h⟩ | ⟨_, h⟩⟩
      · exact .inl h
      · exact .inr (.inl h)
      · exact .inr (.inr (.inl h))
      · exact .inr (.inr (.inr h))
    · rintro (h | h | h | h)
      · exact ⟨_, .inl ⟨rfl, h⟩⟩
      · exact ⟨_, .inr (.inl ⟨rfl, h⟩)⟩
      · exact ⟨_, .inr (.inr (.inl ⟨rfl, h⟩))⟩
      · exact ⟨_, .inr (.inr (.inr ⟨rfl, h⟩))⟩

/-- The records of a job that is done. -/
theorem run_records {env : Env} (log : LogEnv) {c : Controller} {w w' : World} {job : Job} {s : JobSuccess} (name : Str)
    (h : c.run env w job = (.ok s, w')) : Log.run env log c w job name =
      ⟨ctrlFile, 320, .trace, c!"Job " ++ name ++ c!" " ++ debugJob env log job⟩ :: writing env c job name ::
        reasons env c job.query ++ [verdictRecord name s] := by
  obtain ⟨_, _, sink, w1, ho, _⟩ := run_ok h
  unfold Log.run
  rw [ho, h]
  rfl

/-- The records of a level of jobs that are all done, if those of one job are known. -/
theorem runEach_records {env : Env} (log : LogEnv) {w0 : World} {config : Config} {base : Path} {c : Controller}
    (hn : Controller.new env w0 config base = .ok c) (p : Level × Str) (P : Str → Job → Prop)
    (hP : ∀ name job s w w', c.run env w job = (.ok s, w') → (p ∈ said (Log.run env log c w job name) ↔ P name job)) :
    ∀ (js : List Job) (ns : List Str) (w w1 : World), ns.length = js.length → JobsRun env base c.graph js w .done w1 →
    (p ∈ said (Log.runEach env log c (js.zip ns) w) ↔ ∃ e ∈ ns.zip js, P e.1 e.2) := by
  intro js
  induction js with
  | nil =>
    intro ns w w1 _ _
    have : ns.zip ([] : List Job) = [] := by cases ns <;> rfl
    rw [this]
    exact ⟨fun h => (by cases h), fun ⟨_, h, _⟩ => (by cases h)⟩
  | cons j js ih =>
    intro ns w w1 hlen hrun
    cases ns with
    | nil => cases hlen
    | cons n ns =>
      generalize he : JobEnd.done = e at hrun
      cases hrun with
      | stop hne _ => exact absurd he.symm hne
      | @next _ _ _ wm _ _ h1 h2 =>
        subst he
        have hj := (jobRuns_iff hn).2 h1
        rw [List.zip_cons_cons, List.zip_cons_cons]
        unfold Log.runEach
        cases hr : c.run env w j with
        | mk s w3 =>
          rw [hr] at hj
          obtain ⟨hj1, rfl⟩ := hj
          cases s with
          | err _ => cases hj1
          | panic _ => cases hj1
          | ok s =>
            simp only
            rw [said_append, List.mem_append, hP n j s w w3 hr, ih ns w3 w1 (by simpa using hlen) h2]
            simp

/-- **C120** If all jobs are done, the debug records say why jobs find fault: there is one for every reason, and no
other. -/
theorem C120_reasons {env : Env} (log : LogEnv) {opt : Arguments} {w w1 : World} {config : Config} {g : Graph}
    (hg : GoodConfig env w opt.configFile config) (hi : IsInput env w config opt.baseDir g)
    (hq : requested config opt ≠ []) {js : List Job} (hj : JobsOf (config.jobs.getD .empty) (requested config opt) js)
    (hd : JobsRun env opt.baseDir g js w .done w1) (text : Str) :
    (Level.debug, text) ∈ said (Log.mainRc env log opt w) ↔
      ∃ j ∈ js, ∃ t, Reason env g j t ∧ text = c!"Job did not succeed because: " ++ t := by
  have hn := (C82_controller env w config opt.baseDir _).2 ⟨g, hi, rfl⟩
  obtain ⟨pre, post, h1, h2, h3, _⟩ := mainRc_jobs log hg hn hq hj
  obtain ⟨last, h4, h5, _⟩ := runJobs_eq (env := env) log
    ⟨opt.baseDir, g, traced g, config.jobs.getD .empty, config.defaultJobs.getD []⟩ js (requested config opt) w
  have hlen := jobsOf_length hj
  have hnot : ∀ {rs : List Record}, (∀ r ∈ rs, r.level ≠ .debug) → ¬ (Level.debug, text) ∈ said rs := by
    intro rs h hm
    obtain ⟨r, hr, he⟩ := List.mem_map.1 hm
    exact h r hr (Prod.mk.inj he).1
  have hpre := hnot (rs := pre) (fun r hr he => by rcases h2 r hr with h | h <;> (rw [h] at he; cases he))
  have hpost := hnot (rs := post) (fun r hr he => by have := h3 r hr; rw [this] at he; cases he)
  have hlast := hnot (rs := last) (fun r hr he => by have := h5 r hr; rw [this] at he; cases he)
  rw [h1, h4]
  simp only [said_append, List.mem_append, hpre, hpost, hlast, false_or, or_false]
  rw [runEach_records log hn (.debug, text) (fun _ j => ∃ t, Reason env g j t ∧ text = c!"Job did not succeed because: " ++ t)
    ?_ js (requested config opt) w w1 hlen hd]
  · constructor
    · rintro ⟨e, he, h⟩
      exact ⟨e.2, (List.of_mem_zip he).2, h⟩
    · rintro ⟨j, hj', h⟩
      obtain ⟨i, hi', rfl⟩ := List.mem_iff_getElem.1 hj'
      refine ⟨((requested config opt)[i]'(by omega), js[i]), ?_, h⟩
      exact List.mem_iff_getElem.2 ⟨i, by simp; omega, by simp⟩
  · intro name job s wa wb hr
    rw [run_records log name hr, ← reasons_iff hn]
    have hw := writing_info env (c := ⟨opt.baseDir, g, traced g, config.jobs.getD .empty, config.defaultJobs.getD []⟩) (job := job) (name := name)
    cases s <;> simp [said, verdictRecord, hw]

/-- **C120** If all jobs are done, the last record says how many there were and whether one that sets the return code
found fault; so does the exit code. -/
theorem C120_summary {env : Env} (log : LogEnv) {opt : Arguments} {w w1 : World} {config : Config} {g : Graph}
    (hg : GoodConfig env w opt.configFile config) (hi : IsInput env w config opt.baseDir g)
    (hq : requested config opt ≠ []) {js : List Job} (hj : JobsOf (config.jobs.getD .empty) (requested config opt) js)
    (hd : JobsRun env opt.baseDir g js w .done w1) :
    ∃ result, (said (Log.mainRc env log opt w)).getLast? = some (.info, c!"ran " ++ natStr (requested config opt).length ++
        c!" jobs in " ++ natStr (log.elapsed w1) ++ c!"ms, result: " ++ result) ∧
      ((result = c!"ErrorsDetected" ∧ (Main.main env opt w).1 = 1 ∧ ∃ j ∈ js, Sets j ∧ FindsFault g j) ∨
       (result = c!"Success" ∧ (Main.main env opt w).1 = 0 ∧ ¬ ∃ j ∈ js, Sets j ∧ FindsFault g j)) := by
  have hn := (C82_controller env w config opt.baseDir _).2 ⟨g, hi, rfl⟩
  obtain ⟨pre, post, h1, _, _, hpost⟩ := mainRc_jobs log hg hn hq hj
  obtain ⟨last, h4, _, h5⟩ := runJobs_eq (env := env) log
    ⟨opt.baseDir, g, traced g, config.jobs.getD .empty, config.defaultJobs.getD []⟩ js (requested config opt) w
  have hlen := jobsOf_length hj
  have hzip : (js.zip (requested config opt)).map Prod.fst = js := List.map_fst_zip (by omega)
  have hrun := (jobsRun_iff hn js (worst := .success)).2 hd
  cases hr : (⟨opt.baseDir, g, traced g, config.jobs.getD .empty, config.defaultJobs.getD []⟩ : Controller).runEach env js
      .success w with
  | mk r w2 =>
    rw [hr] at hrun
    obtain ⟨hr1, rfl⟩ := hrun
    cases r with
    | err _ => cases hr1
    | panic _ => cases hr1
    | ok s =>
      have hjobs : (⟨opt.baseDir, g, traced g, config.jobs.getD .empty, config.defaultJobs.getD []⟩ :
          Controller).runJobs env js (requested config opt) w = (.ok s, w2) := by
        unfold Controller.runJobs
        rw [hzip, hr]
      have hby : (⟨opt.baseDir, g, traced g, config.jobs.getD .empty, config.defaultJobs.getD []⟩ :
          Controller).runJobsByName env (requested config opt) w = (.ok s, w2) := by
        unfold Controller.runJobsByName
        rw [(findJobs_ok ..).2 hj]
        exact hjobs
      have hs := (runEach_ok js hr).2
      have hs' : s = .errorsDetected ↔ ∃ j ∈ js, Sets j ∧ FindsFault g j := by
        rw [hs]
        constructor
        · rintro (h | ⟨j, h1, h2, h3⟩)
          · cases h
          · exact ⟨j, h1, h2, (findsFault_iff hn j).1 h3⟩
        · rintro ⟨j, h1, h2, h3⟩
          exact .inr ⟨j, h1, h2, (findsFault_iff hn j).2 h3⟩
      rw [h1, h4, h5 s w2 hjobs, hpost s w2 hby]
      refine ⟨debugSuccess s, by simp [said], ?_⟩
      by_cases hf : ∃ j ∈ js, Sets j ∧ FindsFault g j
      · have := (C84_program env opt w w2 1).2 (.fault hg hi hq hj hd hf)
        rw [hs'.2 hf, this]
        exact .inl ⟨rfl, rfl, hf⟩
      · have := (C84_program env opt w w2 0).2 (.fine hg hi hq hj hd hf)
        cases s with
        | errorsDetected => exact absurd (hs'.1 rfl) hf
        | success => rw [this]; exact .inr ⟨rfl, rfl, hf⟩

/-- **C120** Without jobs to run there is neither a warning nor a reason. -/
theorem C120_no_jobs {env : Env} (log : LogEnv) {opt : Arguments} {w : World} {r : Record}
    (h : r ∈ Log.mainRc env log opt w) (hl : r.level = .warn ∨ r.level = .debug) :
    ∃ config g js, GoodConfig env w opt.configFile config ∧ IsInput env w config opt.baseDir g ∧
      requested config opt ≠ [] ∧ JobsOf (config.jobs.getD .empty) (requested config opt) js := by
  have hne : ∀ {l : Level}, r.level = l → l ≠ .warn → l ≠ .debug → False := by
    intro l h1 h2 h3
    rcases hl with h | h
    · exact h2 (h1 ▸ h)
    · exact h3 (h1 ▸ h)
  have ht : r ∈ Log.tryMain env log opt w := by
    unfold Log.mainRc at h
    rcases List.mem_append.1 h with h | h
    · exact h
    · split at h
      · cases List.mem_singleton.1 h
        exact (hne rfl (fun h => by cases h) (fun h => by cases h)).elim
      · cases h
  unfold Log.tryMain at ht
  rcases List.mem_cons.1 ht with rfl | ht
  · exact (hne rfl (fun h => by cases h) (fun h => by cases h)).elim
  cases hc : Main.getConfig env w opt with
  | error m => rw [hc] at ht; cases ht
  | ok config =>
    rw [hc] at ht
    simp only at ht
    rcases List.mem_append.1 ht with ht | ht
    · rcases new_levels env log _ _ _ r ht with h | h
      · exact (hne h (by decide) (by decide)).elim
      · exact (hne h (by decide) (by decide)).elim
    · cases hn : Controller.new env w config opt.baseDir with
      | error p => rw [hn] at ht; cases ht
      | ok c =>
        rw [hn] at ht
        simp only at ht
        obtain ⟨g, hg, hcg⟩ := (C82_controller ..).1 hn
        have hby : ∀ ns, r ∈ Log.runJobsByName env log c ns w → ∃ js, JobsOf c.jobs ns js := by
          intro ns hr
          unfold Log.runJobsByName at hr
          cases hf : c.findJobs ns with
          | error e =>
            rw [hf] at hr
            cases List.mem_singleton.1 hr
            exact (hne rfl (fun h => by cases h) (fun h => by cases h)).elim
          | ok js => exact ⟨js, (findJobs_ok ..).1 hf⟩
        have hjobs : c.jobs = config.jobs.getD .empty := by rw [hcg]
        have hdef : c.defaultJobs = config.defaultJobs.getD [] := by rw [hcg]
        unfold Log.runCliJobs at ht
        split at ht
        · rename_i ho
          have hr : requested config opt = c.defaultJobs := by unfold requested; rw [if_pos ho, hdef]
          unfold Log.runDefaultJobs at ht
          rcases List.mem_cons.1 ht with rfl | ht
          · exact (hne rfl (fun h => by cases h) (fun h => by cases h)).elim
          split at ht
          · rename_i hd
            obtain ⟨js, hj⟩ := hby _ ht
            exact ⟨config, g, js, (getConfig_ok ..).1 hc, hg, by rw [hr]; exact hd, by rw [hr, ← hjobs]; exact hj⟩
          · cases List.mem_singleton.1 ht
            exact (hne rfl (fun h => by cases h) (fun h => by cases h)).elim
        · rename_i ho
          have hr : requested config opt = opt.jobs := by unfold requested; rw [if_neg ho]
          obtain ⟨js, hj⟩ := hby _ ht
          exact ⟨config, g, js, (getConfig_ok ..).1 hc, hg, by rw [hr]; exact ho, by rw [hr, ← hjobs]; exact hj⟩

theorem ends_one {env : Env} {opt : Arguments} {w w' : World} (h : ProgramEnds env opt w 1 w') : ∃ config g js,
    GoodConfig env w opt.configFile config ∧ IsInput env w config opt.baseDir g ∧
    JobsOf (config.jobs.getD .empty) (requested config opt) js ∧ JobsRun env opt.baseDir g js w .done w' ∧
    ∃ j ∈ js, Sets j ∧ FindsFault g j := by
  cases h with
  | fault h1 h2 _ h4 h5 h6 => exact ⟨_, _, _, h1, h2, h4, h5, h6⟩

open CtrlExample LogExample in
/-- In the example project the jobs `export` and `trace` are done and find fault; and what is logged about them. -/
example : (∃ config g js w1, GoodConfig (env RustExample.file CtrlExample.config) (world files) args.configFile config ∧
      IsInput (env RustExample.file CtrlExample.config) (world files) config c!"p" g ∧
      JobsOf (config.jobs.getD .empty) (requested config { args with jobs := [c!"export", c!"trace"] }) js ∧
      JobsRun (env RustExample.file CtrlExample.config) c!"p" g js (world files) .done w1 ∧ ∃ j ∈ js, Sets j ∧ FindsFault g j) ∧
    (said (Log.mainRc (env RustExample.file CtrlExample.config) LogExample.log
        { args with jobs := [c!"export", c!"trace"] } (world files))).filter
        (fun r => r.1 ≠ .trace ∧ r.2.take 5 ≠ c!"found") =
      [(.info, c!"using config file requirements.toml"),
       (.info, c!"writing \"export\" to stdout"),
       (.debug, c!"Job did not succeed because: Artefact Parsing Errors"),
       (.warn, c!"Job export detected Errors"),
       (.info, c!"writing trace to p/out/trace.txt"),
       (.debug, c!"Job did not succeed because: Tracing Errors"),
       (.debug, c!"Job did not succeed because: Artefact Parsing Errors"),
       (.debug, c!"Job did not succeed because: derived Requirements: {
    ArtefactId(
        \"CODE\",
    ): [
        RequirementId(
            \"m::(S as T)::g\",
        ),
    ],
    ArtefactId(
        \"ISSUE\",
    ): [],
    ArtefactId(
        \"REQ\",
    ): [],
}"),
       (.warn, c!"Job trace detected Errors"),
       (.info, c!"ran 2 jobs in 0ms, result: ErrorsDetected")] := by
  refine ⟨?_, by decide +kernel⟩
  have he := main_ends (env RustExample.file CtrlExample.config) { args with jobs := [c!"export", c!"trace"] } (world files)
  rw [show (Main.main (env RustExample.file CtrlExample.config) { args with jobs := [c!"export", c!"trace"] } (world files)).1 = 1 by
    decide +kernel] at he
  obtain ⟨config, g, js, h⟩ := ends_one he
  exact ⟨config, g, js, _, h⟩

end Reqtrace
