import Verif.Props.Log3
import Verif.Spec.Log2

/-!
# C123: the whole log
-/

namespace Reqtrace

open Log Spec

/-! ## Levels -/

theorem told_append (a b : List Record) : told (a ++ b) = told a ++ told b := by
  unfold told
  rw [List.filter_append, said_append]

theorem told_cons_trace {r : Record} (h : r.level = .trace) (rs : List Record) : told (r :: rs) = told rs := by
  unfold told
  rw [List.filter_cons_of_neg (by simp [h])]

theorem told_cons {r : Record} (h : r.level ≠ .trace) (rs : List Record) : told (r :: rs) = (r.level, r.text) :: told rs := by
  unfold told
  rw [List.filter_cons_of_pos (by simp [h])]
  rfl

theorem told_without {rs : List Record} (h : Without .trace rs) : told rs = said rs := by
  unfold told
  rw [List.filter_eq_self.2 (fun r hr => by simpa using h r hr)]

theorem app_congr {α : Type} {a b c d : List α} (h : a = b) (h' : c = d) : a ++ c = b ++ d := by rw [h, h']

section
variable (env : Env) (log : LogEnv)

theorem new_told (w : World) (config : Config) (base : Path) :
    told (Log.new env log w config base) = said (ofLevel .info (Log.new env log w config base)) := by
  unfold told ofLevel
  congr 1
  refine List.filter_congr fun r hr => ?_
  rcases new_levels env log w config base r hr with h | h <;> simp [h]

/-! ## Jobs -/

theorem ite_said {b : Bool} {P : Prop} [Decidable P] (h : b = true ↔ P) (r : Record) (t : Str)
    (hr : (r.level, r.text) = (Level.debug, c!"Job did not succeed because: " ++ t)) :
    said (if b = true then [r] else []) = (if P then [t] else []).map fun t => (Level.debug, c!"Job did not succeed because: " ++ t) := by
  by_cases hp : P
  · rw [if_pos (h.2 hp), if_pos hp]; simp [said, hr]
  · rw [if_neg (fun hb => hp (h.1 hb)), if_neg hp]; rfl

open Classical in
theorem reasons_told (base : Path) (g : Graph) (jobs : BMap Str Job) (d : List Str) (q : Query) :
    told (reasons env ⟨base, g, traced g, jobs, d⟩ q) =
      (reasonTexts env g q).map fun t => (.debug, c!"Job did not succeed because: " ++ t) := by
  rw [told_without ((reasons_debug env _ q).without (fun h => by cases h))]
  cases q with
  | parse =>
    unfold reasonTexts
    exact ite_said (by rw [parseProblem_iff]) _ _ rfl
  | trace =>
    unfold reasonTexts
    rw [List.map_append, List.map_append, List.map_append]
    show said ((if _ then _ else _) ++ (if _ then _ else _) ++ (if _ then _ else _) ++ (if _ then _ else _)) = _
    rw [said_append, said_append, said_append]
    refine app_congr (app_congr (app_congr (ite_said ?_ _ _ rfl) (ite_said ?_ _ _ rfl)) (ite_said ?_ _ _ rfl)) (ite_said ?_ _ _ rfl)
    · exact not_isEmpty_iff _
    · exact parseProblem_iff _
    · rw [List.any_eq_true]
      simp only [not_isEmpty_iff]
    · rw [List.any_eq_true]
      simp only [not_isEmpty_iff, BMap.mem_values_iff]
      exact ⟨fun ⟨ids, ⟨a, h1⟩, r, h2⟩ => ⟨a, ids, r, h1, h2⟩, fun ⟨a, ids, r, h1, h2⟩ => ⟨ids, ⟨a, h1⟩, r, h2⟩⟩

theorem writing_told (c : Controller) (job : Job) (name : Str) :
    (writing env c job name).text = writingText env c.baseDir name job := by
  unfold writing writingText
  split
  · rw [debugStr_eq]; simp
  · simp only [target_eq, List.append_assoc]

theorem openLog_told (base : Path) (g : Graph) (jobs : BMap Str Job) (d : List Str) (job : Job) (name : Str) :
    told (writing env ⟨base, g, traced g, jobs, d⟩ job name :: reasons env ⟨base, g, traced g, jobs, d⟩ job.query) =
      openLog env base g name job := by
  rw [told_cons (by rw [writing_info]; intro h; cases h), reasons_told, writing_info, writing_told]
  rfl

end

section
variable {env : Env} (log : LogEnv) {w0 : World} {config : Config} {base : Path} {c : Controller}

theorem opens_iff (hb : c.baseDir = base) {job : Job} {w : World} :
    (∃ sink w', c.openOutput env w job = (.ok sink, w')) ↔ Opens env base job w := by
  have h := openOutput_eq env c w job
  unfold Opens
  by_cases hf : job.file = c!"-"
  · refine ⟨fun _ => .inl hf, fun _ => ?_⟩
    unfold Controller.openOutput
    rw [if_pos hf]
    exact ⟨_, _, rfl⟩
  · rw [if_neg hf] at h
    cases ho : c.openOutput env w job with
    | mk r w1 =>
      rw [ho] at h
      cases r with
      | error e =>
        refine ⟨fun ⟨_, _, h⟩ => (by cases h), ?_⟩
        rintro (h1 | ⟨w', h1⟩)
        · exact absurd h1 hf
        · rw [← hb] at h1
          rw [creates_iff.2 h1] at h
          cases h
      | ok s =>
        refine ⟨fun _ => .inr ⟨w1, ?_⟩, fun _ => ⟨s, w1, rfl⟩⟩
        rw [← hb]
        exact creates_iff.1 h.symm

theorem new_shape (hn : Controller.new env w0 config base = .ok c) :
    c = ⟨base, c.graph, traced c.graph, config.jobs.getD .empty, config.defaultJobs.getD []⟩ := by
  obtain ⟨g, _, rfl⟩ := (C82_controller ..).1 hn
  rfl

open Classical in
theorem run_told (hn : Controller.new env w0 config base = .ok c) {job : Job} {w w' : World} {e : JobEnd} (name : Str)
    (h : JobRuns env base c.graph job w e w') :
    told (Log.run env log c w job name) =
      if e = .done then doneLog env base c.graph (name, job)
      else if Opens env base job w then openLog env base c.graph name job else [] := by
  have hj := (jobRuns_iff hn).2 h
  have hshape := new_shape hn
  have hbase : c.baseDir = base := by rw [hshape]
  cases hr : c.run env w job with
  | mk s w3 =>
    rw [hr] at hj
    have stopped : (∀ s' w', (s, w3) ≠ (.ok s', w')) → e ≠ .done → told (Log.run env log c w job name) =
        if e = .done then doneLog env base c.graph (name, job)
        else if Opens env base job w then openLog env base c.graph name job else [] := by
      intro hs he
      rw [if_neg he]
      unfold Log.run
      rw [hr]
      by_cases hp : Opens env base job w
      · rw [if_pos hp]
        obtain ⟨sink, w1, ho⟩ := (opens_iff hbase).2 hp
        rw [ho]
        simp only
        cases s with
        | ok s => exact absurd rfl (hs s w3)
        | err e =>
          simp only [List.append_nil]
          rw [told_cons_trace rfl, hshape]
          exact openLog_told env base c.graph _ _ job name
        | panic e =>
          simp only [List.append_nil]
          rw [told_cons_trace rfl, hshape]
          exact openLog_told env base c.graph _ _ job name
      · rw [if_neg hp]
        cases ho : c.openOutput env w job with
        | mk r w1 =>
          cases r with
          | error e => rfl
          | ok s => exact absurd ((opens_iff hbase).1 ⟨s, w1, ho⟩) hp
    cases s with
    | ok s =>
      have he : e = .done := hj.1.symm
      rw [if_pos he, run_records log name hr, told_append, told_cons_trace (r := ⟨ctrlFile, 320, .trace, _⟩) rfl]
      unfold doneLog
      congr 1
      · rw [hshape]; exact openLog_told env base c.graph _ _ job name
      · have hv := C23_verdict hr
        rw [findsFault_iff hn] at hv
        unfold verdictText
        cases s with
        | success => rw [if_neg (hv.2.1 rfl)]; rfl
        | errorsDetected => rw [if_pos (hv.1.1 rfl)]; rfl
    | err er => exact stopped (fun s w' h => by cases h) (by rw [← hj.1]; intro h; cases h)
    | panic p => exact stopped (fun s w' h => by cases h) (by rw [← hj.1]; intro h; cases h)

open Classical in
theorem runEach_told (hn : Controller.new env w0 config base = .ok c) (js : List Job) : ∀ (ns : List Str) (w w1 : World),
    ns.length = js.length → JobsRun env base c.graph js w .done w1 → ∀ more,
    told (Log.runEach env log c (js.zip ns ++ more) w) =
      (ns.zip js).flatMap (doneLog env base c.graph) ++ told (Log.runEach env log c more w1) := by
  induction js with
  | nil =>
    intro ns w w1 hlen hrun more
    have : ns = [] := List.length_eq_zero_iff.1 hlen
    subst this
    generalize he : JobEnd.done = e at hrun
    cases hrun
    rfl
  | cons j js ih =>
    intro ns w w1 hlen hrun more
    cases ns with
    | nil => cases hlen
    | cons n ns =>
      generalize he : JobEnd.done = e at hrun
      cases hrun with
      | stop hne _ => exact absurd he.symm hne
      | @next _ _ _ wm _ _ h1 h2 =>
        subst he
        have hj := (jobRuns_iff hn).2 h1
        rw [List.zip_cons_cons, List.zip_cons_cons, List.cons_append, List.flatMap_cons]
        have hu : ∀ l, Log.runEach env log c ((j, n) :: l) w = Log.run env log c w j n ++
            (match c.run env w j with
            | (.ok _, w) => Log.runEach env log c l w
            | _ => []) := fun _ => rfl
        rw [hu, told_append, run_told log hn n h1, if_pos rfl, List.append_assoc]
        congr 1
        cases hr : c.run env w j with
        | mk s w3 =>
          rw [hr] at hj
          obtain ⟨hj1, rfl⟩ := hj
          cases s with
          | err _ => cases hj1
          | panic _ => cases hj1
          | ok s => exact ih ns w3 w1 (by simpa using hlen) h2 more

open Classical in
theorem runEach_stopped (hn : Controller.new env w0 config base = .ok c) {j : Job} {w w' : World} {e : JobEnd} (name : Str)
    (h : JobRuns env base c.graph j w e w') (he : e ≠ .done) (more : List (Job × Str)) :
    told (Log.runEach env log c ((j, name) :: more) w) =
      if Opens env base j w then openLog env base c.graph name j else [] := by
  have hj := (jobRuns_iff hn).2 h
  unfold Log.runEach
  rw [told_append, run_told log hn name h, if_neg he]
  cases hr : c.run env w j with
  | mk s w3 =>
    rw [hr] at hj
    cases s with
    | ok s => exact absurd hj.1.symm he
    | err _ => exact List.append_nil _
    | panic _ => exact List.append_nil _

/-! ## TRACE -/

theorem debugQuery_eq (q : Query) : debugQuery q = queryShown q := by cases q <;> rfl

theorem debugFormat_eq (f : Format) : debugFormat env log f = formatShown env log f := by
  cases f with
  | templateString s => unfold debugFormat formatShown; simp only [debugStr_eq]
  | _ => rfl

theorem debugJob_eq (job : Job) : debugJob env log job = jobShown env log job := by
  unfold debugJob jobShown
  rw [debugQuery_eq, debugFormat_eq]
  cases job with
  | mk q f file s =>
    cases s with
    | none => rfl
    | some b => cases b <;> rfl

theorem debugRelation_eq (rel : Relation) : env.fmt.debugRelation rel = relationShown env rel := by
  unfold FmtEnv.debugRelation relationShown
  rw [debugId_eq, joinStr_intercalate, List.map_congr_left (fun a _ => debugId_eq env.fmt a)]

theorem said_trace_cons {r : Record} (h : r.level = .trace) (rs : List Record) :
    said (ofLevel .trace (r :: rs)) = (.trace, r.text) :: said (ofLevel .trace rs) := by
  simp [ofLevel, said, h]

theorem run_trace (c : Controller) (w : World) (job : Job) (name : Str) : said (ofLevel .trace (Log.run env log c w job name)) =
    [(.trace, c!"Job " ++ name ++ c!" " ++ jobShown env log job)] := by
  rw [← debugJob_eq]
  have hc : ∀ (r : Record) rs, r.level = .trace → Without .trace rs → said (ofLevel .trace (r :: rs)) = [(.trace, r.text)] := by
    intro r rs h1 h2
    rw [said_trace_cons h1, h2.ofLevel]
    rfl
  have hw : Without .trace (writing env c job name :: reasons env c job.query) :=
    .cons (by rw [writing_info]; intro h; cases h) ((reasons_debug env c job.query).without (fun h => by cases h))
  unfold Log.run
  cases ho : c.openOutput env w job with
  | mk r w1 =>
    cases r with
    | error e => exact hc _ _ rfl (.nil _)
    | ok sink =>
      cases hr : c.run env w job with
      | mk s w2 =>
        cases s with
        | ok s =>
          refine hc _ _ rfl (hw.append ?_)
          intro r hr
          cases List.mem_singleton.1 hr
          cases s <;> (intro h; cases h)
        | err e => exact hc _ _ rfl (hw.append (.nil _))
        | panic p => exact hc _ _ rfl (hw.append (.nil _))

/-- The jobs that are begun are those that are done and the one that is not. -/
theorem runEach_trace (hn : Controller.new env w0 config base = .ok c) (done : List Job) : ∀ (ns : List Str) (w w1 : World),
    ns.length = done.length → JobsRun env base c.graph done w .done w1 → ∀ more,
    said (ofLevel .trace (Log.runEach env log c (done.zip ns ++ more) w)) =
      (ns.zip done).map (fun e => (.trace, c!"Job " ++ e.1 ++ c!" " ++ jobShown env log e.2)) ++
        said (ofLevel .trace (Log.runEach env log c more w1)) := by
  induction done with
  | nil =>
    intro ns w w1 hlen hrun more
    have : ns = [] := List.length_eq_zero_iff.1 hlen
    subst this
    generalize he : JobEnd.done = e at hrun
    cases hrun
    rfl
  | cons j js ih =>
    intro ns w w1 hlen hrun more
    cases ns with
    | nil => cases hlen
    | cons n ns =>
      generalize he : JobEnd.done = e at hrun
      cases hrun with
      | stop hne _ => exact absurd he.symm hne
      | @next _ _ _ wm _ _ h1 h2 =>
        subst he
        have hj := (jobRuns_iff hn).2 h1
        rw [List.zip_cons_cons, List.zip_cons_cons, List.cons_append, List.map_cons]
        have hu : ∀ l, Log.runEach env log c ((j, n) :: l) w = Log.run env log c w j n ++
            (match c.run env w j with
            | (.ok _, w) => Log.runEach env log c l w
            | _ => []) := fun _ => rfl
        rw [hu, ofLevel_append, said_append, run_trace, List.cons_append, List.cons_append, List.nil_append]
        congr 1
        cases hr : c.run env w j with
        | mk s w3 =>
          rw [hr] at hj
          obtain ⟨hj1, rfl⟩ := hj
          cases s with
          | err _ => cases hj1
          | panic _ => cases hj1
          | ok s => exact ih ns w3 w1 (by simpa using hlen) h2 more

theorem runEach_trace_stopped (hn : Controller.new env w0 config base = .ok c) {j : Job} {w w' : World} {e : JobEnd} (name : Str)
    (h : JobRuns env base c.graph j w e w') (he : e ≠ .done) (more : List (Job × Str)) :
    said (ofLevel .trace (Log.runEach env log c ((j, name) :: more) w)) =
      [(.trace, c!"Job " ++ name ++ c!" " ++ jobShown env log j)] := by
  have hj := (jobRuns_iff hn).2 h
  unfold Log.runEach
  rw [ofLevel_append, said_append, run_trace]
  cases hr : c.run env w j with
  | mk s w3 =>
    rw [hr] at hj
    cases s with
    | ok s => exact absurd hj.1.symm he
    | err _ => rfl
    | panic _ => rfl

theorem traceRelations_trace (rels : List Relation) : ∀ (t t' : Tracer), rels.foldlM traceRelation t = .ok t' →
    said (ofLevel .trace (traceRelations env log t rels)) = rels.map (fun rel => (.trace, c!"Trace " ++ relationShown env rel)) := by
  induction rels with
  | nil => intro t t' h; rfl
  | cons rel rels ih =>
    intro t t' h
    rw [List.foldlM_cons] at h
    obtain ⟨t1, h1, h2⟩ := bind_ok h
    have h1' := h1
    obtain ⟨ta, h3, h4⟩ := bind_ok h1
    obtain ⟨acc, h5, h6⟩ := bind_ok h4
    have h3 := orPanic_ok h3
    unfold traceRelations
    rw [h3]
    simp only
    rw [h5]
    simp only
    rw [h1']
    simp only
    rw [said_trace_cons rfl, ofLevel_append, said_append, ih _ _ h2, debugRelation_eq, List.map_cons]
    congr 1
    cases acc.anyReqCovered <;> rfl

theorem validateLinks_trace (line : Nat) (step : Tracer → RequirementId × RequirementId → PanicM Tracer)
    (ls : List (RequirementId × RequirementId)) : ∀ t, Without .trace (validateLinks env log line step t ls) := by
  induction ls with
  | nil => intro t; exact .nil _
  | cons l ls ih =>
    intro t
    unfold validateLinks
    cases step t l with
    | error _ => exact .nil _
    | ok t' =>
      refine Without.append ?_ (ih t')
      intro r hr
      obtain ⟨e, _, rfl⟩ := List.mem_map.1 hr
      intro h; cases h

theorem new_trace (hn : Controller.new env w0 config base = .ok c) :
    said (ofLevel .trace (Log.new env log w0 config base)) =
      c.graph.relations.map (fun rel => (.trace, c!"Trace " ++ relationShown env rel)) := by
  obtain ⟨roots, h1, h2, h3, h4, -⟩ := new_ok hn
  obtain ⟨es, h5, h6⟩ := makeArtefacts_said env log config.artefacts (makeArtefacts_ok _ _ _ h2).1
  unfold Log.new
  rw [h1]
  simp only
  rw [h2]
  simp only
  have hg : ({ artefacts := c.graph.artefacts, relations := config.relations } : Graph) = c.graph := by rw [← h3]
  rw [hg, ofLevel_append, said_append, ofLevel_none (allOf_of_said h6) (fun h => by cases h)]
  show [] ++ _ = _
  rw [List.nil_append]
  obtain ⟨t3, h1, h2⟩ := bind_ok h4
  obtain ⟨t1, h3, h4⟩ := bind_ok (show Tracer.new c.graph = .ok t3 from h1)
  obtain ⟨t2, h5, h6⟩ := bind_ok (show validate t1 = .ok t3 from h4)
  unfold Log.trace
  simp only
  rw [h3]
  simp only
  rw [show validateUpwards t1 = .ok t2 from h5]
  simp only
  rw [ofLevel_append, said_append, traceRelations_trace log _ _ _ h3,
    ((validateLinks_trace log 307 validateUpward _ t1).append (validateLinks_trace log 328 validateDownward _ t2)).ofLevel]
  exact List.append_nil _

end

/-! ## The program -/

theorem indent_quoted (env : FmtEnv) (s : Str) : indent (quoted env s) = c!"    " ++ quoted env s := by
  have := shift_indent 0 (quoted env s)
  rw [shift_noLf 1 (quoted_noLf env s)] at this
  rw [← this]
  unfold shift
  have h : ∀ t : Str, t.flatMap (fun c => if c = '\n' then '\n' :: List.replicate (4 * 0) ' ' else [c]) = t := by
    intro t
    induction t with
    | nil => rfl
    | cons c t ih =>
      rw [List.flatMap_cons, ih]
      by_cases hc : c = '\n' <;> simp [hc]
  exact (h _).symm

theorem refusal_eq (env : Env) (kind text : Str) :
    (Level.info, c!"found problem " ++ (Dbg.tuple kind [dbgStr env text]).pretty) = refusal env kind text := by
  unfold refusal Dbg.pretty prettyList dbgStr Dbg.pretty prettyList
  rw [debugStr_eq, indent_quoted]
  simp [List.append_assoc]

section
variable {env : Env} (log : LogEnv) {opt : Arguments} {w : World} {config : Config} {c : Controller}

/-- What follows on the records of `try_main`. -/
def lastRecord : Controller.Res JobSuccess → List Record
  | .err e => [⟨mainFile, 127, .error, e.display⟩]
  | _ => []

theorem mainRc_eq (hg : GoodConfig env w opt.configFile config) (hn : Controller.new env w config opt.baseDir = .ok c) :
    Log.mainRc env log opt w = ⟨mainFile, 62, .info, c!"using config file " ++ opt.configFile⟩ ::
      (Log.new env log w config opt.baseDir ++
        ((if opt.jobs = [] then [⟨ctrlFile, 266, .trace, c!"Running default jobs"⟩] else []) ++
          ((if requested config opt = [] then [⟨ctrlFile, 271, .info, c!"found problem " ++
              (dbgControllerError env log (.config c!"no default_jobs configured")).pretty⟩]
            else Log.runJobsByName env log c (requested config opt) w) ++
          lastRecord (if requested config opt = [] then .err (.config c!"no default_jobs configured")
            else (c.runJobsByName env (requested config opt) w).1)))) := by
  have hdef : c.defaultJobs = config.defaultJobs.getD [] := by rw [new_shape hn]
  have hc := (getConfig_ok ..).2 hg
  have hlast : Log.mainRc env log opt w = Log.tryMain env log opt w ++ lastRecord (Main.runCliJobs env c opt w).1 := by
    unfold Log.mainRc Main.tryMain
    rw [hc]
    simp only
    rw [hn]
    simp only
    cases Main.runCliJobs env c opt w with
    | mk r w => cases r <;> rfl
  rw [hlast]
  unfold Log.tryMain
  rw [hc]
  simp only
  rw [hn]
  simp only
  rw [List.cons_append, List.append_assoc]
  congr 2
  unfold Log.runCliJobs Main.runCliJobs Log.runDefaultJobs Controller.runDefaultJobs requested
  rw [hdef]
  by_cases h1 : opt.jobs = []
  · simp only [h1, ↓reduceIte, List.cons_append, List.nil_append]
    by_cases h2 : config.defaultJobs.getD [] = []
    · simp only [h2, ↓reduceIte, ne_eq, not_true_eq_false, List.cons_append, List.nil_append]
    · simp only [h2, ↓reduceIte, ne_eq, not_false_eq_true]
  · simp only [h1, ↓reduceIte, List.nil_append]

/-- What is told up to the jobs. -/
theorem mainRc_told (hg : GoodConfig env w opt.configFile config) (hn : Controller.new env w config opt.baseDir = .ok c) :
    ∃ es, ReadLog env w opt.baseDir config.artefacts es ∧ told (Log.mainRc env log opt w) =
      beginning env log opt c.graph es ++
        (told (if requested config opt = [] then [⟨ctrlFile, 271, .info, c!"found problem " ++
              (dbgControllerError env log (.config c!"no default_jobs configured")).pretty⟩]
            else Log.runJobsByName env log c (requested config opt) w) ++
          told (lastRecord (if requested config opt = [] then .err (.config c!"no default_jobs configured")
            else (c.runJobsByName env (requested config opt) w).1))) := by
  obtain ⟨es, h1, h2⟩ := C117_exactly_partial env log hn
  refine ⟨es, h1, ?_⟩
  rw [mainRc_eq log hg hn, told_cons (fun h => by cases h), told_append, told_append, told_append, new_told, h2]
  have : told (if opt.jobs = [] then [⟨ctrlFile, 266, .trace, c!"Running default jobs"⟩] else []) = [] := by
    split <;> rfl
  rw [this, List.nil_append, new_shape hn]
  rfl

theorem log_runJobs {js : List Job} (hf : c.findJobs (requested config opt) = .ok js) {r : Controller.Res JobSuccess} {w' : World}
    (hr : c.runEach env js .success w = (r, w')) :
    (c.runJobsByName env (requested config opt) w).1 = r ∧
    Log.runJobsByName env log c (requested config opt) w = Log.runEach env log c (js.zip (requested config opt)) w ++
      (match r with
      | .ok s => [⟨ctrlFile, 309, .info, c!"ran " ++ natStr js.length ++ c!" jobs in " ++ natStr (log.elapsed w') ++
        c!"ms, result: " ++ debugSuccess s⟩]
      | _ => []) := by
  have hj := (findJobs_ok ..).1 hf
  have hlen := hj.length
  have hrun : c.runJobs env js (requested config opt) w = (r, w') := by
    unfold Controller.runJobs
    rw [List.map_fst_zip (by rw [hlen]; exact Nat.le_refl _), hr]
  unfold Log.runJobsByName Controller.runJobsByName
  rw [hf]
  simp only
  rw [hrun]
  refine ⟨rfl, ?_⟩
  unfold Log.runJobs
  rw [hrun]
  cases r <;> simp [hlen]

theorem jobsRun_stopped {base : Path} {g : Graph} {done : List Job} {j : Job} {w w1 w2 : World} {d e : JobEnd} (more : List Job)
    (hr : JobsRun env base g done w d w1) (hd : d = .done) (hs : JobRuns env base g j w1 e w2) (he : e ≠ .done) :
    JobsRun env base g (done ++ j :: more) w e w2 := by
  induction hr with
  | nil => exact .stop he hs
  | next h _ ih => exact .next h (ih hd hs)
  | stop hne _ => exact absurd hd hne

/-! ## C123 -/

/-- **C123** If there is no configuration, nothing is logged but the name of its file and the complaint. -/
theorem C123_bad_config {m : Str} (h : ConfigComplaint env w opt.configFile m) :
    said (Log.mainRc env log opt w) = [(.info, c!"using config file " ++ opt.configFile), (.error, m)] := by
  have hc := configComplaint_iff.2 h
  unfold Log.mainRc Log.tryMain Main.tryMain
  rw [hc]
  rfl

theorem controller_of_input {g : Graph} (hi : IsInput env w config opt.baseDir g) :
    ∃ c, Controller.new env w config opt.baseDir = .ok c ∧ c.graph = g :=
  ⟨_, (C82_controller env w config opt.baseDir _).2 ⟨g, hi, rfl⟩, rfl⟩

/-- **C123** If no jobs are requested: the problems that are found, and the complaint. -/
theorem C123_no_jobs (hg : GoodConfig env w opt.configFile config) {g : Graph} (hi : IsInput env w config opt.baseDir g)
    (hq : requested config opt = []) : ∃ es, ReadLog env w opt.baseDir config.artefacts es ∧
      told (Log.mainRc env log opt w) = beginning env log opt g es ++
        [refusal env c!"Config" c!"no default_jobs configured", (.error, c!"Config Error: no default_jobs configured")] := by
  obtain ⟨c, hn, rfl⟩ := controller_of_input hi
  obtain ⟨es, h1, h2⟩ := mainRc_told log hg hn
  refine ⟨es, h1, ?_⟩
  rw [h2, if_pos hq, if_pos hq, ← refusal_eq]
  rfl

/-- **C123** If a job is requested that there is not: the problems that are found, and the complaint. -/
theorem C123_unknown_job (hg : GoodConfig env w opt.configFile config) {g : Graph} (hi : IsInput env w config opt.baseDir g)
    {pre post : List Str} {n : Str} {js : List Job} (hq : requested config opt = pre ++ n :: post)
    (hpre : JobsOf (config.jobs.getD .empty) pre js) (hno : (config.jobs.getD .empty).get n = none) :
    ∃ es, ReadLog env w opt.baseDir config.artefacts es ∧
      told (Log.mainRc env log opt w) = beginning env log opt g es ++
        [refusal env c!"UnknownJob" n, (.error, c!"Unknown Job " ++ n)] := by
  obtain ⟨c, hn, rfl⟩ := controller_of_input hi
  obtain ⟨es, h1, h2⟩ := mainRc_told log hg hn
  have hjobs : c.jobs = config.jobs.getD .empty := by rw [new_shape hn]
  have hne : requested config opt ≠ [] := by rw [hq]; intro h; simp at h
  refine ⟨es, h1, ?_⟩
  have hf : c.findJobs (requested config opt) = .error (.unknownJob n) := by
    refine (findJobs_err ..).2 ⟨pre, n, post, hq, ?_, by rw [hjobs]; exact hno, rfl⟩
    rw [hjobs]
    clear hq
    induction hpre with
    | nil => intro m hm; cases hm
    | cons h _ ih =>
      intro m hm
      rcases List.mem_cons.1 hm with rfl | hm
      · rw [h]; rfl
      · exact ih m hm
  rw [h2, if_neg hne, if_neg hne, ← refusal_eq]
  unfold Log.runJobsByName Controller.runJobsByName
  rw [hf]
  rfl

open Classical in
/-- **C123** If all the jobs are done: the problems that are found, then for each job where its report goes, what is wrong
and the verdict, then the number of jobs and the result. -/
theorem C123_done (hg : GoodConfig env w opt.configFile config) {g : Graph} (hi : IsInput env w config opt.baseDir g)
    (hq : requested config opt ≠ []) {js : List Job} (hj : JobsOf (config.jobs.getD .empty) (requested config opt) js)
    {w' : World} (hr : JobsRun env opt.baseDir g js w .done w') :
    ∃ es, ReadLog env w opt.baseDir config.artefacts es ∧
      told (Log.mainRc env log opt w) = beginning env log opt g es ++
        ((requested config opt).zip js).flatMap (doneLog env opt.baseDir g) ++ [(.info, ranText log g js w')] := by
  obtain ⟨c, hn, rfl⟩ := controller_of_input hi
  obtain ⟨es, h1, h2⟩ := mainRc_told log hg hn
  have hjobs : c.jobs = config.jobs.getD .empty := by rw [new_shape hn]
  rw [← hjobs] at hj
  refine ⟨es, h1, ?_⟩
  have he := (jobsRun_iff hn js (worst := .success)).2 hr
  cases hre : c.runEach env js .success w with
  | mk r w1 =>
    rw [hre] at he
    obtain ⟨he1, rfl⟩ := he
    cases r with
    | err _ => cases he1
    | panic _ => cases he1
    | ok s =>
      obtain ⟨h3, h4⟩ := log_runJobs log ((findJobs_ok ..).2 hj) hre
      have h5 := runEach_told log hn js (requested config opt) w w1 (jobsOf_length hj) hr []
      rw [List.append_nil] at h5
      rw [h2, if_neg hq, if_neg hq, h3, h4, told_append, h5]
      have hs := (runEach_ok js hre).2
      have hiff : s = .errorsDetected ↔ ∃ j ∈ js, Sets j ∧ FindsFault c.graph j := by
        rw [hs]
        simp only [reduceCtorEq, false_or]
        have : ∀ j, Detects c j ↔ FindsFault c.graph j := fun j => by rw [findsFault_iff hn]
        simp only [this]
      simp only [List.append_assoc]
      refine app_congr rfl (app_congr rfl ?_)
      unfold ranText
      cases s with
      | success => rw [if_neg (fun h => by cases hiff.2 h)]; simp only [List.append_assoc]; rfl
      | errorsDetected => rw [if_pos (hiff.1 rfl)]; simp only [List.append_assoc]; rfl

open Classical in
/-- **C123** If a job is not done: the problems that are found, the jobs that are done, that the report is begun if its
output can be opened, and the complaint if there is one. -/
theorem C123_stopped (hg : GoodConfig env w opt.configFile config) {g : Graph} (hi : IsInput env w config opt.baseDir g)
    {ns ms : List Str} {n : Str} (hq : requested config opt = ns ++ n :: ms) {done more : List Job} {j : Job}
    (hj : JobsOf (config.jobs.getD .empty) (requested config opt) (done ++ j :: more)) (hlen : ns.length = done.length)
    {w1 w2 : World} {e : JobEnd} (hr : JobsRun env opt.baseDir g done w .done w1) (hs : JobRuns env opt.baseDir g j w1 e w2)
    (he : e ≠ .done) : ∃ es, ReadLog env w opt.baseDir config.artefacts es ∧
      told (Log.mainRc env log opt w) = beginning env log opt g es ++ (ns.zip done).flatMap (doneLog env opt.baseDir g) ++
        (if Opens env opt.baseDir j w1 then openLog env opt.baseDir g n j else []) ++
        (match e with | .failed m => [(.error, m)] | _ => []) := by
  obtain ⟨c, hn, rfl⟩ := controller_of_input hi
  obtain ⟨es, h1, h2⟩ := mainRc_told log hg hn
  have hjobs : c.jobs = config.jobs.getD .empty := by rw [new_shape hn]
  have hne : requested config opt ≠ [] := by rw [hq]; intro h; simp at h
  rw [← hjobs] at hj
  refine ⟨es, h1, ?_⟩
  have hall := jobsRun_stopped more hr rfl hs he
  have hend := (jobsRun_iff hn _ (worst := .success)).2 hall
  cases hre : c.runEach env (done ++ j :: more) .success w with
  | mk r w3 =>
    rw [hre] at hend
    obtain ⟨he1, rfl⟩ := hend
    obtain ⟨h3, h4⟩ := log_runJobs log ((findJobs_ok ..).2 hj) hre
    have hzip : (done ++ j :: more).zip (requested config opt) = done.zip ns ++ (j, n) :: more.zip ms := by
      rw [hq, List.zip_append hlen.symm, List.zip_cons_cons]
    have h5 := runEach_told log hn done ns w w1 hlen hr ((j, n) :: more.zip ms)
    rw [runEach_stopped log hn n hs he] at h5
    rw [h2, if_neg hne, if_neg hne, h3, h4, told_append, hzip, h5]
    simp only [List.append_assoc]
    congr 3
    cases r with
    | ok s => exact absurd he1.symm he
    | err er => cases he1; rfl
    | panic p => cases he1; rfl

theorem append_said_trace (ts us : List Str) : (ts ++ us).map (fun t => (Level.trace, t)) =
    ts.map (fun t => (Level.trace, t)) ++ us.map (fun t => (Level.trace, t)) := List.map_append

/-- **C123** At level TRACE there are the relations, that the default jobs are run, and the jobs that are begun. -/
theorem C123_trace (hg : GoodConfig env w opt.configFile config) {g : Graph} (hi : IsInput env w config opt.baseDir g)
    {js done rest : List Job} (hj : JobsOf (config.jobs.getD .empty) (requested config opt) js) (hq : js ≠ [])
    (hd : js = done ++ rest) {w1 : World} (hr : JobsRun env opt.baseDir g done w .done w1)
    (hs : ∀ j more, rest = j :: more → ∃ e w2, e ≠ .done ∧ JobRuns env opt.baseDir g j w1 e w2) :
    said (ofLevel .trace (Log.mainRc env log opt w)) =
      (traceTexts env log opt g ((requested config opt).zip (done ++ rest.take 1))).map fun t => (.trace, t) := by
  obtain ⟨c, hn, rfl⟩ := controller_of_input hi
  have hjobs : c.jobs = config.jobs.getD .empty := by rw [new_shape hn]
  have hlen := jobsOf_length hj
  have hne : requested config opt ≠ [] := by
    intro h
    rw [h] at hlen
    exact hq (List.length_eq_zero_iff.1 hlen.symm)
  rw [← hjobs] at hj
  have hf := (findJobs_ok ..).2 hj
  have hpost : ∃ post, Log.runJobsByName env log c (requested config opt) w =
      Log.runEach env log c (js.zip (requested config opt)) w ++ post ∧ Without .trace post := by
    cases hre : c.runEach env js .success w with
    | mk r w3 =>
      obtain ⟨-, h4⟩ := log_runJobs log hf hre
      refine ⟨_, h4, ?_⟩
      cases r with
      | ok s => exact .cons (fun h => by cases h) (.nil _)
      | err _ => exact .nil _
      | panic _ => exact .nil _
  obtain ⟨post, h4, h5⟩ := hpost
  have hlast : Without .trace (lastRecord (c.runJobsByName env (requested config opt) w).1) := by
    cases (c.runJobsByName env (requested config opt) w).1 with
    | err _ => exact .cons (fun h => by cases h) (.nil _)
    | ok _ => exact .nil _
    | panic _ => exact .nil _
  rw [mainRc_eq log hg hn, if_neg hne, if_neg hne, h4]
  have husing : ∀ rs : List Record, ofLevel .trace (⟨mainFile, 62, .info, c!"using config file " ++ opt.configFile⟩ :: rs) =
      ofLevel .trace rs := fun rs => by simp [ofLevel]
  rw [husing, ofLevel_append, ofLevel_append, ofLevel_append, ofLevel_append, h5.ofLevel, hlast.ofLevel, List.append_nil,
    List.append_nil, said_append, said_append, new_trace log hn]
  unfold traceTexts
  rw [append_said_trace, append_said_trace, List.append_assoc, List.map_map, List.map_map]
  refine app_congr rfl (app_congr ?_ ?_)
  · by_cases h : opt.jobs = [] <;> simp [h, ofLevel, said]
  · subst hd
    cases rest with
    | nil =>
      rw [List.append_nil] at hlen
      have := runEach_trace log hn done (requested config opt) w w1 hlen hr []
      rw [List.append_nil] at this
      rw [List.append_nil, this]
      show _ ++ [] = _
      rw [List.append_nil]
      simp
    | cons j more =>
      obtain ⟨e, w2, he, hjr⟩ := hs j more rfl
      obtain ⟨ns, rest, hsplit, hl⟩ : ∃ ns rest, requested config opt = ns ++ rest ∧ ns.length = done.length :=
        ⟨(requested config opt).take done.length, (requested config opt).drop done.length, (List.take_append_drop ..).symm,
          by rw [List.length_take, hlen]; simp⟩
      rw [hsplit] at hlen ⊢
      cases rest with
      | nil => simp at hlen; omega
      | cons n ms =>
        rw [List.zip_append hl.symm, List.zip_append hl, List.zip_cons_cons,
          runEach_trace log hn done ns w w1 hl hr, runEach_trace_stopped log hn n hjr he]
        simp

end

open CtrlExample in
/-- What is logged at TRACE when the default jobs of the example project are run; the end of the log if the second job
cannot be run, after the first is done; and if there is no such job. -/
example : (Main.main (env RustExample.file CtrlExample.config) args (world files)).1 = 1 ∧
    (Log.mainRc (env RustExample.file CtrlExample.config) LogExample.log args (world files)).filterMap
      (fun r => if r.level = .trace then some r.text else none) =
      [c!"Trace Relation { upper: ArtefactId(\"REQ\"), lower: [ArtefactId(\"CODE\")] }", c!"Running default jobs",
       c!"Job trace Job { query: Trace, format: GnuError, file: \"out/trace.txt\", set_return_code: None }"] ∧
    ((told (Log.mainRc (env RustExample.file CtrlExample.config) LogExample.log { args with jobs := [c!"export", c!"tags"] }
      (world files))).drop 5).filter (fun r => r.1 ≠ .debug) =
      [(.info, c!"writing \"export\" to stdout"),
       (.warn, c!"Job export detected Errors"),
       (.info, c!"writing tags to /tags")] ∧
    (told (Log.mainRc (env RustExample.file CtrlExample.config) LogExample.log { args with jobs := [c!"export", c!"x"] }
      (world files))).drop 5 =
      [(.info, c!"found problem UnknownJob(\n    \"x\",\n)"), (.error, c!"Unknown Job x")] := by
  decide +kernel

end Reqtrace
