import Verif.Props.Controller

/-!
# C23–C29, C57, C66: running jobs, and the exit code
-/

namespace Reqtrace

open Spec CtrlExample Controller

/-! ## C23 -/

theorem not_isEmpty_iff {α : Type} (l : List α) : (!l.isEmpty) = true ↔ ∃ a, a ∈ l := by
  cases l with
  | nil => simp
  | cons a t => exact ⟨fun _ => ⟨a, List.mem_cons_self ..⟩, fun _ => rfl⟩

theorem parseProblem_iff (m : BMap ArtefactId Artefact) :
    m.values.any (fun art => !art.errors.isEmpty) = true ↔ ParseProblem m := by
  rw [List.any_eq_true]
  simp only [not_isEmpty_iff, BMap.mem_values_iff]
  exact ⟨fun ⟨art, ⟨a, h1⟩, e, h2⟩ => ⟨a, art, e, h1, h2⟩, fun ⟨a, art, e, h1, h2⟩ => ⟨art, ⟨a, h1⟩, e, h2⟩⟩

theorem verdict_iff (c : Controller) (job : Job) : c.verdict job.query = .errorsDetected ↔ Detects c job := by
  unfold verdict Detects
  cases job.query with
  | parse =>
    simp only
    rw [← parseProblem_iff]
    split <;> simp_all
  | trace =>
    simp only
    have : TraceProblem c.tracedGraph ↔ (!c.tracedGraph.errors.isEmpty ||
        c.tracedGraph.artefacts.values.any (fun art => !art.errors.isEmpty) ||
        c.tracedGraph.tracedRelations.any (fun rel => !rel.uncovered.isEmpty) ||
        c.tracedGraph.derived.values.any (fun a => !a.isEmpty)) = true := by
      unfold TraceProblem
      rw [← parseProblem_iff, Bool.or_eq_true, Bool.or_eq_true, Bool.or_eq_true, not_isEmpty_iff, or_assoc, or_assoc,
        List.any_eq_true, List.any_eq_true]
      simp only [not_isEmpty_iff]
      refine or_congr Iff.rfl (or_congr Iff.rfl (or_congr Iff.rfl ?_))
      rw [List.any_eq_true]
      simp only [not_isEmpty_iff, BMap.mem_values_iff]
      exact ⟨fun ⟨a, ids, r, h1, h2⟩ => ⟨ids, ⟨a, h1⟩, r, h2⟩, fun ⟨ids, ⟨a, h1⟩, r, h2⟩ => ⟨a, ids, r, h1, h2⟩⟩
    rw [this]
    generalize (!c.tracedGraph.errors.isEmpty ||
        c.tracedGraph.artefacts.values.any (fun art => !art.errors.isEmpty) ||
        c.tracedGraph.tracedRelations.any (fun rel => !rel.uncovered.isEmpty) ||
        c.tracedGraph.derived.values.any (fun a => !a.isEmpty)) = b
    cases b <;> simp

/-- What a run of a job is made of. -/
theorem run_cases (env : Env) (c : Controller) (w : World) (job : Job) :
    (∃ e w1, c.openOutput env w job = (.error e, w1) ∧ c.run env w job = (.err e, w1)) ∨
    ∃ sink w1, c.openOutput env w job = (.ok sink, w1) ∧
      ((∃ e w2, env.os.write w1 sink (Utf8.encode (c.output env job).text) = (some e, w2) ∧
          c.run env w job = (.err (.io job.file e), w2)) ∨
       (∃ w2, env.os.write w1 sink (Utf8.encode (c.output env job).text) = (none, w2) ∧
          ((∃ p, (c.output env job).panic = some p ∧ c.run env w job = (.panic p, w2)) ∨
           ((c.output env job).panic = none ∧ c.run env w job = (.ok (c.verdict job.query), w2))))) := by
  unfold run
  cases ho : c.openOutput env w job with
  | mk r w1 =>
    cases r with
    | error e => exact .inl ⟨e, w1, rfl, rfl⟩
    | ok sink =>
      refine .inr ⟨sink, w1, rfl, ?_⟩
      cases hw : env.os.write w1 sink (Utf8.encode (c.output env job).text) with
      | mk r w2 =>
        cases r with
        | some e => exact .inl ⟨e, w2, rfl, by simp only [hw]⟩
        | none =>
          refine .inr ⟨w2, rfl, ?_⟩
          cases hp : (c.output env job).panic with
          | some p => exact .inl ⟨p, rfl, by simp only [hw, hp]⟩
          | none => exact .inr ⟨rfl, by simp only [hw, hp]⟩

theorem run_ok {env : Env} {c : Controller} {w w' : World} {job : Job} {s : JobSuccess}
    (h : c.run env w job = (.ok s, w')) :
    s = c.verdict job.query ∧ (c.output env job).panic = none ∧
      ∃ sink w1, c.openOutput env w job = (.ok sink, w1) ∧ env.os.write w1 sink (Utf8.encode (c.output env job).text) = (none, w') := by
  rcases run_cases env c w job with ⟨e, w1, _, h2⟩ | ⟨sink, w1, h1, ⟨e, w2, _, h3⟩ | ⟨w2, h2, ⟨p, _, h4⟩ | ⟨h3, h4⟩⟩⟩
  · rw [h] at h2; cases h2
  · rw [h] at h3; cases h3
  · rw [h] at h4; cases h4
  · rw [h] at h4; cases h4
    exact ⟨rfl, h3, sink, w1, h1, h2⟩

/-- **C23** The verdict is exact. -/
theorem C23_verdict {env : Env} {c : Controller} {w w' : World} {job : Job} {s : JobSuccess}
    (h : c.run env w job = (.ok s, w')) :
    (s = .errorsDetected ↔ Detects c job) ∧ (s = .success ↔ ¬ Detects c job) := by
  obtain ⟨rfl, -⟩ := run_ok h
  rw [← verdict_iff]
  refine ⟨Iff.rfl, ?_⟩
  cases c.verdict job.query <;> simp

/-- In the example the trace job writes its report and detects errors. -/
example : ((Controller.new (env RustExample.file config) (world files) config c!"p").toOption.map
    (fun c => (c.run (env RustExample.file config) (world files) ⟨.trace, .gnuError, c!"out/trace.txt", none⟩).1)) =
      some (.ok .errorsDetected) := by decide +kernel

namespace CtrlExample

/-- A project without problems: one covered requirement. -/
def clean : Config :=
  ⟨none, [requirements, ⟨c!"CODE", [c!"a.rs"], .rust, none, none⟩], [⟨c!"REQ", [c!"CODE"]⟩], some jobs, none⟩

def cleanFiles : List (Path × Str) := [(c!"p/req.md", c!"# REQ_A: title a\n"), (c!"p/a.rs", c!"..."),
  (c!"requirements.toml", c!"...")]

def covering : Rs.Forest :=
  .item (.fn c!"f") 1 3 (.mac (RustExample.mark 1 [RustExample.ident c!"REQ_A" 1 31, RustExample.lit c!"," 1 36,
    RustExample.lit c!"\"title a\"" 1 38]) .nil) .nil

end CtrlExample

example : ((Controller.new (env covering clean) (world cleanFiles) clean c!"p").toOption.map
    (fun c => ((c.run (env covering clean) (world cleanFiles) ⟨.trace, .gnuError, c!"out/trace.txt", none⟩).1,
      (c.run (env covering clean) (world cleanFiles) ⟨.parse, .json, c!"-", none⟩).1))) =
      some (.ok .success, .ok .success) := by decide +kernel

/-! ## C24–C26 -/

theorem runEach_ok {env : Env} {c : Controller} (js : List Job) : ∀ {worst s : JobSuccess} {w w' : World},
    c.runEach env js worst w = (.ok s, w') →
      Done env c js w w' ∧ (s = .errorsDetected ↔ worst = .errorsDetected ∨ ∃ j ∈ js, Sets j ∧ Detects c j) := by
  induction js with
  | nil =>
    intro worst s w w' h
    cases h
    exact ⟨.nil _, by simp⟩
  | cons j js ih =>
    intro worst s w w' h
    unfold runEach at h
    cases hr : c.run env w j with
    | mk r w1 =>
      rw [hr] at h
      cases r with
      | err e => cases h
      | panic p => cases h
      | ok v =>
        have hv := C23_verdict hr
        cases v with
        | success =>
          simp only at h
          obtain ⟨h1, h2⟩ := ih h
          refine ⟨.cons hr h1, ?_⟩
          rw [h2]
          have hnd := hv.2.1 rfl
          constructor
          · rintro (h | ⟨j', h3, h4⟩)
            · exact .inl h
            · exact .inr ⟨j', List.mem_cons_of_mem _ h3, h4⟩
          · rintro (h | ⟨j', h3, h4, h5⟩)
            · exact .inl h
            · rcases List.mem_cons.1 h3 with rfl | h3
              · exact absurd h5 hnd
              · exact .inr ⟨j', h3, h4, h5⟩
        | errorsDetected =>
          simp only at h
          obtain ⟨h1, h2⟩ := ih h
          refine ⟨.cons hr h1, ?_⟩
          rw [h2]
          have hd := hv.1.1 rfl
          have hs : j.setReturnCode.getD true = true ↔ Sets j := by
            unfold Sets
            cases j.setReturnCode with
            | none => simp
            | some b => cases b <;> simp
          constructor
          · rintro (h | ⟨j', h3, h4⟩)
            · split at h
              · next hb => exact .inr ⟨j, List.mem_cons_self .., hs.1 hb, hd⟩
              · exact .inl h
            · exact .inr ⟨j', List.mem_cons_of_mem _ h3, h4⟩
          · rintro (h | ⟨j', h3, h4, h5⟩)
            · left; rw [h]; split <;> rfl
            · rcases List.mem_cons.1 h3 with rfl | h3
              · left; rw [if_pos (hs.2 h4)]
              · exact .inr ⟨j', h3, h4, h5⟩

theorem runEach_done {env : Env} {c : Controller} {js : List Job} {w w' : World} (h : Done env c js w w') :
    ∀ (more : List Job) (worst : JobSuccess), ∃ worst', c.runEach env (js ++ more) worst w = c.runEach env more worst' w' := by
  induction h with
  | nil w => intro more worst; exact ⟨worst, rfl⟩
  | cons hr _ ih =>
    intro more worst
    rename_i s _
    rw [List.cons_append]
    rw [runEach, hr]
    cases s with
    | success => exact ih more worst
    | errorsDetected => exact ih more _

theorem runEach_stop {env : Env} {c : Controller} (js : List Job) : ∀ {worst : JobSuccess} {r : Res JobSuccess} {w w' : World},
    c.runEach env js worst w = (r, w') → (∀ s, r ≠ .ok s) →
      ∃ pre j post w1, js = pre ++ j :: post ∧ Done env c pre w w1 ∧ c.run env w1 j = (r, w') := by
  induction js with
  | nil => intro worst r w w' h hr; cases h; exact absurd rfl (hr _)
  | cons j js ih =>
    intro worst r w w' h hne
    unfold runEach at h
    cases hr : c.run env w j with
    | mk v w1 =>
      rw [hr] at h
      cases v with
      | err e => cases h; exact ⟨[], j, js, w, rfl, .nil _, hr⟩
      | panic p => cases h; exact ⟨[], j, js, w, rfl, .nil _, hr⟩
      | ok s =>
        cases s <;>
        · simp only at h
          obtain ⟨pre, j', post, w2, rfl, h2, h3⟩ := ih h hne
          exact ⟨j :: pre, j', post, w2, rfl, .cons hr h2, h3⟩

theorem findJobs_ok (c : Controller) (ns : List Str) : ∀ js, c.findJobs ns = .ok js ↔ JobsOf c.jobs ns js := by
  induction ns with
  | nil =>
    intro js
    constructor
    · intro h; cases h; exact .nil
    · intro h; cases h; rfl
  | cons n ns ih =>
    intro js
    unfold findJobs findJob
    cases hn : c.jobs.get n with
    | none =>
      constructor
      · intro h; cases h
      · intro h; cases h with
        | cons h1 _ => rw [hn] at h1; cases h1
    | some j =>
      simp only
      cases hj : c.findJobs ns with
      | error e =>
        constructor
        · intro h; cases h
        · intro h; cases h with
          | cons h1 h2 => rw [(ih _).2 h2] at hj; cases hj
      | ok js' =>
        constructor
        · intro h; cases h; exact .cons hn ((ih js').1 hj)
        · intro h; cases h with
          | cons h1 h2 =>
            rw [hn] at h1; cases h1
            rw [(ih _).2 h2] at hj; cases hj; rfl

theorem findJobs_err (c : Controller) (ns : List Str) : ∀ e, c.findJobs ns = .error e ↔
    ∃ pre n post, ns = pre ++ n :: post ∧ (∀ m ∈ pre, (c.jobs.get m).isSome) ∧ c.jobs.get n = none ∧ e = .unknownJob n := by
  induction ns with
  | nil => intro e; simp [findJobs]
  | cons n ns ih =>
    intro e
    unfold findJobs findJob
    cases hn : c.jobs.get n with
    | none =>
      constructor
      · intro h; cases h; exact ⟨[], n, ns, rfl, by simp, hn, rfl⟩
      · rintro ⟨pre, m, post, h1, h2, h3, rfl⟩
        cases pre with
        | nil => cases h1; rfl
        | cons x pre =>
          cases h1
          have := h2 n (List.mem_cons_self ..)
          rw [hn] at this; cases this
    | some j =>
      simp only
      have hrw : (do let jobs ← c.findJobs ns; return j :: jobs) = Except.error e ↔ c.findJobs ns = .error e := by
        cases c.findJobs ns with
        | error e' => exact ⟨fun h => by cases h; rfl, fun h => by cases h; rfl⟩
        | ok js => exact ⟨fun h => (by cases h), fun h => (by cases h)⟩
      rw [hrw, ih e]
      constructor
      · rintro ⟨pre, m, post, rfl, h2, h3, rfl⟩
        refine ⟨n :: pre, m, post, rfl, ?_, h3, rfl⟩
        intro x hx
        rcases List.mem_cons.1 hx with rfl | hx
        · simp [hn]
        · exact h2 x hx
      · rintro ⟨pre, m, post, h1, h2, h3, rfl⟩
        cases pre with
        | nil => cases h1; rw [hn] at h3; cases h3
        | cons x pre =>
          cases h1
          exact ⟨pre, m, post, rfl, fun y hy => h2 y (List.mem_cons_of_mem _ hy), h3, rfl⟩

theorem Spec.JobsOf.length {jobs : BMap Str Job} {ns : List Str} {js : List Job} (h : JobsOf jobs ns js) :
    js.length = ns.length := by
  induction h with
  | nil => rfl
  | cons _ _ ih => simp [ih]

theorem Spec.JobsOf.mem {jobs : BMap Str Job} {ns : List Str} {js : List Job} (h : JobsOf jobs ns js) (j : Job) :
    j ∈ js ↔ ∃ n ∈ ns, jobs.get n = some j := by
  induction h with
  | nil => simp
  | cons h1 _ ih =>
    rw [List.mem_cons, ih]
    constructor
    · rintro (rfl | ⟨n, h2, h3⟩)
      · exact ⟨_, List.mem_cons_self .., h1⟩
      · exact ⟨n, List.mem_cons_of_mem _ h2, h3⟩
    · rintro ⟨n, h2, h3⟩
      rcases List.mem_cons.1 h2 with rfl | h2
      · rw [h1] at h3; cases h3; exact .inl rfl
      · exact .inr ⟨n, h2, h3⟩

theorem Spec.JobsOf.known {jobs : BMap Str Job} {ns : List Str} {js : List Job} (h : JobsOf jobs ns js) :
    ∀ n ∈ ns, ∃ j, jobs.get n = some j := by
  induction h with
  | nil => simp
  | cons h1 _ ih =>
    intro m hm
    rcases List.mem_cons.1 hm with rfl | hm
    · exact ⟨_, h1⟩
    · exact ih m hm

theorem Spec.JobsOf.unique {jobs : BMap Str Job} {ns : List Str} {js js' : List Job} (h : JobsOf jobs ns js)
    (h' : JobsOf jobs ns js') : js = js' := by
  induction h generalizing js' with
  | nil => cases h'; rfl
  | cons h1 _ ih =>
    cases h' with
    | cons h2 h3 => rw [h1] at h2; cases h2; rw [ih h3]

/-- Either a name is unknown, or the jobs of the names are run in order. -/
theorem runJobsByName_cases (env : Env) (c : Controller) (ns : List Str) (w : World) :
    (∃ pre n post, ns = pre ++ n :: post ∧ (∀ m ∈ pre, (c.jobs.get m).isSome) ∧ c.jobs.get n = none ∧
      c.runJobsByName env ns w = (.err (.unknownJob n), w)) ∨
    ∃ js, JobsOf c.jobs ns js ∧ c.runJobsByName env ns w = c.runEach env js .success w := by
  unfold runJobsByName
  cases hf : c.findJobs ns with
  | error e =>
    obtain ⟨pre, n, post, h1, h2, h3, rfl⟩ := (findJobs_err c ns e).1 hf
    exact .inl ⟨pre, n, post, h1, h2, h3, rfl⟩
  | ok js =>
    have hj := (findJobs_ok c ns js).1 hf
    refine .inr ⟨js, hj, ?_⟩
    simp only [runJobs]
    rw [List.map_fst_zip]
    rw [hj.length]; exact Nat.le_refl _

/-- **C24** If all jobs run, errors are detected exactly if a requested job that may set the return code detects
errors. -/
theorem C24_return_code {env : Env} {c : Controller} {ns : List Str} {w w' : World} {s : JobSuccess}
    (h : c.runJobsByName env ns w = (.ok s, w')) :
    s = .errorsDetected ↔ ∃ n ∈ ns, ∃ j, c.jobs.get n = some j ∧ j.setReturnCode ≠ some false ∧ Detects c j := by
  rcases runJobsByName_cases env c ns w with ⟨_, n, _, _, _, _, h1⟩ | ⟨js, h1, h2⟩
  · rw [h] at h1; cases h1
  · rw [h2] at h
    rw [(runEach_ok js h).2]
    simp only [reduceCtorEq, false_or]
    constructor
    · rintro ⟨j, hj, h3, h4⟩
      obtain ⟨n, hn, h5⟩ := (h1.mem j).1 hj
      exact ⟨n, hn, j, h5, h3, h4⟩
    · rintro ⟨n, hn, j, h5, h3, h4⟩
      exact ⟨j, (h1.mem j).2 ⟨n, hn, h5⟩, h3, h4⟩

/-- **C24** The result does not depend on order and repetition. -/
theorem C24_order {env : Env} {c : Controller} {ns ns' : List Str} {w w' v v' : World} {s s' : JobSuccess}
    (h : c.runJobsByName env ns w = (.ok s, w')) (h' : c.runJobsByName env ns' v = (.ok s', v'))
    (hm : ∀ n, n ∈ ns ↔ n ∈ ns') : s = s' := by
  have h1 := C24_return_code h
  have h2 := C24_return_code h'
  simp only [hm] at h1
  rw [← h2] at h1
  cases s <;> cases s' <;> simp_all

/-- In the example, `export` may not set the return code, `trace` may. -/
example : ((Controller.new (env RustExample.file config) (world files) config c!"p").toOption.map
    (fun c => ((c.runJobsByName (env RustExample.file config) [c!"export", c!"export"] (world files)).1,
      (c.runJobsByName (env RustExample.file config) [c!"trace", c!"export"] (world files)).1))) =
      some (.ok .success, .ok .errorsDetected) := by decide +kernel

/-- **C25** An unknown name prevents every job from running: the first one is the error, and nothing has changed. -/
theorem C25_unknown_job (env : Env) (c : Controller) (pre post : List Str) (n : Str) (w : World)
    (hpre : ∀ m ∈ pre, (c.jobs.get m).isSome) (hn : c.jobs.get n = none) :
    c.runJobsByName env (pre ++ n :: post) w = (.err (.unknownJob n), w) := by
  unfold runJobsByName
  rw [(findJobs_err c _ (.unknownJob n)).2 ⟨pre, n, post, rfl, hpre, hn, rfl⟩]

/-- **C25** The other way round: this error means that a name is unknown. -/
theorem C25_only_unknown {env : Env} {c : Controller} {ns : List Str} {w w' : World} {n : Str}
    (h : c.runJobsByName env ns w = (.err (.unknownJob n), w')) : n ∈ ns ∧ c.jobs.get n = none := by
  rcases runJobsByName_cases env c ns w with ⟨pre, m, post, h1, h2, h3, h4⟩ | ⟨js, h1, h2⟩
  · rw [h] at h4; cases h4
    exact ⟨by rw [h1]; simp, h3⟩
  · rw [h] at h2
    obtain ⟨_, j, _, w1, _, _, h3⟩ := runEach_stop js h2.symm (fun s => by simp)
    rcases run_cases env c w1 j with ⟨e, w2, h4, h5⟩ | ⟨sink, w2, h4, ⟨e, w3, _, h5⟩ | ⟨w3, _, ⟨p, _, h5⟩ | ⟨_, h5⟩⟩⟩
    · rw [h3] at h5; cases h5
      unfold openOutput at h4
      split at h4
      · cases h4
      · simp only at h4
        split at h4
        · next e he =>
          split at he
          · cases he
          · split at he
            · next hd => cases he; cases h4
            · cases he
        · split at h4 <;> cases h4
    · rw [h3] at h5; cases h5
    · rw [h3] at h5; cases h5
    · rw [h3] at h5; cases h5

example : ((Controller.new (env .nil config) (world files) config c!"p").toOption.map
    (fun c => (c.runJobsByName (env .nil config) [c!"export", c!"nope", c!"trace"] (world files)).1)) =
      some (.err (.unknownJob c!"nope")) := by decide +kernel

/-- **C26** If the jobs before a job run and it fails, its error is the result and the state is that after it: all
effects of the jobs before it, none of later ones. -/
theorem C26_stops {env : Env} {c : Controller} {ns : List Str} {pre post : List Job} {j : Job} {w w1 w2 : World}
    {e : ControllerError} (hj : JobsOf c.jobs ns (pre ++ j :: post)) (hd : Done env c pre w w1)
    (hr : c.run env w1 j = (.err e, w2)) : c.runJobsByName env ns w = (.err e, w2) := by
  rcases runJobsByName_cases env c ns w with ⟨pre', n, post', h1, h2, h3, h4⟩ | ⟨js, h1, h2⟩
  · exfalso
    rw [← findJobs_ok] at hj
    rw [(findJobs_err c ns _).2 ⟨pre', n, post', h1, h2, h3, rfl⟩] at hj
    cases hj
  · rw [h1.unique hj] at h2
    rw [h2]
    obtain ⟨worst', h3⟩ := runEach_done hd (j :: post) .success
    rw [h3]
    unfold runEach
    rw [hr]

/-- **C26** The other way round: an error other than an unknown name is that of a job, and the jobs before it ran. -/
theorem C26_in_order {env : Env} {c : Controller} {ns : List Str} {w w' : World} {r : Res JobSuccess}
    (h : c.runJobsByName env ns w = (r, w')) (hr : ∀ n, r ≠ .err (.unknownJob n)) :
    ∃ js, JobsOf c.jobs ns js ∧
      ((∃ s, r = .ok s ∧ Done env c js w w') ∨
        ((∀ s, r ≠ .ok s) ∧ ∃ pre j post w1, js = pre ++ j :: post ∧ Done env c pre w w1 ∧ c.run env w1 j = (r, w'))) := by
  rcases runJobsByName_cases env c ns w with ⟨pre', n, post', h1, h2, h3, h4⟩ | ⟨js, h1, h2⟩
  · rw [h] at h4; cases h4; exact absurd rfl (hr n)
  · refine ⟨js, h1, ?_⟩
    rw [h] at h2
    cases r with
    | ok s => exact .inl ⟨s, rfl, (runEach_ok js h2.symm).1⟩
    | err e => exact .inr ⟨fun s => by simp, runEach_stop js h2.symm (fun s => by simp)⟩
    | panic p => exact .inr ⟨fun s => by simp, runEach_stop js h2.symm (fun s => by simp)⟩

namespace CtrlExample

/-- The disk is full after the second file operation. -/
def fullDisk (file : Rs.Forest) (config : Config) : Env :=
  { env file config with os := { os with writeErr := fun w _ _ => if w.time < 3 then none else some (1, c!"disk full") } }

def twoJobs : BMap Str Job := BMap.ofList [
  (c!"a", ⟨.parse, .tags, c!"/a", none⟩), (c!"b", ⟨.parse, .tags, c!"/b", none⟩), (c!"c", ⟨.parse, .tags, c!"/c", none⟩)]

def twoConfig : Config := { config with jobs := some twoJobs }

end CtrlExample

/-- The first job has written its file, the second has failed in the middle of it, the third has not begun. -/
example : ((Controller.new (fullDisk .nil twoConfig) (world files) twoConfig c!"p").toOption.map
    (fun c => (c.runJobsByName (fullDisk .nil twoConfig) [c!"a", c!"b", c!"c"] (world files)))).map
      (fun r => (r.1, (r.2.files c!"/a").map List.length, r.2.files c!"/b", r.2.files c!"/c")) =
      some (.err (.io c!"/b" c!"disk full"), some 208, some (Utf8.encode c!"!"), none) := by decide +kernel


/-! ## C27 -/

theorem Spec.Kept.refl (resolve : Path → Path) (path : Path) (w : World) : Kept resolve path w w :=
  ⟨rfl, rfl, fun _ _ => rfl, fun _ h => h, fun _ h => .inl h⟩

theorem Spec.Kept.trans {resolve : Path → Path} {path : Path} {a b c : World} (h1 : Kept resolve path a b)
    (h2 : Kept resolve path b c) : Kept resolve path a c where
  stdout := h2.stdout.trans h1.stdout
  stderr := h2.stderr.trans h1.stderr
  files q hq := (h2.files q hq).trans (h1.files q hq)
  dirsKept d h := h2.dirsKept d (h1.dirsKept d h)
  dirsNew d h := by
    rcases h2.dirsNew d h with h | h
    · exact h1.dirsNew d h
    · exact .inr h

theorem setFile_kept (os : Os) (w : World) (p : Path) (t : Bytes) : Kept os.resolve p w (os.setFile w p t) where
  stdout := rfl
  stderr := rfl
  files q hq := by simp [Os.setFile, hq]
  dirsKept _ h := h
  dirsNew _ h := .inl h

theorem create_kept (os : Os) (w : World) (p : Path) : Kept os.resolve p w (os.create w p).2 := by
  unfold Os.create
  split
  · exact ⟨rfl, rfl, fun _ _ => rfl, fun _ h => h, fun _ h => .inl h⟩
  · exact setFile_kept os w p []

theorem createDirAll_kept (os : Os) (w : World) {p q : Path} (hq : parent p = some q) :
    Kept os.resolve p w (os.createDirAll w q).2 := by
  have key : ∀ ds : List Path, (∀ d ∈ ds, d ∈ ancestors q) → Kept os.resolve p w
      { w with dirs := fun d => w.dirs d || (ds.map os.resolve).contains d, time := w.time + 1 } := by
    intro ds hds
    refine ⟨rfl, rfl, fun _ _ => rfl, fun d h => by simp [h], fun d h => ?_⟩
    simp only [Bool.or_eq_true] at h
    rcases h with h | h
    · exact .inl h
    · rw [List.contains_iff_mem] at h
      obtain ⟨d', h1, rfl⟩ := List.mem_map.1 h
      exact .inr ⟨d', ancestors_dirOf hq (hds d' h1), rfl⟩
  unfold Os.createDirAll
  split
  · exact .refl _ _ _
  · simp only
    split
    · exact key _ (fun d h => h)
    · exact key _ (fun d h => List.mem_of_mem_take h)

theorem openOutput_kept (env : Env) (c : Controller) (w : World) (job : Job) (hf : job.file ≠ c!"-") :
    Kept env.os.resolve (target c.baseDir job.file) w (c.openOutput env w job).2 ∧
      ∀ sink w1, c.openOutput env w job = (.ok sink, w1) →
        sink = some (target c.baseDir job.file) ∧ w1.files (env.os.resolve (target c.baseDir job.file)) = some [] := by
  unfold openOutput
  rw [if_neg hf, target_eq]
  generalize target c.baseDir job.file = path
  simp only
  have hcreate : ∀ w0, Kept env.os.resolve path w w0 →
      Kept env.os.resolve path w (match env.os.create w0 path with
        | (some e, w) => ((.error (.io path e) : Except ControllerError Os.Sink), w)
        | (none, w) => (.ok (some path), w)).2 ∧
      ∀ sink w1, (match env.os.create w0 path with
        | (some e, w) => ((.error (.io path e) : Except ControllerError Os.Sink), w)
        | (none, w) => (.ok (some path), w)) = (.ok sink, w1) →
          sink = some path ∧ w1.files (env.os.resolve path) = some [] := by
    intro w0 h0
    have hk := h0.trans (create_kept env.os w0 path)
    cases hc : env.os.create w0 path with
    | mk r w2 =>
      rw [hc] at hk
      cases r with
      | some e => exact ⟨hk, fun _ _ h => by cases h⟩
      | none =>
        refine ⟨hk, fun _ _ h => ?_⟩
        cases h
        refine ⟨rfl, ?_⟩
        unfold Os.create at hc
        split at hc
        · cases hc
        · cases hc; simp [Os.setFile]
  cases hp : parent path with
  | none => exact hcreate w (.refl _ _ _)
  | some q =>
    have hk := createDirAll_kept env.os w hp
    simp only
    cases hm : env.os.createDirAll w q with
    | mk r w1 =>
      rw [hm] at hk
      cases r with
      | some e => exact ⟨hk, fun _ _ h => by cases h⟩
      | none => exact hcreate w1 hk

theorem write_some (os : Os) (w : World) (p : Path) (t : Bytes) :
    Kept os.resolve p w (os.write w (some p) t).2 ∧
      (∀ w', os.write w (some p) t = (none, w') → w'.files (os.resolve p) = some ((w.files (os.resolve p)).getD [] ++ t)) ∧
      ∃ k, (os.write w (some p) t).2.files (os.resolve p) = some ((w.files (os.resolve p)).getD [] ++ t.take k) := by
  have hset : ∀ x, (os.append w (some p) x).files (os.resolve p) = some ((w.files (os.resolve p)).getD [] ++ x) := by
    intro x; simp [Os.append, Os.setFile]
  have hall : (os.append w (some p) t).files (os.resolve p) = some ((w.files (os.resolve p)).getD [] ++ t.take t.length) := by
    rw [hset, List.take_length]
  unfold Os.write
  simp only
  cases os.writeErr w p t with
  | none => exact ⟨setFile_kept .., fun w' h => by cases h; exact hset t, t.length, hall⟩
  | some ke =>
    obtain ⟨k, e⟩ := ke
    simp only
    split
    · exact ⟨setFile_kept .., fun w' h => by (cases h), k, hset _⟩
    · exact ⟨setFile_kept .., fun w' h => by cases h; exact hset t, t.length, hall⟩

theorem write_none (os : Os) (w : World) (t : Bytes) :
    (os.write w none t).2.files = w.files ∧ (os.write w none t).2.dirs = w.dirs ∧
    (os.write w none t).2.stderr = w.stderr ∧
    (∀ w', os.write w none t = (none, w') → w'.stdout = w.stdout ++ t) ∧
    ∃ k, (os.write w none t).2.stdout = w.stdout ++ t.take k := by
  unfold Os.write
  simp only
  cases os.stdoutErr w t with
  | none => exact ⟨rfl, rfl, rfl, fun w' h => by cases h; rfl, t.length, by simp [Os.append]⟩
  | some ke =>
    obtain ⟨k, e⟩ := ke
    simp only
    split
    · exact ⟨rfl, rfl, rfl, fun w' h => by (cases h), k, rfl⟩
    · exact ⟨rfl, rfl, rfl, fun w' h => by cases h; rfl, t.length, by simp [Os.append]⟩

/-- **C27** A job that writes to the standard output leaves the file system as it is. -/
theorem C27_stdout (env : Env) (c : Controller) (w : World) (job : Job) (hf : job.file = c!"-") :
    (c.run env w job).2.files = w.files ∧ (c.run env w job).2.dirs = w.dirs := by
  have ho : c.openOutput env w job = (.ok none, w) := by unfold openOutput; rw [if_pos hf]
  have hw := write_none env.os w (Utf8.encode (c.output env job).text)
  rcases run_cases env c w job with ⟨e, w1, h1, _⟩ | ⟨sink, w1, h1, h2⟩
  · rw [ho] at h1; cases h1
  · rw [ho] at h1; cases h1
    rcases h2 with ⟨e, w2, h2, h3⟩ | ⟨w2, h2, ⟨p, _, h3⟩ | ⟨_, h3⟩⟩ <;>
    · rw [h2] at hw; rw [h3]; exact ⟨hw.1, hw.2.1⟩

/-- **C27** Any other job changes the content of no file but that of its target, keeps all directories, creates none
but parents of the target, and does not write to the standard output. -/
theorem C27_file (env : Env) (c : Controller) (w : World) (job : Job) (hf : job.file ≠ c!"-") :
    Kept env.os.resolve (target c.baseDir job.file) w (c.run env w job).2 := by
  have ho := openOutput_kept env c w job hf
  rcases run_cases env c w job with ⟨e, w1, h1, h2⟩ | ⟨sink, w1, h1, h2⟩
  · rw [h2]; rw [h1] at ho; exact ho.1
  · obtain ⟨rfl, _⟩ := ho.2 sink w1 h1
    rw [h1] at ho
    have hw := (write_some env.os w1 (target c.baseDir job.file) (Utf8.encode (c.output env job).text)).1
    rcases h2 with ⟨e, w2, h2, h3⟩ | ⟨w2, h2, ⟨p, _, h3⟩ | ⟨_, h3⟩⟩ <;>
    · rw [h2] at hw; rw [h3]; exact ho.1.trans hw

/-- The trace job of the example writes `p/out/trace.txt`, creates `p/out` and `p`, and keeps `/tags`. -/
example : ((Controller.new (env RustExample.file config) (world files) config c!"p").toOption.map
    (fun c => let w := (c.run (env RustExample.file config) (world files) ⟨.trace, .gnuError, c!"out/trace.txt", none⟩).2
      ((w.files c!"p/out/trace.txt").isSome, [c!"p", c!"p/out", c!"p/out/trace.txt", c!"out"].map w.dirs, w.files c!"/tags"))) =
      some (true, [true, true, false, false], some (Utf8.encode c!"old\n")) := by decide +kernel

theorem Spec.KeptAll.trans {env : Env} {c : Controller} {js js' : List Job} {w0 w1 w2 : World}
    (h1 : KeptAll env c js w0 w1) (h2 : KeptAll env c js' w1 w2) : KeptAll env c (js ++ js') w0 w2 where
  stderr := h2.stderr.trans h1.stderr
  stdout h := (h2.stdout (fun j hj => h j (List.mem_append_right _ hj))).trans
    (h1.stdout (fun j hj => h j (List.mem_append_left _ hj)))
  files q h := (h2.files q (fun j hj => h j (List.mem_append_right _ hj))).trans
    (h1.files q (fun j hj => h j (List.mem_append_left _ hj)))
  dirsKept d h := h2.dirsKept d (h1.dirsKept d h)
  dirsNew d h := by
    rcases h2.dirsNew d h with h | ⟨j, hj, h⟩
    · rcases h1.dirsNew d h with h | ⟨j, hj, h⟩
      · exact .inl h
      · exact .inr ⟨j, List.mem_append_left _ hj, h⟩
    · exact .inr ⟨j, List.mem_append_right _ hj, h⟩

theorem Spec.KeptAll.mono {env : Env} {c : Controller} {js js' : List Job} {w w' : World} (h : KeptAll env c js w w')
    (hs : ∀ j ∈ js, j ∈ js') : KeptAll env c js' w w' where
  stderr := h.stderr
  stdout h' := h.stdout (fun j hj => h' j (hs j hj))
  files q h' := h.files q (fun j hj => h' j (hs j hj))
  dirsKept := h.dirsKept
  dirsNew d hd := by
    rcases h.dirsNew d hd with h | ⟨j, hj, h⟩
    · exact .inl h
    · exact .inr ⟨j, hs j hj, h⟩

theorem run_keptAll (env : Env) (c : Controller) (w : World) (job : Job) :
    KeptAll env c [job] w (c.run env w job).2 := by
  by_cases hf : job.file = c!"-"
  · have hk := C27_stdout env c w job hf
    refine ⟨?_, fun h => absurd hf (h job (List.mem_singleton.2 rfl)), fun q _ => by rw [hk.1], fun d h => by rw [hk.2]; exact h,
      fun d h => .inl (by rw [hk.2] at h; exact h)⟩
    have ho : c.openOutput env w job = (.ok none, w) := by unfold openOutput; rw [if_pos hf]
    have hw := write_none env.os w (Utf8.encode (c.output env job).text)
    rcases run_cases env c w job with ⟨e, w1, h1, _⟩ | ⟨sink, w1, h1, h2⟩
    · rw [ho] at h1; cases h1
    · rw [ho] at h1; cases h1
      rcases h2 with ⟨e, w2, h2, h3⟩ | ⟨w2, h2, ⟨p, _, h3⟩ | ⟨_, h3⟩⟩ <;>
      · rw [h2] at hw; rw [h3]; exact hw.2.2.1
  · have hk := C27_file env c w job hf
    refine ⟨hk.stderr, fun _ => hk.stdout, fun q h => hk.files q (h job (List.mem_singleton.2 rfl) hf), hk.dirsKept, fun d h => ?_⟩
    rcases hk.dirsNew d h with h | h
    · exact .inl h
    · exact .inr ⟨job, List.mem_singleton.2 rfl, hf, h⟩

theorem done_keptAll {env : Env} {c : Controller} {js : List Job} {w w' : World} (h : Done env c js w w') :
    KeptAll env c js w w' := by
  induction h with
  | nil w => exact ⟨rfl, fun _ => rfl, fun _ _ => rfl, fun _ h => h, fun _ h => .inl h⟩
  | cons hr _ ih =>
    rename_i j js w w1 w2 s hd
    have h2 := run_keptAll env c w j
    rw [hr] at h2
    exact h2.trans ih

/-- **C27** for a list of jobs, whether they end well or not. -/
theorem C27_jobs (env : Env) (c : Controller) (ns : List Str) (w : World) :
    ∃ js, (∀ j ∈ js, ∃ n ∈ ns, c.jobs.get n = some j) ∧ KeptAll env c js w (c.runJobsByName env ns w).2 := by
  have hrefl : KeptAll env c [] w w := ⟨rfl, fun _ => rfl, fun _ _ => rfl, fun _ h => h, fun _ h => .inl h⟩
  cases hr : c.runJobsByName env ns w with
  | mk r w' =>
    rcases runJobsByName_cases env c ns w with ⟨pre', n, post', h1, h2, h3, h4⟩ | ⟨js, h1, h2⟩
    · rw [hr] at h4; cases h4
      exact ⟨[], by simp, hrefl⟩
    · refine ⟨js, fun j hj => (h1.mem j).1 hj, ?_⟩
      rw [hr] at h2
      have hstop : (∀ s, r ≠ .ok s) → KeptAll env c js w w' := by
        intro hne
        obtain ⟨pre, j, post, w1, rfl, h4, h5⟩ := runEach_stop js h2.symm hne
        have h6 := run_keptAll env c w1 j
        rw [h5] at h6
        exact ((done_keptAll h4).trans h6).mono (by simp; intro j hj; rcases hj with hj | hj <;> simp [hj])
      cases r with
      | ok s => exact done_keptAll (runEach_ok js h2.symm).1
      | err e => exact hstop (fun s => by simp)
      | panic p => exact hstop (fun s => by simp)

/-! ## C66 -/

theorem output_text (env : Env) (c : Controller) (job : Job) :
    Utf8.encode (c.output env job).text = outputOf env c job := by
  unfold output outputOf
  cases job.query <;> rfl

theorem openOutput_err {env : Env} {c : Controller} {w w' : World} {job : Job} {e : ControllerError}
    (h : c.openOutput env w job = (.error e, w')) : w'.files = w.files := by
  unfold openOutput at h
  split at h
  · cases h
  · simp only at h
    generalize (if isAbsolute job.file = true then job.file else joinPath c.baseDir job.file) = path at h
    have hcreate : ∀ w0, w0.files = w.files → (match env.os.create w0 path with
        | (some e, w) => ((.error (.io path e) : Except ControllerError Os.Sink), w)
        | (none, w) => (.ok (some path), w)) = (.error e, w') → w'.files = w.files := by
      intro w0 h0 h
      unfold Os.create at h
      cases hc : env.os.createErr w0 path with
      | some e' => rw [hc] at h; cases h; exact h0
      | none => rw [hc] at h; cases h
    cases hp : parent path with
    | none => rw [hp] at h; exact hcreate w rfl h
    | some q =>
      rw [hp] at h
      simp only at h
      have hd : (env.os.createDirAll w q).2.files = w.files := by
        unfold Os.createDirAll
        split
        · rfl
        · simp only
          split <;> rfl
      cases hm : env.os.createDirAll w q with
      | mk r w1 =>
        rw [hm] at h hd
        cases r with
        | some e' => cases h; exact hd
        | none => exact hcreate w1 hd h

/-- **C66** After a job has run, its output file has exactly its output as content, without a rest of what was there
before; or its output was added to the standard output. -/
theorem C66_content {env : Env} {c : Controller} {w w' : World} {job : Job} {s : JobSuccess}
    (h : c.run env w job = (.ok s, w')) :
    (job.file = c!"-" → w'.stdout = w.stdout ++ outputOf env c job) ∧
    (job.file ≠ c!"-" → w'.files (env.os.resolve (target c.baseDir job.file)) = some (outputOf env c job)) := by
  obtain ⟨-, -, sink, w1, h1, h2⟩ := run_ok h
  rw [output_text] at h2
  constructor
  · intro hf
    unfold openOutput at h1
    rw [if_pos hf] at h1
    cases h1
    exact (write_none ..).2.2.2.1 w' h2
  · intro hf
    obtain ⟨rfl, h3⟩ := (openOutput_kept env c w job hf).2 sink w1 h1
    rw [(write_some ..).2.1 w' h2, h3]
    rfl

/-- **C66** Whatever happens, the file is as before or has the beginning of the output as content. -/
theorem C66_beginning (env : Env) (c : Controller) (w : World) (job : Job) (hf : job.file ≠ c!"-") :
    (c.run env w job).2.files (env.os.resolve (target c.baseDir job.file)) =
        w.files (env.os.resolve (target c.baseDir job.file)) ∨
      ∃ k, (c.run env w job).2.files (env.os.resolve (target c.baseDir job.file)) = some ((outputOf env c job).take k) := by
  rcases run_cases env c w job with ⟨e, w1, h1, h2⟩ | ⟨sink, w1, h1, h2⟩
  · rw [h2]; exact .inl (by rw [openOutput_err h1])
  · right
    obtain ⟨rfl, h3⟩ := (openOutput_kept env c w job hf).2 sink w1 h1
    obtain ⟨k, hk⟩ := (write_some env.os w1 (target c.baseDir job.file) (outputOf env c job)).2.2
    rw [h3] at hk
    rw [output_text] at h2
    refine ⟨k, ?_⟩
    rcases h2 with ⟨e, w2, h2, h4⟩ | ⟨w2, h2, ⟨p, _, h4⟩ | ⟨_, h4⟩⟩ <;>
    · rw [h2] at hk; rw [h4]; exact hk

/-- **C66** After a number of jobs have run, a file has the output of the last of them that writes to it as content. -/
theorem C66_last {env : Env} {c : Controller} {pre post : List Job} {j : Job} {w w' : World}
    (h : Done env c (pre ++ j :: post) w w') (hf : j.file ≠ c!"-")
    (hp : ∀ j' ∈ post, j'.file ≠ c!"-" → env.os.resolve (target c.baseDir j.file) ≠ env.os.resolve (target c.baseDir j'.file)) :
    w'.files (env.os.resolve (target c.baseDir j.file)) = some (outputOf env c j) := by
  induction pre generalizing w with
  | nil =>
    cases h with
    | cons h1 h2 => rw [(done_keptAll h2).files _ hp, (C66_content h1).2 hf]
  | cons x pre ih =>
    cases h with
    | cons h1 h2 => exact ih h2

/-- **C66** The standard output has the outputs of the jobs that write to it, in their order. -/
theorem C66_stdout {env : Env} {c : Controller} {js : List Job} {w w' : World} (h : Done env c js w w') :
    w'.stdout = w.stdout ++ ((js.filter (fun j => j.file = c!"-")).map (fun j => outputOf env c j)).flatten := by
  induction h with
  | nil w => simp
  | cons h1 h2 ih =>
    rename_i j js w w1 w2 s
    rw [ih]
    by_cases hf : j.file = c!"-"
    · rw [(C66_content h1).1 hf]; simp [hf]
    · have := (C27_file env c w j hf).stdout
      rw [h1] at this
      rw [this]; simp [hf]


/-- In the example the file was longer before. -/
example : ((Controller.new (env .nil twoConfig) (world files) twoConfig c!"p").toOption.map
    (fun c => (c.run (env .nil twoConfig)
      { world files with files := fun _ => some (List.replicate 300 120) } ⟨.parse, .tags, c!"/a", none⟩))).map
      (fun r => (r.1, (r.2.files c!"/a").map List.length, (r.2.files c!"/b").map List.length)) =
      some (.ok .errorsDetected, some 208, some 300) := by decide +kernel

/-! ## C28 -/

theorem toml_ok (env : Env) (b : Bytes) (c : Config) :
    env.toml b = .ok c ↔ ∃ t, env.tomlTree b = .ok t ∧ Spec.ConfigText.IsConfig t c := by
  unfold Env.toml
  cases env.tomlTree b with
  | error e => simp
  | ok t =>
    simp only [Except.ok.injEq, exists_eq_left']
    rw [← C78_config]
    cases ConfigRead.toConfig t <;> simp

theorem toml_err (env : Env) (b : Bytes) : (∃ e, env.toml b = .error e) ↔
    (∃ e, env.tomlTree b = .error e) ∨ ∃ t, env.tomlTree b = .ok t ∧ ∀ c, ¬ Spec.ConfigText.IsConfig t c := by
  unfold Env.toml
  cases env.tomlTree b with
  | error e => simp
  | ok t =>
    simp only [Except.ok.injEq, exists_eq_left', reduceCtorEq, exists_false, false_or, ← C78_config]
    cases ConfigRead.toConfig t <;> simp

theorem getConfig_ok' (env : Env) (w : World) (opt : Arguments) (config : Config) :
    Main.getConfig env w opt = .ok config ↔
      ∃ f, env.os.openFile w opt.configFile = .ok f ∧ f.failure = none ∧ env.toml f.bytes = .ok config ∧
        ∀ v, config.version = some v → v = 0 := by
  unfold Main.getConfig
  cases ho : env.os.openFile w opt.configFile with
  | error e => exact ⟨fun h => (by cases h), fun ⟨_, h, _⟩ => (by cases h)⟩
  | ok src =>
    obtain ⟨t, f⟩ := src
    cases f with
    | some e =>
      refine ⟨fun h => (by cases h), fun ⟨_, h, h2, _⟩ => ?_⟩
      cases h; cases h2
    | none =>
      simp only [bind, Except.bind]
      cases ht : env.toml t with
      | error pe =>
        obtain ⟨p, e⟩ := pe
        refine ⟨fun h => ?_, fun ⟨_, h, _, h2, _⟩ => ?_⟩
        · cases p <;> cases h
        · cases h; rw [ht] at h2; cases h2
      | ok cfg =>
        simp only
        constructor
        · intro h
          refine ⟨⟨t, none⟩, rfl, rfl, ?_⟩
          cases hv : cfg.version with
          | none =>
            rw [hv] at h; cases h
            exact ⟨ht, fun v hv' => (by rw [hv] at hv'; cases hv')⟩
          | some v =>
            rw [hv] at h
            simp only at h
            split at h
            · cases h
            · next hle =>
              cases h
              refine ⟨ht, fun v' hv' => ?_⟩
              rw [hv] at hv'; cases hv'
              simp only [Main.configVersion, Nat.not_lt] at hle
              omega
        · rintro ⟨src, h1, h2, h3, h4⟩
          cases h1
          rw [ht] at h3; cases h3
          cases hv : config.version with
          | none => rfl
          | some v =>
            simp only
            have := h4 v hv
            subst this
            rfl

theorem getConfig_ok (env : Env) (w : World) (opt : Arguments) (config : Config) :
    Main.getConfig env w opt = .ok config ↔ GoodConfig env w opt.configFile config := by
  rw [getConfig_ok']
  unfold GoodConfig
  apply exists_congr
  intro f
  rw [toml_ok]
  constructor
  · rintro ⟨h1, h2, ⟨t, h3, h4⟩, h5⟩; exact ⟨t, h1, h2, h3, h4, h5⟩
  · rintro ⟨t, h1, h2, h3, h4, h5⟩; exact ⟨h1, h2, ⟨t, h3, h4⟩, h5⟩

theorem IsConfig_unique {t : Json} {a b : Config} (ha : Spec.ConfigText.IsConfig t a) (hb : Spec.ConfigText.IsConfig t b) :
    a = b := by
  rw [← C78_config] at ha hb
  rw [ha] at hb
  cases hb; rfl

theorem getConfig_err (env : Env) (w : World) (opt : Arguments) :
    (∃ e, Main.getConfig env w opt = .error e) ↔ BadConfig env w opt.configFile := by
  constructor
  · rintro ⟨e, h⟩
    unfold BadConfig
    cases ho : env.os.openFile w opt.configFile with
    | error e => exact .inl ⟨e, rfl⟩
    | ok src =>
      right
      obtain ⟨t, f⟩ := src
      cases f with
      | some e => exact .inl ⟨_, e, rfl, rfl⟩
      | none =>
        right
        cases ht : env.toml t with
        | error pe =>
          rcases (toml_err env t).1 ⟨pe, ht⟩ with ⟨e, h1⟩ | ⟨tr, h1, h2⟩
          · exact .inl ⟨_, e, rfl, rfl, h1⟩
          · exact .inr (.inl ⟨_, tr, rfl, rfl, h1, h2⟩)
        | ok cfg =>
          obtain ⟨tr, h1, h2⟩ := (toml_ok env t cfg).1 ht
          refine .inr (.inr ⟨⟨t, none⟩, tr, cfg, ?_⟩)
          cases hv : cfg.version with
          | none =>
            have := (getConfig_ok env w opt cfg).2 ⟨_, tr, ho, rfl, h1, h2, fun v hv' => (by rw [hv] at hv'; cases hv')⟩
            rw [h] at this; cases this
          | some v =>
            by_cases h0 : v = 0
            · have := (getConfig_ok env w opt cfg).2 ⟨_, tr, ho, rfl, h1, h2, fun v' hv' => (by rw [hv] at hv'; cases hv'; exact h0)⟩
              rw [h] at this; cases this
            · exact ⟨v, rfl, rfl, h1, h2, rfl, Nat.pos_of_ne_zero h0⟩
  · intro h
    cases hc : Main.getConfig env w opt with
    | error e => exact ⟨e, rfl⟩
    | ok cfg =>
      exfalso
      obtain ⟨src, t, h1, h2, h3, hcfg, h4⟩ := (getConfig_ok env w opt cfg).1 hc
      rcases h with ⟨e, h5⟩ | ⟨src', e, h5, h6⟩ | ⟨src', e, h5, _, h6⟩ | ⟨src', t', h5, _, h6, h7⟩ |
        ⟨src', t', cfg', v, h5, _, h6, hcfg', h7, h8⟩
      · rw [h1] at h5; cases h5
      · rw [h1] at h5; cases h5; rw [h2] at h6; cases h6
      · rw [h1] at h5; cases h5; rw [h3] at h6; cases h6
      · rw [h1] at h5; cases h5; rw [h3] at h6; cases h6
        exact h7 _ hcfg
      · rw [h1] at h5; cases h5; rw [h3] at h6; cases h6
        cases IsConfig_unique hcfg hcfg'
        have := h4 v h7
        omega

/-- The parts of a run of the program. -/
theorem main_cases (env : Env) (opt : Arguments) (w : World) :
    (BadConfig env w opt.configFile ∧ ∃ e, Main.main env opt w = (2, { w with stderr := w.stderr ++ Utf8.encode (e ++ c!"\n") })) ∨
    ∃ config, GoodConfig env w opt.configFile config ∧
      ((∃ p, Controller.new env w config opt.baseDir = .error p ∧ Main.main env opt w = (101, w)) ∨
       ∃ c, Controller.new env w config opt.baseDir = .ok c ∧
        ((requested config opt = [] ∧ Main.main env opt w =
            (2, { w with stderr := w.stderr ++ Utf8.encode (c!"Config Error: no default_jobs configured" ++ c!"\n") })) ∨
         (requested config opt ≠ [] ∧ ∃ r w', c.runJobsByName env (requested config opt) w = (r, w') ∧
          Main.main env opt w = (match r with
            | .ok .success => (0, w')
            | .ok .errorsDetected => (1, w')
            | .err e => (2, { w' with stderr := w'.stderr ++ Utf8.encode (e.display ++ c!"\n") })
            | .panic _ => (101, w'))))) := by
  unfold Main.main Main.tryMain
  cases hc : Main.getConfig env w opt with
  | error e => exact .inl ⟨(getConfig_err ..).1 ⟨e, hc⟩, e, rfl⟩
  | ok config =>
    refine .inr ⟨config, (getConfig_ok ..).1 hc, ?_⟩
    simp only
    cases hn : Controller.new env w config opt.baseDir with
    | error p => exact .inl ⟨p, rfl, rfl⟩
    | ok c =>
      refine .inr ⟨c, rfl, ?_⟩
      have hd : c.defaultJobs = config.defaultJobs.getD [] := by
        obtain ⟨_, _, _, _, _, _, _, h⟩ := new_ok hn; exact h
      simp only
      have hrun : Main.runCliJobs env c opt w = if requested config opt = []
          then (.err (.config c!"no default_jobs configured"), w) else c.runJobsByName env (requested config opt) w := by
        unfold Main.runCliJobs runDefaultJobs requested
        rw [hd]
        by_cases h1 : opt.jobs = []
        · simp only [h1, ↓reduceIte]
          by_cases h2 : config.defaultJobs.getD [] = [] <;> simp [h2]
        · simp [h1]
      rw [hrun]
      by_cases hq : requested config opt = []
      · rw [if_pos hq]; exact .inl ⟨hq, rfl⟩
      · rw [if_neg hq]
        refine .inr ⟨hq, ?_⟩
        cases hr : c.runJobsByName env (requested config opt) w with
        | mk r w' =>
          refine ⟨r, w', rfl, ?_⟩
          cases r with
          | ok s => cases s <;> rfl
          | err e => rfl
          | panic p => rfl

/-- **C28** in full. -/
def C28_statement : Prop := ∀ (env : Env) (opt : Arguments) (w : World),
  ((Main.main env opt w).1 = 0 ↔ ∃ c js w', AllRun env opt w c js w' ∧ ¬ Detected c js) ∧
  ((Main.main env opt w).1 = 1 ↔ ∃ c js w', AllRun env opt w c js w' ∧ Detected c js) ∧
  (BadConfig env w opt.configFile ∨ BadJobs env opt w ∨ JobFails env opt w → (Main.main env opt w).1 = 2)

theorem GoodConfig_unique {env : Env} {w : World} {f : Path} {a b : Config} (ha : GoodConfig env w f a)
    (hb : GoodConfig env w f b) : a = b := by
  obtain ⟨s, t, h1, h2, h3, h4, _⟩ := ha
  obtain ⟨s', t', h1', h2', h3', h4', _⟩ := hb
  rw [h1] at h1'; cases h1'
  rw [h3] at h3'; cases h3'
  exact IsConfig_unique h4 h4'

theorem not_good_and_bad {env : Env} {opt : Arguments} {w : World} {a : Config} (ha : GoodConfig env w opt.configFile a)
    (hb : BadConfig env w opt.configFile) : False := by
  obtain ⟨e, he⟩ := (getConfig_err env w opt).2 hb
  rw [(getConfig_ok env w opt a).2 ha] at he
  cases he

theorem done_runEach {env : Env} {c : Controller} {js : List Job} {w w' : World} (h : Done env c js w w') :
    ∃ s, c.runEach env js .success w = (.ok s, w') := by
  obtain ⟨worst, h1⟩ := runEach_done h [] .success
  rw [List.append_nil] at h1
  exact ⟨worst, h1⟩

/-- **C28** The process ends with 0 or 1 exactly as it should, and with 2 for a bad configuration file and a failing
job; for a missing or unknown job if the files of the configuration can be loaded at all.  The other way round, it
ends with 2 in no other case, and with 101, the code of a panic, if it does not end with 0, 1 or 2. -/
theorem C28_exit_code_partial (env : Env) (opt : Arguments) (w : World) :
    ((Main.main env opt w).1 = 0 ↔ ∃ c js w', AllRun env opt w c js w' ∧ ¬ Detected c js) ∧
    ((Main.main env opt w).1 = 1 ↔ ∃ c js w', AllRun env opt w c js w' ∧ Detected c js) ∧
    ((Main.main env opt w).1 = 2 ↔ BadConfig env w opt.configFile ∨
      (BadJobs env opt w ∧ ∃ config c, GoodConfig env w opt.configFile config ∧
        Controller.new env w config opt.baseDir = .ok c) ∨ JobFails env opt w) ∧
    ((Main.main env opt w).1 = 101 ∨ (Main.main env opt w).1 ≤ 2) := by
  rcases main_cases env opt w with ⟨hb, e, hm⟩ | ⟨config, hg, ⟨p, hn, hm⟩ | ⟨c, hn, ⟨hq, hm⟩ | ⟨hq, r, w', hr, hm⟩⟩⟩
  · rw [hm]
    refine ⟨?_, ?_, ?_, .inr (Nat.le_refl _)⟩
    · exact ⟨fun h => (by cases h), fun ⟨_, _, _, ⟨_, h, _⟩, _⟩ => (not_good_and_bad h hb).elim⟩
    · exact ⟨fun h => (by cases h), fun ⟨_, _, _, ⟨_, h, _⟩, _⟩ => (not_good_and_bad h hb).elim⟩
    · exact ⟨fun _ => .inl hb, fun _ => rfl⟩
  · rw [hm]
    have hno : ∀ cfg c, GoodConfig env w opt.configFile cfg → Controller.new env w cfg opt.baseDir = .ok c → False := by
      intro cfg c h1 h2
      rw [GoodConfig_unique h1 hg, hn] at h2; cases h2
    refine ⟨?_, ?_, ?_, .inl rfl⟩
    · exact ⟨fun h => (by cases h), fun ⟨_, _, _, ⟨_, h1, h2, _⟩, _⟩ => (hno _ _ h1 h2).elim⟩
    · exact ⟨fun h => (by cases h), fun ⟨_, _, _, ⟨_, h1, h2, _⟩, _⟩ => (hno _ _ h1 h2).elim⟩
    · refine ⟨fun h => (by cases h), ?_⟩
      rintro (h | ⟨_, cfg, c, h1, h2⟩ | ⟨cfg, c, _, _, _, _, _, _, h1, h2, _⟩)
      · exact (not_good_and_bad hg h).elim
      · exact (hno _ _ h1 h2).elim
      · exact (hno _ _ h1 h2).elim
  · rw [hm]
    have hno : ∀ {c js w'}, AllRun env opt w c js w' → False := by
      rintro c js w' ⟨cfg, h1, _, h2, _⟩
      rw [GoodConfig_unique h1 hg] at h2; exact h2 hq
    refine ⟨?_, ?_, ?_, .inr (Nat.le_refl _)⟩
    · exact ⟨fun h => (by cases h), fun ⟨_, _, _, h, _⟩ => (hno h).elim⟩
    · exact ⟨fun h => (by cases h), fun ⟨_, _, _, h, _⟩ => (hno h).elim⟩
    · exact ⟨fun _ => .inr (.inl ⟨⟨config, hg, .inl hq⟩, config, c, hg, hn⟩), fun _ => rfl⟩
  · have hjobs : c.jobs = config.jobs.getD .empty := by
      obtain ⟨_, _, _, _, _, _, h, _⟩ := new_ok hn; exact h
    -- all jobs run
    have hall : ∀ {c' js v}, AllRun env opt w c' js v → c' = c ∧ ∃ s, r = .ok s ∧
        (s = .errorsDetected ↔ Detected c js) := by
      rintro c' js v ⟨cfg, h1, h2, _, h3, h4⟩
      have := GoodConfig_unique h1 hg
      subst this
      rw [hn] at h2; cases h2
      refine ⟨rfl, ?_⟩
      rcases runJobsByName_cases env c (requested cfg opt) w with ⟨pre, n, post, h5, h6, h7, h8⟩ | ⟨js', h5, h6⟩
      · rw [hjobs] at h7
        exfalso
        rw [← hjobs, ← findJobs_ok] at h3
        rw [(findJobs_err c _ _).2 ⟨pre, n, post, h5, h6, by rw [hjobs]; exact h7, rfl⟩] at h3
        cases h3
      · rw [hjobs] at h5
        cases h5.unique h3
        obtain ⟨s, hs⟩ := done_runEach h4
        rw [hr] at h6
        rw [hs] at h6; cases h6
        exact ⟨s, rfl, by rw [(runEach_ok _ hs).2]; simp [Detected]⟩
    -- the other way round
    have hback : ∀ s, r = .ok s → ∃ js, AllRun env opt w c js w' ∧ (s = .errorsDetected ↔ Detected c js) := by
      rintro s rfl
      rcases runJobsByName_cases env c (requested config opt) w with ⟨pre, n, post, h5, h6, h7, h8⟩ | ⟨js', h5, h6⟩
      · rw [hr] at h8; cases h8
      · rw [hr] at h6
        have h7 := runEach_ok js' h6.symm
        exact ⟨js', ⟨config, hg, hn, hq, by rw [← hjobs]; exact h5, h7.1⟩, by rw [h7.2]; simp [Detected]⟩
    have herr : (∃ e, r = .err e) ↔ BadConfig env w opt.configFile ∨
        (BadJobs env opt w ∧ ∃ config c, GoodConfig env w opt.configFile config ∧
          Controller.new env w config opt.baseDir = .ok c) ∨ JobFails env opt w := by
      constructor
      · rintro ⟨e, rfl⟩
        right
        rcases runJobsByName_cases env c (requested config opt) w with ⟨pre, n, post, h5, h6, h7, h8⟩ | ⟨js', h5, h6⟩
        · rw [hjobs] at h7
          exact .inl ⟨⟨config, hg, .inr ⟨n, by rw [h5]; simp, h7⟩⟩, config, c, hg, hn⟩
        · rw [hr] at h6
          obtain ⟨pre, j, post, w1, h7, h8, h9⟩ := runEach_stop js' h6.symm (fun s => by simp)
          subst h7
          exact .inr ⟨config, c, pre, j, post, w1, e, w', hg, hn, by rw [← hjobs]; exact h5, h8, h9⟩
      · rintro (h | ⟨⟨cfg, h1, h2⟩, _⟩ | ⟨cfg, c', pre, j, post, w1, e, w2, h1, h2, h3, h4, h5⟩)
        · exact (not_good_and_bad hg h).elim
        · have := GoodConfig_unique h1 hg
          subst this
          rcases h2 with h2 | ⟨n, h2, h3⟩
          · exact absurd h2 hq
          · rw [← hjobs] at h3
            rcases runJobsByName_cases env c (requested cfg opt) w with ⟨pre, n', post, h5, h6, h7, h8⟩ | ⟨js', h5, h6⟩
            · rw [hr] at h8; cases h8; exact ⟨_, rfl⟩
            · exfalso
              obtain ⟨j, h7⟩ := h5.known n h2
              rw [h3] at h7; cases h7
        · have := GoodConfig_unique h1 hg
          subst this
          rw [hn] at h2; cases h2
          rw [← hjobs] at h3
          have := C26_stops h3 h4 h5
          rw [hr] at this; cases this
          exact ⟨e, rfl⟩
    rw [hm, ← herr]
    cases r with
    | ok s =>
      obtain ⟨js, h1, h2⟩ := hback s rfl
      cases s with
      | success =>
        refine ⟨⟨fun _ => ⟨c, js, w', h1, fun h => (by cases h2.2 h)⟩, fun _ => rfl⟩, ⟨fun h => (by cases h), ?_⟩,
          ⟨fun h => (by cases h), fun ⟨_, h⟩ => (by cases h)⟩, .inr (Nat.le_of_ble_eq_true rfl)⟩
        rintro ⟨c', js', v, h3, h4⟩
        obtain ⟨rfl, s, h5, h6⟩ := hall h3
        cases h5
        cases h6.2 h4
      | errorsDetected =>
        refine ⟨⟨fun h => (by cases h), ?_⟩, ⟨fun _ => ⟨c, js, w', h1, h2.1 rfl⟩, fun _ => rfl⟩,
          ⟨fun h => (by cases h), fun ⟨_, h⟩ => (by cases h)⟩, .inr (Nat.le_of_ble_eq_true rfl)⟩
        rintro ⟨c', js', v, h3, h4⟩
        obtain ⟨rfl, s, h5, h6⟩ := hall h3
        cases h5
        exact absurd (h6.1 rfl) h4
    | err e =>
      refine ⟨⟨fun h => (by cases h), ?_⟩, ⟨fun h => (by cases h), ?_⟩, ⟨fun _ => ⟨e, rfl⟩, fun _ => rfl⟩, .inr (Nat.le_of_ble_eq_true rfl)⟩
      all_goals
      · rintro ⟨c', js', v, h3, h4⟩
        obtain ⟨rfl, s, h5, h6⟩ := hall h3
        cases h5
    | panic p =>
      refine ⟨⟨fun h => (by cases h), ?_⟩, ⟨fun h => (by cases h), ?_⟩,
        ⟨fun h => (by cases h), fun ⟨_, h⟩ => (by cases h)⟩, .inl rfl⟩
      all_goals
      · rintro ⟨c', js', v, h3, h4⟩
        obtain ⟨rfl, s, h5, h6⟩ := hall h3
        cases h5

/-- The exit codes of the example: 1 with default jobs, 0 for `export` which does not set the return code, 2 for an
unknown job, 101 for an unsupported format. -/
example : ([[], [c!"export"], [c!"export", c!"nope"], [c!"tags"]].map fun jobs =>
    (Main.main (env RustExample.file config) { args with jobs } (world files)).1) = [1, 0, 2, 101] := by decide +kernel

/-- **C28** is false: a relation with an unknown artefact makes the program panic before it looks at the requested
jobs, so that an unknown job ends it with 101. -/
theorem C28_false : ¬ C28_statement := by
  intro h
  have h1 := (h (env .nil typo) { args with jobs := [c!"nope"] } (world files)).2.2
    (.inr (.inl ⟨typo, typo_good, .inr ⟨c!"nope", by simp [requested], by decide +kernel⟩⟩))
  revert h1
  decide +kernel

/-- **C28** With exit code 2 a text is written to the standard error, otherwise nothing. -/
theorem C28_stderr_partial (env : Env) (opt : Arguments) (w : World) :
    ((Main.main env opt w).1 = 2 → ∃ e, (Main.main env opt w).2.stderr = w.stderr ++ Utf8.encode (e ++ c!"\n")) ∧
    ((Main.main env opt w).1 ≠ 2 → (Main.main env opt w).2.stderr = w.stderr) := by
  rcases main_cases env opt w with ⟨hb, e, hm⟩ | ⟨config, hg, ⟨p, hn, hm⟩ | ⟨c, hn, ⟨hq, hm⟩ | ⟨hq, r, w', hr, hm⟩⟩⟩
  · rw [hm]; exact ⟨fun _ => ⟨e, rfl⟩, fun h => absurd rfl h⟩
  · rw [hm]; exact ⟨fun h => (by cases h), fun _ => rfl⟩
  · rw [hm]; exact ⟨fun _ => ⟨_, rfl⟩, fun h => absurd rfl h⟩
  · obtain ⟨js, _, hk⟩ := C27_jobs env c (requested config opt) w
    rw [hr] at hk
    rw [hm]
    cases r with
    | ok s => cases s <;> exact ⟨fun h => (by cases h), fun _ => hk.stderr⟩
    | err e => exact ⟨fun _ => ⟨e.display, by have := hk.stderr; simp only at this ⊢; rw [this]⟩, fun h => absurd rfl h⟩
    | panic p => exact ⟨fun h => (by cases h), fun _ => hk.stderr⟩

/-- **C27** for the whole program: a file keeps its content unless a requested job writes to it. -/
theorem C27_main (env : Env) (opt : Arguments) (w : World) (q : Path)
    (hq : ∀ config, GoodConfig env w opt.configFile config → ∀ n ∈ requested config opt, ∀ j,
      (config.jobs.getD .empty).get n = some j → j.file ≠ c!"-" → q ≠ env.os.resolve (target opt.baseDir j.file)) :
    (Main.main env opt w).2.files q = w.files q := by
  rcases main_cases env opt w with ⟨hb, e, hm⟩ | ⟨config, hg, ⟨p, hn, hm⟩ | ⟨c, hn, ⟨_, hm⟩ | ⟨_, r, w', hr, hm⟩⟩⟩
  · rw [hm]
  · rw [hm]
  · rw [hm]
  · obtain ⟨js, hjs, hk⟩ := C27_jobs env c (requested config opt) w
    obtain ⟨_, _, _, _, _, hbase, hjobs, _⟩ := new_ok hn
    rw [hr] at hk
    have := hk.files q (fun j hj hf => by
      obtain ⟨n, h1, h2⟩ := hjs j hj
      rw [hbase]
      rw [hjobs] at h2
      exact hq config hg n h1 j h2 hf)
    rw [hm]
    cases r with
    | ok s => cases s <;> exact this
    | err e => exact this
    | panic p => exact this

/-! ## C29 -/

/-- **C29** If a `Trace` job succeeds, so does every `Parse` job whose output can be written. -/
theorem C29_trace_implies_parse {env : Env} {w0 w1 w1' w2 w2' : World} {config : Config} {base : Path} {c : Controller}
    (hn : Controller.new env w0 config base = .ok c) {tr pa : Job} {s : JobSuccess} (htr : tr.query = .trace)
    (hpa : pa.query = .parse) (h1 : c.run env w1 tr = (.ok .success, w1')) (h2 : c.run env w2 pa = (.ok s, w2')) :
    s = .success := by
  obtain ⟨hk, _⟩ := C18_consistent hn
  obtain ⟨ht, _⟩ := C18_no_panic hn
  have hf := (C11_frame hk ht).1
  rw [(C23_verdict h2).2]
  intro hd
  apply (C23_verdict h1).2.1 rfl
  unfold Detects at hd ⊢
  rw [hpa] at hd
  rw [htr]
  simp only at hd ⊢
  unfold TraceProblem
  rw [hf]
  exact .inr (.inl hd)

/-- Such jobs of the example without problems. -/
example : ((Controller.new (env covering clean) (world cleanFiles) clean c!"p").toOption.map
    (fun c => ((c.run (env covering clean) (world cleanFiles) ⟨.trace, .json, c!"-", none⟩).1,
      (c.run (env covering clean) (world cleanFiles) ⟨.parse, .markdown, c!"-", none⟩).1))) =
      some (.ok .success, .ok .success) := by decide +kernel

/-! ## C57 -/

/-- **C57** in full. -/
def C57_statement : Prop := ∀ (env : Env) (c : Controller) (w : World) (job : Job), Unsupported job.query job.format →
  (∃ e, (c.run env w job).1 = .err e) ∧ (c.run env w job).2.files = w.files

/-- **C57** is false: a `Trace` job with the format `Tags` empties `/tags` and panics. -/
theorem C57_false : ¬ C57_statement := by
  intro h
  have hn : ((Controller.new (env .nil config) (world files) config c!"p").toOption.map
      (fun c => let r := (c.run (env .nil config) (world files) ⟨.trace, .tags, c!"/tags", none⟩)
        (r.1, (world files).files c!"/tags", r.2.files c!"/tags"))) =
      some (.panic .fmtUnsupported, some (Utf8.encode c!"old\n"), some []) := by decide +kernel
  cases hc : Controller.new (env .nil config) (world files) config c!"p" with
  | error p => rw [hc] at hn; cases hn
  | ok c =>
    rw [hc] at hn
    have h1 := (h (env .nil config) c (world files) ⟨.trace, .tags, c!"/tags", none⟩ trivial).1
    obtain ⟨e, h1⟩ := h1
    simp only [Except.toOption, Option.map_some, Option.some.injEq, Prod.mk.injEq] at hn
    rw [hn.1] at h1; cases h1

theorem output_unsupported (env : Env) (c : Controller) (job : Job) (h : Unsupported job.query job.format) :
    c.output env job = ⟨[], some .fmtUnsupported⟩ := by
  unfold output
  unfold Unsupported at h
  cases hq : job.query <;> cases hf : job.format <;> rw [hq, hf] at h <;> first | rfl | exact h.elim

/-- **C57** Such a job never counts as run.  If its output can be opened it ends with a panic, and the file is empty
then. -/
theorem C57_never_ok_partial (env : Env) (c : Controller) (w : World) (job : Job)
    (h : Unsupported job.query job.format) :
    (∃ e, (c.run env w job).1 = .err e ∧ (c.run env w job).2.files = w.files ∧ (c.run env w job).2.stdout = w.stdout) ∨
    ((c.run env w job).1 = .panic .fmtUnsupported ∧ (c.run env w job).2.stdout = w.stdout ∧
      (job.file ≠ c!"-" → (c.run env w job).2.files (env.os.resolve (target c.baseDir job.file)) = some [])) := by
  have ho := output_unsupported env c job h
  rcases run_cases env c w job with ⟨e, w1, h1, h2⟩ | ⟨sink, w1, h1, h2⟩
  · rw [h2]
    refine .inl ⟨e, rfl, openOutput_err h1, ?_⟩
    by_cases hf : job.file = c!"-"
    · unfold openOutput at h1; rw [if_pos hf] at h1; cases h1
    · have := (openOutput_kept env c w job hf).1.stdout
      rw [h1] at this; exact this
  · right
    rw [ho] at h2
    rw [show Utf8.encode (⟨[], some .fmtUnsupported⟩ : Out).text = [] from rfl] at h2
    have hw : ∀ e w2, env.os.write w1 sink [] ≠ (some e, w2) := by
      intro e w2 hc
      unfold Os.write at hc
      simp only at hc
      split at hc
      · cases hc
      · split at hc
        · next hlt => simp at hlt
        · cases hc
    rcases h2 with ⟨e, w2, h2, h3⟩ | ⟨w2, h2, ⟨p, h3, h4⟩ | ⟨h3, _⟩⟩
    · exact absurd h2 (hw e w2)
    · cases h3
      rw [h4]
      refine ⟨rfl, ?_, fun hf => ?_⟩
      · by_cases hf : job.file = c!"-"
        · unfold openOutput at h1; rw [if_pos hf] at h1; cases h1
          have := (write_none env.os w []).2.2.2.1 w2 h2
          simpa using this
        · obtain ⟨rfl, _⟩ := (openOutput_kept env c w job hf).2 sink w1 h1
          have h5 := (openOutput_kept env c w job hf).1.stdout
          have h6 := (write_some env.os w1 (target c.baseDir job.file) []).1.stdout
          rw [h1] at h5
          rw [h2] at h6
          exact h6.trans h5
      · obtain ⟨rfl, h5⟩ := (openOutput_kept env c w job hf).2 sink w1 h1
        have h6 := (write_some env.os w1 (target c.baseDir job.file) []).2.1 w2 h2
        rw [h5] at h6
        exact h6
    · cases h3

end Reqtrace
