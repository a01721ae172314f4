import Verif.Lemmas.Path
import Verif.Props.Output
import Verif.Props.Whole
import Verif.Spec.Run

/-!
# C83, C84: the whole program
-/

namespace Reqtrace

open Spec Controller

/-! ## C83: parents -/

/-- **C83** The parent of a path. -/
theorem C83_parent (p q : Path) : parent p = some q ↔ Parent p q := parent_iff p q

/-- **C83** A path has no parent exactly if it consists of `/` and `.` behind `/` only. -/
theorem C83_no_parent (p : Path) : parent p = none ↔ Trail p := parent_none p

/-- **C83** The directories that are made are the path and all its parents, the outermost first. -/
theorem C83_ancestors (p : Path) (l : List Path) : ancestors p = l ↔ Parents p l := ancestors_iff p l

example : Parent c!"/a//b/./c.txt/." c!"/a//b" ∧ Parent c!"./x" c!"." ∧ Parent c!"x" [] ∧ Parent c!"//x" c!"/" ∧
    Trail c!"/./" ∧ Parents c!"a/./b" [c!"a", c!"a/./b"] := by
  simp only [← C83_parent, ← C83_no_parent, ← C83_ancestors]
  decide +kernel

/-! ## Changes of the state -/

theorem World.ext' {a b : World} (h1 : a.files = b.files) (h2 : a.dirs = b.dirs) (h3 : a.stdout = b.stdout)
    (h4 : a.stderr = b.stderr) (h5 : a.time = b.time) : a = b := by
  cases a; cases b; simp_all

theorem mem_dirs (os : Os) (b : Bool) (ds : List Path) (d : Path) :
    (b || (ds.map os.resolve).contains d) = true ↔ b = true ∨ ∃ p ∈ ds, d = os.resolve p := by
  rw [Bool.or_eq_true, List.contains_iff_mem, List.mem_map]
  exact or_congr Iff.rfl ⟨fun ⟨p, h1, h2⟩ => ⟨p, h1, h2.symm⟩, fun ⟨p, h1, h2⟩ => ⟨p, h1, h2.symm⟩⟩

theorem addsDirs_iff {os : Os} {ds : List Path} {w w' : World} : AddsDirs os ds w w' ↔
    w' = { w with dirs := fun d => w.dirs d || (ds.map os.resolve).contains d, time := w.time + 1 } := by
  constructor
  · intro h
    refine World.ext' h.files ?_ h.stdout h.stderr h.time
    funext d
    rw [Bool.eq_iff_iff, h.dirs, mem_dirs]
  · rintro rfl
    exact ⟨fun d => mem_dirs .., rfl, rfl, rfl, rfl⟩

theorem setsFile_iff {os : Os} {p : Path} {t : Bytes} {w w' : World} : SetsFile os p t w w' ↔ w' = os.setFile w p t := by
  constructor
  · intro h
    refine World.ext' ?_ h.dirs h.stdout h.stderr h.time
    funext q
    unfold Os.setFile
    by_cases hq : q = os.resolve p
    · subst hq; simp [h.file]
    · simp [hq, h.files q hq]
  · rintro rfl
    exact ⟨by simp [Os.setFile], fun q hq => by simp [Os.setFile, hq], rfl, rfl, rfl, rfl⟩

theorem prints_iff {t : Bytes} {w w' : World} : Prints t w w' ↔
    w' = { w with stdout := w.stdout ++ t, time := w.time + 1 } :=
  ⟨fun h => World.ext' h.files h.dirs h.stdout h.stderr h.time, by rintro rfl; exact ⟨rfl, rfl, rfl, rfl, rfl⟩⟩

theorem complains_iff {t : Str} {w w' : World} : Complains t w w' ↔
    w' = { w with stderr := w.stderr ++ Utf8.encode (t ++ c!"\n") } :=
  ⟨fun h => World.ext' h.files h.dirs h.stdout h.stderr h.time, by rintro rfl; exact ⟨rfl, rfl, rfl, rfl, rfl⟩⟩

theorem waits_iff {w w' : World} : Waits w w' ↔ w' = { w with time := w.time + 1 } :=
  ⟨fun h => World.ext' h.files h.dirs h.stdout h.stderr h.time, by rintro rfl; exact ⟨rfl, rfl, rfl, rfl, rfl⟩⟩

/-! ## One job -/

/-- The directories, as in the model. -/
def outputDirs (os : Os) (w : World) (path : Path) : Option Str × World :=
  match parent path with
  | none => (none, w)
  | some p => match os.createDirAll w p with
    | (some e, w) => (some (ioText p e), w)
    | (none, w) => (none, w)

theorem makesDirs_iff {os : Os} {path : Path} {w w' : World} {m : Option Str} :
    outputDirs os w path = (m, w') ↔ MakesDirs os path w m w' := by
  unfold outputDirs
  cases hp : parent path with
  | none =>
    have hno : ∀ q, ¬ Parent path q := fun q h => by rw [← parent_iff, hp] at h; cases h
    constructor
    · intro h; cases h; exact .top hno
    · intro h
      cases h with
      | top => rfl
      | here h => exact absurd h (hno _)
      | made h => exact absurd h (hno _)
      | failed h => exact absurd h (hno _)
  | some q =>
    have hpar := (parent_iff path q).1 hp
    simp only
    unfold Os.createDirAll
    by_cases hq : q = []
    · subst hq
      simp only [↓reduceIte]
      constructor
      · intro h; cases h; exact .here hpar
      · intro h
        cases h with
        | top h => exact absurd hpar (h _)
        | here => rfl
        | made h hne => exact absurd (parent_unique h hpar) hne
        | failed h hne => exact absurd (parent_unique h hpar) hne
    · rw [if_neg hq]
      have hds := (ancestors_iff q _).1 rfl
      simp only
      cases hm : os.mkdirErr w q with
      | none =>
        simp only
        constructor
        · intro h; cases h; exact .made hpar hq hds hm (addsDirs_iff.2 rfl)
        · intro h
          cases h with
          | top h => exact absurd hpar (h _)
          | here h => exact absurd (parent_unique hpar h) hq
          | made h _ h1 _ h2 =>
            cases parent_unique hpar h
            rw [(ancestors_iff _ _).2 h1, addsDirs_iff.1 h2]
          | failed h _ _ h2 => cases parent_unique hpar h; rw [hm] at h2; cases h2
      | some ke =>
        obtain ⟨k, e⟩ := ke
        simp only
        constructor
        · intro h; cases h; exact .failed hpar hq hds hm (addsDirs_iff.2 rfl)
        · intro h
          cases h with
          | top h => exact absurd hpar (h _)
          | here h => exact absurd (parent_unique hpar h) hq
          | made h _ _ h2 => cases parent_unique hpar h; rw [hm] at h2; cases h2
          | failed h _ h1 h2 h3 =>
            cases parent_unique hpar h
            rw [hm] at h2; cases h2
            rw [(ancestors_iff _ _).2 h1, addsDirs_iff.1 h3]

/-- Creating the output file, as in the model. -/
def createOutput (os : Os) (w : World) (path : Path) : Option Str × World :=
  match outputDirs os w path with
  | (some e, w) => (some e, w)
  | (none, w) => match os.create w path with
    | (some e, w) => (some (ioText path e), w)
    | (none, w) => (none, w)

theorem creates_iff {os : Os} {path : Path} {w w' : World} {m : Option Str} :
    createOutput os w path = (m, w') ↔ Creates os path w m w' := by
  have hd : ∀ {m w'}, MakesDirs os path w m w' → outputDirs os w path = (m, w') := makesDirs_iff.2
  unfold createOutput
  constructor
  · intro h
    cases ho : outputDirs os w path with
    | mk r w1 =>
      have ho' := makesDirs_iff.1 ho
      rw [ho] at h
      cases r with
      | some e => cases h; exact .noDir ho'
      | none =>
        unfold Os.create at h
        simp only at h
        cases hc : os.createErr w1 path with
        | some e => rw [hc] at h; cases h; exact .failed ho' hc (waits_iff.2 rfl)
        | none => rw [hc] at h; cases h; exact .created ho' hc (setsFile_iff.2 rfl)
  · intro h
    cases h with
    | noDir h => rw [hd h]
    | failed h h1 h2 => rw [hd h]; simp only [Os.create, h1, waits_iff.1 h2]
    | created h h1 h2 => rw [hd h]; simp only [Os.create, h1, setsFile_iff.1 h2]

theorem openOutput_eq (env : Env) (c : Controller) (w : World) (job : Job) :
    (match c.openOutput env w job with
      | (.error e, w) => (some e.display, w)
      | (.ok _, w) => (none, w)) =
      if job.file = c!"-" then (none, w) else createOutput env.os w (target c.baseDir job.file) := by
  unfold openOutput
  by_cases hf : job.file = c!"-"
  · rw [if_pos hf, if_pos hf]
  · rw [if_neg hf, if_neg hf]
    simp only [target_eq]
    generalize target c.baseDir job.file = path
    unfold createOutput outputDirs
    cases parent path with
    | none =>
      simp only
      cases env.os.create w path with
      | mk r w1 => cases r <;> rfl
    | some q =>
      simp only
      cases env.os.createDirAll w q with
      | mk r w1 =>
        cases r with
        | some e => rfl
        | none =>
          simp only
          cases env.os.create w1 path with
          | mk r w2 => cases r <;> rfl

/-- Where the output is opened. -/
theorem openOutput_sink {env : Env} {c : Controller} {w w' : World} {job : Job} {sink : Os.Sink}
    (h : c.openOutput env w job = (.ok sink, w')) :
    sink = if job.file = c!"-" then none else some (target c.baseDir job.file) := by
  unfold openOutput at h
  split at h
  · next hf => cases h; rw [if_pos hf]
  · next hf =>
    rw [if_neg hf]
    simp only [target_eq] at h
    split at h
    · cases h
    · split at h
      · cases h
      · cases h; rfl

/-- Opening and writing, as in the model. -/
def deliver (env : Env) (c : Controller) (w : World) (job : Job) (text : Bytes) : Option Str × World :=
  match c.openOutput env w job with
  | (.error e, w) => (some e.display, w)
  | (.ok sink, w) => match env.os.write w sink text with
    | (some e, w) => (some (ioText job.file e), w)
    | (none, w) => (none, w)

theorem created_empty {os : Os} {path : Path} {w w' : World} (h : Creates os path w none w') :
    w'.files (os.resolve path) = some [] := by
  cases h with
  | created _ _ h => exact h.file

theorem setFile_fits (os : Os) (w : World) (path : Path) (t : Bytes) (h : w.files (os.resolve path) = some []) :
    os.append w (some path) t = os.setFile w path t := by
  simp only [Os.append, h, Option.getD_some, List.nil_append]

theorem delivers_iff {env : Env} {c : Controller} {job : Job} {text : Bytes} {w w' : World} {m : Option Str} :
    deliver env c w job text = (m, w') ↔ Delivers env.os c.baseDir job.file text w m w' := by
  have hopen := openOutput_eq env c w job
  unfold deliver
  constructor
  · intro h
    cases ho : c.openOutput env w job with
    | mk r w1 =>
      rw [ho] at h hopen
      cases r with
      | error e =>
        simp only at h hopen
        by_cases hf : job.file = c!"-"
        · rw [if_pos hf] at hopen; cases hopen
        · rw [if_neg hf] at hopen
          cases h
          exact .closed hf (creates_iff.1 hopen.symm)
      | ok sink =>
        have hs := openOutput_sink ho
        simp only at h hopen
        by_cases hf : job.file = c!"-"
        · rw [if_pos hf] at hopen hs
          cases hopen
          subst hs
          simp only [Os.write] at h
          cases hw : env.os.stdoutErr w text with
          | none =>
            rw [hw] at h
            simp only [Os.append] at h
            cases h
            exact .printed hf (fun k e he => by rw [hw] at he; cases he) (prints_iff.2 rfl)
          | some ke =>
            obtain ⟨k, e⟩ := ke
            rw [hw] at h
            simp only [Os.append] at h
            by_cases hk : k < text.length
            · rw [if_pos hk] at h
              cases h; exact .broken hf hw hk (prints_iff.2 rfl)
            · rw [if_neg hk] at h
              cases h
              refine .printed hf (fun k' e' he => ?_) (prints_iff.2 rfl)
              rw [hw] at he; cases he
              exact Nat.le_of_not_lt hk
        · rw [if_neg hf] at hopen hs
          have hc := creates_iff.1 hopen.symm
          subst hs
          simp only [Os.write] at h
          have happ := fun t => setFile_fits env.os w1 (target c.baseDir job.file) t (created_empty hc)
          cases hw : env.os.writeErr w1 (target c.baseDir job.file) text with
          | none =>
            rw [hw] at h
            simp only [happ] at h
            cases h
            exact .written hf hc (fun k e he => by rw [hw] at he; cases he) (setsFile_iff.2 rfl)
          | some ke =>
            obtain ⟨k, e⟩ := ke
            rw [hw] at h
            simp only [happ] at h
            by_cases hk : k < text.length
            · rw [if_pos hk] at h
              cases h; exact .cut hf hc hw hk (setsFile_iff.2 rfl)
            · rw [if_neg hk] at h
              cases h
              refine .written hf hc (fun k' e' he => ?_) (setsFile_iff.2 rfl)
              rw [hw] at he; cases he
              exact Nat.le_of_not_lt hk
  · intro h
    cases h with
    | printed hf h1 h2 =>
      rw [show c.openOutput env w job = (.ok none, w) by unfold openOutput; rw [if_pos hf]]
      have : env.os.write w none text = (none, env.os.append w none text) := by
        unfold Os.write
        simp only
        cases hw : env.os.stdoutErr w text with
        | none => rfl
        | some ke => simp only; rw [if_neg (Nat.not_lt.2 (h1 ke.1 ke.2 hw))]
      simp only [this, Os.append, prints_iff.1 h2]
    | broken hf h1 h2 h3 =>
      rw [show c.openOutput env w job = (.ok none, w) by unfold openOutput; rw [if_pos hf]]
      simp only [Os.write, h1, if_pos h2, Os.append, prints_iff.1 h3]
    | closed hf h1 =>
      rw [if_neg hf, creates_iff.2 h1] at hopen
      cases ho : c.openOutput env w job with
      | mk r w1 =>
        rw [ho] at hopen
        cases r with
        | error e => exact hopen
        | ok s => cases hopen
    | @written w1 _ hf h1 h2 h3 =>
      rw [if_neg hf, creates_iff.2 h1] at hopen
      cases ho : c.openOutput env w job with
      | mk r w2 =>
        rw [ho] at hopen
        cases r with
        | error e => cases hopen
        | ok s =>
          have he : w2 = w1 := congrArg Prod.snd hopen
          subst he
          have hs := openOutput_sink ho
          rw [if_neg hf] at hs
          subst hs
          have : env.os.write w2 (some (target c.baseDir job.file)) text =
              (none, env.os.append w2 (some (target c.baseDir job.file)) text) := by
            unfold Os.write
            simp only
            cases hw : env.os.writeErr w2 (target c.baseDir job.file) text with
            | none => rfl
            | some ke => simp only; rw [if_neg (Nat.not_lt.2 (h2 ke.1 ke.2 hw))]
          simp only [this, setFile_fits env.os w2 _ _ (created_empty h1), setsFile_iff.1 h3]
    | @cut w1 _ _ _ hf h1 h2 hk h3 =>
      rw [if_neg hf, creates_iff.2 h1] at hopen
      cases ho : c.openOutput env w job with
      | mk r w2 =>
        rw [ho] at hopen
        cases r with
        | error e => cases hopen
        | ok s =>
          have he : w2 = w1 := congrArg Prod.snd hopen
          subst he
          have hs := openOutput_sink ho
          rw [if_neg hf] at hs
          subst hs
          simp only [Os.write, h2, if_pos hk, setFile_fits env.os w2 _ _ (created_empty h1), setsFile_iff.1 h3]

theorem run_deliver (env : Env) (c : Controller) (w : World) (job : Job) :
    (match c.run env w job with
      | (.err e, w') => (JobEnd.failed e.display, w')
      | (.ok _, w') => (.done, w')
      | (.panic _, w') => (.panics, w')) =
    match deliver env c w job (Utf8.encode (c.output env job).text) with
    | (some m, w') => (.failed m, w')
    | (none, w') => if (c.output env job).panic = none then (.done, w') else (.panics, w') := by
  unfold run deliver
  cases c.openOutput env w job with
  | mk r w1 =>
    cases r with
    | error e => rfl
    | ok sink =>
      simp only
      cases env.os.write w1 sink (Utf8.encode (c.output env job).text) with
      | mk r w2 =>
        cases r with
        | some e => rfl
        | none =>
          simp only
          cases (c.output env job).panic with
          | none => rfl
          | some p => rfl

/-! ## Several jobs -/

section
variable {env : Env} {w0 : World} {config : Config} {base : Path} {c : Controller}

theorem output_panic (hn : Controller.new env w0 config base = .ok c) (job : Job) :
    (c.output env job).panic = none ↔ ¬ Unsupported job.query job.format := by
  constructor
  · intro h hu
    rw [output_unsupported env c job hu] at h
    cases h
  · exact (C18_no_panic hn).2.2.2 job

theorem output_report (hn : Controller.new env w0 config base = .ok c) (job : Job) (t : Str) :
    Report env.fmt c.graph job.query job.format t ↔ c.output env job = Out.put t := by
  obtain ⟨hk, hr⟩ := C18_consistent hn
  rw [← C85_report hk (C18_no_panic hn).1 hr]
  rfl

/-- How a job ended. -/
def endOf : Res JobSuccess → JobEnd
  | .err e => .failed e.display
  | .ok _ => .done
  | .panic _ => .panics

theorem jobRuns_iff (hn : Controller.new env w0 config base = .ok c) {job : Job} {w w' : World} {e : JobEnd} :
    ((endOf (c.run env w job).1 = e) ∧ (c.run env w job).2 = w') ↔ JobRuns env base c.graph job w e w' := by
  have hbase : c.baseDir = base := by obtain ⟨g, _, rfl⟩ := (C82_controller ..).1 hn; rfl
  have hrun := run_deliver env c w job
  have hlhs : ((endOf (c.run env w job).1 = e) ∧ (c.run env w job).2 = w') ↔
      (match c.run env w job with
        | (.err e, w') => (JobEnd.failed e.display, w')
        | (.ok _, w') => (.done, w')
        | (.panic _, w') => (.panics, w')) = (e, w') := by
    cases c.run env w job with
    | mk r w1 => cases r <;> simp [endOf]
  rw [hlhs, hrun]
  have hd : ∀ {m w'}, deliver env c w job (Utf8.encode (c.output env job).text) = (m, w') ↔
      Delivers env.os base job.file (Utf8.encode (c.output env job).text) w m w' := by
    intro m w'; rw [delivers_iff, hbase]
  by_cases hu : Unsupported job.query job.format
  · have hp : ¬ (c.output env job).panic = none := fun h => (output_panic hn job).1 h hu
    have ht : Utf8.encode (c.output env job).text = [] := by rw [output_unsupported env c job hu]; rfl
    rw [ht] at hd ⊢
    constructor
    · intro h
      cases hdel : deliver env c w job [] with
      | mk m w1 =>
        rw [hdel] at h
        cases m with
        | some m => cases h; exact .failed (t := []) (.inr ⟨hu, rfl⟩) (hd.1 hdel)
        | none =>
          simp only [if_neg hp] at h
          cases h
          exact .panics hu (hd.1 hdel)
    · intro h
      cases h with
      | done h => exact absurd (congrArg Out.panic ((output_report hn job _).1 h)) hp
      | failed h h' =>
        rcases h with h | ⟨_, rfl⟩
        · exact absurd (congrArg Out.panic ((output_report hn job _).1 h)) hp
        · rw [hd.2 h']
      | panics _ h' => rw [hd.2 h']; simp only [if_neg hp]
  · have hp : (c.output env job).panic = none := (output_panic hn job).2 hu
    have ho : c.output env job = Out.put (c.output env job).text := by
      cases h : c.output env job
      rw [h] at hp
      cases hp
      rfl
    have hr := (output_report hn job _).2 ho
    constructor
    · intro h
      cases hdel : deliver env c w job (Utf8.encode (c.output env job).text) with
      | mk m w1 =>
        rw [hdel] at h
        cases m with
        | some m => cases h; exact .failed (.inl hr) (hd.1 hdel)
        | none =>
          simp only [if_pos hp] at h
          cases h
          exact .done hr (hd.1 hdel)
    · have key : ∀ {t}, Report env.fmt c.graph job.query job.format t → t = (c.output env job).text := by
        intro t h
        rw [(output_report hn job t).1 h]
        rfl
      intro h
      cases h with
      | done h h' =>
        rw [key h] at h'
        rw [hd.2 h']; simp only [if_pos hp]
      | failed h h' =>
        rcases h with h | ⟨h, _⟩
        · rw [key h] at h'
          rw [hd.2 h']
        · exact absurd h hu
      | panics h => exact absurd h hu

theorem jobsRun_iff (hn : Controller.new env w0 config base = .ok c) (js : List Job) :
    ∀ {worst : JobSuccess} {w w' : World} {e : JobEnd},
      (endOf (c.runEach env js worst w).1 = e ∧ (c.runEach env js worst w).2 = w') ↔
        JobsRun env base c.graph js w e w' := by
  induction js with
  | nil =>
    intro worst w w' e
    constructor
    · rintro ⟨rfl, rfl⟩; exact .nil w
    · intro h; cases h; exact ⟨rfl, rfl⟩
  | cons j js ih =>
    intro worst w w' e
    have hj := fun {w' e} => @jobRuns_iff env w0 config base c hn j w w' e
    unfold runEach
    cases hr : c.run env w j with
    | mk r w1 =>
      rw [hr] at hj
      have hjr := hj.1 ⟨rfl, rfl⟩
      have hstop : ∀ e0, e0 ≠ .done → JobRuns env base c.graph j w e0 w1 →
          ((e0 = e ∧ w1 = w') ↔ JobsRun env base c.graph (j :: js) w e w') := by
        intro e0 hne h0
        have huniq : ∀ e' w'', JobRuns env base c.graph j w e' w'' → e' = e0 ∧ w'' = w1 := by
          intro e' w'' h'
          have h1 := hj.2 h'
          have h2 := hj.2 h0
          exact ⟨h1.1.symm.trans h2.1, h1.2.symm.trans h2.2⟩
        constructor
        · rintro ⟨rfl, rfl⟩; exact .stop hne h0
        · intro h
          cases h with
          | next h1 _ => exact absurd (huniq _ _ h1).1.symm hne
          | stop _ h1 => exact ⟨(huniq _ _ h1).1.symm, (huniq _ _ h1).2.symm⟩
      have hnext : JobRuns env base c.graph j w .done w1 → ∀ worst',
          ((endOf (c.runEach env js worst' w1).1 = e ∧ (c.runEach env js worst' w1).2 = w') ↔
            JobsRun env base c.graph (j :: js) w e w') := by
        intro h0 worst'
        rw [ih]
        have huniq : ∀ e' w'', JobRuns env base c.graph j w e' w'' → e' = .done ∧ w'' = w1 := by
          intro e' w'' h'
          have h1 := hj.2 h'
          have h2 := hj.2 h0
          exact ⟨h1.1.symm.trans h2.1, h1.2.symm.trans h2.2⟩
        constructor
        · exact fun h => .next h0 h
        · intro h
          cases h with
          | next h1 h2 =>
            obtain ⟨_, rfl⟩ := huniq _ _ h1
            exact h2
          | stop hne h1 => exact absurd (huniq _ _ h1).1 hne
      cases r with
      | err err => exact hstop _ (by simp [endOf]) hjr
      | panic p => exact hstop _ (by simp [endOf]) hjr
      | ok s => cases s <;> exact hnext hjr _

theorem done_of_jobsRun (hn : Controller.new env w0 config base = .ok c) {js : List Job} {w w' : World} {e : JobEnd}
    (h : JobsRun env base c.graph js w e w') (he : e = .done) : Done env c js w w' := by
  induction h with
  | nil w => exact .nil w
  | @next j js w w1 w' e h1 _ ih =>
    obtain ⟨h2, h3⟩ := (jobRuns_iff hn).2 h1
    cases hr : c.run env w j with
    | mk r w2 =>
      rw [hr] at h2 h3
      simp only at h2 h3
      subst h3
      cases r with
      | ok s => exact .cons hr (ih he)
      | err _ => cases h2
      | panic _ => cases h2
  | stop hne => exact absurd he hne

end

/-! ## C84: the program -/

theorem configComplaint_iff {env : Env} {w : World} {opt : Arguments} {m : Str} :
    Main.getConfig env w opt = .error m ↔ ConfigComplaint env w opt.configFile m := by
  constructor
  · intro h
    have horig := h
    unfold Main.getConfig at h
    cases ho : env.os.openFile w opt.configFile with
    | error e => rw [ho] at h; cases h; exact .closed ho
    | ok f =>
      obtain ⟨b, fail⟩ := f
      rw [ho] at h
      cases fail with
      | some e => cases h; exact .unreadable ho rfl
      | none =>
        simp only [bind, Except.bind] at h
        cases ht : env.tomlTree b with
        | error e =>
          have : env.toml b = .error e := by unfold Env.toml; rw [ht]
          rw [this] at h
          have hm : m = tomlText opt.configFile e := by
            obtain ⟨pos, e⟩ := e
            cases pos with
            | none => cases h; rfl
            | some lc => obtain ⟨l, k⟩ := lc; cases h; rfl
          subst hm
          exact .noToml ho rfl ht
        | ok t =>
          cases hcfg : ConfigRead.toConfig t with
          | none =>
            have : env.toml b = .error (env.tomlErr b) := by unfold Env.toml; rw [ht]; simp only [hcfg]
            rw [this] at h
            have hm : m = tomlText opt.configFile (env.tomlErr b) := by
              generalize env.tomlErr b = e at h
              obtain ⟨pos, e⟩ := e
              cases pos with
              | none => cases h; rfl
              | some lc => obtain ⟨l, k⟩ := lc; cases h; rfl
            subst hm
            refine .noConfig ho rfl ht (fun config hc => ?_)
            rw [← C78_config, hcfg] at hc
            cases hc
          | some cfg =>
            have : env.toml b = .ok cfg := by unfold Env.toml; rw [ht]; simp only [hcfg]
            rw [this] at h
            simp only at h
            cases hv : cfg.version with
            | none => rw [hv] at h; cases h
            | some v =>
              rw [hv] at h
              simp only at h
              split at h
              · next hlt => cases h; exact .version ho rfl ht ((C78_config ..).1 hcfg) hv hlt
              · cases h
  · have hpos : ∀ {e : Option (Nat × Nat) × Str} {b : Bytes}, env.os.openFile w opt.configFile = .ok ⟨b, none⟩ →
        env.toml b = .error e → Main.getConfig env w opt = .error (tomlText opt.configFile e) := by
      intro e b ho ht
      unfold Main.getConfig
      rw [ho]
      simp only [bind, Except.bind, ht]
      obtain ⟨pos, e⟩ := e
      cases pos with
      | none => rfl
      | some lc => rfl
    intro h
    cases h with
    | closed ho => unfold Main.getConfig; rw [ho]; rfl
    | @unreadable f e ho hf =>
      obtain ⟨b, fail⟩ := f
      cases hf
      unfold Main.getConfig; rw [ho]; rfl
    | @noToml f e ho hf ht =>
      obtain ⟨b, fail⟩ := f
      cases hf
      exact hpos ho (by unfold Env.toml; rw [ht])
    | @noConfig f t ho hf ht hc =>
      obtain ⟨b, fail⟩ := f
      cases hf
      refine hpos ho ?_
      unfold Env.toml
      rw [ht]
      simp only
      cases hcfg : ConfigRead.toConfig t with
      | none => rfl
      | some cfg => exact absurd ((C78_config ..).1 hcfg) (hc cfg)
    | @version f t cfg v ho hf ht hc hv hlt =>
      obtain ⟨b, fail⟩ := f
      cases hf
      have : env.toml b = .ok cfg := by unfold Env.toml; rw [ht]; simp only [(C78_config ..).2 hc]
      unfold Main.getConfig
      rw [ho]
      simp only [bind, Except.bind, this, hv]
      exact if_pos hlt

theorem findsFault_iff {env : Env} {w : World} {config : Config} {base : Path} {c : Controller}
    (hn : Controller.new env w config base = .ok c) (j : Job) : Detects c j ↔ FindsFault c.graph j := by
  obtain ⟨g, _, rfl⟩ := (C82_controller ..).1 hn
  exact Iff.rfl

theorem jobsOf_prefix {jobs : BMap Str Job} {ns : List Str} (h : ∀ n ∈ ns, (jobs.get n).isSome) :
    ∃ js, JobsOf jobs ns js := by
  induction ns with
  | nil => exact ⟨[], .nil⟩
  | cons n ns ih =>
    obtain ⟨js, hjs⟩ := ih (fun m hm => h m (List.mem_cons_of_mem _ hm))
    obtain ⟨j, hj⟩ := Option.isSome_iff_exists.1 (h n (List.mem_cons_self ..))
    exact ⟨j :: js, .cons hj hjs⟩

/-- The program does something that is a run. -/
theorem main_ends (env : Env) (opt : Arguments) (w : World) :
    ProgramEnds env opt w (Main.main env opt w).1 (Main.main env opt w).2 := by
  unfold Main.main Main.tryMain
  cases hc : Main.getConfig env w opt with
  | error m => exact .badConfig (configComplaint_iff.1 hc) (complains_iff.2 rfl)
  | ok config =>
    have hgood := (getConfig_ok ..).1 hc
    simp only
    cases hn : Controller.new env w config opt.baseDir with
    | error p =>
      refine .noInput hgood (fun g hg => ?_)
      have := (C82_controller env w config opt.baseDir _).2 ⟨g, hg, rfl⟩
      rw [hn] at this
      cases this
    | ok c =>
      obtain ⟨g, hg, hcg⟩ := (C82_controller ..).1 hn
      have hgr : c.graph = g := by rw [hcg]
      have hdef : c.defaultJobs = config.defaultJobs.getD [] := by rw [hcg]
      have hjobs : c.jobs = config.jobs.getD .empty := by rw [hcg]
      simp only
      have hrun : Main.runCliJobs env c opt w = if requested config opt = []
          then (.err (.config c!"no default_jobs configured"), w) else c.runJobsByName env (requested config opt) w := by
        unfold Main.runCliJobs runDefaultJobs requested
        rw [hdef]
        by_cases h1 : opt.jobs = []
        · simp only [h1, ↓reduceIte]
          by_cases h2 : config.defaultJobs.getD [] = [] <;> simp [h2]
        · simp [h1]
      rw [hrun]
      by_cases hq : requested config opt = []
      · rw [if_pos hq]
        exact .noJobs hgood hg hq (complains_iff.2 rfl)
      · rw [if_neg hq]
        rcases runJobsByName_cases env c (requested config opt) w with ⟨pre, n, post, h1, h2, h3, h4⟩ | ⟨js, h1, h2⟩
        · rw [h4]
          rw [hjobs] at h2 h3
          obtain ⟨js, hjs⟩ := jobsOf_prefix h2
          exact .unknownJob hgood hg h1 hjs h3 (complains_iff.2 rfl)
        · rw [h2]
          rw [hjobs] at h1
          cases hr : c.runEach env js .success w with
          | mk r w' =>
            have hj := (jobsRun_iff hn js (worst := .success) (w := w)).1 ⟨rfl, rfl⟩
            rw [hr, hgr] at hj
            cases r with
            | err e => exact .failed hgood hg h1 hj (complains_iff.2 rfl)
            | panic p => exact .panics hgood hg h1 hj
            | ok s =>
              have hs := runEach_ok js hr
              have hiff : s = .errorsDetected ↔ ∃ j ∈ js, Sets j ∧ FindsFault g j := by
                rw [hs.2]
                simp only [reduceCtorEq, false_or]
                have : ∀ j, Detects c j ↔ FindsFault g j := fun j => by rw [findsFault_iff hn, hgr]
                simp only [this]
              cases s with
              | success => exact .fine hgood hg hq h1 hj (fun h => by cases hiff.2 h)
              | errorsDetected => exact .fault hgood hg hq h1 hj (hiff.1 rfl)

theorem jobRuns_unique {env : Env} {w0 : World} {config : Config} {base : Path} {g : Graph}
    (hg : IsInput env w0 config base g) {j : Job} {w a b : World} {e e' : JobEnd} (h : JobRuns env base g j w e a)
    (h' : JobRuns env base g j w e' b) : e = e' ∧ a = b := by
  have hn := (C82_controller env w0 config base _).2 ⟨g, hg, rfl⟩
  have h1 := (jobRuns_iff hn (e := e)).2 h
  have h2 := (jobRuns_iff hn (e := e')).2 h'
  exact ⟨h1.1.symm.trans h2.1, h1.2.symm.trans h2.2⟩

theorem jobsRun_unique {env : Env} {w0 : World} {config : Config} {base : Path} {g : Graph}
    (hg : IsInput env w0 config base g) {js : List Job} {w a b : World} {e e' : JobEnd} (h : JobsRun env base g js w e a)
    (h' : JobsRun env base g js w e' b) : e = e' ∧ a = b := by
  have hn := (C82_controller env w0 config base _).2 ⟨g, hg, rfl⟩
  have h1 := (jobsRun_iff hn js (worst := .success) (e := e)).2 h
  have h2 := (jobsRun_iff hn js (worst := .success) (e := e')).2 h'
  exact ⟨h1.1.symm.trans h2.1, h1.2.symm.trans h2.2⟩

theorem complains_unique {t : Str} {w a b : World} (h : Complains t w a) (h' : Complains t w b) : a = b :=
  (complains_iff.1 h).trans (complains_iff.1 h').symm

theorem configComplaint_unique {env : Env} {w : World} {opt : Arguments} {a b : Str}
    (h : ConfigComplaint env w opt.configFile a) (h' : ConfigComplaint env w opt.configFile b) : a = b := by
  rw [← configComplaint_iff] at h h'
  rw [h] at h'
  cases h'; rfl

theorem jobsOf_unknown {jobs : BMap Str Job} {pre post : List Str} {n : Str} {js : List Job}
    (h : JobsOf jobs (pre ++ n :: post) js) (hn : jobs.get n = none) : False := by
  obtain ⟨j, hj⟩ := h.known n (by simp)
  rw [hn] at hj
  cases hj

theorem first_unknown {jobs : BMap Str Job} {pre : List Str} : ∀ {pre' post post' : List Str} {n n' : Str} {js js' : List Job},
    pre ++ n :: post = pre' ++ n' :: post' → JobsOf jobs pre js → JobsOf jobs pre' js' → jobs.get n = none →
      jobs.get n' = none → n = n' := by
  induction pre with
  | nil =>
    intro pre' post post' n n' js js' h _ h2 h3 _
    cases pre' with
    | nil => cases h; rfl
    | cons x pre' =>
      cases h
      cases h2 with
      | cons h4 _ => rw [h3] at h4; cases h4
  | cons x pre ih =>
    intro pre' post post' n n' js js' h h1 h2 h3 h4
    cases pre' with
    | nil =>
      cases h
      cases h1 with
      | cons h5 _ => rw [h4] at h5; cases h5
    | cons y pre' =>
      cases h1 with
      | cons _ h1 =>
        cases h2 with
        | cons _ h2 =>
          simp only [List.cons_append, List.cons.injEq] at h
          exact ih h.2 h1 h2 h3 h4

/-- **C84** The specification leaves no choice. -/
theorem C84_determined {env : Env} {opt : Arguments} {w a b : World} {m n : Nat} (h : ProgramEnds env opt w m a)
    (h' : ProgramEnds env opt w n b) : m = n ∧ a = b := by
  have bad : ∀ {t config}, ConfigComplaint env w opt.configFile t → ¬ GoodConfig env w opt.configFile config := by
    intro t config h1 h2
    have h1 := configComplaint_iff.2 h1
    rw [(getConfig_ok ..).2 h2] at h1
    cases h1
  cases h with
  | badConfig h1 h2 =>
    cases h' with
    | badConfig h3 h4 => cases configComplaint_unique h1 h3; exact ⟨rfl, complains_unique h2 h4⟩
    | noInput h3 => exact absurd h3 (bad h1)
    | noJobs h3 => exact absurd h3 (bad h1)
    | unknownJob h3 => exact absurd h3 (bad h1)
    | failed h3 => exact absurd h3 (bad h1)
    | panics h3 => exact absurd h3 (bad h1)
    | fault h3 => exact absurd h3 (bad h1)
    | fine h3 => exact absurd h3 (bad h1)
  | noInput h1 h2 =>
    cases h' with
    | badConfig h3 => exact absurd h1 (bad h3)
    | noInput => exact ⟨rfl, rfl⟩
    | noJobs h3 h4 => cases GoodConfig_unique h1 h3; exact absurd h4 (h2 _)
    | unknownJob h3 h4 => cases GoodConfig_unique h1 h3; exact absurd h4 (h2 _)
    | failed h3 h4 => cases GoodConfig_unique h1 h3; exact absurd h4 (h2 _)
    | panics h3 h4 => cases GoodConfig_unique h1 h3; exact absurd h4 (h2 _)
    | fault h3 h4 => cases GoodConfig_unique h1 h3; exact absurd h4 (h2 _)
    | fine h3 h4 => cases GoodConfig_unique h1 h3; exact absurd h4 (h2 _)
  | noJobs h1 h2 hq hc =>
    have hnil : ∀ {js : List Job} {config : Config}, JobsOf (config.jobs.getD .empty) [] js → js = [] := by
      intro js config h; cases h; rfl
    cases h' with
    | badConfig h3 => exact absurd h1 (bad h3)
    | noInput h3 h4 => cases GoodConfig_unique h1 h3; exact absurd h2 (h4 _)
    | noJobs h3 h4 _ hc' => exact ⟨rfl, complains_unique hc hc'⟩
    | unknownJob h3 h4 h5 => cases GoodConfig_unique h1 h3; rw [hq] at h5; simp at h5
    | failed h3 h4 h5 h6 =>
      cases GoodConfig_unique h1 h3
      rw [hq] at h5
      cases hnil h5
      cases h6
    | panics h3 h4 h5 h6 =>
      cases GoodConfig_unique h1 h3
      rw [hq] at h5
      cases hnil h5
      cases h6
    | fault h3 h4 h5 => cases GoodConfig_unique h1 h3; exact absurd hq h5
    | fine h3 h4 h5 => cases GoodConfig_unique h1 h3; exact absurd hq h5
  | unknownJob h1 h2 hq hjs hnone hc =>
    cases h' with
    | badConfig h3 => exact absurd h1 (bad h3)
    | noInput h3 h4 => cases GoodConfig_unique h1 h3; exact absurd h2 (h4 _)
    | noJobs h3 h4 h5 => cases GoodConfig_unique h1 h3; rw [h5] at hq; simp at hq
    | unknownJob h3 h4 h5 h6 h7 h8 =>
      cases GoodConfig_unique h1 h3
      cases first_unknown (hq.symm.trans h5) hjs h6 hnone h7
      exact ⟨rfl, complains_unique hc h8⟩
    | failed h3 h4 h5 => cases GoodConfig_unique h1 h3; rw [hq] at h5; exact (jobsOf_unknown h5 hnone).elim
    | panics h3 h4 h5 => cases GoodConfig_unique h1 h3; rw [hq] at h5; exact (jobsOf_unknown h5 hnone).elim
    | fault h3 h4 _ h5 => cases GoodConfig_unique h1 h3; rw [hq] at h5; exact (jobsOf_unknown h5 hnone).elim
    | fine h3 h4 _ h5 => cases GoodConfig_unique h1 h3; rw [hq] at h5; exact (jobsOf_unknown h5 hnone).elim
  | failed h1 h2 hjs hrun hc =>
    cases h' with
    | badConfig h3 => exact absurd h1 (bad h3)
    | noInput h3 h4 => cases GoodConfig_unique h1 h3; exact absurd h2 (h4 _)
    | noJobs h3 h4 h5 =>
      cases GoodConfig_unique h1 h3
      rw [h5] at hjs
      cases hjs
      cases hrun
    | unknownJob h3 h4 h5 h6 h7 => cases GoodConfig_unique h1 h3; rw [h5] at hjs; exact (jobsOf_unknown hjs h7).elim
    | failed h3 h4 h5 h6 h7 =>
      cases GoodConfig_unique h1 h3
      cases C82_determined h2 h4
      cases hjs.unique h5
      obtain ⟨he, rfl⟩ := jobsRun_unique h2 hrun h6
      cases he
      exact ⟨rfl, complains_unique hc h7⟩
    | panics h3 h4 h5 h6 =>
      cases GoodConfig_unique h1 h3
      cases C82_determined h2 h4
      cases hjs.unique h5
      cases (jobsRun_unique h2 hrun h6).1
    | fault h3 h4 _ h5 h6 =>
      cases GoodConfig_unique h1 h3
      cases C82_determined h2 h4
      cases hjs.unique h5
      cases (jobsRun_unique h2 hrun h6).1
    | fine h3 h4 _ h5 h6 =>
      cases GoodConfig_unique h1 h3
      cases C82_determined h2 h4
      cases hjs.unique h5
      cases (jobsRun_unique h2 hrun h6).1
  | panics h1 h2 hjs hrun =>
    cases h' with
    | badConfig h3 => exact absurd h1 (bad h3)
    | noInput h3 h4 => cases GoodConfig_unique h1 h3; exact absurd h2 (h4 _)
    | noJobs h3 h4 h5 =>
      cases GoodConfig_unique h1 h3
      rw [h5] at hjs
      cases hjs
      cases hrun
    | unknownJob h3 h4 h5 h6 h7 => cases GoodConfig_unique h1 h3; rw [h5] at hjs; exact (jobsOf_unknown hjs h7).elim
    | failed h3 h4 h5 h6 h7 =>
      cases GoodConfig_unique h1 h3
      cases C82_determined h2 h4
      cases hjs.unique h5
      cases (jobsRun_unique h2 hrun h6).1
    | panics h3 h4 h5 h6 =>
      cases GoodConfig_unique h1 h3
      cases C82_determined h2 h4
      cases hjs.unique h5
      exact ⟨rfl, (jobsRun_unique h2 hrun h6).2⟩
    | fault h3 h4 _ h5 h6 =>
      cases GoodConfig_unique h1 h3
      cases C82_determined h2 h4
      cases hjs.unique h5
      cases (jobsRun_unique h2 hrun h6).1
    | fine h3 h4 _ h5 h6 =>
      cases GoodConfig_unique h1 h3
      cases C82_determined h2 h4
      cases hjs.unique h5
      cases (jobsRun_unique h2 hrun h6).1
  | fault h1 h2 hq hjs hrun hf =>
    cases h' with
    | badConfig h3 => exact absurd h1 (bad h3)
    | noInput h3 h4 => cases GoodConfig_unique h1 h3; exact absurd h2 (h4 _)
    | noJobs h3 h4 h5 => cases GoodConfig_unique h1 h3; exact absurd h5 hq
    | unknownJob h3 h4 h5 h6 h7 => cases GoodConfig_unique h1 h3; rw [h5] at hjs; exact (jobsOf_unknown hjs h7).elim
    | failed h3 h4 h5 h6 h7 =>
      cases GoodConfig_unique h1 h3
      cases C82_determined h2 h4
      cases hjs.unique h5
      cases (jobsRun_unique h2 hrun h6).1
    | panics h3 h4 h5 h6 =>
      cases GoodConfig_unique h1 h3
      cases C82_determined h2 h4
      cases hjs.unique h5
      cases (jobsRun_unique h2 hrun h6).1
    | fault h3 h4 _ h5 h6 =>
      cases GoodConfig_unique h1 h3
      cases C82_determined h2 h4
      cases hjs.unique h5
      exact ⟨rfl, (jobsRun_unique h2 hrun h6).2⟩
    | fine h3 h4 _ h5 _ h6 =>
      cases GoodConfig_unique h1 h3
      cases C82_determined h2 h4
      cases hjs.unique h5
      exact absurd hf h6
  | fine h1 h2 hq hjs hrun hf =>
    cases h' with
    | badConfig h3 => exact absurd h1 (bad h3)
    | noInput h3 h4 => cases GoodConfig_unique h1 h3; exact absurd h2 (h4 _)
    | noJobs h3 h4 h5 => cases GoodConfig_unique h1 h3; exact absurd h5 hq
    | unknownJob h3 h4 h5 h6 h7 => cases GoodConfig_unique h1 h3; rw [h5] at hjs; exact (jobsOf_unknown hjs h7).elim
    | failed h3 h4 h5 h6 h7 =>
      cases GoodConfig_unique h1 h3
      cases C82_determined h2 h4
      cases hjs.unique h5
      cases (jobsRun_unique h2 hrun h6).1
    | panics h3 h4 h5 h6 =>
      cases GoodConfig_unique h1 h3
      cases C82_determined h2 h4
      cases hjs.unique h5
      cases (jobsRun_unique h2 hrun h6).1
    | fault h3 h4 _ h5 _ h6 =>
      cases GoodConfig_unique h1 h3
      cases C82_determined h2 h4
      cases hjs.unique h5
      exact absurd h6 hf
    | fine h3 h4 _ h5 h6 =>
      cases GoodConfig_unique h1 h3
      cases C82_determined h2 h4
      cases hjs.unique h5
      exact ⟨rfl, (jobsRun_unique h2 hrun h6).2⟩

/-- **C84** The program does exactly what is specified: exit code, standard output, standard error, files and
directories. -/
theorem C84_program (env : Env) (opt : Arguments) (w w' : World) (code : Nat) :
    Main.main env opt w = (code, w') ↔ ProgramEnds env opt w code w' := by
  constructor
  · intro h
    have := main_ends env opt w
    rw [h] at this
    exact this
  · intro h
    obtain ⟨h1, h2⟩ := C84_determined (main_ends env opt w) h
    exact Prod.ext h1 h2

/-- A run without faults, a run that finds a fault, and a run asked for a job that does not exist. -/
example :
    (∃ w', ProgramEnds (CtrlExample.env CtrlExample.covering CtrlExample.clean)
      ⟨c!"requirements.toml", c!"p", [c!"trace"]⟩ (CtrlExample.world CtrlExample.cleanFiles) 0 w') ∧
    (∃ w', ProgramEnds (CtrlExample.env RustExample.file CtrlExample.config)
      ⟨c!"requirements.toml", c!"p", []⟩ (CtrlExample.world CtrlExample.files) 1 w') ∧
    (∃ w', ProgramEnds (CtrlExample.env RustExample.file CtrlExample.config)
      ⟨c!"requirements.toml", c!"p", [c!"trace", c!"x"]⟩ (CtrlExample.world CtrlExample.files) 2 w' ∧
      w'.stderr = Utf8.encode c!"Unknown Job x\n") := by
  refine ⟨⟨_, (C84_program _ _ _ _ _).1 (Prod.ext ?_ rfl)⟩, ⟨_, (C84_program _ _ _ _ _).1 (Prod.ext ?_ rfl)⟩,
    ⟨_, (C84_program _ _ _ _ _).1 (Prod.ext ?_ rfl), ?_⟩⟩ <;> decide +kernel

end Reqtrace
