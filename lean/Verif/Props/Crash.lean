import Verif.Spec.Crash
import Verif.Props.Run
import Verif.Props.Whole

/-!
# C159: when the program crashes
-/

namespace Reqtrace

open Reqtrace.Spec Rs

namespace Crash

theorem jobsRun_panics {env : Env} {base : Path} {g : Graph} : ∀ {js : List Job} {w w' : World},
    JobsRun env base g js w .panics w' ↔ ∃ pre j post w1, js = pre ++ j :: post ∧ JobsRun env base g pre w .done w1 ∧
      Unsupported j.query j.format ∧ Delivers env.os base j.file [] w1 none w'
  | [], w, w' => by
    constructor
    · intro h; cases h
    · rintro ⟨pre, j, post, w1, h, -⟩
      simp at h
  | j :: js, w, w' => by
    constructor
    · intro h
      cases h with
      | next h1 h2 =>
        obtain ⟨pre, k, post, w1, rfl, k2, k3⟩ := jobsRun_panics.1 h2
        exact ⟨j :: pre, k, post, w1, rfl, .next h1 k2, k3⟩
      | stop _ h1 =>
        cases h1 with
        | panics h2 h3 => exact ⟨[], j, js, w, rfl, .nil _, h2, h3⟩
    · rintro ⟨pre, k, post, w1, h1, h2, h3, h4⟩
      cases pre with
      | nil =>
        cases h1
        cases h2
        exact .stop (fun e => by cases e) (.panics h3 h4)
      | cons x pre =>
        cases h1
        cases h2 with
        | next k1 k2 => exact .next k1 (jobsRun_panics.2 ⟨pre, k, post, w1, rfl, k2, h3, h4⟩)
        | stop k1 _ => exact absurd rfl k1

end Crash

/-- What one wants: the program never crashes. -/
def C159_statement : Prop := ∀ (env : Env) (opt : Arguments) (w : World), (Main.main env opt w).1 ≠ 101

/-- **C159** The program crashes exactly in five cases. -/
theorem C159_crash_partial (env : Env) (opt : Arguments) (w : World) (hn : NamesGiven env.syn) :
    (Main.main env opt w).1 = 101 ↔ Crashes env opt w := by
  have he : (Main.main env opt w).1 = 101 ↔ ∃ w', ProgramEnds env opt w 101 w' := by
    constructor
    · intro h
      refine ⟨(Main.main env opt w).2, (C84_program _ _ _ _ _).1 ?_⟩
      rw [← h]
    · rintro ⟨w', h⟩
      rw [(C84_program _ _ _ _ _).2 h]
  rw [he]
  constructor
  · rintro ⟨w', h⟩
    generalize hc : 101 = code at h
    cases h with
    | badConfig => cases hc
    | noInput hg h =>
      rcases (C82_none_iff env w _ opt.baseDir).1 (fun ⟨g, hg⟩ => h g hg) with h | ⟨ac, h1, fs, h2, p, h3, file, h4, h5⟩
      · exact .relation hg h
      · have h6 := (C82_no_meaning env p file ac.parser (hn p)).1 h5
        rcases h2 with ⟨k1, k2, k3⟩ | ⟨k1, q, k2, rfl⟩
        · rw [k1] at h6
          obtain ⟨text, tree, rfl, m1, o, m2, m3, m4, m5⟩ := h6
          exact .rust hg h1 k1 k2 k3 h3 h4 m1 m2 m3 m4 m5
        · obtain rfl := List.mem_singleton.1 h3
          cases hp : ac.parser with
          | rust => exact absurd hp k1
          | markdown =>
            rw [hp] at h6
            obtain ⟨text, failure, m1, m2⟩ := h6
            exact .markdown hg h1 hp k2 h4 m1 m2
          | monoRequirement => rw [hp] at h6; exact .mono hg h1 hp k2 h4 h6
          | json => rw [hp] at h6; exact h6.elim
    | noJobs => cases hc
    | unknownJob => cases hc
    | failed => cases hc
    | panics hg hi hj hr =>
      obtain ⟨pre, j, post, w1, rfl, k1, k2, k3⟩ := Crash.jobsRun_panics.1 hr
      exact .format hg hi hj k1 k2 k3
    | fault => cases hc
    | fine => cases hc
  · have none : ∀ {config}, GoodConfig env w opt.configFile config → (¬ RelationsConfigured config ∨
        ∃ ac ∈ config.artefacts, ∃ fs, FilesOf env w ac opt.baseDir fs ∧ ∃ p ∈ fs, NoMeaning env w ac.parser p) →
        ∃ w', ProgramEnds env opt w 101 w' := fun hg h =>
      ⟨w, .noInput hg fun g hi => (C82_none_iff env w _ opt.baseDir).2 h ⟨g, hi⟩⟩
    intro h
    cases h with
    | relation hg h => exact none hg (.inl h)
    | markdown hg h1 h2 h3 h4 h5 h6 =>
      refine none hg (.inr ⟨_, h1, _, .inr ⟨by rw [h2]; decide, _, h3, rfl⟩, _, .head _, _, h4, ?_⟩)
      rw [C82_no_meaning env _ _ _ (hn _), h2]
      exact ⟨_, _, h5, h6⟩
    | mono hg h1 h2 h3 h4 h5 =>
      refine none hg (.inr ⟨_, h1, _, .inr ⟨by rw [h2]; decide, _, h3, rfl⟩, _, .head _, _, h4, ?_⟩)
      rw [C82_no_meaning env _ _ _ (hn _), h2]
      exact h5
    | rust hg h1 h2 h3 h4 h5 h6 h7 h8 h9 h10 h11 =>
      refine none hg (.inr ⟨_, h1, _, .inl ⟨h2, h3, h4⟩, _, h5, _, h6, ?_⟩)
      rw [C82_no_meaning env _ _ _ (hn _), h2]
      exact ⟨_, _, rfl, h7, _, h8, h9, h10, h11⟩
    | format hg hi hj h1 h2 h3 => exact ⟨_, .panics hg hi hj (Crash.jobsRun_panics.2 ⟨_, _, _, _, rfl, h1, h2, h3⟩)⟩

/-- C159 is false: a misspelt artefact in a relation suffices. -/
theorem C159_false : ¬ C159_statement := fun h => h _ _ _ CtrlExample.typo_exit

namespace CrashExample

open CtrlExample (os env world args)

theorem names (f : Forest) (h : f = .nil ∨ ∃ m, f = .mac m .nil) : NamesGiven (RustExample.synOf f) := by
  intro path text tree ht o ho n hn
  cases ht
  rcases h with rfl | ⟨m, rfl⟩
  · simp [occs] at ho
  · simp only [occs, List.mem_singleton] at ho
    rw [ho] at hn
    simp at hn

/-- A project of one artefact, traced or exported in some format. -/
def project (ac : ArtefactConfig) (query : Query) (format : Format) : Config :=
  ⟨none, [ac], [], some (BMap.ofList [(c!"all", ⟨query, format, c!"-", none⟩)]), some [c!"all"]⟩

def notes : ArtefactConfig := ⟨c!"NOTES", [c!"notes.md"], .markdown, none, none⟩
def issue : ArtefactConfig := ⟨c!"ISSUE", [c!"Issue1.txt"], .monoRequirement, none, none⟩
def code : ArtefactConfig := ⟨c!"CODE", [c!"a.rs"], .rust, none, none⟩

/-- A mark at the top of a file of code. -/
def stray : Forest := .mac (RustExample.mark 1 [RustExample.lit c!"\"REQ_A\"" 1 22]) .nil

def files (text : Str) : World :=
  world [(c!"p/notes.md", text), (c!"p/a.rs", c!"..."), (c!"requirements.toml", c!"...")]

/-- A file that is not UTF-8. -/
def binary : World := { files [] with
  files := fun p => if p == c!"p/Issue1.txt" then some [255] else (files []).files p }

theorem good (f : Forest) (ac : ArtefactConfig) (query : Query) (format : Format) (w : World)
    (hw : os.openFile w c!"requirements.toml" = .ok ⟨Utf8.encode c!"...", none⟩) :
    GoodConfig (env f (project ac query format)) w args.configFile (project ac query format) :=
  ⟨_, _, hw, rfl, rfl, (C78_config _ _).1 (ConfigRead.C78_written _ (fun v hv => by cases hv)), fun v hv => by cases hv⟩

/-- Notes of which the last line is a single character without line feed crash the program, -/
example : (Main.main (env .nil (project notes .parse .json)) args (files c!"# REQ_A: title\n-")).1 = 101 :=
  (C159_crash_partial _ _ _ (names _ (.inl rfl))).2 <|
    .markdown (ac := notes) (p := c!"notes.md") (file := ⟨Utf8.encode c!"# REQ_A: title\n-", none⟩)
      (text := c!"# REQ_A: title\n-") (failure := none) (good _ _ _ _ _ (by decide +kernel)) (.head _) rfl rfl
      (by decide +kernel) ((readLines_iff _ _ _).2 (by decide +kernel))
      ⟨c!"# REQ_A: title\n", '-', rfl, by decide, by decide, .inr rfl⟩

/-- but not if the line feed is there; -/
example : (Main.main (env .nil (project notes .parse .json)) args (files c!"# REQ_A: title\n-\n")).1 = 0 := by decide +kernel

/-- a mono requirement that is not text does, -/
example : (Main.main (env .nil (project issue .parse .json)) args binary).1 = 101 :=
  (C159_crash_partial _ _ _ (names _ (.inl rfl))).2 <|
    .mono (ac := issue) (p := c!"Issue1.txt") (file := ⟨[255], none⟩) (good _ _ _ _ _ (by decide +kernel)) (.head _) rfl rfl
      (by decide +kernel) (fun text h => by
        have h1 : File.whole ⟨[255], none⟩ = File.whole ⟨Utf8.encode text, none⟩ := congrArg _ h
        rw [File.whole_encode] at h1
        exact absurd ((by decide +kernel : (File.whole ⟨[255], none⟩).failure.isSome = true).symm.trans
          (congrArg (fun s => Source.failure s |>.isSome) h1)) (by simp))

/-- but not if it is missing; -/
example : (Main.main (env .nil (project issue .parse .json)) args (files [])).1 = 1 := by decide +kernel

/-- a mark outside of all items does; -/
example : (Main.main (env stray (project code .parse .json)) args (files [])).1 = 101 :=
  (C159_crash_partial _ _ _ (names _ (.inr ⟨_, rfl⟩))).2 <|
    .rust (ac := code) (fs := [c!"p/a.rs"]) (p := c!"p/a.rs") (text := c!"...") (tree := stray)
      (o := ⟨[], none, RustExample.mark 1 [RustExample.lit c!"\"REQ_A\"" 1 22]⟩) (good _ _ _ _ _ (by decide +kernel))
      (.head _) rfl (by decide) (.cons (fs := [c!"p/a.rs"]) rfl .nil) (.head _) (by decide +kernel) rfl (.head _) rfl
      ⟨c!"REQ_A", none, .inr (.inl ⟨_, rfl, rfl, ⟨rfl, rfl, rfl⟩, rfl⟩)⟩ rfl

/-- the format of tags does for a trace, though the documentation of the tool has it; -/
example : (Main.main (env .nil (project notes .trace .tags)) args (files [])).1 = 101 :=
  (C159_crash_partial _ _ _ (names _ (.inl rfl))).2 <| by
    have h : (Controller.new (env .nil (project notes .trace .tags)) (files []) (project notes .trace .tags) c!"p").toOption.isSome := by
      decide +kernel
    cases hc : Controller.new (env .nil (project notes .trace .tags)) (files []) (project notes .trace .tags) c!"p" with
    | error p => rw [hc] at h; cases h
    | ok c =>
      exact .format (pre := []) (post := []) (j := ⟨.trace, .tags, c!"-", none⟩) (good _ _ _ _ _ (by decide +kernel))
        (new_isInput hc) (.cons rfl .nil) (.nil _) trivial (.printed rfl (fun k e h => by cases h)
          (w' := { files [] with stdout := [], time := 1 }) ⟨rfl, rfl, rfl, rfl, rfl⟩)

/-- for the requirements it does not. -/
example : (Main.main (env .nil (project notes .parse .tags)) args (files [])).1 = 0 := by decide +kernel

/-- The project with notes crashes in no other way. -/
example (text : Str) (h : ¬ OneByteTail text) :
    (Main.main (env .nil (project notes .parse .json)) args (files text)).1 ≠ 101 := by
  intro hc
  have hgood := good .nil notes .parse .json (files text) (by with_unfolding_all rfl)
  cases (C159_crash_partial _ _ _ (names _ (.inl rfl))).1 hc with
  | relation hg hr => 
    cases GoodConfig_unique hg hgood
    exact hr (fun rel hrel => by cases hrel)
  | markdown hg h1 h2 h3 h4 h5 h6 =>
    cases GoodConfig_unique hg hgood
    obtain rfl := List.mem_singleton.1 h1
    cases h3
    rw [show (env .nil (project notes .parse .json)).os.openFile (files text) (target args.baseDir c!"notes.md") =
      .ok ⟨Utf8.encode text, none⟩ from by with_unfolding_all rfl] at h4
    cases h4
    rw [readLines_iff, File.lines_encode] at h5
    cases h5
    exact h h6
  | mono hg h1 h2 => 
    cases GoodConfig_unique hg hgood
    obtain rfl := List.mem_singleton.1 h1
    cases h2
  | rust hg h1 h2 => 
    cases GoodConfig_unique hg hgood
    obtain rfl := List.mem_singleton.1 h1
    cases h2
  | format hg hi hj hr hu hd =>
    cases GoodConfig_unique hg hgood
    obtain ⟨n, h1, h2⟩ := (hj.mem _).1 (List.mem_append_right _ (.head _))
    obtain rfl := List.mem_singleton.1 h1
    cases h2
    exact hu

end CrashExample

end Reqtrace
