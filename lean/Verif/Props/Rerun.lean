import Verif.Props.Run
import Verif.Spec.Rerun

/-!
# C88, C89: runs in different states, and with configurations in another order
-/

namespace Reqtrace

open Spec CtrlExample Controller

/-! ## Effects -/

theorem Spec.SameEffect.none (w v : World) : SameEffect w w v v :=
  ⟨⟨fun _ => .none, fun _ => ⟨fun _ => ⟨rfl, rfl⟩, fun _ h => by cases h⟩⟩, ⟨fun _ => False, fun _ => by simp⟩,
    ⟨[], by simp⟩, ⟨[], by simp⟩⟩

theorem Spec.SameEffect.trans {w w1 w2 v v1 v2 : World} (h : SameEffect w w1 v v1) (h' : SameEffect w1 w2 v1 v2) :
    SameEffect w w2 v v2 := by
  obtain ⟨⟨f, hf⟩, ⟨d, hd⟩, ⟨o, ho1, ho2⟩, ⟨e, he1, he2⟩⟩ := h
  obtain ⟨⟨f', hf'⟩, ⟨d', hd'⟩, ⟨o', ho1', ho2'⟩, ⟨e', he1', he2'⟩⟩ := h'
  refine ⟨⟨fun q => (f' q).or (f q), fun q => ?_⟩, ⟨fun q => d q ∨ d' q, fun q => ?_⟩, ⟨o ++ o', ?_⟩, ⟨e ++ e', ?_⟩⟩
  · cases hq : f' q with
    | some t =>
      simp only [hq, Option.some_or]
      refine ⟨fun h => (by cases h), fun t' ht => ?_⟩
      cases ht
      exact (hf' q).2 t hq
    | none =>
      obtain ⟨h1, h2⟩ := (hf' q).1 hq
      simp only [hq, Option.none_or]
      rw [h1, h2]
      exact hf q
  · simp only [(hd' q).1, (hd' q).2, (hd q).1, (hd q).2, or_assoc, and_self]
  · rw [ho1', ho2', ho1, ho2]; simp
  · rw [he1', he2', he1, he2]; simp

theorem SetsFile.effect {os : Os} {path : Path} {t : Bytes} {w w' : World} (h : SetsFile os path t w w') (v : World) :
    ∃ v', SetsFile os path t v v' ∧ SameEffect w w' v v' := by
  refine ⟨os.setFile v path t, setsFile_iff.2 rfl, ⟨⟨fun q => if q = os.resolve path then some t else none, fun q => ?_⟩,
    ⟨fun _ => False, fun d => ?_⟩, ⟨[], ?_⟩, ⟨[], ?_⟩⟩⟩
  · by_cases hq : q = os.resolve path
    · simp only [if_pos hq]
      refine ⟨fun h => (by cases h), fun t' ht => ?_⟩
      cases ht
      rw [hq]
      exact ⟨h.file, if_pos rfl⟩
    · simp only [if_neg hq]
      exact ⟨fun _ => ⟨h.files q hq, if_neg hq⟩, fun _ h => (by cases h)⟩
  · rw [h.dirs]; simp [Os.setFile]
  · rw [h.stdout]; simp [Os.setFile]
  · rw [h.stderr]; simp [Os.setFile]

theorem AddsDirs.effect {os : Os} {ds : List Path} {w w' : World} (h : AddsDirs os ds w w') (v : World) :
    ∃ v', AddsDirs os ds v v' ∧ SameEffect w w' v v' := by
  have hv := addsDirs_iff (os := os) (ds := ds) (w := v) |>.2 rfl
  refine ⟨_, hv, ⟨⟨fun _ => none, fun q => ⟨fun _ => ⟨by rw [h.files], by rw [hv.files]⟩, fun _ h => (by cases h)⟩⟩,
    ⟨fun d => ∃ p ∈ ds, d = os.resolve p, fun d => ⟨h.dirs d, hv.dirs d⟩⟩,
    ⟨[], by rw [h.stdout, hv.stdout]; simp⟩, ⟨[], by rw [h.stderr, hv.stderr]; simp⟩⟩⟩

theorem Prints.effect {t : Bytes} {w w' : World} (h : Prints t w w') (v : World) :
    ∃ v', Prints t v v' ∧ SameEffect w w' v v' := by
  have hv := prints_iff (t := t) (w := v) |>.2 rfl
  refine ⟨_, hv, ⟨⟨fun _ => none, fun q => ⟨fun _ => ⟨by rw [h.files], by rw [hv.files]⟩, fun _ h => (by cases h)⟩⟩,
    ⟨fun _ => False, fun d => by rw [h.dirs, hv.dirs]; simp⟩,
    ⟨t, h.stdout, hv.stdout⟩, ⟨[], by rw [h.stderr, hv.stderr]; simp⟩⟩⟩

theorem Complains.effect {t : Str} {w w' : World} (h : Complains t w w') (v : World) :
    ∃ v', Complains t v v' ∧ SameEffect w w' v v' := by
  have hv := complains_iff (t := t) (w := v) |>.2 rfl
  refine ⟨_, hv, ⟨⟨fun _ => none, fun q => ⟨fun _ => ⟨by rw [h.files], by rw [hv.files]⟩, fun _ h => (by cases h)⟩⟩,
    ⟨fun _ => False, fun d => by rw [h.dirs, hv.dirs]; simp⟩,
    ⟨[], by rw [h.stdout, hv.stdout]; simp⟩, ⟨_, h.stderr, hv.stderr⟩⟩⟩

theorem MakesDirs.effect {os : Os} (hr : Reliable os) {path : Path} {w w' : World} {m : Option Str}
    (h : MakesDirs os path w m w') (v : World) : m = none ∧ ∃ v', MakesDirs os path v m v' ∧ SameEffect w w' v v' := by
  cases h with
  | top h1 => exact ⟨rfl, v, .top h1, .none _ _⟩
  | here h1 => exact ⟨rfl, v, .here h1, .none _ _⟩
  | made h1 h2 h3 h4 h5 =>
    obtain ⟨v', h6, h7⟩ := AddsDirs.effect h5 v
    exact ⟨rfl, v', .made h1 h2 h3 (hr.mkdir _ _) h6, h7⟩
  | failed h1 h2 h3 h4 h5 => rw [hr.mkdir] at h4; cases h4

theorem Creates.effect {os : Os} (hr : Reliable os) {path : Path} {w w' : World} {m : Option Str}
    (h : Creates os path w m w') (v : World) : m = none ∧ ∃ v', Creates os path v m v' ∧ SameEffect w w' v v' := by
  cases h with
  | noDir h1 => have := (MakesDirs.effect hr h1 v).1; cases this
  | failed h1 h2 h3 => rw [hr.create] at h2; cases h2
  | created h1 h2 h3 =>
    obtain ⟨_, v1, h4, h5⟩ := MakesDirs.effect hr h1 v
    obtain ⟨v', h6, h7⟩ := SetsFile.effect h3 v1
    exact ⟨rfl, v', .created h4 (hr.create _ _) h6, h5.trans h7⟩

theorem fits_none (t : Bytes) : Fits none t := fun _ _ h => by cases h

theorem Delivers.effect {os : Os} (hr : Reliable os) {base file : Path} {t : Bytes} {w w' : World} {m : Option Str}
    (h : Delivers os base file t w m w') (v : World) :
    m = none ∧ ∃ v', Delivers os base file t v m v' ∧ SameEffect w w' v v' := by
  cases h with
  | printed h1 h2 h3 =>
    obtain ⟨v', h4, h5⟩ := Prints.effect h3 v
    exact ⟨rfl, v', .printed h1 (by rw [hr.stdout]; exact fits_none _) h4, h5⟩
  | broken h1 h2 => rw [hr.stdout] at h2; cases h2
  | closed h1 h2 => have := (Creates.effect hr h2 v).1; cases this
  | written h1 h2 h3 h4 =>
    obtain ⟨_, v1, h5, h6⟩ := Creates.effect hr h2 v
    obtain ⟨v', h7, h8⟩ := SetsFile.effect h4 v1
    exact ⟨rfl, v', .written h1 h5 (by rw [hr.write]; exact fits_none _) h7, h6.trans h8⟩
  | cut h1 h2 h3 => rw [hr.write] at h3; cases h3

theorem JobRuns.effect {env : Env} (hr : Reliable env.os) {base : Path} {g : Graph} {job : Job} {w w' : World} {e : JobEnd}
    (h : JobRuns env base g job w e w') (v : World) : ∃ v', JobRuns env base g job v e v' ∧ SameEffect w w' v v' := by
  cases h with
  | done h1 h2 =>
    obtain ⟨_, v', h3, h4⟩ := Delivers.effect hr h2 v
    exact ⟨v', .done h1 h3, h4⟩
  | failed h1 h2 => have := (Delivers.effect hr h2 v).1; cases this
  | panics h1 h2 =>
    obtain ⟨_, v', h3, h4⟩ := Delivers.effect hr h2 v
    exact ⟨v', .panics h1 h3, h4⟩

theorem JobsRun.effect {env : Env} (hr : Reliable env.os) {base : Path} {g : Graph} {js : List Job} {w w' : World}
    {e : JobEnd} (h : JobsRun env base g js w e w') :
    ∀ v, ∃ v', JobsRun env base g js v e v' ∧ SameEffect w w' v v' := by
  induction h with
  | nil w => exact fun v => ⟨v, .nil v, .none _ _⟩
  | next h1 _ ih =>
    intro v
    obtain ⟨v1, h2, h3⟩ := JobRuns.effect hr h1 v
    obtain ⟨v', h4, h5⟩ := ih v1
    exact ⟨v', .next h2 h4, h3.trans h5⟩
  | stop h1 h2 =>
    intro v
    obtain ⟨v', h3, h4⟩ := JobRuns.effect hr h2 v
    exact ⟨v', .stop h1 h3, h4⟩

/-! ## The input -/

theorem parseFiles_same {env : Env} {w v : World} (parser : ArtefactParser) (fs : List Path)
    (h : ∀ p ∈ fs, SameFile env w v p) : parseFiles env v parser fs = parseFiles env w parser fs := by
  induction fs with
  | nil => rfl
  | cons p ps ih =>
    have h1 : env.os.openFile w p = env.os.openFile v p := h p List.mem_cons_self
    rw [parseFiles, parseFiles, h1, ih (fun q hq => h q (List.mem_cons_of_mem _ hq))]

theorem parseArtefact_congr {env : Env} {w v : World} (hg : SameMatches env w v) {ac : ArtefactConfig} {base : Path}
    (hf : ∀ fs, FilesOf env w ac base fs → ∀ p ∈ fs, SameFile env w v p) :
    parseArtefact env v ac base = parseArtefact env w ac base := by
  have hm : ac.parser = .rust → parseMultipleFiles env v ac base = parseMultipleFiles env w ac base := by
    intro hr
    unfold parseMultipleFiles
    by_cases hp : ac.paths = []
    · rw [if_pos hp, if_pos hp]
    · rw [if_neg hp, if_neg hp, globPaths_same hg]
      cases hx : globPaths env w base ac.paths with
      | error e => rfl
      | ok fs =>
        have := hf fs (.inl ⟨hr, hp, (globPaths_ok _ _ _ _ _).1 hx⟩)
        simp only
        rw [parseFiles_same _ _ this]
  have hs : ac.parser ≠ .rust → parseSingleFile env v ac base = parseSingleFile env w ac base := by
    intro hr
    unfold parseSingleFile
    split
    · next p hp =>
      have h1 : env.os.openFile w (target base p) = env.os.openFile v (target base p) :=
        hf [target base p] (.inr ⟨hr, p, hp, rfl⟩) _ List.mem_cons_self
      have h2 : joinPath base p = target base p := by
        rw [← target_eq]
        unfold joinPath
        split <;> rfl
      rw [← h2] at h1
      simp only [h1]
    · rfl
  unfold parseArtefact
  cases hx : ac.parser with
  | rust => exact hm hx
  | _ => exact hs (by rw [hx]; simp)

theorem new_congr {env : Env} {w v : World} (hg : SameMatches env w v) {config : Config} {base : Path}
    (hf : ∀ ac ∈ config.artefacts, ∀ fs, FilesOf env w ac base fs → ∀ p ∈ fs, SameFile env w v p) :
    Controller.new env v config base = Controller.new env w config base := by
  have key : ∀ (roots : BMap ArtefactId Bool) (acs : List ArtefactConfig), (∀ ac ∈ acs, ac ∈ config.artefacts) →
      ∀ m, makeArtefacts env v base roots acs m = makeArtefacts env w base roots acs m := by
    intro roots acs
    induction acs with
    | nil => exact fun _ _ => rfl
    | cons ac acs ih =>
      intro hacs m
      have h1 : makeArtefact env v base roots ac = makeArtefact env w base roots ac := by
        unfold makeArtefact parseFromConfig
        rw [parseArtefact_congr hg (hf ac (hacs ac List.mem_cons_self))]
      rw [makeArtefacts, makeArtefacts, h1]
      cases makeArtefact env w base roots ac with
      | error p => rfl
      | ok a => exact ih (fun b hb => hacs b (List.mem_cons_of_mem _ hb)) _
  unfold Controller.new
  cases findRoots config.relations (BMap.ofList (config.artefacts.map (fun ac => (ac.id, true)))) with
  | error p => rfl
  | ok roots =>
    simp only [bind, Except.bind]
    rw [key roots _ (fun _ h => h)]

theorem isInput_congr {env : Env} {w v : World} {config : Config} {base : Path}
    (h : Controller.new env v config base = Controller.new env w config base) (g : Graph) :
    IsInput env v config base g ↔ IsInput env w config base g := by
  have key : ∀ u, IsInput env u config base g ↔ Controller.new env u config base =
      .ok ⟨base, g, traced g, config.jobs.getD .empty, config.defaultJobs.getD []⟩ := by
    intro u
    rw [C82_controller]
    constructor
    · exact fun h => ⟨g, h, rfl⟩
    · rintro ⟨g', h1, h2⟩
      simp only [Controller.mk.injEq, true_and] at h2
      rw [h2.1]; exact h1
  rw [key, key, h]

/-! ## C88: the same input gives the same result -/

theorem goodConfig_congr {env : Env} {w v : World} {file : Path} (h : SameFile env w v file) (config : Config) :
    GoodConfig env v file config ↔ GoodConfig env w file config := by
  unfold SameFile at h
  unfold GoodConfig
  rw [h]

theorem configComplaint_congr {env : Env} {w v : World} {file : Path} (h : SameFile env w v file) {m : Str}
    (hc : ConfigComplaint env w file m) : ConfigComplaint env v file m := by
  unfold SameFile at h
  cases hc with
  | closed h1 => exact .closed (by rw [← h]; exact h1)
  | unreadable h1 h2 => exact .unreadable (by rw [← h]; exact h1) h2
  | noToml h1 h2 h3 => exact .noToml (by rw [← h]; exact h1) h2 h3
  | noConfig h1 h2 h3 h4 => exact .noConfig (by rw [← h]; exact h1) h2 h3 h4
  | version h1 h2 h3 h4 h5 h6 => exact .version (by rw [← h]; exact h1) h2 h3 h4 h5 h6

theorem programEnds_effect {env : Env} (hr : Reliable env.os) {opt : Arguments} {w v w' : World} {code : Nat}
    (hs : SameInput env opt w v) (h : ProgramEnds env opt w code w') :
    ∃ v', ProgramEnds env opt v code v' ∧ SameEffect w w' v v' := by
  have hc := hs.files _ (.inl rfl)
  have hg : ∀ {config}, GoodConfig env w opt.configFile config → GoodConfig env v opt.configFile config :=
    fun h => (goodConfig_congr hc _).2 h
  have hi : ∀ {config}, GoodConfig env w opt.configFile config → ∀ g, IsInput env v config opt.baseDir g ↔
      IsInput env w config opt.baseDir g := by
    intro config hgc g
    exact isInput_congr (new_congr hs.matching fun ac hac fs hfs p hp =>
      hs.files p (.inr ⟨config, ac, fs, hgc, hac, hfs, hp⟩)) g
  cases h with
  | badConfig h1 h2 =>
    obtain ⟨v', h3, h4⟩ := Complains.effect h2 v
    exact ⟨v', .badConfig (configComplaint_congr hc h1) h3, h4⟩
  | noInput h1 h2 => exact ⟨v, .noInput (hg h1) (fun g h => h2 g ((hi h1 g).1 h)), .none _ _⟩
  | noJobs h1 h2 h3 h4 =>
    obtain ⟨v', h5, h6⟩ := Complains.effect h4 v
    exact ⟨v', .noJobs (hg h1) ((hi h1 _).2 h2) h3 h5, h6⟩
  | unknownJob h1 h2 h3 h4 h5 h6 =>
    obtain ⟨v', h7, h8⟩ := Complains.effect h6 v
    exact ⟨v', .unknownJob (hg h1) ((hi h1 _).2 h2) h3 h4 h5 h7, h8⟩
  | failed h1 h2 h3 h4 h5 =>
    obtain ⟨v1, h6, h7⟩ := JobsRun.effect hr h4 v
    obtain ⟨v', h8, h9⟩ := Complains.effect h5 v1
    exact ⟨v', .failed (hg h1) ((hi h1 _).2 h2) h3 h6 h8, h7.trans h9⟩
  | panics h1 h2 h3 h4 =>
    obtain ⟨v', h6, h7⟩ := JobsRun.effect hr h4 v
    exact ⟨v', .panics (hg h1) ((hi h1 _).2 h2) h3 h6, h7⟩
  | fault h1 h2 h3 h4 h5 h6 =>
    obtain ⟨v', h7, h8⟩ := JobsRun.effect hr h5 v
    exact ⟨v', .fault (hg h1) ((hi h1 _).2 h2) h3 h4 h7 h6, h8⟩
  | fine h1 h2 h3 h4 h5 h6 =>
    obtain ⟨v', h7, h8⟩ := JobsRun.effect hr h5 v
    exact ⟨v', .fine (hg h1) ((hi h1 _).2 h2) h3 h4 h7 h6, h8⟩

/-- **C88** With the same input, the program exits with the same code, writes the same files with the same bytes, and
prints the same, whatever else there is in the file system. -/
theorem C88_same_input {env : Env} (hr : Reliable env.os) {opt : Arguments} {w v : World} (hs : SameInput env opt w v) :
    (Main.main env opt v).1 = (Main.main env opt w).1 ∧
      SameEffect w (Main.main env opt w).2 v (Main.main env opt v).2 := by
  have h1 := (C84_program env opt w (Main.main env opt w).2 (Main.main env opt w).1).1 rfl
  obtain ⟨v', h2, h3⟩ := programEnds_effect hr hs h1
  have h4 := (C84_program env opt v v' (Main.main env opt w).1).2 h2
  rw [h4]
  exact ⟨rfl, h3⟩

/-- **C88** A second run exits with the same code, leaves all files and directories as the first one left them, and prints
the same again, provided that the program writes no file that it reads, and that its files do not change what matches the
patterns and what can be opened. -/
theorem C88_rerun {env : Env} (hr : Reliable env.os) {opt : Arguments} {w w1 w2 : World} {code code' : Nat}
    (ha : OutputsApart env opt w)
    (h1 : Main.main env opt w = (code, w1)) (h2 : Main.main env opt w1 = (code', w2))
    (hm : SameMatches env w w1)
    (ho : ∀ p, IsInputFile env opt w p → env.os.openErr w1 p = env.os.openErr w p ∧ env.os.readErr w1 p = env.os.readErr w p) :
    code' = code ∧ w2.files = w1.files ∧ w2.dirs = w1.dirs ∧
      (∃ t, w1.stdout = w.stdout ++ t ∧ w2.stdout = w1.stdout ++ t) ∧
      ∃ t, w1.stderr = w.stderr ++ t ∧ w2.stderr = w1.stderr ++ t := by
  have hs : SameInput env opt w w1 := by
    refine ⟨fun p hp => ?_, hm⟩
    have hf : w1.files (env.os.resolve p) = w.files (env.os.resolve p) := by
      have := C27_main env opt w (env.os.resolve p) (fun config hc n hn j hj hfile => ha p hp config hc n hn j hj hfile)
      rw [h1] at this
      exact this
    unfold SameFile Os.openFile
    rw [(ho p hp).1, (ho p hp).2, hf]
  obtain ⟨e1, e2⟩ := C88_same_input hr hs
  rw [h1, h2] at e1 e2
  refine ⟨e1, ?_, ?_, e2.stdout, e2.stderr⟩
  · obtain ⟨f, hf⟩ := e2.files
    funext q
    cases hq : f q with
    | none => exact ((hf q).1 hq).2
    | some t => exact ((hf q).2 t hq).2.trans ((hf q).2 t hq).1.symm
  · obtain ⟨d, hd⟩ := e2.dirs
    funext q
    have := hd q
    cases hq : w1.dirs q with
    | true => exact this.2.2 (.inl hq)
    | false =>
      cases hq2 : w2.dirs q with
      | false => rfl
      | true =>
        rcases this.2.1 hq2 with h | h
        · rw [hq] at h; cases h
        · rw [this.1.2 (.inr h)] at hq; cases hq

/-! The example project reads five files and writes a sixth. -/

theorem CtrlExample.reliable : Reliable os := ⟨fun _ _ => rfl, fun _ _ => rfl, fun _ _ _ => rfl, fun _ _ => rfl⟩

theorem CtrlExample.config_read {c : Config} (h : GoodConfig (env RustExample.file config) (world files) args.configFile c) :
    c = config := by
  have h1 := (getConfig_ok _ _ args c).2 h
  have h2 : Main.getConfig (env RustExample.file config) (world files) args = .ok config :=
    (getConfig_ok _ _ args config).2 ⟨⟨Utf8.encode c!"...", none⟩, _, by decide +kernel, rfl, rfl, (C78_config _ _).1 rfl,
      fun v hv => by cases hv; rfl⟩
  rw [h2] at h1
  cases h1
  rfl

theorem CtrlExample.apart : OutputsApart (env RustExample.file config) args (world files) := by
  intro p hp c hc n hn j hj hfile
  cases config_read hc
  have hn : n = c!"trace" := by simpa [requested, args, config] using hn
  subst hn
  have hj' : (config.jobs.getD .empty).get c!"trace" = some ⟨.trace, .gnuError, c!"out/trace.txt", none⟩ := by decide +kernel
  rw [hj'] at hj
  cases hj
  have ht : target args.baseDir c!"out/trace.txt" = c!"p/out/trace.txt" := by decide +kernel
  show p ≠ target args.baseDir c!"out/trace.txt"
  rw [ht]
  rcases hp with rfl | ⟨c', ac, fs, hc', hac, hfs, hp⟩
  · decide
  · cases config_read hc'
    have hfs : fs ∈ [[c!"p/req.md"], [c!"p/a.rs", c!"/src/b.rs"], [c!"p/Issue1.txt"]] := by
      simp only [config, List.mem_cons, List.not_mem_nil, or_false] at hac
      rcases hac with rfl | rfl | rfl
      · rcases hfs with ⟨h, _⟩ | ⟨_, q, h1, h2⟩
        · cases h
        · cases h1; rw [h2]; decide +kernel
      · rcases hfs with ⟨_, _, h⟩ | ⟨h, _⟩
        · have h1 := (globPaths_ok _ _ _ _ _).2 h
          have h2 : globPaths (env RustExample.file config) (world files) args.baseDir code.paths =
              .ok [c!"p/a.rs", c!"/src/b.rs"] := by decide +kernel
          rw [h2] at h1; cases h1
          decide
        · exact absurd rfl h
      · rcases hfs with ⟨h, _⟩ | ⟨_, q, h1, h2⟩
        · cases h
        · cases h1; rw [h2]; decide +kernel
    intro e
    subst e
    revert hfs hp
    simp only [List.mem_cons, List.not_mem_nil, or_false]
    rintro (rfl | rfl | rfl) <;> simp

/-- The second run of the example finds the errors again and leaves the report as it is. -/
example : (Main.main (env RustExample.file config) args (Main.main (env RustExample.file config) args (world files)).2).1 = 1 ∧
    (Main.main (env RustExample.file config) args (Main.main (env RustExample.file config) args (world files)).2).2.files =
      (Main.main (env RustExample.file config) args (world files)).2.files := by
  have h := C88_rerun (code := (Main.main (env RustExample.file config) args (world files)).1) reliable apart rfl rfl
    (fun _ => rfl) (fun _ _ => ⟨rfl, rfl⟩)
  exact ⟨h.1.trans (by decide +kernel), h.2.1⟩

/-- The report of the example is not empty. -/
example : ((Main.main (env RustExample.file config) args (world files)).2.files c!"p/out/trace.txt").any (fun b => 100 < b.length) =
    true := by decide +kernel

/-! ## C89: the order of the artefacts -/

theorem isArtefact_root {env : Env} {w : World} {config config' : Config} {base : Path} {ac : ArtefactConfig}
    {art : Artefact} {reqs : List Requirement} {errs : List Error} {untitled : List Requirement}
    (h : IsRoot config' ac.id ↔ IsRoot config ac.id) :
    IsArtefact env w config' base ac art reqs errs untitled ↔ IsArtefact env w config base ac art reqs errs untitled := by
  constructor
  · rintro ⟨h1, h2, h3, h4, h5, h6, h7, h8⟩
    exact ⟨h1, h2, h3, h4, h5, h6, by rw [h7, h], h8⟩
  · rintro ⟨h1, h2, h3, h4, h5, h6, h7, h8⟩
    exact ⟨h1, h2, h3, h4, h5, h6, by rw [h7, h], h8⟩

theorem perm_lastEntry {config config' : Config} (hd : (config.artefacts.map (·.id)).Nodup) (hp : Reordered config config')
    (ac : ArtefactConfig) : LastEntry config' ac ↔ LastEntry config ac := by
  have hd' : (config'.artefacts.map (·.id)).Nodup := (hp.artefacts.map _).nodup_iff.2 hd
  have key : ∀ c : Config, (c.artefacts.map (·.id)).Nodup → (LastEntry c ac ↔ ac ∈ c.artefacts) := by
    intro c hc
    constructor
    · rintro ⟨pre, post, h, _⟩; rw [h]; simp
    · exact fun h => C22_distinct_partial hc h
  rw [key _ hd, key _ hd', hp.artefacts.mem_iff]

/-- **C89** The order in which artefacts are configured does not matter if their ids differ. -/
theorem C89_order {env : Env} {w : World} {config config' : Config} (hd : (config.artefacts.map (·.id)).Nodup)
    (hp : Reordered config config') (base : Path) (c : Controller) :
    Controller.new env w config' base = .ok c ↔ Controller.new env w config base = .ok c := by
  rw [C82_controller, C82_controller, hp.jobs, hp.defaultJobs]
  apply exists_congr
  intro g
  refine and_congr_left fun _ => ?_
  have hconf : ∀ a, Configured config' a ↔ Configured config a := by
    intro a; unfold Configured; simp only [hp.artefacts.mem_iff]
  have hroot : ∀ a, IsRoot config' a ↔ IsRoot config a := by
    intro a; unfold IsRoot; rw [hp.relations]
  have hart : ∀ ac art, IsTheArtefact env w config' base ac art ↔ IsTheArtefact env w config base ac art := by
    intro ac art
    unfold IsTheArtefact
    simp only [isArtefact_root (hroot ac.id)]
  constructor
  · rintro ⟨h1, h2, h3, h4⟩
    refine ⟨by rw [h1, hp.relations], fun rel hrel => ?_, fun ac hac => h3 ac (hp.artefacts.mem_iff.2 hac), ?_⟩
    · have := h2 rel (by rw [hp.relations]; exact hrel)
      simpa only [hconf] using this
    · simpa only [perm_lastEntry hd hp, hart] using h4
  · rintro ⟨h1, h2, h3, h4⟩
    refine ⟨by rw [h1, hp.relations], fun rel hrel => ?_, fun ac hac => h3 ac (hp.artefacts.mem_iff.1 hac), ?_⟩
    · have := h2 rel (by rw [← hp.relations]; exact hrel)
      simpa only [hconf] using this
    · simpa only [perm_lastEntry hd hp, hart] using h4

/-- The example with its artefacts in another order. -/
example : (Controller.new (env RustExample.file config) (world files)
      { config with artefacts := [issue, requirements, code] } c!"p").isOk = true ∧
    Reordered config { config with artefacts := [issue, requirements, code] } ∧
    (config.artefacts.map (·.id)).Nodup :=
  ⟨by decide +kernel, ⟨by decide, rfl, rfl, rfl⟩, by decide⟩

end Reqtrace
