import Verif.Spec.CrashLog
import Verif.Props.Crash
import Verif.Props.Log4

/-!
# C160: what was found before a crash is in the log
-/

namespace Reqtrace

open Reqtrace.Spec Rs

namespace Log

variable (env : Env) (log : LogEnv)

/-! ## Markdown -/

theorem mdLoop_tail (failure : Option Str) (l : Str) (hl : ∃ x, Md.lineEvent env.U l = .error x) (ls : List Str) :
    ∀ (s : Md.State) (c : Md.Context), mdLoop env log failure (ls ++ [l]) s c = mdLoop env log none ls s c := by
  induction ls with
  | nil =>
    intro s c
    obtain ⟨x, hx⟩ := hl
    simp only [List.nil_append]
    unfold mdLoop
    rw [hx]
  | cons a ls ih =>
    intro s c
    rw [List.cons_append]
    unfold mdLoop
    simp only [ih]

/-! ## Rust -/

/-- The errors that are recorded in a pass over the calls, up to a panic. -/
def occLog (debug : List Tok → Str) (path : Path) : List Occ → List Requirement × List Error → List Error
  | [], _ => []
  | o :: os, s => match stepOcc debug path s o with
    | .error _ => []
    | .ok s' => s'.2.drop s.2.length ++ occLog debug path os s'

theorem occLog_cons (debug : List Tok → Str) (path : Path) (o : Occ) (os : List Occ) (s : List Requirement × List Error) :
    occLog debug path (o :: os) s = match stepOcc debug path s o with
      | .error _ => []
      | .ok s' => s'.2.drop s.2.length ++ occLog debug path os s' := rfl

theorem occLog_append (debug : List Tok → Str) (path : Path) (as bs : List Occ) : ∀ s,
    occLog debug path (as ++ bs) s = occLog debug path as s ++
      match as.foldlM (stepOcc debug path) s with
      | .error _ => []
      | .ok s' => occLog debug path bs s' := by
  induction as with
  | nil => intro s; rfl
  | cons a as ih =>
    intro s
    rw [List.cons_append, List.foldlM_cons, occLog_cons, occLog_cons]
    cases h : stepOcc debug path s a with
    | error e => rfl
    | ok s' =>
      simp only [ih s', List.append_assoc]
      rfl

theorem stepOcc_grows {debug : List Tok → Str} {path : Path} {s s' : List Requirement × List Error} {o : Occ}
    (h : stepOcc debug path s o = .ok s') : Grows s.2 s'.2 := by
  unfold stepOcc at h
  obtain ⟨⟨b, q⟩, h1, h2⟩ := bind_ok h
  cases h2
  exact parseMacro_errors h1

theorem occLog_ok (debug : List Tok → Str) (path : Path) (os : List Occ) : ∀ s s',
    os.foldlM (stepOcc debug path) s = .ok s' → s'.2 = s.2 ++ occLog debug path os s := by
  induction os with
  | nil => intro s s' h; cases h; simp [occLog]
  | cons o os ih =>
    intro s s' h
    rw [List.foldlM_cons] at h
    obtain ⟨s1, h1, h2⟩ := bind_ok h
    obtain ⟨e, he⟩ := stepOcc_grows h1
    unfold occLog
    rw [h1, ih _ _ h2]
    simp only
    rw [he]
    simp

theorem rustVisit_occs (path : Path) (f : Forest) : ∀ (p : Rs.Parser) (loc : Option Location), p.locations.getLast? = loc →
    said (rustVisit env log path f p) =
      (occLog env.syn.debug path (occs path p.scope loc f) (p.requirements, p.errors)).map (announced env log) := by
  induction f with
  | nil => intro p loc _; rfl
  | mac m rest ih =>
    intro p loc h
    have h1 := parseMacro_locs env.syn.debug path p m loc h
    rw [occs]
    unfold occLog rustVisit
    cases h2 : stepOcc env.syn.debug path (p.requirements, p.errors) ⟨p.scope, loc, m⟩ with
    | error e =>
      rw [h2] at h1
      cases h3 : parseMacro env.syn.debug path p m with
      | error e' => rfl
      | ok q => rw [h3] at h1; cases h1
    | ok s =>
      rw [h2] at h1
      cases h3 : parseMacro env.syn.debug path p m with
      | error e' => rw [h3] at h1; cases h1
      | ok q =>
        rw [h3] at h1
        obtain ⟨b, q⟩ := q
        have hq : q = { p with requirements := s.1, errors := s.2 } := by
          have h1' : (Except.ok q : PanicM Rs.Parser) = .ok { p with requirements := s.1, errors := s.2 } := h1
          cases h1'; rfl
        simp only
        have hp : said ((q.errors.drop p.errors.length).map (fun e => rustProblem env log (rustLine e) e)) = _ :=
          said_problems env log c!"src/parsers/rust.rs" rustLine _
        rw [said_append, hp, ih q loc (by rw [hq]; exact h), hq, List.map_append]
  | item i l c inner rest ih1 ih2 =>
    intro p loc h
    rw [occs, occLog_append]
    unfold rustVisit
    have h0 := ih1 (push path p i l c) (some ⟨path, some (.lineAndColumn l c)⟩)
      (by simp [push, Location.newWithLineAndColumn])
    have hv := visit_eq env.syn.debug path inner (push path p i l c) (some ⟨path, some (.lineAndColumn l c)⟩)
      (by simp [push, Location.newWithLineAndColumn])
    have h1 : (push path p i l c).scope = p.scope ++ [itemName i] := by rw [itemName_eq]; rfl
    have h2 : (push path p i l c).requirements = p.requirements := rfl
    have h3 : (push path p i l c).errors = p.errors := rfl
    rw [h2, h3] at hv h0
    rw [said_append, h0, hv, ← h1, List.map_append]
    congr 1
    cases h4 : List.foldlM (stepOcc env.syn.debug path) (p.requirements, p.errors)
      (occs path (push path p i l c).scope (some ⟨path, some (.lineAndColumn l c)⟩) inner) with
    | error e => rfl
    | ok s =>
      have h5 : pop { push path p i l c with requirements := s.1, errors := s.2 }
          = .ok { p with requirements := s.1, errors := s.2 } := by
        simp [pop, push, orPanic, bind, Except.bind, pure, Except.pure]
      show said (match pop { push path p i l c with requirements := s.1, errors := s.2 } with
        | .error _ => []
        | .ok p => rustVisit env log path rest p) = _
      rw [h5]
      exact ih2 { p with requirements := s.1, errors := s.2 } loc h
  | node inner rest ih1 ih2 =>
    intro p loc h
    rw [occs, occLog_append]
    unfold rustVisit
    rw [said_append, ih1 p loc h, visit_eq env.syn.debug path inner p loc h, List.map_append]
    congr 1
    cases h4 : List.foldlM (stepOcc env.syn.debug path) (p.requirements, p.errors)
      (occs path p.scope loc inner) with
    | error e => rfl
    | ok s => exact ih2 { p with requirements := s.1, errors := s.2 } loc h

theorem occLog_until {debug : List Tok → Str} {path : Path} {before after : List Occ} {o : Occ}
    {es : List Entry} {errs : List Error}
    (hw : ∀ x ∈ before ++ o :: after, (x.loc = none ↔ x.names = []) ∧ ∀ n ∈ x.names, n ≠ [])
    (hb : ∀ b ∈ before, ¬ Stray b) (ho : Stray o) (ha : AllMarks debug path before es errs) :
    occLog debug path (before ++ o :: after) ([], []) = errs := by
  obtain ⟨s, hs⟩ := fold_returns debug path before ([], []) fun b h1 h2 h3 h4 => hb b h1 ⟨h2, h3, h4⟩
  have h1 := occLog_ok _ _ _ _ _ hs
  obtain ⟨es', errs', k1, k2, k3⟩ := fold_eq debug path before
  obtain ⟨rfl, rfl⟩ := k2 _ _ ha
  have h2 : s.2 = errs := by
    rw [k3] at hs
    obtain ⟨r, -, h⟩ := bind_ok hs
    cases h; rfl
  have hp := fold_panics debug path (before ++ [o]) [] [] (fun x hx => hw x (by
    rcases List.mem_append.1 hx with h | h
    · exact List.mem_append_left _ h
    · rw [List.mem_singleton.1 h]; simp)) (fun r hr => by cases hr) ⟨o, by simp, ho⟩
  rw [List.foldlM_append, hs] at hp
  have hst : ∃ x, stepOcc debug path s o = .error x := by
    cases h : stepOcc debug path s o with
    | error x => exact ⟨x, rfl⟩
    | ok s' =>
      have : (stepOcc debug path s o >>= fun s' => [].foldlM (stepOcc debug path) s') = .error .rustNoScope := by
        rw [← List.foldlM_cons]; exact hp
      rw [h] at this; cases this
  obtain ⟨x, hx⟩ := hst
  rw [occLog_append, hs]
  simp only
  rw [occLog_cons, hx]
  simp only [List.append_nil]
  rw [← h2, h1]; rfl

/-! ## A file -/

/-- The records of a parser, for one file. -/
def fileLog (parser : ArtefactParser) (file : File) (path : Path) : List Record :=
  match parser with
  | .markdown => mdParse env log file.lines path
  | .monoRequirement => monoParse env log file.lines path
  | .rust => rustParse env log file.whole path
  | .json => match JsonRead.fromReader (env.jsonErr file) file.whole with
    | .ok _ => []
    | .error e => [problem env log ctrlFile 88 (.format (.newWithNoPos path) e)]

theorem fileLog_until (hn : NamesGiven env.syn) {path : Path} {file : File} {parser : ArtefactParser}
    (h : ∀ reqs errs, ¬ FileMeans env path file parser reqs errs) :
    ∃ errs, FoundUntil env path file parser errs ∧ said (fileLog env log parser file path) = errs.map (announced env log) := by
  have h' := (C82_no_meaning env path file parser (hn path)).1 h
  cases parser with
  | json => exact h'.elim
  | monoRequirement =>
    refine ⟨[], .mono h', ?_⟩
    show said (monoParse env log file.lines path) = []
    unfold monoParse
    cases hr : MonoReq.parse env.U file.lines path with
    | error _ => rfl
    | ok v => exact absurd ((C81_file env .monoRequirement file path v.1 v.2).1 hr) (h _ _)
  | markdown =>
    obtain ⟨_, failure, h1, text, c, rfl, h2, h3, h4⟩ := h'
    have hev : Md.lineEvent env.U [c] = .error .mdAssert := by
      unfold Md.lineEvent
      have hu : Md.utf8Len [c] = 1 := by
        simp only [Md.utf8Len, List.map_cons, List.map_nil, List.sum_cons, List.sum_nil]
        have : c.utf8Size = 1 := by
          unfold Char.utf8Size
          have : c.val ≤ 127 := by
            rw [UInt32.le_iff_toNat_le]
            show c.toNat ≤ 127
            omega
          simp [this]
        omega
      rw [if_pos hu, if_neg (by simpa using h2)]
    have hsp : splitLines (text ++ [c]) = splitLines text ++ [[c]] := by
      rw [splitLines_append text [c] h4]
      congr 1
      simp [splitLines, h2]
    have hm : ∃ v, Md.parse env.U ⟨text, none⟩ path = .ok v := by
      have hnt : ¬ ∀ reqs errs, ¬ FileMeans env path ⟨Utf8.encode text, none⟩ .markdown reqs errs := by
        rw [C82_no_meaning env path _ .markdown (hn path)]
        rintro ⟨t, f, k1, pre, d, rfl, k2, k3, k4⟩
        rw [readLines_iff, File.lines_encode] at k1
        cases k1
        rcases h4 with h4 | h4
        · simp at h4
        · rw [List.getLast?_append] at h4
          simp at h4
          exact k2 h4
      simp only [Classical.not_forall, Classical.not_not] at hnt
      obtain ⟨reqs, errs, hnt⟩ := hnt
      refine ⟨(reqs, errs), ?_⟩
      have := (C81_file env .markdown _ path reqs errs).2 hnt
      unfold fileResult at this
      rwa [File.lines_encode] at this
    obtain ⟨⟨reqs, errs⟩, hm⟩ := hm
    refine ⟨errs, .markdown h1 h4 h2 h3 ((C81_file env .markdown _ path reqs errs).1 ?_), ?_⟩
    · unfold fileResult; rw [File.lines_encode]; exact hm
    · rw [readLines_iff] at h1
      show said (mdParse env log file.lines path) = _
      rw [h1, ← mdParse_said env log hm]
      unfold mdParse
      simp only
      rw [hsp, mdLoop_tail env log failure [c] ⟨_, hev⟩]
  | rust =>
    obtain ⟨text, tree, rfl, h1, o, h2, h3⟩ := h'
    have hfirst : ∀ os : List Occ, (∃ o ∈ os, Stray o) → ∃ before o after, os = before ++ o :: after ∧
        (∀ b ∈ before, ¬ Stray b) ∧ Stray o := by
      intro os
      induction os with
      | nil => rintro ⟨o, ho, -⟩; cases ho
      | cons x os ih =>
        rintro ⟨o, ho, hs⟩
        by_cases hx : Stray x
        · exact ⟨[], x, os, rfl, (fun _ h => by cases h), hx⟩
        · rcases List.mem_cons.1 ho with rfl | ho
          · exact absurd hs hx
          · obtain ⟨b, y, a, rfl, k1, k2⟩ := ih ⟨o, ho, hs⟩
            exact ⟨x :: b, y, a, rfl, fun z hz => (List.mem_cons.1 hz).elim (fun e => e ▸ hx) (k1 z), k2⟩
    obtain ⟨before, o, after, h4, h5, h6⟩ := hfirst _ ⟨o, h2, h3⟩
    obtain ⟨es, errs, h7, -, -⟩ := fold_eq env.syn.debug path before
    refine ⟨errs, .rust rfl h1 h4 h5 h6 h7, ?_⟩
    show said (rustParse env log (File.whole ⟨Utf8.encode text, none⟩) path) = _
    rw [File.whole_encode]
    unfold rustParse
    simp only
    rw [h1]
    simp only
    rw [rustVisit_occs env log path tree _ none rfl]
    simp only
    rw [h4, occLog_until (fun x hx => ?_) h5 h6 h7]
    rw [← h4] at hx
    exact ⟨occs_loc path tree [] none (by simp) x hx, hn path text tree h1 x hx⟩

/-! ## An artefact -/

theorem parseFiles_log_append (w : World) (ps qs : List Path) : ∀ {v},
    Reqtrace.parseFiles env w .rust ps = .ok v →
      Log.parseFiles env log w .rust (ps ++ qs) = Log.parseFiles env log w .rust ps ++ Log.parseFiles env log w .rust qs := by
  induction ps with
  | nil => intro _ _; rfl
  | cons p ps ih =>
    intro v h
    unfold Reqtrace.parseFiles at h
    rw [List.cons_append]
    conv => lhs; unfold Log.parseFiles
    conv => rhs; lhs; unfold Log.parseFiles
    cases ho : env.os.openFile w p with
    | error e' =>
      rw [ho] at h
      simp only [pure_bind] at h
      obtain ⟨⟨rs, es⟩, h3, h4⟩ := bind_ok h
      simp only [ih h3, List.cons_append]
    | ok file =>
      rw [ho] at h
      simp only at h ⊢
      obtain ⟨⟨r, e⟩, h1, h2⟩ := bind_ok h
      obtain ⟨⟨rs, es⟩, h3, h4⟩ := bind_ok h2
      rw [h1]
      simp only [ih h3, List.append_assoc]

theorem first_bad {α : Type} (P : α → Prop) : ∀ l : List α, (∀ x ∈ l, P x) ∨
    ∃ pre x post, l = pre ++ x :: post ∧ (∀ y ∈ pre, P y) ∧ ¬ P x
  | [] => .inl fun _ h => by cases h
  | a :: l => by
    by_cases ha : P a
    · rcases first_bad P l with h | ⟨pre, x, post, rfl, h1, h2⟩
      · exact .inl fun x hx => (List.mem_cons.1 hx).elim (fun e => e ▸ ha) (h x)
      · exact .inr ⟨a :: pre, x, post, rfl, fun y hy => (List.mem_cons.1 hy).elim (fun e => e ▸ ha) (h1 y), h2⟩
    · exact .inr ⟨[], a, l, rfl, (fun _ h => by cases h), ha⟩

theorem parseArtefact_until (hn : NamesGiven env.syn) {w : World} {ac : ArtefactConfig} {base : Path}
    (h : ∀ v, Reqtrace.parseArtefact env w ac base ≠ .ok v) :
    ∃ es, ReadUntil env w base ac es ∧ said (Log.parseArtefact env log w ac base) = es.map (announced env log) := by
  by_cases hf : ∃ fs, FilesOf env w ac base fs
  · obtain ⟨fs, hf⟩ := hf
    have hbad : ¬ ∀ p ∈ fs, ∃ u, oneFile env w ac.parser p = .ok u := fun k => h _ ((parseArtefact_filesOf hf _).2 ⟨k, rfl⟩)
    rcases first_bad (fun p => ∃ u, oneFile env w ac.parser p = .ok u) fs with k | ⟨pre, p, more, rfl, h1, h2⟩
    · exact absurd k hbad
    · cases ho : env.os.openFile w p with
      | error e => exact absurd ⟨_, oneFile_iff.2 (.closed ho)⟩ h2
      | ok file =>
        obtain ⟨found, h3, h4⟩ := fileLog_until env log hn (path := p) (file := file) (parser := ac.parser)
          (fun reqs errs hm => h2 ⟨_, oneFile_iff.2 (.opened ho hm)⟩)
        refine ⟨_, .mk hf ((pathsMean_iff pre _ _).2 ⟨h1, rfl, rfl⟩) ho h3, ?_⟩
        rcases hf with ⟨k1, k2, k3⟩ | ⟨k1, q, k2, k3⟩
        · have k4 := (globPaths_ok env w base ac.paths _).2 k3
          unfold Log.parseArtefact
          rw [k1]
          simp only
          unfold Log.parseMultipleFiles
          rw [if_neg k2, k4]
          simp only
          rw [k1] at h1 h2 h4 ⊢
          have hpre := (parseFiles_iff env w pre _).2 ⟨h1, rfl⟩
          rw [parseFiles_log_append env log w pre _ hpre, said_append, parseFiles_said env log w _ hpre, List.map_append]
          congr 1
          unfold Log.parseFiles
          rw [ho]
          simp only
          rw [said_append]
          have : ∃ x, Rs.parse env.syn file.whole p = .error x := by
            cases hx : Rs.parse env.syn file.whole p with
            | error x => exact ⟨x, rfl⟩
            | ok v =>
              refine absurd ⟨v, ?_⟩ h2
              unfold oneFile
              rw [ho]
              exact hx
          obtain ⟨x, hx⟩ := this
          rw [hx]
          show said (rustParse env log file.whole p) ++ [] = _
          rw [List.append_nil]
          exact h4
        · cases pre with
          | cons a pre => simp at k3
          | nil =>
            simp only [List.nil_append, List.cons.injEq] at k3
            obtain ⟨rfl, rfl⟩ := k3
            have hsingle : Log.parseArtefact env log w ac base = Log.parseSingleFile env log w ac base := by
              unfold Log.parseArtefact
              cases hp : ac.parser with
              | rust => exact absurd hp k1
              | _ => rfl
            rw [hsingle]
            unfold Log.parseSingleFile
            rw [k2]
            simp only
            rw [joinPath_eq, ho]
            simp only [List.flatMap_nil, List.nil_append]
            rw [← h4]
            cases hp : ac.parser with
            | rust => exact absurd hp k1
            | _ => rfl
  · exfalso
    have hno := (noFiles_iff env w ac base).2 hf
    obtain ⟨_, _, hv, -⟩ := parseArtefact_noFiles hno
    exact h _ hv

/-- The first artefact that cannot be made ends the log. -/
theorem makeArtefacts_until (hn : NamesGiven env.syn) {w : World} {base : Path} {roots : BMap ArtefactId Bool} (post : List ArtefactConfig)
    {ac : ArtefactConfig} (hr : ∃ b, roots.get ac.id = some b) (h : ¬ ∃ art, makeArtefact env w base roots ac = .ok art) :
    ∀ (pre : List ArtefactConfig), (∀ ac ∈ pre, ∃ art, makeArtefact env w base roots ac = .ok art) →
    ∃ es es', ReadLog env w base pre es ∧ ReadUntil env w base ac es' ∧
      said (Log.makeArtefacts env log w base roots (pre ++ ac :: post)) = (es ++ es').map (announced env log) := by
  have hsplit : ∀ (pre : List ArtefactConfig), (∀ ac ∈ pre, ∃ art, makeArtefact env w base roots ac = .ok art) →
      Log.makeArtefacts env log w base roots (pre ++ ac :: post) =
        Log.makeArtefacts env log w base roots pre ++ Log.makeArtefacts env log w base roots (ac :: post) := by
    intro pre
    induction pre with
    | nil => intro _; rfl
    | cons a pre ih =>
      intro hp
      rw [List.cons_append]
      conv => lhs; unfold Log.makeArtefacts
      conv => rhs; lhs; unfold Log.makeArtefacts
      obtain ⟨art, ha⟩ := hp a List.mem_cons_self
      rw [ha]
      simp only [ih fun b hb => hp b (List.mem_cons_of_mem _ hb), List.append_assoc]
  intro pre hp
  obtain ⟨es, h1, h2⟩ := makeArtefacts_said env log pre hp
  have hno : ∀ v, Reqtrace.parseArtefact env w ac base ≠ .ok v := by
    intro v hv
    obtain ⟨b, hb⟩ := hr
    apply h
    unfold makeArtefact Reqtrace.parseFromConfig
    rw [hb, hv]
    exact ⟨_, rfl⟩
  obtain ⟨es', h3, h4⟩ := parseArtefact_until env log hn hno
  refine ⟨es, es', h1, h3, ?_⟩
  rw [hsplit pre hp, said_append, h2, List.map_append, ← h4]
  congr 1
  unfold Log.makeArtefacts Log.parseFromConfig
  have hm : ∃ x, makeArtefact env w base roots ac = .error x := by
    cases hx : makeArtefact env w base roots ac with
    | error x => exact ⟨x, rfl⟩
    | ok art => exact absurd ⟨art, hx⟩ h
  have hq : ∃ x, Reqtrace.parseArtefact env w ac base = .error x := by
    cases hx : Reqtrace.parseArtefact env w ac base with
    | error x => exact ⟨x, rfl⟩
    | ok v => exact absurd hx (hno v)
  obtain ⟨x, hx⟩ := hm
  obtain ⟨y, hy⟩ := hq
  rw [hx, hy]
  simp

end Log

section

variable {env : Env} {w : World} {opt : Arguments} {config : Config}

/-- **C160** If the program crashes over a relation, nothing is logged but the name of the file of the configuration. -/
theorem C160_relation (log : Log.LogEnv) (hg : GoodConfig env w opt.configFile config) (hr : ¬ RelationsConfigured config) :
    said (Log.mainRc env log opt w) = [(.info, c!"using config file " ++ opt.configFile)] := by
  have hc := (getConfig_ok ..).2 hg
  have hf := (roots_ok config).2 hr
  have hn : Controller.new env w config opt.baseDir = .error .ctrlUnknownArtefact := by
    unfold Controller.new; rw [hf]; rfl
  unfold Log.mainRc Log.tryMain Main.tryMain
  rw [hc]
  simp only
  rw [hn]
  unfold Log.new
  rw [hf]
  rfl

/-- **C160** If the program crashes over a file: the name of the file of the configuration, then all that was found in
the artefacts before, and what was found in this one up to the crash. -/
theorem C160_file (log : Log.LogEnv) (hnames : NamesGiven env.syn) (hg : GoodConfig env w opt.configFile config)
    (hr : RelationsConfigured config) (hno : ∀ g, ¬ IsInput env w config opt.baseDir g) :
    ∃ pre ac post es es', config.artefacts = pre ++ ac :: post ∧ ReadLog env w opt.baseDir pre es ∧
      ReadUntil env w opt.baseDir ac es' ∧
      said (Log.mainRc env log opt w) =
        (.info, c!"using config file " ++ opt.configFile) :: (es ++ es').map (announced env log) := by
  have hc := (getConfig_ok ..).2 hg
  obtain ⟨roots, hf, hroots⟩ := (roots_ok config).1 hr
  have hn : ∃ x, Controller.new env w config opt.baseDir = .error x := by
    cases h : Controller.new env w config opt.baseDir with
    | error x => exact ⟨x, rfl⟩
    | ok c => exact absurd (new_isInput h) (hno _)
  obtain ⟨x, hn⟩ := hn
  have hmain : Log.mainRc env log opt w = ⟨Log.mainFile, 62, .info, c!"using config file " ++ opt.configFile⟩ ::
      Log.new env log w config opt.baseDir := by
    unfold Log.mainRc Log.tryMain Main.tryMain
    rw [hc]
    simp only
    rw [hn]
    simp
  rcases Log.first_bad (fun ac => ∃ art, makeArtefact env w opt.baseDir roots ac = .ok art) config.artefacts with
    hall | ⟨pre, ac, post, hac, h1, h2⟩
  · exfalso
    rcases (C82_none_iff env w config opt.baseDir).1 (fun ⟨g, hg⟩ => hno g hg) with h | ⟨ac, h1, fs, h2, p, h3, file, h4, h5⟩
    · exact h hr
    · obtain ⟨art, ha⟩ := hall ac h1
      obtain ⟨_, _, _, _, -, k1, -⟩ := makeArtefact_ok ha
      obtain ⟨_, _, k2, -⟩ := parseFromConfig_ok k1
      obtain ⟨k3, -⟩ := (parseArtefact_filesOf h2 _).1 k2
      obtain ⟨⟨r, e⟩, k4⟩ := k3 p h3
      cases oneFile_iff.1 k4 with
      | closed h => rw [h4] at h; cases h
      | opened h h' => rw [h4] at h; cases h; exact h5 _ _ h'
  · obtain ⟨b, hb, -⟩ := hroots ac (by rw [hac]; simp)
    obtain ⟨es, es', k1, k2, k3⟩ := Log.makeArtefacts_until env log hnames post ⟨b, hb⟩ h2 pre h1
    refine ⟨pre, ac, post, es, es', hac, k1, k2, ?_⟩
    have hm : ∃ x, Reqtrace.makeArtefacts env w opt.baseDir roots config.artefacts .empty = .error x := by
      cases hx : Reqtrace.makeArtefacts env w opt.baseDir roots config.artefacts .empty with
      | error x => exact ⟨x, rfl⟩
      | ok m =>
        exact absurd ((makeArtefacts_ok _ _ _ hx).1 ac (by rw [hac]; simp)) h2
    obtain ⟨y, hy⟩ := hm
    rw [hmain]
    unfold Log.new
    rw [hf]
    simp only
    rw [hy, List.append_nil, hac]
    show (Log.Level.info, _) :: said _ = _
    rw [k3]

/-! ## There is only one such log -/

/-- A file with problems up to a panic has no meaning. -/
theorem foundUntil_noMeaning (hnames : NamesGiven env.syn) {path : Path} {file : File} {parser : ArtefactParser}
    {found : List Error} (h : FoundUntil env path file parser found) (reqs : List Requirement) (errs : List Error) :
    ¬ FileMeans env path file parser reqs errs := by
  refine (C82_no_meaning env path file parser (hnames path)).2 ?_ reqs errs
  cases h with
  | markdown h1 h2 h3 h4 _ => exact ⟨_, _, h1, _, _, rfl, h3, h4, h2⟩
  | mono h => exact h
  | rust h1 h2 h3 _ h4 _ => exact ⟨_, _, h1, h2, _, by rw [h3]; simp, h4⟩

/-- A list has only one first element of a kind. -/
theorem first_unique {α : Type} {P : α → Prop} : ∀ {pre pre' : List α} {x x' : α} {post post' : List α},
    pre ++ x :: post = pre' ++ x' :: post' → (∀ y ∈ pre, ¬ P y) → (∀ y ∈ pre', ¬ P y) → P x → P x' →
    pre = pre' ∧ x = x' ∧ post = post' := by
  intro pre
  induction pre with
  | nil =>
    intro pre' x x' post post' h _ h2 h3 _
    cases pre' with
    | nil => cases h; exact ⟨rfl, rfl, rfl⟩
    | cons a pre' => cases h; exact absurd h3 (h2 _ List.mem_cons_self)
  | cons a pre ih =>
    intro pre' x x' post post' h h1 h2 h3 h4
    cases pre' with
    | nil => cases h; exact absurd h4 (h1 _ List.mem_cons_self)
    | cons b pre' =>
      obtain ⟨rfl, h'⟩ := List.cons.inj h
      obtain ⟨rfl, rfl, rfl⟩ := ih h' (fun y hy => h1 y (List.mem_cons_of_mem _ hy))
        (fun y hy => h2 y (List.mem_cons_of_mem _ hy)) h3 h4
      exact ⟨rfl, rfl, rfl⟩

theorem foundUntil_unique {path : Path} {file : File} {parser : ArtefactParser} {found found' : List Error}
    (h : FoundUntil env path file parser found) (h' : FoundUntil env path file parser found') : found = found' := by
  cases h with
  | markdown h1 _ _ _ h2 =>
    cases h' with
    | markdown k1 _ _ _ k2 =>
      rw [readLines_iff] at h1 k1
      rw [h1] at k1
      injection k1 with k3 k4
      obtain ⟨rfl, -⟩ := List.append_inj' k3 rfl
      have a := (C81_file ..).2 h2
      rw [(C81_file ..).2 k2] at a
      cases a; rfl
  | mono => cases h'; rfl
  | rust h1 h2 h3 h4 h5 h6 =>
    cases h' with
    | rust k1 k2 k3 k4 k5 k6 =>
      have he := h1.symm.trans k1
      injection he with he1 he2
      cases Utf8.encode_injective he1
      rw [h2] at k2; cases k2
      rw [h3] at k3
      obtain ⟨rfl, rfl, rfl⟩ := first_unique (P := Stray) k3 h4 k4 h5 k5
      obtain ⟨_, _, -, hu, -⟩ := fold_eq env.syn.debug path _
      rw [(hu _ _ h6).2, (hu _ _ k6).2]

theorem readUntil_crash (hnames : NamesGiven env.syn) {base : Path} {ac : ArtefactConfig} {es : List Error}
    (h : ReadUntil env w base ac es) (v : Parsed) : parseArtefact env w ac base ≠ .ok v := by
  intro hv
  obtain ⟨hf, -, ho, hu⟩ := h
  obtain ⟨⟨r, e⟩, hone⟩ := ((parseArtefact_filesOf hf v).1 hv).1 _ (List.mem_append_right _ List.mem_cons_self)
  cases oneFile_iff.1 hone with
  | closed h => rw [ho] at h; cases h
  | opened h h' => rw [ho] at h; cases h; exact foundUntil_noMeaning hnames hu _ _ h'

theorem readUntil_unique (hnames : NamesGiven env.syn) {base : Path} {ac : ArtefactConfig} {es es' : List Error}
    (h : ReadUntil env w base ac es) (h' : ReadUntil env w base ac es') : es = es' := by
  obtain ⟨h1, h2, h3, h4⟩ := h
  obtain ⟨k1, k2, k3, k4⟩ := h'
  have hno : ∀ {p file found}, env.os.openFile w p = .ok file → FoundUntil env p file ac.parser found →
      ¬ ∃ u, oneFile env w ac.parser p = .ok u := by
    rintro p file found ho hu ⟨⟨r, e⟩, hone⟩
    cases oneFile_iff.1 hone with
    | closed h => rw [ho] at h; cases h
    | opened h h' => rw [ho] at h; cases h; exact foundUntil_noMeaning hnames hu _ _ h'
  rw [pathsMean_iff] at h2 k2
  obtain ⟨rfl, rfl, -⟩ := first_unique (P := fun p => ¬ ∃ u, oneFile env w ac.parser p = .ok u) (filesOf_unique h1 k1)
    (fun y hy h => h (h2.1 y hy)) (fun y hy h => h (k2.1 y hy)) (hno h3 h4) (hno k3 k4)
  rw [h3] at k3; cases k3
  rw [h2.2.2, k2.2.2, foundUntil_unique h4 k4]

theorem readLog_unique {base : Path} {acs : List ArtefactConfig} {es es' : List Error} (h : ReadLog env w base acs es)
    (h' : ReadLog env w base acs es') : es = es' := by
  induction h generalizing es' with
  | nil => cases h'; rfl
  | silent h1 _ ih =>
    cases h' with
    | silent _ k2 => exact ih k2
    | all k1 _ _ => exact absurd h1 k1
  | all h1 h2 _ ih =>
    cases h' with
    | silent k1 _ => exact absurd k1 h1
    | all _ k2 k3 => rw [h2] at k2; cases k2; rw [ih k3]

theorem readLog_parsed {base : Path} {acs : List ArtefactConfig} {es : List Error} (h : ReadLog env w base acs es) :
    ∀ ac ∈ acs, ∃ v, parseArtefact env w ac base = .ok v := by
  induction h with
  | nil => intro ac hac; cases hac
  | silent h1 _ ih =>
    intro ac hac
    rcases List.mem_cons.1 hac with rfl | hac
    · obtain ⟨k1, k2, e, k3⟩ := h1
      have hn : NoFiles env w ac base := by
        rw [noFiles_iff]
        rintro ⟨fs, ⟨-, -, k4⟩ | ⟨k4, -⟩⟩
        · rw [(globPaths_ok ..).2 k4] at k3; cases k3
        · exact k4 k1
      obtain ⟨_, _, hv, -⟩ := parseArtefact_noFiles hn
      exact ⟨_, hv⟩
    · exact ih ac hac
  | all _ h2 _ ih =>
    intro ac hac
    rcases List.mem_cons.1 hac with rfl | hac
    · obtain ⟨_, _, hv, -⟩ := parseFromConfig_ok h2
      exact ⟨_, hv⟩
    · exact ih ac hac

/-- **C160** Whatever was found in some artefacts, and in the next one up to a panic, that is the log: nothing else and
in no other order. -/
theorem C160_exact (log : Log.LogEnv) (hnames : NamesGiven env.syn) (hg : GoodConfig env w opt.configFile config)
    (hr : RelationsConfigured config) {pre post : List ArtefactConfig} {ac : ArtefactConfig} {es es' : List Error}
    (hacs : config.artefacts = pre ++ ac :: post) (hpre : ReadLog env w opt.baseDir pre es)
    (hac : ReadUntil env w opt.baseDir ac es') :
    said (Log.mainRc env log opt w) =
      (.info, c!"using config file " ++ opt.configFile) :: (es ++ es').map (announced env log) := by
  have hno : ∀ g, ¬ IsInput env w config opt.baseDir g := by
    intro g h
    refine (C82_none_iff env w config opt.baseDir).2 (.inr ?_) ⟨g, h⟩
    obtain ⟨k1, -, k2, k3⟩ := hac
    exact ⟨ac, by rw [hacs]; simp, _, k1, _, by simp, _, k2, foundUntil_noMeaning hnames k3⟩
  obtain ⟨pre', ac', post', fs, fs', h1, h2, h3, h4⟩ := C160_file log hnames hg hr hno
  obtain ⟨rfl, rfl, rfl⟩ := first_unique (P := fun ac => ∀ v, parseArtefact env w ac opt.baseDir ≠ .ok v)
    (hacs.symm.trans h1) (fun y hy h => (readLog_parsed hpre y hy).elim h) (fun y hy h => (readLog_parsed h2 y hy).elim h)
    (readUntil_crash hnames hac) (readUntil_crash hnames h3)
  rw [h4, readLog_unique hpre h2, readUntil_unique hnames hac h3]

end

namespace CrashLogExample

open CtrlExample (os env world args)
open CrashExample (notes code)

/-- Notes with a mistake, and code of which the second mark is outside of all items, as are the first, which is without
arguments, and the third. -/
def tree : Forest := .mac (RustExample.mark 1 []) (.mac (RustExample.mark 2 [RustExample.lit c!"\"REQ_A\"" 2 22])
  (.mac (RustExample.mark 3 []) .nil))

def config : Config :=
  ⟨none, [notes, code, { notes with id := c!"MORE" }], [], some (BMap.ofList [(c!"all", ⟨.parse, .json, c!"-", none⟩)]), some [c!"all"]⟩

def wrong : Str := c!"# REQ_A: title\nDescription.\n\nCovers: A\n\nno attribute\n"

theorem names : NamesGiven (RustExample.synOf tree) := by
  intro path text t ht o ho n hn
  cases ht
  simp only [tree, occs, List.mem_cons, List.not_mem_nil, or_false] at ho
  rcases ho with rfl | rfl | rfl <;> cases hn

theorem good (w : World) (hw : os.openFile w c!"requirements.toml" = .ok ⟨Utf8.encode c!"...", none⟩) :
    GoodConfig (env tree config) w args.configFile config :=
  ⟨_, _, hw, rfl, rfl, (C78_config _ _).1 (ConfigRead.C78_written _ (fun v hv => by cases hv)), fun v hv => by cases hv⟩

/-- The log of the crash over the code. -/
example : (Main.main (env tree config) args (CrashExample.files wrong)).1 = 101 ∧
    (said (Log.mainRc (env tree config) LogExample.log args (CrashExample.files wrong))).map (fun r => r.2.take 24) =
      [c!"using config file requir", c!"found problem Format(\n  ", c!"found problem Format(\n  "] := by
  decide +kernel

/-- The hypotheses are met. -/
example : ∃ pre ac post es es', config.artefacts = pre ++ ac :: post ∧
    ReadLog (env tree config) (CrashExample.files wrong) c!"p" pre es ∧
    ReadUntil (env tree config) (CrashExample.files wrong) c!"p" ac es' ∧
    said (Log.mainRc (env tree config) LogExample.log args (CrashExample.files wrong)) =
      (.info, c!"using config file requirements.toml") :: (es ++ es').map (announced (env tree config) LogExample.log) := by
  refine C160_file LogExample.log names (good _ (by decide +kernel)) (fun rel hrel => by cases hrel) (fun g hg => ?_)
  have h := (C82_controller _ _ _ _ _).2 ⟨g, hg, rfl⟩
  have h' : (Controller.new (env tree config) (CrashExample.files wrong) config c!"p").toOption.isSome = false := by
    decide +kernel
  rw [show args.baseDir = c!"p" from rfl] at h
  rw [h] at h'
  cases h'

/-- What is found in the code: the mark without arguments, and not the other one, which comes later. -/
example : FoundUntil (env tree config) c!"p/a.rs" ⟨Utf8.encode c!"...", none⟩ .rust
    [.format ⟨c!"p/a.rs", some (.lineAndColumn 1 8)⟩ c!"requirement_covered!() has no arguments"] :=
  .rust (text := c!"...") (tree := tree) (before := [⟨[], none, RustExample.mark 1 []⟩])
    (o := ⟨[], none, RustExample.mark 2 [RustExample.lit c!"\"REQ_A\"" 2 22]⟩) (after := [⟨[], none, RustExample.mark 3 []⟩]) (es := [])
    rfl rfl rfl
    (fun b hb hs => by
      cases List.mem_singleton.1 hb
      obtain ⟨-, ⟨id, title, h⟩, -⟩ := hs
      have := (readMac_ok (fun _ => []) [] (RustExample.mark 1 []) id title).2 h
      cases this)
    ⟨rfl, ⟨c!"REQ_A", none, .inr (.inl ⟨_, rfl, rfl, ⟨rfl, rfl, rfl⟩, rfl⟩)⟩, rfl⟩
    (.bad rfl (.nothing rfl) .nil)

/-- The hypotheses of the exact log are met, by code that is the only artefact. -/
example : said (Log.mainRc (env tree { config with artefacts := [code] }) LogExample.log args (CrashExample.files wrong)) =
    (.info, c!"using config file requirements.toml") ::
      [announced (env tree { config with artefacts := [code] }) LogExample.log
        (.format ⟨c!"p/a.rs", some (.lineAndColumn 1 8)⟩ c!"requirement_covered!() has no arguments")] :=
  C160_exact (config := { config with artefacts := [code] }) (pre := []) (post := []) LogExample.log names
    ⟨⟨Utf8.encode c!"...", none⟩, _, by decide +kernel, rfl, rfl, (C78_config _ _).1 (ConfigRead.C78_written _ (fun v hv => by cases hv)), fun v hv => by cases hv⟩
    (fun rel hrel => by cases hrel) rfl .nil
    (.mk (fs := []) (p := c!"p/a.rs") (more := []) (file := ⟨Utf8.encode c!"...", none⟩)
      (.inl ⟨rfl, by decide, (globPaths_ok _ _ _ _ _).1 (by decide +kernel)⟩) .nil (by decide +kernel)
      (.rust (text := c!"...") (tree := tree) (before := [⟨[], none, RustExample.mark 1 []⟩])
        (o := ⟨[], none, RustExample.mark 2 [RustExample.lit c!"\"REQ_A\"" 2 22]⟩)
        (after := [⟨[], none, RustExample.mark 3 []⟩]) (es := []) rfl rfl rfl
        (fun b hb hs => by
          cases List.mem_singleton.1 hb
          obtain ⟨-, ⟨id, title, h⟩, -⟩ := hs
          have := (readMac_ok (fun _ => []) [] (RustExample.mark 1 []) id title).2 h
          cases this)
        ⟨rfl, ⟨c!"REQ_A", none, .inr (.inl ⟨_, rfl, rfl, ⟨rfl, rfl, rfl⟩, rfl⟩)⟩, rfl⟩
        (.bad rfl (.nothing rfl) .nil)))

/-- The log of the crash over notes that end with a single character: the mistake before is there. -/
example : (Main.main (env tree config) args (CrashExample.files (wrong ++ c!"-"))).1 = 101 ∧
    (said (Log.mainRc (env tree config) LogExample.log args (CrashExample.files (wrong ++ c!"-")))).map (fun r => r.2.take 24) =
      [c!"using config file requir", c!"found problem Format(\n  "] := by
  decide +kernel

/-- The log of the crash over a relation. -/
example : said (Log.mainRc (env .nil CtrlExample.typo) LogExample.log args (world CtrlExample.files)) =
    [(.info, c!"using config file requirements.toml")] :=
  C160_relation LogExample.log CtrlExample.typo_good CtrlExample.typo_unknown

end CrashLogExample

end Reqtrace
