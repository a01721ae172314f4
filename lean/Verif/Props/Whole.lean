import Verif.Props.Output
import Verif.Props.Input
import Verif.Spec.Whole

/-!
# Property C82: the complete input graph
-/

namespace Reqtrace

open Spec Controller

theorem oneFile_iff {env : Env} {w : World} {parser : ArtefactParser} {p : Path} {reqs : List Requirement}
    {errs : List Error} : oneFile env w parser p = .ok (reqs, errs) ↔ PathMeans env w parser p reqs errs := by
  unfold oneFile
  cases ho : env.os.openFile w p with
  | error e =>
    constructor
    · intro h; cases h; exact .closed ho
    · intro h
      cases h with
      | closed h => rw [ho] at h; cases h; rfl
      | opened h _ => rw [ho] at h; cases h
  | ok file =>
    simp only
    rw [C81_file]
    constructor
    · intro h; exact .opened ho h
    · intro h
      cases h with
      | closed h => rw [ho] at h; cases h
      | opened h h' => rw [ho] at h; cases h; exact h'

theorem oneFile_parts {env : Env} {w : World} {parser : ArtefactParser} {p : Path} {reqs : List Requirement}
    {errs : List Error} (h : oneFile env w parser p = .ok (reqs, errs)) :
    requirementsIn env w parser p = reqs ∧ errorsIn env w parser p = errs := by
  unfold oneFile at h
  unfold requirementsIn errorsIn
  cases ho : env.os.openFile w p with
  | error e => rw [ho] at h; cases h; exact ⟨rfl, rfl⟩
  | ok file =>
    rw [ho] at h
    simp only at h ⊢
    rw [h]
    exact ⟨rfl, rfl⟩

theorem pathsMean_iff {env : Env} {w : World} {parser : ArtefactParser} (fs : List Path) :
    ∀ (reqs : List Requirement) (errs : List Error), PathsMean env w parser fs reqs errs ↔
      (∀ p ∈ fs, ∃ u, oneFile env w parser p = .ok u) ∧ reqs = fs.flatMap (requirementsIn env w parser) ∧
        errs = fs.flatMap (errorsIn env w parser) := by
  induction fs with
  | nil =>
    intro reqs errs
    constructor
    · intro h; cases h; simp
    · rintro ⟨-, rfl, rfl⟩; exact .nil
  | cons p fs ih =>
    intro reqs errs
    constructor
    · intro h
      cases h with
      | cons h1 h2 =>
        have h1 := oneFile_iff.2 h1
        obtain ⟨h3, h4⟩ := oneFile_parts h1
        obtain ⟨h5, h6, h7⟩ := (ih _ _).1 h2
        refine ⟨?_, ?_, ?_⟩
        · intro q hq
          rcases List.mem_cons.1 hq with rfl | hq
          · exact ⟨_, h1⟩
          · exact h5 q hq
        · rw [List.flatMap_cons, h3, h6]
        · rw [List.flatMap_cons, h4, h7]
    · rintro ⟨h1, rfl, rfl⟩
      obtain ⟨⟨r, e⟩, hu⟩ := h1 p List.mem_cons_self
      obtain ⟨h3, h4⟩ := oneFile_parts hu
      rw [List.flatMap_cons, List.flatMap_cons, h3, h4]
      exact .cons (oneFile_iff.1 hu) ((ih _ _).2 ⟨fun q hq => h1 q (List.mem_cons_of_mem _ hq), rfl, rfl⟩)

theorem globEntries_failed (es : List (Except (Path × Str) Path)) (x : Error) :
    globEntries es = .error x ↔ ∃ (gs : List Path) (q : Path) (e : Str) (more : _), es = gs.map .ok ++ .error (q, e) :: more ∧ x = .io q e := by
  induction es with
  | nil => simp [globEntries]
  | cons a es ih =>
    cases a with
    | error pe =>
      obtain ⟨p, e⟩ := pe
      rw [globEntries]
      constructor
      · intro h; cases h; exact ⟨[], p, e, es, rfl, rfl⟩
      · rintro ⟨gs, q, e', more, h, rfl⟩
        cases gs with
        | nil => cases h; rfl
        | cons g gs => cases h
    | ok p =>
      rw [globEntries]
      constructor
      · intro h
        cases hg : globEntries es with
        | ok ps => rw [hg] at h; cases h
        | error y =>
          rw [hg] at h
          cases h
          obtain ⟨gs, q, e', more, rfl, rfl⟩ := ih.1 hg
          exact ⟨p :: gs, q, e', more, rfl, rfl⟩
      · rintro ⟨gs, q, e', more, h, rfl⟩
        cases gs with
        | nil => cases h
        | cons g gs =>
          simp only [List.map_cons, List.cons_append, List.cons.injEq, Except.ok.injEq] at h
          obtain ⟨rfl, rfl⟩ := h
          rw [ih.2 ⟨gs, q, e', more, rfl, rfl⟩]
          rfl

/-- The searching fails at the first pattern that is wrong or has an entry that is. -/
theorem globPaths_failed (env : Env) (w : World) (base : Path) (ps : List Str) (x : Error) :
    globPaths env w base ps = .error x ↔ ∃ pre p post fs, ps = pre ++ p :: post ∧ Matched env w base pre fs ∧
      ((∃ e, env.os.glob w (patternOf base p) = .error e ∧ x = .io p e) ∨
       ∃ (gs : List Path) (q : Path) (e : Str) (more : _), env.os.glob w (patternOf base p) = .ok (gs.map .ok ++ .error (q, e) :: more) ∧ x = .io q e) := by
  induction ps with
  | nil => simp [globPaths]
  | cons p ps ih =>
    rw [globPaths]
    simp only [patternOf_eq]
    constructor
    · intro h
      cases hg : env.os.glob w (patternOf base p) with
      | error e =>
        rw [hg] at h; cases h
        exact ⟨[], p, ps, [], rfl, .nil, .inl ⟨e, hg, rfl⟩⟩
      | ok es =>
        rw [hg] at h
        simp only at h
        cases hh : globEntries es with
        | error y =>
          rw [hh] at h; cases h
          obtain ⟨gs, q, e', more, rfl, rfl⟩ := (globEntries_failed _ _).1 hh
          exact ⟨[], p, ps, [], rfl, .nil, .inr ⟨gs, q, e', more, hg, rfl⟩⟩
        | ok here =>
          rw [hh] at h
          cases hm : globPaths env w base ps with
          | ok more => rw [hm] at h; cases h
          | error y =>
            rw [hm] at h; cases h
            obtain ⟨pre, p', post, fs, rfl, h1, h2⟩ := ih.1 hm
            exact ⟨p :: pre, p', post, _, rfl, .cons (by rw [hg, (globEntries_ok es here).1 hh]) h1, h2⟩
    · rintro ⟨pre, p', post, fs, h1, h2, h3⟩
      cases pre with
      | nil =>
        simp only [List.nil_append, List.cons.injEq] at h1
        obtain ⟨rfl, rfl⟩ := h1
        rcases h3 with ⟨e, h3, rfl⟩ | ⟨gs, q, e, more, h3, rfl⟩
        · rw [h3]; rfl
        · rw [h3]
          simp only [bind, Except.bind]
          rw [(globEntries_failed _ (.io q e)).2 ⟨gs, q, e, more, rfl, rfl⟩]
      | cons a pre =>
        simp only [List.cons_append, List.cons.injEq] at h1
        obtain ⟨rfl, rfl⟩ := h1
        cases h2 with
        | cons h4 h5 =>
          rw [h4]
          simp only [bind, Except.bind]
          rw [(globEntries_ok _ _).2 rfl, ih.2 ⟨pre, p', post, _, rfl, h5, h3⟩]

theorem joinStr_eq (sep : Str) (l : List Str) : joinStr sep l = (l.intersperse sep).flatten := by
  induction l with
  | nil => rfl
  | cons a l ih =>
    cases l with
    | nil => simp [joinStr]
    | cons b l => rw [joinStr, ih]; simp [List.intersperse]

theorem filesOf_unique {env : Env} {w : World} {ac : ArtefactConfig} {base : Path} {fs fs' : List Path}
    (h : FilesOf env w ac base fs) (h' : FilesOf env w ac base fs') : fs = fs' := by
  rcases h with ⟨h1, _, h2⟩ | ⟨h1, p, h2, rfl⟩ <;> rcases h' with ⟨h3, _, h4⟩ | ⟨h3, q, h4, rfl⟩
  · have a := (globPaths_ok env w base _ _).2 h2
    rw [(globPaths_ok env w base _ _).2 h4] at a
    cases a; rfl
  · exact absurd h1 h3
  · exact absurd h3 h1
  · rw [h2] at h4; cases h4; rfl

/-- The parsing of an artefact, completely. -/
theorem parseArtefact_iff {env : Env} {w : World} {ac : ArtefactConfig} {base : Path} {fs : List Path}
    {reqs : List Requirement} {errs : List Error} :
    parseArtefact env w ac base = .ok (fs, reqs, errs) ↔ ArtefactMeans env w ac base fs reqs errs := by
  by_cases hf : ∃ fs, FilesOf env w ac base fs
  · obtain ⟨fs', hf⟩ := hf
    rw [parseArtefact_filesOf hf]
    constructor
    · rintro ⟨h1, h2⟩
      simp only [Prod.mk.injEq] at h2
      obtain ⟨rfl, rfl, rfl⟩ := h2
      exact .files hf ((pathsMean_iff _ _ _).2 ⟨h1, rfl, rfl⟩)
    · intro h
      cases h with
      | files h1 h2 =>
        cases filesOf_unique h1 hf
        obtain ⟨h3, rfl, rfl⟩ := (pathsMean_iff _ _ _).1 h2
        exact ⟨h3, rfl⟩
      | noPaths h1 h2 =>
        rcases hf with ⟨_, h3, _⟩ | ⟨h3, _⟩
        · exact absurd h2 h3
        · exact absurd h1 h3
      | badPattern h1 h2 h3 h4 =>
        rcases hf with ⟨_, _, h5⟩ | ⟨h5, _⟩
        · have := (globPaths_ok env w base _ _).2 h5
          rw [(globPaths_failed env w base _ _).2 ⟨_, _, _, _, h2, h3, .inl ⟨_, h4, rfl⟩⟩] at this
          cases this
        · exact absurd h1 h5
      | badMatch h1 h2 h3 h4 =>
        rcases hf with ⟨_, _, h5⟩ | ⟨h5, _⟩
        · have := (globPaths_ok env w base _ _).2 h5
          rw [(globPaths_failed env w base _ _).2 ⟨_, _, _, _, h2, h3, .inr ⟨_, _, _, _, h4, rfl⟩⟩] at this
          cases this
        · exact absurd h1 h5
      | notOne h1 h2 =>
        rcases hf with ⟨h3, _⟩ | ⟨_, p, h3, _⟩
        · exact absurd h3 h1
        · rw [h3] at h2; exact absurd rfl h2
  · have hn := (noFiles_iff env w ac base).2 hf
    unfold NoFiles at hn
    by_cases hr : ac.parser = .rust
    · rw [if_pos hr] at hn
      have hpa : parseArtefact env w ac base = parseMultipleFiles env w ac base := by
        unfold parseArtefact; rw [hr]
      rw [hpa]
      unfold parseMultipleFiles
      by_cases hp : ac.paths = []
      · rw [if_pos hp]
        constructor
        · intro h; cases h; exact .noPaths hr hp
        · intro h
          cases h with
          | files h1 _ => exact absurd ⟨_, h1⟩ hf
          | noPaths => rfl
          | badPattern _ h2 => rw [hp] at h2; simp at h2
          | badMatch _ h2 => rw [hp] at h2; simp at h2
          | notOne h1 => exact absurd hr h1
      · rw [if_neg hp]
        obtain ⟨x, hx⟩ := hn.resolve_left hp
        rw [hx]
        simp only
        constructor
        · intro h
          cases h
          obtain ⟨pre, p, post, fs, h1, h2, ⟨e, h3, rfl⟩ | ⟨gs, q, e, more, h3, rfl⟩⟩ := (globPaths_failed ..).1 hx
          · exact .badPattern hr h1 h2 h3
          · exact .badMatch hr h1 h2 h3
        · intro h
          cases h with
          | files h1 _ => exact absurd ⟨_, h1⟩ hf
          | noPaths _ h1 => exact absurd h1 hp
          | badPattern h1 h2 h3 h4 =>
            rw [(globPaths_failed env w base _ _).2 ⟨_, _, _, _, h2, h3, .inl ⟨_, h4, rfl⟩⟩] at hx
            cases hx; rfl
          | badMatch h1 h2 h3 h4 =>
            rw [(globPaths_failed env w base _ _).2 ⟨_, _, _, _, h2, h3, .inr ⟨_, _, _, _, h4, rfl⟩⟩] at hx
            cases hx; rfl
          | notOne h1 => exact absurd hr h1
    · rw [if_neg hr] at hn
      have hpa : parseArtefact env w ac base = .ok ([], [], [.config (c!"Expected only 1 file for artefact " ++ ac.id ++
          c!" with parser " ++ parserName ac.parser ++ c!", got [" ++
          ((ac.paths.map (quoted env.fmt)).intersperse c!", ").flatten ++ c!"]")]) := by
        have h1 : parseArtefact env w ac base = parseSingleFile env w ac base := by
          unfold parseArtefact
          split
          · next h => exact absurd h hr
          · rfl
        rw [h1]
        unfold parseSingleFile
        split
        · next p hp => rw [hp] at hn; exact absurd rfl hn
        · 
          have h2 : ac.parser.debug = parserName ac.parser := by cases ac.parser <;> rfl
          rw [h2, debugStrs, joinStr_eq, show env.fmt.debugStr = quoted env.fmt from funext (debugStr_eq env.fmt)]
          simp [List.append_assoc]
      rw [hpa]
      constructor
      · intro h; cases h; exact .notOne hr hn
      · intro h
        cases h with
        | files h1 _ => exact absurd ⟨_, h1⟩ hf
        | noPaths h1 => exact absurd h1 hr
        | badPattern h1 => exact absurd h1 hr
        | badMatch h1 => exact absurd h1 hr
        | notOne => rfl

theorem artefactMeans_unique {env : Env} {w : World} {ac : ArtefactConfig} {base : Path} {fs fs' : List Path}
    {reqs reqs' : List Requirement} {errs errs' : List Error} (h : ArtefactMeans env w ac base fs reqs errs)
    (h' : ArtefactMeans env w ac base fs' reqs' errs') : fs = fs' ∧ reqs = reqs' ∧ errs = errs' := by
  rw [← parseArtefact_iff] at h h'
  rw [h] at h'
  cases h'
  exact ⟨rfl, rfl, rfl⟩

theorem isArtefact_unique {env : Env} {w : World} {config : Config} {base : Path} {ac : ArtefactConfig}
    {art art' : Artefact} (h : IsTheArtefact env w config base ac art) (h' : IsTheArtefact env w config base ac art') :
    art = art' := by
  obtain ⟨reqs, errs, us, h⟩ := h
  obtain ⟨reqs', errs', us', h'⟩ := h'
  obtain ⟨e1, rfl, rfl⟩ := artefactMeans_unique h.means h'.means
  have hm : art.requirements = art'.requirements :=
    BMap.ext_get fun id => by rw [h.requirements, h'.requirements]
  have hu : us = us' := by
    refine BMap.sorted_ext (r := fun r s : Requirement => compare r.id s.id = .lt) ?_ ?_ h.sorted h'.sorted ?_
    · intro a ha; exact lt_irrefl_cmp ha
    · intro a b h1 h2
      rw [Std.OrientedOrd.eq_swap, h1] at h2; cases h2
    · intro r; rw [h.untitled, h'.untitled, hm]
  subst hu
  have hi : art.ignoreDerivedRequirements = art'.ignoreDerivedRequirements := by
    rw [Bool.eq_iff_iff, h.ignore, h'.ignore]
  have ht : art.referenceWithTitle = art'.referenceWithTitle := by
    rw [Bool.eq_iff_iff, h.titles, h'.titles]
  have he := h.errors.trans h'.errors.symm
  have hid := h.id.trans h'.id.symm
  cases art; cases art'
  simp only at hm hi ht he hid e1
  subst hm hi ht he hid e1
  rfl

theorem isInput_unique {env : Env} {w : World} {config : Config} {base : Path} {g g' : Graph}
    (h : IsInput env w config base g) (h' : IsInput env w config base g') : g = g' := by
  have : g.artefacts = g'.artefacts := by
    refine BMap.ext_get fun a => ?_
    cases hg : g.artefacts.get a with
    | some art =>
      obtain h1 := (h.artefacts a art).1 hg
      exact ((h'.artefacts a art).2 h1).symm
    | none =>
      cases hg' : g'.artefacts.get a with
      | none => rfl
      | some art =>
        obtain h1 := (h'.artefacts a art).1 hg'
        rw [(h.artefacts a art).2 h1] at hg
        cases hg
  have hr := h.relations.trans h'.relations.symm
  cases g; cases g'
  simp only at this hr
  subst this hr
  rfl

theorem new_isInput {env : Env} {w : World} {config : Config} {base : Path} {c : Controller}
    (h : Controller.new env w config base = .ok c) : IsInput env w config base c.graph := by
  have hall := ((C18_returns_iff env w config base).1 ⟨c, h⟩).2
  have hart : ∀ a art, c.graph.artefacts.get a = some art →
      ∃ ac, LastEntry config ac ∧ ac.id = a ∧ IsTheArtefact env w config base ac art := by
    intro a art ha
    obtain ⟨ac, root, files, m, errs, hl, hid, hroot, hp, rfl⟩ := new_artefact h ha
    obtain ⟨reqs, perrs, hpa, hget, rfl⟩ := C17_first_kept hp
    have hkey : ∀ k r, m.get k = some r → r.id = k := by
      intro k r hk
      rw [hget] at hk
      simpa using List.find?_some hk
    refine ⟨ac, hl, hid, reqs, perrs,
      if ac.referenceWithTitle.getD false then m.values.filter (fun r => r.title.isNone) else [],
      parseArtefact_iff.1 hpa, rfl, hget, ?_, ?_, ?_, ?_, ?_⟩
    · simp only
      split <;> simp
    · split
      · refine List.Pairwise.filter _ ?_
        unfold BMap.values
        rw [List.pairwise_map]
        refine m.sorted.imp_of_mem ?_
        intro x y hx hy hxy
        have e1 := hkey x.1 x.2 ((BMap.get_eq_some_iff m x.1 x.2).2 hx)
        have e2 := hkey y.1 y.2 ((BMap.get_eq_some_iff m y.1 y.2).2 hy)
        rw [e1, e2]
        exact hxy
      · exact .nil
    · intro r
      simp only
      cases ht : ac.referenceWithTitle with
      | none => simp
      | some b =>
        cases b with
        | false => simp
        | true =>
          simp only [Option.getD_some, if_true, List.mem_filter, BMap.mem_values_iff, Option.isNone_iff_eq_none]
          constructor
          · rintro ⟨⟨k, hk⟩, hn⟩
            exact ⟨trivial, hn, by rw [hkey k r hk]; exact hk⟩
          · rintro ⟨_, hn, hk⟩
            exact ⟨⟨_, hk⟩, hn⟩
    · simp only
      cases ac.ignoreDerivedRequirements with
      | none => simp [hroot]
      | some b => simp
    · simp only
      cases ac.referenceWithTitle with
      | none => simp
      | some b => simp
  refine ⟨(C18_no_panic h).2.1, new_relations h, ?_, ?_⟩
  · intro ac hac
    obtain ⟨⟨fs, reqs, errs⟩, hv⟩ := hall ac hac
    exact ⟨fs, reqs, errs, parseArtefact_iff.1 hv⟩
  · intro a art
    refine ⟨hart a art, ?_⟩
    rintro ⟨ac, hl, rfl, hi⟩
    have hcf : Configured config ac.id := by
      obtain ⟨pre, post, h1, _⟩ := hl
      exact ⟨ac, by rw [h1]; simp, rfl⟩
    obtain ⟨art', ha'⟩ := (new_configured h ac.id).1 hcf
    obtain ⟨ac', hl', hid', hi'⟩ := hart _ _ ha'
    have := lastEntry_unique hl' hl hid'
    subst this
    rw [ha', isArtefact_unique hi' hi]

/-- **C82** The controller is built exactly with the graph that the configuration means, its trace, and the configured
jobs. -/
theorem C82_controller (env : Env) (w : World) (config : Config) (base : Path) (c : Controller) :
    Controller.new env w config base = .ok c ↔ ∃ g, IsInput env w config base g ∧
      c = ⟨base, g, traced g, config.jobs.getD .empty, config.defaultJobs.getD []⟩ := by
  have key : ∀ c, Controller.new env w config base = .ok c →
      c = ⟨base, c.graph, traced c.graph, config.jobs.getD .empty, config.defaultJobs.getD []⟩ := by
    intro c h
    obtain ⟨_, _, _, _, h2, h3, h4, h5⟩ := new_ok h
    have := ((trace_ok_iff (C18_consistent h).1 _).1 h2).2
    cases c
    simp only at this h3 h4 h5
    subst this h3 h4 h5
    rfl
  constructor
  · intro h
    exact ⟨c.graph, new_isInput h, key c h⟩
  · rintro ⟨g, hg, rfl⟩
    obtain ⟨c, hc⟩ := (C18_returns_iff env w config base).2 ⟨hg.configured, fun ac hac => by
      obtain ⟨fs, reqs, errs, h⟩ := hg.all ac hac
      exact ⟨_, parseArtefact_iff.2 h⟩⟩
    have := isInput_unique (new_isInput hc) hg
    rw [hc, key c hc, this]

/-- **C82** A configuration means at most one graph. -/
theorem C82_determined {env : Env} {w : World} {config : Config} {base : Path} {g g' : Graph}
    (h : IsInput env w config base g) (h' : IsInput env w config base g') : g = g' := isInput_unique h h'

/-- **C82** It means none exactly if a relation names an artefact that is not configured, or a file of an artefact has no
meaning. -/
theorem C82_none_iff (env : Env) (w : World) (config : Config) (base : Path) :
    (¬ ∃ g, IsInput env w config base g) ↔ ¬ RelationsConfigured config ∨
      ∃ ac ∈ config.artefacts, ∃ fs, FilesOf env w ac base fs ∧ ∃ p ∈ fs, NoMeaning env w ac.parser p := by
  have h1 : (∃ g, IsInput env w config base g) ↔ ∃ c, Controller.new env w config base = .ok c := by
    constructor
    · rintro ⟨g, hg⟩; exact ⟨_, (C82_controller env w config base _).2 ⟨g, hg, rfl⟩⟩
    · rintro ⟨c, hc⟩; exact ⟨_, new_isInput hc⟩
  have hone : ∀ parser p, (¬ ∃ u, oneFile env w parser p = .ok u) ↔ NoMeaning env w parser p := by
    intro parser p
    constructor
    · intro h
      cases ho : env.os.openFile w p with
      | error e => exact absurd ⟨_, oneFile_iff.2 (.closed ho)⟩ h
      | ok file => exact ⟨file, ho, fun reqs errs hm => h ⟨_, oneFile_iff.2 (.opened ho hm)⟩⟩
    · rintro ⟨file, ho, hn⟩ ⟨⟨reqs, errs⟩, hu⟩
      cases oneFile_iff.1 hu with
      | closed h => rw [ho] at h; cases h
      | opened h h' => rw [ho] at h; cases h; exact hn _ _ h'
  have h2 : ∀ ac, (∃ v, parseArtefact env w ac base = .ok v) ↔
      ¬ ∃ fs, FilesOf env w ac base fs ∧ ∃ p ∈ fs, NoMeaning env w ac.parser p := by
    intro ac
    constructor
    · rintro ⟨v, hv⟩ ⟨fs, hf, p, hp, hn⟩
      exact (hone _ p).2 hn (((parseArtefact_filesOf hf v).1 hv).1 p hp)
    · intro h
      by_cases hf : ∃ fs, FilesOf env w ac base fs
      · obtain ⟨fs, hf⟩ := hf
        refine ⟨_, (parseArtefact_filesOf hf _).2 ⟨fun p hp => ?_, rfl⟩⟩
        exact Classical.byContradiction fun hn => h ⟨fs, hf, p, hp, (hone _ p).1 hn⟩
      · obtain ⟨fs, e, h3, _⟩ := parseArtefact_noFiles ((noFiles_iff env w ac base).2 hf)
        exact ⟨_, h3⟩
  rw [h1, C18_returns_iff]
  simp only [h2]
  constructor
  · intro h
    by_cases hr : RelationsConfigured config
    · right
      apply Classical.byContradiction
      intro hn
      exact h ⟨hr, fun ac hac hx => hn ⟨ac, hac, hx⟩⟩
    · exact .inl hr
  · rintro (h | ⟨ac, hac, h⟩) ⟨h3, h4⟩
    · exact h h3
    · exact h4 ac hac h

/-- **C82** The opened files without a meaning.  Names of Rust items are never empty. -/
theorem C82_no_meaning (env : Env) (path : Path) (file : File) (parser : ArtefactParser)
    (hnames : ∀ text tree, env.syn.parseFile text = .ok tree →
      ∀ o ∈ occs path [] none tree, ∀ n ∈ o.names, n ≠ []) :
    (∀ reqs errs, ¬ FileMeans env path file parser reqs errs) ↔
      match parser with
      | .markdown => ∃ text failure, ReadLines file text failure ∧ OneByteTail text
      | .monoRequirement => ∀ text, file ≠ ⟨Utf8.encode text, none⟩
      | .rust => ∃ text tree, file = ⟨Utf8.encode text, none⟩ ∧ env.syn.parseFile text = .ok tree ∧
          ∃ o ∈ occs path [] none tree, IsMark o.mac ∧ (∃ id title, Reads o.mac id title) ∧ o.loc = none
      | .json => False := by
  have hflip : (∀ reqs errs, ¬ FileMeans env path file parser reqs errs) ↔
      ¬ ∃ v, fileResult env parser file path = .ok v := by
    constructor
    · rintro h ⟨⟨reqs, errs⟩, hv⟩; exact h reqs errs ((C81_file ..).1 hv)
    · intro h reqs errs hm; exact h ⟨_, (C81_file ..).2 hm⟩
  rw [hflip]
  cases parser with
  | markdown =>
    simp only [fileResult]
    rw [C30_panics_iff_partial]
    constructor
    · intro h; exact ⟨_, _, (readLines_iff file _ _).2 rfl, h⟩
    · rintro ⟨text, failure, h1, h2⟩
      rw [(readLines_iff file _ _).1 h1]; exact h2
  | monoRequirement =>
    rw [← hflip]
    constructor
    · intro h text hf
      obtain ⟨⟨ls, h1, -, refs, h2, -⟩, h3⟩ := C42_determined env.U text path
      by_cases hn : ∃ name, FileName path name
      · obtain ⟨name, hn⟩ := hn
        obtain ⟨stem, hs⟩ := h3 name hn
        exact h _ _ (.mono hf h1 h2 hn hs)
      · exact h _ _ (.monoNoName hf h1 h2 (fun n h => hn ⟨n, h⟩))
    · intro h reqs errs hm
      cases hm with
      | mono h1 => exact h _ h1
      | monoNoName h1 => exact h _ h1
  | rust =>
    simp only [fileResult]
    obtain ⟨c1, c2, c3⟩ := C45_returns_partial env.syn file.whole path
    cases hf : file.whole.failure with
    | some e =>
      constructor
      · intro h; exact absurd ⟨_, c1 e hf⟩ h
      · rintro ⟨text, tree, rfl, _⟩
        rw [File.whole_encode] at hf; cases hf
    | none =>
      have hfile := (File.whole_ok file file.whole.text).1 (by rw [← hf])
      cases hp : env.syn.parseFile file.whole.text with
      | error x =>
        obtain ⟨l, c, msg⟩ := x
        constructor
        · intro h; exact absurd ⟨_, c2 hf l c msg hp⟩ h
        · rintro ⟨text, tree, hft, ht, _⟩
          rw [hft, File.whole_encode] at hp
          rw [ht] at hp; cases hp
      | ok tree =>
        rw [c3 hf tree hp (hnames _ _ hp), Classical.not_not]
        constructor
        · intro h; exact ⟨_, tree, hfile, hp, h⟩
        · rintro ⟨text, tree', hft, ht, h⟩
          rw [hft, File.whole_encode] at hp
          rw [ht] at hp; cases hp; exact h
  | json =>
    simp only [iff_false, Classical.not_not, fileResult]
    cases JsonRead.fromReader (env.jsonErr file) file.whole with
    | ok reqs => exact ⟨_, rfl⟩
    | error e => exact ⟨_, rfl⟩

namespace CtrlExample

/-- The example project means a graph; it has these artefacts with these numbers of requirements and errors. -/
example : ∃ g, IsInput (env RustExample.file config) (world files) config c!"p" g ∧
    g.artefacts.entries.map (fun e => (e.1, e.2.requirements.keys.length, e.2.errors.length)) =
      [(c!"CODE", 2, 2), (c!"ISSUE", 1, 1), (c!"REQ", 2, 1)] := by
  have h : ((Controller.new (env RustExample.file config) (world files) config c!"p").toOption.map fun c =>
      c.graph.artefacts.entries.map (fun e => (e.1, e.2.requirements.keys.length, e.2.errors.length))) = some [(c!"CODE", 2, 2), (c!"ISSUE", 1, 1), (c!"REQ", 2, 1)] := by
    decide +kernel
  cases hc : Controller.new (env RustExample.file config) (world files) config c!"p" with
  | error p => rw [hc] at h; cases h
  | ok c =>
    rw [hc] at h
    exact ⟨c.graph, new_isInput hc, Option.some.inj h⟩

/-- The example project with a typing error in a relation means none. -/
example : ¬ ∃ g, IsInput (env .nil typo) (world files) typo c!"p" g := by
  rw [C82_none_iff]
  left
  intro h
  have := (h ⟨c!"REQ", [c!"CDOE"]⟩ (by decide)).2 c!"CDOE" (by decide)
  obtain ⟨ac, hac, hid⟩ := this
  revert ac
  decide +kernel

/-- A Markdown file with a line that is not text: what is before it, and the error. -/
example : FileMeans (env .nil config) c!"f.md" ⟨Utf8.encode c!"# REQ_A: a\n\n# REQ_B: b\n" ++ [0xff, 10] ++ [65], none⟩
    .markdown [⟨c!"REQ_A", some c!"a", ⟨c!"f.md", some (.line 1)⟩, [], [], [], .empty⟩]
    [.io c!"f.md" c!"stream did not contain valid UTF-8"] := by
  rw [← C81_file]
  decide +kernel

end CtrlExample

end Reqtrace
