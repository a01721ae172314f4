import Verif.Props.Files
import Verif.Props.Jobs
import Verif.Props.Trace2
import Verif.Lemmas.MdSection
import Verif.Lemmas.Reader
import Verif.Spec.Input

/-!
# C68, C69: what goes into an artefact
-/

namespace Reqtrace

open Spec Controller

theorem joinPath_eq (base p : Path) : joinPath base p = target base p := by
  rw [← target_eq]
  split
  · next h => unfold joinPath; rw [if_pos h]
  · rfl

theorem patternOf_eq (base p : Str) :
    (if isAbsolute p = true then p else base ++ c!"/" ++ p) = patternOf base p := by
  unfold patternOf
  cases p with
  | nil => rfl
  | cons c t =>
    by_cases h : c = '/'
    · subst h; rfl
    · have : isAbsolute (c :: t) = false := by
        unfold isAbsolute; split
        · next h' => cases h'; exact absurd rfl h
        · rfl
      simp [this, h]

theorem globEntries_ok (es : List (Except (Path × Str) Path)) : ∀ (fs : List Path),
    globEntries es = .ok fs ↔ es = fs.map .ok := by
  induction es with
  | nil => intro fs; cases fs <;> simp [globEntries]
  | cons e es ih =>
    intro fs
    cases e with
    | error pe => cases fs <;> simp [globEntries]
    | ok p =>
      rw [globEntries]
      cases h : globEntries es with
      | error e =>
        simp only [bind, Except.bind]
        constructor
        · intro h'; cases h'
        · intro h'
          cases fs with
          | nil => cases h'
          | cons f fs =>
            simp only [List.map_cons, List.cons.injEq] at h'
            rw [(ih fs).2 h'.2] at h; cases h
      | ok ps =>
        simp only [bind, Except.bind, pure, Except.pure]
        have := (ih ps).1 h
        subst this
        constructor
        · intro h'; cases h'; rfl
        · intro h'
          cases fs with
          | nil => cases h'
          | cons f fs =>
            simp only [List.map_cons, List.cons.injEq, Except.ok.injEq] at h'
            obtain ⟨rfl, h2⟩ := h'
            have := (ih fs).2 h2
            rw [h] at this; cases this; rfl

theorem globPaths_ok (env : Env) (w : World) (base : Path) (ps : List Str) : ∀ (fs : List Path),
    globPaths env w base ps = .ok fs ↔ Matched env w base ps fs := by
  induction ps with
  | nil =>
    intro fs
    constructor
    · intro h; cases h; exact .nil
    · intro h; cases h; rfl
  | cons p ps ih =>
    intro fs
    rw [globPaths]
    simp only [patternOf_eq]
    constructor
    · intro h
      cases hg : env.os.glob w (patternOf base p) with
      | error e => rw [hg] at h; cases h
      | ok es =>
        rw [hg] at h
        simp only at h
        cases hh : globEntries es with
        | error e => rw [hh] at h; cases h
        | ok here =>
          rw [hh] at h
          cases hm : globPaths env w base ps with
          | error e => rw [hm] at h; cases h
          | ok more =>
            rw [hm] at h
            cases h
            exact .cons (by rw [hg, (globEntries_ok es here).1 hh]) ((ih more).1 hm)
    · intro h
      cases h with
      | cons h1 h2 =>
        rw [h1]
        simp only [bind, Except.bind]
        rw [(globEntries_ok _ _).2 rfl, (ih _).2 h2]
        rfl

theorem noFiles_iff (env : Env) (w : World) (ac : ArtefactConfig) (base : Path) :
    NoFiles env w ac base ↔ ¬ ∃ fs, FilesOf env w ac base fs := by
  unfold NoFiles FilesOf
  by_cases hr : ac.parser = .rust
  · rw [if_pos hr]
    constructor
    · rintro (h | ⟨e, h⟩) ⟨fs, (⟨_, h1, h2⟩ | ⟨h1, _⟩)⟩
      · exact h1 h
      · exact h1 hr
      · rw [(globPaths_ok env w base _ _).2 h2] at h; cases h
      · exact h1 hr
    · intro h
      by_cases hp : ac.paths = []
      · exact .inl hp
      · right
        cases hg : globPaths env w base ac.paths with
        | error e => exact ⟨e, rfl⟩
        | ok fs => exact absurd ⟨fs, .inl ⟨hr, hp, (globPaths_ok env w base _ _).1 hg⟩⟩ h
  · rw [if_neg hr]
    constructor
    · rintro h ⟨fs, (⟨h1, _⟩ | ⟨_, p, h1, _⟩)⟩
      · exact hr h1
      · rw [h1] at h; exact h rfl
    · intro h hl
      obtain ⟨p, hp⟩ := List.length_eq_one_iff.1 hl
      exact h ⟨_, .inr ⟨hr, p, hp, rfl⟩⟩

/-- What the parsing of an artefact with these files gives. -/
theorem parseArtefact_filesOf {env : Env} {w : World} {ac : ArtefactConfig} {base : Path} {fs : List Path}
    (hf : FilesOf env w ac base fs) (v : Parsed) : parseArtefact env w ac base = .ok v ↔
      (∀ p ∈ fs, ∃ u, oneFile env w ac.parser p = .ok u) ∧
      v = (fs, fs.flatMap (requirementsIn env w ac.parser), fs.flatMap (errorsIn env w ac.parser)) := by
  have hn : ¬ NoFiles env w ac base := fun h => (noFiles_iff env w ac base).1 h ⟨fs, hf⟩
  obtain ⟨fs', h1, h2, h3⟩ := parseArtefact_files hn
  have : fs' = fs := by
    rcases hf with ⟨hr, _, hm⟩ | ⟨hr, p, hp, rfl⟩
    · have := h1 hr
      rw [(globPaths_ok env w base _ _).2 hm] at this
      cases this; rfl
    · obtain ⟨p', hp', rfl⟩ := h2 hr
      rw [hp] at hp'; cases hp'
      rw [joinPath_eq]
  subst this
  exact h3 v

/-- A file that is not text in UTF-8 or cannot be read to its end: the error that names it, unless the parser panics. -/
theorem fileResult_unreadable {env : Env} {parser : ArtefactParser} {file : File} {p : Path} {reqs : List Requirement}
    {errs : List Error} (h : fileResult env parser file p = .ok (reqs, errs))
    (hb : ∀ text, file ≠ ⟨Utf8.encode text, none⟩) : ∃ m, .io p m ∈ errs ∨ .format ⟨p, none⟩ m ∈ errs := by
  have hw : ∃ e, file.whole.failure = some e := by
    cases hx : file.whole.failure with
    | some e => exact ⟨e, rfl⟩
    | none =>
      have : file.whole = ⟨file.whole.text, none⟩ := by rw [← hx]
      exact absurd ((File.whole_ok file _).1 this) (hb _)
  have hl : ∃ e, file.lines.failure = some e := by
    cases hx : file.lines.failure with
    | some e => exact ⟨e, rfl⟩
    | none => rw [(File.failure_iff file).1 hx] at hw; obtain ⟨_, h⟩ := hw; cases h
  obtain ⟨e, he⟩ := hw
  obtain ⟨e', he'⟩ := hl
  cases parser with
  | markdown =>
    obtain ⟨_, _, hes⟩ := parse_ok h
    rw [he'] at hes
    exact ⟨e', .inl (by rw [hes]; simp [Md.finish])⟩
  | rust =>
    simp only [fileResult, Rs.parse, he] at h
    cases h
    exact ⟨e, .inl List.mem_cons_self⟩
  | monoRequirement =>
    exfalso
    simp only [fileResult, MonoReq.parse, he'] at h
    cases hm : MonoReq.loop env.U p 0 (bufLines file.lines.text) none [] with
    | error q => rw [hm] at h; cases h
    | ok v => rw [hm] at h; cases h
  | json =>
    simp only [fileResult, JsonRead.fromReader, he] at h
    cases h
    exact ⟨_, .inr List.mem_cons_self⟩

theorem errorsIn_nil_iff {env : Env} {w : World} {parser : ArtefactParser} {p : Path} {u}
    (hu : oneFile env w parser p = .ok u) :
    errorsIn env w parser p = [] ↔ Holds env w parser p (requirementsIn env w parser p) := by
  unfold oneFile at hu
  unfold errorsIn requirementsIn Holds
  cases hf : env.os.openFile w p with
  | error e => simp
  | ok file =>
    rw [hf] at hu
    simp only at hu
    obtain ⟨reqs, errs⟩ := u
    simp only [hu, Except.ok.injEq]
    constructor
    · rintro rfl
      by_cases hb : ∃ text, file = ⟨Utf8.encode text, none⟩
      · obtain ⟨text, rfl⟩ := hb
        exact ⟨text, rfl, (C81_file ..).1 hu⟩
      · obtain ⟨m, h | h⟩ := fileResult_unreadable hu (fun t ht => hb ⟨t, ht⟩) <;> cases h
    · rintro ⟨text, rfl, h⟩
      rw [(C81_file ..).2 h] at hu; cases hu; rfl

theorem holds_iff {env : Env} {w : World} {parser : ArtefactParser} {p : Path} {reqs : List Requirement}
    (h : Holds env w parser p reqs) : oneFile env w parser p = .ok (reqs, []) ∧ requirementsIn env w parser p = reqs ∧
      errorsIn env w parser p = [] := by
  obtain ⟨text, h1, h2⟩ := h
  rw [← C81_file] at h2
  unfold oneFile requirementsIn errorsIn
  simp [h1, h2]

theorem holdAll_iff {env : Env} {w : World} {parser : ArtefactParser} (fs : List Path) : ∀ (reqs : List Requirement),
    HoldAll env w parser fs reqs ↔ (∀ p ∈ fs, ∃ u, oneFile env w parser p = .ok u) ∧
      fs.flatMap (errorsIn env w parser) = [] ∧ reqs = fs.flatMap (requirementsIn env w parser) := by
  induction fs with
  | nil =>
    intro reqs
    constructor
    · intro h; cases h; simp
    · rintro ⟨-, -, rfl⟩; exact .nil
  | cons p ps ih =>
    intro reqs
    constructor
    · intro h
      cases h with
      | cons h1 h2 =>
        obtain ⟨a1, a2, a3⟩ := holds_iff h1
        obtain ⟨b1, b2, b3⟩ := (ih _).1 h2
        refine ⟨fun q hq => ?_, ?_, ?_⟩
        · rcases List.mem_cons.1 hq with rfl | hq
          · exact ⟨_, a1⟩
          · exact b1 q hq
        · rw [List.flatMap_cons, a3, b2]; rfl
        · rw [List.flatMap_cons, a2, b3]
    · rintro ⟨h1, h2, rfl⟩
      rw [List.flatMap_cons] at h2 ⊢
      obtain ⟨h3, h4⟩ := List.append_eq_nil_iff.1 h2
      obtain ⟨u, hu⟩ := h1 p List.mem_cons_self
      exact .cons ((errorsIn_nil_iff hu).1 h3) ((ih _).2 ⟨fun q hq => h1 q (List.mem_cons_of_mem _ hq), h4, rfl⟩)

theorem duplicates_nil_iff (reqs : List Requirement) : duplicates reqs = [] ↔ (reqs.map (·.id)).Nodup := by
  constructor
  · intro h
    rw [List.nodup_iff_pairwise_ne, List.pairwise_map, List.pairwise_iff_getElem]
    intro i j hi hj hij he
    have hmem : ∃ first, .duplicateRequirement first reqs[j] ∈ duplicates reqs := by
      cases hf : (reqs.take j).find? (fun r => r.id = reqs[j].id) with
      | some first => exact ⟨first, mem_duplicates.2 ⟨j, List.getElem?_eq_getElem hj, hf⟩⟩
      | none =>
        have := List.find?_eq_none.1 hf reqs[i] (List.mem_take_iff_getElem.2 ⟨i, by omega, rfl⟩)
        simp [he] at this
    obtain ⟨first, hm⟩ := hmem
    rw [h] at hm; cases hm
  · intro h
    cases hd : duplicates reqs with
    | nil => rfl
    | cons e es =>
      exfalso
      have he : e ∈ duplicates reqs := by rw [hd]; exact List.mem_cons_self
      have : ∃ first again, e = .duplicateRequirement first again := by
        unfold duplicates at he
        obtain ⟨i, _, h2⟩ := List.mem_filterMap.1 he
        split at h2
        · cases h2
        · obtain ⟨a, _, rfl⟩ := Option.map_eq_some_iff.1 h2
          exact ⟨_, _, rfl⟩
      obtain ⟨first, again, rfl⟩ := this
      obtain ⟨j, h1, h2⟩ := mem_duplicates.1 he
      obtain ⟨hj, rfl⟩ := List.getElem?_eq_some_iff.1 h1
      obtain ⟨i, hi, rfl⟩ := List.mem_take_iff_getElem.1 (List.mem_of_find?_eq_some h2)
      have hid := List.find?_some h2
      rw [List.nodup_iff_pairwise_ne, List.pairwise_map, List.pairwise_iff_getElem] at h
      exact h i j (by omega) hj (by omega) (by simpa using hid)

/-! ## C68 -/

/-- **C68** An artefact has no error exactly if its files are known, all could be opened and read to the end as UTF-8,
the parser understood them, their requirements have different ids, and titles where they are asked for.  Then it has
exactly their requirements. -/
theorem C68_no_errors_iff {env : Env} {w : World} {config : Config} {base : Path} {c : Controller}
    (h : Controller.new env w config base = .ok c) {ac : ArtefactConfig} (hl : LastEntry config ac) {art : Artefact}
    (ha : c.graph.artefacts.get ac.id = some art) :
    (art.errors = [] ↔ ∃ reqs, CleanArtefact env w ac base reqs) ∧
    ∀ reqs, CleanArtefact env w ac base reqs → FilesOf env w ac base art.files ∧
      ∀ id r, art.requirements.get id = some r ↔ r ∈ reqs ∧ r.id = id := by
  obtain ⟨ac', root, files, m, errs, hl', hid, _, hp, rfl⟩ := new_artefact h ha
  have := lastEntry_unique hl' hl hid
  subst this
  obtain ⟨reqs, perrs, hpa, hget, rfl⟩ := C17_first_kept hp
  have hvals : ∀ r, r ∈ m.values ↔ ∃ k, m.get k = some r := fun r => BMap.mem_values_iff m r
  have hcl : ∀ rs, CleanArtefact env w ac' base rs → rs = reqs ∧ FilesOf env w ac' base files ∧ perrs = [] := by
    rintro rs ⟨⟨fs, hf, hall⟩, -, -⟩
    obtain ⟨h1, h2, h3⟩ := (holdAll_iff fs rs).1 hall
    obtain ⟨-, hv⟩ := (parseArtefact_filesOf hf _).1 hpa
    cases hv
    exact ⟨h3, hf, h2⟩
  have hkeep : (reqs.map (·.id)).Nodup → ∀ r ∈ reqs, m.get r.id = some r := by
    intro hn r hr
    rw [hget]
    cases hf : reqs.find? (fun x => x.id = r.id) with
    | none =>
      have := List.find?_eq_none.1 hf r hr
      simp at this
    | some x =>
      have h1 := List.mem_of_find?_eq_some hf
      have h2 : x.id = r.id := by simpa using List.find?_some hf
      have : x = r := by
        rw [List.nodup_iff_pairwise_ne, List.pairwise_map] at hn
        apply Classical.byContradiction
        intro hne
        obtain ⟨i, hi, rfl⟩ := List.getElem_of_mem h1
        obtain ⟨j, hj, rfl⟩ := List.getElem_of_mem hr
        rw [List.pairwise_iff_getElem] at hn
        rcases Nat.lt_trichotomy i j with hij | hij | hij
        · exact hn i j hi hj hij h2
        · subst hij; exact hne rfl
        · exact hn j i hj hi hij h2.symm
      rw [this]
  refine ⟨⟨fun he => ⟨reqs, ?_⟩, ?_⟩, ?_⟩
  · simp only at he
    have he1 : perrs ++ duplicates reqs = [] := by
      split at he
      · exact (List.append_eq_nil_iff.1 he).1
      · exact he
    obtain ⟨rfl, hd⟩ := List.append_eq_nil_iff.1 he1
    have hnd := (duplicates_nil_iff reqs).1 hd
    refine ⟨?_, hnd, ?_⟩
    · have hf : ∃ fs, FilesOf env w ac' base fs := by
        apply Classical.byContradiction
        intro hno
        obtain ⟨fs, e, h1, _⟩ := parseArtefact_noFiles ((noFiles_iff env w ac' base).2 hno)
        rw [hpa] at h1; cases h1
      obtain ⟨fs, hf⟩ := hf
      obtain ⟨h1, h2⟩ := (parseArtefact_filesOf hf _).1 hpa
      simp only [Prod.mk.injEq] at h2
      exact ⟨_, hf, (holdAll_iff _ _).2 ⟨h1, h2.2.2.symm, h2.2.1⟩⟩
    · intro ht r hr hnone
      rw [ht] at he
      simp only [Option.getD_some, if_true] at he
      have h2 := (List.append_eq_nil_iff.1 he).2
      rw [List.map_eq_nil_iff, List.filter_eq_nil_iff] at h2
      exact h2 r ((hvals r).2 ⟨_, hkeep hnd r hr⟩) (by simp [hnone])
  · rintro ⟨rs, hc⟩
    obtain ⟨rfl, hf, rfl⟩ := hcl rs hc
    simp only [(duplicates_nil_iff _).2 hc.ids, List.append_nil, List.nil_append]
    split
    · next ht =>
      rw [List.map_eq_nil_iff, List.filter_eq_nil_iff]
      intro r hr
      obtain ⟨k, hk⟩ := (hvals r).1 hr
      rw [hget] at hk
      have ht' : ac'.referenceWithTitle = some true := by
        cases hx : ac'.referenceWithTitle with
        | none => rw [hx] at ht; cases ht
        | some b => rw [hx] at ht; simp at ht; rw [ht]
      have := hc.titles ht' r (List.mem_of_find?_eq_some hk)
      cases hr : r.title with
      | none => exact absurd hr this
      | some t => simp
    · rfl
  · intro rs hc
    obtain ⟨rfl, hf, rfl⟩ := hcl rs hc
    refine ⟨hf, fun id r => ?_⟩
    constructor
    · intro hr
      simp only at hr
      rw [hget] at hr
      exact ⟨List.mem_of_find?_eq_some hr, by simpa using List.find?_some hr⟩
    · rintro ⟨h1, rfl⟩
      exact hkeep hc.ids r h1

/-- **C68** Each problem with a file gives an error of the artefact that names the file; without files there is an error
as well. -/
theorem C68_named {env : Env} {w : World} {config : Config} {base : Path} {c : Controller}
    (h : Controller.new env w config base = .ok c) {ac : ArtefactConfig} (hl : LastEntry config ac) {art : Artefact}
    (ha : c.graph.artefacts.get ac.id = some art) :
    ((¬ ∃ fs, FilesOf env w ac base fs) → (∃ e ∈ art.errors, (∃ p m, e = .io p m) ∨ ∃ m, e = .config m) ∧
      ∀ id, art.requirements.get id = none) ∧
    ∀ fs, FilesOf env w ac base fs → ∀ p ∈ fs,
      (∀ e, env.os.openFile w p = .error e → .io p e ∈ art.errors) ∧
      (∀ file, env.os.openFile w p = .ok file → (∀ text, file ≠ ⟨Utf8.encode text, none⟩) →
        ∃ m, .io p m ∈ art.errors ∨ .format ⟨p, none⟩ m ∈ art.errors) ∧
      ∀ file reqs errs, env.os.openFile w p = .ok file → FileMeans env p file ac.parser reqs errs →
        (∀ e ∈ errs, e ∈ art.errors) ∧
        ∀ r ∈ reqs, ∃ kept, art.requirements.get r.id = some kept ∧
          (kept = r ∨ .duplicateRequirement kept r ∈ art.errors) := by
  obtain ⟨ac', root, files, m, errs, hl', hid, _, hp, rfl⟩ := new_artefact h ha
  have := lastEntry_unique hl' hl hid
  subst this
  have hsub : ∀ e ∈ errs, e ∈ (if ac'.referenceWithTitle.getD false then
      errs ++ (m.values.filter (fun r => r.title.isNone)).map .requirementWithoutTitle else errs) := by
    intro e he
    split
    · exact List.mem_append_left _ he
    · exact he
  obtain ⟨reqs, perrs, hpa, hget, rfl⟩ := C17_first_kept hp
  constructor
  · intro hno
    obtain ⟨fs, e, h1, h2, _⟩ := parseArtefact_noFiles ((noFiles_iff env w ac' base).2 hno)
    rw [hpa] at h1; cases h1
    refine ⟨⟨e, hsub e (by simp), h2⟩, fun id => ?_⟩
    simp only
    rw [hget]; rfl
  · intro fs hf p hpf
    obtain ⟨h1, h2⟩ := (parseArtefact_filesOf hf _).1 hpa
    cases h2
    have hin : ∀ e ∈ errorsIn env w ac'.parser p, e ∈ (if ac'.referenceWithTitle.getD false then
        (files.flatMap (errorsIn env w ac'.parser) ++ duplicates (files.flatMap (requirementsIn env w ac'.parser))) ++
          (m.values.filter (fun r => r.title.isNone)).map .requirementWithoutTitle
        else files.flatMap (errorsIn env w ac'.parser) ++ duplicates (files.flatMap (requirementsIn env w ac'.parser))) := by
      intro e he
      exact hsub e (List.mem_append_left _ (List.mem_flatMap.2 ⟨p, hpf, he⟩))
    refine ⟨fun e he => hin _ ?_, fun file hfile hb => ?_, fun file rs es hfile hr => ?_⟩
    · unfold errorsIn; rw [he]; exact List.mem_cons_self
    · obtain ⟨u, hu⟩ := h1 p hpf
      unfold oneFile at hu
      rw [hfile] at hu
      simp only at hu
      obtain ⟨m, hm⟩ := fileResult_unreadable hu hb
      have hes : errorsIn env w ac'.parser p = u.2 := by unfold errorsIn; simp [hfile, hu]
      rcases hm with hm | hm
      · exact ⟨m, .inl (hin _ (by rw [hes]; exact hm))⟩
      · exact ⟨m, .inr (hin _ (by rw [hes]; exact hm))⟩
    rw [← C81_file] at hr
    refine ⟨fun e he => hin _ ?_, ?_⟩
    · unfold errorsIn; simp [hfile, hr, he]
    · intro r hrr
      have hmem : r ∈ files.flatMap (requirementsIn env w ac'.parser) :=
        List.mem_flatMap.2 ⟨p, hpf, by unfold requirementsIn; simp [hfile, hr, hrr]⟩
      rcases (C17_none_vanishes hp hpa).1 r hmem with hk | ⟨kept, hk, hd⟩
      · exact ⟨r, hk, .inl rfl⟩
      · exact ⟨kept, hk, .inr (hsub _ hd)⟩

/-! ## C69 -/

/-- **C69** The files listed for an artefact are all its files, in order; if its files cannot be told, none or the patterns
that were searched. -/
theorem C69_files {env : Env} {w : World} {config : Config} {base : Path} {c : Controller}
    (h : Controller.new env w config base = .ok c) {ac : ArtefactConfig} (hl : LastEntry config ac) {art : Artefact}
    (ha : c.graph.artefacts.get ac.id = some art) :
    (∀ fs, FilesOf env w ac base fs → art.files = fs ∧
      ∀ id, art.requirements.get id = (fs.flatMap (requirementsIn env w ac.parser)).find? (fun r => r.id = id)) ∧
    ((¬ ∃ fs, FilesOf env w ac base fs) → art.files = [] ∨ art.files = ac.paths) := by
  obtain ⟨ac', root, files, m, errs, hl', hid, _, hp, rfl⟩ := new_artefact h ha
  have := lastEntry_unique hl' hl hid
  subst this
  obtain ⟨reqs, perrs, hpa, hget, rfl⟩ := C17_first_kept hp
  constructor
  · intro fs hf
    obtain ⟨h1, h2⟩ := (parseArtefact_filesOf hf _).1 hpa
    cases h2
    exact ⟨rfl, hget⟩
  · intro hno
    have hn := (noFiles_iff env w ac' base).2 hno
    simp only
    unfold parseArtefact at hpa
    split at hpa
    · next hr =>
      unfold NoFiles at hn
      rw [if_pos hr] at hn
      unfold parseMultipleFiles at hpa
      split at hpa
      · cases hpa; exact .inl rfl
      · next hne =>
        obtain ⟨e, he⟩ := hn.resolve_left hne
        rw [he] at hpa
        cases hpa
        exact .inr rfl
    · next hr =>
      unfold NoFiles at hn
      rw [if_neg hr] at hn
      unfold parseSingleFile at hpa
      split at hpa
      · next p hp => rw [hp] at hn; exact absurd rfl hn
      · cases hpa; exact .inl rfl

theorem globPaths_same {env : Env} {w w' : World} (hg : SameMatches env w w') (base : Path) (ps : List Str) :
    globPaths env w' base ps = globPaths env w base ps := by
  induction ps with
  | nil => rfl
  | cons p ps ih =>
    rw [globPaths, globPaths, ih]
    simp only
    rw [hg]

theorem oneFile_same {env : Env} {w w' : World} {parser : ArtefactParser} {p : Path} (h : SameFile env w w' p) :
    oneFile env w' parser p = oneFile env w parser p ∧ requirementsIn env w' parser p = requirementsIn env w parser p ∧
      errorsIn env w' parser p = errorsIn env w parser p := by
  unfold SameFile at h
  unfold oneFile requirementsIn errorsIn
  rw [h]
  exact ⟨rfl, rfl, rfl⟩

theorem parseArtefact_same {env : Env} {w w' : World} (hg : SameMatches env w w') {ac : ArtefactConfig} {base : Path}
    {files : List Path} {reqs : List Requirement} {errs : List Error}
    (h : parseArtefact env w ac base = .ok (files, reqs, errs)) (hf : ∀ p ∈ files, SameFile env w w' p) :
    parseArtefact env w' ac base = .ok (files, reqs, errs) := by
  by_cases hfs : ∃ fs, FilesOf env w ac base fs
  · obtain ⟨fs, hfs⟩ := hfs
    obtain ⟨h1, h2⟩ := (parseArtefact_filesOf hfs _).1 h
    simp only [Prod.mk.injEq] at h2
    obtain ⟨rfl, h2, h3⟩ := h2
    have hfs' : FilesOf env w' ac base files := by
      rcases hfs with ⟨a, b, c⟩ | hfs
      · refine .inl ⟨a, b, ?_⟩
        have := (globPaths_ok env w base _ _).2 c
        rw [← globPaths_same hg] at this
        exact (globPaths_ok env w' base _ _).1 this
      · exact .inr hfs
    refine (parseArtefact_filesOf hfs' _).2 ⟨fun p hp => ?_, ?_⟩
    · rw [(oneFile_same (hf p hp)).1]; exact h1 p hp
    · rw [h2, h3, flatMap_congr' (fun p hp => (oneFile_same (hf p hp)).2.1),
        flatMap_congr' (fun p hp => (oneFile_same (hf p hp)).2.2)]
  · have hn := (noFiles_iff env w ac base).2 hfs
    rw [← h]
    unfold parseArtefact
    unfold NoFiles at hn
    by_cases hr : ac.parser = .rust
    · rw [if_pos hr] at hn
      rw [hr]
      show parseMultipleFiles env w' ac base = parseMultipleFiles env w ac base
      unfold parseMultipleFiles
      by_cases hp : ac.paths = []
      · rw [if_pos hp, if_pos hp]
      · rw [if_neg hp, if_neg hp, globPaths_same hg]
        obtain ⟨e, he⟩ := hn.resolve_left hp
        rw [he]
    · rw [if_neg hr] at hn
      have key : parseSingleFile env w' ac base = parseSingleFile env w ac base := by
        unfold parseSingleFile
        split
        · next p hp => rw [hp] at hn; exact absurd rfl hn
        · rfl
      cases hx : ac.parser with
      | rust => exact absurd hx hr
      | _ => exact key

theorem makeArtefact_same {env : Env} {w w' : World} (hg : SameMatches env w w') {ac : ArtefactConfig} {base : Path}
    {roots : BMap ArtefactId Bool} {art : Artefact} (h : makeArtefact env w base roots ac = .ok art)
    (hf : ∀ p ∈ art.files, SameFile env w w' p) : makeArtefact env w' base roots ac = .ok art := by
  obtain ⟨root, files, m, errs, h1, h2, h3⟩ := makeArtefact_ok h
  obtain ⟨reqs, perrs, h4, h5, h6⟩ := parseFromConfig_ok h2
  have h7 := parseArtefact_same hg h4 (by rw [h3] at hf; exact hf)
  have h8 : parseFromConfig env w' ac base = parseFromConfig env w ac base := by
    unfold parseFromConfig; rw [h7, h4]
  rw [← h]
  unfold makeArtefact
  rw [h8]

theorem makeArtefacts_same {env : Env} {w w' : World} (hg : SameMatches env w w') {base : Path}
    {roots : BMap ArtefactId Bool} (acs : List ArtefactConfig) : ∀ (m : BMap ArtefactId Artefact),
    (∀ ac ∈ acs, ∃ art, makeArtefact env w base roots ac = .ok art ∧ ∀ p ∈ art.files, SameFile env w w' p) →
    makeArtefacts env w' base roots acs m = makeArtefacts env w base roots acs m := by
  induction acs with
  | nil => intro m _; rfl
  | cons ac acs ih =>
    intro m h
    obtain ⟨art, h1, h2⟩ := h ac List.mem_cons_self
    rw [makeArtefacts, makeArtefacts, h1, makeArtefact_same hg h1 h2]
    exact ih _ (fun ac hac => h ac (List.mem_cons_of_mem _ hac))

/-- **C69** Nothing but the files that are listed for the artefacts, and which files match the patterns, has an influence
on the requirements, the errors and the result of tracing. -/
theorem C69_only_listed {env : Env} {w w' : World} {config : Config} {base : Path} {c : Controller}
    (hd : (config.artefacts.map (·.id)).Nodup) (h : Controller.new env w config base = .ok c)
    (hg : SameMatches env w w')
    (hf : ∀ a art, c.graph.artefacts.get a = some art → ∀ p ∈ art.files, SameFile env w w' p) :
    Controller.new env w' config base = .ok c := by
  obtain ⟨roots, h1, h2, _⟩ := new_ok h
  obtain ⟨h3, h4⟩ := makeArtefacts_ok _ _ _ h2
  have key : makeArtefacts env w' base roots config.artefacts .empty =
      makeArtefacts env w base roots config.artefacts .empty := by
    refine makeArtefacts_same hg _ _ (fun ac hac => ?_)
    obtain ⟨art, hart⟩ := h3 ac hac
    refine ⟨art, hart, ?_⟩
    rcases h4 ac.id with ⟨pre, ac', post, art', e1, e2, e3, e4, e5⟩ | ⟨hno, _⟩
    · have hl := C22_distinct_partial hd hac
      have := lastEntry_unique (ac' := ac') ⟨pre, post, e1, e2⟩ hl e3
      subst this
      rw [hart] at e4; cases e4
      exact hf _ _ e5
    · exact absurd rfl (hno ac hac)
  rw [← h]
  unfold Controller.new
  rw [h1]
  simp only [bind, Except.bind]
  rw [key]

/-! ## C75: a green run -/

theorem lastEntry_exists {config : Config} {a : ArtefactId} (h : Configured config a) :
    ∃ ac, LastEntry config ac ∧ ac.id = a := by
  unfold LastEntry Configured at *
  generalize config.artefacts = l at h
  induction l with
  | nil => obtain ⟨_, h, _⟩ := h; cases h
  | cons b l ih =>
    by_cases hl : ∃ ac ∈ l, ac.id = a
    · obtain ⟨z, ⟨pre, post, e1, e2⟩, e3⟩ := ih hl
      exact ⟨z, ⟨b :: pre, post, by rw [List.cons_append, e1], e2⟩, e3⟩
    · obtain ⟨ac, hac, hid⟩ := h
      rcases List.mem_cons.1 hac with rfl | hac
      · exact ⟨ac, ⟨[], l, rfl, fun q hq he => hl ⟨q, hq, he.trans hid⟩⟩, hid⟩
      · exact absurd ⟨ac, hac, hid⟩ hl

/-- No artefact has an error exactly if the input is clean. -/
theorem cleanInput_iff {env : Env} {w : World} {config : Config} {base : Path} {c : Controller}
    (h : Controller.new env w config base = .ok c) :
    ¬ ParseProblem c.graph.artefacts ↔ CleanInput env w config base c.graph := by
  have hk := (C18_consistent h).1
  constructor
  · intro hno
    refine ⟨(C18_no_panic h).2.1, fun a => (new_configured h a).symm, fun ac hl => ?_⟩
    have hcfg : Configured config ac.id := by
      obtain ⟨pre, post, e, _⟩ := hl
      exact ⟨ac, by rw [e]; simp, rfl⟩
    obtain ⟨art, ha⟩ := (new_configured h ac.id).1 hcfg
    have hnil : art.errors = [] := by
      cases he : art.errors with
      | nil => rfl
      | cons e es => exact absurd ⟨_, art, e, ha, by rw [he]; exact List.mem_cons_self⟩ hno
    obtain ⟨h1, h2⟩ := C68_no_errors_iff h hl ha
    obtain ⟨reqs, hc⟩ := h1.1 hnil
    refine ⟨reqs, hc, fun r => ?_⟩
    obtain ⟨_, h3⟩ := h2 reqs hc
    constructor
    · rintro ⟨art', ha', hr⟩
      rw [ha] at ha'; cases ha'
      exact ((h3 _ r).1 hr).1
    · intro hr
      exact ⟨art, ha, (h3 _ r).2 ⟨hr, rfl⟩⟩
  · rintro ⟨_, _, hcl⟩ ⟨a, art, e, ha, he⟩
    obtain ⟨ac, hl, rfl⟩ := lastEntry_exists ((new_configured h a).2 ⟨art, ha⟩)
    obtain ⟨reqs, hc, _⟩ := hcl ac hl
    rw [(C68_no_errors_iff h hl ha).1.2 ⟨reqs, hc⟩] at he
    cases he

theorem traceProblem_iff {env : Env} {w : World} {config : Config} {base : Path} {c : Controller}
    (h : Controller.new env w config base = .ok c) :
    ¬ TraceProblem c.tracedGraph ↔ CleanProject env w config base c.graph := by
  have hk := (C18_consistent h).1
  have ht := (C18_no_panic h).1
  have harts : c.tracedGraph.artefacts = c.graph.artefacts := (C11_frame hk ht).1
  unfold CleanProject
  rw [← cleanInput_iff h, ← C67_no_errors_iff hk ht, ← C67_covered_iff hk ht, ← C67_derived_iff hk ht]
  unfold TraceProblem
  rw [harts]
  constructor
  · intro hno
    refine ⟨fun hp => hno (.inr (.inl hp)), ?_, fun tr htr => ?_, fun a ids hids => ?_⟩
    · cases he : c.tracedGraph.errors with
      | nil => rfl
      | cons e es => exact absurd (.inl ⟨e, by rw [he]; exact List.mem_cons_self⟩) hno
    · cases he : tr.uncovered with
      | nil => rfl
      | cons r rs => exact absurd (.inr (.inr (.inl ⟨tr, htr, r, by rw [he]; exact List.mem_cons_self⟩))) hno
    · cases he : ids with
      | nil => rfl
      | cons r rs => exact absurd (.inr (.inr (.inr ⟨a, ids, r, hids, by rw [he]; exact List.mem_cons_self⟩))) hno
  · rintro ⟨h1, h2, h3, h4⟩ (⟨e, he⟩ | hp | ⟨tr, htr, r, hr⟩ | ⟨a, ids, r, hids, hr⟩)
    · rw [h2] at he; cases he
    · exact h1 hp
    · rw [h3 tr htr] at hr; cases hr
    · rw [h4 a ids hids] at hr; cases hr

/-- **C75** A run with a `Trace` job that sets the return code ends with 0 exactly if all jobs run and the project is
clean. -/
theorem C75_green (env : Env) (opt : Arguments) (w : World)
    (ht : ∀ config, GoodConfig env w opt.configFile config → ∃ n ∈ requested config opt, ∃ j,
      (config.jobs.getD .empty).get n = some j ∧ j.query = .trace ∧ j.setReturnCode ≠ some false) :
    (Main.main env opt w).1 = 0 ↔ ∃ config c js w', GoodConfig env w opt.configFile config ∧
      Controller.new env w config opt.baseDir = .ok c ∧
      JobsOf (config.jobs.getD .empty) (requested config opt) js ∧ Done env c js w w' ∧
      CleanProject env w config opt.baseDir c.graph := by
  rw [(C28_exit_code_partial env opt w).1]
  constructor
  · rintro ⟨c, js, w', ⟨config, h1, h2, h3, h4, h5⟩, hno⟩
    refine ⟨config, c, js, w', h1, h2, h4, h5, (traceProblem_iff h2).1 fun hp => hno ?_⟩
    obtain ⟨n, hn, j, hj, hq, hs⟩ := ht config h1
    exact ⟨j, (h4.mem j).2 ⟨n, hn, hj⟩, hs, by unfold Detects; rw [hq]; exact hp⟩
  · rintro ⟨config, c, js, w', h1, h2, h3, h4, h5⟩
    have hne : requested config opt ≠ [] := by
      obtain ⟨n, hn, _⟩ := ht config h1
      intro h0; rw [h0] at hn; cases hn
    refine ⟨c, js, w', ⟨config, h1, h2, hne, h3, h4⟩, ?_⟩
    rintro ⟨j, _, _, hdet⟩
    have hno := (traceProblem_iff h2).2 h5
    unfold Detects at hdet
    split at hdet
    · exact hno hdet
    · exact (cleanInput_iff h2).2 h5.1 hdet

/-! ## C70: reading fails in the middle of a Markdown file -/

theorem Md.parse_failure {U : Unicode} {t : Str} {path : Path} {e : Str} (ht : t = [] ∨ t.getLast? = some '\n') :
    Md.parse U ⟨t, some e⟩ path = .ok ((Md.run U path 1 (splitLines t) none).reqs,
      (Md.run U path 1 (splitLines t) none).errs ++ [.io path e]) := by
  rw [Md.parse_eq U ⟨t, some e⟩ path (Md.no_trips_of_nl ht)]
  simp [Md.finish]

theorem Md.parse_failure_prefix {U : Unicode} {t more : Str} {path : Path} {rs : List Requirement} {es : List Error}
    (e : Str) (ht : t = [] ∨ t.getLast? = some '\n')
    (h : Md.parse U ⟨t ++ more, none⟩ path = .ok (rs, es)) {ls : List Str} {hs : List (Nat × Str × Str)}
    (hl : Lines t ls) (hh : Headings U 1 ls hs) :
    ∃ rs' es', Md.parse U ⟨t, some e⟩ path = .ok (rs', es' ++ [.io path e]) ∧
      rs' <+: rs ∧ es' <+: es ∧ Matches path rs' hs.dropLast := by
  rw [Md.parse_failure ht]
  obtain ⟨_, h1, h2⟩ := parse_ok h
  simp only [splitLines_append _ _ ht, Md.run_append] at h1 h2
  refine ⟨_, _, rfl, ⟨_, by rw [h1]; rw [List.append_assoc]⟩, ⟨_, by rw [h2]; rw [List.append_assoc]⟩, ?_⟩
  have hk := parse_keys (path := path) hl hh
  show List.map Md.key _ = List.map (Md.headKey path) _
  rw [List.map_dropLast, ← hk]
  cases hc : (Md.run U path 1 (splitLines t) none).cur with
  | none =>
    rw [(Md.run_cur_none U path 1 (splitLines t) none hc).2.1]
    rfl
  | some p => simp [Md.curKey]

/-- **C70** If reading fails after the lines `t`, then the requirements and errors are the first ones of those of the
complete file, followed by the `Io` error.  All requirement headings in `t` but the last one have their requirement. -/
theorem C70_read_failure {U : Unicode} {t more : Str} {path : Path} {rs : List Requirement} {es : List Error}
    {part : Bytes} (e : Str) (ht : t = [] ∨ t.getLast? = some '\n') (hp : (10 : UInt8) ∉ part)
    (h : Md.parse U (File.lines ⟨Utf8.encode (t ++ more), none⟩) path = .ok (rs, es)) {ls : List Str}
    {hs : List (Nat × Str × Str)} (hl : Lines t ls) (hh : Headings U 1 ls hs) :
    ∃ rs' es', Md.parse U (File.lines ⟨Utf8.encode t ++ part, some e⟩) path = .ok (rs', es' ++ [.io path e]) ∧
      rs' <+: rs ∧ es' <+: es ∧ Matches path rs' hs.dropLast := by
  rw [File.lines_encode] at h
  rw [File.lines_failure t part e ht hp]
  exact Md.parse_failure_prefix e ht h hl hh

/-- **C70** The same for a line that is not UTF-8: what follows it is not read, the file is not accepted silently. -/
theorem C70_invalid_utf8 {U : Unicode} {t more : Str} {path : Path} {rs : List Requirement} {es : List Error}
    {line rest : Bytes} (ht : t = [] ∨ t.getLast? = some '\n') (hb : (10 : UInt8) ∉ line.dropLast)
    (hbl : rest ≠ [] → line.getLast? = some 10) (hinv : Utf8.decode line = none)
    (h : Md.parse U (File.lines ⟨Utf8.encode (t ++ more), none⟩) path = .ok (rs, es)) {ls : List Str}
    {hs : List (Nat × Str × Str)} (hl : Lines t ls) (hh : Headings U 1 ls hs) :
    ∃ rs' es', Md.parse U (File.lines ⟨Utf8.encode t ++ line ++ rest, none⟩) path =
        .ok (rs', es' ++ [.io path invalidUtf8]) ∧
      rs' <+: rs ∧ es' <+: es ∧ Matches path rs' hs.dropLast := by
  rw [File.lines_encode] at h
  rw [File.lines_invalid t line rest ht hb hbl hinv]
  exact Md.parse_failure_prefix _ ht h hl hh

/-! ## Examples -/

namespace CtrlExample

/-- The clean project with a job that traces by default. -/
def green : Config := { clean with defaultJobs := some [c!"trace"] }

/-- As `world cleanFiles`, with a byte in `p/req.md` that is not UTF-8. -/
def broken : World :=
  { world cleanFiles with
    files := fun p => if p = c!"p/req.md" then some (Utf8.encode c!"# REQ_A: title a\n\n# REQ_B: b\n" ++ [255, 10])
      else (world cleanFiles).files p }

end CtrlExample

open CtrlExample in
/-- **C68** `REQ` of the clean project has no error; with the broken file it keeps one requirement and has one error. -/
example : ((Controller.new (env covering green) (world cleanFiles) green c!"p").toOption.map
      (fun c => (c.graph.artefacts.get c!"REQ").map (fun a => (a.files, a.requirements.keys, a.errors)))) =
      some (some ([c!"p/req.md"], [c!"REQ_A"], [])) ∧
    ((Controller.new (env covering green) broken green c!"p").toOption.map
      (fun c => (c.graph.artefacts.get c!"REQ").map (fun a => (a.requirements.keys, a.errors)))) =
      some (some ([c!"REQ_A"], [.io c!"p/req.md" invalidUtf8])) := by
  decide +kernel

open CtrlExample in
/-- **C69** Other content of a file that is listed for no artefact changes nothing. -/
example : SameMatches (env covering green) (world cleanFiles) (world ((c!"p/other.md", c!"# REQ_Z: z\n") :: cleanFiles)) ∧
    (green.artefacts.map (·.id)).Nodup ∧
    ∀ p ∈ [c!"p/req.md", c!"p/a.rs"], SameFile (env covering green) (world cleanFiles)
      (world ((c!"p/other.md", c!"# REQ_Z: z\n") :: cleanFiles)) p := by
  refine ⟨fun _ => rfl, by decide +kernel, ?_⟩
  unfold SameFile
  decide +kernel

open CtrlExample in
/-- **C75** The clean project gives 0, and 1 with the broken file, with a file that is missing, and with a requirement
that nothing covers. -/
example : [world cleanFiles, broken, world (cleanFiles.drop 1),
      world ((c!"p/req.md", c!"# REQ_A: title a\n# REQ_B: b\n") :: cleanFiles)].map
      (fun w => (Main.main (env covering green) args w).1) = [0, 1, 1, 1] ∧
    (∀ config, GoodConfig (env covering green) (world cleanFiles) args.configFile config → ∃ n ∈ requested config args, ∃ j,
      (config.jobs.getD .empty).get n = some j ∧ j.query = .trace ∧ j.setReturnCode ≠ some false) := by
  refine ⟨by decide +kernel, ?_⟩
  rintro config ⟨f, t, _, _, h, hc, _⟩
  cases h
  have hg : Spec.ConfigText.IsConfig (ConfigRead.tree green) green := (C78_config _ _).1 rfl
  cases IsConfig_unique hc hg
  exact ⟨c!"trace", by simp [requested, args, green], ⟨.trace, .gnuError, c!"out/trace.txt", none⟩, by decide +kernel, rfl,
    by decide⟩

/-- **C70** The second requirement is lost, the first one is as in the complete file. -/
example : (Md.parse .ascii (File.lines ⟨Utf8.encode c!"# REQ_A: a\n\nText\n\n# REQ_B: b\nText\n" ++ [65, 66], some c!"broken"⟩)
      c!"f").toOption.map (fun v => (v.1.map (·.id), v.2)) = some ([c!"REQ_A"], [.io c!"f" c!"broken"]) ∧
    (Md.parse .ascii (File.lines ⟨Utf8.encode (c!"# REQ_A: a\n\nText\n\n# REQ_B: b\nText\n" ++ c!"ABC\n"), none⟩)
      c!"f").toOption.map (fun v => (v.1.map (·.id), v.2)) = some ([c!"REQ_A", c!"REQ_B"], []) := by
  decide +kernel

end Reqtrace
